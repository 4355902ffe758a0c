import Verif.Proofs.GrapeRun
import Verif.Proofs.GrapeAdaptive
import Verif.Proofs.GrapeGrad
import Verif.Proofs.GrapeWitness
import Verif.Proofs.GrapeQubit

/-
The stand-alone GRAPE functions: C39 (limits), C40 (the two implementations), C41 (the
propagator returned), C42 (the adaptive function), C52 (gradients).
-/

set_option linter.unusedSectionVars false

open Matrix

namespace QTrl.Grape

variable {d : Type} [Fintype d] [DecidableEq d]

/-! ### C39 -/

/-- Every amplitude of every iteration after the first is within the limits, in
`grape_unitary` and `cy_grape_unitary`, whatever the start, the penalties, the gradients, the
matrix exponential and the interpolation. -/
theorem C39_limits (a : Args d) (i : Impl) (res : Result d) (lo hi : ℝ) (hle : lo ≤ hi)
    (hl : a.uLimits = some [lo, hi]) (h : a.run i = .ok res) :
    (∀ r, 1 ≤ r → r < a.nIter → Spec.Grape.Within lo hi a.J a.M (res.u r)) ∧
    Spec.Grape.Within lo hi a.J a.M res.ht := by
  obtain ⟨eps, lim, u0, -, h2, -, hn, hM, hu, -, ht⟩ := run_ok a i res h
  rw [limits_some a lo hi hl] at h2
  cases h2
  constructor
  · intro r h1 hr
    obtain ⟨r, rfl⟩ : ∃ q, r = q + 1 := ⟨r - 1, by omega⟩
    rw [hu]
    exact final_within a i eps lo hi hle hM u0 r hr
  · rw [ht, show a.nIter - 1 = a.nIter - 2 + 1 by omega]
    exact final_within a i eps lo hi hle hM u0 (a.nIter - 2) (by omega)

/-- A start pulse given as a list of floating point numbers is within the limits in the first
iteration, too. -/
theorem C39_start_partial (a : Args d) (i : Impl) (res : Result d) (lo hi : ℝ) (hle : lo ≤ hi)
    (hl : a.uLimits = some [lo, hi]) (rows : List Row) (hs : a.uStart = some (.list rows))
    (hint : a.startInt = false) (h : a.run i = .ok res) :
    Spec.Grape.Within lo hi rows.length a.M (res.u 0) := by
  obtain ⟨eps, lim, u0, -, h2, h3, hn, hM, hu, -, -⟩ := run_ok a i res h
  rw [limits_some a lo hi hl] at h2
  cases h2
  rw [hu]
  obtain ⟨s1, -, -⟩ := loop_spec a i eps (some (lo, hi)) hM u0 (a.nIter - 1)
  unfold Args.final
  rw [s1]
  exact init_within a lo hi hle rows u0 hs hint h3

/-- The adaptive function: if every control has a start pulse, given as a list of floating
point numbers, everything returned is within the limits. -/
theorem C39_adaptive_partial (a : Args d) (goal : ℝ) (res : AResult d) (lo hi : ℝ) (hle : lo ≤ hi)
    (hl : a.uLimits = some [lo, hi]) (rows : List Row) (hs : a.uStart = some (.list rows))
    (hJ : a.J ≤ rows.length) (hint : a.startInt = false) (h : a.runAdaptive goal = .ok res) :
    (∀ r, r < res.rows → Spec.Grape.Within lo hi a.J a.M (res.u r)) ∧
    Spec.Grape.Within lo hi a.J a.M res.ht := by
  obtain ⟨eps, lim, u0, -, h2, h3, hM, s, hs', rfl⟩ := runAdaptive_ok a goal res h
  rw [limits_some a lo hi hl] at h2
  cases h2
  have h0 : Spec.Grape.Within lo hi a.J a.M (u0 0) := fun j hj m hm =>
    init_within a lo hi hle rows u0 hs hint h3 j (by omega) m hm
  have key : ∃ r', s.last = r' - 1 ∧ s.bestK < 3 ∧ ∀ q, q ≤ r' → ∀ k, k < 3 →
      Spec.Grape.Within lo hi a.J a.M (pulse s.u q k) := by
    by_cases hn : 2 ≤ a.nIter
    · obtain ⟨r', -, -, ⟨p1, p2⟩, -, -⟩ := aLoop_induct a (some (lo, hi)) goal
        (fun r s => AInv a eps r s ∧ ∀ q, q ≤ r → ∀ k, k < 3 →
          Spec.Grape.Within lo hi a.J a.M (pulse s.u q k))
        (fun r s hp => ⟨aStep_inv a _ eps r s hp.1, aStep_within a lo hi hle (hM hn) r s hp.2⟩)
        (a.nIter - 1) 0 (aInit u0 eps) ⟨aInit_inv a u0 eps, by
          intro q hq k hk j hj m hm
          obtain rfl : q = 0 := by omega
          simp only [pulse, aInit, if_pos hk]
          exact h0 j hj m hm⟩
      rw [← hs'] at p1 p2
      exact ⟨r', p1.last, p1.best, p2⟩
    · have e : s = aInit u0 eps := by
        rw [hs', show a.nIter - 1 = 0 by omega]; rfl
      rw [e]
      refine ⟨0, rfl, by simp [aInit], ?_⟩
      intro q hq k hk j hj m hm
      obtain rfl : q = 0 := by omega
      simp only [pulse, aInit, if_pos hk]
      exact h0 j hj m hm
  obtain ⟨r', k1, k2, k3⟩ := key
  constructor
  · intro r hr
    simp only at hr
    exact k3 r (by omega) _ k2
  · exact k3 s.last (by omega) _ k2

/-- A system with one control. -/
noncomputable def limArgs (start : Option UStart) (int : Bool) (lims : List ℝ) : Args Unit :=
  { wit 3 1 with uStart := start, startInt := int, uLimits := some lims }

theorem limArgs_run (start : Option UStart) (int : Bool) (lo hi : ℝ) (u0 : Arr) (i : Impl)
    (h : (limArgs start int [lo, hi]).init (some (lo, hi)) = .ok u0) :
    ∃ res, (limArgs start int [lo, hi]).run i = .ok res ∧ res.u 0 = u0 0 := by
  refine ⟨_, run_eq (limArgs start int [lo, hi]) i 1 (some (lo, hi)) u0 rfl rfl h
    (by simp [limArgs, wit]) (le_refl 2), ?_⟩
  obtain ⟨s1, -, -⟩ := loop_spec (limArgs start int [lo, hi]) i 1 (some (lo, hi)) (le_refl 2) u0
    ((limArgs start int [lo, hi]).nIter - 1)
  exact s1

theorem aLoop_limits (a : Args d) (l l' : Option (List ℝ)) (lim : Option (ℝ × ℝ)) (goal : ℝ)
    (n r : ℕ) (s : AState d) :
    { a with uLimits := l }.aLoop lim goal n r s = { a with uLimits := l' }.aLoop lim goal n r s := by
  induction n generalizing r s with
  | zero => rfl
  | succ n ih =>
    have h : { a with uLimits := l }.aStep lim r s = { a with uLimits := l' }.aStep lim r s := rfl
    simp only [Args.aLoop, h, ih]

/-- **C39.** Empty limits are the same as none, in all three functions, and limits that are not two
numbers are refused. -/
theorem C39_limits_checked (a : Args d) :
    (∀ i, { a with uLimits := some [] }.run i = { a with uLimits := none }.run i) ∧
      (∀ goal, { a with uLimits := some [] }.runAdaptive goal =
        { a with uLimits := none }.runAdaptive goal) ∧
      ∀ l : List ℝ, l.length ≠ 0 → l.length ≠ 2 → a.uLimits = some l →
        (∀ i res, a.run i ≠ .ok res) ∧ ∀ goal res, a.runAdaptive goal ≠ .ok res := by
  refine ⟨fun _ => rfl, fun goal => ?_, fun l h0 h2 hl => ?_⟩
  · have h1 : { a with uLimits := some [] }.limits = .ok none := rfl
    have h2 : { a with uLimits := none }.limits = .ok none := rfl
    have h3 : { a with uLimits := some [] }.init none = { a with uLimits := none }.init none := rfl
    have h4 : { a with uLimits := some [] }.epsVal = { a with uLimits := none }.epsVal := rfl
    unfold Args.runAdaptive
    rw [h1, h2, h4]
    simp only [h3, aLoop_limits a (some []) none]
    rfl
  have he : a.limits = .error .valueError := by
    unfold Args.limits
    rw [hl]
    rcases l with _ | ⟨x, _ | ⟨y, _ | ⟨z, l⟩⟩⟩
    · simp at h0
    · rfl
    · simp at h2
    · rfl
  constructor
  · intro i res h
    unfold Args.run at h
    rw [he] at h
    split at h <;> cases h
  · intro goal res h
    unfold Args.runAdaptive at h
    rw [he] at h
    split at h <;> cases h

/-- Without a start pulse the first iteration is zero, which may be outside the limits. -/
theorem C39_violated_zero (i : Impl) :
    ∃ res, (limArgs none false [1, 2]).run i = .ok res ∧
      ¬ Spec.Grape.Within 1 2 1 2 (res.u 0) := by
  obtain ⟨res, h1, h2⟩ := limArgs_run none false 1 2 (fun _ _ _ => 0) i rfl
  refine ⟨res, h1, fun h => ?_⟩
  have := (h 0 Nat.one_pos 0 Nat.two_pos).1
  rw [h2] at this
  norm_num at this

/-- With a start pulse of integers the limit itself is cut to an integer. -/
theorem C39_violated_integers (i : Impl) :
    ∃ res, (limArgs (some (.list [.vec [0, 0]])) true [1 / 2, 1]).run i = .ok res ∧
      ¬ Spec.Grape.Within (1 / 2) 1 1 2 (res.u 0) := by
  have e : clipSeq true (1 / 2) 1 0 = 0 := by
    unfold clipSeq stored
    norm_num
  obtain ⟨res, h1, h2⟩ := limArgs_run (some (.list [.vec [0, 0]])) true (1 / 2) 1
    (fun r j m => if r = 0 ∧ j = 0 then
      [clipSeq true (1 / 2) 1 0, clipSeq true (1 / 2) 1 0].getD m 0 else 0) i rfl
  refine ⟨res, h1, fun h => ?_⟩
  have := (h 0 Nat.one_pos 0 Nat.two_pos).1
  rw [h2] at this
  simp only [and_self, if_true, List.getD_cons_zero] at this
  rw [e] at this
  norm_num at this

/-- A start pulse given as a numpy array cannot be used together with limits. -/
theorem C39_violated_array (i : Impl) (rows : List Row) (hr : 2 ≤ rows.length) (lo hi : ℝ) :
    (limArgs (some (.array rows)) false [lo, hi]).run i = .error .valueError := by
  have ht : (UStart.array rows).truth = .error .valueError := by
    match rows, hr with
    | [_], h => simp at h
    | _ :: _ :: _, _ => simp [UStart.truth]
  have hst : (limArgs (some (.array rows)) false [lo, hi]).start (some (lo, hi)) =
      .error .valueError := by
    unfold Args.start
    simp only [limArgs]
    rw [ht]
  have hin : (limArgs (some (.array rows)) false [lo, hi]).init (some (lo, hi)) =
      .error .valueError := by
    unfold Args.init
    rw [hst]
  unfold Args.run
  have h1 : (limArgs (some (.array rows)) false [lo, hi]).epsVal = .ok 1 := rfl
  have h2 : (limArgs (some (.array rows)) false [lo, hi]).limits = .ok (some (lo, hi)) := rfl
  rw [h1, h2]
  simp only
  rw [hin]

/-- Non-vacuity of `C39_limits`, `C39_start_partial` and `C39_adaptive_partial`. -/
example (i : Impl) : ∃ res,
    (limArgs (some (.list [.vec [0, 5]])) false [1, 2]).run i = .ok res ∧
    Spec.Grape.Within 1 2 1 2 (res.u 0) ∧ Spec.Grape.Within 1 2 1 2 (res.u 2) := by
  obtain ⟨res, h1, -⟩ := limArgs_run (some (.list [.vec [0, 5]])) false 1 2 _ i rfl
  exact ⟨res, h1, C39_start_partial _ i res 1 2 (by norm_num) rfl [.vec [0, 5]] rfl rfl h1,
    (C39_limits _ i res 1 2 (by norm_num) rfl h1).1 2 (by norm_num) (by simp [limArgs, wit])⟩

/-! ### C40 -/

/-- `grape_unitary` and `cy_grape_unitary` return the same amplitudes, propagator and final
pulse, or raise the same exception, if there is no penalty for late amplitudes and the one for
large amplitudes is not negative. -/
theorem C40_agree_partial (a : Args d) (hb : a.beta = none ∨ a.beta = some 0)
    (ha : ∀ x, a.alpha = some x → 0 ≤ x) : a.run .py = a.run .cy := by
  have hb' : ¬ truthy a.beta := by
    rintro ⟨v, hv, h0⟩
    rcases hb with h | h <;> rw [h] at hv <;> cases hv
    exact h0 rfl
  have key : ∀ i j : Impl, (∀ eps lim u0, 2 ≤ a.M → a.final i eps lim u0 = a.final j eps lim u0) →
      ∀ res, a.run i = .ok res → a.run j = .ok res := by
    intro i j hij res h
    obtain ⟨eps, lim, u0, h1, h2, h3, hn, hM, hu, hf, ht⟩ := run_ok a i res h
    rw [run_eq a j eps lim u0 h1 h2 h3 hn hM, ← hij eps lim u0 hM, ← ht, ← hf, ← hu]
  have herr : ∀ (i j : Impl) (e : PyErr), a.run i = .error e → (∀ res, a.run j ≠ .ok res) →
      a.run j = .error e := by
    intro i j e h hj
    unfold Args.run at h hj ⊢
    generalize h1 : a.epsVal = x1 at h hj ⊢
    rcases x1 with e' | eps
    · exact h
    simp only at h hj ⊢
    generalize h2 : a.limits = x2 at h hj ⊢
    rcases x2 with e' | lim
    · exact h
    simp only at h hj ⊢
    generalize h3 : a.init lim = x3 at h hj ⊢
    rcases x3 with e' | u0
    · exact h
    simp only at h hj ⊢
    by_cases c1 : 2 ≤ a.nIter ∧ a.M < 2
    · rw [if_pos c1] at h ⊢; exact h
    rw [if_neg c1] at h ⊢
    by_cases c2 : a.nIter = 0 ∧ 0 < a.J
    · rw [if_pos c2] at h ⊢; exact h
    rw [if_neg c2] at h ⊢
    by_cases hn : 2 ≤ a.nIter
    · exfalso
      have := run_eq a i eps lim u0 h1 h2 h3 hn (by by_contra hM; exact c1 ⟨hn, by omega⟩)
      unfold Args.run at this
      rw [h1, h2] at this
      simp only at this
      rw [h3] at this
      simp only at this
      rw [if_neg c1, if_neg c2, h] at this
      cases this
    · have hz : a.nIter - 1 = 0 := by omega
      rw [hz] at h ⊢
      exact h
  have hfin := fun eps lim u0 hM => final_eq a eps lim u0 hM hb' ha
  cases hr : a.run .py with
  | ok res => exact (key .py .cy hfin res hr).symm
  | error e =>
    refine (herr .py .cy e hr fun res h => ?_).symm
    rw [key .cy .py (fun eps lim u0 hM => (hfin eps lim u0 hM).symm) res h] at hr
    cases hr

/-- The penalty for late amplitudes grows with the slot number in one function and with its
square in the other: without limits the second rows differ by this. -/
theorem C40_violated_late (a : Args d) (b : ℝ) (hb : a.beta = some b) (hb0 : b ≠ 0)
    (ha : ∀ x, a.alpha = some x → 0 ≤ x) (hl : a.uLimits = none) (eps : ℝ) (he : a.eps = some eps)
    (r1 r2 : Result d) (h1 : a.run .py = .ok r1) (h2 : a.run .cy = .ok r2) (j m : Nat)
    (hj : j < a.J) (hm : m + 1 < a.M) :
    r1.u 1 j m - r2.u 1 j m = eps * (2 * b * ((m : ℝ) ^ 2 - m) * r1.u 0 j m * a.dt) := by
  obtain ⟨eps1, lim, u0, e1, e2, e3, hn, hM, hu, -, -⟩ := run_ok a .py r1 h1
  obtain ⟨eps2, lim', u0', f1, f2, f3, -, -, hu', -, -⟩ := run_ok a .cy r2 h2
  have hE : a.epsVal = .ok eps := by unfold Args.epsVal; rw [he]
  have hL : a.limits = .ok none := by unfold Args.limits; rw [hl]
  rw [hE] at e1 f1
  rw [hL] at e2 f2
  cases e1; cases f1; cases e2; cases f2
  rw [e3] at f3
  cases f3
  obtain ⟨s1, s2, -⟩ := loop_spec a .py eps none hM u0 (a.nIter - 1)
  obtain ⟨t1, t2, -⟩ := loop_spec a .cy eps none hM u0 (a.nIter - 1)
  have s2 := s2 0 (by omega) j m hj (by omega)
  have t2 := t2 0 (by omega) j m hj (by omega)
  rw [s1, show min m (a.M - 2) = m by omega] at s2
  rw [t1, show min m (a.M - 2) = m by omega] at t2
  have hu0 : r1.u 0 = u0 0 := by rw [hu]; exact s1
  have hA : r1.u 1 j m = a.newVal .py eps none (a.propagators (a.uList (u0 0))) j m (u0 0 j m) := by
    rw [hu]; exact s2
  have hB : r2.u 1 j m = a.newVal .cy eps none (a.propagators (a.uList (u0 0))) j m (u0 0 j m) := by
    rw [hu']; exact t2
  rw [hA, hB, hu0]
  unfold Args.newVal
  simp only [clipElif]
  rw [incr_re]
  have hal : a.alpha.getD 0 ≥ 0 := by
    cases e : a.alpha with
    | none => simp
    | some x => exact ha x e
  have : (a.incr .cy (a.propagators (a.uList (u0 0))) j m (u0 0 j m)).re =
      (a.du0 (a.propagators (a.uList (u0 0))) j m).re
        - 2 * (a.alpha.getD 0 + b * (m : ℝ) ^ 2) * u0 0 j m * a.dt := by
    unfold Args.incr orZero
    simp only
    rw [if_pos (show a.beta.getD 0 ≠ 0 by rw [hb]; exact hb0), hb]
    simp only [Option.getD_some]
    by_cases c : a.alpha.getD 0 > 0
    · rw [if_pos c]
      simp only [Complex.add_re, Complex.ofReal_re]
      ring
    · rw [if_neg c]
      have : a.alpha.getD 0 = 0 := le_antisymm (not_lt.1 c) hal
      rw [this]
      simp only [Complex.add_re, Complex.ofReal_re]
      ring
  rw [this, hb]
  simp only [Option.getD_some]
  ring

/-- Four times, a start pulse of ones, and a penalty. -/
noncomputable def penArgs (alpha beta : Option ℝ) : Args Unit :=
  { wit 2 1 with
    times := [0, 1, 2, 3], uStart := some (.list [.scalar 1]), alpha := alpha, beta := beta }

theorem penArgs_run (alpha beta : Option ℝ) (i : Impl) :
    ∃ res, (penArgs alpha beta).run i = .ok res ∧ res.u 0 0 2 = 1 := by
  refine ⟨_, run_eq (penArgs alpha beta) i 1 none
    (fun r j m => if r = 0 ∧ j = 0 then 1 else 0) rfl rfl rfl (le_refl 2)
    (by simp [Args.M, penArgs]), ?_⟩
  obtain ⟨s1, -, -⟩ := loop_spec (penArgs alpha beta) i 1 none (by simp [Args.M, penArgs])
    (fun r j m => if r = 0 ∧ j = 0 then 1 else 0) ((penArgs alpha beta).nIter - 1)
  have := congrFun (congrFun s1 0) 2
  simpa [Args.final] using this

/-- So the two functions disagree: a concrete case of the theorem above. -/
theorem C40_violated : (penArgs none (some 1)).run .py ≠ (penArgs none (some 1)).run .cy := by
  intro h
  obtain ⟨r1, h1, e1⟩ := penArgs_run none (some 1) .py
  have h2 := h
  rw [h1] at h2
  have := C40_violated_late (penArgs none (some 1)) 1 rfl one_ne_zero
    (fun x hx => by cases hx) rfl 1 rfl r1 r1 h1 h2.symm 0 2 Nat.one_pos
    (by simp [Args.M, penArgs])
  rw [e1] at this
  have hdt : (penArgs none (some 1)).dt = 1 - 0 := rfl
  rw [hdt] at this
  norm_num at this

/-- A negative penalty parameter is ignored by `cy_grape_unitary` only. -/
theorem C40_violated_negative :
    (penArgs (some (-1)) none).run .py ≠ (penArgs (some (-1)) none).run .cy := by
  intro h
  have hM : 2 ≤ (penArgs (some (-1)) none).M := by simp [Args.M, penArgs]
  have g1 := run_eq (penArgs (some (-1)) none) .py 1 none
    (fun r j m => if r = 0 ∧ j = 0 then 1 else 0) rfl rfl rfl (le_refl 2) hM
  have g2 := run_eq (penArgs (some (-1)) none) .cy 1 none
    (fun r j m => if r = 0 ∧ j = 0 then 1 else 0) rfl rfl rfl (le_refl 2) hM
  rw [g1, g2] at h
  have h := congrArg (fun r : Except PyErr (Result Unit) => match r with
    | .ok r => r.u 1 0 0
    | .error _ => 0) h
  simp only at h
  obtain ⟨s1, s2, -⟩ := loop_spec (penArgs (some (-1)) none) .py 1 none hM
    (fun r j m => if r = 0 ∧ j = 0 then 1 else 0) ((penArgs (some (-1)) none).nIter - 1)
  obtain ⟨t1, t2, -⟩ := loop_spec (penArgs (some (-1)) none) .cy 1 none hM
    (fun r j m => if r = 0 ∧ j = 0 then 1 else 0) ((penArgs (some (-1)) none).nIter - 1)
  have s2 := s2 0 Nat.one_pos 0 0 Nat.one_pos (by omega)
  have t2 := t2 0 Nat.one_pos 0 0 Nat.one_pos (by omega)
  rw [s1] at s2
  rw [t1] at t2
  unfold Args.final at h
  rw [show (1 : Nat) = 0 + 1 from rfl, s2, t2] at h
  simp only [Nat.zero_min] at h
  unfold Args.newVal at h
  simp only [clipElif] at h
  rw [incr_re] at h
  have : ∀ p, ((penArgs (some (-1)) none).incr .cy p 0 0
      (if True ∧ True then (1 : ℝ) else 0)) = (penArgs (some (-1)) none).du0 p 0 0 := by
    intro p
    unfold Args.incr orZero
    simp only
    rw [if_neg (by simp [penArgs]), if_neg (by simp [penArgs, wit])]
  rw [this] at h
  have hdt : (penArgs (some (-1)) none).dt = 1 - 0 := rfl
  have hal : (penArgs (some (-1)) none).alpha.getD 0 = -1 := rfl
  have hbe : (penArgs (some (-1)) none).beta.getD 0 = 0 := rfl
  rw [hdt, hal, hbe] at h
  norm_num at h

/-- Non-vacuity of `C40_agree_partial`: a run with a penalty for large amplitudes. -/
example : ∃ res, (penArgs (some 1) none).run .py = .ok res ∧
    (penArgs (some 1) none).run .cy = .ok res := by
  obtain ⟨res, h, -⟩ := penArgs_run (some 1) none .py
  exact ⟨res, h, by
    rw [← C40_agree_partial _ (Or.inl rfl) (fun x hx => by cases hx; norm_num)]; exact h⟩

/-! ### C41 -/

/-- The propagator returned by `grape_unitary` and `cy_grape_unitary` is that of the last but
one row of amplitudes. -/
theorem C41_previous (a : Args d) (i : Impl) (res : Result d) (hx : a.Exact)
    (h : a.run i = .ok res) :
    res.uf = Spec.Grape.propagator a.expm a.h0 a.hOps a.dt (res.u (a.nIter - 2)) (a.M - 1) ∧
    res.ht = res.u (a.nIter - 1) := by
  obtain ⟨eps, lim, u0, -, -, -, hn, hM, hu, hf, ht⟩ := run_ok a i res h
  rw [hf, ht, hu]
  exact ⟨evo_eq a hx _ _ (by omega), rfl⟩

/-- So it is that of the amplitudes returned if the last iteration did not change them. -/
theorem C41_partial (a : Args d) (i : Impl) (res : Result d) (hx : a.Exact)
    (h : a.run i = .ok res)
    (hc : ∀ j, j < a.J → ∀ m, m + 1 < a.M → res.u (a.nIter - 2) j m = res.ht j m) :
    res.uf = Spec.Grape.propagator a.expm a.h0 a.hOps a.dt res.ht (a.M - 1) := by
  rw [(C41_previous a i res hx h).1]
  have : ∀ n, n ≤ a.M - 1 →
      Spec.Grape.propagator a.expm a.h0 a.hOps a.dt (res.u (a.nIter - 2)) n =
        Spec.Grape.propagator a.expm a.h0 a.hOps a.dt res.ht n := by
    intro n
    induction n with
    | zero => intro _; rfl
    | succ n ih =>
      intro hn
      rw [Spec.Grape.propagator, Spec.Grape.propagator, ih (by omega)]
      congr 3
      unfold Spec.Grape.hamiltonian
      congr 1
      refine Finset.sum_congr rfl fun j hj => ?_
      simp only [hc j (Finset.mem_range.1 hj) n (by omega)]
  exact this _ (le_refl _)

/-- In general it is not: one iteration with step size `π` makes the amplitude `-π`, whose
propagator is `-1`, while the propagator returned is that of the zero pulse. -/
theorem C41_violated (i : Impl) :
    ∃ res, (wit 2 Real.pi).run i = .ok res ∧
      res.uf ≠ Spec.Grape.propagator (wit 2 Real.pi).expm (wit 2 Real.pi).h0 (wit 2 Real.pi).hOps
        (wit 2 Real.pi).dt res.ht ((wit 2 Real.pi).M - 1) := by
  obtain ⟨res, h, h1, h2, h3, h4⟩ := wit_run 2 Real.pi (le_refl 2) i
  refine ⟨res, h, fun e => ?_⟩
  rw [wit_propagator, h1, h2] at e
  have e := scal_inj e
  have h4 := h4 0 (by omega)
  rw [h3, Real.cos_zero, mul_one, zero_sub] at h4
  have e' : Complex.exp (-Complex.I * (res.u 0 0 0 : ℂ)) =
      Complex.exp (-Complex.I * (res.u (0 + 1) 0 0 : ℂ)) := e
  rw [h3, h4, exp_negI, exp_negI, Real.cos_neg, Real.sin_neg, Real.cos_zero, Real.sin_zero,
    Real.cos_pi, Real.sin_pi] at e'
  norm_num at e'

/-- Non-vacuity of `C41_previous` and `C41_partial`: step size zero. -/
example : ∃ res, (wit 3 0).run .py = .ok res ∧
    res.uf = Spec.Grape.propagator (wit 3 0).expm (wit 3 0).h0 (wit 3 0).hOps (wit 3 0).dt
      res.ht ((wit 3 0).M - 1) := by
  obtain ⟨res, h, -, h2, h3, h4⟩ := wit_run 3 0 (by norm_num) .py
  refine ⟨res, h, C41_partial _ .py res (wit_exact 3 0) h fun j hj m hm => ?_⟩
  obtain rfl : j = 0 := by simp [Args.J, wit] at hj; exact hj
  obtain rfl : m = 0 := by simp [Args.M, wit] at hm; exact hm
  rw [h2]
  have := h4 1 (by norm_num)
  simp only [zero_mul, sub_zero] at this
  exact this.symm

/-! ### C42 -/

/-- What one iteration of the adaptive function does, in any state: the overlap it logs is the
largest of those of the three trial pulses, the overlap kept is the larger of the one kept
before and the logged one, and the three step sizes change by a common factor. -/
theorem C42_iteration (a : Args d) (lim : Option (ℝ × ℝ)) (r : Nat) (s : AState d) :
    ∃ trial : Nat → Nat → Nat → ℝ,
      (∀ k, k < 3 → Spec.Grape.closeness a.phaseSensitive a.target
        (Spec.Grape.propagator a.expm a.h0 a.hOps a.dt (trial k) (a.M - 1))
          ≤ (a.aStep lim r s).overlapLog r) ∧
      (a.aStep lim r s).bestK < 3 ∧
      Spec.Grape.closeness a.phaseSensitive a.target
        (Spec.Grape.propagator a.expm a.h0 a.hOps a.dt (trial (a.aStep lim r s).bestK) (a.M - 1))
          = (a.aStep lim r s).overlapLog r ∧
      (a.aStep lim r s).prev = max s.prev ((a.aStep lim r s).overlapLog r) ∧
      (s.prev ≤ (a.aStep lim r s).overlapLog r →
        ∀ k, pulse (a.aStep lim r s).u (r + 1) k = trial k) ∧
      ((a.aStep lim r s).overlapLog r < s.prev →
        (a.aStep lim r s).u (r + 1) = (a.aStep lim r s).u r) ∧
      (∃ c : ℝ, (c = 1 / 2 ∨ c = 1 ∨ c = 2) ∧ ∀ k, (a.aStep lim r s).eps k = c * s.eps k) := by
  obtain ⟨-, c2, c3, -, -, c6, c7⟩ := aStep_common a lim r s
  have hlog : (a.aStep lim r s).overlapLog r =
      a.trials lim r s (argmax3 (a.trials lim r s)) := by rw [c2, Function.update_self]
  have hT : ∀ k, Spec.Grape.closeness a.phaseSensitive a.target
      (Spec.Grape.propagator a.expm a.h0 a.hOps a.dt (pulse (a.tried lim r s) (r + 1) k) (a.M - 1))
        = a.trials lim r s k := by
    intro k
    rw [← trial_eq, ← fidelity_eq]
    rfl
  refine ⟨fun k => pulse (a.tried lim r s) (r + 1) k, ?_, ?_, ?_, ?_, ?_, ?_, ?_⟩
  · intro k hk
    rw [hT, hlog]
    exact argmax3_max _ k hk
  · rw [c3]; exact argmax3_lt _
  · rw [hT, hlog, c3]
  · rw [c6, hlog]
  · intro h k
    rw [hlog] at h
    rw [aStep_keep a lim r s (not_lt.2 h)]
  · intro h
    rw [hlog] at h
    rw [aStep_regress a lim r s h]
    funext j m k
    simp
  · rcases c7 with e | e | e
    · exact ⟨1 / 2, Or.inl rfl, fun k => by rw [e]; ring⟩
    · exact ⟨1, Or.inr (Or.inl rfl), fun k => by rw [e]; ring⟩
    · exact ⟨2, Or.inr (Or.inr rfl), fun k => by rw [e]; ring⟩

/-- A whole run: it makes `n` iterations, fewer than allowed only if the overlap wanted was
reached; every step size logged is the initial one times a power of two; the overlap of the
propagator returned is the last one logged; nothing is logged after the last iteration. -/
theorem C42_run (a : Args d) (goal : ℝ) (res : AResult d) (hn : 2 ≤ a.nIter)
    (h : a.runAdaptive goal = .ok res) :
    ∃ n eps, 1 ≤ n ∧ n ≤ a.nIter - 1 ∧ eps = Spec.Grape.stepSize a.eps a.times ∧
      res.rows = n - 1 ∧
      (n < a.nIter - 1 → goal < 1 ∧ goal < res.overlapLog (n - 1)) ∧
      (∀ q, q < n → ∃ z : ℤ, res.epsLog q = eps * 2 ^ z) ∧
      (∀ q, n ≤ q → res.epsLog q = 0 ∧ res.overlapLog q = 0) ∧
      ∃ U, res.uf = some U ∧
        Spec.Grape.closeness a.phaseSensitive a.target U = res.overlapLog (n - 1) := by
  obtain ⟨eps, lim, u0, h1, -, -, -, s, hs, rfl⟩ := runAdaptive_ok a goal res h
  obtain ⟨n, -, e2, hI, e3, e4⟩ := aLoop_induct a lim goal (fun r s => AInv a eps r s)
    (fun r s hp => aStep_inv a lim eps r s hp) (a.nIter - 1) 0 (aInit u0 eps)
    (aInit_inv a u0 eps)
  rw [← hs] at hI e4
  have hn0 : 0 < n := e3 (by omega)
  refine ⟨n, eps, hn0, by omega, epsVal_ok h1, hI.last, fun h => e4 (by omega), hI.epsLog, hI.rest,
    hI.uf hn0⟩

theorem sin_5 : Real.sin (5 * Real.pi / 3) = -(Real.sqrt 3 / 2) := by
  rw [show 5 * Real.pi / 3 = 2 * Real.pi - Real.pi / 3 by ring, Real.sin_two_pi_sub,
    Real.sin_pi_div_three]

theorem sin_10 : Real.sin (10 * Real.pi / 3) = -(Real.sqrt 3 / 2) := by
  rw [show 10 * Real.pi / 3 = (Real.pi / 3 + Real.pi) + 2 * Real.pi by ring, Real.sin_add_two_pi,
    Real.sin_add_pi, Real.sin_pi_div_three]

theorem sin_20 : Real.sin (20 * Real.pi / 3) = Real.sqrt 3 / 2 := by
  rw [show 20 * Real.pi / 3 = (Real.pi - Real.pi / 3) + (3 : ℕ) * (2 * Real.pi) by push_cast; ring,
    Real.sin_add_nat_mul_two_pi, Real.sin_pi_sub, Real.sin_pi_div_three]

theorem cos_20 : Real.cos (20 * Real.pi / 3) = -(1 / 2) := by
  rw [show 20 * Real.pi / 3 = (Real.pi - Real.pi / 3) + (3 : ℕ) * (2 * Real.pi) by push_cast; ring,
    Real.cos_add_nat_mul_two_pi, Real.cos_pi_sub, Real.cos_pi_div_three]

/-- The adaptive function can lose what it found: in this run the first iteration finds a pulse
with overlap `√3/2`; the second one fails and is undone, but the pulse then returned is another
trial of the first iteration, with overlap `-√3/2`, worse than the start (overlap 0).  The
propagator returned is that of the rejected trial, not that of the pulse returned. -/
theorem C42_violated :
    ∃ res, (wit 3 (10 * Real.pi / 3)).runAdaptive 1 = .ok res ∧
      res.overlapLog 0 = Real.sqrt 3 / 2 ∧
      Spec.Grape.closeness true (scal Complex.I)
        (Spec.Grape.propagator (wit 3 (10 * Real.pi / 3)).expm (wit 3 (10 * Real.pi / 3)).h0
          (wit 3 (10 * Real.pi / 3)).hOps (wit 3 (10 * Real.pi / 3)).dt res.ht
          ((wit 3 (10 * Real.pi / 3)).M - 1)) = -(Real.sqrt 3 / 2) ∧
      Spec.Grape.closeness true (scal Complex.I)
        (Spec.Grape.propagator (wit 3 (10 * Real.pi / 3)).expm (wit 3 (10 * Real.pi / 3)).h0
          (wit 3 (10 * Real.pi / 3)).hOps (wit 3 (10 * Real.pi / 3)).dt (fun _ _ => 0)
          ((wit 3 (10 * Real.pi / 3)).M - 1)) = 0 ∧
      ∃ U, res.uf = some U ∧ Spec.Grape.closeness true (scal Complex.I) U = 0 := by
  have h3 : 0 < Real.sqrt 3 := Real.sqrt_pos.2 (by norm_num)
  obtain ⟨e, he⟩ : ∃ e, e = 10 * Real.pi / 3 := ⟨_, rfl⟩
  rw [← he]
  obtain ⟨s0, hs0⟩ : ∃ s : AState Unit, s = aInit (fun _ _ _ => 0) e := ⟨_, rfl⟩
  have hu0 : ∀ k, s0.u 0 0 0 k = 0 := by intro k; rw [hs0]; simp [aInit]
  have hb0 : s0.bestK = 1 := by rw [hs0]; rfl
  have he0 : s0.eps 0 = 5 * Real.pi / 3 := by rw [hs0, he]; simp [aInit]; ring
  have he1 : s0.eps 1 = 10 * Real.pi / 3 := by rw [hs0, he]; simp [aInit]
  have he2 : s0.eps 2 = 20 * Real.pi / 3 := by rw [hs0, he]; simp [aInit]; ring
  -- first iteration
  have t0 : ∀ k, k < 3 → (wit 3 e).trials none 0 s0 k = Real.sin (s0.eps k) := by
    intro k hk
    rw [wit_trials 3 e 0 s0 k hk, hu0, hu0, Real.cos_zero, mul_one, zero_sub, Real.sin_neg, neg_neg]
  have a0 : argmax3 ((wit 3 e).trials none 0 s0) = 2 := by
    unfold argmax3
    rw [t0 0 (by omega), t0 1 (by omega), t0 2 (by omega), he0, he1, he2, sin_5, sin_10, sin_20,
      if_neg (by rintro ⟨-, h⟩; linarith), if_neg (by intro h; linarith)]
  have v0 : (wit 3 e).trials none 0 s0 2 = Real.sqrt 3 / 2 := by
    rw [t0 2 (by omega), he2, sin_20]
  have k0 := aStep_keep (wit 3 e) none 0 s0 (by
    rw [a0, v0, show s0.prev = 0 by rw [hs0]; rfl]; intro h; linarith)
  rw [a0, v0] at k0
  simp only [show ¬ ((2 : Nat) = 0) by omega, if_false, if_true] at k0
  obtain ⟨s1, hs1⟩ : ∃ s, s = (wit 3 e).aStep none 0 s0 := ⟨_, rfl⟩
  have hb1 : s1.bestK = 2 := by rw [hs1, k0]
  have hp1 : s1.prev = Real.sqrt 3 / 2 := by rw [hs1, k0]
  have hl1 : s1.overlapLog 0 = Real.sqrt 3 / 2 := by
    rw [hs1, k0]; simp
  have hE1 : ∀ k, s1.eps k = s0.eps k * 2 := by intro k; rw [hs1, k0]
  have hu1 : ∀ k, k < 3 → s1.u 1 0 0 k = -s0.eps k := by
    intro k hk
    rw [hs1, k0]
    have := wit_tried 3 e 0 s0 k hk
    simp only at this ⊢
    rw [show (1 : Nat) = 0 + 1 from rfl, this, hu0, hu0, Real.cos_zero]
    ring
  -- second iteration
  have t1 : ∀ k, k < 3 → (wit 3 e).trials none 1 s1 k = 0 := by
    intro k hk
    rw [wit_trials 3 e 1 s1 k hk, hb1, hu1 k hk, hu1 2 (by omega), he2, Real.cos_neg, cos_20, hE1,
      show -s0.eps k - s0.eps k * 2 * -(1 / 2) = 0 by ring, Real.sin_zero, neg_zero]
  have a1 : argmax3 ((wit 3 e).trials none 1 s1) = 0 := by
    unfold argmax3
    rw [t1 0 (by omega), t1 1 (by omega), t1 2 (by omega), if_pos ⟨le_refl _, le_refl _⟩]
  have k1 := aStep_regress (wit 3 e) none 1 s1 (by
    rw [a1, t1 0 (by omega), hp1]; linarith)
  rw [a1, t1 0 (by omega)] at k1
  obtain ⟨s2, hs2⟩ : ∃ s, s = (wit 3 e).aStep none 1 s1 := ⟨_, rfl⟩
  have hb2 : s2.bestK = 0 := by rw [hs2, k1]
  have hL2 : s2.last = 1 := by rw [hs2, k1]
  have hu2 : s2.u 1 0 0 0 = -(5 * Real.pi / 3) := by
    rw [hs2, k1]
    simp only [show ¬ ((1 : Nat) = 1 + 1) by omega, if_false]
    rw [wit_tried_old 3 e 1 s1 1 0 0 0 (by omega), hu1 0 (by omega), he0]
  have hl2 : s2.overlapLog 0 = Real.sqrt 3 / 2 := by
    rw [hs2, k1]
    simp only
    rw [Function.update_of_ne (by omega), hl1]
  have hf2 : s2.uf 0 = some ((wit 3 e).trial (pulse ((wit 3 e).tried none 1 s1) 2 0)) := by
    rw [hs2, k1]
    rfl
  -- the loop
  have hloop : (wit 3 e).aLoop none 1 2 0 s0 = s2 := by
    unfold Args.aLoop
    simp only
    rw [if_neg (by rintro ⟨h, -⟩; exact lt_irrefl _ h), ← hs1]
    unfold Args.aLoop
    simp only
    rw [if_neg (by rintro ⟨h, -⟩; exact lt_irrefl _ h), ← hs2]
    rfl
  have hrun : (wit 3 e).runAdaptive 1 = .ok
      { rows := s2.last, u := fun r j m => s2.u r j m s2.bestK, uf := s2.uf s2.bestK
        ht := fun j m => s2.u s2.last j m s2.bestK
        epsLog := s2.epsLog, overlapLog := s2.overlapLog } := by
    have hb : ¬ truthy (wit 3 e).beta := fun ⟨_, h, _⟩ => by cases h
    have h1 : (wit 3 e).epsVal = .ok e := rfl
    have h2 : (wit 3 e).limits = .ok none := rfl
    have h4 : (wit 3 e).init none = .ok fun _ _ _ => 0 := rfl
    unfold Args.runAdaptive
    rw [h1, h2]
    simp only
    rw [h4]
    simp only
    rw [if_neg (by simp [Args.M, wit]), if_neg (fun h => hb h.2.2)]
    rw [← hs0, show (wit 3 e).nIter - 1 = 2 from rfl, hloop, if_neg (by simp [wit])]
  refine ⟨_, hrun, hl2, ?_, ?_, ?_⟩
  · rw [wit_propagator, wit_close]
    simp only
    rw [hb2, hL2, hu2, Real.sin_neg, neg_neg, sin_5]
  · rw [wit_propagator, wit_close, Real.sin_zero, neg_zero]
  · refine ⟨_, by simp only; rw [hb2]; exact hf2, ?_⟩
    rw [wit_trial, wit_close]
    have := wit_tried 3 e 1 s1 0 (by omega)
    simp only [pulse]
    rw [this, hb1, hu1 0 (by omega), hu1 2 (by omega), he2, Real.cos_neg, cos_20, hE1,
      show -s0.eps 0 - s0.eps 0 * 2 * -(1 / 2) = 0 by ring, Real.sin_zero, neg_zero]

/-- So the propagator and the pulse returned by the adaptive function do not belong together
(C41). -/
theorem C41_violated_adaptive :
    ∃ res, (wit 3 (10 * Real.pi / 3)).runAdaptive 1 = .ok res ∧
      res.uf ≠ some (Spec.Grape.propagator (wit 3 (10 * Real.pi / 3)).expm
        (wit 3 (10 * Real.pi / 3)).h0 (wit 3 (10 * Real.pi / 3)).hOps
        (wit 3 (10 * Real.pi / 3)).dt res.ht ((wit 3 (10 * Real.pi / 3)).M - 1)) := by
  obtain ⟨res, h, -, h1, -, U, h2, h3⟩ := C42_violated
  refine ⟨res, h, fun e => ?_⟩
  rw [h2] at e
  cases e
  rw [h1] at h3
  have : 0 < Real.sqrt 3 := Real.sqrt_pos.2 (by norm_num)
  linarith

/-- The adaptive function returns one row less than it made iterations and none of the last
iteration, whose trials the returned propagator belongs to. -/
theorem C41_violated_rows (a : Args d) (goal : ℝ) (res : AResult d) (hn : a.nIter = 2)
    (h : a.runAdaptive goal = .ok res) : res.rows = 0 := by
  obtain ⟨n, eps, h1, h2, -, h4, -⟩ := C42_run a goal res (by omega) h
  omega

/-- Non-vacuity of `C42_run` and `C41_violated_rows`. -/
example : ∃ res, (wit 3 (10 * Real.pi / 3)).runAdaptive 1 = .ok res ∧ res.rows = 1 := by
  obtain ⟨res, h, -⟩ := C42_violated
  refine ⟨res, h, ?_⟩
  obtain ⟨n, eps, h1, h2, -, h4, h5, -⟩ := C42_run _ 1 res (by simp [wit]) h
  have : (wit 3 (10 * Real.pi / 3)).nIter - 1 = 2 := rfl
  by_cases hn : n < 2
  · exact absurd (h5 (by omega)).1 (lt_irrefl _)
  · omega

/-! ### C52 -/

/-- What `grape_unitary` makes large: the overlap less penalties for large and for late
amplitudes, as a function of the amplitude of one control in one slot. -/
noncomputable def objective (a : Args d) (v : Nat → Nat → ℝ) (j m : Nat) (y : ℝ) : ℝ :=
  Spec.Grape.closeness a.phaseSensitive a.target
      (Spec.Grape.propagator a.expm a.h0 a.hOps a.dt (Spec.Grape.changed v j m y) (a.M - 1))
    - (a.alpha.getD 0 + a.beta.getD 0 * m) * y ^ 2 * a.dt

/-- Every iteration changes every amplitude by the step size times the derivative of the
closeness with respect to a short evolution under the control Hamiltonian after the slot, less
the derivatives of the penalties, and limits the result. -/
theorem C52_kick (a : Args d) (res : Result d) (hx : a.Exact) (hexp : a.expm = NormedSpace.exp)
    (h : a.run .py = .ok res) (r j m : Nat) (hr : r + 1 < a.nIter) (hj : j < a.J)
    (hm : m + 1 < a.M) :
    ∃ eps D, eps = Spec.Grape.stepSize a.eps a.times ∧
      HasDerivAt (fun x => Spec.Grape.closeness a.phaseSensitive a.target
        (Spec.Grape.kicked a.expm a.h0 a.hOps a.dt (res.u r) j m x (a.M - 1))) D 0 ∧
      (a.uLimits = none → res.u (r + 1) j m = res.u r j m
        + eps * (D - 2 * (a.alpha.getD 0 + a.beta.getD 0 * m) * res.u r j m * a.dt)) ∧
      (∀ lo hi, a.uLimits = some [lo, hi] → lo ≤ hi → res.u (r + 1) j m =
        max lo (min hi (res.u r j m
          + eps * (D - 2 * (a.alpha.getD 0 + a.beta.getD 0 * m) * res.u r j m * a.dt)))) := by
  obtain ⟨eps, lim, u0, h1, h2, -, hn, hM, hu, -, -⟩ := run_ok a .py res h
  refine ⟨eps, _, epsVal_ok h1, du0_deriv a hx hexp (res.u r) j m (by omega), ?_, ?_⟩
  all_goals
    obtain ⟨-, s2, -⟩ := loop_spec a .py eps lim hM u0 (a.nIter - 1)
    have s2 := s2 r (by omega) j m hj (by omega)
    rw [show min m (a.M - 2) = m by omega] at s2
    unfold Args.newVal at s2
    rw [incr_re] at s2
    change (a.final .py eps lim u0).u (r + 1) j m = clipElif lim _ at s2
  · intro hl
    have : a.limits = .ok none := by unfold Args.limits; rw [hl]
    rw [this] at h2
    cases h2
    rw [hu, s2]
    rfl
  · intro lo hi hl hle
    rw [limits_some a lo hi hl] at h2
    cases h2
    rw [hu, s2, clipElif_eq lo hi _ hle]
    rfl

/-- If the control Hamiltonian commutes with the Hamiltonian of the slot, every iteration is a
step along the exact gradient of the objective. -/
theorem C52_gradient_partial (a : Args d) (res : Result d) (hx : a.Exact)
    (hexp : a.expm = NormedSpace.exp) (h : a.run .py = .ok res) (r j m : Nat)
    (hr : r + 1 < a.nIter) (hj : j < a.J) (hm : m + 1 < a.M)
    (hc : Commute (a.hOps.getD j 0) (Spec.Grape.hamiltonian a.h0 a.hOps fun j => res.u r j m)) :
    ∃ eps D, eps = Spec.Grape.stepSize a.eps a.times ∧
      HasDerivAt (objective a (res.u r) j m) D (res.u r j m) ∧
      (a.uLimits = none → res.u (r + 1) j m = res.u r j m + eps * D) ∧
      (∀ lo hi, a.uLimits = some [lo, hi] → lo ≤ hi →
        res.u (r + 1) j m = max lo (min hi (res.u r j m + eps * D))) := by
  obtain ⟨eps, D, h1, h2, h3, h4⟩ := C52_kick a res hx hexp h r j m hr hj hm
  refine ⟨eps, _, h1, ?_, h3, h4⟩
  simp only [kicked_changed a hexp (res.u r) j m hj hc] at h2
  have h5 : HasDerivAt (fun y => Spec.Grape.closeness a.phaseSensitive a.target
      (Spec.Grape.propagator a.expm a.h0 a.hOps a.dt
        (Spec.Grape.changed (res.u r) j m y) (a.M - 1))) D (res.u r j m) := by
    have := HasDerivAt.comp_sub_const (res.u r j m) (res.u r j m)
      (f := fun x => Spec.Grape.closeness a.phaseSensitive a.target
        (Spec.Grape.propagator a.expm a.h0 a.hOps a.dt
          (Spec.Grape.changed (res.u r) j m (res.u r j m + x)) (a.M - 1))) (f' := D)
      (by rw [sub_self]; exact h2)
    simpa using this
  unfold objective
  refine h5.sub ?_
  have h6 := ((hasDerivAt_pow 2 (res.u r j m)).const_mul
    (a.alpha.getD 0 + a.beta.getD 0 * m)).mul_const a.dt
  refine h6.congr_deriv ?_
  rw [show (2 - 1 : Nat) = 1 from rfl, pow_one]
  push_cast
  ring

/-- Non-vacuity of `C52_kick` and `C52_gradient_partial`. -/
example : ∃ res D, (wit 3 1).run .py = .ok res ∧
    HasDerivAt (objective (wit 3 1) (res.u 1) 0 0) D (res.u 1 0 0) ∧
    res.u 2 0 0 = res.u 1 0 0 + 1 * D := by
  obtain ⟨res, h, -⟩ := wit_run 3 1 (by norm_num) .py
  obtain ⟨eps, D, h1, h2, h3, -⟩ := C52_gradient_partial (wit 3 1) res (wit_exact 3 1) rfl h 1 0 0
    (by simp [wit]) Nat.one_pos (by simp [Args.M, wit]) (Commute.one_left _)
  have e : eps = 1 := h1
  rw [e] at h3
  exact ⟨res, D, h, h2, h3 rfl⟩

/-- In general the iteration does not follow the gradient: here the objective has derivative
zero, but the amplitude moves by the step size times one. -/
theorem C52_violated :
    ∃ res, qubit.run .py = .ok res ∧ Spec.Grape.stepSize qubit.eps qubit.times = 1 ∧
      HasDerivAt (objective qubit (res.u 0) 0 0) 0 (res.u 0 0 0) ∧
      res.u 1 0 0 = res.u 0 0 0 + 1 * 1 := by
  have h := run_eq qubit .py 1 none (fun _ _ _ => 0) rfl rfl rfl (le_refl 2) (le_refl 2)
  obtain ⟨h0, h1, -⟩ := loop_spec qubit .py 1 none (le_refl 2) (fun _ _ _ => 0) (qubit.nIter - 1)
  refine ⟨_, h, rfl, ?_, ?_⟩
  · have e0 : (qubit.final .py 1 none fun _ _ _ => 0).u 0 = fun _ _ => 0 := h0
    simp only [e0]
    have hobj : objective qubit (fun _ _ => 0) 0 0 = fun y : ℝ =>
        (Spec.Grape.overlap qubit.target (1 * NormedSpace.exp (genX + (y : ℂ) • dirZ) * 1)).re := by
      funext y
      have hp : Spec.Grape.propagator qubit.expm qubit.h0 qubit.hOps qubit.dt
          (Spec.Grape.changed (fun _ _ => 0) 0 0 y) (qubit.M - 1) =
          NormedSpace.exp ((-Complex.I * (((1 : ℝ) - 0 : ℝ) : ℂ)) •
            (!![0, (Real.pi : ℂ); Real.pi, 0] + ∑ j ∈ Finset.range 1,
              ((Spec.Grape.changed (fun _ _ => 0) 0 0 y j 0 : ℝ) : ℂ) •
                ([!![1, 0; 0, -1]] : List Mat2).getD j 0)) * 1 := rfl
      unfold objective
      rw [hp, Finset.sum_range_one]
      have hy : Spec.Grape.changed (fun _ _ => 0) 0 0 y 0 0 = y := if_pos ⟨rfl, rfl⟩
      rw [hy, List.getD_cons_zero, qubit_ham, mul_one, one_mul, mul_one]
      unfold Spec.Grape.closeness
      rw [if_pos (show qubit.phaseSensitive = true from rfl)]
      simp [qubit]
    rw [hobj]
    have := hasDerivAt_re _ _ _ (hasDerivAt_overlap qubit.target 1 1 _ _ 0 genX_deriv)
    refine this.congr_deriv ?_
    simp [Spec.Grape.overlap]
  · have h1 := h1 0 Nat.one_pos 0 0 Nat.one_pos Nat.two_pos
    rw [h0, show min 0 (qubit.M - 2) = 0 by simp] at h1
    have e0 : (qubit.final .py 1 none fun _ _ _ => 0).u 0 0 0 = 0 :=
      congrFun (congrFun h0 0) 0
    have e1 : (qubit.final .py 1 none fun _ _ _ => 0).u 1 0 0 = _ := h1
    simp only
    rw [e0, e1]
    unfold Args.newVal
    rw [incr_re]
    have ha : qubit.alpha.getD 0 = 0 := rfl
    have hb : qubit.beta.getD 0 = 0 := rfl
    rw [ha, hb]
    have hdu : qubit.du0 (qubit.propagators (qubit.uList fun _ _ => 0)) 0 0 =
        -overlap (1 * qubit.target) ((Complex.I * (((1 : ℝ) - 0 : ℝ) : ℂ)) •
          ((!![1, 0; 0, -1] : Mat2) * (NormedSpace.exp ((-Complex.I * (((1 : ℝ) - 0 : ℝ) : ℂ)) •
            (!![0, (Real.pi : ℂ); Real.pi, 0] + (((0 : ℝ) : ℂ) • !![1, 0; 0, -1] + 0))) * 1))) :=
      rfl
    rw [hdu, add_zero, qubit_ham, Complex.ofReal_zero, zero_smul, add_zero, genX_exp, mul_one,
      one_mul]
    unfold overlap
    simp [clipElif, qubit, Matrix.trace_fin_two, Matrix.mul_apply, Fin.sum_univ_two]

end QTrl.Grape
