import Verif.Proofs.Motion
import Verif.Props.Grape
import Mathlib.Analysis.Real.Pi.Bounds

/-
C77: the propagators of the stand-alone GRAPE functions and the times they are given.
-/

open Matrix

namespace QTrl.Grape

open QTrl.Spec QTrl.Dyn

variable {d : Type} [Fintype d] [DecidableEq d]

/-- The durations of the slots between the times. -/
def gaps (times : List ℝ) (k : Nat) : ℝ := times.getD (k + 1) 0 - times.getD k 0

/-- The generators `-i H` under a pulse (control, slot). -/
noncomputable def underPulse (a : Args d) (v : Nat → Nat → ℝ) (k : Nat) : Matrix d d ℂ :=
  -Complex.I • Spec.Grape.hamiltonian a.h0 a.hOps fun j => v j k

theorem slotTime_gaps (times : List ℝ) (n : Nat) :
    slotTime (gaps times) n = times.getD n 0 - times.getD 0 0 := by
  induction n with
  | zero => simp [slotTime]
  | succ n ih => rw [slotTime_succ, ih, gaps]; ring

/-- The propagator over slots of one length is the time-ordered product. -/
theorem propagator_ordered (a : Args d) (hexp : a.expm = NormedSpace.exp) (v : Nat → Nat → ℝ)
    (n : Nat) (he : ∀ k, k < n → gaps a.times k = a.dt) :
    Spec.Grape.propagator a.expm a.h0 a.hOps a.dt v n =
      timeOrdered (fun k => NormedSpace.exp ((gaps a.times k : ℂ) • underPulse a v k)) 0 n := by
  induction n with
  | zero => rw [timeOrdered_self]; rfl
  | succ n ih =>
    rw [Spec.Grape.propagator, timeOrdered_succ _ (Nat.zero_le n), ih fun k hk => he k (by omega),
      hexp, he n (by omega), underPulse, smul_smul]
    congr 3
    ring

/-- If the times are equally spaced and ascending, the propagator returned by `grape_unitary`
and `cy_grape_unitary` is that of the Schrödinger equation over the given times, under the
amplitudes of the last but one row (C41), each from its time to the next.

Missing: other times (`C77_violated`). -/
theorem C77_equal_partial (a : Args d) (i : Impl) (res : Result d) (hx : a.Exact)
    (hexp : a.expm = NormedSpace.exp) (h : a.run i = .ok res) (hdt : 0 ≤ a.dt)
    (he : ∀ k, k + 1 < a.M → gaps a.times k = a.dt) :
    (∃ X, Motion (a.M - 1) (gaps a.times) (underPulse a (res.u (a.nIter - 2))) (1 : Matrix d d ℂ) X) ∧
    ∀ X, Motion (a.M - 1) (gaps a.times) (underPulse a (res.u (a.nIter - 2))) (1 : Matrix d d ℂ) X →
      res.uf = X (a.times.getD (a.M - 1) 0 - a.times.getD 0 0) := by
  have hτ : ∀ k, k < a.M - 1 → 0 ≤ gaps a.times k := fun k hk => by
    rw [he k (by omega)]; exact hdt
  refine ⟨⟨_, motion_exists hτ _ _⟩, fun X hX => ?_⟩
  rw [(C41_previous a i res hx h).1, propagator_ordered a hexp _ _ fun k hk => he k (by omega),
    ← slotTime_gaps, motion_value hτ hX (le_refl _), mul_one]

theorem aStep_trial (a : Args d) (lim : Option (ℝ × ℝ)) (r : Nat) (s : AState d) (k : Nat)
    (hk : k < 3) : ∃ v, (a.aStep lim r s).uf k = some (a.trial v) := by
  by_cases h : s.prev > a.trials lim r s (argmax3 (a.trials lim r s))
  · rw [aStep_regress a lim r s h]
    exact ⟨_, if_pos hk⟩
  · rw [aStep_keep a lim r s h]
    exact ⟨_, if_pos hk⟩

/-- The propagator returned by the adaptive function is that of some trial pulse. -/
theorem adaptive_trial (a : Args d) (goal : ℝ) (res : AResult d) (hn : 2 ≤ a.nIter)
    (h : a.runAdaptive goal = .ok res) : ∃ v, res.uf = some (a.trial v) := by
  obtain ⟨eps, lim, u0, -, -, -, -, s, hs, rfl⟩ := runAdaptive_ok a goal res h
  obtain ⟨n, -, -, hI, e3, -⟩ := aLoop_induct a lim goal
    (fun r s => 0 < r → s.bestK < 3 ∧ ∀ k, k < 3 → ∃ v, s.uf k = some (a.trial v))
    (fun r s _ _ => ⟨(aStep_common a lim r s).2.2.1 ▸ argmax3_lt _, aStep_trial a lim r s⟩)
    (a.nIter - 1) 0 (aInit u0 eps) (fun h => absurd h (lt_irrefl 0))
  obtain ⟨h1, h2⟩ := hI (e3 (by omega))
  rw [← hs] at h1 h2
  exact h2 _ h1

/-- Likewise for the adaptive function, under the amplitudes of one of its trials. -/
theorem C77_adaptive_partial (a : Args d) (goal : ℝ) (res : AResult d) (hn : 2 ≤ a.nIter)
    (h : a.runAdaptive goal = .ok res) (hexp : a.expm = NormedSpace.exp) (hdt : 0 ≤ a.dt)
    (he : ∀ k, k + 1 < a.M → gaps a.times k = a.dt) :
    ∃ v : Nat → Nat → ℝ,
      (∃ X, Motion (a.M - 1) (gaps a.times) (underPulse a v) (1 : Matrix d d ℂ) X) ∧
      ∀ X, Motion (a.M - 1) (gaps a.times) (underPulse a v) (1 : Matrix d d ℂ) X →
        res.uf = some (X (a.times.getD (a.M - 1) 0 - a.times.getD 0 0)) := by
  obtain ⟨v, hv⟩ := adaptive_trial a goal res hn h
  have hτ : ∀ k, k < a.M - 1 → 0 ≤ gaps a.times k := fun k hk => by
    rw [he k (by omega)]; exact hdt
  refine ⟨v, ⟨_, motion_exists hτ _ _⟩, fun X hX => ?_⟩
  rw [hv, trial_eq, propagator_ordered a hexp _ _ fun k hk => he k (by omega),
    ← slotTime_gaps, motion_value hτ hX (le_refl _), mul_one]

/-- Unequal times 0, 1, 3 for a constant Hamiltonian. -/
noncomputable def uneven : Args Unit :=
  { target := 1, h0 := 1, hOps := [1], nIter := 2, times := [0, 1, 3], eps := some 0
    uStart := none, startInt := false, uLimits := none, useInterp := false
    alpha := none, beta := none, phaseSensitive := true, expm := NormedSpace.exp
    interp := fun _ _ _ => 0 }

/-- For other times it is not: all slots are taken to be as long as the first.  Under the
Hamiltonian 1 the evolution from time 0 to 3 is `exp(-3i)`, but for the times 0, 1, 3 the
propagator returned is `exp(-2i)`. -/
theorem C77_violated (i : Impl) :
    ∃ res, uneven.run i = .ok res ∧ res.uf = scal (Complex.exp (-2 * Complex.I)) ∧
      (∃ X, Motion 2 (gaps uneven.times) (underPulse uneven (res.u 0)) (1 : Matrix Unit Unit ℂ) X) ∧
      ∀ X, Motion 2 (gaps uneven.times) (underPulse uneven (res.u 0)) (1 : Matrix Unit Unit ℂ) X →
        X 3 = scal (Complex.exp (-3 * Complex.I)) ∧ res.uf ≠ X 3 := by
  have h := run_eq uneven i 0 none (fun _ _ _ => 0) rfl rfl rfl (le_refl 2)
    (by norm_num [Args.M, uneven])
  obtain ⟨h0, -, -⟩ := loop_spec uneven i 0 none (by norm_num [Args.M, uneven]) (fun _ _ _ => 0)
    (uneven.nIter - 1)
  obtain ⟨res, h, hu⟩ : ∃ res, uneven.run i = .ok res ∧ res.u 0 = fun _ _ => 0 := ⟨_, h, h0⟩
  have hham : ∀ k, underPulse uneven (res.u 0) k = scal (-Complex.I) := fun k => by
    have : underPulse uneven (res.u 0) k = -Complex.I • ((1 : Matrix Unit Unit ℂ) +
        ∑ j ∈ Finset.range 1, ((res.u 0 j k : ℝ) : ℂ) • uneven.hOps.getD j 0) := rfl
    rw [this, hu]
    simp only [Complex.ofReal_zero, zero_smul, Finset.sum_const_zero, add_zero]
    rw [scal_one, scal_smul, mul_one]
  have hτ : ∀ k, k < 2 → 0 ≤ gaps uneven.times k := fun k hk => by
    obtain rfl | rfl : k = 0 ∨ k = 1 := by omega
    all_goals norm_num [gaps, uneven]
  have hx : uneven.Exact := fun h => by simp [uneven] at h
  have c1 := (C41_previous uneven i res hx h).1
  have hdt : uneven.dt = 1 := by norm_num [Args.dt, uneven]
  have hslot : ∀ k, NormedSpace.exp ((-Complex.I * (uneven.dt : ℂ)) •
      Spec.Grape.hamiltonian uneven.h0 uneven.hOps fun j => res.u 0 j k) =
      scal (Complex.exp (-Complex.I)) := fun k => by
    have := hham k
    unfold underPulse at this
    rw [hdt, Complex.ofReal_one, mul_one, this, scal_exp]
  have hf : res.uf = scal (Complex.exp (-2 * Complex.I)) := by
    rw [c1]
    show NormedSpace.exp ((-Complex.I * (uneven.dt : ℂ)) •
        Spec.Grape.hamiltonian uneven.h0 uneven.hOps fun j => res.u 0 j 1) *
      (NormedSpace.exp ((-Complex.I * (uneven.dt : ℂ)) •
        Spec.Grape.hamiltonian uneven.h0 uneven.hOps fun j => res.u 0 j 0) * 1) = _
    rw [hslot, hslot, mul_one, scal_mul, ← Complex.exp_add]
    congr 2
    ring
  refine ⟨res, h, hf, ⟨_, motion_exists hτ _ _⟩, fun X hX => ?_⟩
  have hv := motion_value hτ hX (le_refl 2)
  have hT : slotTime (gaps uneven.times) 2 = 3 := by
    rw [slotTime_gaps]
    norm_num [uneven]
  have g0 : gaps uneven.times 0 = 1 := by norm_num [gaps, uneven]
  have g1 : gaps uneven.times 1 = 2 := by norm_num [gaps, uneven]
  rw [hT, timeOrdered_succ _ (Nat.zero_le 1), timeOrdered_succ _ (le_refl 0), timeOrdered_self,
    mul_one, mul_one, hham, hham, g0, g1, scal_smul, scal_smul, scal_exp, scal_exp, scal_mul,
    ← Complex.exp_add] at hv
  have hv3 : X 3 = scal (Complex.exp (-3 * Complex.I)) := by
    rw [hv]
    congr 2
    push_cast
    ring
  refine ⟨hv3, fun e => ?_⟩
  rw [hf, hv3] at e
  have e := scal_inj e
  have e1 := exp_negI 2
  have e2 := exp_negI 3
  rw [show -Complex.I * ((2 : ℝ) : ℂ) = -2 * Complex.I by push_cast; ring] at e1
  rw [show -Complex.I * ((3 : ℝ) : ℂ) = -3 * Complex.I by push_cast; ring] at e2
  rw [e1, e2] at e
  have hre := congrArg Complex.re e
  simp only [Complex.sub_re, Complex.mul_re, Complex.ofReal_re, Complex.ofReal_im, Complex.I_re,
    Complex.I_im, mul_zero, zero_mul, sub_zero] at hre
  have h3 := Real.pi_gt_three
  have := Real.cos_lt_cos_of_nonneg_of_le_pi (x := 2) (y := 3) (by norm_num) (by linarith)
    (by norm_num)
  linarith

/-- Non-vacuity of `C77_adaptive_partial`. -/
example : ∃ res v X, (wit 3 (10 * Real.pi / 3)).runAdaptive 1 = .ok res ∧
    Motion 1 (gaps [0, 1]) (underPulse (wit 3 (10 * Real.pi / 3)) v) (1 : Matrix Unit Unit ℂ) X ∧
    res.uf = some (X (1 - 0)) := by
  obtain ⟨res, h, -⟩ := C42_violated
  obtain ⟨v, ⟨X, hX⟩, hu⟩ := C77_adaptive_partial _ 1 res (by simp [wit]) h rfl
    (by norm_num [Args.dt, wit]) fun k hk => by
      obtain rfl : k = 0 := by simp [Args.M, wit] at hk; exact hk
      rfl
  exact ⟨res, v, X, h, hX, hu X hX⟩

/-- Non-vacuity of `C77_equal_partial`. -/
example : ∃ res, (wit 2 1).run .py = .ok res ∧
    (∃ X, Motion 1 (gaps (wit 2 1).times) (underPulse (wit 2 1) (res.u 0)) (1 : Matrix Unit Unit ℂ) X ∧
      res.uf = X (1 - 0)) := by
  obtain ⟨res, h, -⟩ := wit_run 2 1 (le_refl 2) .py
  obtain ⟨⟨X, hX⟩, hu⟩ := C77_equal_partial (wit 2 1) .py res (wit_exact 2 1) rfl h
    (by norm_num [Args.dt, wit]) fun k hk => by
      obtain rfl : k = 0 := by simp [Args.M, wit] at hk; exact hk
      rfl
  exact ⟨res, h, X, hX, hu X hX⟩

end QTrl.Grape
