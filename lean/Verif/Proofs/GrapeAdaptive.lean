import Verif.Proofs.GrapeRun

/-
The adaptive GRAPE function: closed forms and invariants.
-/

set_option linter.unusedSectionVars false

namespace QTrl.Grape

variable {d : Type} [Fintype d] [DecidableEq d]

theorem set_set4 (u : Arr4) (r j m k : Nat) (x : ℝ) (f : ℝ → ℝ) :
    (u.set r j m k x).set r j m k (f ((u.set r j m k x) r j m k)) = u.set r j m k (f x) := by
  funext r' j' m' k'
  simp only [Arr4.set]
  split_ifs <;> simp_all

theorem loop_k (r j m K : Nat) (f : Nat → ℝ → ℝ) (u : Arr4) :
    forRange K (fun k (u : Arr4) => u.set (r + 1) j m k (f k (u r j m k))) u
      = fun r' j' m' k' => if r' = r + 1 ∧ j' = j ∧ m' = m ∧ k' < K then f k' (u r j m k')
          else u r' j' m' k' := by
  induction K with
  | zero => funext r' j' m' k'; simp
  | succ n ih =>
    rw [forRange_succ, ih]
    funext r' j' m' k'
    simp only [Arr4.set]
    by_cases h : r' = r + 1 ∧ j' = j ∧ m' = m ∧ k' = n
    · obtain ⟨rfl, rfl, rfl, rfl⟩ := h
      simp
    · rw [if_neg h]
      by_cases h2 : r' = r + 1 ∧ j' = j ∧ m' = m ∧ k' < n
      · rw [if_pos h2, if_pos (by omega)]
      · rw [if_neg h2, if_neg (by omega)]

theorem loop_m (r j n K : Nat) (f : Nat → (Nat → ℝ) → Nat → ℝ → ℝ) (u : Arr4) :
    forRange n (fun m (u : Arr4) =>
      forRange K (fun k (u' : Arr4) =>
        u'.set (r + 1) j m k (f m (fun k => u r j m k) k (u' r j m k))) u) u
      = fun r' j' m' k' => if r' = r + 1 ∧ j' = j ∧ m' < n ∧ k' < K
          then f m' (fun k => u r j m' k) k' (u r j m' k') else u r' j' m' k' := by
  induction n with
  | zero => funext r' j' m' k'; simp
  | succ n ih =>
    rw [forRange_succ, ih, loop_k]
    funext r' j' m' k'
    by_cases h : r' = r + 1 ∧ j' = j ∧ m' = n ∧ k' < K
    · obtain ⟨rfl, rfl, rfl, h4⟩ := h
      simp [h4]
    · rw [if_neg h]
      by_cases h2 : r' = r + 1 ∧ j' = j ∧ m' < n ∧ k' < K
      · rw [if_pos h2, if_pos (by omega)]
      · rw [if_neg h2, if_neg (by omega)]

theorem loop_tail (r j M K : Nat) (hM : 2 ≤ M) (u : Arr4) :
    forRange K (fun k (u : Arr4) => u.set (r + 1) j (M - 1) k (u (r + 1) j (M - 2) k)) u
      = fun r' j' m' k' => if r' = r + 1 ∧ j' = j ∧ m' = M - 1 ∧ k' < K
          then u (r + 1) j (M - 2) k' else u r' j' m' k' := by
  induction K with
  | zero => funext r' j' m' k'; simp
  | succ n ih =>
    rw [forRange_succ, ih]
    funext r' j' m' k'
    have e0 : ¬ (r + 1 = r + 1 ∧ j = j ∧ M - 2 = M - 1 ∧ n < n) := by omega
    simp only [Arr4.set]
    by_cases h : r' = r + 1 ∧ j' = j ∧ m' = M - 1 ∧ k' = n
    · obtain ⟨rfl, rfl, rfl, rfl⟩ := h
      simp
    · rw [if_neg h]
      by_cases h2 : r' = r + 1 ∧ j' = j ∧ m' = M - 1 ∧ k' < n
      · rw [if_pos h2, if_pos (by omega)]
      · rw [if_neg h2, if_neg (by omega)]

/-- The array after the updates. -/
def nextArr4 (J M K r : Nat) (f : Nat → Nat → (Nat → ℝ) → Nat → ℝ → ℝ) (u : Arr4) : Arr4 :=
  fun r' j m k =>
    if r' = r + 1 ∧ j < J ∧ m < M ∧ k < K
    then f j (min m (M - 2)) (fun k => u r j (min m (M - 2)) k) k (u r j (min m (M - 2)) k)
    else u r' j m k

theorem loop_j (r J M K : Nat) (hM : 2 ≤ M) (f : Nat → Nat → (Nat → ℝ) → Nat → ℝ → ℝ)
    (u : Arr4) :
    forRange J (fun j (u : Arr4) =>
      let u := forRange (M - 1) (fun m (u : Arr4) =>
        forRange K (fun k (u' : Arr4) =>
          u'.set (r + 1) j m k (f j m (fun k => u r j m k) k (u' r j m k))) u) u
      forRange K (fun k (u : Arr4) => u.set (r + 1) j (M - 1) k (u (r + 1) j (M - 2) k)) u) u
      = nextArr4 J M K r f u := by
  induction J with
  | zero => funext r' j' m' k'; simp [nextArr4]
  | succ J ih =>
    rw [forRange_succ, ih]
    simp only
    rw [loop_m r J (M - 1) K (f J), loop_tail r J M K hM]
    funext r' j' m' k'
    have e0 : ∀ m k, ¬ (r = r + 1 ∧ J < J ∧ m < M ∧ k < K) := by intro m k; omega
    simp only [nextArr4, e0, if_false]
    by_cases h : r' = r + 1 ∧ j' = J ∧ m' < M ∧ k' < K
    · obtain ⟨rfl, rfl, h3, h4⟩ := h
      by_cases h5 : m' = M - 1
      · subst h5
        rw [if_pos (by omega), if_pos ⟨trivial, trivial, by omega, h4⟩,
          if_pos (by omega), show min (M - 1) (M - 2) = M - 2 by omega]
      · rw [if_neg (by omega), if_pos (by omega), if_pos (by omega),
          show min m' (M - 2) = m' by omega]
    · rw [if_neg (by omega), if_neg (by omega)]
      by_cases h2 : r' = r + 1 ∧ j' < J ∧ m' < M ∧ k' < K
      · rw [if_pos h2, if_pos (by omega)]
      · rw [if_neg h2, if_neg (by omega)]

open Classical in
/-- The new amplitude of a trial as a function of the present ones. -/
noncomputable def Args.aNew (a : Args d) (lim : Option (ℝ × ℝ)) (p : Props d) (eps : Nat → ℝ)
    (best : Nat) (j m : Nat) (w : Nat → ℝ) (k : Nat) (x : ℝ) : ℝ :=
  clipElif lim (x + eps k * (if truthy a.alpha then
    a.du0 p j m + ((-2 * a.alpha.getD 0 * w best * a.dt : ℝ) : ℂ) else a.du0 p j m).re)

theorem aUpdate_eq (a : Args d) (lim : Option (ℝ × ℝ)) (p : Props d) (eps : Nat → ℝ)
    (best r : Nat) (u : Arr4) (hM : 2 ≤ a.M) :
    a.aUpdate lim p eps best r u = nextArr4 a.J a.M 3 r (a.aNew lim p eps best) u := by
  rw [← loop_j r a.J a.M 3 hM]
  unfold Args.aUpdate Args.aNew Args.aDu
  simp only [set_set4]

theorem trial_eq (a : Args d) (v : Nat → Nat → ℝ) :
    a.trial v = Spec.Grape.propagator a.expm a.h0 a.hOps a.dt v (a.M - 1) := by
  have key : ∀ n, n ≤ a.M → forRange n (fun m U => a.plainSlot v m * U) (1 : Matrix d d ℂ)
      = Spec.Grape.propagator a.expm a.h0 a.hOps a.dt v n := by
    intro n hn
    refine Eq.trans ?_ (evo_eq { a with useInterp := false } (fun h => by simp at h) v n hn)
    clear hn
    induction n with
    | zero => rfl
    | succ n ih => rw [forRange_succ, ih]; rfl
  exact key _ (by omega)

/-- The closeness of a trial. -/
theorem fidelity_eq (b : Bool) (U T : Matrix d d ℂ) :
    fidelity b (overlap U T) = Spec.Grape.closeness b T U := by
  have : overlap U T = (starRingEnd ℂ) (Spec.Grape.overlap T U) := by
    unfold overlap Spec.Grape.overlap
    rw [map_div₀, Complex.conj_natCast]
    congr 1
    rw [← Matrix.conjTranspose_conjTranspose T, ← Matrix.conjTranspose_mul,
      Matrix.trace_conjTranspose, Matrix.conjTranspose_conjTranspose]
    rfl
  unfold fidelity Spec.Grape.closeness
  rw [this]
  split_ifs
  · simp
  · simp

theorem argmax3_lt (f : Nat → ℝ) : argmax3 f < 3 := by
  unfold argmax3; split_ifs <;> omega

theorem argmax3_max (f : Nat → ℝ) (k : Nat) (hk : k < 3) : f k ≤ f (argmax3 f) := by
  unfold argmax3
  rcases k with _ | _ | _ | k
  · split_ifs with h1 h2
    · exact le_refl _
    · by_contra h; push Not at h; exact h1 ⟨h.le, by linarith⟩
    · by_contra h; push Not at h h1 h2
      have := h1 (by linarith)
      linarith
  · split_ifs with h1 h2
    · exact h1.1
    · exact le_refl _
    · push Not at h2; exact h2.le
  · split_ifs with h1 h2
    · exact h1.2
    · exact h2
    · exact le_refl _
  · omega

/-! ### The loop -/

/-- The three step sizes around `c`. -/
def Steps (eps : Nat → ℝ) (c : ℝ) : Prop := eps 0 = c / 2 ∧ eps 1 = c ∧ eps 2 = 2 * c

/-- What holds after `r` iterations. -/
structure AInv (a : Args d) (eps : ℝ) (r : Nat) (s : AState d) : Prop where
  steps : ∃ z : ℤ, Steps s.eps (eps * 2 ^ z)
  best : s.bestK < 3
  epsLog : ∀ (q : Nat), q < r → ∃ z : ℤ, s.epsLog q = eps * 2 ^ z
  rest : ∀ (q : Nat), r ≤ q → s.epsLog q = 0 ∧ s.overlapLog q = 0
  nonneg : 0 ≤ s.prev
  above : ∀ (q : Nat), q < r → s.overlapLog q ≤ s.prev
  attained : s.prev = 0 ∨ ∃ q, q < r ∧ s.prev = s.overlapLog q
  last : s.last = r - 1
  uf : 0 < r → ∃ U, s.uf s.bestK = some U ∧
    Spec.Grape.closeness a.phaseSensitive a.target U = s.overlapLog (r - 1)

theorem steps_half (e : Nat → ℝ) (c : ℝ) (z : ℤ) (h : Steps e (c * 2 ^ z)) :
    Steps (fun k => e k / 2) (c * 2 ^ (z - 1)) := by
  obtain ⟨h0, h1, h2⟩ := h
  have e1 : (2 : ℝ) ^ (z - 1) = 2 ^ z / 2 := by rw [zpow_sub₀ (by norm_num)]; norm_num
  refine ⟨?_, ?_, ?_⟩ <;> simp only [h0, h1, h2, e1] <;> ring

theorem steps_double (e : Nat → ℝ) (c : ℝ) (z : ℤ) (h : Steps e (c * 2 ^ z)) :
    Steps (fun k => e k * 2) (c * 2 ^ (z + 1)) := by
  obtain ⟨h0, h1, h2⟩ := h
  have e1 : (2 : ℝ) ^ (z + 1) = 2 ^ z * 2 := by rw [zpow_add₀ (by norm_num)]; norm_num
  refine ⟨?_, ?_, ?_⟩ <;> simp only [h0, h1, h2, e1] <;> ring

theorem steps_at (e : Nat → ℝ) (c : ℝ) (z : ℤ) (h : Steps e (c * 2 ^ z)) (k : Nat) (hk : k < 3) :
    ∃ z' : ℤ, e k = c * 2 ^ z' := by
  obtain ⟨h0, h1, h2⟩ := h
  rcases k with _ | _ | _ | k
  · exact ⟨z - 1, by rw [h0, zpow_sub₀ (by norm_num)]; norm_num; ring⟩
  · exact ⟨z, h1⟩
  · exact ⟨z + 1, by rw [h2, zpow_add₀ (by norm_num)]; norm_num; ring⟩
  · omega

/-- The overlaps of the three trials of an iteration. -/
noncomputable def Args.trials (a : Args d) (lim : Option (ℝ × ℝ)) (r : Nat) (s : AState d)
    (k : Nat) : ℝ :=
  fidelity a.phaseSensitive (overlap (a.trial (pulse
    (a.aUpdate lim (a.propagators (a.uList (pulse s.u r s.bestK))) s.eps s.bestK r s.u)
    (r + 1) k)) a.target)

/-- The array with the trials of an iteration. -/
noncomputable def Args.tried (a : Args d) (lim : Option (ℝ × ℝ)) (r : Nat) (s : AState d) : Arr4 :=
  a.aUpdate lim (a.propagators (a.uList (pulse s.u r s.bestK))) s.eps s.bestK r s.u

theorem aStep_regress (a : Args d) (lim : Option (ℝ × ℝ)) (r : Nat) (s : AState d)
    (h : s.prev > a.trials lim r s (argmax3 (a.trials lim r s))) :
    a.aStep lim r s =
      { s with
        u := fun r' => if r' = r + 1 then a.tried lim r s r else a.tried lim r s r'
        eps := fun k => s.eps k / 2
        epsLog := Function.update s.epsLog r (s.eps s.bestK)
        overlapLog :=
          Function.update s.overlapLog r (a.trials lim r s (argmax3 (a.trials lim r s)))
        bestK := argmax3 (a.trials lim r s)
        uf := fun k => if k < 3 then some (a.trial (pulse (a.tried lim r s) (r + 1) k)) else none
        last := r } := if_pos h

theorem aStep_keep (a : Args d) (lim : Option (ℝ × ℝ)) (r : Nat) (s : AState d)
    (h : ¬ s.prev > a.trials lim r s (argmax3 (a.trials lim r s))) :
    a.aStep lim r s =
      { s with
        u := a.tried lim r s
        eps := fun k => if argmax3 (a.trials lim r s) = 0 then s.eps k / 2
          else if argmax3 (a.trials lim r s) = 2 then s.eps k * 2 else s.eps k
        epsLog := Function.update s.epsLog r (s.eps s.bestK)
        overlapLog :=
          Function.update s.overlapLog r (a.trials lim r s (argmax3 (a.trials lim r s)))
        bestK := argmax3 (a.trials lim r s)
        uf := fun k => if k < 3 then some (a.trial (pulse (a.tried lim r s) (r + 1) k)) else none
        last := r
        prev := a.trials lim r s (argmax3 (a.trials lim r s)) } := if_neg h

theorem aStep_common (a : Args d) (lim : Option (ℝ × ℝ)) (r : Nat) (s : AState d) :
    (a.aStep lim r s).epsLog = Function.update s.epsLog r (s.eps s.bestK) ∧
    (a.aStep lim r s).overlapLog =
      Function.update s.overlapLog r (a.trials lim r s (argmax3 (a.trials lim r s))) ∧
    (a.aStep lim r s).bestK = argmax3 (a.trials lim r s) ∧
    (a.aStep lim r s).last = r ∧
    (∀ k, k < 3 → ∃ U, (a.aStep lim r s).uf k = some U ∧
      Spec.Grape.closeness a.phaseSensitive a.target U = a.trials lim r s k) ∧
    (a.aStep lim r s).prev = max s.prev (a.trials lim r s (argmax3 (a.trials lim r s))) ∧
    ((a.aStep lim r s).eps = (fun k => s.eps k / 2) ∨ (a.aStep lim r s).eps = s.eps ∨
      (a.aStep lim r s).eps = fun k => s.eps k * 2) := by
  have hT : ∀ k, k < 3 → ∃ U, (fun k => if k < 3 then
      some (a.trial (pulse (a.tried lim r s) (r + 1) k)) else none) k = some U ∧
      Spec.Grape.closeness a.phaseSensitive a.target U = a.trials lim r s k := by
    intro k hk
    refine ⟨_, if_pos hk, ?_⟩
    rw [← fidelity_eq]; rfl
  by_cases h : s.prev > a.trials lim r s (argmax3 (a.trials lim r s))
  · rw [aStep_regress a lim r s h]
    exact ⟨rfl, rfl, rfl, rfl, hT, (max_eq_left h.le).symm, Or.inl rfl⟩
  · rw [aStep_keep a lim r s h]
    refine ⟨rfl, rfl, rfl, rfl, hT, (max_eq_right (not_lt.1 h)).symm, ?_⟩
    simp only
    generalize argmax3 _ = b
    by_cases h0 : b = 0
    · left; funext k; rw [if_pos h0]
    · by_cases h2 : b = 2
      · right; right; funext k; rw [if_neg h0, if_pos h2]
      · right; left; funext k; rw [if_neg h0, if_neg h2]

theorem aStep_inv (a : Args d) (lim : Option (ℝ × ℝ)) (eps : ℝ) (r : Nat) (s : AState d)
    (h : AInv a eps r s) : AInv a eps (r + 1) (a.aStep lim r s) := by
  obtain ⟨c1, c2, c3, c4, c5, c6, c7⟩ := aStep_common a lim r s
  obtain ⟨z, hz⟩ := h.steps
  refine ⟨?_, ?_, ?_, ?_, ?_, ?_, ?_, ?_, ?_⟩
  · rcases c7 with e | e | e <;> rw [e]
    · exact ⟨_, steps_half _ _ _ hz⟩
    · exact ⟨_, hz⟩
    · exact ⟨_, steps_double _ _ _ hz⟩
  · rw [c3]; exact argmax3_lt _
  · intro q hq
    rw [c1]
    by_cases e : q = r
    · subst e
      rw [Function.update_self]
      exact steps_at _ _ _ hz _ h.best
    · rw [Function.update_of_ne e]
      exact h.epsLog q (by omega)
  · intro q hq
    rw [c1, c2, Function.update_of_ne (by omega), Function.update_of_ne (by omega)]
    exact h.rest q (by omega)
  · rw [c6]; exact le_max_of_le_left h.nonneg
  · intro q hq
    rw [c6, c2]
    by_cases e : q = r
    · subst e
      rw [Function.update_self]
      exact le_max_right _ _
    · rw [Function.update_of_ne e]
      exact le_max_of_le_left (h.above q (by omega))
  · rw [c6, c2]
    rcases max_choice s.prev (a.trials lim r s (argmax3 (a.trials lim r s))) with e | e
    · rw [e]
      rcases h.attained with h0 | ⟨q, hq, h0⟩
      · left; exact h0
      · right
        exact ⟨q, by omega, by rw [Function.update_of_ne (by omega)]; exact h0⟩
    · right
      refine ⟨r, by omega, ?_⟩
      rw [e, Function.update_self]
  · rw [c4]; rfl
  · intro _
    obtain ⟨U, h1, h2⟩ := c5 _ (argmax3_lt (a.trials lim r s))
    refine ⟨U, by rw [c3]; exact h1, ?_⟩
    rw [c2, Nat.add_sub_cancel, Function.update_self]
    exact h2

theorem aInit_inv (a : Args d) (u : Arr) (eps : ℝ) : AInv a eps 0 (aInit u eps) := by
  refine ⟨⟨0, ?_⟩, ?_, ?_, ?_, le_refl _, ?_, Or.inl rfl, rfl, ?_⟩
  · refine ⟨?_, ?_, ?_⟩ <;> simp [aInit]
  · simp [aInit]
  · intro q hq; omega
  · intro q _; exact ⟨rfl, rfl⟩
  · intro q hq; omega
  · intro h; omega

/-- A property that every iteration preserves holds at the end, together with how the loop
ended. -/
theorem aLoop_induct (a : Args d) (lim : Option (ℝ × ℝ)) (goal : ℝ)
    (P : Nat → AState d → Prop)
    (hstep : ∀ (r : Nat) (s : AState d), P r s → P (r + 1) (a.aStep lim r s)) :
    ∀ (n r : Nat) (s : AState d), P r s →
      ∃ r', r ≤ r' ∧ r' ≤ r + n ∧ P r' (a.aLoop lim goal n r s) ∧
        (0 < n → r < r') ∧
        (r' < r + n → goal < 1 ∧ goal < (a.aLoop lim goal n r s).overlapLog (r' - 1)) := by
  intro n
  induction n with
  | zero =>
    intro r s h
    exact ⟨r, le_refl _, le_refl _, h, fun h => absurd h (lt_irrefl _),
      fun h => absurd h (lt_irrefl _)⟩
  | succ n ih =>
    intro r s h
    unfold Args.aLoop
    simp only
    by_cases c : goal < 1 ∧ (a.aStep lim r s).overlapLog r > goal
    · rw [if_pos c]
      exact ⟨r + 1, by omega, by omega, hstep r s h, fun _ => by omega, fun _ => c⟩
    · rw [if_neg c]
      obtain ⟨r', h1, h2, h3, h4, h5⟩ := ih (r + 1) _ (hstep r s h)
      exact ⟨r', by omega, by omega, h3, fun _ => by omega, fun h' => h5 (by omega)⟩

theorem runAdaptive_ok (a : Args d) (goal : ℝ) (res : AResult d)
    (h : a.runAdaptive goal = .ok res) :
    ∃ eps lim u0, a.epsVal = .ok eps ∧ a.limits = .ok lim ∧ a.init lim = .ok u0 ∧
      (2 ≤ a.nIter → 2 ≤ a.M) ∧
      (∃ s, s = a.aLoop lim goal (a.nIter - 1) 0 (aInit u0 eps) ∧
      res = { rows := s.last, u := fun r j m => s.u r j m s.bestK, uf := s.uf s.bestK
              ht := fun j m => s.u s.last j m s.bestK
              epsLog := s.epsLog, overlapLog := s.overlapLog }) := by
  unfold Args.runAdaptive at h
  generalize h1 : a.epsVal = x1 at h
  rcases x1 with e | eps
  · cases h
  simp only at h
  generalize h2 : a.limits = x2 at h
  rcases x2 with e | lim
  · cases h
  simp only at h
  generalize h3 : a.init lim = x3 at h
  rcases x3 with e | u0
  · cases h
  simp only at h
  split_ifs at h with c1
  all_goals
    cases h
    exact ⟨eps, lim, u0, rfl, rfl, h3, fun hn => by by_contra hM; exact c1 ⟨hn, by omega⟩,
      _, rfl, rfl⟩

/-- Rows stay within the limits if the start is. -/
theorem aStep_within (a : Args d) (lo hi : ℝ) (hle : lo ≤ hi) (hM : 2 ≤ a.M) (r : Nat)
    (s : AState d)
    (h : ∀ q, q ≤ r → ∀ k, k < 3 → Spec.Grape.Within lo hi a.J a.M (pulse s.u q k)) :
    ∀ q, q ≤ r + 1 → ∀ k, k < 3 →
      Spec.Grape.Within lo hi a.J a.M (pulse (a.aStep (some (lo, hi)) r s).u q k) := by
  intro q hq k hk
  have hu : ∀ q, q ≤ r + 1 → Spec.Grape.Within lo hi a.J a.M (pulse (a.aUpdate (some (lo, hi))
      (a.propagators (a.uList (pulse s.u r s.bestK))) s.eps s.bestK r s.u) q k) := by
    intro q hq j hj m hm
    rw [aUpdate_eq _ _ _ _ _ _ _ hM]
    unfold pulse nextArr4
    by_cases e : q = r + 1
    · rw [if_pos ⟨e, hj, hm, hk⟩]
      exact clipElif_mem lo hi _ hle
    · rw [if_neg (fun h => e h.1)]
      exact h q (by omega) k hk j hj m hm
  by_cases c : s.prev > a.trials (some (lo, hi)) r s (argmax3 (a.trials (some (lo, hi)) r s))
  · rw [aStep_regress _ _ _ _ c]
    by_cases e : q = r + 1
    · intro j hj m hm
      simp only [pulse, if_pos e]
      exact hu r (by omega) j hj m hm
    · intro j hj m hm
      simp only [pulse, if_neg e]
      exact hu q hq j hj m hm
  · rw [aStep_keep _ _ _ _ c]
    exact hu q hq

end QTrl.Grape
