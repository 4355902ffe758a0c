import Verif.Spec.Symplectic
import Verif.Proofs.Unitary
import Verif.Proofs.Loop

/-
Facts about the symplectic form, exponentials of Hamiltonian matrices, and the phase
configuration of `DynamicsSymplectic`.
-/

set_option linter.unusedSectionVars false

open Matrix

namespace QTrl.Sympl

open QTrl.Dyn QTrl.Spec QTrl.MatExp

/-- The value of one entry of the array. -/
noncomputable def omegaEntry (n j k : Nat) : ℂ :=
  if j < 2 * n ∧ k < 2 * n then
    if k = j + 1 then (1 + (-1) ^ j) / 2
    else if (k : Int) = (j : Int) - 1 then -(1 - (-1) ^ j) / 2 else 0
  else 0

theorem update2_apply {α : Type} (a : Nat → Nat → α) (j k : Nat) (v : α) (j' k' : Nat) :
    update2 a j k v j' k' = if j' = j ∧ k' = k then v else a j' k' := by
  unfold update2
  by_cases h1 : j' = j
  · subst h1
    by_cases h2 : k' = k
    · subst h2; simp
    · simp [h2]
  · simp [h1]

theorem calcOmega_entry (n j k : Nat) : calcOmega n j k = omegaEntry n j k := by
  have key : ∀ j' k', calcOmega n j' k' =
      if j' < 2 * n then omegaEntry n j' k' else 0 := by
    unfold calcOmega
    refine forRange_inv (fun i (om : Nat → Nat → ℂ) => ∀ j' k', om j' k' =
      if j' < i then omegaEntry n j' k' else 0) (by simp) ?_
    intro i om hi ih
    have inner : ∀ j' k', (forRange (2 * n) (fun k (omg : Nat → Nat → ℂ) =>
        let omg := if k = i + 1 then update2 omg i k ((1 + (-1) ^ i) / 2) else omg
        if (k : Int) = (i : Int) - 1 then update2 omg i k (-(1 - (-1) ^ i) / 2) else omg) om) j' k' =
        if j' = i ∧ k' < 2 * n then omegaEntry n j' k' else om j' k' := by
      refine forRange_inv (fun l (o : Nat → Nat → ℂ) => ∀ j' k', o j' k' =
        if j' = i ∧ k' < l then omegaEntry n j' k' else om j' k') (by simp) ?_
      intro l o hl ihl j' k'
      have h0 : ∀ k', om i k' = 0 := fun k' => by rw [ih]; simp
      by_cases c1 : l = i + 1
      · have c2 : ¬ (l : Int) = (i : Int) - 1 := by omega
        rw [if_pos c1, if_neg c2, update2_apply, ihl]
        by_cases e1 : j' = i
        · subst e1
          by_cases e2 : k' = l
          · subst e2
            simp [omegaEntry, hi, c1]
            omega
          · by_cases e3 : k' < l
            · simp [e2, e3, Nat.lt_succ_of_lt e3]
            · have : ¬ k' < l + 1 := by omega
              simp [e2, e3, this]
        · simp [e1]
      · rw [if_neg c1]
        by_cases c2 : (l : Int) = (i : Int) - 1
        · rw [if_pos c2, update2_apply, ihl]
          by_cases e1 : j' = i
          · subst e1
            by_cases e2 : k' = l
            · subst e2
              simp [omegaEntry, hi, hl, c1, c2]
            · by_cases e3 : k' < l
              · simp [e2, e3, Nat.lt_succ_of_lt e3]
              · have : ¬ k' < l + 1 := by omega
                simp [e2, e3, this]
          · simp [e1]
        · rw [if_neg c2, ihl]
          by_cases e1 : j' = i
          · subst e1
            by_cases e2 : k' = l
            · subst e2
              simp [omegaEntry, c1, c2, h0]
            · by_cases e3 : k' < l
              · simp [e3, Nat.lt_succ_of_lt e3]
              · have : ¬ k' < l + 1 := by omega
                simp [e3, this]
          · simp [e1]
    intro j' k'
    refine (inner j' k').trans ?_
    by_cases e1 : j' = i
    · subst e1
      by_cases e2 : k' < 2 * n
      · simp [e2]
      · simp [e2, ih, omegaEntry]
    · rw [if_neg (by simp [e1]), ih]
      by_cases e3 : j' < i
      · simp [e3, Nat.lt_succ_of_lt e3]
      · have : ¬ j' < i + 1 := by omega
        simp [e3, this]
  rw [key]
  by_cases h : j < 2 * n
  · rw [if_pos h]
  · rw [if_neg h, omegaEntry, if_neg (by simp [h])]

theorem omega_eq_stdForm (n : Nat) : omega n = stdForm n := by
  ext ⟨j, hj⟩ ⟨k, hk⟩
  simp only [omega, stdForm, Matrix.of_apply, calcOmega_entry, omegaEntry, hj, hk, and_self, if_true]
  rcases Nat.even_or_odd' j with ⟨i, rfl | rfl⟩
  · by_cases h1 : k = 2 * i + 1
    · subst h1
      have e1 : 2 * i / 2 = (2 * i + 1) / 2 := by omega
      rw [if_pos rfl, if_pos e1, if_pos (by omega)]
      simp
    · rw [if_neg h1]
      by_cases h2 : (k : Int) = ((2 * i : Nat) : Int) - 1
      · have e1 : ¬ 2 * i / 2 = k / 2 := by omega
        rw [if_pos h2, if_neg e1]
        simp
      · rw [if_neg h2]
        by_cases h3 : 2 * i / 2 = k / 2
        · have : k = 2 * i := by omega
          subst this
          simp
        · rw [if_neg h3]
  · by_cases h1 : k = 2 * i + 1 + 1
    · subst h1
      have e1 : ¬ (2 * i + 1) / 2 = (2 * i + 1 + 1) / 2 := by omega
      rw [if_pos rfl, if_neg e1]
      simp [pow_succ]
    · rw [if_neg h1]
      by_cases h2 : (k : Int) = ((2 * i + 1 : Nat) : Int) - 1
      · have : k = 2 * i := by omega
        subst this
        have e1 : (2 * i + 1) / 2 = 2 * i / 2 := by omega
        rw [if_pos h2, if_pos e1, if_neg (by omega), if_pos (by omega)]
        simp [pow_succ]
      · rw [if_neg h2]
        by_cases h3 : (2 * i + 1) / 2 = k / 2
        · have : k = 2 * i + 1 := by omega
          subst this
          simp
        · rw [if_neg h3]

theorem stdForm_transpose (n : Nat) : (stdForm n)ᵀ = -stdForm n := by
  ext ⟨j, hj⟩ ⟨k, hk⟩
  simp only [stdForm, Matrix.transpose_apply, Matrix.of_apply, Matrix.neg_apply]
  by_cases h : k / 2 = j / 2
  · rw [if_pos h, if_pos h.symm]
    rcases Nat.lt_trichotomy j k with h1 | h1 | h1
    · rw [if_neg (by omega), if_pos h1, if_pos h1]
    · subst h1; simp
    · rw [if_pos h1, if_neg (by omega), if_pos h1]; simp
  · rw [if_neg h, if_neg (fun e => h e.symm)]; simp

/-- The partner of an index: `2i ↔ 2i+1`. -/
def partner {n : Nat} (j : Fin (2 * n)) : Fin (2 * n) :=
  ⟨if j.val % 2 = 0 then j.val + 1 else j.val - 1, by have := j.isLt; split <;> omega⟩

theorem stdForm_sq (n : Nat) : stdForm n * stdForm n = -1 := by
  ext j k
  rw [Matrix.mul_apply, Finset.sum_eq_single (partner j)]
  · obtain ⟨j, hj⟩ := j
    obtain ⟨k, hk⟩ := k
    simp only [stdForm, Matrix.of_apply, partner, Matrix.neg_apply, Matrix.one_apply, Fin.mk.injEq]
    rcases Nat.even_or_odd' j with ⟨i, rfl | rfl⟩
    · have e0 : 2 * i % 2 = 0 := by omega
      have e1 : 2 * i / 2 = (2 * i + 1) / 2 := by omega
      simp only [e0, if_true, ← e1, show 2 * i < 2 * i + 1 by omega]
      by_cases h : 2 * i = k
      · subst h; simp
      · rw [if_neg h]
        by_cases h2 : 2 * i / 2 = k / 2
        · have : k = 2 * i + 1 := by omega
          subst this; simp
        · rw [if_neg h2]; simp
    · have e0 : ¬ (2 * i + 1) % 2 = 0 := by omega
      have e1 : (2 * i + 1) / 2 = 2 * i / 2 := by omega
      simp only [e0, if_false, e1, Nat.add_sub_cancel, show ¬ 2 * i + 1 < 2 * i by omega,
        show 2 * i < 2 * i + 1 by omega, if_true]
      by_cases h : 2 * i + 1 = k
      · subst h; simp [e1]
      · rw [if_neg h]
        by_cases h2 : 2 * i / 2 = k / 2
        · have : k = 2 * i := by omega
          subst this; simp
        · rw [if_neg h2]; simp
  · intro l _ hl
    have : stdForm n j l = 0 := by
      obtain ⟨j, hj⟩ := j
      obtain ⟨l, hl'⟩ := l
      simp only [stdForm, Matrix.of_apply]
      simp only [partner, ne_eq, Fin.mk.injEq] at hl
      by_cases h : j / 2 = l / 2
      · rw [if_pos h]
        split at hl <;> (rw [if_neg (by omega), if_neg (by omega)])
      · rw [if_neg h]
    rw [this, zero_mul]
  · intro h; exact absurd (Finset.mem_univ _) h

section
variable {d : Type} [Fintype d] [DecidableEq d]

/-- The exponential of a Hamiltonian matrix is symplectic. -/
theorem exp_symplectic {om X : Matrix d d ℂ} (h : Xᵀ * om + om * X = 0) :
    IsSymplectic om (NormedSpace.exp X) := by
  have h1 : om * X = (-Xᵀ) * om := by
    rw [Matrix.neg_mul]
    exact eq_neg_of_add_eq_zero_right h
  have h2 := semiconj_exp h1
  unfold IsSymplectic
  rw [Matrix.mul_assoc, h2, ← Matrix.mul_assoc, ← Matrix.exp_transpose,
    ← Matrix.exp_add_of_commute _ _ (Commute.neg_right (Commute.refl Xᵀ)), add_neg_cancel]
  have : (NormedSpace.exp (0 : Matrix d d ℂ)) = 1 := by
    let : NormedRing (Matrix d d ℂ) := Matrix.linftyOpNormedRing
    let : NormedAlgebra ℂ (Matrix d d ℂ) := Matrix.linftyOpNormedAlgebra
    let : NormedAlgebra ℚ (Matrix d d ℂ) := NormedAlgebra.restrictScalars ℚ ℂ _
    exact NormedSpace.exp_zero
  rw [this, Matrix.one_mul]

theorem _root_.QTrl.Spec.IsSymplectic.one (om : Matrix d d ℂ) : IsSymplectic om 1 := by
  simp [IsSymplectic]

theorem _root_.QTrl.Spec.IsSymplectic.mul {om P Q : Matrix d d ℂ} (hP : IsSymplectic om P) (hQ : IsSymplectic om Q) :
    IsSymplectic om (P * Q) := by
  unfold IsSymplectic at *
  rw [Matrix.transpose_mul]
  calc Qᵀ * Pᵀ * om * (P * Q) = Qᵀ * (Pᵀ * om * P) * Q := by simp only [Matrix.mul_assoc]
    _ = om := by rw [hP, hQ]

theorem timeOrdered_symplectic {om : Matrix d d ℂ} {p : Nat → Matrix d d ℂ} {lo hi : Nat}
    (hle : lo ≤ hi) (h : ∀ k, lo ≤ k → k < hi → IsSymplectic om (p k)) :
    IsSymplectic om (timeOrdered p lo hi) := by
  induction hi with
  | zero =>
    have : lo = 0 := by omega
    subst this
    rw [timeOrdered_self]
    exact .one om
  | succ hi ih =>
    rcases Nat.lt_or_ge hi lo with hlt | hge
    · have : lo = hi + 1 := by omega
      subst this
      rw [timeOrdered_self]
      exact .one om
    · rw [timeOrdered_succ p hge]
      exact (h hi hge (Nat.lt_succ_self _)).mul (ih hge fun k h1 h2 => h k h1 (by omega))

end

/-! ### Phase configuration -/

section
variable {d : Type} [Fintype d]

/-- What the phase attributes can be without customised application. -/
def Good (om : Matrix d d ℂ) (s : PhaseState d) : Prop :=
  pyLower s.app ≠ "custom" ∧ (s.cached = none ∨ s.cached = some om ∨ s.cached = some (-om))

theorem getDynGenPhase_ok {om : Matrix d d ℂ} {v : String} {r : Option (Matrix d d ℂ)}
    (hv : pyLower v ≠ "custom") (h : getDynGenPhase om v = .ok r) :
    r = some om ∨ r = some (-om) := by
  unfold getDynGenPhase at h
  split at h
  · cases h; exact .inr rfl
  · split at h
    · cases h; exact .inl rfl
    · split at h
      · rename_i h3
        subst h3
        exact absurd (by decide) hv
      · cases h

theorem readPhase_good {om : Matrix d d ℂ} {s : PhaseState d} (h : Good om s) :
    Good om (readPhase om s).1 ∧ (readPhase om s).1.app = s.app ∧
    (readPhase om s).1.applied = s.applied ∧ (readPhase om s).1.evoInit = s.evoInit ∧
    ∀ r, (readPhase om s).2 = .ok r → (readPhase om s).1.cached = r ∧ r ≠ none := by
  unfold readPhase
  split
  · rename_i ph hc
    refine ⟨h, rfl, rfl, rfl, fun r hr => ?_⟩
    cases hr
    exact ⟨hc, by simp⟩
  · split
    · exact ⟨h, rfl, rfl, rfl, fun r hr => by cases hr⟩
    · rename_i ph hg
      have := getDynGenPhase_ok h.1 hg
      refine ⟨⟨h.1, .inr this⟩, rfl, rfl, rfl, fun r hr => ?_⟩
      cases hr
      refine ⟨rfl, ?_⟩
      rcases this with h | h <;> simp [h]

theorem setPhaseApp_good {om : Matrix d d ℂ} {s : PhaseState d} (h : Good om s) {v : String}
    (hv : pyLower v ≠ "custom") : Good om (setPhaseApp om s v).1 := by
  unfold setPhaseApp
  split
  · exact h
  · simp only
    split
    · split
      · exact ⟨hv, h.2⟩
      · rename_i ph hg
        have := getDynGenPhase_ok hv hg
        refine ⟨hv, .inr ?_⟩
        simpa using this
      · exact ⟨hv, h.2⟩
    · exact ⟨hv, h.2⟩

theorem initPhase_good {om : Matrix d d ℂ} {s : PhaseState d} (h : Good om s) :
    Good om (initPhase om s).1 := by
  have hr := readPhase_good h
  unfold initPhase
  generalize readPhase om s = x at hr
  obtain ⟨s', r⟩ := x
  rcases r with e | _ | ph
  · exact hr.1
  · exact ⟨hr.1.1, hr.1.2⟩
  · simp only
    split
    · exact hr.1
    · exact ⟨hr.1.1, hr.1.2⟩

theorem phaseRun_good {om : Matrix d d ℂ} (ops : List PhaseOp)
    (h : ∀ v, PhaseOp.setApp v ∈ ops → pyLower v ≠ "custom") : Good om (phaseRun om ops) := by
  unfold phaseRun
  have h0 : Good om (PhaseState.fresh : PhaseState d) :=
    ⟨by show pyLower "postop" ≠ "custom"; decide, .inl rfl⟩
  generalize PhaseState.fresh = s at h0
  induction ops generalizing s with
  | nil => exact h0
  | cons op ops ih =>
    refine ih (fun v hv => h v (List.mem_cons_of_mem _ hv)) _ ?_
    cases op with
    | setApp v => exact setPhaseApp_good h0 (h v List.mem_cons_self)
    | read => exact (readPhase_good h0).1
    | init => exact initPhase_good h0

theorem configPhase_ok {v : String} {old ap : Applied} (hv : pyLower v ≠ "custom")
    (h : configPhase v old = .ok ap) : ap = .pre ∨ ap = .post := by
  unfold configPhase at h
  split at h
  · cases h; exact .inl rfl
  · split at h
    · cases h; exact .inr rfl
    · cases h

/-- After a successful initialisation the phase is the form, up to sign, applied from
one side. -/
theorem initPhase_phase {om : Matrix d d ℂ} {s : PhaseState d} (h : Good om s)
    (hok : (initPhase om s).2 = .ok ()) : ∃ z : ℂ, (z = 1 ∨ z = -1) ∧
      ((initPhase om s).1.phase = some (fun A => (z • om) * A) ∨
        (initPhase om s).1.phase = some (fun A => A * (z • om))) := by
  have hr := readPhase_good h
  unfold initPhase at hok ⊢
  generalize readPhase om s = x at hr hok ⊢
  obtain ⟨s', r⟩ := x
  rcases r with e | _ | ph
  · cases hok
  · exact absurd rfl (hr.2.2.2.2 none rfl).2
  · have hc : s'.cached = some ph := (hr.2.2.2.2 _ rfl).1
    have hg := hr.1.2
    simp only [hc] at hg
    obtain ⟨z, hz, e⟩ : ∃ z : ℂ, (z = 1 ∨ z = -1) ∧ ph = z • om := by
      rcases hg with h | h | h
      · cases h
      · exact ⟨1, .inl rfl, by simpa using h⟩
      · exact ⟨-1, .inr rfl, by simpa using h⟩
    refine ⟨z, hz, ?_⟩
    simp only at hok ⊢
    split at hok
    · cases hok
    · rename_i ap hap
      simp only [PhaseState.phase, hc]
      rcases configPhase_ok hr.1.1 hap with rfl | rfl
      · left; simp [e]
      · right; simp [e]

end

end QTrl.Sympl
