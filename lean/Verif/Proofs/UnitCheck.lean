import Verif.Model.UnitCheck
import Verif.Spec.UnitCheck
import Verif.Proofs.Unitary

/-
The loop of the unitarity check, and which operators pass the test.
-/

set_option linter.unusedSectionVars false

open Matrix

namespace QTrl.Dyn

open QTrl.Spec

variable {d m : Type} [Fintype d] [DecidableEq d] [Fintype m] [DecidableEq m]

theorem isUnitary_of_not_deviates {tol : ℝ} {A : Matrix d d ℂ} (h : ¬ Deviates tol A) :
    isUnitary tol A = true := by
  unfold isUnitary
  rw [decide_eq_true_eq]
  intro i j
  have h1 : ‖(1 : Matrix d d ℂ) i j - (A * Aᴴ) i j‖ ≤ tol := by
    by_contra hc
    exact h ⟨i, j, not_le.1 hc⟩
  have h2 : (0 : ℝ) ≤ 1e-5 * ‖(A * Aᴴ) i j‖ := by positivity
  linarith

theorem isUnitary_of_unitary {tol : ℝ} (ht : 0 ≤ tol) {A : Matrix d d ℂ}
    (h : A ∈ Matrix.unitaryGroup d ℂ) : isUnitary tol A = true := by
  apply isUnitary_of_not_deviates
  rintro ⟨i, j, hd⟩
  have h1 : A * Aᴴ = 1 := by
    have := (Matrix.mem_unitaryGroup_iff).1 h
    rwa [star_eq_conjTranspose] at this
  rw [h1, sub_self, norm_zero] at hd
  linarith

theorem not_isUnitary_of_deviates {tol : ℝ} {A : Matrix d d ℂ}
    (h : Deviates ((tol + 1e-5) / (1 - 1e-5)) A) : isUnitary tol A = false := by
  obtain ⟨i, j, hd⟩ := h
  unfold isUnitary
  rw [decide_eq_false_iff_not]
  intro hc
  have h1 := hc i j
  have h2 : ‖(A * Aᴴ) i j‖ ≤ 1 + ‖(1 : Matrix d d ℂ) i j - (A * Aᴴ) i j‖ := by
    have e : (A * Aᴴ) i j = (1 : Matrix d d ℂ) i j - ((1 : Matrix d d ℂ) i j - (A * Aᴴ) i j) := by
      ring
    have h3 : ‖(1 : Matrix d d ℂ) i j‖ ≤ 1 := by
      rw [Matrix.one_apply]
      split <;> simp
    calc ‖(A * Aᴴ) i j‖
        = ‖(1 : Matrix d d ℂ) i j - ((1 : Matrix d d ℂ) i j - (A * Aᴴ) i j)‖ := by rw [← e]
      _ ≤ ‖(1 : Matrix d d ℂ) i j‖ + ‖(1 : Matrix d d ℂ) i j - (A * Aᴴ) i j‖ := norm_sub_le _ _
      _ ≤ _ := by linarith
  rw [div_lt_iff₀ (by norm_num)] at hd
  linarith

theorem not_isUnitary_of_deviatesOff {tol : ℝ} {A : Matrix d d ℂ}
    (h : DeviatesOff (tol / (1 - 1e-5)) A) : isUnitary tol A = false := by
  obtain ⟨i, j, hij, hd⟩ := h
  unfold isUnitary
  rw [decide_eq_false_iff_not]
  intro hc
  have h1 := hc i j
  rw [Matrix.one_apply_ne hij, zero_sub, norm_neg] at h1
  rw [div_lt_iff₀ (by norm_num)] at hd
  linarith

/-- What the check of one slot adds to the log when the decomposition exists. -/
noncomputable def slotRecs (cfg : CheckCfg d) (s : State d m (Decomp d)) (k : Nat) :
    List CheckRec :=
  (if isUnitary cfg.tol (s.prop k) then [] else [.notUnitary k]) ++
  (if isUnitary cfg.tol (s.prop k) = false ∨ cfg.level > 1 then
    [.details k (isUnitary cfg.tol (s.prop k)) (cfg.herm (s.dynGen k))
      (isUnitary cfg.tol (diagonal (s.decomp k).propEig))
      (isUnitary cfg.tol (s.decomp k).eigVec)
      (if cfg.cacheAdj then some (isUnitary cfg.tol (s.decomp k).eigVecᴴ) else none)]
   else [])

theorem checkSlot_diag (cfg : CheckCfg d) (s : State d m (Decomp d)) (k : Nat)
    (log : List CheckRec) :
    checkSlot cfg true s k (log, .ok ()) = (log ++ slotRecs cfg s k, .ok ()) := by
  unfold checkSlot slotRecs
  cases isUnitary cfg.tol (s.prop k) <;> by_cases hl : cfg.level > 1 <;> simp [hl]

theorem checkLoop_diag (cfg : CheckCfg d) (s : State d m (Decomp d)) (n : Nat) :
    forRange n (checkSlot cfg true s) ([], .ok ()) =
      ((List.range n).flatMap (slotRecs cfg s), .ok ()) := by
  induction n with
  | zero => rfl
  | succ n ih =>
    rw [forRange, List.range_succ, List.foldl_append]
    have : (List.range n).foldl (fun t k => checkSlot cfg true s k t) ([], .ok ()) =
        ((List.range n).flatMap (slotRecs cfg s), .ok ()) := ih
    rw [this]
    simp [checkSlot_diag]

theorem checkSlot_pass {cfg : CheckCfg d} {b : Bool} {s : State d m (Decomp d)} {k : Nat}
    (hl : cfg.level ≤ 1) (h : isUnitary cfg.tol (s.prop k) = true) (log : List CheckRec) :
    checkSlot cfg b s k (log, .ok ()) = (log, .ok ()) := by
  unfold checkSlot
  simp [h, not_lt.2 hl]

theorem checkLoop_pass {cfg : CheckCfg d} {b : Bool} {s : State d m (Decomp d)} {n : Nat}
    (hl : cfg.level ≤ 1) (h : ∀ k, k < n → isUnitary cfg.tol (s.prop k) = true) :
    forRange n (checkSlot cfg b s) ([], .ok ()) = ([], .ok ()) := by
  induction n with
  | zero => rfl
  | succ n ih =>
    rw [forRange, List.range_succ, List.foldl_append]
    have : (List.range n).foldl (fun t k => checkSlot cfg b s k t) ([], .ok ()) = ([], .ok ()) :=
      ih fun k hk => h k (by omega)
    rw [this]
    exact checkSlot_pass hl (h n (by omega)) _

theorem checkSlot_error {cfg : CheckCfg d} {b : Bool} {s : State d m (Decomp d)} {k : Nat}
    {log : List CheckRec} {e : PyErr} :
    checkSlot cfg b s k (log, .error e) = (log, .error e) := rfl

theorem checkFold_error {cfg : CheckCfg d} {b : Bool} {s : State d m (Decomp d)} {l : List Nat}
    {log : List CheckRec} {e : PyErr} :
    l.foldl (fun t k => checkSlot cfg b s k t) (log, .error e) = (log, .error e) := by
  induction l with
  | nil => rfl
  | cons k l ih => rw [List.foldl_cons, checkSlot_error, ih]

/-- Without the lists of the decomposition the first slot that is looked into ends the check. -/
theorem checkFold_fail {cfg : CheckCfg d} {s : State d m (Decomp d)} {l : List Nat}
    (h : ∃ k ∈ l, isUnitary cfg.tol (s.prop k) = false ∨ cfg.level > 1) (log : List CheckRec) :
    ∃ log', l.foldl (fun t k => checkSlot cfg false s k t) (log, .ok ()) =
      (log', .error .typeError) := by
  induction l generalizing log with
  | nil => obtain ⟨k, hk, _⟩ := h; cases hk
  | cons k l ih =>
    rw [List.foldl_cons]
    by_cases hk : isUnitary cfg.tol (s.prop k) = false ∨ cfg.level > 1
    · have e : ∃ log', checkSlot cfg false s k (log, .ok ()) = (log', .error .typeError) := by
        unfold checkSlot
        rcases hk with hk | hk
        · exact ⟨_, by simp [hk]; rfl⟩
        · exact ⟨_, by simp [hk]; rfl⟩
      obtain ⟨log', e⟩ := e
      exact ⟨log', by rw [e, checkFold_error]⟩
    · obtain ⟨k', hk', h'⟩ := h
      have hm : k' ∈ l := by
        rcases List.mem_cons.1 hk' with rfl | hm
        · exact absurd h' hk
        · exact hm
      have h1 : isUnitary cfg.tol (s.prop k) = true := by
        cases hu : isUnitary cfg.tol (s.prop k)
        · exact absurd (.inl hu) hk
        · rfl
      rw [checkSlot_pass (not_lt.1 fun hl => hk (.inr hl)) h1]
      exact ih ⟨k', hm, h'⟩ log

/-! ### The decompositions after a recomputation -/

theorem ensureDecomp_curr {D : Type} (S : Sys d m D) (s : State d m D) (k : Nat) :
    (ensureDecomp S s k).decompCurr k = true ∧
      ∀ i, s.decompCurr i = true → (ensureDecomp S s k).decompCurr i = true := by
  unfold ensureDecomp
  split
  · next h => exact ⟨h, fun _ h => h⟩
  · refine ⟨by simp, fun i hi => ?_⟩
    by_cases hik : i = k
    · subst hik; simp
    · simp only [Function.update_of_ne hik]; exact hi

theorem propBody_curr {D : Type} (S : Sys d m D) (hS : Valid S) (hd : S.propKind = .diag) (k : Nat)
    (s : State d m D) :
    (propBody S k s).decompCurr k = true ∧
      ∀ i, s.decompCurr i = true → (propBody S k s).decompCurr i = true := by
  unfold propBody
  split
  · have := forRange_inv (n := S.nCtrls) (s := s) (b := fun j s =>
        if j = 0 then
          let (s, p) := computeProp S s k
          let (s, g) := computeGrad S s k j
          { s with prop := Function.update s.prop k p, propGrad := update2 s.propGrad k j g }
        else
          let (s, g) := computeGrad S s k j
          { s with propGrad := update2 s.propGrad k j g })
      (fun i t => (0 < i → t.decompCurr k = true) ∧
        ∀ i, s.decompCurr i = true → t.decompCurr i = true) ⟨by omega, fun _ h => h⟩ ?_
    · exact ⟨this.1 hS.ctrls, this.2⟩
    · rintro j t _ ⟨_, h2⟩
      by_cases hj : j = 0
      · subst hj
        simp only [if_true, computeProp, computeGrad, hd]
        refine ⟨fun _ => ?_, fun i hi => ?_⟩
        · exact (ensureDecomp_curr S _ k).1
        · exact (ensureDecomp_curr S _ k).2 i ((ensureDecomp_curr S t k).2 i (h2 i hi))
      · simp only [hj, if_false, computeGrad, hd]
        exact ⟨fun _ => (ensureDecomp_curr S t k).1,
          fun i hi => (ensureDecomp_curr S t k).2 i (h2 i hi)⟩
  · simp only [computeProp, hd]
    exact ⟨(ensureDecomp_curr S s k).1, (ensureDecomp_curr S s k).2⟩

theorem propLoop_curr {D : Type} (S : Sys d m D) (hS : Valid S) (hd : S.propKind = .diag)
    (s : State d m D) :
    ∀ k, k < S.nTs → (forRange S.nTs (propBody S) s).decompCurr k = true := by
  have := forRange_inv (n := S.nTs) (s := s) (b := propBody S)
    (fun i t => ∀ k, k < i → t.decompCurr k = true) (by intro k hk; omega) ?_
  · exact this
  · intro i t _ h k hk
    by_cases hki : k = i
    · subst hki; exact (propBody_curr S hS hd k t).1
    · exact (propBody_curr S hS hd i t).2 k (h k (by omega))

theorem recompute_curr {D : Type} (S : Sys d m D) (hS : Valid S) (hd : S.propKind = .diag)
    (amps : Amps) (s : State d m D) :
    ∀ k, k < S.nTs → (recompute S amps s).decompCurr k = true := by
  intro k hk
  have := propLoop_curr S hS hd (genLoop S amps
    { s with numRecompute := s.numRecompute + 1, views := {} }) k hk
  unfold recompute
  dsimp only
  split <;> split <;> exact this

end QTrl.Dyn
