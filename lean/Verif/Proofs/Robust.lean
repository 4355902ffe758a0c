import Verif.Spec.Robust
import Verif.Spec.Evolution
import Verif.Proofs.Motion
import Verif.Proofs.Unitary
import Mathlib.Analysis.Calculus.Deriv.Star

/-
Distances between evolutions.
-/

open Matrix QTrl.Dyn

namespace QTrl.Spec

variable {d m l : Type} [Fintype d] [DecidableEq d] [Fintype m] [DecidableEq m] [Fintype l]
  [DecidableEq l]

open scoped Matrix.Norms.L2Operator

set_option linter.unusedSectionVars false

theorem opNorm_nonneg (M : Matrix d m ℂ) : 0 ≤ opNorm M := norm_nonneg _

theorem opNorm_mul (M : Matrix d m ℂ) (N : Matrix m l ℂ) : opNorm (M * N) ≤ opNorm M * opNorm N :=
  Matrix.l2_opNorm_mul M N

theorem opNorm_add (M N : Matrix d m ℂ) : opNorm (M + N) ≤ opNorm M + opNorm N := norm_add_le _ _

theorem opNorm_smul (z : ℂ) (M : Matrix d m ℂ) : opNorm (z • M) = ‖z‖ * opNorm M := norm_smul _ _

theorem opNorm_sum {ι : Type} (s : Finset ι) (M : ι → Matrix d m ℂ) :
    opNorm (∑ i ∈ s, M i) ≤ ∑ i ∈ s, opNorm (M i) := norm_sum_le _ _

theorem opNorm_sub_comm (M N : Matrix d m ℂ) : opNorm (M - N) = opNorm (N - M) := norm_sub_rev _ _

theorem opNorm_zero : opNorm (0 : Matrix d m ℂ) = 0 := norm_zero

theorem opNorm_conjTranspose (M : Matrix d m ℂ) : opNorm Mᴴ = opNorm M :=
  Matrix.l2_opNorm_conjTranspose M

theorem opNorm_one_le : opNorm (1 : Matrix d d ℂ) ≤ 1 := by
  unfold opNorm
  rw [← Matrix.diagonal_one, Matrix.l2_opNorm_diagonal]
  exact (pi_norm_le_iff_of_nonneg zero_le_one).2 fun _ => by simp

/-- Orthonormal columns. -/
theorem opNorm_isometry {X : Matrix d m ℂ} (h : Xᴴ * X = 1) : opNorm X ≤ 1 := by
  have h1 : ‖Xᴴ * X‖ = ‖X‖ * ‖X‖ := Matrix.l2_opNorm_conjTranspose_mul_self X
  have h2 : ‖(1 : Matrix m m ℂ)‖ ≤ 1 := opNorm_one_le
  rw [h] at h1
  unfold opNorm
  nlinarith [norm_nonneg X]

theorem opNorm_unitary_mul {U : Matrix d d ℂ} (hU : U ∈ Matrix.unitaryGroup d ℂ) (M : Matrix d m ℂ) :
    opNorm (U * M) = opNorm M := by
  have hu : Uᴴ * U = 1 := (Matrix.mem_unitaryGroup_iff'.1 hU)
  have hu' : U * Uᴴ = 1 := (Matrix.mem_unitaryGroup_iff.1 hU)
  apply le_antisymm
  · have := opNorm_mul U M
    have h1 := opNorm_isometry hu
    nlinarith [opNorm_nonneg M]
  · have := opNorm_mul Uᴴ (U * M)
    have h1 := opNorm_isometry hu
    rw [← opNorm_conjTranspose] at h1
    rw [← Matrix.mul_assoc, hu, Matrix.one_mul] at this
    nlinarith [opNorm_nonneg (U * M)]

theorem opNorm_mul_isometry {X : Matrix m l ℂ} (hX : Xᴴ * X = 1) (M : Matrix d m ℂ) :
    opNorm (M * X) ≤ opNorm M := by
  have := opNorm_mul M X
  have := opNorm_isometry hX
  nlinarith [opNorm_nonneg M]

/-- An entry is no larger than the norm. -/
theorem entry_le_opNorm (M : Matrix d m ℂ) (i : d) (j : m) : ‖M i j‖ ≤ opNorm M := by
  have h := Matrix.l2_opNorm_mulVec M (EuclideanSpace.single j (1 : ℂ))
  have h1 : ‖(WithLp.toLp 2 (M *ᵥ (EuclideanSpace.single j (1 : ℂ)).ofLp) : EuclideanSpace ℂ d)‖ ≤
      opNorm M := by
    simpa [opNorm] using h
  refine le_trans ?_ (le_trans (PiLp.norm_apply_le _ i) h1)
  simp

theorem norm_trace_le (M : Matrix m m ℂ) : ‖M.trace‖ ≤ Fintype.card m * opNorm M := by
  unfold Matrix.trace
  refine (norm_sum_le _ _).trans ((Finset.sum_le_sum fun i _ => entry_le_opNorm M i i).trans ?_)
  simp

/-- The exponential of a skew-Hermitian matrix is unitary. -/
theorem exp_skew_unitary {A : Matrix d d ℂ} (h : Aᴴ = -A) :
    NormedSpace.exp A ∈ Matrix.unitaryGroup d ℂ := by
  rw [Matrix.mem_unitaryGroup_iff']
  show (NormedSpace.exp A)ᴴ * _ = 1
  rw [← Matrix.exp_conjTranspose, h, ← Matrix.exp_add_of_commute _ _ (Commute.refl A).neg_left]
  simp

theorem skew_real_smul {A : Matrix d d ℂ} (h : Aᴴ = -A) (t : ℝ) : ((t : ℂ) • A)ᴴ = -((t : ℂ) • A) := by
  rw [Matrix.conjTranspose_smul, h, smul_neg]
  simp

/-- Derivatives entry by entry give the derivative of the matrix. -/
theorem hasDerivWithinAt_of_entries {X : ℝ → Matrix d m ℂ} {X' : Matrix d m ℂ} {s : Set ℝ} {t : ℝ}
    (h : ∀ i j, HasDerivWithinAt (fun u => X u i j) (X' i j) s t) : HasDerivWithinAt X X' s t := by
  have h1 : HasDerivWithinAt (fun u => ∑ i, ∑ j, (X u i j) • Matrix.single i j (1 : ℂ))
      (∑ i, ∑ j, (X' i j) • Matrix.single i j (1 : ℂ)) s t :=
    HasDerivWithinAt.fun_sum fun i _ => HasDerivWithinAt.fun_sum fun j _ => (h i j).smul_const _
  have e : ∀ M : Matrix d m ℂ, ∑ i, ∑ j, (M i j) • Matrix.single i j (1 : ℂ) = M := by
    intro M
    conv_rhs => rw [Matrix.matrix_eq_sum_single M]
    simp [Matrix.smul_single]
  simp only [e] at h1
  exact h1

/-- A curve moves no further than its largest speed times the elapsed time. -/
theorem opNorm_sub_le_of_deriv {X X' : ℝ → Matrix d m ℂ} {a b δ : ℝ} (hab : a ≤ b)
    (h : ∀ t ∈ Set.Icc a b, ∀ i j, HasDerivWithinAt (fun u => X u i j) (X' t i j) (Set.Icc a b) t)
    (hb : ∀ t ∈ Set.Icc a b, opNorm (X' t) ≤ δ) : opNorm (X b - X a) ≤ δ * (b - a) :=
  norm_image_sub_le_of_norm_deriv_le_segment' (fun t ht => hasDerivWithinAt_of_entries (h t ht))
    (fun t ht => hb t ⟨ht.1, ht.2.le⟩) b ⟨hab, le_refl b⟩

/-- A motion under skew-Hermitian generators keeps the columns orthonormal. -/
theorem isometry_of_motion {a b : ℝ} {A : ℝ → Matrix d d ℂ} {X : ℝ → Matrix d m ℂ}
    (hA : ∀ t ∈ Set.Icc a b, (A t)ᴴ = -A t)
    (h : ∀ t ∈ Set.Icc a b, ∀ i j,
      HasDerivWithinAt (fun s => X s i j) ((A t * X t) i j) (Set.Icc a b) t)
    (h0 : (X a)ᴴ * X a = 1) : ∀ t ∈ Set.Icc a b, (X t)ᴴ * X t = 1 := by
  intro t ht
  rw [← h0]
  ext i j
  have hd : ∀ u ∈ Set.Icc a b, HasDerivWithinAt (fun s => ((X s)ᴴ * X s) i j) 0 (Set.Icc a b) u := by
    intro u hu
    have e1 : ∀ k, HasDerivWithinAt (fun s => star (X s k i) * X s k j)
        (star ((A u * X u) k i) * X u k j + star (X u k i) * (A u * X u) k j) (Set.Icc a b) u :=
      fun k => ((h u hu k i).star).mul (h u hu k j)
    have e2 := HasDerivWithinAt.fun_sum (u := Finset.univ) fun k _ => e1 k
    have e3 : ∑ k, (star ((A u * X u) k i) * X u k j + star (X u k i) * (A u * X u) k j) =
        ((A u * X u)ᴴ * X u + (X u)ᴴ * (A u * X u)) i j := by
      rw [Finset.sum_add_distrib]
      rfl
    rw [e3, Matrix.conjTranspose_mul, hA u hu, Matrix.mul_neg, Matrix.neg_mul, Matrix.mul_assoc,
      neg_add_cancel] at e2
    exact e2
  exact constant_of_has_deriv_right_zero (fun u hu => (hd u hu).continuousWithinAt)
    (fun u hu => (hd u ⟨hu.1, hu.2.le⟩).mono_of_mem_nhdsWithin (Icc_mem_nhdsGE_of_mem hu)) t ht

/-- In a slot the motion under varying generators stays close to that under a constant one. -/
theorem slot_near {a b δ : ℝ} (hab : a ≤ b) {A : ℝ → Matrix d d ℂ} {B : Matrix d d ℂ}
    {X : ℝ → Matrix d m ℂ} (hA : ∀ t ∈ Set.Icc a b, (A t)ᴴ = -A t) (hB : Bᴴ = -B)
    (h : ∀ t ∈ Set.Icc a b, ∀ i j,
      HasDerivWithinAt (fun s => X s i j) ((A t * X t) i j) (Set.Icc a b) t)
    (h0 : (X a)ᴴ * X a = 1) (hδ : ∀ t ∈ Set.Icc a b, opNorm (A t - B) ≤ δ) :
    opNorm (X b - NormedSpace.exp (((b - a : ℝ) : ℂ) • B) * X a) ≤ δ * (b - a) := by
  let E : ℝ → Matrix d d ℂ := fun s => NormedSpace.exp (((-1 * (s - a) : ℝ) : ℂ) • B)
  have hE : ∀ s, E s ∈ Matrix.unitaryGroup d ℂ := fun s => exp_skew_unitary (skew_real_smul hB _)
  have hY : ∀ t ∈ Set.Icc a b, ∀ i j, HasDerivWithinAt (fun s => (E s * X s) i j)
      ((E t * ((A t - B) * X t)) i j) (Set.Icc a b) t := by
    intro t ht i j
    have e1 : ∀ k, HasDerivWithinAt (fun s => E s i k * X s k j)
        ((((-1 : ℝ) : ℂ) • (B * E t)) i k * X t k j + E t i k * (A t * X t) k j) (Set.Icc a b) t :=
      fun k => (exp_shift_deriv B (-1) a t i k).hasDerivWithinAt.mul (h t ht k j)
    have e2 := HasDerivWithinAt.fun_sum (u := Finset.univ) fun k _ => e1 k
    have e3 : ∑ k, ((((-1 : ℝ) : ℂ) • (B * E t)) i k * X t k j + E t i k * (A t * X t) k j) =
        (E t * ((A t - B) * X t)) i j := by
      rw [Finset.sum_add_distrib, ← Matrix.mul_apply, ← Matrix.mul_apply, ← Matrix.add_apply]
      have : B * E t = E t * B := exp_comm B _
      rw [this, Matrix.sub_mul, Matrix.mul_sub, Matrix.smul_mul, Matrix.mul_assoc]
      simp only [Matrix.add_apply, Matrix.sub_apply, Matrix.smul_apply, smul_eq_mul]
      push_cast
      ring
    rw [e3] at e2
    exact e2
  have hs := opNorm_sub_le_of_deriv (X := fun s => E s * X s) hab hY (δ := δ) fun t ht => by
    rw [opNorm_unitary_mul (hE t)]
    exact (opNorm_mul_isometry (isometry_of_motion hA h h0 t ht) _).trans (hδ t ht)
  have ha : E a = 1 := by simp [E]
  have hb : NormedSpace.exp (((b - a : ℝ) : ℂ) • B) * E b = 1 := by
    rw [← Matrix.exp_add_of_commute _ _ (((Commute.refl B).smul_left _).smul_right _), ← add_smul]
    have : ((b - a : ℝ) : ℂ) + ((-1 * (b - a) : ℝ) : ℂ) = 0 := by push_cast; ring
    rw [this, zero_smul, NormedSpace.exp_zero]
  have hu : NormedSpace.exp (((b - a : ℝ) : ℂ) • B) ∈ Matrix.unitaryGroup d ℂ :=
    exp_skew_unitary (skew_real_smul hB _)
  rw [← opNorm_unitary_mul hu] at hs
  simp only [Matrix.mul_sub, ← Matrix.mul_assoc, hb, ha, Matrix.one_mul, Matrix.mul_one] at hs
  exact hs

/-- Exponentials of skew-Hermitian matrices are no further apart than the matrices. -/
theorem exp_sub_le {A B : Matrix d d ℂ} (hA : Aᴴ = -A) (hB : Bᴴ = -B) :
    opNorm (NormedSpace.exp A - NormedSpace.exp B) ≤ opNorm (A - B) := by
  have h := slot_near (a := 0) (b := 1) zero_le_one (A := fun _ => A) (B := B)
    (X := fun s => NormedSpace.exp ((s : ℂ) • A)) (fun _ _ => hA) hB
    (fun t _ i j => (exp_entry_deriv A t i j).hasDerivWithinAt) (by simp) (fun _ _ => le_refl _)
  simpa using h

/-- Products of unitaries are no further apart than the factors together. -/
theorem timeOrdered_near {p q : Nat → Matrix d d ℂ} {n : Nat}
    (hp : ∀ k, k < n → p k ∈ Matrix.unitaryGroup d ℂ)
    (hq : ∀ k, k < n → q k ∈ Matrix.unitaryGroup d ℂ) :
    opNorm (timeOrdered p 0 n - timeOrdered q 0 n) ≤
      ∑ k ∈ Finset.range n, opNorm (p k - q k) := by
  induction n with
  | zero => simp [timeOrdered_self, opNorm_zero]
  | succ n ih =>
    rw [timeOrdered_succ _ (Nat.zero_le n), timeOrdered_succ _ (Nat.zero_le n),
      Finset.sum_range_succ]
    have e : p n * timeOrdered p 0 n - q n * timeOrdered q 0 n =
        p n * (timeOrdered p 0 n - timeOrdered q 0 n) + (p n - q n) * timeOrdered q 0 n := by
      rw [Matrix.mul_sub, Matrix.sub_mul]
      abel
    rw [e]
    refine (opNorm_add _ _).trans (add_le_add ?_ ?_)
    · rw [opNorm_unitary_mul (hp n (by omega))]
      exact ih (fun k hk => hp k (by omega)) (fun k hk => hq k (by omega))
    · exact opNorm_mul_isometry (Matrix.mem_unitaryGroup_iff'.1
        (timeOrdered_unitary (Nat.zero_le n) fun k _ hk => hq k (by omega))) _

/-- The motion under varying generators stays close to the product of the exponentials. -/
theorem driven_near {n : Nat} {tau δ : Nat → ℝ} (hτ : ∀ k, k < n → 0 ≤ tau k)
    {A : ℝ → Matrix d d ℂ} {B : Nat → Matrix d d ℂ} {X0 : Matrix d m ℂ} {X : ℝ → Matrix d m ℂ}
    (hX : Driven (slotTime tau n) A X0 X)
    (hA : ∀ t ∈ Set.Icc 0 (slotTime tau n), (A t)ᴴ = -A t) (hB : ∀ k, k < n → (B k)ᴴ = -B k)
    (h0 : X0ᴴ * X0 = 1)
    (hδ : ∀ k, k < n → ∀ t ∈ Set.Icc (slotTime tau k) (slotTime tau (k + 1)),
      opNorm (A t - B k) ≤ δ k) {k : Nat} (hk : k ≤ n) :
    opNorm (X (slotTime tau k) -
      timeOrdered (fun k => NormedSpace.exp ((tau k : ℂ) • B k)) 0 k * X0) ≤
      ∑ i ∈ Finset.range k, tau i * δ i := by
  have hz : slotTime tau 0 = 0 := by simp [slotTime]
  induction k with
  | zero => simp [hz, timeOrdered_self, hX.start, opNorm_zero]
  | succ k ih =>
    have hsub : Set.Icc (slotTime tau k) (slotTime tau (k + 1)) ⊆ Set.Icc 0 (slotTime tau n) := by
      refine Set.Icc_subset_Icc ?_ (slotTime_le hτ hk (le_refl n))
      rw [← hz]
      exact slotTime_le hτ (Nat.zero_le k) (by omega)
    have hle := slotTime_le hτ (Nat.le_succ k) hk
    have hiso : (X (slotTime tau k))ᴴ * X (slotTime tau k) = 1 := by
      refine isometry_of_motion hA hX.deriv (by rw [hX.start, h0]) _ (hsub ⟨le_refl _, hle⟩)
    have hs := slot_near hle (A := A) (B := B k) (X := X) (δ := δ k) (fun t ht => hA t (hsub ht))
      (hB k (by omega)) (fun t ht i j => (hX.deriv t (hsub ht) i j).mono hsub) hiso
      (hδ k (by omega))
    have hd : slotTime tau (k + 1) - slotTime tau k = tau k := by rw [slotTime_succ]; ring
    rw [hd] at hs
    rw [timeOrdered_succ _ (Nat.zero_le k), Finset.sum_range_succ, Matrix.mul_assoc]
    set Y := timeOrdered (fun k => NormedSpace.exp ((tau k : ℂ) • B k)) 0 k * X0 with hY
    have e : X (slotTime tau (k + 1)) - NormedSpace.exp ((tau k : ℂ) • B k) * Y =
        NormedSpace.exp ((tau k : ℂ) • B k) * (X (slotTime tau k) - Y) +
        (X (slotTime tau (k + 1)) - NormedSpace.exp ((tau k : ℂ) • B k) * X (slotTime tau k)) := by
      rw [Matrix.mul_sub]
      abel
    rw [e]
    refine (opNorm_add _ _).trans (add_le_add ?_ (by linarith))
    rw [opNorm_unitary_mul (exp_skew_unitary (skew_real_smul (hB k (by omega)) _))]
    exact ih (by omega)

end QTrl.Spec
