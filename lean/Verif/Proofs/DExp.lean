import Verif.Proofs.Spectral
import Verif.Proofs.Gradient
import Mathlib.Analysis.Calculus.FDeriv.Analytic
import Mathlib.Analysis.Calculus.Deriv.Star
import Mathlib.LinearAlgebra.Matrix.Kronecker
import Mathlib.Topology.Algebra.Module.FiniteDimension

/-
The derivative of the matrix exponential is linear in the direction and obeys the rules that
the exponential suggests: conjugate transposes, sums of commuting exponents, Kronecker products.
-/

set_option linter.unusedSectionVars false

open Matrix Kronecker

namespace QTrl.MatExp

open QTrl.Spec

variable {d e : Type} [Fintype d] [DecidableEq d] [Fintype e] [DecidableEq e]

attribute [local instance] Matrix.linftyOpNormedRing Matrix.linftyOpNormedAlgebra in
/-- The derivative of the exponential is linear in the direction. -/
theorem dexp_linear (A : Matrix d d ℂ) :
    ∃ L : Matrix d d ℂ →ₗ[ℂ] Matrix d d ℂ, ∀ E, dexp A E = L E := by
  have hA : DifferentiableAt ℂ (NormedSpace.exp : Matrix d d ℂ → Matrix d d ℂ) A :=
    (NormedSpace.exp_analytic A).differentiableAt
  refine ⟨(fderiv ℂ NormedSpace.exp A).toLinearMap, fun E => ?_⟩
  refine MatDeriv.unique (matDeriv_exp A E) ?_
  intro i j
  have h1 : HasFDerivAt (𝕜 := ℝ) (NormedSpace.exp : Matrix d d ℂ → Matrix d d ℂ)
      ((fderiv ℂ NormedSpace.exp A).restrictScalars ℝ) A := hA.hasFDerivAt.restrictScalars ℝ
  have h2 : HasDerivAt (fun t : ℝ => A + t • E) E 0 := by
    have h := ((hasDerivAt_id (0 : ℝ)).smul_const E).const_add A
    rw [one_smul] at h
    exact h
  have h3 : HasDerivAt (fun t : ℝ => NormedSpace.exp (A + t • E))
      (fderiv ℂ NormedSpace.exp A E) 0 := by
    have h1' : HasFDerivAt (𝕜 := ℝ) (NormedSpace.exp : Matrix d d ℂ → Matrix d d ℂ)
      ((fderiv ℂ NormedSpace.exp A).restrictScalars ℝ) (A + (0 : ℝ) • E) := by
      simpa using h1
    exact h1'.comp_hasDerivAt (0 : ℝ) h2
  have h4 := (LinearMap.toContinuousLinearMap
    (Matrix.entryLinearMap ℝ ℂ i j : Matrix d d ℂ →ₗ[ℝ] ℂ)).hasFDerivAt
      (x := NormedSpace.exp (A + (0 : ℝ) • E))
  exact h4.comp_hasDerivAt (0 : ℝ) h3

theorem dexp_add (A E F : Matrix d d ℂ) : dexp A (E + F) = dexp A E + dexp A F := by
  obtain ⟨L, hL⟩ := dexp_linear A
  simp only [hL, map_add]

theorem dexp_smul' (A E : Matrix d d ℂ) (z : ℂ) : dexp A (z • E) = z • dexp A E := by
  obtain ⟨L, hL⟩ := dexp_linear A
  simp only [hL, map_smul]

theorem dexp_neg (A E : Matrix d d ℂ) : dexp A (-E) = -dexp A E := by
  obtain ⟨L, hL⟩ := dexp_linear A
  simp only [hL, map_neg]

theorem dexp_sum (A : Matrix d d ℂ) {ι : Type} (s : Finset ι) (E : ι → Matrix d d ℂ) :
    dexp A (∑ i ∈ s, E i) = ∑ i ∈ s, dexp A (E i) := by
  obtain ⟨L, hL⟩ := dexp_linear A
  simp only [hL, map_sum]

theorem dexp_conj' (V : Matrix d d ℂ) (hV : V ∈ Matrix.unitaryGroup d ℂ) (A E : Matrix d d ℂ) :
    dexp (V * A * Vᴴ) (V * E * Vᴴ) = V * dexp A E * Vᴴ := by
  have h2 : Vᴴ * V = 1 := (Matrix.mem_unitaryGroup_iff').1 hV
  rw [dexp_conj V hV]
  congr 3
  calc Vᴴ * (V * E * Vᴴ) * V = (Vᴴ * V) * E * (Vᴴ * V) := by simp only [Matrix.mul_assoc]
    _ = E := by rw [h2, Matrix.one_mul, Matrix.mul_one]

theorem MatDeriv.conjTranspose {a b : Type} {F : ℝ → Matrix a b ℂ} {F' : Matrix a b ℂ} {t : ℝ}
    (h : MatDeriv F F' t) : MatDeriv (fun u => (F u)ᴴ) F'ᴴ t := by
  intro i j
  simp only [Matrix.conjTranspose_apply]
  exact (h j i).star

theorem MatDeriv.mul {a b c : Type} [Fintype b] {F : ℝ → Matrix a b ℂ} {F' : Matrix a b ℂ}
    {G : ℝ → Matrix b c ℂ} {G' : Matrix b c ℂ} {t : ℝ} (hF : MatDeriv F F' t) (hG : MatDeriv G G' t) :
    MatDeriv (fun u => F u * G u) (F' * G t + F t * G') t := by
  intro i j
  simp only [Matrix.mul_apply, Matrix.add_apply]
  rw [← Finset.sum_add_distrib]
  exact HasDerivAt.fun_sum fun x _ => (hF i x).mul (hG x j)

theorem dexp_conjTranspose (A E : Matrix d d ℂ) : dexp Aᴴ Eᴴ = (dexp A E)ᴴ := by
  refine MatDeriv.unique (matDeriv_exp Aᴴ Eᴴ) ?_
  have h := MatDeriv.conjTranspose (matDeriv_exp A E)
  convert h using 2 with t
  rw [← Matrix.exp_conjTranspose, conjTranspose_add, conjTranspose_smul]
  simp

/-- Product rule for two stretches of the same generator. -/
theorem dexp_split (A E : Matrix d d ℂ) (x y : ℂ) :
    dexp ((x + y) • A) ((x + y) • E) =
      dexp (y • A) (y • E) * NormedSpace.exp (x • A) +
        NormedSpace.exp (y • A) * dexp (x • A) (x • E) := by
  refine MatDeriv.unique (matDeriv_exp _ _) ?_
  have h := MatDeriv.mul (matDeriv_exp (y • A) (y • E)) (matDeriv_exp (x • A) (x • E))
  simp only [Complex.ofReal_zero, zero_smul, add_zero] at h
  convert h using 2 with t
  have e : ∀ z : ℂ, z • A + (t : ℂ) • z • E = z • (A + (t : ℂ) • E) := fun z => by
    rw [smul_add, smul_comm]
  rw [e, e, e, ← Matrix.exp_add_of_commute _ _
    (((Commute.refl _).smul_left _).smul_right _), ← add_smul, add_comm y x]

theorem exp_split (A : Matrix d d ℂ) (x y : ℂ) :
    NormedSpace.exp ((x + y) • A) = NormedSpace.exp (y • A) * NormedSpace.exp (x • A) := by
  rw [← Matrix.exp_add_of_commute _ _ (((Commute.refl _).smul_left _).smul_right _), ← add_smul,
    add_comm y x]

/-- A multiple of the identity in the exponent is a factor. -/
theorem exp_add_scalar (A : Matrix d d ℂ) (z : ℂ) :
    NormedSpace.exp (A + z • (1 : Matrix d d ℂ)) = Complex.exp z • NormedSpace.exp A := by
  rw [Matrix.exp_add_of_commute _ _ ((Commute.one_right _).smul_right _),
    Matrix.smul_one_eq_diagonal, exp_diagonal']
  rw [show (diagonal fun _ : d => Complex.exp z) = Complex.exp z • (1 : Matrix d d ℂ) from
    (Matrix.smul_one_eq_diagonal _).symm, Matrix.mul_smul, Matrix.mul_one]

theorem dexp_add_scalar (A E : Matrix d d ℂ) (z w : ℂ) :
    dexp (A + z • (1 : Matrix d d ℂ)) (E + w • (1 : Matrix d d ℂ)) =
      Complex.exp z • (dexp A E + w • NormedSpace.exp A) := by
  refine MatDeriv.unique (matDeriv_exp _ _) ?_
  have e : (fun t : ℝ => NormedSpace.exp (A + z • (1 : Matrix d d ℂ) +
      (t : ℂ) • (E + w • (1 : Matrix d d ℂ)))) =
      fun t : ℝ => Complex.exp (z + t * w) • NormedSpace.exp (A + (t : ℂ) • E) := by
    ext t : 1
    rw [← exp_add_scalar]
    congr 1
    rw [smul_add, smul_smul, add_smul]
    abel
  rw [e]
  intro i j
  have h1 : HasDerivAt (fun t : ℝ => Complex.exp (z + t * w)) (Complex.exp z * w) 0 := by
    have h0 : HasDerivAt (fun t : ℝ => z + (t : ℂ) * w) w 0 := by
      simpa using ((Complex.ofRealCLM.hasDerivAt (x := (0 : ℝ))).mul_const w).const_add z
    simpa using h0.cexp
  have h2 := h1.mul (matDeriv_exp A E i j)
  simp only [Complex.ofReal_zero, zero_smul, add_zero, zero_mul] at h2
  have e2 : (Complex.exp z • (dexp A E + w • NormedSpace.exp A)) i j =
      Complex.exp z * w * NormedSpace.exp A i j + Complex.exp z * dexp A E i j := by
    rw [Matrix.smul_apply, Matrix.add_apply, Matrix.smul_apply, smul_eq_mul, smul_eq_mul]
    ring
  rw [e2]
  exact h2

attribute [local instance] Matrix.linftyOpNormedRing Matrix.linftyOpNormedAlgebra in
theorem exp_kronecker_one (A : Matrix d d ℂ) :
    NormedSpace.exp ((A ⊗ₖ (1 : Matrix e e ℂ))) =
      (NormedSpace.exp A ⊗ₖ (1 : Matrix e e ℂ)) := by
  let f : Matrix d d ℂ →+* Matrix (d × e) (d × e) ℂ :=
    { toFun := fun A => (A ⊗ₖ (1 : Matrix e e ℂ))
      map_one' := by simp
      map_mul' := fun A B => by
        rw [← Matrix.mul_kronecker_mul, Matrix.one_mul]
      map_zero' := by simp
      map_add' := fun A B => by simp [Matrix.add_kronecker] }
  have hf : Continuous f := by
    refine continuous_matrix fun i j => ?_
    exact ((continuous_id.matrix_elem i.1 j.1).mul continuous_const)
  exact (NormedSpace.map_exp f hf A).symm

theorem dexp_kronecker_one (A E : Matrix d d ℂ) :
    dexp ((A ⊗ₖ (1 : Matrix e e ℂ))) ((E ⊗ₖ (1 : Matrix e e ℂ))) =
      (dexp A E ⊗ₖ (1 : Matrix e e ℂ)) := by
  refine MatDeriv.unique (matDeriv_exp _ _) ?_
  have e1 : (fun t : ℝ => NormedSpace.exp ((A ⊗ₖ (1 : Matrix e e ℂ)) +
      (t : ℂ) • (E ⊗ₖ (1 : Matrix e e ℂ)))) =
      fun t : ℝ => (NormedSpace.exp (A + (t : ℂ) • E) ⊗ₖ (1 : Matrix e e ℂ)) := by
    ext t : 1
    rw [← exp_kronecker_one, ← Matrix.smul_kronecker, ← Matrix.add_kronecker]
  rw [e1]
  intro i j
  exact (matDeriv_exp A E i.1 j.1).mul_const _

end QTrl.MatExp
