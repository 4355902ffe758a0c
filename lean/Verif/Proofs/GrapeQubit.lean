import Verif.Proofs.GrapeGrad
import Verif.Proofs.GrapeWitness
import Verif.Proofs.MatExp
import Mathlib.LinearAlgebra.Matrix.Notation
import Mathlib.Data.Fin.VecNotation

/-
A qubit whose control does not commute with the drift: where the GRAPE increment is not the
derivative.
-/

open Matrix

namespace QTrl.Grape

/-- Two by two matrices. -/
abbrev Mat2 := Matrix (Fin 2) (Fin 2) ℂ

/-- An upper triangular block matrix with unit diagonal blocks. -/
noncomputable def upper (X : Mat2) : Matrix (Fin 2 ⊕ Fin 2) (Fin 2 ⊕ Fin 2) ℂ :=
  fromBlocks (1 : Mat2) X (0 : Mat2) (1 : Mat2)

theorem upper_mul (X Y : Mat2) : upper X * upper Y = upper (X + Y) := by
  unfold upper
  rw [fromBlocks_multiply]
  simp [add_comm]

theorem upper_zero : upper 0 = 1 := fromBlocks_one

/-- `-iπσx` -/
noncomputable def genX : Matrix (Fin 2) (Fin 2) ℂ :=
  !![0, -Complex.I * Real.pi; -Complex.I * Real.pi, 0]

/-- `-iσz` -/
noncomputable def dirZ : Matrix (Fin 2) (Fin 2) ℂ := !![-Complex.I, 0; 0, Complex.I]

theorem genX_exp : NormedSpace.exp genX = -1 := by
  have hP : IsUnit (!![1, 1; 1, -1] : Matrix (Fin 2) (Fin 2) ℂ) := by
    rw [Matrix.isUnit_iff_isUnit_det]
    simp [Matrix.det_fin_two]
    norm_num
  have hinv : (!![1, 1; 1, -1] : Matrix (Fin 2) (Fin 2) ℂ)⁻¹ = !![1/2, 1/2; 1/2, -1/2] := by
    apply Matrix.inv_eq_right_inv
    ext i j; fin_cases i <;> fin_cases j <;> simp [Matrix.mul_apply] <;> norm_num
  have hd : ∀ a b : ℂ, diagonal ![a, b] = !![a, 0; 0, b] := by
    intro a b
    ext i j; fin_cases i <;> fin_cases j <;> simp
  have h : genX = !![1, 1; 1, -1] * diagonal ![-Complex.I * Real.pi, Complex.I * Real.pi]
      * (!![1, 1; 1, -1] : Matrix (Fin 2) (Fin 2) ℂ)⁻¹ := by
    rw [hinv, hd, genX, Matrix.mul_fin_two, Matrix.mul_fin_two]
    congr 1
    ext i j; fin_cases i <;> fin_cases j <;> simp <;> ring
  rw [h, Matrix.exp_conj _ _ hP, Matrix.exp_diagonal]
  have : NormedSpace.exp ![-Complex.I * (Real.pi : ℂ), Complex.I * Real.pi]
      = fun _ => (-1 : ℂ) := by
    funext i
    rw [Pi.coe_exp, ← Complex.exp_eq_exp_ℂ]
    fin_cases i
    · show Complex.exp (-Complex.I * Real.pi) = -1
      rw [exp_negI]; simp
    · show Complex.exp (Complex.I * Real.pi) = -1
      rw [mul_comm, Complex.exp_pi_mul_I]
  rw [this]
  have e : diagonal (fun _ : Fin 2 => (-1 : ℂ)) = -1 := by
    ext i j; by_cases hij : i = j <;> simp [hij, diagonal]
  rw [e, mul_neg, mul_one, neg_mul,
    Matrix.mul_nonsing_inv _ ((Matrix.isUnit_iff_isUnit_det _).1 hP)]

/-- The derivative of the exponential at `-iπσx` in the direction `-iσz` vanishes. -/
theorem genX_deriv :
    Spec.MatDeriv (fun t : ℝ => NormedSpace.exp (genX + (t : ℂ) • dirZ)) 0 0 := by
  obtain ⟨X, hX⟩ : ∃ X : Matrix (Fin 2) (Fin 2) ℂ, X * genX - genX * X = dirZ := by
    refine ⟨!![0, 1 / (2 * Real.pi); -(1 / (2 * Real.pi)), 0], ?_⟩
    have hpi : (Real.pi : ℂ) ≠ 0 := Complex.ofReal_ne_zero.2 Real.pi_ne_zero
    rw [genX, dirZ, Matrix.mul_fin_two, Matrix.mul_fin_two]
    ext i j
    fin_cases i <;> fin_cases j <;> simp <;> field_simp <;> ring
  have hPQ : upper X * upper (-X) = 1 := by rw [upper_mul, add_neg_cancel, upper_zero]
  have hQP : upper (-X) * upper X = 1 := by rw [upper_mul, neg_add_cancel, upper_zero]
  have h1 : fromBlocks genX dirZ 0 genX =
      upper X * fromBlocks genX 0 0 genX * upper (-X) := by
    unfold upper
    rw [fromBlocks_multiply, fromBlocks_multiply, ← hX]
    simp [sub_eq_neg_add]
  have h2 : NormedSpace.exp (fromBlocks genX dirZ 0 genX) = -1 := by
    rw [h1]
    have := Matrix.exp_units_conj ⟨_, _, hPQ, hQP⟩ (fromBlocks genX 0 0 genX)
    refine this.trans ?_
    have e : NormedSpace.exp (fromBlocks genX 0 0 genX) = (-1 : Matrix (Fin 2 ⊕ Fin 2) _ ℂ) := by
      rw [MatExp.exp_fromBlocks_diag, genX_exp, ← fromBlocks_one, fromBlocks_neg]
      simp
    rw [e]
    show upper X * -1 * upper (-X) = -1
    rw [mul_neg, mul_one, neg_mul, hPQ]
  intro i j
  have := MatExp.hasDerivAt_exp_dir genX dirZ i j
  rw [h2] at this
  exact this.congr_deriv (by simp [toBlocks₁₂])

/-- Drift `πσx`, control `σz`, target `iσz`, one slot of length 1. -/
noncomputable def qubit : Args (Fin 2) :=
  { target := !![Complex.I, 0; 0, -Complex.I]
    h0 := !![0, (Real.pi : ℂ); Real.pi, 0], hOps := [!![1, 0; 0, -1]]
    nIter := 2, times := [0, 1], eps := some 1, uStart := none, startInt := false, uLimits := none
    useInterp := false, alpha := none, beta := none, phaseSensitive := true
    expm := NormedSpace.exp, interp := fun _ _ _ => 0 }

theorem qubit_ham (x : ℝ) :
    (-Complex.I * (((1 : ℝ) - 0 : ℝ) : ℂ)) •
      (!![0, (Real.pi : ℂ); Real.pi, 0] + (x : ℂ) • !![1, 0; 0, -1])
      = genX + (x : ℂ) • dirZ := by
  ext i j
  fin_cases i <;> fin_cases j <;> simp [genX, dirZ] <;> ring

end QTrl.Grape
