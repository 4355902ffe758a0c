import Mathlib.LinearAlgebra.Matrix.ConjTranspose
import Mathlib.Analysis.Complex.Norm

/-
How far an operator is from being unitary, entry by entry.
-/

open Matrix

namespace QTrl.Spec

variable {d : Type} [Fintype d] [DecidableEq d]

/-- Some entry of `A·A†` differs from the identity by more than `tol`. -/
def Deviates (tol : ℝ) (A : Matrix d d ℂ) : Prop :=
  ∃ i j, tol < ‖(1 : Matrix d d ℂ) i j - (A * Aᴴ) i j‖

/-- Some entry of `A·A†` outside the diagonal exceeds `tol`. -/
def DeviatesOff (tol : ℝ) (A : Matrix d d ℂ) : Prop :=
  ∃ i j, i ≠ j ∧ tol < ‖(A * Aᴴ) i j‖

end QTrl.Spec
