import Mathlib.Analysis.CStarAlgebra.Matrix
import Verif.Spec.Motion

/-
How far apart two operators are, and the motion under generators that vary in time.
-/

namespace QTrl.Spec

variable {d m : Type} [Fintype d] [Fintype m] [DecidableEq m]

open scoped Matrix.Norms.L2Operator in
/-- The largest factor by which a matrix stretches a vector (the spectral norm). -/
noncomputable def opNorm (M : Matrix d m ℂ) : ℝ := ‖M‖

/-- `X` starts at `X0` and satisfies `dX/dt = A t · X` at the times from 0 to `T` (one-sided at
the end points), entry by entry. -/
structure Driven (T : ℝ) (A : ℝ → Matrix d d ℂ) (X0 : Matrix d m ℂ) (X : ℝ → Matrix d m ℂ) :
    Prop where
  start : X 0 = X0
  deriv : ∀ t ∈ Set.Icc 0 T, ∀ i j,
    HasDerivWithinAt (fun s => X s i j) ((A t * X t) i j) (Set.Icc 0 T) t

end QTrl.Spec
