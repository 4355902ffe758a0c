import Mathlib.Analysis.Calculus.Deriv.Basic
import Mathlib.Analysis.Complex.Basic
import Mathlib.Data.Matrix.Mul

/-
The equation of motion under generators that are constant in each of a number of slots.
-/

namespace QTrl.Spec

variable {d m : Type} [Fintype d]

/-- The time at which slot `k` begins, for slots of given durations. -/
def slotTime (tau : Nat → ℝ) (k : Nat) : ℝ := ∑ i ∈ Finset.range k, tau i

/-- `X` starts at `X0` and in each of the first `n` slots, end points included, satisfies
`dX/dt = A k · X` (one-sided at the end points), entry by entry. -/
structure Motion (n : Nat) (tau : Nat → ℝ) (A : Nat → Matrix d d ℂ) (X0 : Matrix d m ℂ)
    (X : ℝ → Matrix d m ℂ) : Prop where
  start : X 0 = X0
  deriv : ∀ k, k < n → ∀ t ∈ Set.Icc (slotTime tau k) (slotTime tau (k + 1)), ∀ i j,
    HasDerivWithinAt (fun s => X s i j) ((A k * X t) i j)
      (Set.Icc (slotTime tau k) (slotTime tau (k + 1))) t

end QTrl.Spec
