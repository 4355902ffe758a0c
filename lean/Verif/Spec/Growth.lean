import Mathlib.Analysis.Complex.Basic
import Mathlib.LinearAlgebra.Matrix.ConjTranspose
import Mathlib.Data.Matrix.Mul

/-
How fast the evolution under a generator can grow.
-/

open Matrix

namespace QTrl.Spec

variable {d : Type} [Fintype d]

/-- No vector grows faster than at the rate `μ` under `A`: the real part of `⟨v, A v⟩` is at most
`μ ⟨v, v⟩`.  Zero for closed systems and losses, the spectral norm of `A` at the worst. -/
def Growth (μ : ℝ) (A : Matrix d d ℂ) : Prop :=
  ∀ v : d → ℂ, (∑ i, star (v i) * (A *ᵥ v) i).re ≤ μ * ∑ i, ‖v i‖ ^ 2

end QTrl.Spec
