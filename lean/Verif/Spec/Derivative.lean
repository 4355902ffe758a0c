import Mathlib.Analysis.Normed.Algebra.MatrixExponential
import Mathlib.Analysis.Calculus.Deriv.Basic
import Mathlib.LinearAlgebra.UnitaryGroup

/-
Derivatives of matrix valued functions of a real parameter, entry by entry, and
what a correct Hermitian eigen-solver delivers.
-/

open Matrix

namespace QTrl.Spec

variable {a b : Type}

/-- `F` has the derivative `F'` at `t`: every entry has. -/
def MatDeriv (F : ℝ → Matrix a b ℂ) (F' : Matrix a b ℂ) (t : ℝ) : Prop :=
  ∀ i j, HasDerivAt (fun s => F s i j) (F' i j) t

variable {d : Type} [Fintype d] [DecidableEq d]

/-- `eigh` is right about `H`: `H = V · diag(λ) · V†` with `V` unitary. -/
structure EighCorrect (eigh : Matrix d d ℂ → (d → ℝ) × Matrix d d ℂ) (H : Matrix d d ℂ) :
    Prop where
  unitary : (eigh H).2 ∈ Matrix.unitaryGroup d ℂ
  diag : H = (eigh H).2 * diagonal (fun i => ((eigh H).1 i : ℂ)) * (eigh H).2ᴴ

/-- Eigenvalues that differ after multiplication by the duration differ by at least `prec`. -/
def WellSeparated (lam : d → ℝ) (tau prec : ℝ) : Prop :=
  ∀ i j, lam i * tau = lam j * tau ∨ prec ≤ |lam j * tau - lam i * tau|

end QTrl.Spec
