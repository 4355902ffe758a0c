import Mathlib.Data.Matrix.Basic
import Mathlib.LinearAlgebra.Matrix.Trace
import Mathlib.LinearAlgebra.Matrix.ConjTranspose
import Mathlib.Analysis.Complex.Basic
import Mathlib.Analysis.SpecialFunctions.Trigonometric.Basic

/-
What the results of the stand-alone GRAPE functions are to be compared with: the propagator of
a piecewise constant pulse and its closeness to a target.
-/

open Matrix

namespace QTrl.Spec.Grape

variable {d : Type} [Fintype d] [DecidableEq d]

/-- The Hamiltonian with the given control amplitudes. -/
noncomputable def hamiltonian (h0 : Matrix d d ℂ) (hs : List (Matrix d d ℂ)) (amp : Nat → ℝ) :
    Matrix d d ℂ :=
  h0 + ∑ j ∈ Finset.range hs.length, (amp j : ℂ) • hs.getD j 0

/-- The propagator over the first `n` slots of length `dt` of the pulse `v` (control, slot). -/
noncomputable def propagator (expm : Matrix d d ℂ → Matrix d d ℂ) (h0 : Matrix d d ℂ)
    (hs : List (Matrix d d ℂ)) (dt : ℝ) (v : Nat → Nat → ℝ) : Nat → Matrix d d ℂ
  | 0 => 1
  | n + 1 =>
      expm ((-Complex.I * (dt : ℂ)) • hamiltonian h0 hs fun j => v j n)
        * propagator expm h0 hs dt v n

/-- The step size: the one given, or else a tenth of the angular frequency whose period is the
last time. -/
noncomputable def stepSize (given : Option ℝ) (times : List ℝ) : ℝ :=
  given.getD (2 * Real.pi / (10 * times.getLastD 0))

/-- The normalised overlap of a target and a propagator. -/
noncomputable def overlap (T U : Matrix d d ℂ) : ℂ := (Tᴴ * U).trace / (Fintype.card d : ℂ)

/-- What GRAPE is to make large: the real part of the overlap, or its squared modulus. -/
noncomputable def closeness (phaseSensitive : Bool) (T U : Matrix d d ℂ) : ℝ :=
  if phaseSensitive then (overlap T U).re else ‖overlap T U‖ ^ 2

/-- Every amplitude of a pulse of `J` controls at `M` times is within the limits. -/
def Within (lo hi : ℝ) (J M : Nat) (v : Nat → Nat → ℝ) : Prop :=
  ∀ j, j < J → ∀ m, m < M → lo ≤ v j m ∧ v j m ≤ hi

/-- The pulse with the amplitude of control `j` in slot `m` replaced. -/
def changed (v : Nat → Nat → ℝ) (j m : Nat) (x : ℝ) : Nat → Nat → ℝ :=
  fun j' m' => if j' = j ∧ m' = m then x else v j' m'

/-- The propagator of the pulse `v` with, after slot `m`, an evolution for a time `dt` under
`x` times the control Hamiltonian `j` alone. -/
noncomputable def kicked (expm : Matrix d d ℂ → Matrix d d ℂ) (h0 : Matrix d d ℂ)
    (hs : List (Matrix d d ℂ)) (dt : ℝ) (v : Nat → Nat → ℝ) (j m : Nat) (x : ℝ) :
    Nat → Matrix d d ℂ
  | 0 => 1
  | n + 1 =>
      (if n = m then expm ((-Complex.I * (x : ℂ) * (dt : ℂ)) • hs.getD j 0) else 1)
        * (expm ((-Complex.I * (dt : ℂ)) • hamiltonian h0 hs fun j => v j n)
          * kicked expm h0 hs dt v j m x n)

end QTrl.Spec.Grape
