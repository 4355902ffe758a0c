import Verif.Spec.Evolution
import Verif.Spec.Derivative

/-
What it means for a gradient to be the gradient of an error.
-/

namespace QTrl.Spec

open QTrl.Dyn

variable {d m D : Type} [Fintype d] [DecidableEq d] [Fintype m] [DecidableEq m]

/-- The amplitudes with entry `[k, j]` replaced by `u`. -/
def setAmp (amps : Amps) (k j : Nat) (u : ℝ) : Amps :=
  fun k' j' => if k' = k ∧ j' = j then u else amps k' j'

/-- The external routines deliver the derivative of the propagator of slot `k` with
respect to amplitude `[k, j]`, at the given amplitudes. -/
def ExactPropGrad (S : Sys d m D) (amps : Amps) : Prop :=
  ∀ k j, k < S.nTs → j < S.nCtrls →
    MatDeriv (fun u => propagator S (setAmp amps k j u) k) (propagatorGrad S amps k j) (amps k j)

/-- `g[k, j]` is the partial derivative of `err` with respect to amplitude `[k, j]` at
`amps`, for every slot and control. -/
def IsGradient (S : Sys d m D) (err : Amps → ℝ) (amps : Amps) (g : Nat → Nat → ℝ) : Prop :=
  ∀ k j, k < S.nTs → j < S.nCtrls →
    HasDerivAt (fun u => err (setAmp amps k j u)) (g k j) (amps k j)

/-- Sum of squared moduli of the entries. -/
noncomputable def frobSq {a b : Type} [Fintype a] [Fintype b] (A : Matrix a b ℂ) : ℝ :=
  ∑ i, ∑ j, ‖A i j‖ ^ 2

end QTrl.Spec
