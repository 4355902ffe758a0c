import Verif.Spec.Gradient

/-
Steps in the space of amplitudes.
-/

namespace QTrl.Spec

open QTrl.Dyn

variable {d m D : Type} [Fintype d] [DecidableEq d] [Fintype m] [DecidableEq m]

/-- The amplitudes after a step of size `t` in the direction `v`. -/
def along (amps v : Amps) (t : ℝ) : Amps := fun k j => amps k j + t * v k j

/-- The inner product of two arrays of the shape of the amplitudes. -/
def pairing (S : Sys d m D) (v g : Amps) : ℝ :=
  ∑ k ∈ Finset.range S.nTs, ∑ j ∈ Finset.range S.nCtrls, v k j * g k j

end QTrl.Spec
