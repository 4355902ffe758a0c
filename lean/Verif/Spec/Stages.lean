import Verif.Spec.Symmetry

/-
A pulse applied in stages: the system of some consecutive slots, started in an object of its own,
and for closed systems the task of reaching an intermediate target in these slots.
-/

open Matrix

namespace QTrl.Spec

open QTrl.Dyn

variable {d m D : Type} [Fintype d] [DecidableEq d] [Fintype m] [DecidableEq m]

/-- The `n` slots of `S` from slot `lo` on, started in `X`; everything else is as in `S`. -/
def stage (S : Sys d m D) (X : Matrix d m ℂ) (lo n : Nat) : Sys d m D :=
  { S with
    nTs := n
    drift := fun k => S.drift (k + lo)
    ctrl := fun k => S.ctrl (k + lo)
    tau := fun k => S.tau (k + lo)
    phasedCtrl := fun k => S.phasedCtrl (k + lo)
    initial := X }

/-- What a user configures to go from `X` to `T` in the `n` slots of `c` from slot `lo` on. -/
def leg (c : UnitaryCfg d m) (X T : Matrix d m ℂ) (lo n : Nat) : UnitaryCfg d m :=
  { c with
    nTs := n
    drift := fun k => c.drift (k + lo)
    ctrl := fun k => c.ctrl (k + lo)
    tau := fun k => c.tau (k + lo)
    initial := X
    target := T }

/-- The amplitudes `b` of a stage of `n` slots are those of the whole pulse `a` from slot `lo`
on. -/
def PartOf (nCtrls : Nat) (a : Amps) (lo n : Nat) (b : Amps) : Prop :=
  ∀ k j, k < n → j < nCtrls → b k j = a (k + lo) j

end QTrl.Spec
