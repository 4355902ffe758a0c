import Verif.Model.Unitary

/-
Concrete systems: `DynamicsGenMat` (dynamics.py 1500-1511), whose generators are used as they
are given, with any fidelity computer and any propagator computer that does not diagonalise.
-/

open Matrix

namespace QTrl.Dyn

variable {d m : Type} [Fintype d] [DecidableEq d] [Fintype m] [DecidableEq m]

/-- What a user configures on a `DynamicsGenMat` object. -/
structure GeneralCfg (d m : Type) where
  nTs : Nat
  nCtrls : Nat
  drift : Nat → Matrix d d ℂ
  ctrl : Nat → Nat → Matrix d d ℂ
  tau : Nat → ℝ
  initial : Matrix d m ℂ
  target : Matrix d m ℂ
  isQobj : Bool
  cachePhased : Bool
  cachePropGrad : Bool
  /-- the propagator computer is `PropCompApproxGrad`; otherwise it is one with exact gradients -/
  approx : Bool
  fidKind : FidKind
  phaseOpt : PhaseOpt
  scaleFactor : Option ℝ
  /-- `la.inv` -/
  inv : Matrix d m ℂ → Matrix m d ℂ

/-- `Dynamics._get_onto_evo_target` (dynamics.py 1175-1203): the inverse of a square target, the
adjoint of any other. -/
def GeneralCfg.onto (c : GeneralCfg d m) : Matrix m d ℂ :=
  if Fintype.card d = Fintype.card m then c.inv c.target else c.targetᴴ

/-- The initialised system: no phase (`_phase_application` is `None`, dynamics.py 387-388),
normalisation and scale factor from `init_comp` (fidcomp.py 356-372, 580-590).  The gradient of the
exponential is that of the augmented matrix computer; `expm_frechet` delivers the same
(C17). -/
noncomputable def GeneralCfg.sys (c : GeneralCfg d m) : Sys d m Unit :=
  initSys
    { nTs := c.nTs
      nCtrls := c.nCtrls
      drift := c.drift
      ctrl := c.ctrl
      tau := c.tau
      phase := none
      initial := c.initial
      target := c.target
      ontoTarget := c.onto
      isQobj := c.isQobj
      cachePhased := c.cachePhased
      phasedCtrl := fun _ _ => 0
      cachePropGrad := c.cachePropGrad
      propKind := if c.approx then .approx else .frechet
      fidKind := c.fidKind
      phaseOpt := c.phaseOpt
      dimNorm := initNormalization c.phaseOpt c.target
      scale := defaultScale c.scaleFactor (Fintype.card d)
      expm := NormedSpace.exp
      frechet := augMatGrad
      decompose := fun _ _ => ()
      diagProp := fun _ => 0
      diagGrad := fun _ _ _ => 0 }

end QTrl.Dyn
