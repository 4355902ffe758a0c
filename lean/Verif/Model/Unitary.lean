import Verif.Model.Dynamics
import Verif.Model.Spectral

/-
Concrete systems: `DynamicsUnitary` (dynamics.py 1514-1732) with the unitary or the
trace difference fidelity computer and any propagator computer.
-/

open Matrix

namespace QTrl.Dyn

variable {d m : Type} [Fintype d] [DecidableEq d] [Fintype m] [DecidableEq m]

/-- `init_normalization` (fidcomp.py 356-372): the norm function applied to
`target.dag() * target` with `dimensional_norm = 1`. -/
noncomputable def initNormalization (p : PhaseOpt) (target : Matrix d m ℂ) : ℝ :=
  match p with
  | .PSU => ‖(targetᴴ * target).trace‖ / 1
  | .SU => (targetᴴ * target).trace.re / 1

/-- `FidCompTraceDiff.init_comp` (fidcomp.py 580-590): the default scale factor. -/
noncomputable def defaultScale (userScale : Option ℝ) (dim : Nat) : ℝ :=
  match userScale with
  | none => 1 / (2 * (dim : ℝ))
  | some s => s

/-- What a user configures on a `DynamicsUnitary` object. -/
structure UnitaryCfg (d m : Type) where
  nTs : Nat
  nCtrls : Nat
  drift : Nat → Matrix d d ℂ
  ctrl : Nat → Nat → Matrix d d ℂ
  tau : Nat → ℝ
  initial : Matrix d m ℂ
  target : Matrix d m ℂ
  isQobj : Bool
  cachePhased : Bool
  cachePropGrad : Bool
  propKind : PropKind
  fidKind : FidKind
  phaseOpt : PhaseOpt
  scaleFactor : Option ℝ
  /-- `fact_mat_round_prec` -/
  prec : ℝ
  /-- the eigen-solver -/
  eigh : Matrix d d ℂ → (d → ℝ) × Matrix d d ℂ

/-- The initialised system: generator phase `-1j` applied from the left (1541-1542),
target form `target.dag()` (1589-1598), normalisation and scale factor from
`init_comp`.  The gradient of the exponential is that of the augmented matrix
computer; `expm_frechet` delivers the same (C17). -/
noncomputable def UnitaryCfg.sys (c : UnitaryCfg d m) : Sys d m (Decomp d) :=
  initSys
    { nTs := c.nTs
      nCtrls := c.nCtrls
      drift := c.drift
      ctrl := c.ctrl
      tau := c.tau
      phase := some fun A => -Complex.I • A
      initial := c.initial
      target := c.target
      ontoTarget := c.targetᴴ
      isQobj := c.isQobj
      cachePhased := c.cachePhased
      phasedCtrl := fun _ _ => 0
      cachePropGrad := c.cachePropGrad
      propKind := c.propKind
      fidKind := c.fidKind
      phaseOpt := c.phaseOpt
      dimNorm := initNormalization c.phaseOpt c.target
      scale := defaultScale c.scaleFactor (Fintype.card d)
      expm := NormedSpace.exp
      frechet := augMatGrad
      decompose := spectralDecomp c.eigh c.prec
      diagProp := diagProp
      diagGrad := diagGrad }

end QTrl.Dyn
