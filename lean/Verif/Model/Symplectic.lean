import Verif.Model.Dynamics
import Verif.Model.Spectral
import Verif.Model.Unitary

/-
`calc_omega` (symplectic.py) and `DynamicsSymplectic` (dynamics.py 1735-1826): the
configuration of the generator phase, and the initialised system.
-/

open Matrix

namespace QTrl.Sympl

open QTrl.Dyn

/-- `calc_omega` (symplectic.py 15-39) as the array it fills: `np.zeros` updated in a
double loop. -/
noncomputable def calcOmega (n : Nat) : Nat → Nat → ℂ :=
  forRange (2 * n) (fun j omg =>
    forRange (2 * n) (fun k omg =>
      let omg := if k = j + 1 then update2 omg j k ((1 + (-1) ^ j) / 2) else omg
      if (k : Int) = (j : Int) - 1 then update2 omg j k (-(1 - (-1) ^ j) / 2) else omg) omg)
    (fun _ _ => 0)

/-- The array as a matrix (`_get_omega`, dynamics.py 1782-1791; `n` is half the
dimension of the drift). -/
noncomputable def omega (n : Nat) : Matrix (Fin (2 * n)) (Fin (2 * n)) ℂ :=
  Matrix.of fun j k => calcOmega n j k

/-- Which function `_apply_phase` points to: the default that does nothing (905-913),
`_apply_phase_preop` (915-925) or `_apply_phase_postop` (927-937). -/
inductive Applied where
  | nothing
  | pre
  | post
  deriving DecidableEq

/-- The phase related attributes: `_phase_application`, `_apply_phase`,
`_dyn_gen_phase`, `_evo_initialized`. -/
structure PhaseState (d : Type) where
  app : String
  applied : Applied
  cached : Option (Matrix d d ℂ)
  evoInit : Bool

variable {d : Type} [Fintype d]

/-- `DynamicsSymplectic.reset` (1749-1756) after `Dynamics.reset`. -/
def PhaseState.fresh : PhaseState d := ⟨"postop", .nothing, none, false⟩

/-- `_config_phase_application` (872-897) for a string. -/
def configPhase (v : String) (old : Applied) : Except PyErr Applied :=
  if pyLower v = "preop" then .ok .pre
  else if pyLower v = "postop" then .ok .post
  else if pyLower v = "custom" then .ok old
  else .error .valueError

/-- `_get_dyn_gen_phase` (1800-1813): no lower-casing here. -/
def getDynGenPhase (om : Matrix d d ℂ) (v : String) : Except PyErr (Option (Matrix d d ℂ)) :=
  if v = "postop" then .ok (some (-om))
  else if v = "preop" then .ok (some om)
  else if v = "custom" then .ok none
  else .error .valueError

/-- `_set_phase_application` (868-870, 1793-1798). -/
def setPhaseApp (om : Matrix d d ℂ) (s : PhaseState d) (v : String) :
    PhaseState d × Except PyErr Unit :=
  match configPhase v s.applied with
  | .error e => (s, .error e)
  | .ok ap =>
    let s := { s with applied := ap, app := v }
    if s.evoInit then
      match getDynGenPhase om s.app with
      | .error e => (s, .error e)
      | .ok (some ph) => ({ s with cached := some ph }, .ok ())
      | .ok none => (s, .ok ())
    else (s, .ok ())

/-- The `dyn_gen_phase` property (1815-1826). -/
def readPhase (om : Matrix d d ℂ) (s : PhaseState d) :
    PhaseState d × Except PyErr (Option (Matrix d d ℂ)) :=
  match s.cached with
  | some ph => (s, .ok (some ph))
  | none =>
    match getDynGenPhase om s.app with
    | .error e => (s, .error e)
    | .ok ph => ({ s with cached := ph }, .ok ph)

/-- The phase part of `_init_evo` (`_init_phase`, 899-903), followed by
`_evo_initialized = True` (833). -/
def initPhase (om : Matrix d d ℂ) (s : PhaseState d) : PhaseState d × Except PyErr Unit :=
  match readPhase om s with
  | (s, .error e) => (s, .error e)
  | (s, .ok none) => ({ s with evoInit := true }, .ok ())
  | (s, .ok (some _)) =>
    match configPhase s.app s.applied with
    | .error e => (s, .error e)
    | .ok ap => ({ s with applied := ap, evoInit := true }, .ok ())

/-- What a user does before (and between) initialisations. -/
inductive PhaseOp where
  | setApp (v : String)
  | read
  | init

/-- One operation; errors are swallowed by the user. -/
def phaseStep (om : Matrix d d ℂ) (s : PhaseState d) : PhaseOp → PhaseState d
  | .setApp v => (setPhaseApp om s v).1
  | .read => (readPhase om s).1
  | .init => (initPhase om s).1

def phaseRun (om : Matrix d d ℂ) (ops : List PhaseOp) : PhaseState d :=
  ops.foldl (phaseStep om) PhaseState.fresh

/-- The phase operation in force: `none` when `dyn_gen_phase` is `None`, otherwise what
`_apply_phase` does (905-937). -/
def PhaseState.phase (s : PhaseState d) : Option (Matrix d d ℂ → Matrix d d ℂ) :=
  s.cached.map fun ph => match s.applied with
    | .nothing => fun A => A
    | .pre => fun A => ph * A
    | .post => fun A => A * ph

/-- What a user configures on a `DynamicsSymplectic` object of `n` modes; `m` indexes
the columns of the evolving object. -/
structure Cfg (n : Nat) (m : Type) where
  nTs : Nat
  nCtrls : Nat
  drift : Nat → Matrix (Fin (2 * n)) (Fin (2 * n)) ℂ
  ctrl : Nat → Nat → Matrix (Fin (2 * n)) (Fin (2 * n)) ℂ
  tau : Nat → ℝ
  initial : Matrix (Fin (2 * n)) m ℂ
  target : Matrix (Fin (2 * n)) m ℂ
  isQobj : Bool
  cachePhased : Bool
  cachePropGrad : Bool
  scaleFactor : Option ℝ
  phaseOps : List PhaseOp

/-- The initialised system with the default computers `PropCompFrechet` and
`FidCompTraceDiff` (1758-1773).  The form of the target for the onto evolution and the
overlap normalisation are not used by the trace difference computer. -/
noncomputable def Cfg.sys {n : Nat} {m : Type} (c : Cfg n m) :
    Sys (Fin (2 * n)) m (Decomp (Fin (2 * n))) :=
  initSys
    { nTs := c.nTs
      nCtrls := c.nCtrls
      drift := c.drift
      ctrl := c.ctrl
      tau := c.tau
      phase := (phaseRun (omega n) (c.phaseOps ++ [.init])).phase
      initial := c.initial
      target := c.target
      ontoTarget := 0
      isQobj := c.isQobj
      cachePhased := c.cachePhased
      phasedCtrl := fun _ _ => 0
      cachePropGrad := c.cachePropGrad
      propKind := .frechet
      fidKind := .traceDiff
      phaseOpt := .PSU
      dimNorm := 1
      scale := defaultScale c.scaleFactor (2 * n)
      expm := NormedSpace.exp
      frechet := augMatGrad
      decompose := fun _ _ => ⟨0, 0, 0⟩
      diagProp := diagProp
      diagGrad := diagGrad }

end QTrl.Sympl
