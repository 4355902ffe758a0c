import Verif.Model.Dynamics

/-
The settings that choose how phases are treated: `phase_application` of general and unitary
dynamics (dynamics.py 835-915, 1541-1542; for symplectic dynamics see `Model/Symplectic.lean`)
and `phase_option` of `FidCompUnitary` (fidcomp.py 283-346), as sequences of assignments and
initialisations.
-/

namespace QTrl.PhaseSet

open QTrl.Dyn (PhaseOpt)

/-- An assigned value: `None`, a string, or something without a method `lower`. -/
inductive Val where
  | none
  | str (s : String)
  | other
  deriving DecidableEq

/-- What `_apply_phase` points to: the default method, which returns its argument, the two
methods for the options, or a function of the user. -/
inductive ApplyFn where
  | default
  | preop
  | postop
  | user
  deriving DecidableEq

structure DynPhase where
  /-- `_phase_application` -/
  appl : Val
  /-- `_apply_phase` -/
  apply : ApplyFn
  /-- `_dyn_gen_phase is not None` -/
  phase : Bool
  deriving DecidableEq

/-- The state after `reset` of `DynamicsUnitary` (dynamics.py 1541-1542) or of the other
class, `DynamicsGenMat` (387-388); `_apply_phase` is the method of the class. -/
def reset (unitary : Bool) : DynPhase :=
  if unitary then ⟨.str "preop", .default, true⟩ else ⟨.none, .default, false⟩

/-- `_config_phase_application` (dynamics.py 873-898). -/
def config (s : DynPhase) (v : Val) : DynPhase × Except PyErr Unit :=
  let v := if v = .none then s.appl else v
  match v with
  | .str t =>
    let t := pyLower t
    if t = "preop" then ({ s with apply := .preop }, .ok ())
    else if t = "postop" then ({ s with apply := .postop }, .ok ())
    else if t = "custom" then (s, .ok ())
    else (s, .error .valueError)
  | _ => (s, .error .valueError)

/-- The `phase_application` setter (dynamics.py 865-871). -/
def setAppl (s : DynPhase) (v : Val) : DynPhase × Except PyErr Unit :=
  match config s v with
  | (s, .error e) => (s, .error e)
  | (s, .ok _) => ({ s with appl := v }, .ok ())

/-- `_init_phase` (dynamics.py 900-904). -/
def initialise (s : DynPhase) : DynPhase × Except PyErr Unit :=
  if s.phase then config s .none else (s, .ok ())

/-- What a user does: assign `phase_application`, assign `dyn_gen_phase` (a value or `None`),
replace `_apply_phase` by a function of their
own (documented for `custom`), or initialise.  Exceptions are caught. -/
inductive Op where
  | setAppl (v : Val)
  | setPhase (given : Bool)
  | setApply
  | init

def step (s : DynPhase) : Op → DynPhase × Except PyErr Unit
  | .setAppl v => setAppl s v
  | .setPhase b => ({ s with phase := b }, .ok ())
  | .setApply => ({ s with apply := .user }, .ok ())
  | .init => initialise s

def run (s : DynPhase) (ops : List Op) : DynPhase := ops.foldl (fun s o => (step s o).1) s

/-! ### The phase option of the fidelity -/

/-- `_phase_option` and the normalisation functions `fid_norm_func`, `grad_norm_func` (which
are always set together). -/
structure FidPhase where
  option : Val
  norm : Option PhaseOpt
  deriving DecidableEq

/-- `_init_phase_option` (fidcomp.py 320-336): the value is stored before it is checked. -/
def setOption (s : FidPhase) (v : Val) : FidPhase × Except PyErr Unit :=
  let s := { s with option := v }
  if v = .str "PSU" then ({ s with norm := some .PSU }, .ok ())
  else if v = .str "SU" then ({ s with norm := some .SU }, .ok ())
  else (s, .error .usageError)

/-- `set_phase_option(phase_option=None)` (fidcomp.py 296-306), the old name. -/
def setOptionOld (s : FidPhase) (v : Option Val) : FidPhase × Except PyErr Unit :=
  setOption s (v.getD .none)

/-- `reset` of `FidCompUnitary` (fidcomp.py 283-288). -/
def resetFid : FidPhase := (setOption ⟨.none, none⟩ (.str "PSU")).1

/-- `init_comp` (fidcomp.py 338-346). -/
def initComp (s : FidPhase) : Except PyErr PhaseOpt :=
  match s.norm with
  | none => .error .usageError
  | some p => .ok p

def runFid (s : FidPhase) (vs : List Val) : FidPhase := vs.foldl (fun s v => (setOption s v).1) s

end QTrl.PhaseSet
