import Verif.Model.Timeslots
import Verif.Model.PhaseSettings
import Verif.Model.Params

/-
How a `Dynamics` object gets its attributes: `__init__`, `reset`, `apply_params`,
`_create_computers` and `clear` (dynamics.py 346-470, 523-543) with the overridden methods of
`DynamicsGenMat` (1500-1511), `DynamicsUnitary` (1538-1562) and `DynamicsSymplectic` (1749-1773),
and what `set_param` (loadparams.py 131-230) does to the time slots.

The time slots and the phase settings are behind properties; all other names are plain
attributes.  Simplifications: the names `log_level` (Model/Logging.lean), `dumping` and
`dump_dir` (Model/DumpLevel.lean, Model/Io.lean) and the properties without a setter are not
among the names considered, except `dyn_gen_phase` of symplectic dynamics.  A new computer is
represented by the name of its class.
-/

namespace QTrl.DynReset

open QTrl.Timeslots (TS initTimeslots setNumTslots setEvoTime setTau ensureInit)
open QTrl.PhaseSet (ApplyFn)
open QTrl.Par (PV)

inductive Cls where
  | genMat
  | unitary
  | symplectic
  deriving DecidableEq

/-- An entry of a dictionary of parameters, by the kind of its name. -/
inductive Entry (K : Type) where
  /-- `"num_tslots": n` -/
  | num (n : Int)
  /-- `"evo_time": T` -/
  | evo (T : K)
  /-- `"tau": t` -/
  | tau (t : List K)
  /-- `"phase_application": v` -/
  | appl (v : PhaseSet.Val)
  /-- `"dyn_gen_phase": v` -/
  | phase (v : PV)
  /-- any other name -/
  | plain (k : String) (v : PV)

/-- The attributes of the object. -/
structure Dyn (K : Type) where
  ts : TS K
  /-- `_phase_application` -/
  appl : PhaseSet.Val
  /-- `_apply_phase` -/
  apply : ApplyFn
  /-- `_dyn_gen_phase` -/
  phase : PV
  attrs : String → Option PV
  /-- `params`, if it is a dictionary -/
  params : Option (List (Entry K))

variable {K : Type} [Field K]

/-- `self.k = v` -/
def Dyn.set (s : Dyn K) (k : String) (v : PV) : Dyn K :=
  { s with attrs := fun n => if n = k then some v else s.attrs n }

/-- Several assignments. -/
def Dyn.setList (s : Dyn K) : List (String × PV) → Dyn K
  | [] => s
  | (k, v) :: r => (s.set k v).setList r

/-- `_config_phase_application` (dynamics.py 873-898): the method the option stands for. -/
def configure (old : ApplyFn) (v : PhaseSet.Val) : Except PyErr ApplyFn :=
  match v with
  | .str t =>
      if pyLower t = "preop" then .ok .preop
      else if pyLower t = "postop" then .ok .postop
      else if pyLower t = "custom" then .ok old
      else .error .valueError
  | _ => .error .valueError

/-- `setattr(self, key, value)` for an entry.  The setter of `phase_application` is that of an
object whose evolution is not initialised (dynamics.py 865-871, 1793-1798); symplectic dynamics
has no setter for `dyn_gen_phase` (1815-1826). -/
def Dyn.setEntry (c : Cls) (s : Dyn K) : Entry K → Dyn K × Except PyErr Unit
  | .num n =>
      let r := setNumTslots s.ts (some n)
      ({ s with ts := r.1 }, r.2)
  | .evo T =>
      let r := setEvoTime s.ts (some T)
      ({ s with ts := r.1 }, r.2)
  | .tau t =>
      let r := setTau s.ts (some t)
      ({ s with ts := r.1 }, r.2)
  | .appl v =>
      match configure s.apply (if v = .none then s.appl else v) with
      | .error e => (s, .error e)
      | .ok f => ({ s with apply := f, appl := v }, .ok ())
  | .phase v =>
      match c with
      | .symplectic => (s, .error .attributeError)
      | _ => ({ s with phase := v }, .ok ())
  | .plain k v => (s.set k v, .ok ())

/-- `for key in params: setattr(self, key, params[key])`; an exception ends the loop. -/
def Dyn.setEntries (c : Cls) (s : Dyn K) : List (Entry K) → Dyn K × Except PyErr Unit
  | [] => (s, .ok ())
  | e :: r =>
      match s.setEntry c e with
      | (s, .error x) => (s, .error x)
      | (s, .ok ()) => s.setEntries c r

/-- `apply_params(params)` (dynamics.py 443-458). -/
def Dyn.applyParams (c : Cls) (s : Dyn K) (arg : Option (List (Entry K))) :
    Dyn K × Except PyErr Unit :=
  let p := match arg with
    | none => s.params
    | some [] => s.params
    | some (x :: r) => some (x :: r)
  match p with
  | none => (s, .ok ())
  | some d => { s with params := some d }.setEntries c d

/-- The assignments of plain attributes in `Dynamics.reset` (dynamics.py 351-434), without those
of the time slots and of the phase. -/
def baseList : List (String × PV) :=
  [("parent", .none), ("initial", .none), ("target", .none), ("ctrl_amps", .none),
   ("initial_ctrl_scaling", .num 1), ("initial_ctrl_offset", .num 0), ("drift_dyn_gen", .none),
   ("ctrl_dyn_gen", .none), ("_num_ctrls", .none), ("memory_optimization", .num 0),
   ("oper_dtype", .none), ("cache_phased_dyn_gen", .none), ("cache_prop_grad", .none),
   ("cache_dyn_gen_eigenvectors_adj", .none), ("sparse_eigen_decomp", .none),
   ("dyn_dims", .none), ("dyn_shape", .none), ("sys_dims", .none), ("sys_shape", .none),
   ("time_depend_drift", .bool false), ("time_depend_ctrl_dyn_gen", .bool false),
   ("_drift_dyn_gen", .none), ("_ctrl_dyn_gen", .none), ("_phased_ctrl_dyn_gen", .none),
   ("_initial", .none), ("_target", .none), ("_onto_evo_target", .none), ("_dyn_gen", .none),
   ("_phased_dyn_gen", .none), ("_prop", .none), ("_prop_grad", .none), ("_fwd_evo", .none),
   ("_onwd_evo", .none), ("_onto_evo", .none), ("_onto_evo_target_qobj", .none),
   ("_dyn_gen_qobj", .none), ("_prop_qobj", .none), ("_prop_grad_qobj", .none),
   ("_fwd_evo_qobj", .none), ("_onwd_evo_qobj", .none), ("_onto_evo_qobj", .none),
   ("_decomp_curr", .none), ("_prop_eigen", .none), ("_dyn_gen_eigenvectors", .none),
   ("_dyn_gen_eigenvectors_adj", .none), ("_dyn_gen_factormatrix", .none),
   ("fact_mat_round_prec", .num (1 / 10 ^ 10)), ("stats", .none), ("id_text", .str "DYN_BASE"),
   ("def_amps_fname", .str "ctrl_amps.txt"), ("_dyn_gen_mapped", .bool false),
   ("_evo_initialized", .bool false), ("_ctrls_initialized", .bool false),
   ("_ctrl_dyn_gen_checked", .bool false), ("_drift_dyn_gen_checked", .bool false),
   ("unitarity_check_level", .num 0), ("unitarity_tol", .num (1 / 10 ^ 10)), ("dump", .none),
   ("dump_to_file", .bool false)]

/-- `_create_computers` (dynamics.py 523-536, 1548-1562, 1758-1773); `dynamic` says whether
`config.tslot_type` is "DYNAMIC". -/
def computers (dynamic : Bool) (c : Cls) : List (String × PV) :=
  let tslot := ("tslot_computer",
    PV.func (if dynamic then "TSlotCompDynUpdate" else "TSlotCompUpdateAll"))
  match c with
  | .genMat | .symplectic => [tslot, ("prop_computer", .func "PropCompFrechet"),
      ("fid_computer", .func "FidCompTraceDiff")]
  | .unitary => [tslot, ("fid_computer", .func "FidCompUnitary"),
      ("prop_computer", .func "PropCompDiag")]

/-- `clear` (dynamics.py 538-542); the fidelity computer is new and has nothing to clear. -/
def clearList : List (String × PV) := [("ctrl_amps", .none), ("evo_current", .bool false)]

/-- The plain assignments of the subclasses after `Dynamics.reset` (dynamics.py 1509, 1540-1543,
1751-1753, 1755). -/
def ownList : Cls → List (String × PV)
  | .genMat => [("id_text", .str "GEN_MAT")]
  | .unitary => [("id_text", .str "UNIT"), ("drift_ham", .none), ("ctrl_ham", .none),
      ("H", .none)]
  | .symplectic => [("id_text", .str "SYMPL"), ("_omega", .none), ("_omega_qobj", .none),
      ("grad_exact", .bool true)]

/-- The phase settings of the subclasses (dynamics.py 1544-1545, 1754); the number −i is
represented by a name. -/
def ownPhase (c : Cls) (s : Dyn K) : Dyn K :=
  match c with
  | .genMat => s
  | .unitary => { s with phase := .func "-1j", appl := .str "preop" }
  | .symplectic => { s with appl := .str "postop" }

/-- The assignments of `Dynamics.reset` before its `apply_params` (dynamics.py 351-434);
`_apply_phase` is not among them. -/
def Dyn.base (s : Dyn K) : Dyn K :=
  { s with ts := TS.fresh, appl := .none, phase := .none }.setList baseList

/-- `Dynamics.reset` (dynamics.py 351-441). -/
def Dyn.resetBase (c : Cls) (dynamic : Bool) (s : Dyn K) : Dyn K × Except PyErr Unit :=
  match s.base.applyParams c none with
  | (s, .error e) => (s, .error e)
  | (s, .ok ()) => ((s.setList (computers dynamic c)).setList clearList, .ok ())

/-- `reset` of the class (dynamics.py 1507-1511, 1538-1546, 1749-1756). -/
def Dyn.reset (c : Cls) (dynamic : Bool) (s : Dyn K) : Dyn K × Except PyErr Unit :=
  match s.resetBase c dynamic with
  | (s, .error e) => (s, .error e)
  | (s, .ok ()) => (ownPhase c (s.setList (ownList c))).applyParams c none

/-- An object before its constructor has done anything; `_apply_phase` is the method of the
class. -/
def Dyn.blank (params : Option (List (Entry K))) : Dyn K :=
  { ts := TS.fresh, appl := .none, apply := .default, phase := .none, attrs := fun _ => none
    params := params }

/-- The constructor (dynamics.py 346-349). -/
def construct (c : Cls) (dynamic : Bool) (params : Option (List (Entry K))) :
    Dyn K × Except PyErr Unit :=
  (Dyn.blank params).reset c dynamic

/-- `_init_phase` (dynamics.py 900-904) of an object of a class other than the symplectic one:
the method that treats the phase. -/
def Dyn.initPhase (s : Dyn K) : Except PyErr ApplyFn :=
  if s.phase = .none then .ok s.apply else configure s.apply s.appl

/-! ### Time slots from a parameter file -/

/-- An option of the file about the time slots, with its value as Python evaluates the text. -/
inductive FileOpt (K : Type) where
  | num (n : Int)
  | evo (T : K)
  | tau (t : List K)

/-- `set_param` for one of them (loadparams.py 131-230) and an object whose durations are those
that the code generates, or come from a file: `hasattr` reads the property, which initialises
the time slots; the value gets the type of the value read.  `single` is the conversion of
numbers to the type of the generated durations (float32, dynamics.py 597). -/
def setParam (single : K → K) (s : TS K) (o : FileOpt K) : TS K × Except PyErr Unit :=
  match ensureInit s with
  | (s, .error e) => (s, .error e)
  | (s, .ok ()) =>
      match o with
      | .num n => setNumTslots s (some n)
      | .evo T => setEvoTime s (some T)
      | .tau t => setTau s (some (t.map single))

/-- The options of the section one after the other (loadparams.py 75-79). -/
def setParams (single : K → K) (s : TS K) : List (FileOpt K) → TS K × Except PyErr Unit
  | [] => (s, .ok ())
  | o :: r =>
      match setParam single s o with
      | (s, .error e) => (s, .error e)
      | (s, .ok ()) => setParams single s r

end QTrl.DynReset
