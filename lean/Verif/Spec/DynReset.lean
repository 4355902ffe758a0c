import Verif.Model.DynReset

/-
What the parameters of a dynamics object should amount to, without the order in which the code
assigns them.
-/

namespace QTrl.DynReset

open QTrl.Par (PV)

variable {K : Type}

/-- The name of an entry. -/
def Entry.key : Entry K → String
  | .num _ => "num_tslots"
  | .evo _ => "evo_time"
  | .tau _ => "tau"
  | .appl _ => "phase_application"
  | .phase _ => "dyn_gen_phase"
  | .plain k _ => k

/-- The names of the properties. -/
def properties : List String :=
  ["num_tslots", "evo_time", "tau", "phase_application", "dyn_gen_phase"]

/-- An option that `phase_application` accepts. -/
def IsOption (v : PhaseSet.Val) : Prop :=
  ∃ t, v = .str t ∧ (pyLower t = "preop" ∨ pyLower t = "postop" ∨ pyLower t = "custom")

/-- A value that the object accepts. -/
def Entry.Ok (c : Cls) : Entry K → Prop
  | .num n => 0 < n
  | .evo _ => True
  | .tau t => t ≠ []
  | .appl v => IsOption v
  | .phase _ => c ≠ .symplectic
  | .plain k _ => k ∉ properties

/-- A dictionary of such entries. -/
structure Valid (c : Cls) (d : List (Entry K)) : Prop where
  ok : ∀ e ∈ d, e.Ok c
  nodup : (d.map Entry.key).Nodup

/-- The documented attributes and their values in a new object (docstrings dynamics.py 150-344,
1518-1536, 1741-1747). -/
def documented (dynamic : Bool) : Cls → List (String × PV)
  | .genMat => common ++ [("id_text", .str "GEN_MAT"), ("prop_computer", .func "PropCompFrechet"),
      ("fid_computer", .func "FidCompTraceDiff")]
  | .unitary => common ++ [("id_text", .str "UNIT"), ("prop_computer", .func "PropCompDiag"),
      ("fid_computer", .func "FidCompUnitary"), ("drift_ham", .none), ("ctrl_ham", .none),
      ("H", .none)]
  | .symplectic => common ++ [("id_text", .str "SYMPL"),
      ("prop_computer", .func "PropCompFrechet"), ("fid_computer", .func "FidCompTraceDiff"),
      ("grad_exact", .bool true)]
where
  common : List (String × PV) :=
    [("stats", .none), ("initial", .none), ("target", .none), ("drift_dyn_gen", .none),
     ("ctrl_dyn_gen", .none), ("ctrl_amps", .none), ("initial_ctrl_scaling", .num 1),
     ("initial_ctrl_offset", .num 0), ("memory_optimization", .num 0), ("oper_dtype", .none),
     ("cache_phased_dyn_gen", .none), ("cache_prop_grad", .none),
     ("cache_dyn_gen_eigenvectors_adj", .none), ("sparse_eigen_decomp", .none),
     ("time_depend_drift", .bool false), ("time_depend_ctrl_dyn_gen", .bool false),
     ("fact_mat_round_prec", .num (1 / 10 ^ 10)), ("def_amps_fname", .str "ctrl_amps.txt"),
     ("unitarity_check_level", .num 0), ("unitarity_tol", .num (1 / 10 ^ 10)), ("dump", .none),
     ("dump_to_file", .bool false), ("parent", .none), ("evo_current", .bool false),
     ("tslot_computer", .func (if dynamic then "TSlotCompDynUpdate" else "TSlotCompUpdateAll"))]

/-- The phase settings of a class (docstrings dynamics.py 1518-1536, 1741-1747 and 318-340). -/
def classAppl : Cls → PhaseSet.Val
  | .genMat => .none
  | .unitary => .str "preop"
  | .symplectic => .str "postop"
def classPhase : Cls → PV
  | .unitary => .func "-1j"
  | _ => .none

/-- What an entry says about the number of slots, the time and the durations. -/
def Entry.num? : Entry K → Option Int
  | .num n => some n
  | _ => none
def Entry.evo? : Entry K → Option K
  | .evo T => some T
  | _ => none
def Entry.tau? : Entry K → Option (List K)
  | .tau t => some t
  | _ => none

/-- The number of slots given. -/
def numOf (d : List (Entry K)) : Option Int := d.foldr (fun e r => r.or e.num?) none
/-- The evolution time given. -/
def evoOf (d : List (Entry K)) : Option K := d.foldr (fun e r => r.or e.evo?) none
/-- The durations given. -/
def tauOf (d : List (Entry K)) : Option (List K) := d.foldr (fun e r => r.or e.tau?) none

/-- Equal slots. -/
def equalSlots [Field K] (n : Int) (T : K) : List K := List.replicate n.toNat (T / (n : K))

/-- The names of a kind of object that a `reset` takes care of. -/
def known (dynamic : Bool) (c : Cls) : List String :=
  (baseList ++ computers dynamic c ++ clearList ++ ownList c).map Prod.fst

/-- Two objects are alike: the time slots, the phase settings and the named attributes. -/
structure Alike (names : String → Prop) (s s' : Dyn K) : Prop where
  ts : s.ts = s'.ts
  appl : s.appl = s'.appl
  phase : s.phase = s'.phase
  attrs : ∀ k, names k → s.attrs k = s'.attrs k
  params : s.params = s'.params

end QTrl.DynReset
