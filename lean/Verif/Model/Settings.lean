import Verif.Model.Params
import Verif.Model.LoadParams

/-
How configuration objects, termination conditions and optimisers get their attributes: `reset`
of `OptimConfig` (optimconfig.py 59-67), `TerminationConditions` (termcond.py 58-64) and of the
optimiser classes (optimizer.py 246-282, 804-806, 907-910, 1060-1063, 1191-1195), with
`apply_params` (296-312, the same text as in the classes of Model/Params.lean).

Simplifications as in Model/Params.lean: plain attributes only.  The properties `log_level` (see
Model/Logging.lean), `dumping` and `dump_dir` (see Model/Dump.lean) and the attributes `dynamics`,
`config` and `params` are not among the names considered.
-/

namespace QTrl.Settings

open Par

/-- The classes. -/
inductive Kind where
  | config
  | termConds
  | base
  | bfgs
  | lbfgsb
  | crab
  | crabFmin
  deriving DecidableEq

/-- `OptimConfig.reset` (optimconfig.py 59-67). -/
def configReset : List Op :=
  [.set "alg" (.str "GRAPE"), .set "optim_method" (.str "DEF"), .set "dyn_type" (.str "DEF"),
   .set "fid_type" (.str "DEF"), .set "fid_type" (.str "DEF"), .set "tslot_type" (.str "DEF"),
   .set "init_pulse_type" (.str "DEF")]

/-- `TerminationConditions.reset` (termcond.py 58-64). -/
def termReset : List Op :=
  [.set "fid_err_targ" (.num (1 / 100000)), .set "fid_goal" .none,
   .set "max_wall_time" (.num (60 * 60)), .set "min_gradient_norm" (.num (1 / 100000)),
   .set "max_iterations" (.num 10000000000), .set "max_fid_func_calls" (.num 10000000000)]

/-- The truth value of an attribute; that of an object of the caller is a parameter, `none` if
asking for it raises. -/
def truth (obj : ℕ → Option Bool) : PV → Option Bool
  | .none => some false
  | .bool b => some b
  | .num q => some (decide (q ≠ 0))
  | .str s => some (decide (s ≠ ""))
  | .inf => some true
  | .func _ => some true
  | .caller n => obj n

/-- `if hasattr(self.config, k): if self.config.k: self.k = self.config.k` (optimizer.py
275-280). -/
def copyBound (obj : ℕ → Option Bool) (cfg : Attrs) (k : String) : Option (List Op) :=
  match cfg k with
  | Option.none => some []
  | some v =>
      match truth obj v with
      | Option.none => Option.none
      | some true => some [.set k v]
      | some false => some []

/-- `Optimizer.reset` (optimizer.py 246-282) for the attributes of the configuration. -/
def optimReset (obj : ℕ → Option Bool) (cfg : Attrs) : Option (List Op) :=
  match copyBound obj cfg "amp_lbound" with
  | Option.none => Option.none
  | some l =>
      match copyBound obj cfg "amp_ubound" with
      | Option.none => Option.none
      | some u => some (
          [.set "id_text" (.str "OPTIM"), .set "termination_conditions" .none,
           .set "pulse_generator" .none, .set "disp_conv_msg" (.bool false),
           .set "iteration_steps" .none, .set "record_iteration_steps" (.bool false),
           .set "alg" (.str "GRAPE"), .set "alg_params" .none, .set "method" (.str "l_bfgs_b"),
           .set "method_params" .none, .set "method_options" .none,
           .set "approx_grad" (.bool false), .set "amp_lbound" .none, .set "amp_ubound" .none,
           .set "bounds" .none, .set "num_iter" (.num 0), .set "num_fid_func_calls" (.num 0),
           .set "num_grad_func_calls" (.num 0), .set "stats" .none,
           .set "wall_time_optim_start" (.num 0), .set "dump_to_file" (.bool false),
           .set "dump" .none, .set "iter_summary" .none] ++ (l ++ (u ++ [.apply])))

/-- What a class adds after the `reset` of the base class (optimizer.py 804-806, 907-910,
1060-1063, 1191-1195). -/
def Kind.own : Kind → List Op
  | .bfgs => [.set "id_text" (.str "BFGS")]
  | .lbfgsb => [.set "id_text" (.str "LBFGSB"), .set "max_metric_corr" (.num 10)]
  | .crab => [.set "id_text" (.str "CRAB"), .set "num_optim_vars" (.num 0)]
  | .crabFmin => [.set "id_text" (.str "CRAB"), .set "num_optim_vars" (.num 0),
      .set "id_text" (.str "CRAB_FMIN"), .set "xtol" (.num (1 / 10000)),
      .set "ftol" (.num (1 / 10000))]
  | _ => []

/-- The statements of `reset`. -/
def Kind.reset (obj : ℕ → Option Bool) (cfg : Attrs) (c : Kind) : Option (List Op) :=
  match c with
  | .config => some configReset
  | .termConds => some termReset
  | c =>
      match optimReset obj cfg with
      | Option.none => Option.none
      | some l => some (l ++ c.own)

/-- `self.reset()`; `none` is an exception. -/
def Kind.runReset (obj : ℕ → Option Bool) (cfg : Attrs) (c : Kind) (o : Obj) : Option Obj :=
  match c.reset obj cfg with
  | Option.none => Option.none
  | some l => runOps o l

/-- The constructor (optimconfig.py 56-57, termcond.py 55-56, optimizer.py 239-244); the first two
take no parameters. -/
def Kind.new (obj : ℕ → Option Bool) (cfg : Attrs) (c : Kind) (params : Option Dict) :
    Option Obj :=
  match c with
  | .config => Kind.runReset obj cfg .config ⟨fun _ => Option.none, Option.none⟩
  | .termConds => Kind.runReset obj cfg .termConds ⟨fun _ => Option.none, Option.none⟩
  | c => c.runReset obj cfg ⟨fun _ => Option.none, params⟩

/-- What can be done with an object (optimizer.py 296-312 for the parameters); configurations
and termination conditions have no `apply_params`. -/
def Kind.act (obj : ℕ → Option Bool) (cfg : Attrs) (c : Kind) (o : Obj) : Act → Option Obj
  | .applyParams d =>
      match c with
      | .config => Option.none
      | .termConds => Option.none
      | _ => some (o.applyParams d)
  | .reset => c.runReset obj cfg o
  | .assign k v => some { o with attrs := o.attrs.set k v }

/-- A history of them. -/
def Kind.acts (obj : ℕ → Option Bool) (cfg : Attrs) (c : Kind) (o : Obj) :
    List Act → Option Obj
  | [] => some o
  | a :: r =>
      match c.act obj cfg o a with
      | Option.none => Option.none
      | some o' => c.acts obj cfg o' r

/-- The `method` argument of `minimize` in `run_optimization` of the base class, which the CRAB
class inherits (optimizer.py 585); the other classes call the function of their method
(optimizer.py 854, 993, 1236), which is `none` here. -/
def Kind.method (c : Kind) (o : Obj) : Option PV :=
  match c with
  | .base | .crab => o.attrs "method"
  | _ => Option.none

/-- An object as `load_parameters` sees it: all its attributes can be set. -/
def asTarget (o : Obj) : LoadParams.Obj PV := { attr := o.attrs, readOnly := fun _ => false }

end QTrl.Settings
