import Verif.Model.Settings

/-
The documented attributes of configurations, termination conditions and optimisers.
-/

namespace QTrl.Settings

open Par

/-- Attributes of the optimiser classes with a fixed default (docstring, optimizer.py 127-236). -/
def optimDefaults : List (String × PV) :=
  [("alg", .str "GRAPE"), ("alg_params", .none), ("disp_conv_msg", .bool false),
   ("method_params", .none), ("approx_grad", .bool false), ("bounds", .none),
   ("termination_conditions", .none), ("pulse_generator", .none), ("stats", .none),
   ("dump", .none), ("dump_to_file", .bool false), ("iter_summary", .none)]

/-- The defaults of each class (docstrings, optimconfig.py 25-54, termcond.py 22-53, optimizer.py
127-236, 896-904). -/
def defaults : Kind → List (String × PV)
  | .config => [("alg", .str "GRAPE"), ("optim_method", .str "DEF"), ("dyn_type", .str "DEF"),
      ("fid_type", .str "DEF"), ("tslot_type", .str "DEF"), ("init_pulse_type", .str "DEF")]
  | .termConds => [("fid_err_targ", .num (1 / 10 ^ 5)), ("fid_goal", .none),
      ("max_wall_time", .num 3600), ("min_gradient_norm", .num (1 / 10 ^ 5)),
      ("max_iterations", .num (10 ^ 10)), ("max_fid_func_calls", .num (10 ^ 10))]
  | .lbfgsb => ("max_metric_corr", .num 10) :: optimDefaults
  | .crabFmin => ("xtol", .num (1 / 10 ^ 4)) :: ("ftol", .num (1 / 10 ^ 4)) :: optimDefaults
  | _ => optimDefaults

/-- The names whose default a class sets after its parameters. -/
def late : Kind → List String
  | .bfgs => ["id_text"]
  | .lbfgsb => ["id_text", "max_metric_corr"]
  | .crab => ["id_text", "num_optim_vars"]
  | .crabFmin => ["id_text", "num_optim_vars", "xtol", "ftol"]
  | _ => []

/-- Optimisers, as against configurations and termination conditions. -/
def Kind.isOptim : Kind → Bool
  | .config => false
  | .termConds => false
  | _ => true

/-- The value of a bound that a configuration gives to an optimiser: its own, unless it is zero or
counts as false otherwise. -/
def boundOf (obj : ℕ → Option Bool) (cfg : Attrs) (k : String) : PV :=
  match cfg k with
  | some (.bool true) => .bool true
  | some (.num q) => if q = 0 then .none else .num q
  | some (.str s) => if s = "" then .none else .str s
  | some .inf => .inf
  | some (.func f) => .func f
  | some (.caller n) => if obj n = some true then .caller n else .none
  | _ => .none

end QTrl.Settings
