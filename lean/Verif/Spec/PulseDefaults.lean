import Verif.Spec.PulseOptim

/-
Specification of the values the convenience functions use for parameters that are left out.
-/

namespace QTrl.PO

open QTrl.Opt (Cls)

/-- The documented method of an entry point (pulseoptim.py 37-41, 227-228, 655-656). -/
def Entry.defaultCls : Entry → Cls
  | .optimize => .lbfgsb
  | .unitary => .lbfgsb
  | .crab => .crabFmin
  | .crabUnitary => .crabFmin

/-- The limits of an entry point in the signatures (pulseoptim.py 96-138, 525-563, 856-894,
1178-1214): termination condition, parameter, value. -/
def Entry.limits : Entry → List (String × String × ℚ)
  | .optimize => [("fid_err_targ", "fid_err_targ", 1 / 10 ^ 10), ("max_iterations", "max_iter", 500),
      ("max_wall_time", "max_wall_time", 180), ("min_gradient_norm", "min_grad", 1 / 10 ^ 10)]
  | .unitary => [("fid_err_targ", "fid_err_targ", 1 / 10 ^ 10), ("max_iterations", "max_iter", 500),
      ("max_wall_time", "max_wall_time", 180), ("min_gradient_norm", "min_grad", 1 / 10 ^ 10)]
  | .crab => [("fid_err_targ", "fid_err_targ", 1 / 10 ^ 5), ("max_iterations", "max_iter", 500),
      ("max_wall_time", "max_wall_time", 180)]
  | .crabUnitary => [("fid_err_targ", "fid_err_targ", 1 / 10 ^ 5),
      ("max_iterations", "max_iter", 500), ("max_wall_time", "max_wall_time", 180)]

/-- The parameters that name a method or its options. -/
def methodNames : List String :=
  ["method_params", "max_metric_corr", "accuracy_factor"]

end QTrl.PO
