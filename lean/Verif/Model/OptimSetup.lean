import Verif.Model.Optimizer

/-
Model of how an optimiser is configured (optimizer.py): construction and parameters, method
parameters and options, the checks of `init_optim`, and the arguments each class hands to its
minimiser.

Python values are an abstract type `V`; `pos v` is the outcome of `v > 0` (it can raise).
Attributes of an object are a partial function from names.  Simplifications: keys that name
the attributes `method_options`, `method_params` and `termination_conditions` themselves are
treated as ordinary attributes, and properties (`log_level`, `dumping`, `dump_dir`) as plain
ones.
-/

namespace QTrl.Opt

/-- A Python dictionary with string keys, in insertion order. -/
abbrev Dict (V : Type) := List (String × V)

namespace Dict

variable {V : Type}

/-- `d.get(k)`. -/
def get (d : Dict V) (k : String) : Option V :=
  match d with
  | [] => none
  | (k', v) :: r => if k' = k then some v else get r k

/-- `k in d`. -/
def has (d : Dict V) (k : String) : Bool := (d.get k).isSome

/-- `d[k] = v`. -/
def set (d : Dict V) (k : String) (v : V) : Dict V :=
  match d with
  | [] => [(k, v)]
  | (k', v') :: r => if k' = k then (k, v) :: r else (k', v') :: set r k v

/-- `d.update(e)`. -/
def update (d : Dict V) : Dict V → Dict V
  | [] => d
  | (k, v) :: r => update (d.set k v) r

end Dict

variable {V : Type}

/-- Attributes of an object. -/
abbrev Attrs (V : Type) := String → Option V

/-- `setattr(o, k, v)`. -/
def setattr (o : Attrs V) (k : String) (v : V) : Attrs V := fun n => if n = k then some v else o n

/-- The configuration of an optimiser. -/
structure Conf (V : Type) where
  attrs : Attrs V
  /-- `termination_conditions` -/
  tc : Attrs V
  /-- `method_params`, `none` for `None` -/
  params : Option (Dict V)
  /-- `method_options`, `none` for `None` -/
  options : Option (Dict V)

/-- `apply_params` (optimizer.py 296-312): every entry becomes an attribute. -/
def setAll (o : Attrs V) : Dict V → Attrs V
  | [] => o
  | (k, v) :: r => setAll (setattr o k v) r

/-- Construction of an optimiser of a class (`reset`, optimizer.py 246-282, 804-806, 907-910,
1060-1063, 1191-1195): the defaults of the base class, the given parameters, and then the
class's own defaults. -/
def construct (c : Cls) (base : Attrs V) (ten tolerance zero : V) (params : Dict V) : Attrs V :=
  let o := setAll base params
  match c with
  | .base | .bfgs => o
  | .lbfgsb => setattr o "max_metric_corr" ten
  | .crab => setattr o "num_optim_vars" zero
  | .crabFmin => setattr (setattr (setattr o "num_optim_vars" zero) "xtol" tolerance) "ftol" tolerance

/-- The loop of `apply_method_params` (optimizer.py 480-490). -/
def sortParams : Conf V → Dict V → Dict V → Conf V × Dict V
  | s, unused, [] => (s, unused)
  | s, unused, (k, v) :: r =>
      if (s.attrs k).isSome then sortParams { s with attrs := setattr s.attrs k v } unused r
      else if (s.tc k).isSome then sortParams { s with tc := setattr s.tc k v } unused r
      else sortParams s (unused.set k v) r

/-- `apply_method_params` (optimizer.py 468-496). -/
def applyMethodParams (s : Conf V) (given : Option (Dict V)) : Conf V :=
  let params := match given with
    | none | some [] => s.params
    | some p => some p
  match params with
  | none => s
  | some p =>
      let r := sortParams { s with params := some p } [] p
      if r.2.length > 0 then
        { r.1 with options := match r.1.options with
          | none => some r.2
          | some o => some (o.update r.2) }
      else r.1

/-- `if tc.<name> > 0 and key not in mo: mo[key] = tc.<name>`. -/
def addLimit (pos : V → Except PyErr Bool) (tc : Attrs V) (name key : String) (mo : Dict V) :
    Except PyErr (Dict V) :=
  match tc name with
  | none => .error .attributeError
  | some v =>
      match pos v with
      | .error e => .error e
      | .ok b => .ok (if b && !mo.has key then mo.set key v else mo)

/-- `if old in mo and new not in mo: mo[new] = mo[old]  elif obj has the attribute and new not
in mo: mo[new] = the attribute` (optimizer.py 450-457). -/
def addAlias (obj : Attrs V) (old new : String) (mo : Dict V) : Dict V :=
  match mo.get old with
  | some v => if !mo.has new then mo.set new v
      else match obj old with
        | some w => if !mo.has new then mo.set new w else mo
        | none => mo
  | none =>
      match obj old with
      | some w => if !mo.has new then mo.set new w else mo
      | none => mo

/-- `_build_method_options` (optimizer.py 436-466). -/
def buildMethodOptions (pos : V → Except PyErr Bool) (s : Conf V) : Except PyErr (Conf V) :=
  let mo := s.options.getD []
  let mo := addAlias s.attrs "max_metric_corr" "maxcor" mo
  let mo := addAlias s.tc "accuracy_factor" "ftol" mo
  match addLimit pos s.tc "max_iterations" "maxiter" mo with
  | .error e => .error e
  | .ok mo =>
      match addLimit pos s.tc "max_fid_func_calls" "maxfev" mo with
      | .error e => .error e
      | .ok mo =>
          match addLimit pos s.tc "min_gradient_norm" "gtol" mo with
          | .error e => .error e
          | .ok mo =>
              if mo.has "disp" then .ok { s with options := some mo }
              else
                match s.attrs "disp_conv_msg" with
                | none => .error .attributeError
                | some v => .ok { s with options := some (mo.set "disp" v) }

/-- A keyword argument taken from an attribute. -/
def kw (o : Attrs V) (attr key : String) (r : Except PyErr (Dict V)) : Except PyErr (Dict V) :=
  match o attr with
  | none => .error .attributeError
  | some v => r.map fun d => (key, v) :: d

/-- The first of some sources. -/
def firstOf : List (Option V) → V → V
  | [], v => v
  | some w :: _, _ => w
  | none :: r, v => firstOf r v

/-- The options a class hands to its minimiser: `options=` of `minimize` (optimizer.py
584-592), keyword arguments of `fmin_bfgs` (854-871), `fmin_l_bfgs_b` (966-1016) and `fmin`
(1236-1248); the default values are parameters. -/
def passed (c : Cls) (seven ten true' : V) (s : Conf V) : Except PyErr (Dict V) :=
  let mo := s.options.getD []
  match c with
  | .base | .crab => .ok mo
  | .bfgs =>
      kw s.tc "min_gradient_norm" "gtol" (kw s.tc "max_iterations" "maxiter" (.ok [("disp", true')]))
  | .lbfgsb =>
      kw s.tc "min_gradient_norm" "pgtol" <| kw s.tc "max_fid_func_calls" "maxfun" <|
        kw s.tc "max_iterations" "maxiter" <| .ok
          [("m", firstOf [mo.get "max_metric_corr", mo.get "maxcor", s.attrs "max_metric_corr"] ten),
           ("factr", firstOf [mo.get "accuracy_factor", mo.get "ftol", s.tc "accuracy_factor"] seven)]
  | .crabFmin =>
      kw s.attrs "xtol" "xtol" <| kw s.attrs "ftol" "ftol" <|
        kw s.tc "max_iterations" "maxiter" <| kw s.tc "max_fid_func_calls" "maxfun" <|
          kw s.attrs "disp_conv_msg" "disp" <| kw s.attrs "record_iteration_steps" "retall" (.ok [])

/-! ### init_optim -/

/-- What can be found in `termination_conditions`. -/
inductive TC where
  | none
  /-- some other object -/
  | other
  | conds (fidErrTarg fidGoal : Option ℝ)

/-- An entry of `pulse_generator`: a CRAB generator with its number of variables, or not. -/
inductive PGen where
  | crab (numOptimVars : ℕ)
  | other

/-- `pulse_generator`. -/
inductive PGens where
  | none
  | notIterable
  | list (gs : List PGen)

/-- What `init_optim` looks at. -/
structure Setup where
  tc : TC
  isDynamics : Bool
  ctrlsInitialized : Bool
  numCtrls : ℕ
  gens : PGens
  /-- entries of `method_params` for the two targets -/
  paramErrTarg : Option (Option ℝ)
  paramGoal : Option (Option ℝ)
  /-- `config.accuracy_factor` is present and true -/
  cfgAccuracy : Bool
  numOptimVars : ℕ

/-- Counting the variables (optimizer.py 1095-1104); `none` if an entry is no CRAB generator. -/
def countVars : List PGen → ℕ → Option ℕ
  | [], n => some n
  | .crab k :: r, n => countVars r (n + k)
  | .other :: _, _ => Option.none

/-- `term_conds` if given, otherwise the attribute (optimizer.py 382-384, 918-919). -/
def TC.pick (given own : TC) : TC :=
  match given with
  | .none => own
  | t => t

/-- `Optimizer.init_optim` (optimizer.py 375-434). -/
noncomputable def initBase (s : Setup) (given : TC) : Except PyErr Setup :=
  match given.pick s.tc with
  | .none | .other => .error .usageError
  | .conds targ goal =>
      if !s.isDynamics then .error .usageError
      else if !s.ctrlsInitialized then .error .usageError
      else
        let targ := s.paramErrTarg.getD targ
        let goal := s.paramGoal.getD goal
        match targ, goal with
        | none, none => .error .usageError
        | none, some g => .ok { s with tc := .conds (some |1 - g|) (some g) }
        | some t, none => .ok { s with tc := .conds (some t) (some (1 - t)) }
        | some t, some g => .ok { s with tc := .conds (some t) (some g) }

/-- The check of the generators (optimizer.py 1076-1110). -/
def checkGens (s : Setup) : Except PyErr Setup :=
  match s.gens with
  | .none | .notIterable => .error .usageError
  | .list gs =>
      if gs.length ≠ s.numCtrls then .error .usageError
      else
        match countVars gs 0 with
        | Option.none => .error .usageError
        | some n => .ok { s with numOptimVars := n }

/-- `init_optim` of each class: L-BFGS-B first copies `config.accuracy_factor` to the
termination conditions (optimizer.py 912-930), CRAB afterwards checks the generators
(1065-1110). -/
noncomputable def initOptim (c : Cls) (s : Setup) (given : TC) : Except PyErr Setup :=
  match c with
  | .base | .bfgs => initBase s given
  | .lbfgsb =>
      match s.cfgAccuracy, given.pick s.tc with
      | true, .none => .error .attributeError
      | _, tc => initBase s tc
  | .crab | .crabFmin =>
      match initBase s given with
      | .error e => .error e
      | .ok s => checkGens s

/-- The stopping target the run uses: `fid_err_targ` at the time of the callbacks. -/
def Setup.target (s : Setup) : Option ℝ :=
  match s.tc with
  | .conds t _ => t
  | _ => none

end QTrl.Opt
