import Verif.Model.Views
import Verif.Model.Crab

/-
Model of the optimiser classes (optimizer.py): the variables, the callbacks handed to the
minimiser, the four `run_optimization` methods and the result.

The minimiser (`scipy.optimize.minimize`, `fmin_bfgs`, `fmin_l_bfgs_b`, `fmin`) is external.
What it does is a finite list of calls of the callbacks, at arbitrary points, followed by a
return value; the theorems quantify over all of them.  The clock is external too: the
iteration callback carries the time it reads.

Left out: dumping (`Verif/Model/Dump.lean`), statistics, logging.
-/

namespace QTrl.Opt

open QTrl.Dyn

variable {d m D : Type} [Fintype d] [DecidableEq d] [Fintype m] [DecidableEq m]

/-! ### Variables -/

/-- `ctrl_amps.reshape([-1])` (`_get_optim_var_vals`, optimizer.py 613-620). -/
def flatten (nTs nCtrls : ℕ) (a : ℕ → ℕ → ℝ) : List ℝ :=
  (List.range nTs).flatMap fun k => (List.range nCtrls).map fun j => a k j

/-- `optim_var_vals.reshape(ctrl_amps.shape)` (`_get_ctrl_amps`, optimizer.py 622-636). -/
noncomputable def unflatten (nTs nCtrls : ℕ) (x : List ℝ) : Except PyErr Amps :=
  if x.length = nTs * nCtrls then .ok fun k j => x.getD (k * nCtrls + j) 0
  else .error .valueError

/-- Assigning the pulses to the columns of `amps` (`amps[:, j] = p_gen.gen_pulse()`,
optimizer.py 1157-1168); a pulse with one value is broadcast, other lengths than the number
of slots raise ValueError. -/
noncomputable def columns (nTs : ℕ) : List (List ℝ) → Except PyErr (List (ℕ → ℝ))
  | [] => .ok []
  | p :: ps =>
      if p.length = nTs ∨ p.length = 1 then
        match columns nTs ps with
        | .error e => .error e
        | .ok cs => .ok ((fun k => if p.length = nTs then p.getD k 0 else p.getD 0 0) :: cs)
      else .error .valueError

/-- `OptimizerCrab._get_ctrl_amps` (optimizer.py 1138-1172).  `init_optim` has checked that
there is one generator for each control. -/
noncomputable def crabAmps (nTs : ℕ) (gs : List Pulse.Crab) (x : List ℝ) :
    Except PyErr (List Pulse.Crab × Amps) :=
  match Pulse.distribute x 0 gs with
  | .error e => .error e
  | .ok (gs', ps) =>
      match columns nTs ps with
      | .error e => .error e
      | .ok cs => .ok (gs', fun k j => cs.getD j (fun _ => 0) k)

/-- How an optimiser class turns variables into amplitudes: `reshape` for the base class,
BFGS and L-BFGS-B, the pulse generators (whose coefficients are the state) for CRAB. -/
inductive VarKind where
  | grape
  | crab

/-- `_get_ctrl_amps` of the class. -/
noncomputable def getCtrlAmps (S : Sys d m D) (v : VarKind) (gs : List Pulse.Crab) (x : List ℝ) :
    Except PyErr (List Pulse.Crab × Amps) :=
  match v with
  | .grape => (unflatten S.nTs S.nCtrls x).map fun a => (gs, a)
  | .crab => crabAmps S.nTs gs x

/-! ### Bounds -/

/-- `amp_lbound` / `amp_ubound`: `None` or a number, or a list of these, one for each
control. -/
inductive AmpBound where
  | scalar (b : Option Flt)
  | list (bs : List (Option Flt))

/-- The bound of control `c` (optimizer.py 505-512). -/
def AmpBound.get (b : AmpBound) (c : ℕ) : Except PyErr (Option Flt) :=
  match b with
  | .scalar b => .ok b
  | .list bs =>
      match bs[c]? with
      | some b => .ok b
      | none => .error .indexError

/-- Infinite bounds are dropped (optimizer.py 514-517). -/
def clearInf : Option Flt → Option Flt
  | some b => if b.isInf then none else some b
  | none => none

/-- The inner loop of `_build_bounds_list` (optimizer.py 504-519) from control `c` on. -/
def boundsRow (lb ub : AmpBound) : ℕ → ℕ → Except PyErr (List (Option Flt × Option Flt))
  | 0, _ => .ok []
  | n + 1, c =>
      match lb.get c with
      | .error e => .error e
      | .ok l =>
          match ub.get c with
          | .error e => .error e
          | .ok u =>
              match boundsRow lb ub n (c + 1) with
              | .error e => .error e
              | .ok r => .ok ((clearInf l, clearInf u) :: r)

/-- `_build_bounds_list` (optimizer.py 498-519). -/
def buildBounds (lb ub : AmpBound) (nCtrls : ℕ) :
    ℕ → Except PyErr (List (Option Flt × Option Flt))
  | 0 => .ok []
  | nTs + 1 =>
      match boundsRow lb ub nCtrls 0 with
      | .error e => .error e
      | .ok r =>
          match buildBounds lb ub nCtrls nTs with
          | .error e => .error e
          | .ok rs => .ok (r ++ rs)

/-- Which `run_optimization` is used (optimizer.py 521, 809, 926, 1199). -/
inductive Cls where
  | base
  | bfgs
  | lbfgsb
  | crabFmin
  | crab
  deriving DecidableEq

/-- The bounds handed to the minimiser, given those left by an earlier run
(`self.bounds`): the base class builds them only when there are none (560-561), L-BFGS-B
rebuilds them (957), CRAB's `_build_bounds_list` does nothing (1112-1120), BFGS and
Nelder-Mead take no bounds. -/
def boundsFor (c : Cls) (old : Option (List (Option Flt × Option Flt))) (lb ub : AmpBound)
    (nTs nCtrls : ℕ) : Except PyErr (Option (List (Option Flt × Option Flt))) :=
  match c with
  | .base =>
      match old with
      | some b => .ok (some b)
      | none => (buildBounds lb ub nCtrls nTs).map some
  | .lbfgsb => (buildBounds lb ub nCtrls nTs).map some
  | .crab => .ok old
  | _ => .ok none

/-! ### Termination -/

/-- The numbers of a `TerminationConditions` object (termcond.py 58-64) once `init_optim` has
settled the target. -/
structure TermConds where
  fidErrTarg : ℝ
  maxWallTime : ℝ
  minGradNorm : ℝ
  maxFidCalls : ℝ

/-- The exceptions of errors.py 50-99 that end an optimisation. -/
inductive Term where
  | goal (err : ℝ)
  | wallTime
  | fidCalls
  | gradMin (norm : ℝ)

/-- Their `reason` attribute. -/
def Term.reason : Term → String
  | .goal _ => "Goal achieved"
  | .wallTime => "Max wall time exceeded"
  | .fidCalls => "Number of fidelity error calls has exceeded the maximum"
  | .gradMin _ => "Gradient normal minimum reached"

/-- What a callback can raise. -/
inductive Raised where
  | term (t : Term)
  | error (e : PyErr)

/-- The optimiser with its dynamics: `gradNorm` is the `grad_norm` attribute of the fidelity
computer, `gens` the pulse generators. -/
structure OState (d m D : Type) [Fintype d] [DecidableEq d] [Fintype m] [DecidableEq m] where
  dyn : State d m D
  gradNorm : ℝ
  gens : List Pulse.Crab
  numIter : ℕ
  numFid : ℕ
  numGrad : ℕ

/-- `np.sqrt(np.sum(fid_err_grad**2))` (fidcomp.py 493, 651). -/
noncomputable def normOf (S : Sys d m D) (g : ℕ → ℕ → ℝ) : ℝ :=
  Real.sqrt (((flatten S.nTs S.nCtrls g).map fun v => v ^ 2).sum)

/-- `get_fid_err_gradient` with its effect on `grad_norm`, which is only set when the
gradient is computed anew (fidcomp.py 464-506, 636-662). -/
noncomputable def getGradNorm (S : Sys d m D) (s : State d m D) (gn : ℝ) :
    State d m D × ℝ × Except PyErr (ℕ → ℕ → ℝ) :=
  match getGrad S s with
  | (t, .error e) => (t, gn, .error e)
  | (t, .ok g) => (t, if s.gradCurrent then gn else normOf S g, .ok g)

/-- `fid_err_func_wrapper` (optimizer.py 638-682). -/
noncomputable def funcWrapper (S : Sys d m D) (v : VarKind) (tc : TermConds) (o : OState d m D)
    (x : List ℝ) : OState d m D × Except Raised ℝ :=
  let o := { o with numFid := o.numFid + 1 }
  match getCtrlAmps S v o.gens x with
  | .error e => (o, .error (.error e))
  | .ok (gs, a) =>
      let s := (compareAmps S o.dyn a).1
      match getFidErr S s with
      | (t, .error e) => ({ o with dyn := t, gens := gs }, .error (.error e))
      | (t, .ok err) =>
          let o := { o with dyn := t, gens := gs }
          if err ≤ tc.fidErrTarg then (o, .error (.term (.goal err)))
          else if (o.numFid : ℝ) > tc.maxFidCalls then (o, .error (.term .fidCalls))
          else (o, .ok err)

/-- `fid_err_grad_wrapper` (optimizer.py 684-730). -/
noncomputable def gradWrapper (S : Sys d m D) (v : VarKind) (tc : TermConds) (o : OState d m D)
    (x : List ℝ) : OState d m D × Except Raised (List ℝ) :=
  let o := { o with numGrad := o.numGrad + 1 }
  match getCtrlAmps S v o.gens x with
  | .error e => (o, .error (.error e))
  | .ok (gs, a) =>
      let s := (compareAmps S o.dyn a).1
      match getGradNorm S s o.gradNorm with
      | (t, gn, .error e) => ({ o with dyn := t, gens := gs, gradNorm := gn }, .error (.error e))
      | (t, gn, .ok g) =>
          let o := { o with dyn := t, gens := gs, gradNorm := gn }
          if gn < tc.minGradNorm then (o, .error (.term (.gradMin gn)))
          else (o, .ok (flatten S.nTs S.nCtrls g))

/-- `iter_step_callback_func` (optimizer.py 732-758) reading the clock. -/
noncomputable def iterCallback (tc : TermConds) (start : ℝ) (o : OState d m D) (clock : ℝ) :
    OState d m D × Except Raised Unit :=
  let o := { o with numIter := o.numIter + 1 }
  if clock - start > tc.maxWallTime then (o, .error (.term .wallTime)) else (o, .ok ())

/-- A call the minimiser makes. -/
inductive Call where
  | func (x : List ℝ)
  | grad (x : List ℝ)
  | iter (clock : ℝ)

/-- What it gets back. -/
inductive Reply where
  | err (e : ℝ)
  | grad (g : List ℝ)
  | none

/-- One call. -/
noncomputable def call (S : Sys d m D) (v : VarKind) (tc : TermConds) (start : ℝ)
    (o : OState d m D) : Call → OState d m D × Except Raised Reply
  | .func x =>
      match funcWrapper S v tc o x with
      | (o, .error e) => (o, .error e)
      | (o, .ok r) => (o, .ok (.err r))
  | .grad x =>
      match gradWrapper S v tc o x with
      | (o, .error e) => (o, .error e)
      | (o, .ok g) => (o, .ok (.grad g))
  | .iter t =>
      match iterCallback tc start o t with
      | (o, .error e) => (o, .error e)
      | (o, .ok _) => (o, .ok .none)

/-- The calls in order, until one raises: final state, replies, what was raised. -/
noncomputable def calls (S : Sys d m D) (v : VarKind) (tc : TermConds) (start : ℝ) :
    OState d m D → List Call → OState d m D × List Reply × Option Raised
  | o, [] => (o, [], none)
  | o, c :: cs =>
      match call S v tc start o c with
      | (o, .error e) => (o, [], some e)
      | (o, .ok r) =>
          match calls S v tc start o cs with
          | (o, rs, e) => (o, r :: rs, e)

/-! ### Result -/

/-- `OptimResult` (optimresult.py 82-105); times other than the wall time, statistics and the
optimiser reference are left out. -/
structure Result (d m : Type) where
  initialFidErr : ℝ
  initialAmps : Option Amps
  evoFullInitial : Option (Matrix d m ℂ)
  /-- `fidelity` -/
  fidelity : ℝ
  fidErr : ℝ
  gradNormFinal : ℝ
  finalAmps : Option Amps
  evoFullFinal : Option (Matrix d m ℂ)
  reason : String
  goalAchieved : Bool
  gradNormMinReached : Bool
  maxIterExceeded : Bool
  maxFidFuncExceeded : Bool
  wallTimeLimitExceeded : Bool
  numIter : ℕ
  numFidFuncCalls : ℕ
  wallTime : ℝ

/-- `_create_result` (optimizer.py 362-373): a reset result with the initial values. -/
noncomputable def createResult (S : Sys d m D) (o : OState d m D) :
    OState d m D × Except PyErr (Result d m) :=
  match getFidErr S o.dyn with
  | (t, .error e) => ({ o with dyn := t }, .error e)
  | (t, .ok err) =>
      let r := readFull S t
      ({ o with dyn := r.1 }, .ok
        { initialFidErr := err, initialAmps := r.1.ctrlAmps, evoFullInitial := r.2
          fidelity := 0, fidErr := 0, gradNormFinal := 0, finalAmps := none, evoFullFinal := none
          reason := "not started yet", goalAchieved := false, gradNormMinReached := false
          maxIterExceeded := false, maxFidFuncExceeded := false, wallTimeLimitExceeded := false
          numIter := 0, numFidFuncCalls := 0, wallTime := 0 })

/-- `_interpret_term_exception` (optimizer.py 760-773). -/
def interpret (t : Term) (r : Result d m) : Result d m :=
  let r := { r with reason := t.reason }
  match t with
  | .goal _ => { r with goalAchieved := true }
  | .wallTime => { r with wallTimeLimitExceeded := true }
  | .gradMin _ => { r with gradNormMinReached := true }
  | .fidCalls => { r with maxFidFuncExceeded := true }

/-- What a minimiser returns: the final point, its flag (`warnflag`), its message (`message`,
`task`) and its iteration count. -/
structure Finish where
  x : List ℝ
  warn : ℕ
  message : String
  nit : ℕ

/-- What the class writes into the result when the minimiser returns: base class and CRAB with
`minimize` (optimizer.py 595-604), BFGS (877-882), L-BFGS-B (1021-1034), Nelder-Mead
(1268-1285).  `str(warn)` appears in a message only. -/
def report (c : Cls) (f : Finish) (r : Result d m) : Result d m :=
  match c with
  | .base | .crab => { r with reason := f.message, numIter := f.nit }
  | .bfgs =>
      if f.warn = 1 then
        { r with maxIterExceeded := true, reason := "Iteration count limit reached" }
      else if f.warn = 2 then
        { r with gradNormMinReached := true, reason := "Gradient normal minimum reached" }
      else r
  | .lbfgsb =>
      let r :=
        if f.warn = 0 then { r with gradNormMinReached := true, reason := "function converged" }
        else if f.warn = 1 then
          { r with maxIterExceeded := true
                   reason := "Iteration or fidelity function call limit reached" }
        else if f.warn = 2 then { r with reason := f.message }
        else r
      { r with numIter := f.nit }
  | .crabFmin =>
      let r := { r with numIter := f.nit }
      if f.warn = 0 then { r with reason := "Function converged (within tolerance)" }
      else if f.warn = 1 then
        { r with reason := "Maximum number of function evaluations reached"
                 maxFidFuncExceeded := true }
      else if f.warn = 2 then
        { r with reason := "Maximum number of iterations reached", maxIterExceeded := true }
      else { r with reason := s!"Unknown (warn_flag={f.warn})" }

/-- `_add_common_result_attribs` (optimizer.py 775-796). -/
noncomputable def addCommon (S : Sys d m D) (o : OState d m D) (start stop : ℝ)
    (r : Result d m) : OState d m D × Except PyErr (Result d m) :=
  match getFidErr S o.dyn with
  | (t, .error e) => ({ o with dyn := t }, .error e)
  | (t, .ok err) =>
      let f := readFull S t
      ({ o with dyn := f.1 }, .ok
        { r with numIter := o.numIter, numFidFuncCalls := o.numFid, wallTime := stop - start
                 fidErr := err, gradNormFinal := o.gradNorm, finalAmps := f.1.ctrlAmps
                 evoFullFinal := f.2 })

/-- How the variables of a class become amplitudes. -/
def Cls.vars : Cls → VarKind
  | .crab => .crab
  | .crabFmin => .crab
  | _ => .grape

/-- `run_optimization` after `init_optim` (optimizer.py 550-611, 830-890, 948-1042,
1224-1298): initial result, minimiser, interpretation, common attributes.  `init_optim`
resets the counters. -/
noncomputable def runOptimization (S : Sys d m D) (c : Cls) (tc : TermConds) (o : OState d m D)
    (start stop : ℝ) (cs : List Call) (f : Finish) :
    OState d m D × Except PyErr (Result d m) :=
  let o := { o with numIter := 0, numFid := 0, numGrad := 0 }
  match createResult S o with
  | (o, .error e) => (o, .error e)
  | (o, .ok r) =>
      match calls S c.vars tc start o cs with
      | (o, _, some (.error e)) => (o, .error e)
      | (o, _, some (.term t)) => addCommon S o start stop (interpret t r)
      | (o, _, none) =>
          match getCtrlAmps S c.vars o.gens f.x with
          | .error e => (o, .error e)
          | .ok (gs, a) =>
              let o := { o with dyn := (compareAmps S o.dyn a).1, gens := gs }
              addCommon S o start stop (report c f r)

end QTrl.Opt
