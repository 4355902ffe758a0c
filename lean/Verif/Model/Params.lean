import Mathlib.Data.Rat.Defs
import Mathlib.Algebra.Order.Ring.Rat
import Mathlib.Tactic.Ring

/-
How objects get their attributes: the `reset` methods of the pulse generators, propagator
computers, fidelity computers and timeslot computers, and `apply_params` (pulsegen.py 187-200,
propcomp.py 85-100, fidcomp.py 165-180, tslotcomp.py 99-114, all alike).

Simplifications: attributes are plain attributes.  The properties `log_level` (see
Model/Logging.lean) and `phase_option` (see Model/Unitary.lean) and the attributes `parent` and
`params` themselves are not among the names considered.  Numbers are rational.
-/

namespace QTrl.Par

/-- Attribute values; `caller n` stands for any object of the caller. -/
inductive PV where
  | none
  | bool (b : Bool)
  | num (q : ℚ)
  | str (s : String)
  | inf
  | func (name : String)
  | caller (n : ℕ)
  deriving DecidableEq

/-- Attributes by name. -/
abbrev Attrs := String → Option PV

def Attrs.set (a : Attrs) (k : String) (v : PV) : Attrs := fun n => if n = k then some v else a n

/-- A dictionary in insertion order. -/
abbrev Dict := List (String × PV)

/-- An object with its `params` attribute; `none` is `None` or anything that is not a
dictionary, which is ignored. -/
structure Obj where
  attrs : Attrs
  params : Option Dict

/-- `for key in params: setattr(self, key, params[key])` -/
def setAll (a : Attrs) : Dict → Attrs
  | [] => a
  | (k, v) :: r => setAll (a.set k v) r

/-- `apply_params(params)`: an argument that is missing or empty stands for the `params` of the
object; the dictionary applied becomes the `params` of the object. -/
def Obj.applyParams (o : Obj) (arg : Option Dict) : Obj :=
  let p := match arg with
    | Option.none => o.params
    | some [] => o.params
    | some (x :: r) => some (x :: r)
  match p with
  | Option.none => o
  | some d => ⟨setAll o.attrs d, some d⟩

/-- The statements of a `reset` method: an assignment, an assignment of a multiple of another
attribute, `self.apply_params()`. -/
inductive Op where
  | set (k : String) (v : PV)
  | scale (k src : String) (q : ℚ)
  | apply

/-- One statement.  `none` is an exception: a missing attribute or a product with something
that is not a number. -/
def Op.run (o : Obj) : Op → Option Obj
  | .set k v => some { o with attrs := o.attrs.set k v }
  | .scale k src q =>
      match o.attrs src with
      | some (.num x) => some { o with attrs := o.attrs.set k (.num (x * q)) }
      | _ => Option.none
  | .apply => some (o.applyParams Option.none)

/-- A sequence of statements. -/
def runOps (o : Obj) : List Op → Option Obj
  | [] => some o
  | x :: r =>
      match x.run o with
      | Option.none => Option.none
      | some o' => runOps o' r

/-- The attributes that a pulse generator copies from its Dynamics object. -/
structure Parent where
  numTslots : PV
  evoTime : PV
  scaling : PV
  offset : PV
  tau : PV

/-- `PulseGen.reset` (pulsegen.py 157-185). -/
def pulseGenReset (p : Option Parent) : List Op :=
  (match p with
    | some p => [.set "num_tslots" p.numTslots, .set "pulse_time" p.evoTime,
        .set "scaling" p.scaling, .set "offset" p.offset, .set "tau" p.tau]
    | Option.none => [.set "num_tslots" (.num 100), .set "pulse_time" (.num 1),
        .set "scaling" (.num 1), .set "tau" .none, .set "offset" (.num 0)]) ++
  [.set "_uses_time" (.bool false), .set "time" .none, .set "_pulse_initialised" (.bool false),
   .set "periodic" (.bool false), .set "random" (.bool false), .set "lbound" .none,
   .set "ubound" .none, .set "ramping_pulse" .none, .apply]

/-- `PulseGenCrab.reset` (pulsegen.py 997-1018). -/
def crabReset (p : Option Parent) : List Op :=
  pulseGenReset p ++
  [.set "NUM_COEFFS_WARN_LVL" (.num 20), .set "DEF_NUM_COEFFS" (.num 4), .set "_BSC_ALL" (.num 1),
   .set "_BSC_GT_MEAN" (.num 2), .set "_BSC_LT_MEAN" (.num 3), .set "_uses_time" (.bool true),
   .set "time" .none, .set "num_basis_funcs" (.num 2), .set "num_optim_vars" (.num 0),
   .set "coeffs" .none, .set "randomize_coeffs" (.bool true),
   .set "_num_coeffs_estimated" (.bool false), .set "guess_pulse_action" (.str "MODULATE"),
   .set "guess_pulse" .none, .set "guess_pulse_func" .none, .apply]

/-- `PropagatorComputer.reset` (propcomp.py 77-83). -/
def propReset : List Op := [.set "id_text" (.str "PROP_COMP_BASE"), .set "_grad_exact" (.bool false)]

/-- `TimeslotComputer.reset` (tslotcomp.py 94-97). -/
def tslotReset : List Op := [.set "id_text" (.str "TS_COMP_BASE"), .set "evo_comp_summary" .none]

/-- `FidelityComputer.reset` with `clear` (fidcomp.py 138-163); `unit` is the class
`FidCompUnitary`, whose `clear` does more (fidcomp.py 290-293). -/
def fidReset (unit : Bool) : List Op :=
  [.set "id_text" (.str "FID_COMP_BASE"), .set "dimensional_norm" (.num 1),
   .set "fid_norm_func" .none, .set "grad_norm_func" .none, .set "uses_onwd_evo" (.bool false),
   .set "uses_onto_evo" (.bool false), .apply,
   .set "fid_err" .none, .set "fidelity" .none, .set "fid_err_grad" .none, .set "grad_norm" .inf,
   .set "fidelity_current" (.bool false), .set "fid_err_grad_current" (.bool false),
   .set "grad_norm" (.num 0)] ++
  (if unit then [.set "fidelity_prenorm" .none, .set "fidelity_prenorm_current" (.bool false)]
    else [])

/-- The classes. -/
inductive Cls where
  | zero | random | rndFourier | rndWaves | rndWalk1 | rndWalk2 | linear
  | periodic
  | gaussian | gaussianEdge
  | crabFourier (numCoeffs : PV) (fixFreqs : Bool)
  | propApprox | propDiag | propAugMat | propFrechet
  | tslotAll | tslotDynamic
  | fidUnitary | fidTraceDiff | fidTraceDiffApprox

/-- The statements of `reset` of each class: pulsegen.py 157-185 (zero), 318-321, 354-365, 434-450,
518-525, 567-574, 624-633, 701-711 (the periodic classes), 881-889, 931-938, 997-1018 with
1257-1263; propcomp.py 180-187, 216-223, 321-325, 393-397; tslotcomp.py 165-168, 390-401;
fidcomp.py 283-288 with 318-322 for the phase option, 568-578 (if the propagator computer has
exact gradients), 732-738. -/
def Cls.reset (p : Option Parent) : Cls → List Op
  | .zero => pulseGenReset p
  | .random => pulseGenReset p ++ [.set "random" (.bool true), .apply]
  | .rndFourier => pulseGenReset p ++ [.set "random" (.bool true), .set "_uses_time" (.bool true),
      .scale "min_wavelen" "pulse_time" (1 / 10), .apply]
  | .rndWaves => pulseGenReset p ++ [.set "random" (.bool true), .set "_uses_time" (.bool true),
      .set "num_comp_waves" (.num 20), .scale "min_wavelen" "pulse_time" (1 / 10),
      .scale "max_wavelen" "pulse_time" 2, .apply]
  | .rndWalk1 => pulseGenReset p ++ [.set "random" (.bool true), .set "max_d_amp" (.num (1 / 10)),
      .apply]
  | .rndWalk2 => pulseGenReset p ++ [.set "random" (.bool true),
      .set "max_d2_amp" (.num (1 / 100)), .apply]
  | .linear => pulseGenReset p ++ [.set "gradient" .none, .set "start_val" (.num (-1)),
      .set "end_val" (.num 1), .apply]
  | .periodic => pulseGenReset p ++ [.set "periodic" (.bool true), .set "num_waves" .none,
      .set "freq" (.num 1), .set "wavelen" .none, .set "start_phase" (.num 0), .apply]
  | .gaussian => pulseGenReset p ++ [.set "_uses_time" (.bool true),
      .scale "mean" "pulse_time" (1 / 2), .scale "variance" "pulse_time" (1 / 2), .apply]
  | .gaussianEdge => pulseGenReset p ++ [.set "_uses_time" (.bool true),
      .scale "decay_time" "pulse_time" (1 / 10), .apply]
  | .crabFourier _ _ => crabReset p ++ [.set "freqs" .none, .set "randomize_freqs" (.bool true)]
  | .propApprox => propReset ++ [.set "id_text" (.str "APPROX"), .set "grad_exact" (.bool false),
      .apply]
  | .propDiag => propReset ++ [.set "id_text" (.str "DIAG"), .set "grad_exact" (.bool true), .apply]
  | .propAugMat => propReset ++ [.set "id_text" (.str "AUG_MAT"), .set "grad_exact" (.bool true),
      .apply]
  | .propFrechet => propReset ++ [.set "id_text" (.str "FRECHET"), .set "grad_exact" (.bool true),
      .apply]
  | .tslotAll => tslotReset ++ [.set "id_text" (.str "ALL"), .apply]
  | .tslotDynamic =>
      [.set "dyn_gen_recalc" .none, .set "prop_recalc" .none, .set "evo_init2t_recalc" .none,
       .set "evo_t2targ_recalc" .none, .set "dyn_gen_calc_now" .none, .set "prop_calc_now" .none,
       .set "evo_init2t_calc_now" .none, .set "evo_t2targ_calc_now" .none] ++ tslotReset ++
      [.set "id_text" (.str "DYNAMIC"), .apply]
  | .fidUnitary => fidReset true ++ [.set "id_text" (.str "UNIT"), .set "uses_onto_evo" (.bool true),
      .set "_phase_option" (.str "PSU"), .set "fid_norm_func" (.func "normalize_PSU"),
      .set "grad_norm_func" (.func "normalize_gradient_PSU"), .apply]
  | .fidTraceDiff => fidReset false ++ [.set "id_text" (.str "TRACEDIFF"),
      .set "scale_factor" .none, .set "uses_onwd_evo" (.bool true), .apply]
  | .fidTraceDiffApprox => fidReset false ++ [.set "id_text" (.str "TDAPPROX"),
      .set "uses_onwd_evo" (.bool true), .set "scale_factor" .none,
      .set "epsilon" (.num (1 / 1000)), .apply]

/-- Assignments of the constructor before `reset` (pulsegen.py 991-995; the others only set
`parent` and `params`). -/
def Cls.before : Cls → List Op
  | .crabFourier n _ => [.set "num_coeffs" n]
  | _ => []

/-- Assignments of the constructor after `reset` (pulsegen.py 1250-1255).  `num_basis_funcs += 1`
raises unless it is a number. -/
def Cls.after : Cls → List Op
  | .crabFourier _ true => [.set "fix_freqs" (.bool true)]
  | .crabFourier _ false => [.set "fix_freqs" (.bool false)]
  | _ => []

/-- `self.num_basis_funcs += 1` (pulsegen.py 1255), only if the frequencies are optimised. -/
def Cls.extraBasis (o : Obj) : Cls → Option Obj
  | .crabFourier _ false =>
      match o.attrs "num_basis_funcs" with
      | some (.num x) => some { o with attrs := o.attrs.set "num_basis_funcs" (.num (x + 1)) }
      | _ => Option.none
  | _ => some o

/-- The constructor of a class with a dictionary of parameters. -/
def Cls.construct (c : Cls) (p : Option Parent) (params : Option Dict) : Option Obj :=
  match runOps ⟨fun _ => Option.none, params⟩ (c.before ++ c.reset p ++ c.after) with
  | Option.none => Option.none
  | some o => c.extraBasis o

/-- What can be done with an object: `apply_params(d)` and `reset()`. -/
inductive Act where
  | applyParams (d : Option Dict)
  | reset
  | assign (k : String) (v : PV)

/-- One of them. -/
def Cls.act (c : Cls) (p : Option Parent) (o : Obj) : Act → Option Obj
  | .applyParams d => some (o.applyParams d)
  | .reset => runOps o (c.reset p)
  | .assign k v => some { o with attrs := o.attrs.set k v }

/-- A history of them. -/
def Cls.acts (c : Cls) (p : Option Parent) (o : Obj) : List Act → Option Obj
  | [] => some o
  | a :: r =>
      match c.act p o a with
      | Option.none => Option.none
      | some o' => c.acts p o' r

end QTrl.Par
