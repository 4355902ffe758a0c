import Verif.Model.Params

/-
The documented defaults of the configuration attributes, without the order of assignments.
-/

namespace QTrl.Par

/-- The default of an attribute: a value, or a multiple of the pulse time. -/
inductive Default where
  | val (v : PV)
  | times (q : ℚ)

/-- What the default amounts to, given the pulse time in force. -/
def Default.Is (d : Default) (pulseTime : Option PV) (v : Option PV) : Prop :=
  match d with
  | .val w => v = some w
  | .times q => ∃ T, pulseTime = some (.num T) ∧ v = some (.num (q * T))

/-- Defaults common to all pulse generators (docstring, pulsegen.py 98-150). -/
def commonDefaults : Option Parent → List (String × Default)
  | some p => [("num_tslots", .val p.numTslots), ("pulse_time", .val p.evoTime),
      ("scaling", .val p.scaling), ("offset", .val p.offset), ("tau", .val p.tau),
      ("lbound", .val .none), ("ubound", .val .none), ("ramping_pulse", .val .none)]
  | Option.none => [("num_tslots", .val (.num 100)), ("pulse_time", .val (.num 1)),
      ("scaling", .val (.num 1)), ("offset", .val (.num 0)), ("tau", .val .none),
      ("lbound", .val .none), ("ubound", .val .none), ("ramping_pulse", .val .none)]

/-- Defaults of the documented attributes of each class. -/
def defaults (p : Option Parent) : Cls → List (String × Default)
  | .zero => commonDefaults p
  | .random => ("random", .val (.bool true)) :: commonDefaults p
  | .rndFourier => ("min_wavelen", .times (1 / 10)) :: commonDefaults p
  | .rndWaves => ("num_comp_waves", .val (.num 20)) :: ("min_wavelen", .times (1 / 10)) ::
      ("max_wavelen", .times 2) :: commonDefaults p
  | .rndWalk1 => ("max_d_amp", .val (.num (1 / 10))) :: commonDefaults p
  | .rndWalk2 => ("max_d2_amp", .val (.num (1 / 100))) :: commonDefaults p
  | .linear => ("gradient", .val .none) :: ("start_val", .val (.num (-1))) ::
      ("end_val", .val (.num 1)) :: commonDefaults p
  | .periodic => ("periodic", .val (.bool true)) :: ("num_waves", .val .none) ::
      ("wavelen", .val .none) :: ("freq", .val (.num 1)) :: ("start_phase", .val (.num 0)) ::
      commonDefaults p
  | .gaussian => ("mean", .times (1 / 2)) :: ("variance", .times (1 / 2)) :: commonDefaults p
  | .gaussianEdge => ("decay_time", .times (1 / 10)) :: commonDefaults p
  | .crabFourier _ _ => ("randomize_coeffs", .val (.bool true)) ::
      ("guess_pulse_action", .val (.str "MODULATE")) :: ("guess_pulse", .val .none) ::
      commonDefaults p
  | .propApprox => [("grad_exact", .val (.bool false))]
  | .propDiag | .propAugMat | .propFrechet => [("grad_exact", .val (.bool true))]
  | .tslotAll | .tslotDynamic => [("evo_comp_summary", .val .none)]
  | .fidUnitary => [("dimensional_norm", .val (.num 1)), ("uses_onto_evo", .val (.bool true)),
      ("uses_onwd_evo", .val (.bool false))]
  | .fidTraceDiff => [("dimensional_norm", .val (.num 1)), ("scale_factor", .val .none),
      ("uses_onwd_evo", .val (.bool true)), ("uses_onto_evo", .val (.bool false))]
  | .fidTraceDiffApprox => [("dimensional_norm", .val (.num 1)), ("scale_factor", .val .none),
      ("epsilon", .val (.num (1 / 1000))), ("uses_onwd_evo", .val (.bool true)),
      ("uses_onto_evo", .val (.bool false))]

/-- Names whose value in the parameters a `reset` of the class does not keep. -/
def lostByReset : Cls → List String
  | .crabFourier _ _ => ["freqs", "randomize_freqs"]
  | _ => []

/-- Names that the constructor treats specially: arguments of its own, and the number of basis
functions, which depends on whether the frequencies are optimised. -/
def ownByConstructor : Cls → List String
  | .crabFourier _ _ => ["fix_freqs", "num_basis_funcs"]
  | _ => []

/-- The dictionary in force after a history: the last one given that is not empty. -/
def inForce (d : Option Dict) : List Act → Option Dict
  | [] => d
  | .applyParams (some (x :: r)) :: l => inForce (some (x :: r)) l
  | _ :: l => inForce d l

/-- All dictionaries of a history have distinct keys. -/
def Acts.Valid (l : List Act) (valid : Dict → Prop) : Prop :=
  ∀ d, Act.applyParams (some d) ∈ l → valid d

/-- The keys of a dictionary are distinct. -/
def Dict.Valid (d : Dict) : Prop := (d.map Prod.fst).Nodup

end QTrl.Par
