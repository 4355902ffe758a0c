import Verif.Model.Dynamics

/-
Changing the configuration of an initialised system, and passing amplitude
arrays by reference.
-/

namespace QTrl.Dyn

variable {d m D : Type} [Fintype d] [DecidableEq d] [Fintype m] [DecidableEq m]

/-- Assignments to attributes of an initialised system.
* `setTau` – `tau` setter (dynamics.py 577-580), restricted to arrays of the same
  length (a different length makes the containers of `_init_evo` too short or long);
* `setEvoTime` – `evo_time` setter (dynamics.py 561-566, 582-610);
* `setPhaseOption` – fidcomp.py 311-336;
* `setPhase` – `dyn_gen_phase` setter (dynamics.py 847-849). -/
inductive Cfg (d : Type) where
  | setTau (tau : Nat → ℝ)
  | setEvoTime (T : ℝ)
  | setPhaseOption (p : PhaseOpt)
  | setPhase (ph : Matrix d d ℂ → Matrix d d ℂ)

/-- The setters only store the value (and, for the time, the derived slot
durations).  None of them calls `flag_system_changed`, so the mutable state is
untouched; the cache of phased controls is not refilled either. -/
noncomputable def reconfigure (S : Sys d m D) : Cfg d → Sys d m D
  | .setTau tau => { S with tau := tau }
  | .setEvoTime T => { S with tau := fun _ => T / S.nTs }
  | .setPhaseOption p => { S with phaseOpt := p }
  | .setPhase ph => { S with phase := S.phase.map fun _ => ph }

/-- Histories mixing operations and configuration changes. -/
inductive COp (d : Type) where
  | op (o : Op)
  | cfg (c : Cfg d)

/-- One step.  `initialize_controls` also refills the cache of phased controls
(dynamics.py 780-793). -/
noncomputable def cstep (junk : State d m D) (x : Sys d m D × State d m D) :
    COp d → (Sys d m D × State d m D) × Out
  | .cfg c => ((reconfigure x.1 c, x.2), .none)
  | .op (.reinit a) => ((initSys x.1, initControls (initSys x.1) junk x.2 a), .none)
  | .op o => ((x.1, (step x.1 junk x.2 o).1), (step x.1 junk x.2 o).2)

/-- State and outputs of a mixed history. -/
noncomputable def crun (junk : State d m D) : Sys d m D × State d m D → List (COp d) →
    (Sys d m D × State d m D) × List Out
  | x, [] => (x, [])
  | x, o :: os =>
    let r := cstep junk x o
    let q := crun junk r.1 os
    (q.1, r.2 :: q.2)

/-! ### Amplitude arrays by reference -/

/-- An object together with the arrays owned by the caller: `ref` says which of
them `ctrl_amps` refers to (`dyn.ctrl_amps = new_amps`, tslotcomp.py 218-219,
stores the reference, not a copy). -/
structure HState (d m D : Type) where
  heap : Nat → Amps
  ref : Option Nat
  st : State d m D

/-- Operations of a caller that owns arrays. -/
inductive HOp where
  /-- modify array `r` in place so that it now holds `a` -/
  | mutate (r : Nat) (a : Amps)
  /-- `update_ctrl_amps(array r)` -/
  | submit (r : Nat)
  /-- `initialize_controls(array r)` -/
  | reinit (r : Nat)
  /-- a query -/
  | query (o : Op)

/-- One step. -/
noncomputable def hstep (S : Sys d m D) (junk : State d m D) (x : HState d m D) :
    HOp → HState d m D × Out
  | .mutate r a =>
    ({ x with
        heap := Function.update x.heap r a
        st := if x.ref = some r then { x.st with ctrlAmps := some a } else x.st }, .none)
  | .submit r =>
    let c := compareAmps S x.st (x.heap r)
    ({ x with ref := if c.2 then x.ref else some r, st := c.1 }, .none)
  | .reinit r => ({ x with ref := some r, st := initControls S junk x.st (x.heap r) }, .none)
  | .query o =>
    match o with
    | .updateAmps _ => (x, .none)
    | .reinit _ => (x, .none)
    | o => let q := step S junk x.st o
           ({ x with st := q.1 }, q.2)

/-- State and outputs of a history. -/
noncomputable def hrun (S : Sys d m D) (junk : State d m D) :
    HState d m D → List HOp → HState d m D × List Out
  | x, [] => (x, [])
  | x, o :: os =>
    let r := hstep S junk x o
    let q := hrun S junk r.1 os
    (q.1, r.2 :: q.2)

end QTrl.Dyn
