import Verif.Model.Dynamics

/-
The messages written while the evolution, the fidelity and the gradient are computed, and what
the code under `if self.log_level <= ...` does besides writing them (dynamics.py 1071-1081,
1431-1432; tslotcomp.py 199-210, 252-257, 281-287; fidcomp.py 432-433, 456-461, 475-480, 494-504,
587-590, 602-610, 631-632, 652-660, 752-753), and the summary of the system written by
`optimize_pulse` (pulseoptim.py 485-503).

The operations are those of `Verif/Model/Dynamics.lean`, written again with the messages.

Simplifications: statistics are switched on (as there); the check of unitarity, which a level of
`DEBUG` or below switches on, is modelled in `Verif/Model/UnitCheck.lean` and left out here.
Texts are kept as the values they show.  The message about the scale factor (fidcomp.py 587-590),
written during the initialisation, is left out.  The level of a logger is taken to be set: a
logger without a level (`NOTSET`, 0) is counted as one that shows everything.
-/

namespace QTrl.Dyn

variable {d m D : Type} [Fintype d] [DecidableEq d] [Fintype m] [DecidableEq m]

/-- `DEBUG_INTENSE`, `DEBUG_VERBOSE`, `DEBUG`, `INFO` (logging_utils.py 15-18). -/
def INTENSE : ℕ := 6
def VERBOSE : ℕ := 8
def DEBUG : ℕ := 10
def INFO : ℕ := 20

/-- The levels of the loggers of the modules dynamics, tslotcomp and fidcomp. -/
structure Levels where
  dyn : ℕ
  ts : ℕ
  fid : ℕ

variable (d m) in
/-- The messages. -/
inductive Msg where
  /-- dynamics.py 1071-1079 -/
  | updating (current : Option Amps) (new : Amps)
  /-- tslotcomp.py 199-202 -/
  | changed (n : ℕ)
  /-- tslotcomp.py 209-210 -/
  | unchanged
  /-- dynamics.py 1431-1432 -/
  | computing
  /-- tslotcomp.py 252-257 -/
  | recomputing (n : ℕ)
  /-- fidcomp.py 456-461 -/
  | prenorm (f : ℂ)
  /-- fidcomp.py 432-433 -/
  | fidelity (v : ℝ)
  /-- fidcomp.py 602-610 -/
  | traceDiff (target final diff : Matrix d m ℂ)
  /-- fidcomp.py 631-632 -/
  | fidErr (e : ℝ)
  /-- fidcomp.py 475-480 -/
  | gradPrenorm (g : Nat → Nat → ℂ)
  /-- fidcomp.py 494-499, 652-657 -/
  | gradients (g : Nat → Nat → ℝ)
  /-- fidcomp.py 501-504, 659-660 -/
  | gradNorm (r : ℝ)
  /-- fidcomp.py 752-753 -/
  | tdGradient

/-- `if self.log_level <= sev: logger.log(sev, msg)`; the logger shows it under the same
condition. -/
def emit (lv sev : ℕ) (msg : Msg d m) : List (Msg d m) := if lv ≤ sev then [msg] else []

/-- `update_ctrl_amps` and `compare_amps` (dynamics.py 1063-1081, tslotcomp.py 170-223). -/
noncomputable def updateL (lv : Levels) (S : Sys d m D) (s : State d m D) (new : Amps) :
    State d m D × List (Msg d m) :=
  let log := emit lv.dyn INTENSE (.updating s.ctrlAmps new)
  match s.ctrlAmps with
  | none =>
    let s := { s with
      numAmpUpdates := s.numAmpUpdates + (if S.nTs * S.nCtrls ≠ 0 then 1 else 0)
      numAmpChanges := s.numAmpChanges + S.nTs * S.nCtrls
      numTslotChanges := s.numTslotChanges + S.nTs }
    (flagSystemChanged { s with ctrlAmps := some new }, log)
  | some old =>
    if numChanged S old new ≠ 0 then
      let log := log ++ emit lv.ts DEBUG (.changed (numChanged S old new))
      let s := { s with
        numAmpUpdates := s.numAmpUpdates + 1
        numAmpChanges := s.numAmpChanges + numChanged S old new
        numTslotChanges := s.numTslotChanges + numTslotsChanged S old new }
      (flagSystemChanged { s with ctrlAmps := some new }, log)
    else (s, log ++ emit lv.ts DEBUG .unchanged)

/-- One control in the loop over the slots with exact, cached gradients (tslotcomp.py 273-291).
After the first one, at the level `DEBUG_INTENSE`, the text of a message is made from
`self._prop[k]`; the timeslot computer has no attribute `_prop`. -/
def ctrlBodyL (lv : Levels) (S : Sys d m D) (k j : Nat)
    (acc : State d m D × Except PyErr Unit) : State d m D × Except PyErr Unit :=
  match acc with
  | (s, .error e) => (s, .error e)
  | (s, .ok _) =>
    if j = 0 then
      let (s, p) := computeProp S s k
      let (s, g) := computeGrad S s k j
      let s := { s with prop := Function.update s.prop k p, propGrad := update2 s.propGrad k j g }
      if lv.ts ≤ INTENSE then (s, .error .attributeError) else (s, .ok ())
    else
      let (s, g) := computeGrad S s k j
      ({ s with propGrad := update2 s.propGrad k j g }, .ok ())

/-- One slot (tslotcomp.py 271-293). -/
def propBodyL (lv : Levels) (S : Sys d m D) (k : Nat)
    (acc : State d m D × Except PyErr Unit) : State d m D × Except PyErr Unit :=
  match acc with
  | (s, .error e) => (s, .error e)
  | (s, .ok _) =>
    if gradExact S && S.cachePropGrad then forRange S.nCtrls (ctrlBodyL lv S k) (s, .ok ())
    else
      let (s, p) := computeProp S s k
      ({ s with prop := Function.update s.prop k p }, .ok ())

/-- `recompute_evolution` (tslotcomp.py 225-352). -/
def recomputeL (lv : Levels) (S : Sys d m D) (amps : Amps) (s : State d m D) :
    (State d m D × Except PyErr Unit) × List (Msg d m) :=
  let s := { s with numRecompute := s.numRecompute + 1, views := {} }
  let log := emit lv.ts DEBUG (.recomputing s.numRecompute)
  let s := genLoop S amps s
  match forRange S.nTs (propBodyL lv S) (s, .ok ()) with
  | (s, .error e) => ((s, .error e), log)
  | (s, .ok _) =>
    let s := { s with fwd := fwdLoop S.nTs s.prop s.fwd }
    let s := if usesOnwd S then { s with onwd := onwdLoop S.nTs s.prop s.onwd } else s
    let s := if usesOnto S then { s with onto := ontoLoop S.nTs s.prop s.onto } else s
    ((s, .ok ()), log)

/-- `compute_evolution` (dynamics.py 1420-1436). -/
def computeEvolutionL (lv : Levels) (S : Sys d m D) (s : State d m D) :
    (State d m D × Except PyErr Bool) × List (Msg d m) :=
  if s.evoCurrent then ((s, .ok false), [])
  else
    let log := emit lv.dyn VERBOSE .computing
    match s.ctrlAmps with
    | none =>
      let s := { s with numRecompute := s.numRecompute + 1, views := {} }
      ((s, .error .typeError), log ++ emit lv.ts DEBUG (.recomputing s.numRecompute))
    | some amps =>
      match recomputeL lv S amps s with
      | ((s, .error e), l) => ((s, .error e), log ++ l)
      | ((s, .ok _), l) => (({ s with evoCurrent := true }, .ok true), log ++ l)

/-- `get_fidelity_prenorm` (fidcomp.py 436-462). -/
def getPrenormL (lv : Levels) (S : Sys d m D) (s : State d m D) :
    (State d m D × Except PyErr ℂ) × List (Msg d m) :=
  if s.prenormCurrent then ((s, .ok s.prenorm), [])
  else
    match computeEvolutionL lv S s with
    | ((s, .error e), log) => ((s, .error e), log)
    | ((s, .ok _), log) =>
      let f := (s.onto S.nTs * s.fwd S.nTs).trace
      let s := { s with prenorm := f, prenormCurrent := true,
                        numFidComputes := s.numFidComputes + 1 }
      ((s, .ok s.prenorm), log ++ emit lv.fid DEBUG (.prenorm s.prenorm))

/-- `get_fidelity` of the unitary computer (fidcomp.py 423-434). -/
noncomputable def getFidelityL (lv : Levels) (S : Sys d m D) (s : State d m D) :
    (State d m D × Except PyErr ℝ) × List (Msg d m) :=
  if s.fidelityCurrent then ((s, .ok s.fidelity), [])
  else
    match getPrenormL lv S s with
    | ((s, .error e), log) => ((s, .error e), log)
    | ((s, .ok f), log) =>
      match fidNorm S f with
      | .error e => ((s, .error e), log)
      | .ok v =>
        let s := { s with fidelity := v, fidelityCurrent := true }
        ((s, .ok s.fidelity), log ++ emit lv.fid DEBUG (.fidelity s.fidelity))

/-- `get_fid_err` of the trace difference computer (fidcomp.py 592-634). -/
noncomputable def getFidErrTDL (lv : Levels) (S : Sys d m D) (s : State d m D) :
    (State d m D × Except PyErr ℝ) × List (Msg d m) :=
  if s.fidelityCurrent then ((s, .ok s.fidErr), [])
  else
    match computeEvolutionL lv S s with
    | ((s, .error e), log) => ((s, .error e), log)
    | ((s, .ok _), log) =>
      let final := s.fwd S.nTs
      let diff := S.target - final
      let log := log ++ emit lv.fid VERBOSE (.traceDiff S.target final diff)
      let s := { s with fidErr := S.scale * (diff.conjTranspose * diff).trace.re,
                        numFidComputes := s.numFidComputes + 1, fidelityCurrent := true }
      ((s, .ok s.fidErr), log ++ emit lv.fid DEBUG (.fidErr s.fidErr))

/-- `get_fid_err` (fidcomp.py 417-421, 592-634). -/
noncomputable def getFidErrL (lv : Levels) (S : Sys d m D) (s : State d m D) :
    (State d m D × Except PyErr ℝ) × List (Msg d m) :=
  match S.fidKind with
  | .unitary =>
    match getFidelityL lv S s with
    | ((s, .error e), log) => ((s, .error e), log)
    | ((s, .ok f), log) => ((s, .ok |1 - f|), log)
  | .traceDiff => getFidErrTDL lv S s

/-- `np.sqrt(np.sum(self.fid_err_grad**2))` (fidcomp.py 493, 651). -/
noncomputable def norm2 (S : Sys d m D) (g : Nat → Nat → ℝ) : ℝ :=
  Real.sqrt ((List.range S.nTs).map fun k => ((List.range S.nCtrls).map fun j => g k j ^ 2).sum).sum

/-- `compute_fid_grad` of the unitary computer (fidcomp.py 508-543). -/
def computeFidGradL (lv : Levels) (S : Sys d m D) (s : State d m D) :
    (State d m D × Except PyErr (Nat → Nat → ℂ)) × List (Msg d m) :=
  match computeEvolutionL lv S s with
  | ((s, .error e), log) => ((s, .error e), log)
  | ((s, .ok _), log) => (gradLoop S (gradEntryUnitary S) (fun _ _ => 0) s, log)

/-- `get_fid_err_gradient` of the unitary computer (fidcomp.py 464-506). -/
noncomputable def getGradUnitaryL (lv : Levels) (S : Sys d m D) (s : State d m D) :
    (State d m D × Except PyErr (Nat → Nat → ℝ)) × List (Msg d m) :=
  if s.gradCurrent then ((s, .ok s.grad), [])
  else
    match computeFidGradL lv S s with
    | ((s, .error e), log) => ((s, .error e), log)
    | ((s, .ok gpre), log) =>
      let log := log ++ emit lv.fid INTENSE (.gradPrenorm gpre)
      match getFidelityL lv S s with
      | ((s, .error e), l) => ((s, .error e), log ++ l)
      | ((s, .ok f), l) =>
        match getPrenormL lv S s with
        | ((s, .error e), l') => ((s, .error e), log ++ l ++ l')
        | ((s, .ok fpn), l') =>
          let g : Nat → Nat → ℝ := fun k j =>
            if 1 ≤ f then Dyn.gradNorm S fpn (gpre k j) else -Dyn.gradNorm S fpn (gpre k j)
          let s := { s with grad := g, gradCurrent := true,
                            numGradComputes := s.numGradComputes + 1 }
          ((s, .ok s.grad), log ++ l ++ l' ++ emit lv.fid INTENSE (.gradients s.grad) ++
            emit lv.fid DEBUG (.gradNorm (norm2 S s.grad)))

/-- `compute_fid_err_grad` and `get_fid_err_gradient` of the trace difference computer
(fidcomp.py 664-717, 636-662). -/
noncomputable def getGradTDL (lv : Levels) (S : Sys d m D) (s : State d m D) :
    (State d m D × Except PyErr (Nat → Nat → ℝ)) × List (Msg d m) :=
  if s.gradCurrent then ((s, .ok s.grad), [])
  else
    match computeEvolutionL lv S s with
    | ((s, .error e), log) => ((s, .error e), log)
    | ((s, .ok _), log) =>
      match gradLoop S (gradEntryTD S (S.target - s.fwd S.nTs)) (fun _ _ => 0) s with
      | (s, .error e) => ((s, .error e), log)
      | (s, .ok g) =>
        let s := { s with grad := g, gradCurrent := true,
                          numGradComputes := s.numGradComputes + 1 }
        ((s, .ok s.grad), log ++ emit lv.fid INTENSE (.gradients s.grad) ++
          emit lv.fid DEBUG (.gradNorm (norm2 S s.grad)))

/-- `get_fid_err_gradient`. -/
noncomputable def getGradL (lv : Levels) (S : Sys d m D) (s : State d m D) :
    (State d m D × Except PyErr (Nat → Nat → ℝ)) × List (Msg d m) :=
  match S.fidKind with
  | .unitary => getGradUnitaryL lv S s
  | .traceDiff => getGradTDL lv S s

/-- One operation with its messages. -/
noncomputable def stepL (lv : Levels) (S : Sys d m D) (junk s : State d m D) :
    Op → (State d m D × Out) × List (Msg d m)
  | .updateAmps a =>
    let r := updateL lv S s a
    ((r.1, .none), r.2)
  | .computeEvolution =>
    let r := computeEvolutionL lv S s
    ((r.1.1, .ofUnit r.1.2), r.2)
  | .getFidelity =>
    match S.fidKind with
    | .unitary =>
      let r := getFidelityL lv S s
      ((r.1.1, .ofReal r.1.2), r.2)
    | .traceDiff => ((s, .error .attributeError), [])
  | .getFidErr =>
    let r := getFidErrL lv S s
    ((r.1.1, .ofReal r.1.2), r.2)
  | .getGradient =>
    let r := getGradL lv S s
    ((r.1.1, .ofArray r.1.2), r.2)
  | .reinit a =>
    let r := updateL lv S (initEvo S junk s) a
    ((r.1, .none), r.2)

/-- State, outputs and messages of a history. -/
noncomputable def runL (lv : Levels) (S : Sys d m D) (junk : State d m D) :
    State d m D → List Op → (State d m D × List Out) × List (Msg d m)
  | s, [] => ((s, []), [])
  | s, op :: ops =>
    let r := stepL lv S junk s op
    let t := runL lv S junk r.1.1 ops
    ((t.1.1, r.1.2 :: t.1.2), r.2 ++ t.2)

/-- The beginning of `compute_fid_err_grad` of the approximate computer (fidcomp.py 752-753):
`if self.log_level >= logging.DEBUG: logger.debug(...)`. -/
def tdApproxBegin (lv : ℕ) : List (Msg d m) :=
  if lv ≥ DEBUG then emit lv DEBUG .tdGradient else []

/-! ### The summary of the system -/

/-- A generator or, if it depends on time, one for every slot; `ctrls` is a list of controls or an
array with a row for every slot. -/
structure Gens (α : Type) where
  drift : α ⊕ List α
  ctrls : List α ⊕ List (List α)
  numCtrls : Nat

/-- What the summary shows: the drift, "Control j" with an operator or with a row of the array. -/
inductive Item (α : Type) where
  | drift (a : α)
  | initialDrift (a : α)
  | control (j : Nat) (a : α ⊕ List α)
  deriving DecidableEq

/-- `dyn.ctrl_dyn_gen[j]`. -/
def Gens.ctrlAt {α : Type} (g : Gens α) (j : Nat) : Except PyErr (α ⊕ List α) :=
  match g.ctrls with
  | .inl l => match l[j]? with
    | some a => .ok (.inl a)
    | none => .error .indexError
  | .inr l => match l[j]? with
    | some a => .ok (.inr a)
    | none => .error .indexError

/-- The first lines of the summary (pulseoptim.py 490-495). -/
def Gens.first {α : Type} (g : Gens α) : Except PyErr (Item α) :=
  match g.drift with
  | .inl a => .ok (.drift a)
  | .inr (a :: _) => .ok (.initialDrift a)
  | .inr [] => .error .indexError

/-- The lines for one control (pulseoptim.py 496-498). -/
def Gens.addCtrl {α : Type} (g : Gens α) (j : Nat) (acc : Except PyErr (List (Item α))) :
    Except PyErr (List (Item α)) :=
  match acc with
  | .error e => .error e
  | .ok l => match g.ctrlAt j with
    | .error e => .error e
    | .ok a => .ok (l ++ [.control (j + 1) a])

/-- The summary (pulseoptim.py 485-503); initial and target, which follow, are left out. -/
def summary {α : Type} (g : Gens α) : Except PyErr (List (Item α)) :=
  match g.first with
  | .error e => .error e
  | .ok d0 => forRange g.numCtrls g.addCtrl (.ok [d0])

/-- `optimize_pulse` after `initialize_controls` (pulseoptim.py 485-524): the summary if the level
is `INFO` or below, then the optimisation `run`. -/
def optimizeAt {α R : Type} (lv : ℕ) (g : Gens α) (run : Except PyErr R) :
    Except PyErr R × List (Item α) :=
  if lv ≤ INFO then
    match summary g with
    | .error e => (.error e, [])
    | .ok l => (run, l)
  else (run, [])

end QTrl.Dyn
