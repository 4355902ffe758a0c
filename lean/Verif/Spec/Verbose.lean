import Verif.Model.Verbose
import Verif.Spec.Counting

/-
What should be in the log.
-/

namespace QTrl.Spec.Verbose

open QTrl QTrl.Dyn QTrl.Spec

variable {d m D : Type} [Fintype d] [DecidableEq d] [Fintype m] [DecidableEq m]

/-- The severity of a message: `DEBUG_INTENSE` 6 for arrays, `DEBUG_VERBOSE` 8 for the steps and
operators, `DEBUG` 10 for numbers. -/
def severity : Msg d m → ℕ
  | .updating .. => 6
  | .gradPrenorm _ => 6
  | .gradients _ => 6
  | .computing => 8
  | .traceDiff .. => 8
  | _ => 10

/-- The level of the logger of the module that writes the message. -/
def levelOf (lv : Levels) : Msg d m → ℕ
  | .updating .. => lv.dyn
  | .computing => lv.dyn
  | .changed _ => lv.ts
  | .unchanged => lv.ts
  | .recomputing _ => lv.ts
  | _ => lv.fid

/-- The messages shown at given levels. -/
def shown (lv : Levels) (log : List (Msg d m)) : List (Msg d m) :=
  log.filter fun msg => decide (levelOf lv msg ≤ severity msg)

/-- The computation of an evolution that is not current. -/
def evoMsgs (s : State d m D) : List (Msg d m) :=
  if s.evoCurrent then [] else [.computing, .recomputing (s.numRecompute + 1)]

/-- The overlap, unless it is known. -/
def prenormMsgs (S : Sys d m D) (s : State d m D) : List (Msg d m) :=
  if s.prenormCurrent then [] else
    evoMsgs s ++ match (getPrenorm S s).2 with
      | .ok f => [.prenorm f]
      | .error _ => []

/-- The fidelity, unless it is known. -/
noncomputable def fidelityMsgs (S : Sys d m D) (s : State d m D) : List (Msg d m) :=
  if s.fidelityCurrent then [] else
    prenormMsgs S s ++ match (getFidelity S s).2 with
      | .ok v => [.fidelity v]
      | .error _ => []

/-- The error, with target, evolution and their difference, unless it is known. -/
noncomputable def errMsgs (S : Sys d m D) (s : State d m D) : List (Msg d m) :=
  match S.fidKind with
  | .unitary => fidelityMsgs S s
  | .traceDiff =>
    if s.fidelityCurrent then [] else
      evoMsgs s ++ match getFidErrTD S s with
        | (t, .ok e) => [.traceDiff S.target (t.fwd S.nTs) (S.target - t.fwd S.nTs), .fidErr e]
        | (_, .error _) => []

/-- The gradient and its norm. -/
noncomputable def resultMsgs (S : Sys d m D) : Except PyErr (Nat → Nat → ℝ) → List (Msg d m)
  | .ok g => [.gradients g, .gradNorm
      (Real.sqrt (∑ k ∈ Finset.range S.nTs, ∑ j ∈ Finset.range S.nCtrls, g k j ^ 2))]
  | .error _ => []

/-- The gradient, unless it is known.  For the unitary computer: the gradient of the overlap, the
fidelity and, unless it is known, the overlap. -/
noncomputable def gradMsgs (S : Sys d m D) (s : State d m D) : List (Msg d m) :=
  if s.gradCurrent then [] else
    match S.fidKind with
    | .traceDiff => evoMsgs s ++ resultMsgs S (getGrad S s).2
    | .unitary =>
      evoMsgs s ++ match computeFidGrad S s with
        | (_, .error _) => []
        | (t, .ok pre) => .gradPrenorm pre :: fidelityMsgs S t ++
            (match getFidelity S t with
              | (_, .error _) => []
              | (u, .ok _) => prenormMsgs S u) ++ resultMsgs S (getGrad S s).2

/-- The amplitudes supplied, compared with those in force. -/
noncomputable def updateMsgs (S : Sys d m D) (old : Option Amps) (new : Amps) : List (Msg d m) :=
  .updating old new :: match old with
    | none => []
    | some o =>
      if changedAmps S o new = 0 then [.unchanged] else [.changed (changedAmps S o new)]

/-- All messages of an operation, from the most to the least detailed. -/
noncomputable def messages (S : Sys d m D) (s : State d m D) : Op → List (Msg d m)
  | .updateAmps a => updateMsgs S s.ctrlAmps a
  | .reinit a => updateMsgs S none a
  | .computeEvolution => evoMsgs s
  | .getFidelity => match S.fidKind with
    | .unitary => fidelityMsgs S s
    | .traceDiff => []
  | .getFidErr => errMsgs S s
  | .getGradient => gradMsgs S s

/-- All messages of a history. -/
noncomputable def allMessages (S : Sys d m D) (junk : State d m D) :
    State d m D → List Op → List (Msg d m)
  | _, [] => []
  | s, op :: ops => messages S s op ++ allMessages S junk (step S junk s op).1 ops

/-- What a message says is so when the amplitudes are `b`. -/
def Truthful (S : Sys d m D) (b : Amps) : Msg d m → Prop
  | .prenorm f => f = overlap S b
  | .fidelity v => fidelity S b = .ok v
  | .fidErr e => fidErr S b = .ok e
  | .traceDiff t f e => t = S.target ∧ f = final S b ∧ e = S.target - final S b
  | .gradPrenorm g => g = fun k j => if k < S.nTs ∧ j < S.nCtrls then
      (S.ontoTarget * finalGrad S b k j).trace else 0
  | .gradients g => gradient S b = .ok g
  | .gradNorm r => ∃ g, gradient S b = .ok g ∧
      r = Real.sqrt (∑ k ∈ Finset.range S.nTs, ∑ j ∈ Finset.range S.nCtrls, g k j ^ 2)
  | _ => True

/-- An operation that needs the evolution. -/
def Asks : Op → Prop
  | .updateAmps _ => False
  | .reinit _ => False
  | _ => True

end QTrl.Spec.Verbose
