import Verif.Model.Optimizer
import Verif.Spec.Evolution

/-
What a run of the optimiser should report, in terms of the calls of the minimiser and of the
errors and gradients at the points it tries.
-/

namespace QTrl.Spec

open QTrl.Dyn QTrl.Opt

variable {d m D : Type} [Fintype d] [DecidableEq d] [Fintype m] [DecidableEq m]

/-- The amplitudes meant by a vector of variables: its entries (GRAPE) or the pulses the
generators make of it (CRAB); see C28, C29. -/
noncomputable def ampsOf (S : Sys d m D) (v : VarKind) (gs : List Pulse.Crab) (x : List ℝ) :
    Except PyErr Amps :=
  (getCtrlAmps S v gs x).map Prod.snd

/-- Euclidean norm of a gradient array. -/
noncomputable def gradientNorm (S : Sys d m D) (g : ℕ → ℕ → ℝ) : ℝ :=
  Real.sqrt (∑ k ∈ Finset.range S.nTs, ∑ j ∈ Finset.range S.nCtrls, g k j ^ 2)

/-- The number of error evaluations in a list of calls. -/
def funcCount : List Call → ℕ
  | [] => 0
  | .func _ :: cs => funcCount cs + 1
  | _ :: cs => funcCount cs

/-- The number of iteration callbacks in a list of calls. -/
def iterCount : List Call → ℕ
  | [] => 0
  | .iter _ :: cs => iterCount cs + 1
  | _ :: cs => iterCount cs

/-- Whether a call should end the run, and why: the `nf`-th error evaluation reaches the
target or exceeds the permitted number, the gradient is below its minimum, or the clock
shows more than the permitted time since `start`. -/
noncomputable def verdict (S : Sys d m D) (v : VarKind) (gs : List Pulse.Crab) (tc : TermConds)
    (start : ℝ) (nf : ℕ) : Call → Option Raised
  | .func x =>
      match ampsOf S v gs x with
      | .error e => some (.error e)
      | .ok a =>
          match fidErr S a with
          | .error e => some (.error e)
          | .ok err =>
              if err ≤ tc.fidErrTarg then some (.term (.goal err))
              else if (nf : ℝ) > tc.maxFidCalls then some (.term .fidCalls)
              else none
  | .grad x =>
      match ampsOf S v gs x with
      | .error e => some (.error e)
      | .ok a =>
          match gradient S a with
          | .error e => some (.error e)
          | .ok g =>
              if gradientNorm S g < tc.minGradNorm then some (.term (.gradMin (gradientNorm S g)))
              else none
  | .iter t => if t - start > tc.maxWallTime then some (.term .wallTime) else none

/-- No call of the list ends the run. -/
def Quiet (S : Sys d m D) (v : VarKind) (gs : List Pulse.Crab) (tc : TermConds) (start : ℝ)
    (cs : List Call) : Prop :=
  ∀ p c q, cs = p ++ c :: q → verdict S v gs tc start (funcCount (p ++ [c])) c = none

/-- The amplitudes after a list of calls: those of the last point tried. -/
noncomputable def ampsAfter (S : Sys d m D) (v : VarKind) (gs : List Pulse.Crab) :
    Amps → List Call → Amps
  | a, [] => a
  | a, .func x :: cs => ampsAfter S v gs ((ampsOf S v gs x).toOption.getD a) cs
  | a, .grad x :: cs => ampsAfter S v gs ((ampsOf S v gs x).toOption.getD a) cs
  | a, .iter _ :: cs => ampsAfter S v gs a cs

/-- What the minimiser should be told at a point: the error, or the gradient in the order of
the variables. -/
noncomputable def replyFor (S : Sys d m D) (v : VarKind) (gs : List Pulse.Crab) :
    Call → Except PyErr Reply
  | .func x =>
      match ampsOf S v gs x with
      | .error e => .error e
      | .ok a => (fidErr S a).map .err
  | .grad x =>
      match ampsOf S v gs x with
      | .error e => .error e
      | .ok a => (gradient S a).map fun g => .grad
          (List.ofFn fun i : Fin (S.nTs * S.nCtrls) => g (i / S.nCtrls) (i % S.nCtrls))
  | .iter _ => .ok .none

end QTrl.Spec
