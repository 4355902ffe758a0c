import Verif.Model.Dynamics
import Mathlib.Algebra.BigOperators.Group.Finset.Basic
import Mathlib.Algebra.BigOperators.Group.List.Basic

/-
Stateless specification of the evolution, fidelity and gradient of a system at
given amplitudes: closed formulas, no caches, no loops, no flags.  Only the
system description `Sys` is shared with the model.
-/

namespace QTrl.Spec

open QTrl.Dyn

variable {d m D : Type} [Fintype d] [DecidableEq d] [Fintype m] [DecidableEq m]

/-- `p (hi-1) * … * p (lo+1) * p lo`: later slots act from the left. -/
def timeOrdered (p : Nat → Matrix d d ℂ) (lo hi : Nat) : Matrix d d ℂ :=
  ((List.range' lo (hi - lo)).map p).reverse.prod

/-- Generator of slot `k`: drift plus controls weighted by the amplitudes. -/
def generator (S : Sys d m D) (amps : Amps) (k : Nat) : Matrix d d ℂ :=
  S.drift k + ∑ j ∈ Finset.range S.nCtrls, (amps k j : ℂ) • S.ctrl k j

/-- Phase operation, when there is one. -/
def phased (S : Sys d m D) (A : Matrix d d ℂ) : Matrix d d ℂ :=
  match S.phase with
  | none => A
  | some ph => ph A

/-- Propagator of slot `k`. -/
def propagator (S : Sys d m D) (amps : Amps) (k : Nat) : Matrix d d ℂ :=
  if S.propKind = .diag then S.diagProp (S.decompose (generator S amps k) (S.tau k))
  else S.expm ((S.tau k : ℂ) • phased S (generator S amps k))

/-- Derivative of the propagator of slot `k` in the direction of control `j`, as
delivered by the external routines. -/
def propagatorGrad (S : Sys d m D) (amps : Amps) (k j : Nat) : Matrix d d ℂ :=
  if S.propKind = .diag then
    S.diagGrad (S.decompose (generator S amps k) (S.tau k)) (phased S (S.ctrl k j)) (S.tau k)
  else S.frechet ((S.tau k : ℂ) • phased S (generator S amps k))
    ((S.tau k : ℂ) • phased S (S.ctrl k j))

/-- Evolution from slot `lo` up to (not including) slot `hi`. -/
def evolution (S : Sys d m D) (amps : Amps) (lo hi : Nat) : Matrix d d ℂ :=
  timeOrdered (propagator S amps) lo hi

/-- The final evolved object. -/
def final (S : Sys d m D) (amps : Amps) : Matrix d m ℂ :=
  evolution S amps 0 S.nTs * S.initial

/-- Overlap of the final evolution with the target form. -/
noncomputable def overlap (S : Sys d m D) (amps : Amps) : ℂ :=
  (S.ontoTarget * final S amps).trace

/-- Fidelity of the unitary measure.  `SU` is only available for the Qobj data
type: with ndarrays the code raises `IndexError`. -/
noncomputable def fidelity (S : Sys d m D) (amps : Amps) : Except PyErr ℝ :=
  match S.phaseOpt, S.isQobj with
  | .PSU, _ => .ok (‖overlap S amps‖ / S.dimNorm)
  | .SU, true => .ok ((overlap S amps).re / S.dimNorm)
  | .SU, false => .error .indexError

/-- Fidelity error. -/
noncomputable def fidErr (S : Sys d m D) (amps : Amps) : Except PyErr ℝ :=
  match S.fidKind with
  | .unitary => (fidelity S amps).map fun f => |1 - f|
  | .traceDiff => .ok (S.scale *
      ((S.target - final S amps).conjTranspose * (S.target - final S amps)).trace.re)

/-- Derivative of the final object with respect to amplitude `[k, j]`. -/
def finalGrad (S : Sys d m D) (amps : Amps) (k j : Nat) : Matrix d m ℂ :=
  evolution S amps (k + 1) S.nTs * propagatorGrad S amps k j * (evolution S amps 0 k * S.initial)

/-- Element of the gradient of the fidelity error. -/
noncomputable def gradEntry (S : Sys d m D) (amps : Amps) (f : ℝ) (k j : Nat) : ℝ :=
  match S.fidKind with
  | .unitary =>
    let g := (S.ontoTarget * finalGrad S amps k j).trace
    let n := match S.phaseOpt with
      | .PSU => (g * Complex.exp (-Complex.I * (Complex.arg (overlap S amps) : ℂ)) /
          (S.dimNorm : ℂ)).re
      | .SU => g.re / S.dimNorm
    if 1 ≤ f then n else -n
  | .traceDiff => -2 * S.scale *
      ((S.target - final S amps).conjTranspose * finalGrad S amps k j).trace.re

/-- Gradient of the fidelity error as an array of shape `[num_tslots, num_ctrls]`
(zero outside).  The approximate propagator computer has no exact gradient. -/
noncomputable def gradient (S : Sys d m D) (amps : Amps) : Except PyErr (Nat → Nat → ℝ) :=
  if S.propKind = .approx then
    .error (if S.cachePropGrad then .typeError else .usageError)
  else
    match S.fidKind with
    | .unitary => (fidelity S amps).map fun f =>
        fun k j => if k < S.nTs ∧ j < S.nCtrls then gradEntry S amps f k j else 0
    | .traceDiff => .ok fun k j =>
        if k < S.nTs ∧ j < S.nCtrls then gradEntry S amps 0 k j else 0

/-- What a query should return when the current amplitudes are `amps`
(`none`: no amplitudes were ever supplied). -/
noncomputable def answer (S : Sys d m D) (amps : Option Amps) : Op → Out
  | .updateAmps _ => .none
  | .reinit _ => .none
  | .computeEvolution =>
    match amps with
    | none => .error .typeError
    | some _ => .none
  | .getFidelity =>
    match S.fidKind, amps with
    | .traceDiff, _ => .error .attributeError
    | .unitary, none => .error .typeError
    | .unitary, some a => .ofReal (fidelity S a)
  | .getFidErr =>
    match amps with
    | none => .error .typeError
    | some a => .ofReal (fidErr S a)
  | .getGradient =>
    match amps with
    | none => .error .typeError
    | some a => .ofArray (gradient S a)

/-- The amplitudes after an operation: the last ones supplied. -/
def nextAmps (amps : Option Amps) : Op → Option Amps
  | .updateAmps a => some a
  | .reinit a => some a
  | _ => amps

/-- The outputs of a history: every query is answered from the last supplied
amplitudes alone. -/
noncomputable def answers (S : Sys d m D) : Option Amps → List Op → List Out
  | _, [] => []
  | amps, op :: ops => answer S amps op :: answers S (nextAmps amps op) ops

end QTrl.Spec
