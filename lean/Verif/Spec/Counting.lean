import Verif.Spec.Evolution
import Mathlib.Data.Finset.Prod
import Mathlib.Data.Finset.Card

/-
What the statistics should count, described without caches: which kind of work
each query needs, and that needed work is done exactly when it has not been done
since the last real change of the amplitudes.
-/

namespace QTrl.Spec

open QTrl.Dyn

variable {d m D : Type} [Fintype d] [DecidableEq d] [Fintype m] [DecidableEq m]

open Classical in
/-- Number of amplitudes in which two arrays differ. -/
noncomputable def changedAmps (S : Sys d m D) (a b : Amps) : Nat :=
  ((Finset.range S.nTs ×ˢ Finset.range S.nCtrls).filter fun p => a p.1 p.2 ≠ b p.1 p.2).card

open Classical in
/-- Number of slots in which two arrays differ. -/
noncomputable def changedSlots (S : Sys d m D) (a b : Amps) : Nat :=
  ((Finset.range S.nTs).filter fun k => ∃ j, j < S.nCtrls ∧ a k j ≠ b k j).card

/-- The counters of the statistics object (stats.py 74-112). -/
@[ext] structure Tally where
  ampUpdates : Nat := 0
  ampChanges : Nat := 0
  slotChanges : Nat := 0
  recomputes : Nat := 0
  fidelities : Nat := 0
  gradients : Nat := 0

/-- Componentwise sum. -/
def Tally.plus (a b : Tally) : Tally :=
  ⟨a.ampUpdates + b.ampUpdates, a.ampChanges + b.ampChanges, a.slotChanges + b.slotChanges,
   a.recomputes + b.recomputes, a.fidelities + b.fidelities, a.gradients + b.gradients⟩

/-- The counters found in a state. -/
def tally (s : State d m D) : Tally :=
  ⟨s.numAmpUpdates, s.numAmpChanges, s.numTslotChanges, s.numRecompute, s.numFidComputes,
   s.numGradComputes⟩

/-- Queries that need the evolution. -/
def needsEvo (S : Sys d m D) : Op → Bool
  | .computeEvolution => true
  | .getFidelity => S.fidKind = .unitary
  | .getFidErr => true
  | .getGradient => true
  | _ => false

/-- Queries that need the overlap (unitary) or the distance (trace difference). -/
def needsFid (S : Sys d m D) : Op → Bool
  | .getFidelity => S.fidKind = .unitary
  | .getFidErr => true
  | .getGradient => S.fidKind = .unitary && S.propKind ≠ .approx
  | _ => false

/-- Queries that complete a gradient: not without an exact propagator gradient,
and not when normalising the overlap fails (phase option SU with ndarrays). -/
def needsGrad (S : Sys d m D) : Op → Bool
  | .getGradient => S.propKind ≠ .approx &&
      !(S.fidKind = .unitary && S.phaseOpt = .SU && !S.isQobj)
  | _ => false

/-- What has been worked out since the last real change. -/
structure Known where
  evo : Bool := false
  fid : Bool := false
  grad : Bool := false

/-- One unit if the work is needed and not done yet. -/
def charge (needed known : Bool) : Nat := if needed && !known then 1 else 0

open Classical in
/-- The statistics a history should produce, from the current amplitudes and what
is known about them. -/
noncomputable def expected (S : Sys d m D) : Amps → Known → List Op → Tally
  | _, _, [] => {}
  | a, kn, .updateAmps b :: ops =>
    if changedAmps S a b = 0 then expected S b kn ops
    else Tally.plus
      { ampUpdates := 1, ampChanges := changedAmps S a b, slotChanges := changedSlots S a b }
      (expected S b {} ops)
  | _, _, .reinit b :: ops => Tally.plus
      { ampUpdates := 1, ampChanges := S.nTs * S.nCtrls, slotChanges := S.nTs }
      (expected S b {} ops)
  | a, kn, op :: ops => Tally.plus
      { recomputes := charge (needsEvo S op) kn.evo
        fidelities := charge (needsFid S op) kn.fid
        gradients := charge (needsGrad S op) kn.grad }
      (expected S a ⟨kn.evo || needsEvo S op, kn.fid || needsFid S op, kn.grad || needsGrad S op⟩
        ops)

end QTrl.Spec
