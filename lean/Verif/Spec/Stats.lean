import Verif.Model.Stats

/-
What the statistics should count.
-/

namespace QTrl.Spec.Stats

open QTrl.Stats

variable {n m : Nat} {α : Type} [DecidableEq α]

/-- The mean of a total over a number; not a number if nothing was counted. -/
def Mean (total number : Rat) (v : Val) : Prop :=
  (number = 0 ∧ v = .nan) ∨ (number ≠ 0 ∧ v = .num (total / number))

/-- The pulses assigned, in order. -/
def pulses : List (Event n m α) → List (Fin n → Fin m → α)
  | [] => []
  | .update a :: es => a :: pulses es
  | _ :: es => pulses es

/-- Amplitudes of a pulse that are new; all if there was none before. -/
def newAmps (old : Option (Fin n → Fin m → α)) (new : Fin n → Fin m → α) :
    Finset (Fin n × Fin m) :=
  Finset.univ.filter fun p => ∀ o, old = some o → o p.1 p.2 ≠ new p.1 p.2

/-- Timeslots of a pulse with new amplitudes. -/
def newSlots (old : Option (Fin n → Fin m → α)) (new : Fin n → Fin m → α) : Finset (Fin n) :=
  Finset.univ.filter fun k => ∃ j, (k, j) ∈ newAmps old new

/-- Sum of a quantity over the changes of pulse. -/
def total (f : Option (Fin n → Fin m → α) → (Fin n → Fin m → α) → Nat) :
    Option (Fin n → Fin m → α) → List (Fin n → Fin m → α) → Nat
  | _, [] => 0
  | old, a :: as => f old a + total f (some a) as

/-- The time in the categories. -/
def categorised (s : Base) : Rat :=
  s.wallDynGen + s.wallProp + s.wallFwd + s.wallOnwd + s.wallGrad

/-- Durations are not negative. -/
def Proper : Event n m α → Prop
  | .evolve a b c d => 0 ≤ a ∧ 0 ≤ b ∧ 0 ≤ c ∧ 0 ≤ d
  | .gradient g => 0 ≤ g
  | .pass t => 0 ≤ t
  | _ => True

/-- Events within a run. -/
def Inner : Event n m α → Prop
  | .start _ => False
  | .stop => False
  | .report => False
  | .calculate => False
  | _ => True

/-- No run starts. -/
def NoStart (es : List (Event n m α)) : Prop := ∀ i, .start i ∉ es

/-- The number of events of a kind. -/
def occurrences (p : Event n m α → Bool) (es : List (Event n m α)) : Nat := es.countP p

def isFunc : Event n m α → Bool
  | .funcCall => true
  | _ => false

def isGrad : Event n m α → Bool
  | .gradCall => true
  | _ => false

def isEvolve : Event n m α → Bool
  | .evolve .. => true
  | _ => false

def isFidelity : Event n m α → Bool
  | .fidelity => true
  | _ => false

def isGradient : Event n m α → Bool
  | .gradient _ => true
  | _ => false

/-- The statistics count the events `es`, at the beginning of which the pulse `old` was in force:
updates with a change, amplitudes changed, timeslots changed, calls and computations.  Every update
changes at least one slot, and of every slot changed at least one and at most all amplitudes. -/
structure Counts (old : Option (Fin n → Fin m → α)) (es : List (Event n m α)) (s : Base) : Prop where
  updates : s.numUpdates.val =
    (total (fun o a => if (newAmps o a).card = 0 then 0 else 1) old (pulses es) : Nat)
  amps : s.numAmpChanges.val = (total (fun o a => (newAmps o a).card) old (pulses es) : Nat)
  slots : s.numSlotChanges.val = (total (fun o a => (newSlots o a).card) old (pulses es) : Nat)
  updates_slots : s.numUpdates.val ≤ s.numSlotChanges.val
  slots_amps : s.numSlotChanges.val ≤ s.numAmpChanges.val
  amps_slots : s.numAmpChanges.val ≤ m * s.numSlotChanges.val
  fidCalls : s.numFidCalls = occurrences isFunc es
  gradCalls : s.numGradCalls = occurrences isGrad es
  recompute : s.numRecompute = occurrences isEvolve es
  fidComputes : s.numFidComputes = occurrences isFidelity es
  gradComputes : s.numGradComputes = occurrences isGradient es

end QTrl.Spec.Stats
