import Verif.Model.Basic
import Mathlib.Algebra.Order.Ring.Rat
import Mathlib.Data.Fintype.Prod

/-
Model of the statistics (stats.py) and of how the optimiser and the timeslot computer fill them
(tslotcomp.py 170-223, 225-348, 440-608; fidcomp.py 436-462, 464-545; optimizer.py 412-436, 548-562,
594-610, 653-656, 702-705, 735-760, 776-797).

Conventions
* Times are exact rational numbers of seconds; rounding and overflow are not modelled.
* A count is a number with the information whether it is a NumPy scalar: dividing a NumPy scalar
  by zero gives nan or an infinity, dividing a Python number by zero raises.
* Amplitudes are arrays of the shape of the problem.
-/

namespace QTrl.Stats

/-- A floating-point result. -/
inductive Val where
  | num (q : Rat)
  | nan
  | inf (negative : Bool)
  deriving DecidableEq, Repr

/-- A number, Python or NumPy. -/
structure Num where
  val : Rat
  numpy : Bool
  deriving DecidableEq, Repr

/-- `a / float(b)` -/
def Num.div (a b : Num) : Except PyErr Val :=
  if b.val = 0 then
    if a.numpy then .ok (if a.val = 0 then .nan else .inf (decide (a.val < 0)))
    else .error .zeroDivisionError
  else .ok (.num (a.val / b.val))

/-- `try: x = a / float(b); except Exception: x = np.nan` -/
def tryDiv (a b : Num) : Val :=
  match a.div b with
  | .ok v => v
  | .error _ => .nan

/-- The attributes of `Stats` (stats.py 113-136). -/
structure Base where
  numIter : Num
  wallStart : Rat
  wallEnd : Rat
  wallOptim : Rat
  wallDynGen : Rat
  wallProp : Rat
  wallFwd : Rat
  wallOnwd : Rat
  wallGrad : Rat
  numFidCalls : Nat
  numGradCalls : Nat
  numRecompute : Nat
  numFidComputes : Nat
  numGradComputes : Nat
  numUpdates : Num
  meanUpdates : Val
  numSlotChanges : Num
  meanSlotChanges : Val
  numAmpChanges : Num
  meanAmpChanges : Val

/-- `clear` (stats.py 113-136). -/
def Base.clear : Base where
  numIter := ⟨0, false⟩
  wallStart := 0
  wallEnd := 0
  wallOptim := 0
  wallDynGen := 0
  wallProp := 0
  wallFwd := 0
  wallOnwd := 0
  wallGrad := 0
  numFidCalls := 0
  numGradCalls := 0
  numRecompute := 0
  numFidComputes := 0
  numGradComputes := 0
  numUpdates := ⟨0, false⟩
  meanUpdates := .num 0
  numSlotChanges := ⟨0, false⟩
  meanSlotChanges := .num 0
  numAmpChanges := ⟨0, false⟩
  meanAmpChanges := .num 0

/-- `calculate` (stats.py 138-169). -/
def Base.calculate (s : Base) : Base :=
  let s := if s.wallEnd > 0 then { s with wallOptim := s.wallEnd - s.wallStart } else s
  let s := { s with meanUpdates := tryDiv s.numUpdates s.numIter }
  let s := { s with meanSlotChanges := tryDiv s.numSlotChanges s.numUpdates }
  { s with meanAmpChanges := tryDiv s.numAmpChanges s.numUpdates }

/-- The further attributes of `StatsDynTsUpdate` (stats.py 323-341). -/
structure DynStats where
  base : Base
  numDynGen : Num
  meanNumDynGen : Val
  meanWallDynGen : Val
  numProp : Num
  meanNumProp : Val
  meanWallProp : Val
  numFwd : Num
  meanNumFwd : Val
  meanWallFwd : Val
  numOnwd : Num
  meanNumOnwd : Val
  meanWallOnwd : Val

/-- `reset` (stats.py 324-341). -/
def DynStats.reset : DynStats where
  base := .clear
  numDynGen := ⟨0, false⟩
  meanNumDynGen := .num 0
  meanWallDynGen := .num 0
  numProp := ⟨0, false⟩
  meanNumProp := .num 0
  meanWallProp := .num 0
  numFwd := ⟨0, false⟩
  meanNumFwd := .num 0
  meanWallFwd := .num 0
  numOnwd := ⟨0, false⟩
  meanNumOnwd := .num 0
  meanWallOnwd := .num 0

/-- An assignment `self.x = a / float(b)`: the state so far and the exception, if one was
raised. -/
def assign (r : DynStats × Option PyErr) (num den : DynStats → Num)
    (set : DynStats → Val → DynStats) : DynStats × Option PyErr :=
  match r.2 with
  | some _ => r
  | none =>
      match (num r.1).div (den r.1) with
      | .ok v => (set r.1 v, none)
      | .error e => (r.1, some e)

/-- A time as a Python float. -/
def time (q : Rat) : Num := ⟨q, false⟩

/-- `StatsDynTsUpdate.calculate` (stats.py 343-377): no `try` here. -/
def DynStats.calculate (s : DynStats) : DynStats × Option PyErr :=
  let r := ({ s with base := s.base.calculate }, none)
  let r := assign r (·.numDynGen) (·.base.numUpdates) fun s v => { s with meanNumDynGen := v }
  let r := assign r (fun s => time s.base.wallDynGen) (·.numDynGen)
    fun s v => { s with meanWallDynGen := v }
  let r := assign r (·.numProp) (·.base.numUpdates) fun s v => { s with meanNumProp := v }
  let r := assign r (fun s => time s.base.wallProp) (·.numProp)
    fun s v => { s with meanWallProp := v }
  let r := assign r (·.numFwd) (·.base.numUpdates) fun s v => { s with meanNumFwd := v }
  let r := assign r (fun s => time s.base.wallFwd) (·.numFwd)
    fun s v => { s with meanWallFwd := v }
  let r := assign r (·.numOnwd) (·.base.numUpdates) fun s v => { s with meanNumOnwd := v }
  assign r (fun s => time s.base.wallOnwd) (·.numOnwd) fun s v => { s with meanWallOnwd := v }

/-- `x += n` for an integer, Python or NumPy. -/
def Num.add (a : Num) (n : Nat) (numpy : Bool) : Num := ⟨a.val + n, a.numpy || numpy⟩

section Counting

variable {n m : Nat} {α : Type} [DecidableEq α]

/-- `(old != new).sum()` -/
def ampChanges (old new : Fin n → Fin m → α) : Nat :=
  (Finset.univ.filter fun p : Fin n × Fin m => old p.1 p.2 ≠ new p.1 p.2).card

/-- `np.any(old != new, 1).sum()` -/
def slotChanges (old new : Fin n → Fin m → α) : Nat :=
  (Finset.univ.filter fun k : Fin n => ∃ j, old k j ≠ new k j).card

/-- What `compare_amps` counts and stores (tslotcomp.py 170-219): for the first amplitudes all
of them, as Python integers; afterwards those that differ, as NumPy integers if there are any
(the summary was reset to zero). -/
def countUpdate (amps : Option (Fin n → Fin m → α)) (new : Fin n → Fin m → α) (s : Base) : Base :=
  match amps with
  | none =>
      { s with
        numUpdates := s.numUpdates.add (if n * m = 0 then 0 else 1) false
        numAmpChanges := s.numAmpChanges.add (n * m) false
        numSlotChanges := s.numSlotChanges.add n false }
  | some old =>
      if ampChanges old new = 0 then s
      else
        { s with
          numUpdates := s.numUpdates.add 1 false
          numAmpChanges := s.numAmpChanges.add (ampChanges old new) true
          numSlotChanges := s.numSlotChanges.add (slotChanges old new) true }

/-- The clock, the statistics, the amplitudes, the time at which the last run ended, and the
numbers the optimiser counts itself. -/
structure World (n m : Nat) (α : Type) where
  now : Rat
  stats : Base
  amps : Option (Fin n → Fin m → α)
  endTime : Rat
  /-- `num_iter`, `num_fid_func_calls` and `num_grad_func_calls` of the optimiser -/
  optIter : Nat
  optFid : Nat
  optGrad : Nat

/-- What happens to the statistics. -/
inductive Event (n m : Nat) (α : Type) where
  /-- `update_ctrl_amps` -/
  | update (new : Fin n → Fin m → α)
  /-- `recompute_evolution`, with the time each of the four parts takes -/
  | evolve (a b c d : Rat)
  /-- the fidelity computed anew (fidcomp.py 436-456, 596-629) -/
  | fidelity
  /-- the gradient computed anew, with the time its loop takes (fidcomp.py 464-543, 636-717) -/
  | gradient (g : Rat)
  /-- the minimiser calls `fid_err_func_wrapper` (optimizer.py 653-656) -/
  | funcCall
  /-- the minimiser calls `fid_err_grad_wrapper` (optimizer.py 702-705) -/
  | gradCall
  /-- `iter_step_callback_func`; `tooLate` if it found the time limit exceeded and raised -/
  | iteration (tooLate : Bool)
  /-- anything else that takes time -/
  | pass (t : Rat)
  /-- the start of `run_optimization`: `init_optim` clears the statistics and the numbers of the
  optimiser (optimizer.py 412-436), then the start time is noted (548-559); the algorithms differ
  in the first iteration number -/
  | start (firstIter : Nat)
  /-- the end of the minimisation: `end_time = timeit.default_timer()` -/
  | stop
  /-- the end of `_add_common_result_attribs`: `wall_time_optim_end = end_time`, `calculate()`; what
  is computed for the result before it (optimizer.py 785-788) comes between `stop` and `report` -/
  | report
  /-- the user calls `calculate` -/
  | calculate

/-- One event. -/
def step (w : World n m α) : Event n m α → World n m α
  | .update new => { w with stats := countUpdate w.amps new w.stats, amps := some new }
  | .evolve a b c d =>
      { w with
        now := w.now + a + b + c + d
        stats := { w.stats with
          numRecompute := w.stats.numRecompute + 1
          wallDynGen := w.stats.wallDynGen + a
          wallProp := w.stats.wallProp + b
          wallFwd := w.stats.wallFwd + c
          wallOnwd := w.stats.wallOnwd + d } }
  | .fidelity =>
      { w with stats := { w.stats with numFidComputes := w.stats.numFidComputes + 1 } }
  | .gradient g =>
      { w with
        now := w.now + g
        stats := { w.stats with
          wallGrad := w.stats.wallGrad + g
          numGradComputes := w.stats.numGradComputes + 1 } }
  | .funcCall =>
      { w with
        optFid := w.optFid + 1
        stats := { w.stats with numFidCalls := w.optFid + 1 } }
  | .gradCall =>
      { w with
        optGrad := w.optGrad + 1
        stats := { w.stats with numGradCalls := w.optGrad + 1 } }
  | .iteration tooLate =>
      let w := { w with optIter := w.optIter + 1 }
      if tooLate then w
      else { w with stats := { w.stats with numIter := ⟨w.optIter, false⟩ } }
  | .pass t => { w with now := w.now + t }
  | .start i =>
      { w with
        stats := { Base.clear with wallStart := w.now, wallEnd := 0, numIter := ⟨i, false⟩ }
        optIter := 0
        optFid := 0
        optGrad := 0 }
  | .stop => { w with endTime := w.now }
  | .report => { w with stats := { w.stats with wallEnd := w.endTime }.calculate }
  | .calculate => { w with stats := w.stats.calculate }

/-- A sequence of events. -/
def run (w : World n m α) (es : List (Event n m α)) : World n m α := es.foldl step w

/-- A new statistics object at some time, before there are amplitudes. -/
def fresh (t : Rat) : World n m α where
  now := t
  stats := .clear
  amps := none
  endTime := 0
  optIter := 0
  optFid := 0
  optGrad := 0

end Counting

/-- The start of a run in the dynamic update mode: `clear` is inherited from `Stats` and leaves the
further attributes as they are (stats.py 113-136, 323-341; optimizer.py 412-413, 557-559). -/
def DynStats.start (s : DynStats) (now : Rat) (firstIter : Nat) : DynStats :=
  { s with base := { Base.clear with wallStart := now, numIter := ⟨firstIter, false⟩ } }

/-- `compare_amps` in the dynamic update mode for a pulse with changes (tslotcomp.py 478-482). -/
def DynStats.update (s : DynStats) (amps slots : Nat) : DynStats :=
  { s with base := { s.base with
      numUpdates := s.base.numUpdates.add 1 false
      numAmpChanges := s.base.numAmpChanges.add amps true
      numSlotChanges := s.base.numSlotChanges.add slots true } }

/-- `recompute_evolution` in the dynamic update mode (tslotcomp.py 545-607): the numbers of
generators, propagators, forward and onward steps computed, each with the time taken; nothing is
added for a part in which nothing is computed. -/
def DynStats.evolve (s : DynStats) (g p f o : Nat × Rat) : DynStats :=
  let s := if g.1 = 0 then s else { s with
    numDynGen := s.numDynGen.add g.1 true
    base := { s.base with wallDynGen := s.base.wallDynGen + g.2 } }
  let s := if p.1 = 0 then s else { s with
    numProp := s.numProp.add p.1 true
    base := { s.base with wallProp := s.base.wallProp + p.2 } }
  let s := if f.1 = 0 then s else { s with
    numFwd := s.numFwd.add f.1 true
    base := { s.base with wallFwd := s.base.wallFwd + f.2 } }
  if o.1 = 0 then s else { s with
    numOnwd := s.numOnwd.add o.1 true
    base := { s.base with wallOnwd := s.base.wallOnwd + o.2 } }

end QTrl.Stats
