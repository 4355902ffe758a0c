import Verif.Model.Basic
import Mathlib.Algebra.Field.Basic
import Mathlib.Data.Int.Cast.Defs

/-
Model of the timeslot attributes of `Dynamics` (dynamics.py 544-610, 997-998).
Simplifications: durations are exact elements of a field `K` (the code stores
generated durations as float32); `tau` values supplied by the user are lists.
-/

namespace QTrl.Timeslots

variable {K : Type*} [Field K]

/-- The timeslot attributes of a `Dynamics` object: `_num_tslots`, `_evo_time`,
`_tau`, `time` and `_timeslots_initialized`.  `none` is Python's `None`.
(Initial values set in dynamics.py `Dynamics.reset`, 374-382.) -/
structure TS (K : Type*) where
  numTslots : Option Int
  evoTime : Option K
  tau : Option (List K)
  time : Option (List K)
  initialized : Bool

/-- A freshly reset object (dynamics.py 351-355, 425). -/
def TS.fresh : TS K := ⟨none, none, none, none, false⟩

/-- `DEF_NUM_TSLOTS` (dynamics.py 51). -/
def defNumTslots : Int := 10
/-- `DEF_EVO_TIME` (dynamics.py 52). -/
def defEvoTime : K := 1

/-- The cumulative time loop (dynamics.py 605-608):
`time = zeros(n+1); for t in range(n): time[t+1] = time[t] + tau[t]`. -/
def cumTime (tau : List K) (n : Nat) : List K :=
  forRange n (fun t time => time.set (t + 1) (time.getD t 0 + tau.getD t 0))
    (List.replicate (n + 1) 0)

/-- `init_timeslots` (dynamics.py 581-610).  `np.ones(n)` with negative `n`
raises `ValueError` after the defaults were stored; the state is returned as it
is when the exception leaves the method. -/
def initTimeslots (s : TS K) : TS K × Except PyErr Unit :=
  let n := s.numTslots.getD defNumTslots
  let e := s.evoTime.getD defEvoTime
  match s.tau with
  | none =>
    if n < 0 then
      ({ s with numTslots := some n, evoTime := some e }, .error .valueError)
    else
      let tau := List.replicate n.toNat (e / (n : K))
      ({ numTslots := some n, evoTime := some e, tau := some tau,
         time := some (cumTime tau n.toNat), initialized := true }, .ok ())
  | some tau =>
    ({ numTslots := some tau.length, evoTime := some tau.sum, tau := some tau,
       time := some (cumTime tau tau.length), initialized := true }, .ok ())

/-- Getter prologue `if not self._timeslots_initialized: self.init_timeslots()`
(dynamics.py 546-547, 559-560, 572-573). -/
def ensureInit (s : TS K) : TS K × Except PyErr Unit :=
  if s.initialized then (s, .ok ()) else initTimeslots s

/-- `num_tslots` setter (dynamics.py 550-555). -/
def setNumTslots (s : TS K) (v : Option Int) : TS K × Except PyErr Unit :=
  let s := { s with numTslots := v }
  if s.initialized then initTimeslots { s with tau := none } else (s, .ok ())

/-- `evo_time` setter (dynamics.py 563-568). -/
def setEvoTime (s : TS K) (v : Option K) : TS K × Except PyErr Unit :=
  let s := { s with evoTime := v }
  if s.initialized then initTimeslots { s with tau := none } else (s, .ok ())

/-- `tau` setter (dynamics.py 576-579). -/
def setTau (s : TS K) (v : Option (List K)) : TS K × Except PyErr Unit :=
  initTimeslots { s with tau := v }

/-- `get_amp_times` (dynamics.py 997-998): `self.time[: self.num_tslots]`.
Python evaluates `self.time` before the `num_tslots` getter initialises the
timeslots, so on an uninitialised object `None[...]` raises `TypeError`.
(Only non-negative `num_tslots` is modelled in the slice.) -/
def getAmpTimes (s : TS K) : TS K × Except PyErr (List K) :=
  let time := s.time
  match ensureInit s with
  | (s, .error e) => (s, .error e)
  | (s, .ok ()) =>
    match time with
    | none => (s, .error .typeError)
    | some t => (s, .ok (t.take (s.numTslots.getD 0).toNat))

/-- The operations a user can perform on the timeslot attributes. -/
inductive Op (K : Type*) where
  | setNum (v : Option Int)
  | setEvo (v : Option K)
  | setTau (v : Option (List K))
  | readNum
  | readEvo
  | readTau
  | initTslots
  | ampTimes

/-- Effect of one operation on the object (its exception, if any, aside). -/
def step (s : TS K) : Op K → TS K
  | .setNum v => (setNumTslots s v).1
  | .setEvo v => (setEvoTime s v).1
  | .setTau v => (setTau s v).1
  | .readNum => (ensureInit s).1
  | .readEvo => (ensureInit s).1
  | .readTau => (ensureInit s).1
  | .initTslots => (initTimeslots s).1
  | .ampTimes => (getAmpTimes s).1

/-- The object after a history of operations. -/
def run (ops : List (Op K)) : TS K := ops.foldl step TS.fresh

/-- Value of the `num_tslots` property (dynamics.py 545-548). -/
def readNum (s : TS K) : Option Int := (ensureInit s).1.numTslots
/-- Value of the `evo_time` property (dynamics.py 558-561). -/
def readEvo (s : TS K) : Option K := (ensureInit s).1.evoTime
/-- Value of the `tau` property (dynamics.py 571-574). -/
def readTau (s : TS K) : Option (List K) := (ensureInit s).1.tau
/-- Value of the `time` attribute once one of the properties was read. -/
def readTime (s : TS K) : Option (List K) := (ensureInit s).1.time

end QTrl.Timeslots
