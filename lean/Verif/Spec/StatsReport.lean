import Verif.Model.StatsReport

/-
What a reader gets from a printed report.
-/

namespace QTrl.Spec.StatsReport

open QTrl.Stats

/-- Text before and after the first `c`. -/
def cut (c : Char) : Text → Text × Option Text
  | [] => ([], none)
  | x :: xs => if x = c then ([], some xs) else ((x :: (cut c xs).1), (cut c xs).2)

/-- A number in decimal digits. -/
def readNat (t : Text) : Option Nat :=
  if t ≠ [] ∧ t.all Char.isDigit then some (t.foldl (fun n c => 10 * n + (c.toNat - '0'.toNat)) 0)
  else none

/-- An integer in decimal digits. -/
def readInt : Text → Option Int
  | '-' :: t => (readNat t).map fun n => -Int.ofNat n
  | t => (readNat t).map Int.ofNat

/-- Microseconds of a time `H:MM:SS` or `H:MM:SS.UUUUUU`. -/
def readClock (t : Text) : Option Nat :=
  match cut ':' t with
  | (h, some r) =>
      match cut ':' r with
      | (m, some r) =>
          match readNat h, readNat m, readNat (cut '.' r).1 with
          | some h, some m, some s =>
              let secs := (h * 60 + m) * 60 + s
              match (cut '.' r).2 with
              | none => some (secs * 1000000)
              | some f => if f.length = 6 then (readNat f).map fun u => secs * 1000000 + u else none
          | _, _, _ => none
      | _ => none
  | _ => none

/-- Microseconds of a duration: a time, or a number of days and a time. -/
def readDuration (t : Text) : Option Int :=
  match cut ',' t with
  | (c, none) => (readClock c).map Int.ofNat
  | (d, some c) =>
      match readInt (cut ' ' d).1, readClock (c.drop 1) with
      | some n, some u => some (n * 86400000000 + u)
      | _, _ => none

/-- The text of a duration of the announced form `HH:MM:SS.US`. -/
def Announced (t : Text) : Prop :=
  ∃ h m s u : Text, t = h ++ ':' :: m ++ ':' :: s ++ '.' :: u ∧ h.length = 2 ∧ m.length = 2 ∧
    s.length = 2 ∧ ':' ∉ h ∧ ':' ∉ m ∧ '.' ∉ s

/-- A decimal number with hundredths, without sign. -/
def readUnsigned (t : Text) : Option Rat :=
  match cut '.' t with
  | (a, some b) =>
      match readNat a, readNat b with
      | some a, some b => if b < 100 then some (a + b / 100) else none
      | _, _ => none
  | _ => none

/-- A decimal number with hundredths. -/
def readHundredths : Text → Option Rat
  | '-' :: t => (readUnsigned t).map fun q => -q
  | t => readUnsigned t

/-- The duration part of a printed time, and the text in parentheses. -/
def parts (t : Text) : Text × Option Text :=
  match cut '(' t with
  | (a, none) => (a, none)
  | (a, some b) => (a.dropLast, some (cut '%' b).1)

/-- The report shows the value under the label: exactly one line begins with the label, and what
follows is the value. -/
def Shows (out : List Text) (label : String) (value : Text) : Prop :=
  out.filter (label.toList.isPrefixOf ·) = [label.toList ++ value]

/-- A printed time shows a time and its share. -/
structure ShowsTime (t tot : Rat) (x : Text) : Prop where
  /-- the duration, to the nearest microsecond -/
  time : ∃ us : Int, readDuration (parts x).1 = some us ∧ |t - us / 1000000| ≤ 1 / 2000000
  /-- a percentage if and only if there is a total -/
  share : (parts x).2.isSome ↔ 0 < tot
  /-- the percentage, to the nearest hundredth -/
  percent : ∀ p, (parts x).2 = some p →
    ∃ q, readHundredths p = some q ∧ |100 * t / tot - q| ≤ 1 / 200

/-- A time `timedelta` can represent. -/
def InRange (t : Rat) : Prop := 0 ≤ t ∧ t ≤ 86399999999999

/-- The times of the statistics under the text of the report; the total has no share. -/
def times (s : Base) : List (String × Rat × Rat) :=
  [("Total wall time elapsed during optimisation: ", s.wallOptim, 0),
    ("Wall time computing Hamiltonians: ", s.wallDynGen, s.wallOptim),
    ("Wall time computing propagators: ", s.wallProp, s.wallOptim),
    ("Wall time computing forward propagation: ", s.wallFwd, s.wallOptim),
    ("Wall time computing onward propagation: ", s.wallOnwd, s.wallOptim),
    ("Wall time computing gradient: ", s.wallGrad, s.wallOptim)]

/-- The numbers of calls and computations. -/
def calls (s : Base) : List (String × Nat) :=
  [("Number of fidelity function calls: ", s.numFidCalls),
    ("Number of times fidelity is computed: ", s.numFidComputes),
    ("Number of gradient function calls: ", s.numGradCalls),
    ("Number of times gradients are computed: ", s.numGradComputes),
    ("Number of times timeslot evolution is recomputed: ", s.numRecompute)]

/-- The other counts. -/
def counts (s : Base) : List (String × Num) :=
  [("Number of iterations: ", s.numIter),
    ("Number of control amplitude updates: ", s.numUpdates),
    ("Number of timeslot values changed: ", s.numSlotChanges),
    ("Number of amplitude values changed: ", s.numAmpChanges)]

/-- The means. -/
def means (s : Base) : List (String × Val) :=
  [("Mean number of updates per iteration: ", s.meanUpdates),
    ("Mean number of timeslot changes per update: ", s.meanSlotChanges),
    ("Mean number of amplitude changes per update: ", s.meanAmpChanges)]

/-- A report shows all statistics. -/
structure ShowsAll (fl : Val → Text) (s : Base) (out : List Text) : Prop where
  times : ∀ p ∈ times s, ∃ x, Shows out p.1 x ∧ ShowsTime p.2.1 p.2.2 x
  calls : ∀ p ∈ calls s, ∃ x, Shows out p.1 x ∧ readNat x = some p.2
  counts : ∀ p ∈ counts s, ∀ k : Int, p.2.val = k → ∃ x, Shows out p.1 x ∧ readInt x = some k
  means : ∀ p ∈ means s, Shows out p.1 (fl p.2)

/-- The further counts of the dynamic update mode. -/
def dynCounts (name : String) (s : DynStats) : List (String × Num) :=
  [("Total number of " ++ name ++ " computations: ", s.numDynGen),
    ("Total number of propagator computations: ", s.numProp),
    ("Total number of forward propagation step computations: ", s.numFwd),
    ("Total number of onward propagation step computations: ", s.numOnwd)]

/-- The further mean numbers of the dynamic update mode. -/
def dynMeans (name : String) (s : DynStats) : List (String × Val) :=
  [("Mean number of " ++ name ++ " computations per update: ", s.meanNumDynGen),
    ("Mean number of propagator computations per update: ", s.meanNumProp),
    ("Mean number of forward propagation step computations per update: ", s.meanNumFwd),
    ("Mean number of onward propagation step computations per update: ", s.meanNumOnwd)]

/-- The further mean times of the dynamic update mode, in seconds. -/
def dynMeanTimes (name : String) (s : DynStats) : List (String × Val) :=
  [("Mean wall time to compute " ++ name ++ "s: ", s.meanWallDynGen),
    ("Mean wall time to compute propagator ", s.meanWallProp),
    ("Mean wall time to compute forward propagation ", s.meanWallFwd),
    ("Mean wall time to compute onward propagation ", s.meanWallOnwd)]

end QTrl.Spec.StatsReport
