import Verif.Model.Stats
import Mathlib.Data.Rat.Floor

/-
Model of the printed report of the statistics (stats.py 171-270, 379-458).

Conventions
* The console is a list of lines; text is a list of characters.
* How a float becomes text in `"{}".format(x)` is a parameter.
* Times are exact rational numbers, as in Verif/Model/Stats.lean; `datetime.timedelta` takes the
  nearest whole number of microseconds, ties to even, and `format(x, ".2f")` the nearest
  hundredth, ties to even.  The sign of a zero is not modelled.
-/

namespace QTrl.Stats

abbrev Text := List Char

/-- What printing can raise. -/
inductive PrintErr where
  | overflowError
  deriving DecidableEq, Repr

/-- `"%d" % n` -/
def dec (n : Nat) : Text := Nat.toDigits 10 n

/-- `"%d" % n` for an integer -/
def decInt (n : Int) : Text := if n < 0 then '-' :: dec n.natAbs else dec n.natAbs

/-- `"%0wd" % n` -/
def padZero (w : Nat) (t : Text) : Text := List.replicate (w - t.length) '0' ++ t

/-- The nearest integer, ties to even. -/
def roundEven (q : Rat) : Int :=
  let f := ⌊q⌋
  if q - f < 1 / 2 then f
  else if 1 / 2 < q - f then f + 1
  else if f % 2 = 0 then f else f + 1

/-- `datetime.timedelta(seconds=t)`: days, seconds and microseconds; `OverflowError` for more than
999999999 days (standard library). -/
def timedelta (t : Rat) : Except PrintErr (Int × Nat × Nat) :=
  let us := roundEven (t * 1000000)
  let days := us / 86400000000
  let rest := (us % 86400000000).toNat
  if days < -999999999 ∨ 999999999 < days then .error .overflowError
  else .ok (days, rest / 1000000, rest % 1000000)

/-- `str(d)` for a `timedelta` (standard library): `[D day[s], ]H:MM:SS[.UUUUUU]`. -/
def strTimedelta (d : Int × Nat × Nat) : Text :=
  let mm := d.2.1 / 60
  let s := dec (mm / 60) ++ ':' :: padZero 2 (dec (mm % 60)) ++ ':' :: padZero 2 (dec (d.2.1 % 60))
  let s := if d.1 ≠ 0 then
      decInt d.1 ++ (if d.1.natAbs = 1 then " day, ".toList else " days, ".toList) ++ s
    else s
  if d.2.2 ≠ 0 then s ++ '.' :: padZero 6 (dec d.2.2) else s

/-- `"{:03.2f}".format(x)`: at least four characters, so that the width has no effect. -/
def fixed2 (q : Rat) : Text :=
  let h := (roundEven (|q| * 100)).toNat
  (if q < 0 then ['-'] else []) ++ dec (h / 100) ++ '.' :: padZero 2 (dec (h % 100))

/-- `_format_datetime` (stats.py 171-176). -/
def formatDatetime (t tot : Rat) : Except PrintErr Text :=
  match timedelta t with
  | .error e => .error e
  | .ok d =>
      if tot > 0 then .ok (strTimedelta d ++ " (".toList ++ fixed2 (100 * t / tot) ++ "%)".toList)
      else .ok (strTimedelta d)

/-- `"{}".format(x)` of a count; counts are whole numbers. -/
def showNum (fl : Val → Text) (n : Num) : Text :=
  if n.val.den = 1 then decInt n.val.num else fl (.num n.val)

/-- One printed line: a fixed text followed by a value. -/
def line (label : String) (value : Text) : Text := label.toList ++ value

/-- A `print(label + self._format_datetime(t, tot))`: the lines printed so far and the exception, if
one was raised. -/
def printTime (label : String) (t tot : Rat) (r : List Text × Option PrintErr) :
    List Text × Option PrintErr :=
  match r.2 with
  | some _ => r
  | none =>
      match formatDatetime t tot with
      | .error e => (r.1, some e)
      | .ok x => (r.1 ++ [line label x], none)

/-- Lines printed without exception. -/
def printAll (ls : List Text) (r : List Text × Option PrintErr) : List Text × Option PrintErr :=
  match r.2 with
  | some _ => r
  | none => (r.1 ++ ls, none)

/-- `report_timings` (stats.py 191-218). -/
def Base.reportTimings (s : Base) (r : List Text × Option PrintErr) : List Text × Option PrintErr :=
  let tot := s.wallOptim
  let r := printAll ["**** Timings (HH:MM:SS.US) ****".toList] r
  let r := printTime "Total wall time elapsed during optimisation: " tot 0 r
  let r := printTime "Wall time computing Hamiltonians: " s.wallDynGen tot r
  let r := printTime "Wall time computing propagators: " s.wallProp tot r
  let r := printTime "Wall time computing forward propagation: " s.wallFwd tot r
  let r := printTime "Wall time computing onward propagation: " s.wallOnwd tot r
  let r := printTime "Wall time computing gradient: " s.wallGrad tot r
  printAll [[]] r

/-- `report_func_calls` (stats.py 220-243). -/
def Base.funcCalls (fl : Val → Text) (s : Base) : List Text :=
  ["**** Iterations and function calls ****".toList,
    line "Number of iterations: " (showNum fl s.numIter),
    line "Number of fidelity function calls: " (dec s.numFidCalls),
    line "Number of times fidelity is computed: " (dec s.numFidComputes),
    line "Number of gradient function calls: " (dec s.numGradCalls),
    line "Number of times gradients are computed: " (dec s.numGradComputes),
    line "Number of times timeslot evolution is recomputed: " (dec s.numRecompute),
    []]

/-- `report_amp_updates` (stats.py 245-270). -/
def Base.ampUpdates (fl : Val → Text) (s : Base) : List Text :=
  ["**** Control amplitudes ****".toList,
    line "Number of control amplitude updates: " (showNum fl s.numUpdates),
    line "Mean number of updates per iteration: " (fl s.meanUpdates),
    line "Number of timeslot values changed: " (showNum fl s.numSlotChanges),
    line "Mean number of timeslot changes per update: " (fl s.meanSlotChanges),
    line "Number of amplitude values changed: " (showNum fl s.numAmpChanges),
    line "Mean number of amplitude changes per update: " (fl s.meanAmpChanges)]

/-- The first `print` of a report, three lines (stats.py 182-185, 384-387). -/
def heading : List Text :=
  [[], "------------------------------------".toList, "---- Control optimisation stats ----".toList]

/-- The last `print` of a report (stats.py 189, 394). -/
def ruler : List Text := ["------------------------------------".toList]

/-- `Stats.report` (stats.py 178-189): what is printed, and the exception, if one was raised. -/
def Base.report (fl : Val → Text) (s : Base) : List Text × Option PrintErr :=
  let r := printAll heading ([], none)
  let r := s.reportTimings r
  let r := printAll (s.funcCalls fl) r
  let r := printAll (s.ampUpdates fl) r
  printAll ruler r

/-- `report_dyn_gen_comps` (stats.py 396-426). -/
def DynStats.dynGenComps (fl : Val → Text) (name : String) (s : DynStats) : List Text :=
  [line ("**** " ++ name ++ " Computations ****") [],
    line ("Total number of " ++ name ++ " computations: ") (showNum fl s.numDynGen),
    line ("Mean number of " ++ name ++ " computations per update: ") (fl s.meanNumDynGen),
    line ("Mean wall time to compute " ++ name ++ "s: ") (fl s.meanWallDynGen ++ " s".toList),
    "**** Propagator Computations ****".toList,
    line "Total number of propagator computations: " (showNum fl s.numProp),
    line "Mean number of propagator computations per update: " (fl s.meanNumProp),
    line "Mean wall time to compute propagator " (fl s.meanWallProp ++ " s".toList)]

/-- `report_fwd_prop` (stats.py 428-442). -/
def DynStats.fwdProp (fl : Val → Text) (s : DynStats) : List Text :=
  ["**** Forward Propagation ****".toList,
    line "Total number of forward propagation step computations: " (showNum fl s.numFwd),
    line "Mean number of forward propagation step computations per update: " (fl s.meanNumFwd),
    line "Mean wall time to compute forward propagation " (fl s.meanWallFwd ++ " s".toList)]

/-- `report_onwd_prop` (stats.py 444-458). -/
def DynStats.onwdProp (fl : Val → Text) (s : DynStats) : List Text :=
  ["**** Onward Propagation ****".toList,
    line "Total number of onward propagation step computations: " (showNum fl s.numOnwd),
    line "Mean number of onward propagation step computations per update: " (fl s.meanNumOnwd),
    line "Mean wall time to compute onward propagation " (fl s.meanWallOnwd ++ " s".toList)]

/-- `StatsDynTsUpdate.report` (stats.py 379-394); `name` is `dyn_gen_name`. -/
def DynStats.report (fl : Val → Text) (name : String) (s : DynStats) : List Text × Option PrintErr :=
  let r := printAll heading ([], none)
  let r := s.base.reportTimings r
  let r := printAll (s.base.funcCalls fl) r
  let r := printAll (s.base.ampUpdates fl) r
  let r := printAll (s.dynGenComps fl name) r
  let r := printAll (s.fwdProp fl) r
  let r := printAll (s.onwdProp fl) r
  printAll ruler r

end QTrl.Stats
