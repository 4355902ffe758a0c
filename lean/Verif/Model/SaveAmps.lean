import Verif.Model.Basic
import Mathlib.Data.Int.Log
import Mathlib.Data.Real.Basic
import Mathlib.Algebra.Order.Archimedean.Real.Basic

/-
Saving amplitudes to a text file: `Dynamics.save_amps` (dynamics.py 1000-1061) and its use in
`optimize_pulse` (pulseoptim.py 505-522).

Simplifications: numbers are real; a file is the table of the numbers written in it.  The rounding
of the format to the nearest decimal is a parameter, because of ties.  An array is the list of its
rows; the number of columns is kept apart, for arrays without rows.
-/

namespace QTrl.Save

/-- A two-dimensional array. -/
structure Arr where
  rows : List (List ℝ)
  cols : ℕ

/-- The `amps` argument: `None`, an array with two dimensions, one with one. -/
inductive AmpsArg where
  | none
  | two (a : Arr)
  | one (l : List ℝ)

/-- The `times` argument: `None`, a string, a list, a number. -/
inductive TimesArg where
  | none
  | str (s : String)
  | list (l : List ℝ)
  | num (x : ℝ)

/-- The attributes used. -/
structure Dyn where
  ctrlsInit : Bool
  ctrlAmps : Arr
  time : List ℝ
  numTslots : ℕ
  defName : String

/-- Files: their tables, and whether a name can be written to. -/
structure Files where
  content : String → Option (List (List ℝ))
  writable : String → Bool

/-- A file with a new table. -/
def Files.write (fs : Files) (n : String) (t : List (List ℝ)) : Files where
  content := fun m => if m = n then some t else fs.content m
  writable := fs.writable

/-- `"%.6g" % x` read back: six significant digits (dynamics.py 1052). -/
noncomputable def fmt (rnd : ℝ → ℤ) (x : ℝ) : ℝ :=
  if x = 0 then 0
  else rnd (x / 10 ^ (Int.log 10 |x| - 5)) * 10 ^ (Int.log 10 |x| - 5)

/-- `get_amp_times()` (dynamics.py 997-998). -/
def Dyn.ampTimes (d : Dyn) : List ℝ := d.time.take d.numTslots

/-- `times` after the checks; `none` if times are not included (dynamics.py 1031-1042).  An unknown
string is only warned about. -/
def pickTimes (d : Dyn) : TimesArg → Option TimesArg
  | .none => some (.list d.ampTimes)
  | .str s => if pyLower s = "exclude" then Option.none else some (.list d.ampTimes)
  | .list l => some (.list l)
  | .num x => some (.num x)

/-- `data[:, 0] = times` for `n` rows: the column, `none` is a ValueError. -/
def column (n : ℕ) : TimesArg → Option (List ℝ)
  | .list [x] => some (List.replicate n x)
  | .list l => if l.length = n then some l else Option.none
  | .num x => some (List.replicate n x)
  | _ => Option.none

/-- The data; `none` is an exception (dynamics.py 1045-1051).  `shp[1]` does not exist for an array
with one dimension, which `savetxt` writes as a column. -/
def table (d : Dyn) (times : Option TimesArg) (amps : AmpsArg) : Option (List (List ℝ)) :=
  match amps, times with
  | .none, some t => (column d.ctrlAmps.rows.length t).map fun c =>
      List.zipWith List.cons c d.ctrlAmps.rows
  | .none, Option.none => some d.ctrlAmps.rows
  | .two a, some t => (column a.rows.length t).map fun c => List.zipWith List.cons c a.rows
  | .two a, Option.none => some a.rows
  | .one _, some _ => Option.none
  | .one l, Option.none => some (l.map fun x => [x])

/-- `save_amps(file_name, times, amps)` (dynamics.py 1000-1061): an exception, or the files
afterwards and whether an error was logged. -/
noncomputable def save (rnd : ℝ → ℤ) (d : Dyn) (fs : Files) (name : Option String)
    (times : TimesArg) (amps : AmpsArg) : Except PyErr (Files × Bool) :=
  if d.ctrlsInit then
    let n := name.getD d.defName
    match table d (pickTimes d times) amps with
    | Option.none => .ok (fs, true)
    | some t =>
        if fs.writable n then
          .ok (fs.write n (t.map fun r => r.map (fmt rnd)), false)
        else .ok (fs, true)
  else .error .usageError

/-- The files written by `optimize_pulse` with the optimisation given by the amplitudes it leaves
(pulseoptim.py 483, 505-522). -/
noncomputable def aroundRun (rnd : ℝ → ℤ) (d : Dyn) (fs : Files) (ext : Option String)
    (final : Arr) : Except PyErr Files :=
  match ext with
  | Option.none => .ok fs
  | some e =>
      match save rnd d fs (some ("ctrl_amps_initial_" ++ e)) .none .none with
      | .error x => .error x
      | .ok (fs1, _) =>
          match save rnd { d with ctrlAmps := final } fs1 (some ("ctrl_amps_final_" ++ e))
            .none .none with
          | .error x => .error x
          | .ok (fs2, _) => .ok fs2

end QTrl.Save
