import Verif.Model.SaveAmps

/-
When a file holds a pulse: one line for each slot with its start time and its amplitudes, up to
the precision of six digits.
-/

namespace QTrl.Save

/-- A number read back from the file agrees to about five digits and a half. -/
def Near (y x : ℝ) : Prop := |y - x| ≤ 5 / 1000000 * |x|

/-- A rounding to a nearest integer, whatever it does with ties. -/
def Nearest (rnd : ℝ → ℤ) : Prop := ∀ x, |(rnd x : ℝ) - x| ≤ 1 / 2

/-- The file holds the rows, entry by entry. -/
def Holds (f : List (List ℝ)) (rows : List (List ℝ)) : Prop :=
  f.length = rows.length ∧ ∀ k, (h : k < f.length) → (h' : k < rows.length) →
    List.Forall₂ Near (f[k]) (rows[k])

/-- Line `k` is the start of slot `k` followed by the amplitudes in it. -/
def HoldsPulse (f : List (List ℝ)) (starts : List ℝ) (amps : List (List ℝ)) : Prop :=
  f.length = amps.length ∧ starts.length = amps.length ∧
    ∀ k, (h : k < f.length) → (h1 : k < starts.length) → (h2 : k < amps.length) →
      List.Forall₂ Near (f[k]) (starts[k] :: amps[k])

/-- The dynamics object is initialised: boundaries of all slots, one row for each slot. -/
structure Dyn.Ready (d : Dyn) : Prop where
  init : d.ctrlsInit = true
  time : d.time.length = d.numTslots + 1
  rows : d.ctrlAmps.rows.length = d.numTslots

end QTrl.Save
