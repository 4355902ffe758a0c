import Verif.Model.Flt
import Mathlib.Analysis.SpecialFunctions.Trigonometric.Basic

/-
What the pulse generators are supposed to produce, stated without reference to the
generators.
-/

namespace QTrl.Spec

/-- The amplitude is a finite number respecting the bounds that are set; an infinite bound
(or no bound) does not restrict it. -/
def AmpWithin (lb ub : Option Flt) (y : Flt) : Prop :=
  ∃ r : ℝ, y = .fin r ∧ (∀ l : ℝ, lb = some (.fin l) → l ≤ r) ∧ (∀ u : ℝ, ub = some (.fin u) → r ≤ u)

/-- The bounds are numbers or infinities and do not contradict each other. -/
def GoodBounds (lb ub : Option Flt) : Prop :=
  lb ≠ some .nan ∧ ub ≠ some .nan ∧
    ∀ l u : ℝ, lb = some (.fin l) → ub = some (.fin u) → l ≤ u

/-- A bound that is absent or a finite number. -/
def FiniteBound (b : Option Flt) : Prop := ∀ v, b = some v → ∃ r : ℝ, v = .fin r

/-- A square wave of the phase: `+1` in the first half of every cycle, `-1` in the second. -/
def IsSquareWave (w : ℝ → ℝ) : Prop :=
  ∀ (n : ℤ) (u : ℝ), (0 ≤ u → u < 1 / 2 → w (2 * Real.pi * (n + u)) = 1) ∧
    (1 / 2 ≤ u → u < 1 → w (2 * Real.pi * (n + u)) = -1)

/-- A saw-tooth wave: rises linearly from `-1` to `1` through `0` at every full cycle, with
a jump half way. -/
def IsSawWave (w : ℝ → ℝ) : Prop :=
  ∀ (n : ℤ) (u : ℝ), -1 / 2 ≤ u → u < 1 / 2 → w (2 * Real.pi * (n + u)) = 2 * u

/-- A triangular wave in phase with the sine: rises linearly from `-1` to `1` between the
fractions `-1/4` and `1/4` of the cycle and falls linearly back until `3/4`. -/
def IsTriangleWave (w : ℝ → ℝ) : Prop :=
  ∀ (n : ℤ) (u : ℝ), (-1 / 4 ≤ u → u ≤ 1 / 4 → w (2 * Real.pi * (n + u)) = 4 * u) ∧
    (1 / 4 ≤ u → u ≤ 3 / 4 → w (2 * Real.pi * (n + u)) = 2 - 4 * u)

/-- Start time of slot `k`. -/
def slotStart (tau : List ℝ) (k : ℕ) : ℝ := (tau.take k).sum

/-- The frequency that the number of waves in the pulse, the wavelength and the frequency
stand for, in the documented order of precedence. -/
noncomputable def effFreq (pulseTime : ℝ) : Option ℝ → Option ℝ → Option ℝ → Option ℝ
  | some nw, _, _ => some (nw / pulseTime)
  | none, some w, _ => some (1 / w)
  | none, none, f => f

end QTrl.Spec
