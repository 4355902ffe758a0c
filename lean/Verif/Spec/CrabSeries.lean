import Mathlib.Analysis.SpecialFunctions.Trigonometric.Basic
import Verif.Model.Crab

/-
The CRAB pulse as a function of time, as documented (pulsegen.py 967-990, 1233-1248).
-/

namespace QTrl.Spec

open QTrl.Pulse

/-- A truncated Fourier series with amplitudes `A`, `B` and angular frequencies `w`. -/
noncomputable def fourier (n : ℕ) (A B w : ℕ → ℝ) (t : ℝ) : ℝ :=
  ∑ i ∈ Finset.range n, (A i * Real.sin (w i * t) + B i * Real.cos (w i * t))

/-- The guess pulse modulated by the series `s`, or added to it. -/
def guessed (action : Option String) (guess : Option (List ℝ)) (k : ℕ) (s : ℝ) : ℝ :=
  match guess with
  | none => s
  | some q => if action.map pyUpper = some "MODULATE" then (1 + s) * q.getD k 0 else s + q.getD k 0

/-- The pulse multiplied by the ramping pulse, if there is one. -/
def ramped (ramp : Option (List ℝ)) (k : ℕ) (x : ℝ) : ℝ :=
  match ramp with
  | none => x
  | some q => x * q.getD k 0

/-- How many coefficients there are for each basis function: the argument, else the attribute,
else (zero counting as not given) as many as the dimension of the system suggests, else four. -/
def CoeffCount (arg attr dim : Option ℕ) (n : ℕ) : Prop :=
  let given := fun o : Option ℕ => o.getD 0 ≠ 0
  (given arg → arg = some n) ∧ (¬ given arg → given attr → attr = some n) ∧
    (¬ given arg → ¬ given attr →
      (∀ d, dim = some d → (d ≤ 3 → n = 2) ∧ (3 < d → n + 1 = d)) ∧ (dim = none → n = 4))

/-- The squashing of an amplitude into the bounds. -/
noncomputable def squash (lb ub : Option ℝ) (x : ℝ) : ℝ :=
  open Classical in
  match lb, ub with
  | none, none => x
  | some l, some u => (u + l) / 2 + (u - l) / 2 * Real.tanh x
  | none, some u => if x ≤ 0 then x else u * Real.tanh x
  | some l, none => if 0 ≤ x then x else -l * Real.tanh x

/-- The range of a guess pulse: zero without one, and otherwise the least number that no amplitude
and no difference of two amplitudes exceeds. -/
def GuessRange (q : Option (List ℝ)) (r : ℝ) : Prop :=
  (q = none → r = 0) ∧
    ∀ l, q = some l → IsLeast {s | (∀ x ∈ l, x ≤ s) ∧ ∀ x ∈ l, ∀ y ∈ l, x - y ≤ s} r

/-- The squashing of an amplitude with one bound on the far side of zero, an upper one or a lower
one: amplitudes up to `|s|` away from the bound are kept. -/
noncomputable def farSquash (upper : Bool) (b s x : ℝ) : ℝ :=
  open Classical in
  if upper then (if x ≤ b - |s| then x else b - |s| + s * Real.tanh x)
  else (if b + |s| ≤ x then x else b + |s| + s * Real.tanh x)

end QTrl.Spec
