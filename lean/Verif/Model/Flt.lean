import Verif.Model.Basic
import Mathlib.Analysis.SpecialFunctions.Exp

/-
Floating point values with infinities and nan, for the code whose behaviour depends on
them.  Simplification: the finite values are the real numbers with exact arithmetic, and
there is a single (positive) zero.
-/

namespace QTrl

/-- A numpy float64 scalar or array element. -/
inductive Flt where
  | fin (r : ℝ)
  | inf (neg : Bool)
  | nan

namespace Flt

open Classical in
/-- `a + b` -/
noncomputable def add : Flt → Flt → Flt
  | fin a, fin b => fin (a + b)
  | fin _, inf s => inf s
  | inf s, fin _ => inf s
  | inf s, inf t => if s = t then inf s else nan
  | nan, _ => nan
  | _, nan => nan

/-- `-a` -/
noncomputable def neg : Flt → Flt
  | fin a => fin (-a)
  | inf s => inf (!s)
  | nan => nan

/-- `a - b` -/
noncomputable def sub (a b : Flt) : Flt := a.add b.neg

open Classical in
/-- `a * b` -/
noncomputable def mul : Flt → Flt → Flt
  | fin a, fin b => fin (a * b)
  | fin a, inf s => if a = 0 then nan else inf (xor s (decide (a < 0)))
  | inf s, fin a => if a = 0 then nan else inf (xor s (decide (a < 0)))
  | inf s, inf t => inf (xor s t)
  | nan, _ => nan
  | _, nan => nan

open Classical in
/-- `a / b` (numpy: division by zero gives an infinity or nan and a warning). -/
noncomputable def div : Flt → Flt → Flt
  | fin a, fin b =>
      if b = 0 then (if a = 0 then nan else inf (decide (a < 0))) else fin (a / b)
  | fin _, inf _ => fin 0
  | inf s, fin a => inf (xor s (decide (a < 0)))
  | inf _, inf _ => nan
  | nan, _ => nan
  | _, nan => nan

open Classical in
/-- `a < b` -/
noncomputable def lt : Flt → Flt → Bool
  | fin a, fin b => decide (a < b)
  | fin _, inf s => !s
  | inf s, fin _ => s
  | inf s, inf t => s && !t
  | nan, _ => false
  | _, nan => false

open Classical in
/-- `a <= b` -/
noncomputable def le : Flt → Flt → Bool
  | fin a, fin b => decide (a ≤ b)
  | fin _, inf s => !s
  | inf s, fin _ => s
  | inf s, inf t => s || !t
  | nan, _ => false
  | _, nan => false

/-- `np.exp(a)` -/
noncomputable def exp : Flt → Flt
  | fin a => fin (Real.exp a)
  | inf true => fin 0
  | inf false => inf false
  | nan => nan

/-- `np.isinf` -/
def isInf : Flt → Bool
  | inf _ => true
  | _ => false

@[simp] theorem fin_add (a b : ℝ) : (fin a).add (fin b) = fin (a + b) := rfl
@[simp] theorem fin_neg (a : ℝ) : (fin a).neg = fin (-a) := rfl
@[simp] theorem fin_sub (a b : ℝ) : (fin a).sub (fin b) = fin (a - b) := by
  simp [sub, sub_eq_add_neg]
@[simp] theorem fin_mul (a b : ℝ) : (fin a).mul (fin b) = fin (a * b) := rfl
@[simp] theorem fin_lt (a b : ℝ) : (fin a).lt (fin b) = true ↔ a < b := by simp [lt]
@[simp] theorem fin_le (a b : ℝ) : (fin a).le (fin b) = true ↔ a ≤ b := by simp [le]
@[simp] theorem fin_exp (a : ℝ) : (fin a).exp = fin (Real.exp a) := rfl
theorem fin_div {a b : ℝ} (h : b ≠ 0) : (fin a).div (fin b) = fin (a / b) := by simp [div, h]

end Flt

/-- Python's built-in `max` of an array: keeps the first element not exceeded; an empty
sequence raises ValueError. -/
noncomputable def pyMax : List Flt → Except PyErr Flt
  | [] => .error .valueError
  | x :: xs => .ok (xs.foldl (fun m y => if m.lt y then y else m) x)

/-- Python's built-in `min` of an array. -/
noncomputable def pyMin : List Flt → Except PyErr Flt
  | [] => .error .valueError
  | x :: xs => .ok (xs.foldl (fun m y => if y.lt m then y else m) x)

end QTrl
