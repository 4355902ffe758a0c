import Verif.Model.Dump
import Mathlib.Data.List.Basic
import Mathlib.Tactic.Ring

/-
Helper lemmas for the dump properties: lines, histories, files.
-/

namespace QTrl.Dump

variable {R G A X : Type}

/-! ### Lines -/

theorem joinLoop_succ (sep : Text) (cs : List Text) (n : Nat) (line : Text) :
    joinLoop sep (n + 1) cs line = line ++ (cs.map (sep ++ ·)).flatten := by
  induction cs generalizing n line with
  | nil => simp [joinLoop]
  | cons c cs ih =>
    rw [joinLoop, ih]
    simp

theorem joinLoop_zero (sep : Text) (c : Text) (cs : List Text) :
    joinLoop sep 0 (c :: cs) [] = c ++ (cs.map (sep ++ ·)).flatten := by
  simp only [joinLoop, lt_irrefl, if_false, List.nil_append]
  rw [joinLoop_succ]

theorem joinText_cons (sep : Text) (c : Text) (cs : List Text) :
    joinText sep (c :: cs) = c ++ (cs.map (sep ++ ·)).flatten := by
  induction cs generalizing c with
  | nil => simp [joinText]
  | cons d ds ih =>
    rw [joinText, ih]
    simp
    exact List.cons_ne_nil _ _

theorem joinLoop_eq (sep : Text) (cs : List Text) : joinLoop sep 0 cs [] = joinText sep cs := by
  cases cs with
  | nil => rfl
  | cons c cs => rw [joinLoop_zero, joinText_cons]

/-- Where cell `i` starts. -/
def cellStart (sep : Text) (cs : List Text) (i : Nat) : Nat :=
  ((cs.take i).map List.length).sum + i * sep.length

theorem cell_at_tail (sep : Text) (cs : List Text) (i : Nat) (c : Text) (h : cs[i]? = some c)
    (rest : Text) :
    (((cs.map (sep ++ ·)).flatten ++ rest).drop
      (((cs.take i).map List.length).sum + (i + 1) * sep.length)).take c.length = c := by
  induction cs generalizing i with
  | nil => simp at h
  | cons d ds ih =>
    cases i with
    | zero =>
      simp only [List.getElem?_cons_zero, Option.some.injEq] at h
      subst h
      simp
    | succ i =>
      have h' : ds[i]? = some c := by simpa using h
      have e := ih i h'
      have e2 : ((List.map List.length (List.take (i + 1) (d :: ds))).sum + (i + 1 + 1) * sep.length)
          = (sep ++ d).length + (((ds.take i).map List.length).sum + (i + 1) * sep.length) := by
        simp
        ring
      rw [e2]
      rw [show ((List.map (fun x => sep ++ x) (d :: ds)).flatten ++ rest)
        = (sep ++ d) ++ ((List.map (fun x => sep ++ x) ds).flatten ++ rest) by simp]
      rw [List.drop_append]
      rw [List.drop_eq_nil_of_le (by omega)]
      simpa using e

/-- The cells of a joined line are found at their places. -/
theorem cell_at (sep : Text) (cs : List Text) (i : Nat) (c : Text) (h : cs[i]? = some c) :
    ((joinText sep cs).drop (cellStart sep cs i)).take c.length = c := by
  cases cs with
  | nil => simp at h
  | cons d ds =>
    rw [joinText_cons]
    cases i with
    | zero =>
      simp only [List.getElem?_cons_zero, Option.some.injEq] at h
      subst h
      simp [cellStart]
    | succ i =>
      have h' : ds[i]? = some c := by simpa using h
      have e := cell_at_tail sep ds i c h' []
      rw [List.append_nil] at e
      have e2 : cellStart sep (d :: ds) (i + 1)
          = d.length + (((ds.take i).map List.length).sum + (i + 1) * sep.length) := by
        simp [cellStart]
        ring
      rw [e2, List.drop_append, List.drop_eq_nil_of_le (by omega)]
      simpa using e

theorem joinText_length (sep : Text) (cs : List Text) (h : cs ≠ []) :
    (joinText sep cs).length = (cs.map List.length).sum + (cs.length - 1) * sep.length := by
  cases cs with
  | nil => exact absurd rfl h
  | cons c cs =>
    rw [joinText_cons]
    simp only [List.length_append, List.length_flatten, List.map_map, List.map_cons,
      List.sum_cons, List.length_cons, Nat.add_sub_cancel]
    have : ∀ l : List Text, (l.map (List.length ∘ fun x => sep ++ x)).sum
        = (l.map List.length).sum + l.length * sep.length := by
      intro l
      induction l with
      | nil => simp
      | cons a l ih =>
        simp only [List.map_cons, List.sum_cons, ih, Function.comp, List.length_append,
          List.length_cons]
        ring
    rw [this]
    ring

theorem padRight_length (w : Nat) (t : Text) (h : t.length ≤ w) : (padRight w t).length = w := by
  simp [padRight]; omega

theorem padLeft_length (w : Nat) (t : Text) (h : t.length ≤ w) : (padLeft w t).length = w := by
  simp [padLeft]; omega

/-! ### Files -/

theorem writeFile_same (fs : Files) (p : Path) (ls : List Text) :
    writeFile fs p ls p = some ls := by simp [writeFile]

theorem writeFile_other (fs : Files) (p q : Path) (ls : List Text) (h : q ≠ p) :
    writeFile fs p ls q = fs q := by simp [writeFile, h]

theorem appendFile_same (fs : Files) (p : Path) (ls : List Text) :
    appendFile fs p ls p = some ((fs p).getD [] ++ ls) := by simp [appendFile]

theorem appendFile_other (fs : Files) (p q : Path) (ls : List Text) (h : q ≠ p) :
    appendFile fs p ls q = fs q := by simp [appendFile, h]

end QTrl.Dump
