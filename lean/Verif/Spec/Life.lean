import Verif.Model.Life
import Verif.Spec.Evolution

/-
C82: what calls should return, given the system and the array of amplitudes in place.
-/

namespace QTrl.Spec

open QTrl.Dyn

variable {d m D : Type} [Fintype d] [DecidableEq d] [Fintype m] [DecidableEq m]

/-- Every axis has the same length in both arrays, or length one in one of them. -/
def Conform (a b : Arr) : Prop :=
  (a.rows = b.rows ∨ a.rows = 1 ∨ b.rows = 1) ∧ (a.cols = b.cols ∨ a.cols = 1 ∨ b.cols = 1)

/-- Some entry of one array differs from an entry of the other that numpy compares it with. -/
def Differ (a b : Arr) : Prop :=
  ∃ k k' j j', k < a.rows ∧ k' < b.rows ∧ j < a.cols ∧ j' < b.cols ∧
    (a.rows = b.rows → k = k') ∧ (a.cols = b.cols → j = j') ∧ a.val k j ≠ b.val k' j'

/-- There is an amplitude for every slot and control. -/
def Covers (S : Sys d m D) (a : Arr) : Prop := S.nTs ≤ a.rows ∧ S.nCtrls ≤ a.cols

open Classical in
/-- The array in place after an update. -/
noncomputable def placed (a b : Arr) : Arr := if Conform a b ∧ Differ a b then b else a

/-- System and array in place after a call that is no failing initialisation. -/
noncomputable def inPlace (S : Sys d m D) (a : Arr) : Call d m D → Sys d m D × Arr
  | .update b => (S, placed a b)
  | .init S' _ b _ => (S', b)
  | _ => (S, a)

open Classical in
/-- What a call returns when `S` and `a` are in place. -/
noncomputable def reply (S : Sys d m D) (a : Arr) : Call d m D → Out
  | .update b => if Conform a b then .none else .error .valueError
  | .init _ _ _ _ => .none
  | .evolution => if Covers S a then .none else .error .indexError
  | .error => if Covers S a then .ofReal (fidErr S a.val) else .error .indexError
  | .gradient => if Covers S a then .ofArray (gradient S a.val) else .error .indexError

/-- The replies to a history. -/
noncomputable def replies (S : Sys d m D) (a : Arr) : List (Call d m D) → List Out
  | [] => []
  | c :: l => reply S a c :: replies (inPlace S a c).1 (inPlace S a c).2 l

/-- System and array in place after calls none of which is a failing initialisation. -/
noncomputable def atEnd (S : Sys d m D) (a : Arr) : List (Call d m D) → Sys d m D × Arr
  | [] => (S, a)
  | c :: l => atEnd (inPlace S a c).1 (inPlace S a c).2 l

/-- The initialisations among the calls succeed, and their systems have slots and controls. -/
def Succeed : List (Call d m D) → Prop
  | [] => True
  | .init S _ _ stop :: l => Valid S ∧ stop = .nowhere ∧ Succeed l
  | _ :: l => Succeed l

end QTrl.Spec
