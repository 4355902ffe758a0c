import Verif.Model.ViewLists

/-
Vocabulary for the claims on the public lists.
-/

namespace QTrl.ViewList

variable {V : Type}

/-- The shape of an operator. -/
def Arr.shape (a : Arr V) : Nat × Nat := (a.rows, a.cols)

/-- Operators of the shapes a computation gives them. -/
structure Fits (c : Cfg V) (x : Computed V) : Prop where
  dynGen : ∀ a ∈ x.dynGen, a.shape = c.dynShape
  prop : ∀ a ∈ x.prop, a.shape = c.dynShape
  fwd : ∀ a ∈ x.fwd, a.shape = c.sysShape
  onwd : ∀ a ∈ x.onwd, a.shape = c.dynShape
  onto : ∀ a ∈ x.onto, a.shape = c.sysShape.swap
  nOnto : x.onto.length = c.n

/-- Operations that only look. -/
def Op.looks : Op V → Bool
  | .init => false
  | .compute _ => false
  | _ => true

/-- The operation does not change the target. -/
def Op.keepsTarget : Op V → Bool
  | .setTarget _ => false
  | _ => true

/-- Computations fill the whole list. -/
def Op.Fills (c : Cfg V) : Op V → Prop
  | .compute x => x.onto.length = c.n
  | _ => True

end QTrl.ViewList
