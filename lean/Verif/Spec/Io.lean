import Verif.Model.Io

/-
File systems, and what a quiet one is.
-/

namespace QTrl.Spec.Io

open QTrl.Io

/-- The root is a directory and everything is in one. -/
def WellFormed (fs : FS) : Prop :=
  fs [] = some .dir ∧ ∀ c q, fs (c :: q) ≠ none → fs q = some .dir

/-- No other process interferes. -/
def Quiet (os : OS) : Prop := ∀ fs, os.env fs = fs

/-- Making a name absolute does not change where it leads. -/
structure Names (os : OS) : Prop where
  abspath_abs : ∀ n : String, isabs (os.abspath n) = true
  abspath_loc : ∀ n : String, os.loc (os.abspath n) = os.loc n

/-- Nothing that was there has changed; what is new are directories on the way to the place. -/
def OnlyAdds (fs fs' : FS) (l : Loc) : Prop :=
  ∀ q, fs' q = fs q ∨ (fs q = none ∧ fs' q = some .dir ∧ q <:+ l)

/-- The directory to use for a value of `dump_dir`. -/
def tried (v : Option String) : String :=
  match v with
  | none => defaultDir
  | some n => if n = "" then defaultDir else n

end QTrl.Spec.Io
