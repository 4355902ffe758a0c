import Verif.Spec.DumpPlace
import Verif.Proofs.Io
import Std.Data.String.ToNat

/-
What the settings and uses of a dump do to its attributes.
-/

namespace QTrl.Io

open Spec.Io

/-- Reading the directory again gives the same and does nothing. -/
theorem getDumpDir_again (os : OS) (fs fs' : FS) (d : DumpDir) :
    getDumpDir os fs' (getDumpDir os fs d).2.1 =
      ((getDumpDir os fs d).1, (getDumpDir os fs d).2.1, fs') := by
  obtain ⟨dir, w⟩ := d
  cases dir <;> rfl

theorem run_append (os : OS) (st : FS × Files) (a b : List FileOp) :
    fileRun os st (a ++ b) = fileRun os (fileRun os st a) b := by
  induction a generalizing st with
  | nil => rfl
  | cons op a ih => exact ih _

/-- Settings leave no path behind. -/
theorem settings (os : OS) (conf : List FileOp) (h : ∀ op ∈ conf, Setting op) (st : FS × Files)
    (h0 : st.2.summary = none ∧ st.2.fidErr = none ∧ st.2.gradNorm = none) :
    (fileRun os st conf).2.base = lastBase st.2.base conf ∧
    (fileRun os st conf).2.ext = lastExt st.2.ext conf ∧
    (fileRun os st conf).2.summary = none ∧ (fileRun os st conf).2.fidErr = none ∧
    (fileRun os st conf).2.gradNorm = none := by
  induction conf generalizing st with
  | nil => exact ⟨rfl, rfl, h0⟩
  | cons op conf ih =>
    have h1 := h op (by simp)
    have ih := ih fun o ho => h o (by simp [ho])
    cases op with
    | setDir v => exact ih _ h0
    | setBase v => exact ih _ ⟨rfl, h0.2⟩
    | setExt v => exact ih _ h0
    | readDir => exact ih _ h0
    | setSummary v => exact h1.elim
    | path k => exact h1.elim

/-- The state of a dump in use: base name, extension and directory are fixed and what is kept agrees
with them. -/
structure Settled (os : OS) (D b e : String) (st : FS × Files) : Prop where
  base : st.2.base = b
  ext : st.2.ext = e
  dir : (getDumpDir os st.1 st.2.place).1.getD "" = D
  summary : ∀ p, st.2.summary = some p → p = join D (fileName .summary b e)
  fidErr : ∀ p, st.2.fidErr = some p → p = join D (fileName .fidErr b e)
  gradNorm : ∀ p, st.2.gradNorm = some p → p = join D (fileName .gradNorm b e)

theorem settled_dir {os : OS} {dir base ext : String} {st : FS × Files}
    (h : Settled os dir base ext st) : Settled os dir base ext
      ((getDumpDir os st.1 st.2.place).2.2,
        { st.2 with place := (getDumpDir os st.1 st.2.place).2.1 }) := by
  obtain ⟨h1, h2, h3, h4, h5, h6⟩ := h
  refine ⟨h1, h2, ?_, h4, h5, h6⟩
  simp only [getDumpDir_again]
  exact h3

/-- Uses keep it so and show the documented paths. -/
theorem settled_path {os : OS} {dir base ext : String} {st : FS × Files}
    (h : Settled os dir base ext st) (k : FileKind) :
    (fileStep os st (.path k)).2 = some (join dir (fileName k base ext)) ∧
    Settled os dir base ext (fileStep os st (.path k)).1 := by
  have hd := settled_dir h
  obtain ⟨h1, h2, h3, h4, h5, h6⟩ := h
  cases k with
  | summary =>
    cases hs : st.2.summary with
    | some p =>
      simp only [fileStep, filePath, hs]
      exact ⟨by rw [h4 p hs], h1, h2, h3, by simpa [hs] using h4, h5, h6⟩
    | none =>
      simp only [fileStep, filePath, hs, inDir, h1, h2, h3]
      exact ⟨trivial, rfl, rfl, hd.dir, by rintro p ⟨⟩; rfl, h5, h6⟩
  | fidErr =>
    cases hs : st.2.fidErr with
    | some p =>
      simp only [fileStep, filePath, hs]
      exact ⟨by rw [h5 p hs], h1, h2, h3, h4, by simpa [hs] using h5, h6⟩
    | none =>
      simp only [fileStep, filePath, hs, inDir, h1, h2, h3]
      exact ⟨trivial, rfl, rfl, hd.dir, h4, by rintro p ⟨⟩; rfl, h6⟩
  | gradNorm =>
    cases hs : st.2.gradNorm with
    | some p =>
      simp only [fileStep, filePath, hs]
      exact ⟨by rw [h6 p hs], h1, h2, h3, h4, h5, by simpa [hs] using h6⟩
    | none =>
      simp only [fileStep, filePath, hs, inDir, h1, h2, h3]
      exact ⟨trivial, rfl, rfl, hd.dir, h4, h5, by rintro p ⟨⟩; rfl⟩
  | grad n =>
    simp only [fileStep, filePath, inDir, h1, h2, h3]
    exact ⟨trivial, rfl, rfl, hd.dir, h4, h5, h6⟩

theorem settled_uses {os : OS} {dir base ext : String} (uses : List FileOp)
    (hu : ∀ op ∈ uses, Use op) {st : FS × Files} (h : Settled os dir base ext st) :
    Settled os dir base ext (fileRun os st uses) := by
  induction uses generalizing st with
  | nil => exact h
  | cons op uses ih =>
    have ih := fun {s} hs => ih (fun o ho => hu o (by simp [ho])) (st := s) hs
    have h1 := hu op (by simp)
    cases op with
    | readDir => exact ih (settled_dir h)
    | path k => exact ih (settled_path h k).2
    | setDir v => exact h1.elim
    | setBase v => exact h1.elim
    | setExt v => exact h1.elim
    | setSummary v => exact h1.elim

theorem left_cancel {a b c : String} (h : a ++ b = a ++ c) : b = c := by
  have h := congrArg String.toList h
  simp only [String.toList_append, List.append_cancel_left_eq] at h
  exact String.toList_injective h

theorem right_cancel {a b c : String} (h : b ++ a = c ++ a) : b = c := by
  have h := congrArg String.toList h
  simp only [String.toList_append, List.append_cancel_right_eq] at h
  exact String.toList_injective h

theorem fileName_eq (k : FileKind) (base ext : String) :
    fileName k base ext = documented k base ext := by
  have a : ∀ x y z : String, x ++ y ++ z = x ++ (y ++ z) := fun x y z => String.append_assoc ..
  have l : ∀ x y : String, x.toList = y.toList → x = y := fun x y => fun h => String.toList_injective h
  cases k <;> simp only [fileName, documented] <;> apply l <;>
    simp only [String.toList_append, List.append_assoc] <;> rfl

/-- With a base name that is no path, files are inside the directory. -/
theorem join_documented (k : FileKind) (dir base ext : String) (hd : dir ≠ "")
    (hb : isabs base = false) :
    join dir (fileName k base ext) = inFolder dir (documented k base ext) := by
  have : isabs (fileName k base ext) = false := by
    unfold isabs at hb ⊢
    cases k <;> simp only [fileName, String.toList_append] <;>
      cases hl : base.toList <;> simp_all
  rw [← fileName_eq]
  unfold join inFolder
  rw [this]
  by_cases h : dir.toList.getLast? = some '/' <;> simp [h, hd]

theorem readDir_some (os : OS) (st : FS × Files) : ∃ D, (fileStep os st .readDir).2 = some D := by
  obtain ⟨fs, ⟨⟨dir, w⟩, b, e, s, f, g⟩⟩ := st
  cases dir <;> exact ⟨_, rfl⟩

end QTrl.Io
