import Verif.Proofs.Io

/-
C44: creating directories.
-/

namespace QTrl.Props.Io

open QTrl.Io Spec.Io

/-- A file system with a directory `/home`, a file in it, a pipe and a link leading nowhere. -/
def exFs : FS := fun l =>
  if l = [] then some .dir
  else if l = ["home"] then some .dir
  else if l = ["notes", "home"] then some .file
  else if l = ["pipe", "home"] then some .special
  else if l = ["link", "home"] then some .broken
  else none

theorem exFs_wf : WellFormed exFs := by
  refine ⟨rfl, ?_⟩
  intro c q h
  unfold exFs at h
  rw [if_neg (by simp)] at h
  split at h
  · next e => cases e; rfl
  · split at h
    · next e => cases e; rfl
    · split at h
      · next e => cases e; rfl
      · split at h
        · next e => cases e; rfl
        · exact absurd rfl h

/-- Names of the examples; `~` stands for `/home`. -/
def exOs : OS where
  expanduser n := if n = "~/new/dump" then "/home/new/dump" else n
  abspath n := "/home/" ++ n
  loc n := if n = "/home/new/dump" then ["dump", "new", "home"]
    else if n = "/home/notes" then ["notes", "home"]
    else if n = "/home/notes/dump" then ["dump", "notes", "home"]
    else if n = "/home/pipe" then ["pipe", "home"]
    else if n = "/home/link" then ["link", "home"] else ["home"]
  fault _ := false
  env fs := fs

/-- Success is reported exactly if there is a directory at the place afterwards, when no other
process interferes and the place is not a device, a pipe, a socket or a broken link.  The name
returned is the resolved one. -/
theorem C44_available_partial (os : OS) (hq : Quiet os) (fs : FS) (hw : WellFormed fs) (n : String)
    (hs : fs (os.loc (resolve os n)) ≠ some .special)
    (hb : fs (os.loc (resolve os n)) ≠ some .broken) :
    ((createDir os fs n).1.1 = true ↔
      (createDir os fs n).2 (os.loc (resolve os n)) = some .dir) ∧
    (createDir os fs n).1.2.1 = resolve os n := by
  by_cases he : fs.exists (os.loc (resolve os n)) = true
  · rw [createDir_exists os fs n he, hq fs]
    unfold FS.isfile
    obtain ⟨h1, -⟩ := (exists_iff _ _).1 he
    cases h : fs (os.loc (resolve os n)) with
    | none => exact absurd h h1
    | some k =>
      cases k with
      | dir => simp [h]
      | file => simp [h]
      | special => exact absurd h hs
      | broken => exact absurd h hb
  · obtain ⟨h1, h2, h3⟩ := createDir_absent os fs n he
    refine ⟨?_, h2⟩
    rw [h3, h1, hq fs]
    obtain ⟨-, -, m3, m4, m5⟩ := makedirs_spec os.fault fs hw (os.loc (resolve os n))
    have hn : fs (os.loc (resolve os n)) = none := by
      by_contra h
      exact he ((exists_iff _ _).2 ⟨h, hb⟩)
    constructor
    · rintro (h | h)
      · exact m3 h
      · exact absurd hn (m5.1 h)
    · intro h
      by_contra h'
      rw [not_or] at h'
      rw [m4 h'.1, hn] at h
      cases h

example : Quiet exOs ∧ (createDir exOs exFs "~/new/dump").1 = (true, "/home/new/dump", .created) ∧
    (createDir exOs exFs "/home/notes").1 = (false, "/home/notes", .fileExists) ∧
    (createDir exOs exFs "/home/notes/dump").1 = (false, "/home/notes/dump", .makedirs .enotdir) ∧
    (createDir exOs exFs "/home").1 = (true, "/home", .ready) :=
  ⟨fun _ => rfl, by decide, by decide, by decide, by decide⟩

/-- Whatever happens, nothing that is there is changed or removed; only directories are added,
all of them on the way to the place. -/
theorem C44_untouched (os : OS) (fs : FS) (n : String) (hw : WellFormed (os.env fs)) :
    OnlyAdds (os.env fs) (createDir os fs n).2 (os.loc (resolve os n)) := by
  by_cases he : fs.exists (os.loc (resolve os n)) = true
  · rw [createDir_exists os fs n he]
    split <;> exact onlyAdds_refl _ _
  · rw [(createDir_absent os fs n he).1]
    exact (makedirs_spec os.fault _ hw _).1

example : OnlyAdds exFs (createDir exOs exFs "~/new/dump").2 ["dump", "new", "home"] ∧
    (createDir exOs exFs "~/new/dump").2 ["notes", "home"] = some .file :=
  ⟨C44_untouched exOs exFs "~/new/dump" exFs_wf, by decide⟩

/-- If nothing but directories is on the way and the system refuses nothing, it succeeds. -/
theorem C44_creates (os : OS) (hq : Quiet os) (fs : FS) (hw : WellFormed fs) (n : String)
    (hway : ∀ q, q <:+ os.loc (resolve os n) → fs q = none ∨ fs q = some .dir)
    (hf : ∀ q, q <:+ os.loc (resolve os n) → fs q = none → os.fault q = false) :
    (createDir os fs n).1.1 = true ∧
    ∀ q, q <:+ os.loc (resolve os n) → (createDir os fs n).2 q = some .dir := by
  have hl := hway _ List.suffix_rfl
  have ok : (createDir os fs n).1.1 = true := by
    by_cases he : fs.exists (os.loc (resolve os n)) = true
    · rw [createDir_exists os fs n he, hq fs]
      obtain ⟨h1, -⟩ := (exists_iff _ _).1 he
      rcases hl with h | h
      · exact absurd h h1
      · simp [FS.isfile, h]
    · obtain ⟨-, -, h3⟩ := createDir_absent os fs n he
      rw [h3, hq fs]
      left
      refine makedirs_creates os.fault fs hw _ ?_ hway hf
      rcases hl with h | h
      · exact h
      · exact absurd ((exists_iff _ _).2 (by rw [h]; decide)) he
  refine ⟨ok, ?_⟩
  have hs : fs (os.loc (resolve os n)) ≠ some .special := by
    rcases hl with h | h <;> rw [h] <;> decide
  have hb : fs (os.loc (resolve os n)) ≠ some .broken := by
    rcases hl with h | h <;> rw [h] <;> decide
  have hdir := (C44_available_partial os hq fs hw n hs hb).1.1 ok
  have hw' : WellFormed (createDir os fs n).2 := by
    by_cases he : fs.exists (os.loc (resolve os n)) = true
    · rw [createDir_exists os fs n he, hq fs]
      split <;> exact hw
    · rw [(createDir_absent os fs n he).1, hq fs]
      exact (makedirs_spec os.fault fs hw _).2.1
  generalize os.loc (resolve os n) = l at hdir
  intro q hq'
  obtain ⟨pre, rfl⟩ := hq'
  clear hl hs hb hway hf ok
  induction pre with
  | nil => exact hdir
  | cons c pre ih =>
    exact ih (hw'.2 c (pre ++ q) (by rw [List.cons_append] at hdir; rw [hdir]; decide))

example : (∀ q, q <:+ exOs.loc (resolve exOs "~/new/dump") → exFs q = none ∨ exFs q = some .dir) ∧
    exFs ["dump", "new", "home"] = none ∧
    (createDir exOs exFs "~/new/dump").2 ["new", "home"] = some .dir := by
  refine ⟨?_, by decide, by decide⟩
  intro q hq
  have e : exOs.loc (resolve exOs "~/new/dump") = ["dump", "new", "home"] := by decide
  rw [e] at hq
  rcases List.suffix_cons_iff.1 hq with rfl | hq
  · left; decide
  · rcases List.suffix_cons_iff.1 hq with rfl | hq
    · left; decide
    · rcases List.suffix_cons_iff.1 hq with rfl | hq
      · right; decide
      · rw [List.suffix_nil.1 hq]; right; decide

/-- A name without `~` becomes absolute and leads where it led. -/
theorem C44_name (os : OS) (hn : Names os) (n : String) (ht : hasTilde n = false) :
    isabs (resolve os n) = true ∧ os.loc (resolve os n) = os.loc n := by
  unfold resolve
  rw [ht]
  cases h : isabs n with
  | true => simp [h]
  | false => simp [hn.abspath_abs, hn.abspath_loc]

/-- Names as they are on a system whose current directory is `/home`. -/
def homeOs : OS where
  expanduser n := n
  abspath n := if isabs n then n else "/home/" ++ n
  loc n := ((if isabs n then n else "/home/" ++ n).splitOn "/").reverse
  fault _ := false
  env fs := fs

theorem homeOs_names : Names homeOs where
  abspath_abs n := by
    by_cases h : isabs n = true
    · simp [homeOs, h]
    · simp [homeOs, h]
      simp [isabs]
  abspath_loc n := by
    by_cases h : isabs n = true
    · simp [homeOs, h]
    · have : isabs ("/home/" ++ n) = true := by simp [isabs]
      simp [homeOs, h, this]

example : isabs (resolve homeOs "data/dump") = true ∧
    homeOs.loc (resolve homeOs "data/dump") = homeOs.loc "data/dump" :=
  C44_name homeOs homeOs_names "data/dump" (by decide)

/-! ### The directory of a dump object -/

/-- After `dump_dir` was assigned, it is a directory that exists, or none and nothing is
written. -/
theorem C44_dump_assign_partial (os : OS) (hq : Quiet os) (fs : FS) (hw : WellFormed fs)
    (d : DumpDir) (v : Option String)
    (hs : fs (os.loc (resolve os (tried v))) ≠ some .special)
    (hb : fs (os.loc (resolve os (tried v))) ≠ some .broken) :
    (∃ n, setDumpDir os fs d v = ({ dir := some n, write := d.write },
        (createDir os fs (tried v)).2) ∧
      (createDir os fs (tried v)).2 (os.loc n) = some .dir) ∨
    (setDumpDir os fs d v = ({ dir := none, write := false }, (createDir os fs (tried v)).2) ∧
      (createDir os fs (tried v)).2 (os.loc (resolve os (tried v))) ≠ some .dir) := by
  obtain ⟨h1, h2⟩ := C44_available_partial os hq fs hw (tried v) hs hb
  have e : createDumpDir os fs { d with dir := v } =
      ((createDir os fs (tried v)).1.1,
       { dir := some (createDir os fs (tried v)).1.2.1,
         write := if (createDir os fs (tried v)).1.1 then d.write else false },
       (createDir os fs (tried v)).2) := by
    unfold createDumpDir
    rw [dumpName_eq]
  unfold setDumpDir
  simp only
  rw [e]
  cases h : (createDir os fs (tried v)).1.1 with
  | true =>
    left
    exact ⟨(createDir os fs (tried v)).1.2.1, by simp, by rw [h2]; exact h1.1 h⟩
  | false =>
    right
    refine ⟨by simp, ?_⟩
    rw [← h1.ne, h]
    decide

example : setDumpDir exOs exFs { dir := none, write := true } (some "~/new/dump") =
      ({ dir := some "/home/new/dump", write := true }, (createDir exOs exFs "~/new/dump").2) ∧
    (setDumpDir exOs exFs { dir := none, write := true } (some "/home/notes")).1 =
      { dir := none, write := false } ∧
    exFs (exOs.loc (resolve exOs (tried (some "/home/notes")))) = some .file :=
  ⟨rfl, rfl, by decide⟩

/-! ### What the claim says and the code does not do -/

/-- A pipe or a device is taken for a directory. -/
theorem C44_violated_special :
    Quiet exOs ∧ WellFormed exFs ∧ (createDir exOs exFs "/home/pipe").1 = (true, "/home/pipe", .ready) ∧
    (createDir exOs exFs "/home/pipe").2 (exOs.loc "/home/pipe") = some .special :=
  ⟨fun _ => rfl, exFs_wf, by decide, by decide⟩

/-- A link leading nowhere is taken for a directory made by another process. -/
theorem C44_violated_broken :
    Quiet exOs ∧ WellFormed exFs ∧
    (createDir exOs exFs "/home/link").1 = (true, "/home/link", .otherProcess) ∧
    (createDir exOs exFs "/home/link").2 (exOs.loc "/home/link") = some .broken :=
  ⟨fun _ => rfl, exFs_wf, by decide, by decide⟩

/-- A file made by another process just then is taken for a directory. -/
theorem C44_violated_race :
    ∃ os : OS, WellFormed exFs ∧ WellFormed (os.env exFs) ∧
      exFs (os.loc "/home/new") = none ∧
      (createDir os exFs "/home/new").1.1 = true ∧
      (createDir os exFs "/home/new").2 (os.loc "/home/new") = some .file := by
  refine ⟨{ exOs with
      loc := fun _ => ["new", "home"]
      env := fun fs => Function.update fs ["new", "home"] (some .file) },
    exFs_wf, ?_, by decide, by decide, by decide⟩
  refine ⟨by decide, ?_⟩
  intro c q h
  by_cases h2 : q = ["new", "home"]
  · subst h2
    exfalso
    apply h
    show Function.update exFs ["new", "home"] (some .file) _ = none
    rw [Function.update_of_ne (by simp)]
    simp [exFs]
  · show Function.update exFs ["new", "home"] (some .file) q = _
    rw [Function.update_of_ne h2]
    by_cases h3 : c :: q = ["new", "home"]
    · cases h3; rfl
    · have h4 : Function.update exFs ["new", "home"] (some .file) (c :: q) ≠ none := h
      rw [Function.update_of_ne h3] at h4
      exact exFs_wf.2 c q h4

/-- A relative name with `~` somewhere else than at its beginning is not made absolute. -/
theorem C44_violated_relative :
    hasTilde "run~1" = true ∧ isabs "run~1" = false ∧
    ∀ os : OS, (∀ n : String, n.toList.head? ≠ some '~' → os.expanduser n = n) →
      resolve os "run~1" = "run~1" := by
  refine ⟨by decide, by decide, fun os h => ?_⟩
  unfold resolve
  rw [if_pos (by decide)]
  exact h _ (by decide)

/-- Reading `dump_dir` can return the name of a place that is no directory: only assigning
resets the name after a failure. -/
theorem C44_violated_read :
    ∃ (os : OS) (d : DumpDir), Quiet os ∧ d.dir = none ∧ ∃ n,
      (getDumpDir os exFs d).1 = some n ∧ (getDumpDir os exFs d).2.2 (os.loc n) = some .file :=
  ⟨{ exOs with loc := fun _ => ["notes", "home"] }, { dir := none, write := true }, fun _ => rfl, rfl,
    _, rfl, by decide⟩

end QTrl.Props.Io
