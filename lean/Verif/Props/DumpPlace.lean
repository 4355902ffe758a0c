import Verif.Proofs.DumpPlace
import Verif.Props.Io

/-
C65: where dumps write.
-/

namespace QTrl.Props.Io

open QTrl.Io Spec.Io

/-- **C65**: if directory, base name and extension are set before the first use of the dump, then
every file, whenever it is used, is in the directory that `dump_dir` shows, under the name formed
from the base name, the kind of file and the extension.  The base name must not be an absolute
path.  Missing: settings after the first use, and the name of the summary file given by the user
(both are violated). -/
theorem C65_settled_partial (os : OS) (fs : FS) (base : String) (write : Bool)
    (conf uses : List FileOp) (hc : ∀ op ∈ conf, Setting op) (hu : ∀ op ∈ uses, Use op)
    (k : FileKind) (hb : isabs (lastBase base conf) = false) :
    ∃ D, (fileStep os (fileRun os (fs, Files.fresh base write) conf) .readDir).2 = some D ∧
      (D ≠ "" →
        (fileStep os (fileRun os (fs, Files.fresh base write) (conf ++ uses)) (.path k)).2 =
          some (inFolder D (documented k (lastBase base conf) (lastExt "txt" conf)))) := by
  obtain ⟨D, hD⟩ := readDir_some os (fileRun os (fs, Files.fresh base write) conf)
  refine ⟨D, hD, fun hne => ?_⟩
  obtain ⟨h1, h2, h3, h4, h5⟩ := settings os conf hc (fs, Files.fresh base write) ⟨rfl, rfl, rfl⟩
  rw [run_append, ← join_documented _ _ _ _ hne hb]
  have hD' : (getDumpDir os (fileRun os (fs, Files.fresh base write) conf).1
      (fileRun os (fs, Files.fresh base write) conf).2.place).1.getD "" = D := by
    simp only [fileStep] at hD
    rw [hD, Option.getD_some]
  refine (settled_path (settled_uses uses hu ⟨h1, h2, hD', ?_, ?_, ?_⟩) k).1
  · rw [h3]; rintro p ⟨⟩
  · rw [h4]; rintro p ⟨⟩
  · rw [h5]; rintro p ⟨⟩

example :
    (fileStep exOs (fileRun exOs (exFs, Files.fresh "optimdump" true)
      ([.setDir (some "~/new/dump"), .setBase "run1", .setExt "dat"] ++
        [.path .summary, .path (.grad 1), .readDir])) (.path .fidErr)).2 =
      some "/home/new/dump/run1-fid_err_log.dat" := by decide +kernel

/-- **C65**: the files with gradients always follow the settings, whatever happened before. -/
theorem C65_gradients (os : OS) (st : FS × Files) (n : ℕ) (hb : isabs st.2.base = false) :
    ∃ D, (fileStep os st .readDir).2 = some D ∧
      (D ≠ "" → (fileStep os st (.path (.grad n))).2 =
        some (inFolder D (documented (.grad n) st.2.base st.2.ext))) := by
  obtain ⟨D, hD⟩ := readDir_some os st
  refine ⟨D, hD, fun hne => ?_⟩
  rw [← join_documented _ _ _ _ hne hb]
  simp only [fileStep] at hD
  simp only [fileStep, filePath, inDir, hD, Option.getD_some]

example :
    (fileStep exOs (fileRun exOs (exFs, Files.fresh "optimdump" true)
      [.setDir (some "/home"), .path (.grad 1), .setDir (some "~/new/dump"), .setBase "run1"])
      (.path (.grad 2))).2 = some "/home/new/dump/run1-fid_err_gradients2.txt" := by decide +kernel

/-- **C65**: a new base name takes the summary to the directory and extension of that time. -/
theorem C65_rebase (os : OS) (st : FS × Files) (b : String) (hb : isabs b = false) :
    ∃ D, (fileStep os st .readDir).2 = some D ∧
      (D ≠ "" → (fileStep os (fileStep os st (.setBase b)).1 (.path .summary)).2 =
        some (inFolder D (documented .summary b st.2.ext))) := by
  obtain ⟨D, hD⟩ := readDir_some os st
  refine ⟨D, hD, fun hne => ?_⟩
  rw [← join_documented _ _ _ _ hne hb]
  simp only [fileStep] at hD
  simp only [fileStep, filePath, inDir, hD, Option.getD_some]

example :
    let st := fileRun exOs (exFs, Files.fresh "optimdump" true)
      [.setDir (some "/home"), .path .summary, .setExt "dat", .setDir (some "~/new/dump")]
    isabs "run1" = false ∧ (fileStep exOs st .readDir).2 = some "/home/new/dump" ∧
    (fileStep exOs (fileStep exOs st (.setBase "run1")).1 (.path .summary)).2 =
      some "/home/new/dump/run1-summary.dat" := by decide +kernel

/-- **C65**: no two files of a dump have the same name. -/
theorem C65_distinct (k k' : FileKind) (base ext : String)
    (h : fileName k base ext = fileName k' base ext) : k = k' := by
  have key : ∀ a b c : String, a ++ b ++ c = a ++ (b ++ c) := fun a b c => String.append_assoc ..
  have tail : ∀ a b : String, base ++ a = base ++ b → a.toList = b.toList := fun a b h => by
    rw [left_cancel h]
  cases k <;> cases k' <;> simp only [fileName, key] at h <;>
    first
    | rfl
    | (exfalso
       have h := tail _ _ h
       simp only [String.toList_append] at h
       revert h
       simp
       done)
    | skip
  rename_i n m
  have h := right_cancel (left_cancel (left_cancel h))
  rw [Nat.repr_inj.1 h]

/-- The directory the dump of a host has been given. -/
def hostDir (h : Host) : Option String := h.bind fun d => d.2.place.dir

/-- **C65**: if a host is to dump to files, then after initialisation it has a dump, of the level it
had or `SUMMARY`, which writes if and only if its directory is there; what was set for the names
stays.  Otherwise initialisation leaves the dump as it is.  No other process must interfere, and the
place must not be a device, a pipe, a socket or a broken link. -/
theorem C65_host_partial (os : OS) (hq : Quiet os) (fs : FS) (hw : WellFormed fs) (base : String)
    (h : Host)
    (hs : fs (os.loc (resolve os (tried (hostDir h)))) ≠ some .special)
    (hb : fs (os.loc (resolve os (tried (hostDir h)))) ≠ some .broken) :
    hostInit os fs base false h = (h, fs) ∧
    ∃ s fs', hostInit os fs base true h = (some ((h.map Prod.fst).getD "SUMMARY", s), fs') ∧
      s.place.dir = some (resolve os (tried (hostDir h))) ∧
      (s.place.write = true ↔ fs' (os.loc (resolve os (tried (hostDir h)))) = some .dir) ∧
      s.base = (h.map fun d => d.2.base).getD base ∧ s.ext = (h.map fun d => d.2.ext).getD "txt" ∧
      s.summary = h.bind fun d => d.2.summary := by
  refine ⟨rfl, ?_⟩
  obtain ⟨h1, h2⟩ := C44_available_partial os hq fs hw (tried (hostDir h)) hs hb
  have e : createDumpDir os fs { dir := hostDir h, write := true } =
      ((createDir os fs (tried (hostDir h))).1.1,
       { dir := some (createDir os fs (tried (hostDir h))).1.2.1,
         write := (createDir os fs (tried (hostDir h))).1.1 },
       (createDir os fs (tried (hostDir h))).2) := by
    unfold createDumpDir
    rw [dumpName_eq]
    obtain ⟨⟨ok, n, m⟩, fs'⟩ := createDir os fs (tried (hostDir h))
    cases ok <;> rfl
  rw [h2] at e
  cases h with
  | none =>
    refine ⟨_, _, rfl, ?_⟩
    simp only [startDump, Files.fresh]
    simp only [hostDir, Option.bind_none] at e h1 ⊢
    rw [e, ← h1]
    simp
  | some d =>
    refine ⟨_, _, rfl, ?_⟩
    simp only [startDump]
    simp only [hostDir, Option.bind_some] at e h1 ⊢
    rw [e, ← h1]
    simp

/-- **C65**: without a dump no directory is shown; once one was assigned there is a dump, of level
`SUMMARY` if there was none, and the directory shown is the one assigned if it could be made or
found; otherwise nothing is written.  Same conditions. -/
theorem C65_host_dir_partial (os : OS) (hq : Quiet os) (fs : FS) (hw : WellFormed fs)
    (base : String) (toFile : Bool) (h : Host) (v : Option String)
    (hs : fs (os.loc (resolve os (tried v))) ≠ some .special)
    (hb : fs (os.loc (resolve os (tried v))) ≠ some .broken) :
    hostReadDir os fs none = (none, none, fs) ∧
    ∃ s fs', hostSetDir os fs base toFile h v =
        (some ((h.map Prod.fst).getD "SUMMARY", s), fs') ∧
      (fs' (os.loc (resolve os (tried v))) = some .dir →
        s.place.write = (h.map fun d => d.2.place.write).getD toFile ∧
        hostReadDir os fs' (some ((h.map Prod.fst).getD "SUMMARY", s)) =
          (some (resolve os (tried v)), some ((h.map Prod.fst).getD "SUMMARY", s), fs')) ∧
      (fs' (os.loc (resolve os (tried v))) ≠ some .dir → s.place.write = false) := by
  refine ⟨rfl, ?_⟩
  have key : ∀ (l : String) (f : Files), ∃ s fs',
      (let r := setDumpDir os fs f.place v; ((some (l, { f with place := r.1 }), r.2) : Host × FS)) =
        (some (l, s), fs') ∧
      (fs' (os.loc (resolve os (tried v))) = some .dir →
        s.place.write = f.place.write ∧
        hostReadDir os fs' (some (l, s)) = (some (resolve os (tried v)), some (l, s), fs')) ∧
      (fs' (os.loc (resolve os (tried v))) ≠ some .dir → s.place.write = false) := by
    intro l f
    refine ⟨_, _, rfl, ?_⟩
    rcases C44_dump_assign_partial os hq fs hw f.place v hs hb with ⟨n, e, hn⟩ | ⟨e, hn⟩
    · have hn' : n = resolve os (tried v) := by
        have := (C44_available_partial os hq fs hw (tried v) hs hb).2
        have e' := congrArg (fun r => r.1.dir) e
        simp only [setDumpDir, createDumpDir, dumpName_eq] at e'
        split at e'
        · simpa [this] using e'.symm
        · simp at e'
      subst hn'
      rw [e]
      exact ⟨fun _ => ⟨rfl, rfl⟩, fun hne => absurd hn hne⟩
    · rw [e]
      exact ⟨fun hd => absurd hd hn, fun _ => rfl⟩
  cases h with
  | none => exact key "SUMMARY" (Files.fresh base toFile)
  | some d => exact key d.1 d.2

example :
    (hostInit exOs exFs "dyndump" true none).1.map (fun d => (d.1, d.2.place.write)) =
      some ("SUMMARY", true) ∧
    (hostSetDir exOs exFs "dyndump" true none (some "/home/notes")).1.map
      (fun d => (d.1, d.2.place.write)) = some ("SUMMARY", false) := by decide +kernel

/-! ### What the claim says and the code does not do -/

/-- Once a file was used, a new directory is not taken up for it: the summary and the logs go on
being written in the old one, although `dump_dir` shows the new one. -/
theorem C65_violated_dir :
    ∃ k, ∃ st : FS × Files,
      st = fileRun exOs (exFs, Files.fresh "optimdump" true)
        [.setDir (some "/home"), .path k, .setDir (some "~/new/dump")] ∧
      (fileStep exOs st .readDir).2 = some "/home/new/dump" ∧
      (fileStep exOs st (.path k)).2 = some "/home/optimdump-fid_err_log.txt" :=
  ⟨.fidErr, _, rfl, by decide +kernel, by decide +kernel⟩

/-- The same holds of a new extension, for the summary too, and of a new base name for the logs. -/
theorem C65_violated_names :
    ∃ st : FS × Files,
      st = fileRun exOs (exFs, Files.fresh "optimdump" true)
        [.setDir (some "/home"), .path .summary, .path .gradNorm, .setExt "dat"] ∧
      (fileStep exOs st (.path .summary)).2 = some "/home/optimdump-summary.txt" ∧
      (fileStep exOs (fileStep exOs st (.setBase "run2")).1 (.path .gradNorm)).2 =
        some "/home/optimdump-grad_norm_log.txt" ∧
      (fileStep exOs (fileStep exOs st (.setBase "run2")).1 (.path .summary)).2 =
        some "/home/run2-summary.dat" :=
  ⟨_, rfl, by decide +kernel, by decide +kernel, by decide +kernel⟩

/-- A summary file given by name is not put in the dump directory, and `~` in it is not replaced:
the name is used as it is, relative to the current directory.  This holds for every name. -/
theorem C65_violated_summary (os : OS) (hn : Names os) (st : FS × Files) (v : String) :
    (fileStep os (fileStep os st (.setSummary v)).1 (.path .summary)).2 = some v := by
  have h : os.abspath v ≠ "" := by
    intro h
    have := hn.abspath_abs v
    rw [h] at this
    revert this
    decide
  simp only [fileStep, setSummary, if_pos h, filePath]

example : (fileStep homeOs (fileStep homeOs (exFs, Files.fresh "optimdump" true)
    (.setSummary "mine.txt")).1 (.path .summary)).2 = some "mine.txt" :=
  C65_violated_summary homeOs homeOs_names _ _

/-- A name given for the summary is forgotten when the base name is assigned. -/
theorem C65_violated_forgotten :
    (fileStep exOs (fileRun exOs (exFs, Files.fresh "optimdump" true)
      [.setDir (some "/home"), .setSummary "/home/mine.txt", .setBase "run2"])
      (.path .summary)).2 = some "/home/run2-summary.txt" := by decide +kernel

end QTrl.Props.Io
