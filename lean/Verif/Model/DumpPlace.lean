import Verif.Model.Io

/-
Where dump objects write (dump.py 157-217, 340-390) and how their hosts set them up
(dynamics.py 511-521, 822-831; optimizer.py 350-360, 415-424).
-/

namespace QTrl.Io

/-- `os.path.join` of two names. -/
def join (a b : String) : String :=
  if isabs b then b
  else if a.toList.getLast? = some '/' || a = "" then a ++ b
  else a ++ "/" ++ b

/-- The attributes of a dump object that determine its files: directory and `write_to_file`,
`_fname_base`, `dump_file_ext`, `_summary_file_path`, and for optimiser dumps `_fid_err_file`
and `_grad_norm_file`. -/
structure Files where
  place : DumpDir
  base : String
  ext : String
  summary : Option String
  fidErr : Option String
  gradNorm : Option String
  deriving DecidableEq, Repr

/-- After `reset` (dump.py 86-99, 262-271, 540-545); `base` is `optimdump` or `dyndump`. -/
def Files.fresh (base : String) (write : Bool) : Files where
  place := { dir := none, write := write }
  base := base
  ext := "txt"
  summary := none
  fidErr := none
  gradNorm := none

/-- The files of a dump. -/
inductive FileKind where
  | summary
  | fidErr
  | gradNorm
  | grad (n : Nat)
  deriving DecidableEq, Repr

/-- Their names (dump.py 201-203, 343-345, 364-366, 386-388). -/
def fileName (k : FileKind) (base ext : String) : String :=
  match k with
  | .summary => base ++ "-summary." ++ ext
  | .fidErr => base ++ "-fid_err_log." ++ ext
  | .gradNorm => base ++ "-grad_norm_log." ++ ext
  | .grad n => base ++ "-fid_err_gradients" ++ toString n ++ "." ++ ext

/-- A path in the dump directory, which reading `dump_dir` may create. -/
def inDir (os : OS) (fs : FS) (s : Files) (name : String) : String × Files × FS :=
  let r := getDumpDir os fs s.place
  (join (r.1.getD "") name, { s with place := r.2.1 }, r.2.2)

/-- The path of a file: kept from the first time for the summary and the two logs
(dump.py 198-205, 340-347, 361-368), formed anew for the gradients (386-390). -/
def filePath (os : OS) (fs : FS) (s : Files) (k : FileKind) : String × Files × FS :=
  match k with
  | .summary =>
    match s.summary with
    | some p => (p, s, fs)
    | none =>
      let r := inDir os fs s (fileName .summary s.base s.ext)
      (r.1, { r.2.1 with summary := some r.1 }, r.2.2)
  | .fidErr =>
    match s.fidErr with
    | some p => (p, s, fs)
    | none =>
      let r := inDir os fs s (fileName .fidErr s.base s.ext)
      (r.1, { r.2.1 with fidErr := some r.1 }, r.2.2)
  | .gradNorm =>
    match s.gradNorm with
    | some p => (p, s, fs)
    | none =>
      let r := inDir os fs s (fileName .gradNorm s.base s.ext)
      (r.1, { r.2.1 with gradNorm := some r.1 }, r.2.2)
  | .grad n => inDir os fs s (fileName (.grad n) s.base s.ext)

/-- `summary_file` assigned (dump.py 207-217); the first condition asks whether the absolute
path is not empty. -/
def setSummary (os : OS) (fs : FS) (s : Files) (v : String) : Files × FS :=
  if os.abspath v ≠ "" then ({ s with summary := some v }, fs)
  else if hasTilde v then ({ s with summary := some (os.expanduser v) }, fs)
  else
    let r := inDir os fs s v
    ({ r.2.1 with summary := some r.1 }, r.2.2)

/-- What a user or the dump itself does. -/
inductive FileOp where
  | setDir (v : Option String)
  | setBase (v : String)
  | setExt (v : String)
  | setSummary (v : String)
  | readDir
  | path (k : FileKind)

/-- One operation; assigning the base name forgets the summary path (dump.py 191-196).  The last
component is the path shown or used. -/
def fileStep (os : OS) (st : FS × Files) : FileOp → (FS × Files) × Option String
  | .setDir v =>
    let r := setDumpDir os st.1 st.2.place v
    ((r.2, { st.2 with place := r.1 }), none)
  | .setBase v => ((st.1, { st.2 with base := v, summary := none }), none)
  | .setExt v => ((st.1, { st.2 with ext := v }), none)
  | .setSummary v =>
    let r := setSummary os st.1 st.2 v
    ((r.2, r.1), none)
  | .readDir =>
    let r := getDumpDir os st.1 st.2.place
    ((r.2.2, { st.2 with place := r.2.1 }), r.1)
  | .path k =>
    let r := filePath os st.1 st.2 k
    ((r.2.2, r.2.1), some r.1)

/-- A history. -/
def fileRun (os : OS) (st : FS × Files) : List FileOp → FS × Files
  | [] => st
  | op :: ops => fileRun os (fileStep os st op).1 ops

/-- The dump of a host, with its level. -/
abbrev Host := Option (String × Files)

/-- `self.dumping = "SUMMARY"` when there is no dump: a new one, which writes if the host's
`dump_to_file` is set. -/
def startDump (base : String) (toFile : Bool) (h : Host) : String × Files :=
  match h with
  | some d => d
  | none => ("SUMMARY", Files.fresh base toFile)

/-- What initialisation does about the dump when `dump_to_file` is set (dynamics.py 822-831;
optimizer.py 415-424). -/
def hostInit (os : OS) (fs : FS) (base : String) (toFile : Bool) (h : Host) : Host × FS :=
  if toFile then
    let d := startDump base toFile h
    let r := createDumpDir os fs { d.2.place with write := true }
    (some (d.1, { d.2 with place := r.2.1 }), r.2.2)
  else (h, fs)

/-- `dump_dir` of the host assigned and read (dynamics.py 510-521; optimizer.py 349-360). -/
def hostSetDir (os : OS) (fs : FS) (base : String) (toFile : Bool) (h : Host)
    (v : Option String) : Host × FS :=
  let d := startDump base toFile h
  let r := setDumpDir os fs d.2.place v
  (some (d.1, { d.2 with place := r.1 }), r.2)

def hostReadDir (os : OS) (fs : FS) (h : Host) : Option String × Host × FS :=
  match h with
  | none => (none, none, fs)
  | some d =>
    let r := getDumpDir os fs d.2.place
    (r.1, some (d.1, { d.2 with place := r.2.1 }), r.2.2)

end QTrl.Io
