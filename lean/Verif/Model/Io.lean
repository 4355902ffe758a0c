import Verif.Model.Basic
import Mathlib.Logic.Function.Basic

/-
Model of `create_dir` (io.py) and of the directory of a dump object (dump.py 158-185).

Conventions
* A place in the file system is the list of its components, the last one first; symbolic links
  are resolved, except that a link leading nowhere is a node of its own.
* Another process may act once, between the test whether the name exists and what follows.
* `os.makedirs` is the one of the standard library (`os.py`), with `exist_ok=False`; names have
  no components `.` or `..` left.
-/

namespace QTrl.Io

/-- A place in the file system. -/
abbrev Loc := List String

/-- What is there. -/
inductive Node where
  | dir
  | file
  /-- devices, pipes, sockets -/
  | special
  /-- a symbolic link leading nowhere -/
  | broken
  deriving DecidableEq, Repr

/-- A file system. -/
abbrev FS := Loc → Option Node

/-- `OSError.errno` -/
inductive Errno where
  | eexist
  | enoent
  | enotdir
  /-- any other: no permission, no space, read-only, name too long -/
  | other
  deriving DecidableEq, Repr

/-- `os.path.exists` -/
def FS.exists (fs : FS) (l : Loc) : Bool :=
  match fs l with
  | none => false
  | some .broken => false
  | some _ => true

/-- `os.path.isfile` -/
def FS.isfile (fs : FS) (l : Loc) : Bool := fs l = some .file

/-- `os.mkdir`; `fault` says where the system refuses. -/
def mkdir (fault : Loc → Bool) (fs : FS) : Loc → FS × Option Errno
  | [] => (fs, some .eexist)
  | c :: q =>
      match fs q with
      | none => (fs, some .enoent)
      | some .broken => (fs, some .enoent)
      | some .file => (fs, some .enotdir)
      | some .special => (fs, some .enotdir)
      | some .dir =>
          if (fs (c :: q)).isSome then (fs, some .eexist)
          else if fault (c :: q) then (fs, some .other)
          else (Function.update fs (c :: q) (some .dir), none)

/-- `os.makedirs(name)` -/
def makedirs (fault : Loc → Bool) (fs : FS) : Loc → FS × Option Errno
  | [] => mkdir fault fs []
  | c :: q =>
      if fs.exists q then mkdir fault fs (c :: q)
      else
        match makedirs fault fs q with
        | (fs, none) => mkdir fault fs (c :: q)
        | (fs, some .eexist) => mkdir fault fs (c :: q)
        | (fs, some e) => (fs, some e)

/-- The operating system: functions on names, where a name leads, where directories are refused,
and what another process does. -/
structure OS where
  expanduser : String → String
  abspath : String → String
  loc : String → Loc
  fault : Loc → Bool
  env : FS → FS

/-- `"~" in dir_name` -/
def hasTilde (n : String) : Bool := n.toList.contains '~'

/-- `os.path.isabs` -/
def isabs (n : String) : Bool := n.toList.head? = some '/'

/-- The message. -/
inductive Msg where
  | ready
  | created
  | otherProcess
  | fileExists
  | makedirs (e : Errno)
  deriving DecidableEq, Repr

/-- The name made absolute (io.py 24-29). -/
def resolve (os : OS) (n : String) : String :=
  if hasTilde n then os.expanduser n
  else if !isabs n then os.abspath n
  else n

/-- `create_dir` (io.py 7-55): success, the name, the message; and the file system afterwards. -/
def createDir (os : OS) (fs : FS) (n : String) : (Bool × String × Msg) × FS :=
  let n := resolve os n
  if fs.exists (os.loc n) then
    let fs := os.env fs
    if fs.isfile (os.loc n) then ((false, n, .fileExists), fs)
    else ((true, n, .ready), fs)
  else
    let fs := os.env fs
    match makedirs os.fault fs (os.loc n) with
    | (fs, none) => ((true, n, .created), fs)
    | (fs, some .eexist) => ((true, n, .otherProcess), fs)
    | (fs, some e) => ((false, n, .makedirs e), fs)

/-- The directory attributes of a dump object: `_dump_dir` and `write_to_file`. -/
structure DumpDir where
  dir : Option String
  write : Bool
  deriving DecidableEq, Repr

/-- `DUMP_DIR` (dump.py 23) -/
def defaultDir : String := "~/.qtrl_dump"

/-- `if self._dump_dir is None or len(self._dump_dir) == 0: ...` (dump.py 173-174). -/
def dumpName (dir : Option String) : String :=
  match dir with
  | none => defaultDir
  | some n => if n.length = 0 then defaultDir else n

/-- `create_dump_dir` (dump.py 169-185): returns `dir_ok`. -/
def createDumpDir (os : OS) (fs : FS) (d : DumpDir) : Bool × DumpDir × FS :=
  match createDir os fs (dumpName d.dir) with
  | ((ok, n, _), fs) =>
      (ok, { dir := some n, write := if ok then d.write else false }, fs)

/-- The getter of `dump_dir` (dump.py 157-161). -/
def getDumpDir (os : OS) (fs : FS) (d : DumpDir) : Option String × DumpDir × FS :=
  match d.dir with
  | some n => (some n, d, fs)
  | none =>
      let r := createDumpDir os fs d
      (r.2.1.dir, r.2.1, r.2.2)

/-- The setter of `dump_dir` (dump.py 163-167). -/
def setDumpDir (os : OS) (fs : FS) (d : DumpDir) (v : Option String) : DumpDir × FS :=
  let r := createDumpDir os fs { d with dir := v }
  if r.1 then (r.2.1, r.2.2) else ({ r.2.1 with dir := none }, r.2.2)

end QTrl.Io
