import Verif.Model.Basic

/-
Model of the dump levels (dump.py): the flags of `OptimDump` and `DynamicsDump`, the `level`
property, `reset`, and the `dumping` property of the hosts (optimizer.py 313-347,
dynamics.py 472-508).
-/

namespace QTrl.Dump

/-- A value assigned to `level` or `dumping`: a string or anything else. -/
inductive LvlVal where
  | str (s : String)
  | other
  deriving DecidableEq

/-- The flags of `OptimDump`: `dump_summary`, `dump_fid_err`, `dump_grad_norm`,
`dump_grad`. -/
structure OptFlags where
  summary : Bool
  fidErr : Bool
  gradNorm : Bool
  grad : Bool
  deriving DecidableEq

/-- The flags of `DynamicsDump`. -/
structure DynFlags where
  summary : Bool
  amps : Bool
  dynGen : Bool
  prop : Bool
  propGrad : Bool
  fwd : Bool
  onwd : Bool
  onto : Bool
  deriving DecidableEq

/-- What the two dump classes do differently with their flags: the assignments of the level
branches of `_apply_level`, `dump_summary = True` in `Dump.reset`, and the properties. -/
structure Kind (F : Type) where
  /-- the branch `level == "SUMMARY"` -/
  setSummary : F → F
  /-- the branch `level == "FULL"` -/
  setFull : F → F
  /-- `self.dump_summary = True` -/
  summaryOn : F → F
  /-- `dump_summary` -/
  summary : F → Bool
  /-- `dump_any` -/
  any : F → Bool
  /-- `dump_all` -/
  all : F → Bool

/-- `OptimDump` (dump.py 279-314). -/
def optKind : Kind OptFlags where
  setSummary _ := { summary := true, fidErr := false, gradNorm := false, grad := false }
  setFull _ := { summary := true, fidErr := true, gradNorm := true, grad := true }
  summaryOn f := { f with summary := true }
  summary f := f.summary
  any f := f.fidErr || f.gradNorm || f.grad
  all f := f.fidErr && f.gradNorm && f.grad

/-- `DynamicsDump` (dump.py 551-617) for a fidelity computer with the given
`uses_onwd_evo` and `uses_onto_evo`. -/
def dynKind (usesOnwd usesOnto : Bool) : Kind DynFlags where
  setSummary _ :=
    { summary := true, amps := false, dynGen := false, prop := false, propGrad := false
      fwd := false, onwd := false, onto := false }
  setFull _ :=
    { summary := true, amps := true, dynGen := true, prop := true, propGrad := true
      fwd := true, onwd := usesOnwd, onto := usesOnto }
  summaryOn f := { f with summary := true }
  summary f := f.summary
  any f := [f.amps, f.dynGen, f.prop, f.propGrad, f.fwd, f.onwd, f.onto].any id
  all f := [f.amps, f.dynGen, f.prop, f.propGrad, f.fwd, f.onwd == usesOnwd,
    f.onto == usesOnto].all id

variable {F : Type}

/-- `_apply_level` (dump.py 289-314, 582-617): `stored` is `self._level`, `arg` the optional
argument. -/
def applyLevel (K : Kind F) (stored : LvlVal) (arg : Option LvlVal) (f : F) : Except PyErr F :=
  match arg.getD stored with
  | .other => .error .valueError
  | .str v =>
      let level := pyUpper v
      let level := if level = "CUSTOM" then
          (if stored = .str "CUSTOM" then level else "SUMMARY") else level
      if level = "SUMMARY" then .ok (K.setSummary f)
      else if level = "FULL" then .ok (K.setFull f)
      else .error .valueError

/-- `_level` and the flags of a dump object. -/
structure LState (F : Type) where
  level : LvlVal
  flags : F

/-- Assigning `level` (dump.py 138-141): the value is stored first. -/
def setLevel (K : Kind F) (s : LState F) (v : LvlVal) : LState F × Except PyErr Unit :=
  match applyLevel K v none s.flags with
  | .error e => ({ s with level := v }, .error e)
  | .ok f => ({ level := v, flags := f }, .ok ())

/-- Reading `level` (dump.py 113-136). -/
def readLevel (K : Kind F) (f : F) : String :=
  if K.summary f && !K.any f then "SUMMARY"
  else if K.summary f && K.all f then "FULL"
  else "CUSTOM"

/-- The part of `reset` that concerns the flags (dump.py 86-99, 262-264, 540-542). -/
def reset (K : Kind F) (s : LState F) : LState F × Except PyErr Unit :=
  match applyLevel K s.level none (K.summaryOn s.flags) with
  | .error e => ({ s with flags := K.summaryOn s.flags }, .error e)
  | .ok f => ({ s with flags := f }, .ok ())

/-- Construction with a level (dump.py 253-260, 531-538); `blank` stands for flags that do not
exist yet, they are all assigned by a successful `reset`. -/
def construct (K : Kind F) (blank : F) (v : LvlVal) : Except PyErr (LState F) :=
  match reset K ⟨v, blank⟩ with
  | (_, .error e) => .error e
  | (s, .ok ()) => .ok s

/-- A value assigned to `dumping`. -/
inductive DumpingVal where
  | none
  | str (s : String)
  | other

/-- Assigning `dumping` (optimizer.py 333-347, dynamics.py 494-508); the state is the host's
`dump` attribute. -/
def setDumping (K : Kind F) (blank : F) (h : Option (LState F)) :
    DumpingVal → Option (LState F) × Except PyErr Unit
  | .none => (none, .ok ())
  | .other => (h, .error .typeError)
  | .str v =>
      if pyUpper v = "NONE" then (none, .ok ())
      else
        match h with
        | some s =>
            let r := setLevel K s (.str (pyUpper v))
            (some r.1, r.2)
        | none =>
            match construct K blank (.str (pyUpper v)) with
            | .error e => (h, .error e)
            | .ok s => (some s, .ok ())

/-- Reading `dumping` (optimizer.py 326-331, dynamics.py 487-492). -/
def readDumping (K : Kind F) : Option (LState F) → String
  | none => "NONE"
  | some s => readLevel K s.flags

/-- What a user can do with a dump object. -/
inductive LOp (F : Type) where
  | setLevel (v : LvlVal)
  /-- setting flags individually -/
  | setFlags (f : F)

/-- One operation; exceptions are caught by the user. -/
def lstep (K : Kind F) (s : LState F) : LOp F → LState F
  | .setLevel v => (setLevel K s v).1
  | .setFlags f => { s with flags := f }

end QTrl.Dump
