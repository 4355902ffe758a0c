import Mathlib.Data.Rat.Defs

/-
The exception classes of errors.py and what `str` makes of them.
-/

namespace QTrl.Errs

/-- An exception object: its class and attributes.  Attribute values are text. -/
inductive ErrCls where
  | error | usage | functional | terminate | goal | wallTime | fidCalls | gradMin
  deriving DecidableEq

structure Exc where
  cls : ErrCls
  attrs : String → Option String

/-- Attributes from a list. -/
def ofList (l : List (String × String)) : String → Option String := fun k => l.lookup k

/-- The constructors (errors.py 29-30, 41-42, 59-61, 70-71, 80-81, 90-92).  `arg` is the argument as
text; the classes without `__init__` use that of `Exception`, which sets no attribute of these
names. -/
def ErrCls.new (c : ErrCls) (arg : String) : Exc :=
  match c with
  | .error => ⟨c, ofList []⟩
  | .terminate => ⟨c, ofList []⟩
  | .usage => ⟨c, ofList [("message", arg)]⟩
  | .functional => ⟨c, ofList [("message", arg)]⟩
  | .goal => ⟨c, ofList [("reason", "Goal achieved"), ("fid_err", arg)]⟩
  | .wallTime => ⟨c, ofList [("reason", "Max wall time exceeded")]⟩
  | .fidCalls =>
      ⟨c, ofList [("reason", "Number of fidelity error calls has exceeded the maximum")]⟩
  | .gradMin => ⟨c, ofList [("reason", "Gradient normal minimum reached"), ("gradient", arg)]⟩

/-- `str(e)` is `repr(e.message)` (errors.py 16-17); `none` is an AttributeError.  `pyRepr` is
`repr` of a string. -/
def Exc.str (pyRepr : String → String) (e : Exc) : Option String :=
  (e.attrs "message").map pyRepr

/-- The base classes (errors.py 13-83). -/
def ErrCls.base : ErrCls → Option ErrCls
  | .error => none
  | .usage => some .error
  | .functional => some .error
  | .terminate => some .error
  | .goal => some .terminate
  | .wallTime => some .terminate
  | .fidCalls => some .terminate
  | .gradMin => some .terminate

/-- `isinstance(e, c)`; there are at most two steps to the top. -/
def ErrCls.isA (d c : ErrCls) : Bool :=
  d = c || (match d.base with
    | none => false
    | some b => b = c || b.base = some c)

/-- The flags of a result. -/
structure Flags where
  goalAchieved : Bool := false
  wallTimeLimit : Bool := false
  gradNormMin : Bool := false
  maxFidFunc : Bool := false
  reason : Option String := none
  deriving DecidableEq

/-- `_interpret_term_exception` (optimizer.py 760-773), within `except OptimizationTerminate`
(optimizer.py 605); `none` for an exception that is not caught, or without a reason. -/
def handle (f : Flags) (e : Exc) : Option Flags :=
  if e.cls.isA .terminate then
    match e.attrs "reason" with
    | none => none
    | some r =>
        if e.cls.isA .goal then some { f with goalAchieved := true, reason := some r }
        else if e.cls.isA .wallTime then some { f with wallTimeLimit := true, reason := some r }
        else if e.cls.isA .gradMin then some { f with gradNormMin := true, reason := some r }
        else if e.cls.isA .fidCalls then some { f with maxFidFunc := true, reason := some r }
        else some { f with reason := some r }
  else none

end QTrl.Errs
