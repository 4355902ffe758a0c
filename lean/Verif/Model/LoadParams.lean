import Verif.Model.Basic
import Mathlib.Logic.Function.Basic

/-
Model of `load_parameters` and `set_param` (loadparams.py).

Conventions
* Python values are an abstract type; what `ConfigParser.getfloat`, `eval`, `complex` and so on
  make of a text, and the type of a value, are parameters.  `eval` is taken to have no effects.
* An object is a table of attributes; an attribute may be read-only.  Properties are attributes
  whose setter stores the value.
* A parsed file is a list of sections and a list of default options, names unique as
  `ConfigParser` ensures; the interpolation of `%(name)s` is a parameter.
-/

namespace QTrl.LoadParams

/-- The exceptions: the built-in ones, those of `configparser`, and any other raised when the
file is read. -/
inductive Err where
  | valueError
  | attributeError
  | noSection
  | noOption
  | interpolation
  | reading
  deriving DecidableEq, Repr

/-- The cases of `set_param`: what kind of value the attribute has at present. -/
inductive Kind where
  | qobj
  | ndarray (dtype : String)
  | list
  | float
  | complex
  | int
  | bool
  | other
  deriving DecidableEq, Repr

/-- What Python makes of a text; `none` if it raises. -/
structure Py (V : Type) where
  /-- the type of a value -/
  kind : V → Kind
  /-- `Qobj(eval(val))` -/
  qobj : String → Option V
  /-- `np.array(eval(val), dtype=a.dtype)` -/
  ndarray : String → String → Option V
  /-- `list(eval(val))` -/
  list : String → Option V
  /-- `parser.getfloat` -/
  getfloat : String → Option V
  /-- `eval(val)` -/
  eval : String → Option V
  /-- `complex(val)` -/
  complex : String → Option V
  /-- `parser.getint` -/
  getint : String → Option V
  /-- `parser.getboolean` -/
  getboolean : String → Option V
  /-- the text itself -/
  str : String → V

/-- An object. -/
structure Obj (V : Type) where
  attr : String → Option V
  readOnly : String → Bool

/-- `setattr(obj, name, v)` -/
def Obj.set {V : Type} (o : Obj V) (name : String) (v : V) : Except Err (Obj V) :=
  if o.readOnly name then .error .attributeError
  else .ok { o with attr := Function.update o.attr name (some v) }

/-- A parsed file. -/
structure Parser where
  sections : List (String × List (String × String))
  defaults : List (String × String)
  /-- interpolation of the text of an option in a section; `none` if it raises -/
  interp : String → String → Option String

/-- `parser.options(s)`: the names in the section, then those of the defaults that are not in
it; an unknown section raises NoSectionError. -/
def Parser.options (p : Parser) (s : String) : Except Err (List String) :=
  match p.sections.lookup s with
  | none => .error .noSection
  | some l => .ok (l.map Prod.fst ++
      (p.defaults.map Prod.fst).filter fun n => !(l.map Prod.fst).contains n)

/-- `parser.get(s, n)` -/
def Parser.get (p : Parser) (s n : String) : Except Err String :=
  match p.sections.lookup s with
  | none => .error .noSection
  | some l =>
      match (l.lookup n).or (p.defaults.lookup n) with
      | none => .error .noOption
      | some raw =>
          match p.interp s raw with
          | none => .error .interpolation
          | some txt => .ok txt

/-- The warnings logged. -/
inductive Warn where
  | missing (sect name : String)
  | failed (sect : String) (e : Err)
  deriving DecidableEq, Repr

/-- The value an attribute of the given kind gets for a text (loadparams.py 155-230). -/
def convert {V : Type} (py : Py V) (k : Kind) (val : String) : Except Err V :=
  match k with
  | .qobj =>
      match py.qobj val with
      | some v => .ok v
      | none => .error .valueError
  | .ndarray dt =>
      match py.ndarray dt val with
      | some v => .ok v
      | none => .error .valueError
  | .list =>
      match py.list val with
      | some v => .ok v
      | none => .error .valueError
  | .float =>
      match py.getfloat val with
      | some v => .ok v
      | none =>
          match py.eval val with
          | some v => .ok v
          | none => .error .valueError
  | .complex =>
      match py.complex val with
      | some v => .ok v
      | none => .error .valueError
  | .int =>
      match py.getint val with
      | some v => .ok v
      | none => .error .valueError
  | .bool =>
      match py.getboolean val with
      | some v => .ok v
      | none => .error .valueError
  | .other =>
      match py.getfloat val with
      | some v => .ok v
      | none =>
          match py.getboolean val with
          | some v => .ok v
          | none => .ok (py.str val)

/-- `set_param` (loadparams.py 131-230). -/
def setParam {V : Type} (py : Py V) (p : Parser) (s n : String) (o : Obj V) :
    Except Err (Obj V × List Warn) :=
  match p.get s n with
  | .error e => .error e
  | .ok val =>
      match o.attr n with
      | none => .ok (o, [.missing s n])
      | some a =>
          match convert py (py.kind a) val with
          | .error e => .error e
          | .ok v =>
              match o.set n v with
              | .error e => .error e
              | .ok o => .ok (o, [])

/-- `for a in attr_names: set_param(parser, s, a, obj, a)`, with the exception if one ended the
loop; the attributes set before stay set. -/
def setAll {V : Type} (py : Py V) (p : Parser) (s : String) :
    List String → Obj V → Obj V × List Warn × Option Err
  | [], o => (o, [], none)
  | n :: ns, o =>
      match setParam py p s n o with
      | .error e => (o, [], some e)
      | .ok (o, w) =>
          let (o, w', e) := setAll py p s ns o
          (o, w ++ w', e)

/-- The `try` block of a section (loadparams.py 49-60 and the like). -/
def loadSection {V : Type} (py : Py V) (p : Parser) (s : String) (o : Obj V) :
    Obj V × List Warn :=
  match p.options s with
  | .error e => (o, [.failed s e])
  | .ok names =>
      match setAll py p s names o with
      | (o, w, none) => (o, w)
      | (o, w, some e) => (o, w ++ [.failed s e])

/-- The objects of a program, by identity: the same object may be passed twice. -/
abbrev Heap (V : Type) := Nat → Obj V

/-- The arguments: the identities of the objects given. -/
structure Args where
  config : Option Nat
  termConds : Option Nat
  dynamics : Option Nat
  optim : Option Nat
  pulsegen : Option Nat
  obj : Option Nat
  /-- `section`, if it is a string -/
  sect : Option String

/-- `if x is not None: ...` for one of the arguments. -/
def loadInto {V : Type} (py : Py V) (p : Parser) (x : Option Nat) (s : String)
    (h : Heap V × List Warn) : Heap V × List Warn :=
  match x with
  | none => h
  | some id =>
      let (o, w) := loadSection py p s (h.1 id)
      (Function.update h.1 id o, h.2 ++ w)

/-- `load_parameters` (loadparams.py 27-128) for the outcome of `parser.read`: an exception, no
file, or a parsed file.  What the objects are like afterwards, what was logged, and the
exception raised, if any. -/
def load {V : Type} (py : Py V) (file : Except Err (Option Parser)) (a : Args) (h : Heap V) :
    (Heap V × List Warn) × Option Err :=
  match file with
  | .error e => ((h, []), some e)
  | .ok none => ((h, []), some .valueError)
  | .ok (some p) =>
      let r := loadInto py p a.config "optimconfig" (h, [])
      let r := loadInto py p a.termConds "termconds" r
      let r := loadInto py p a.dynamics "dynamics" r
      let r := loadInto py p a.optim "optimizer" r
      let r := loadInto py p a.pulsegen "pulsegen" r
      match a.obj with
      | none => (r, none)
      | some id =>
          match a.sect with
          | none => (r, some .valueError)
          | some s => (loadInto py p (some id) s r, none)

end QTrl.LoadParams
