import Verif.Model.LoadParams

/-
How parameter files are meant to be read: the value an attribute gets for a text.
-/

namespace QTrl.Spec.LoadParams

open QTrl.LoadParams

variable {V : Type}

/-- The value for the text according to the kind of the present value: the converter of the
type; numbers may also be expressions; for anything else a number, a truth value or the text,
whichever is possible first. -/
inductive Reads (py : Py V) : Kind → String → V → Prop where
  | qobj {t v} : py.qobj t = some v → Reads py .qobj t v
  | ndarray {dt t v} : py.ndarray dt t = some v → Reads py (.ndarray dt) t v
  | list {t v} : py.list t = some v → Reads py .list t v
  | float {t v} : py.getfloat t = some v → Reads py .float t v
  | floatExpr {t v} : py.getfloat t = none → py.eval t = some v → Reads py .float t v
  | complex {t v} : py.complex t = some v → Reads py .complex t v
  | int {t v} : py.getint t = some v → Reads py .int t v
  | bool {t v} : py.getboolean t = some v → Reads py .bool t v
  | otherFloat {t v} : py.getfloat t = some v → Reads py .other t v
  | otherBool {t v} : py.getfloat t = none → py.getboolean t = some v → Reads py .other t v
  | text {t} : py.getfloat t = none → py.getboolean t = none → Reads py .other t (py.str t)

/-- The converters return values of their types. -/
structure Typed (py : Py V) : Prop where
  qobj : ∀ (t : String) (v : V), py.qobj t = some v → py.kind v = .qobj
  ndarray : ∀ (dt t : String) (v : V), py.ndarray dt t = some v → py.kind v = .ndarray dt
  list : ∀ (t : String) (v : V), py.list t = some v → py.kind v = .list
  getfloat : ∀ (t : String) (v : V), py.getfloat t = some v → py.kind v = .float
  complex : ∀ (t : String) (v : V), py.complex t = some v → py.kind v = .complex
  getint : ∀ (t : String) (v : V), py.getint t = some v → py.kind v = .int
  getboolean : ∀ (t : String) (v : V), py.getboolean t = some v → py.kind v = .bool
  str : ∀ (t : String), py.kind (py.str t) = .other

/-- The text of an option in a section of the file, after interpolation. -/
def HasText (p : Parser) (s n t : String) : Prop :=
  ∃ l raw, p.sections.lookup s = some l ∧
    (l.lookup n = some raw ∨ (l.lookup n = none ∧ p.defaults.lookup n = some raw)) ∧
    p.interp s raw = some t

/-- The option can be applied to the object: it has a text, and if the object has the attribute
the text can be converted and the attribute be set. -/
def Applicable (py : Py V) (p : Parser) (s : String) (o : Obj V) (n : String) : Prop :=
  ∃ t, HasText p s n t ∧
    ∀ a, o.attr n = some a → (∃ v, Reads py (py.kind a) t v) ∧ o.readOnly n = false

/-- The attribute after the option was applied. -/
def AppliedTo (py : Py V) (p : Parser) (s : String) (o o' : Obj V) (n : String) : Prop :=
  match o.attr n with
  | none => o'.attr n = none
  | some a => ∃ t v, HasText p s n t ∧ Reads py (py.kind a) t v ∧ o'.attr n = some v

/-- Names are unique in the sections and the defaults. -/
def WellFormed (p : Parser) : Prop :=
  (∀ s l, p.sections.lookup s = some l → (l.map Prod.fst).Nodup) ∧
  (p.defaults.map Prod.fst).Nodup

/-- The warnings about missing attributes. -/
def missing (s : String) (o : Obj V) (ns : List String) : List Warn :=
  (ns.filter fun n => (o.attr n).isNone).map (Warn.missing s)

/-- The objects given and their sections, in the order they are treated. -/
def jobs (a : Args) : List (Nat × String) :=
  (a.config.map (·, "optimconfig")).toList ++ (a.termConds.map (·, "termconds")).toList ++
  (a.dynamics.map (·, "dynamics")).toList ++ (a.optim.map (·, "optimizer")).toList ++
  (a.pulsegen.map (·, "pulsegen")).toList ++
  (a.obj.bind fun i => a.sect.map fun s => (i, s)).toList

/-- The options that bear on a section: its own, then the defaults not in it. -/
def Named (p : Parser) (s : String) (ns : List String) : Prop :=
  ∃ l, p.sections.lookup s = some l ∧
    ns = l.map Prod.fst ++ (p.defaults.map Prod.fst).filter fun n => n ∉ l.map Prod.fst

end QTrl.Spec.LoadParams
