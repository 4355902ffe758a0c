import Verif.Model.Basic

/-
The public lists of `Dynamics` as Python objects: wrapping with dimensions, which fails when
the shapes differ, and lists that are assigned before they are filled (dynamics.py 1152-1203,
1284-1312, 1348-1418), with the timeslot computer `TSlotCompUpdateAll`.

The operators are values of any type together with their shape.  Not modelled: `prop_grad`
(see `Verif/Model/Views.lean`), singular targets.
-/

namespace QTrl.ViewList

variable {V : Type}

/-- An operator: its shape and what it is. -/
structure Arr (V : Type) where
  rows : Nat
  cols : Nat
  val : V

/-- `Qobj(x, dims=…)` for dimensions of the given shape: the shape of the data must be that of
the dimensions.  `none` is the placeholder `object` put into new lists (dynamics.py 794-811). -/
def wrap (shape : Nat × Nat) : Option (Arr V) → Except PyErr (Arr V)
  | none => .error .typeError
  | some a => if (a.rows, a.cols) = shape then .ok a else .error .valueError

/-- A `for` loop that appends wrapped operators to a list: the list as left behind, and the
exception if there was one. -/
def appendLoop (shape : Nat × Nat) : List (Option (Arr V)) → List (Option (Arr V)) →
    List (Option (Arr V)) × Except PyErr Unit
  | acc, [] => (acc, .ok ())
  | acc, x :: xs => match wrap shape x with
    | .error e => (acc, .error e)
    | .ok a => appendLoop shape (acc ++ [some a]) xs

/-- `[Qobj(x, dims=…) for x in l]`. -/
def comprehension (shape : Nat × Nat) (l : List (Option (Arr V))) :
    Except PyErr (List (Option (Arr V))) :=
  match appendLoop shape [] l with
  | (_, .error e) => .error e
  | (r, .ok ()) => .ok r

/-- A private attribute `_…_qobj`: unset, the internal list itself, or a list of its own. -/
inductive View (V : Type) where
  | unset
  | alias
  | list (l : List (Option (Arr V)))

/-- What does not change in the histories considered.  `unitary` is `DynamicsUnitary`, which
takes the adjoint of the target (1589-1598), otherwise the base class with the inverse of an
operator or the bra of a state (1175-1203); `inv` stands for either. -/
structure Cfg (V : Type) where
  n : Nat
  dynShape : Nat × Nat
  sysShape : Nat × Nat
  isQobj : Bool
  usesOnwd : Bool
  usesOnto : Bool
  unitary : Bool
  inv : Arr V → Arr V

/-- The operators held internally. -/
structure Ops (V : Type) where
  dynGen : List (Option (Arr V))
  prop : List (Option (Arr V))
  fwd : List (Option (Arr V))
  onwd : List (Option (Arr V))
  onto : List (Option (Arr V))

/-- The attributes.  `ops = none` before the first initialisation. -/
structure State (V : Type) where
  initial : Arr V
  target : Arr V
  privTarget : Option (Arr V)
  ontoTarget : Option (Arr V)
  ontoTargetQ : Option (Arr V)
  ops : Option (Ops V)
  dynGenQ : View V
  propQ : View V
  fwdQ : View V
  onwdQ : View V
  ontoQ : View V

/-- The attributes after `reset` (dynamics.py 388-407) and the assignment of initial and
target. -/
def start (initial target : Arr V) : State V :=
  ⟨initial, target, none, none, none, none, .unset, .unset, .unset, .unset, .unset⟩

/-- `_get_onto_evo_target` (1175-1203, 1589-1598); `none` is the failure on a missing
attribute. -/
def getOntoTarget (c : Cfg V) (s : State V) : Option (Arr V) :=
  if c.unitary && !c.isQobj then s.privTarget.map c.inv else some (c.inv s.target)

/-- `onto_evo_target` (1152-1166).  Reading it before the first initialisation, when the
operator data type is not yet known, raises and is not modelled further. -/
def readOntoTarget (c : Cfg V) (s : State V) : State V × Except PyErr (Arr V) :=
  match s.ontoTarget with
  | some t => match s.ontoTargetQ with
    | some q => (s, .ok q)
    | none => ({ s with ontoTargetQ := some t }, .ok t)
  | none => match getOntoTarget c s with
    | none => (s, .error .attributeError)
    | some t => match s.ontoTargetQ with
      | some q => ({ s with ontoTarget := some t }, .ok q)
      | none => ({ s with ontoTarget := some t, ontoTargetQ := some t }, .ok t)

/-- When the internal lists are replaced, a public list that was the internal one goes on
existing. -/
def freeze (old : List (Option (Arr V))) : View V → View V
  | .alias => .list old
  | v => v

/-- `_init_evo` (747-751, 794-812): new internal lists of placeholders; the public ones are
left alone. -/
def initEvo (c : Cfg V) (s : State V) : State V :=
  let t := if c.usesOnto then getOntoTarget c { s with privTarget := some s.target }
    else s.ontoTarget
  let new : Ops V :=
    ⟨List.replicate c.n none, List.replicate c.n none,
     some s.initial :: List.replicate c.n none, List.replicate c.n none,
     List.replicate c.n none ++ [t]⟩
  let s := match s.ops with
    | none => s
    | some o => { s with dynGenQ := freeze o.dynGen s.dynGenQ, propQ := freeze o.prop s.propQ
                         fwdQ := freeze o.fwd s.fwdQ, onwdQ := freeze o.fwd s.onwdQ
                         ontoQ := freeze o.onto s.ontoQ }
  { s with privTarget := some s.target, ontoTarget := t, ops := some new }

/-- What a computation puts into the internal lists: the generators, the propagators, the
forward evolution after the initial operator, the onward evolution, the onto evolution before
the inverse target. -/
structure Computed (V : Type) where
  dynGen : List (Arr V)
  prop : List (Arr V)
  fwd : List (Arr V)
  onwd : List (Arr V)
  onto : List (Arr V)

/-- `TSlotCompUpdateAll.recompute_evolution` (tslotcomp.py 225-352): the public lists are
dropped (237-244), the internal lists filled in place. -/
def recompute (c : Cfg V) (s : State V) (x : Computed V) : State V :=
  let s := { s with dynGenQ := .unset, propQ := .unset, fwdQ := .unset, onwdQ := .unset
                    ontoQ := .unset }
  match s.ops with
  | none => s
  | some o =>
    let new : Ops V :=
      ⟨x.dynGen.map some, x.prop.map some, o.fwd.take 1 ++ x.fwd.map some,
       if c.usesOnwd then x.onwd.map some else o.onwd,
       if c.usesOnto then x.onto.map some ++ o.onto.drop c.n else o.onto⟩
    { s with ops := some new }

/-- The public list `v` over the internal one `l`. -/
def shown (l : List (Option (Arr V))) : View V → Option (List (Option (Arr V)))
  | .unset => none
  | .alias => some l
  | .list r => some r

/-- What reading a public list gives: `None`, a list, or an exception. -/
abbrev Read (V : Type) := Except PyErr (Option (List (Option (Arr V))))

/-- `dyn_gen` (1284-1297). -/
def readDynGen (c : Cfg V) (s : State V) : State V × Read V :=
  match s.ops with
  | none => (s, .ok (shown [] s.dynGenQ))
  | some o => match s.dynGenQ with
    | .unset =>
      if c.isQobj then ({ s with dynGenQ := .alias }, .ok (some o.dynGen))
      else match comprehension c.dynShape o.dynGen with
        | .error e => (s, .error e)
        | .ok l => ({ s with dynGenQ := .list l }, .ok (some l))
    | v => (s, .ok (shown o.dynGen v))

/-- `prop` (1299-1312). -/
def readProp (c : Cfg V) (s : State V) : State V × Read V :=
  match s.ops with
  | none => (s, .ok (shown [] s.propQ))
  | some o => match s.propQ with
    | .unset =>
      if c.isQobj then ({ s with propQ := .alias }, .ok (some o.prop))
      else match comprehension c.dynShape o.prop with
        | .error e => (s, .error e)
        | .ok l => ({ s with propQ := .list l }, .ok (some l))
    | v => (s, .ok (shown o.prop v))

/-- `fwd_evo` (1348-1364): the list exists before the loop fills it. -/
def readFwd (c : Cfg V) (s : State V) : State V × Read V :=
  match s.ops with
  | none => (s, .ok (shown [] s.fwdQ))
  | some o => match s.fwdQ with
    | .unset =>
      if c.isQobj then ({ s with fwdQ := .alias }, .ok (some o.fwd))
      else match appendLoop c.sysShape [some s.initial] (o.fwd.drop 1) with
        | (l, .error e) => ({ s with fwdQ := .list l }, .error e)
        | (l, .ok ()) => ({ s with fwdQ := .list l }, .ok (some l))
    | v => (s, .ok (shown o.fwd v))

/-- `onwd_evo` (1379-1393): the forward list with the operator data type `Qobj`, otherwise
the onward operators with the dimensions of the initial operator. -/
def readOnwd (c : Cfg V) (s : State V) : State V × Read V :=
  match s.ops with
  | none => (s, .ok (shown [] s.onwdQ))
  | some o =>
    if c.usesOnwd then
      match s.onwdQ with
      | .unset =>
        if c.isQobj then ({ s with onwdQ := .alias }, .ok (some o.fwd))
        else match comprehension c.sysShape o.onwd with
          | .error e => (s, .error e)
          | .ok l => ({ s with onwdQ := .list l }, .ok (some l))
      | v => (s, .ok (shown o.fwd v))
    else (s, .ok (shown [] s.onwdQ))

/-- `onto_evo` (1400-1418): again the list exists before the loop fills it, with the dimensions
of the initial operator; the last entry is the public inverse target. -/
def readOnto (c : Cfg V) (s : State V) : State V × Read V :=
  match s.ops with
  | none => (s, .ok (shown [] s.ontoQ))
  | some o =>
    if c.usesOnto then
      match s.ontoQ with
      | .unset =>
        if c.isQobj then ({ s with ontoQ := .alias }, .ok (some o.onto))
        else match appendLoop c.sysShape [] (o.onto.take c.n) with
          | (l, .error e) => ({ s with ontoQ := .list l }, .error e)
          | (l, .ok ()) => match readOntoTarget c s with
            | (s, .error e) => ({ s with ontoQ := .list l }, .error e)
            | (s, .ok t) => ({ s with ontoQ := .list (l ++ [some t]) }, .ok (some (l ++ [some t])))
      | v => (s, .ok (shown o.onto v))
    else (s, .ok (shown [] s.ontoQ))

/-- What a user can do. -/
inductive Op (V : Type) where
  | setTarget (t : Arr V)
  | init
  | compute (x : Computed V)
  | readDynGen
  | readProp
  | readFwd
  | readOnwd
  | readOnto
  | readOntoTarget

/-- One operation; exceptions are caught by the user.  A computation, and reading the inverse
target, make sense only after an initialisation. -/
def step (c : Cfg V) (s : State V) : Op V → State V
  | .setTarget t => { s with target := t }
  | .init => initEvo c s
  | .compute x => recompute c s x
  | .readDynGen => (readDynGen c s).1
  | .readProp => (readProp c s).1
  | .readFwd => (readFwd c s).1
  | .readOnwd => (readOnwd c s).1
  | .readOnto => (readOnto c s).1
  | .readOntoTarget => if s.ops.isSome then (readOntoTarget c s).1 else s

/-- A history. -/
def run (c : Cfg V) (s : State V) (ops : List (Op V)) : State V := ops.foldl (step c) s

end QTrl.ViewList
