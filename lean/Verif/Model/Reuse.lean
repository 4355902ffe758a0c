import Verif.Model.Memory
import Mathlib.Algebra.Module.Defs

/-
A dynamics object used for one system after another: the operators are assigned again and
`initialize_controls` is called again, without `reset`.

Modelled are the attributes that the code works out from the system and keeps: `_num_ctrls`,
`_ctrl_dyn_gen_checked`, `time_depend_ctrl_dyn_gen`, `time_depend_drift`, `dyn_shape`,
`oper_dtype` and the caching options, `_omega` and `_dyn_gen_phase` of symplectic dynamics,
`scale_factor` of the trace difference computers, and the internal containers of `_init_evo`.

Simplifications: containers hold operators only (what else is rejected is in
Model/Controls.lean) and lists of lists have rows of equal lengths; the phase of symplectic
dynamics is represented by half its dimension (its sign is in Model/Symplectic.lean);
`phase_application` is an accepted option; the number of time slots stays.
-/

namespace QTrl.Reuse

open QTrl.Mem (MemOpts Dtype setMemory)

variable {K V : Type}

/-- `drift_dyn_gen` -/
inductive Drift (V : Type) where
  | single (A : V)
  | perSlot (l : List V)

/-- `ctrl_dyn_gen`: a list, a list of lists or a two-dimensional array by its rows. -/
inductive Ctrls (V : Type) where
  | list (l : List V)
  | nested (rows : List (List V))
  | array (rows : List (List V))

/-- The operators the user assigns. -/
structure System (V : Type) where
  drift : Drift V
  ctrls : Ctrls V
  initial : V
  target : V

/-- Operators: `shape[0]`, the number of stored elements (the number of all elements if not
sparse), what `Qobj + array` and the application of the phase to something that is not an
operator do. -/
structure World (V : Type) where
  rows : V → Nat
  nnz : V → Nat
  addRow : V → List V → Except PyErr V
  phaseRow : Except PyErr Unit

/-- The object. -/
structure Obj (K V : Type) where
  sys : System V
  mem : MemOpts
  nTs : Nat
  /-- whether it is a `DynamicsSymplectic` -/
  sympl : Bool
  /-- whether `dyn_gen_phase` is not `None`, for other classes -/
  hasPhase : Bool
  /-- `_ctrl_dyn_gen_checked` -/
  checked : Bool
  /-- `_num_ctrls` -/
  num : Option Nat
  /-- `time_depend_ctrl_dyn_gen` -/
  tdCtrl : Bool
  /-- `time_depend_drift` -/
  tdDrift : Bool
  /-- `dyn_shape[0]` -/
  dim : Option Nat
  /-- `_omega`: half its dimension -/
  omega : Option Nat
  /-- `_dyn_gen_phase` of symplectic dynamics: half its dimension -/
  phase : Option Nat
  /-- `scale_factor` -/
  scale : Option K
  /-- `_drift_dyn_gen`, `_ctrl_dyn_gen`, `_initial` and `_target` -/
  used : Option (System V)

/-- The conversion in `_check_ctrls_container` (dynamics.py 62-71). -/
def convert : Ctrls V → Ctrls V
  | .nested rows => .array rows
  | c => c

/-- `self.ctrl_dyn_gen = _check_ctrls_container(self.ctrl_dyn_gen)` -/
def Obj.check (o : Obj K V) : Obj K V :=
  { o with sys := { o.sys with ctrls := convert o.sys.ctrls } }

/-- The counting in `_get_num_ctrls` (dynamics.py 1133-1139). -/
def Obj.count (o : Obj K V) : Obj K V × Nat :=
  match o.sys.ctrls with
  | .array rows =>
      let n := (rows.head?.map List.length).getD 0
      ({ o with num := some n, tdCtrl := true }, n)
  | .list l => ({ o with num := some l.length }, l.length)
  | .nested rows => ({ o with num := some rows.length }, rows.length)

/-- `_get_num_ctrls` (dynamics.py 1129-1139) and the `num_ctrls` properties (1141-1150,
1581-1586). -/
def readNum (o : Obj K V) : Obj K V × Nat :=
  match o.num with
  | some n => (o, n)
  | none => if o.checked then o.count else { o.check with checked := true }.count

/-- `refresh_drift_attribs` (dynamics.py 1099-1116); `time_depend_drift` is set before the first
element is taken only if there is one. -/
def refreshDrift (W : World V) (o : Obj K V) : Obj K V × Except PyErr Unit :=
  match o.sys.drift with
  | .single A => ({ o with tdDrift := false, dim := some (W.rows A) }, .ok ())
  | .perSlot (A :: _) => ({ o with tdDrift := true, dim := some (W.rows A) }, .ok ())
  | .perSlot [] => (o, .error .indexError)

/-- `get_drift_dim` (dynamics.py 1090-1097). -/
def driftDim (W : World V) (o : Obj K V) : Obj K V × Except PyErr Nat :=
  match o.dim with
  | some n => (o, .ok n)
  | none =>
      match refreshDrift W o with
      | (o, .error e) => (o, .error e)
      | (o, .ok ()) => (o, .ok (o.dim.getD 0))

/-- `_get_omega` (dynamics.py 1781-1790). -/
def getOmega (W : World V) (o : Obj K V) : Obj K V × Except PyErr Nat :=
  match o.omega with
  | some n => (o, .ok n)
  | none =>
      match driftDim W o with
      | (o, .error e) => (o, .error e)
      | (o, .ok N) => ({ o with omega := some (N / 2) }, .ok (N / 2))

/-- The `dyn_gen_phase` property of symplectic dynamics (dynamics.py 1798-1826), with the
options 'preop' or 'postop'. -/
def getPhase (W : World V) (o : Obj K V) : Obj K V × Except PyErr Unit :=
  match o.phase with
  | some _ => (o, .ok ())
  | none =>
      match getOmega W o with
      | (o, .error e) => (o, .error e)
      | (o, .ok n) => ({ o with phase := some n }, .ok ())

/-- `_init_phase` (dynamics.py 900-904). -/
def initPhase (W : World V) (o : Obj K V) : Obj K V × Except PyErr Unit :=
  if o.sympl then getPhase W o
  else if o.hasPhase then (o, .ok ())
  else ({ o with mem := { o.mem with cachePhased := some false } }, .ok ())

variable [Field K] [AddCommGroup V] [Module K V]

/-- `for c in ctrls: dg = dg + c` for rows of an array. -/
def addRows (W : World V) (dg : V) : List (List V) → Except PyErr V
  | [] => .ok dg
  | r :: rs =>
      match W.addRow dg r with
      | .error e => .error e
      | .ok dg => addRows W dg rs

/-- The sum of drift and controls in `_choose_oper_dtype` (dynamics.py 684-694). -/
def sumAll (W : World V) (tdDrift tdCtrl : Bool) (S : System V) : Except PyErr V :=
  let drift : Except PyErr V :=
    match S.drift with
    | .single A => if tdDrift then .error .typeError else .ok A
    | .perSlot l => if tdDrift then (match l with | A :: _ => .ok A | [] => .error .indexError)
        else .error .typeError
  match drift with
  | .error e => .error e
  | .ok dg =>
      if tdCtrl then
        match S.ctrls with
        | .list _ => .error .typeError
        | .nested _ => .error .typeError
        | .array (r :: _) => .ok (r.foldl (fun dg c => dg + c) dg)
        | .array [] => .error .indexError
      else
        match S.ctrls with
        | .list l => .ok (l.foldl (fun dg c => dg + c) dg)
        | .nested rows => addRows W dg rows
        | .array rows => addRows W dg rows

/-- `_set_memory_optimizations` (dynamics.py 612-673); the sum is only formed when the data type
is to be chosen by it. -/
def setMem (W : World V) (o : Obj K V) : Obj K V × Except PyErr Unit :=
  if o.mem.operDtype = none ∧ ¬ 0 < o.mem.level then
    match sumAll W o.tdDrift o.tdCtrl o.sys with
    | .error e => (o, .error e)
    | .ok v => ({ o with mem := setMemory o.mem (W.rows v) (W.nnz v) }, .ok ())
  else ({ o with mem := setMemory o.mem 0 0 }, .ok ())

/-- `_ctrl_dyn_gen[k, j]` or `_ctrl_dyn_gen[j]`: an operator or, for the latter, a row. -/
def elem (td : Bool) (c : Ctrls V) (k j : Nat) : Except PyErr (V ⊕ List V) :=
  if td then
    match c with
    | .array rows =>
        match rows[k]? with
        | none => .error .indexError
        | some r => match r[j]? with
          | none => .error .indexError
          | some A => .ok (.inl A)
    | _ => .error .typeError
  else
    match c with
    | .list l => match l[j]? with
      | none => .error .indexError
      | some A => .ok (.inl A)
    | .nested rows | .array rows => match rows[j]? with
      | none => .error .indexError
      | some r => .ok (.inr r)

/-- `for k in range(n_ts): for j in range(n_ctrls):` reading the elements; the first failure. -/
def readAll (c : Ctrls V) (nTs n : Nat) : Except PyErr Unit :=
  ((List.range nTs).flatMap fun k => (List.range n).map fun j => (k, j)).foldl
    (fun r p => match r with
      | .error e => .error e
      | .ok () => (elem true c p.1 p.2).map fun _ => ()) (.ok ())

/-- The containers of `_init_evo` (dynamics.py 750-797). -/
def containers (W : World V) (o : Obj K V) (n : Nat) : Except PyErr Unit :=
  let ctrls : Except PyErr Unit :=
    if o.mem.operDtype = some .qobj then .ok ()
    else if o.mem.operDtype = some .ndarray then
      if o.tdCtrl then readAll o.sys.ctrls o.nTs n
      else match o.sys.ctrls with
        | .list _ => .ok ()
        | .nested rows | .array rows => if rows = [] then .ok () else .error .attributeError
    else .error .valueError
  match ctrls with
  | .error e => .error e
  | .ok () =>
      if o.mem.cachePhased = some true then
        if o.tdCtrl then readAll o.sys.ctrls o.nTs n
        else match o.sys.ctrls with
          | .list _ => .ok ()
          | .nested rows | .array rows => if rows = [] then .ok () else W.phaseRow
      else .ok ()

/-- `FidCompTraceDiff.init_comp` (fidcomp.py 580-590). -/
def initScale (o : Obj K V) : Obj K V :=
  match o.scale with
  | some _ => o
  | none => { o with scale := some (1 / (2 * ((o.dim.getD 0 : Nat) : K))) }

/-- `initialize_controls` (dynamics.py 954-987) up to the amplitudes: `_init_evo` (716-833) and
the `init_comp` of the fidelity computer. -/
def init (W : World V) (o : Obj K V) : Obj K V × Except PyErr Unit :=
  let o := if o.checked then o else o.check
  match refreshDrift W o with
  | (o, .error e) => (o, .error e)
  | (o, .ok ()) =>
  match initPhase W o with
  | (o, .error e) => (o, .error e)
  | (o, .ok ()) =>
  match setMem W o with
  | (o, .error e) => (o, .error e)
  | (o, .ok ()) =>
  if o.mem.sparse = some true ∧ W.rows o.sys.initial ≤ 2 then (o, .error .valueError)
  else
    let r := readNum o
    match containers W r.1 r.2 with
    | .error e => (r.1, .error e)
    | .ok () => (initScale { r.1 with used := some r.1.sys }, .ok ())

/-- `_combine_dyn_gen(k)` (dynamics.py 1216-1234): the generator of a slot. -/
def generator (W : World V) (o : Obj K V) (u : System V) (amps : Nat → Nat → K) (k : Nat) :
    Except PyErr V :=
  let drift : Except PyErr V :=
    match u.drift with
    | .single A => if o.tdDrift then .error .typeError else .ok A
    | .perSlot l => if o.tdDrift then (match l[k]? with | some A => .ok A | none => .error .indexError)
        else .error .typeError
  (List.range (o.num.getD 0)).foldl (fun r j =>
    match r with
    | .error e => .error e
    | .ok dg =>
      match elem o.tdCtrl u.ctrls k j with
      | .error e => .error e
      | .ok (.inl A) => .ok (dg + amps k j • A)
      | .ok (.inr row) => W.addRow dg (row.map fun A => amps k j • A)) drift

/-- What a user does; exceptions are caught. -/
inductive Op (V : Type) where
  | assign (S : System V)
  | readNum
  | readDim
  | readOmega
  | init

/-- One step. -/
def step (W : World V) (o : Obj K V) : Op V → Obj K V
  | .assign S => { o with sys := S }
  | .readNum => (readNum o).1
  | .readDim => (driftDim W o).1
  | .readOmega => if o.sympl then (getOmega W o).1 else o
  | .init => (init W o).1

/-- A history. -/
def run (W : World V) (o : Obj K V) (ops : List (Op V)) : Obj K V := ops.foldl (step W) o

/-- A new object with the user's options. -/
def new (mem : MemOpts) (nTs : Nat) (sympl hasPhase : Bool) (scale : Option K) (S : System V) :
    Obj K V :=
  { sys := S, mem := mem, nTs := nTs, sympl := sympl, hasPhase := hasPhase, checked := false,
    num := none, tdCtrl := false, tdDrift := false, dim := none, omega := none, phase := none,
    scale := scale, used := none }

/-- Assign a system, read the number of controls and initialise, as `create_pulse_optimizer` and
`optimize_pulse` do (pulseoptim.py 1986-2010, 467-483). -/
def prepare (W : World V) (o : Obj K V) (S : System V) : Obj K V × Except PyErr Unit :=
  init W (readNum { o with sys := S }).1

end QTrl.Reuse
