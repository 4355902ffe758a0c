import Verif.Model.Dynamics

/-
Containers for controls and drift: `_check_ctrls_container`, `_check_drift_dyn_gen`
(dynamics.py 55-97), `_get_num_ctrls` (1129-1150), and the two names for generators of
unitary dynamics (1565-1587).
-/

namespace QTrl.Ctrl

variable {d : Type}

/-- A Python value as far as the checks look into it: an operator, a list or tuple, a
numpy array given by shape and elements, or anything else. -/
inductive PyVal (d : Type) where
  | qobj (A : Matrix d d ℂ)
  | list (l : List (PyVal d))
  | array (shape : List Nat) (elem : Nat → Nat → PyVal d)
  | other

def PyVal.isQobj : PyVal d → Bool
  | .qobj _ => true
  | _ => false

/-- `ctrls_[i, :] = ctrl` for an object array with `cols` columns: a sequence of the right
length is stored elementwise, a sequence of length one is broadcast, any other length
raises `ValueError`.  What numpy does for a value that is not a sequence is the parameter
`odd`. -/
def assignRow (odd : PyVal d → Nat → Except PyErr (Nat → PyVal d)) (cols : Nat) :
    PyVal d → Except PyErr (Nat → PyVal d)
  | .list r =>
    if r.length = cols then .ok fun j => (r[j]?).getD .other
    else match r with
      | [x] => .ok fun _ => x
      | _ => .error .valueError
  | v => odd v cols

/-- An array with a row put in front. -/
def consRow (row : Nat → PyVal d) (rows : Nat → Nat → PyVal d) : Nat → Nat → PyVal d
  | 0 => row
  | i + 1 => rows i

/-- The loop `for i, ctrl in enumerate(ctrls): ctrls_[i, :] = ctrl` (dynamics.py 66-67). -/
def assignRows (odd : PyVal d → Nat → Except PyErr (Nat → PyVal d)) (cols : Nat) :
    List (PyVal d) → Except PyErr (Nat → Nat → PyVal d)
  | [] => .ok fun _ _ => .other
  | r :: rs =>
    match assignRow odd cols r with
    | .error e => .error e
    | .ok row =>
      match assignRows odd cols rs with
      | .error e => .error e
      | .ok rows => .ok (consRow row rows)

/-- The checks of the second half (dynamics.py 72-85). -/
def checkElems : PyVal d → Except PyErr (PyVal d)
  | .array shape elem =>
    match shape with
    | [n, c] =>
      if ∀ k, k < n → ∀ j, j < c → (elem k j).isQobj then .ok (.array shape elem)
      else .error .typeError
    | _ => .error .typeError
  | .list l => if l.all PyVal.isQobj then .ok (.list l) else .error .typeError
  | _ => .error .typeError

/-- `_check_ctrls_container` (dynamics.py 55-87). -/
def checkCtrls (odd : PyVal d → Nat → Except PyErr (Nat → PyVal d)) (v : PyVal d) :
    Except PyErr (PyVal d) :=
  match v with
  | .list (.list r0 :: rs) =>
    match assignRows odd r0.length (.list r0 :: rs) with
    | .error e => .error e
    | .ok rows => checkElems (.array [rs.length + 1, r0.length] rows)
  | v => checkElems v

/-- `_check_drift_dyn_gen` (dynamics.py 90-97). -/
def checkDrift : PyVal d → Except PyErr Unit
  | .qobj _ => .ok ()
  | .list l => if l.all PyVal.isQobj then .ok () else .error .typeError
  | _ => .error .typeError

/-- `_get_num_ctrls` on a checked container (dynamics.py 1135-1140): the number of controls
and `time_depend_ctrl_dyn_gen`. -/
def numCtrls : PyVal d → Nat × Bool
  | .array shape _ => ((shape[1]?).getD 0, true)
  | .list l => (l.length, false)
  | _ => (0, false)

/-- `_ctrl_dyn_gen[k, j]` or `_ctrl_dyn_gen[j]` as used in `_combine_dyn_gen`
(dynamics.py 1226-1230). -/
def ctrlAt : PyVal d → Nat → Nat → Option (Matrix d d ℂ)
  | .array _ elem, k, j => match elem k j with
    | .qobj A => some A
    | _ => none
  | .list l, _, j => match l[j]? with
    | some (.qobj A) => some A
    | _ => none
  | _, _, _ => none

/-! ### The cached number of controls -/

/-- `ctrl_dyn_gen`, `_ctrl_dyn_gen_checked`, `_num_ctrls`, `time_depend_ctrl_dyn_gen`. -/
structure CtrlState (d : Type) where
  ctrls : PyVal d
  checked : Bool := false
  num : Option Nat := none
  timeDep : Bool := false

/-- The `num_ctrls` property (dynamics.py 1129-1153). -/
def CtrlState.readNum (odd : PyVal d → Nat → Except PyErr (Nat → PyVal d)) (s : CtrlState d) :
    CtrlState d × Except PyErr Nat :=
  match s.num with
  | some n => (s, .ok n)
  | none =>
    let r : Except PyErr (CtrlState d) :=
      if s.checked then .ok s
      else match checkCtrls odd s.ctrls with
        | .error e => .error e
        | .ok c => .ok { s with ctrls := c, checked := true }
    match r with
    | .error e => (s, .error e)
    | .ok s =>
      let (n, td) := numCtrls s.ctrls
      ({ s with num := some n, timeDep := s.timeDep || td }, .ok n)

/-- The control related part of `_init_evo` (dynamics.py 725-726, 750). -/
def CtrlState.init (odd : PyVal d → Nat → Except PyErr (Nat → PyVal d)) (s : CtrlState d) :
    CtrlState d × Except PyErr Nat :=
  if s.checked then s.readNum odd
  else match checkCtrls odd s.ctrls with
    | .error e => (s, .error e)
    | .ok c => CtrlState.readNum odd { s with ctrls := c }

/-- Assigning `ctrl_dyn_gen`. -/
def CtrlState.set (s : CtrlState d) (v : PyVal d) : CtrlState d := { s with ctrls := v }

/-! ### Two names for the generators -/

/-- `drift_dyn_gen` / `drift_ham` of a `DynamicsUnitary` object (the control pair behaves the
same); `none` is Python's `None`.  `used` is what the last initialisation took. -/
structure Names (V : Type) where
  dynGen : Option V := none
  ham : Option V := none
  used : Option V := none

/-- One of the two assignments of `_map_dyn_gen_to_ham` (dynamics.py 1571-1579). -/
def Names.map {V : Type} (s : Names V) : Names V :=
  match s.dynGen with
  | none => { s with dynGen := s.ham }
  | some g => { s with ham := some g }

inductive NameOp (V : Type) where
  | setDynGen (v : V)
  | setHam (v : V)
  | init

/-- `init` is `initialize_controls` (1565-1569), which uses `drift_dyn_gen`. -/
def Names.step {V : Type} (s : Names V) : NameOp V → Names V
  | .setDynGen v => { s with dynGen := some v }
  | .setHam v => { s with ham := some v }
  | .init => { s.map with used := s.map.dynGen }

def namesRun {V : Type} (ops : List (NameOp V)) : Names V := ops.foldl Names.step {}

end QTrl.Ctrl
