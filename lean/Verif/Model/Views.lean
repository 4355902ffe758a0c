import Verif.Model.Dynamics

/-
The public operator views of `Dynamics` (dynamics.py 1284-1418).

The `Qobj` wrapping of an ndarray is the identity on the matrix.  With
`oper_dtype == Qobj` the view *is* the internal list; as the internal lists are
only written by `recompute_evolution`, which drops the views first, a snapshot
behaves the same until the next recomputation.
-/

namespace QTrl.Dyn

variable {d m D : Type} [Fintype d] [DecidableEq d] [Fintype m] [DecidableEq m]

/-- `dyn_gen` (dynamics.py 1284-1297). -/
def readDynGen (s : State d m D) : State d m D × Option (Nat → Matrix d d ℂ) :=
  match s.views.dynGen with
  | some v => (s, some v)
  | none => ({ s with views := { s.views with dynGen := some s.dynGen } }, some s.dynGen)

/-- `prop` (dynamics.py 1299-1312). -/
def readProp (s : State d m D) : State d m D × Option (Nat → Matrix d d ℂ) :=
  match s.views.prop with
  | some v => (s, some v)
  | none => ({ s with views := { s.views with prop := some s.prop } }, some s.prop)

/-- `prop_grad` (dynamics.py 1314-1332): `None` when there is no cached gradient
array (766-769). -/
def readPropGrad (S : Sys d m D) (s : State d m D) :
    State d m D × Option (Nat → Nat → Matrix d d ℂ) :=
  if gradExact S && S.cachePropGrad then
    match s.views.propGrad with
    | some v => (s, some v)
    | none => ({ s with views := { s.views with propGrad := some s.propGrad } }, some s.propGrad)
  else (s, s.views.propGrad)

/-- `fwd_evo` (dynamics.py 1348-1364): for ndarrays the first entry is `initial`. -/
def readFwd (S : Sys d m D) (s : State d m D) : State d m D × Option (Nat → Matrix d m ℂ) :=
  match s.views.fwd with
  | some v => (s, some v)
  | none =>
    let v := if S.isQobj then s.fwd else Function.update s.fwd 0 S.initial
    ({ s with views := { s.views with fwd := some v } }, some v)

/-- `full_evo` (dynamics.py 1369-1372). -/
def readFull (S : Sys d m D) (s : State d m D) : State d m D × Option (Matrix d m ℂ) :=
  ((readFwd S s).1, (readFwd S s).2.map fun v => v S.nTs)

/-- `onwd_evo` (dynamics.py 1379-1393).  With `oper_dtype == Qobj` the *forward*
operators are returned (line 1388). -/
def readOnwd (S : Sys d m D) (s : State d m D) :
    State d m D × Option (Nat → Matrix d d ℂ ⊕ Matrix d m ℂ) :=
  if usesOnwd S then
    match s.views.onwd with
    | some v => (s, some v)
    | none =>
      let v := if S.isQobj then fun k => Sum.inr (s.fwd k) else fun k => Sum.inl (s.onwd k)
      ({ s with views := { s.views with onwd := some v } }, some v)
  else (s, s.views.onwd)

/-- `onto_evo` (dynamics.py 1400-1418): for ndarrays the last entry is the public
`onto_evo_target`. -/
def readOnto (S : Sys d m D) (s : State d m D) : State d m D × Option (Nat → Matrix m d ℂ) :=
  if usesOnto S then
    match s.views.onto with
    | some v => (s, some v)
    | none =>
      let v := if S.isQobj then s.onto else Function.update s.onto S.nTs S.ontoTarget
      ({ s with views := { s.views with onto := some v } }, some v)
  else (s, s.views.onto)

/-- Histories of operations and view reads. -/
inductive VOp where
  | op (o : Op)
  | readDynGen
  | readProp
  | readPropGrad
  | readFwd
  | readOnwd
  | readOnto

/-- State after one step. -/
noncomputable def vstep (S : Sys d m D) (junk s : State d m D) : VOp → State d m D
  | .op o => (step S junk s o).1
  | .readDynGen => (readDynGen s).1
  | .readProp => (readProp s).1
  | .readPropGrad => (readPropGrad S s).1
  | .readFwd => (readFwd S s).1
  | .readOnwd => (readOnwd S s).1
  | .readOnto => (readOnto S s).1

/-- State after a history. -/
noncomputable def vrun (S : Sys d m D) (junk s : State d m D) (ops : List VOp) : State d m D :=
  ops.foldl (vstep S junk) s

end QTrl.Dyn
