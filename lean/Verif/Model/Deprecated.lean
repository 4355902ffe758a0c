import Verif.Model.Dynamics

/-
The deprecated names that replace one another (dynamics.py 1118-1127, 1168-1173, 1205-1214,
1236-1264, 1343-1346, 1376-1379, 1397-1400; fidcomp.py 231-257; propcomp.py 117-170;
tslotcomp.py 354-364).  The warnings they issue are not modelled.
-/

namespace QTrl.Dyn

variable {d m D : Type} [Fintype d] [DecidableEq d] [Fintype m] [DecidableEq m]

/-- How Python binds the arguments of a call to the parameters of a function, all of which may
be given by position or keyword; `optional` are those with defaults. -/
def bindCall {α : Type} (params optional : List String) (pos : List α)
    (kw : List (String × α)) : Except PyErr (List (String × α)) :=
  if pos.length > params.length then .error .typeError
  else
    let bound := params.zip pos
    if kw.any fun p => (bound.any fun q => q.1 = p.1) || !params.contains p.1 then
      .error .typeError
    else if params.any fun n => !optional.contains n &&
        !(bound ++ kw).any fun q => q.1 = n then .error .typeError
    else .ok (bound ++ kw)

/-- The values passed in `compute_prop_grad`. -/
inductive PArg where
  | obj
  | int (n : Nat)
  | bool (b : Bool)
  deriving DecidableEq

/-- The parameters of `_compute_prop_grad` (propcomp.py 164), the first being the object the
method is bound to. -/
def gradParams : List String := ["self", "k", "j", "compute_prop"]

/-- `_compute_prop_grad(k, j, compute_prop=b)`, as called in tslotcomp.py 276-286. -/
def callPropGrad (k j : Nat) (b : Bool) : Except PyErr (List (String × PArg)) :=
  bindCall gradParams ["compute_prop"] [.obj, .int k, .int j] [("compute_prop", .bool b)]

/-- `compute_prop_grad(k, j, compute_prop=b)` (propcomp.py 157-162) passes on
`(self, k, j, compute_prop=compute_prop)` to the bound method; `run` is what the method does
with its arguments. -/
def oldPropGrad {β : Type} (run : List (String × PArg) → Except PyErr β) (k j : Nat) (b : Bool) :
    Except PyErr β :=
  match bindCall gradParams ["compute_prop"] [.obj, .obj, .int k, .int j]
      [("compute_prop", .bool b)] with
  | .error e => .error e
  | .ok args => run args

/-- `evo_init2t`, `evo_t2end`, `evo_t2targ` (dynamics.py 1343-1346, 1376-1379, 1397-1400). -/
def evoInit2t (s : State d m D) : Nat → Matrix d m ℂ := s.fwd
def evoT2end (s : State d m D) : Nat → Matrix d d ℂ := s.onwd
def evoT2targ (s : State d m D) : Nat → Matrix m d ℂ := s.onto

/-- `get_dyn_gen` (dynamics.py 1236-1244). -/
def getDynGen (S : Sys d m D) (s : State d m D) (k : Nat) : Matrix d d ℂ := getPhasedDynGen S s k

/-- `get_ctrl_dyn_gen` (dynamics.py 1255-1264): always that of the first slot. -/
def getCtrlDynGen (S : Sys d m D) (j : Nat) : Matrix d d ℂ := getPhasedCtrl S 0 j

/-- `compute_propagator` (propcomp.py 117-122). -/
def computePropagator (S : Sys d m D) (s : State d m D) (k : Nat) :
    State d m D × Matrix d d ℂ := computeProp S s k

/-- The generator of one slot is combined again (dynamics.py 1216-1234). -/
def recombine (S : Sys d m D) (amps : Amps) (s : State d m D) (k : Nat) : State d m D :=
  { s with
    dynGen := Function.update s.dynGen k (combineDynGen S amps k)
    phasedDynGen :=
      match S.phase with
      | some ph =>
        if S.cachePhased then Function.update s.phasedDynGen k (ph (combineDynGen S amps k))
        else s.phasedDynGen
      | none => s.phasedDynGen }

/-- `combine_dyn_gen` (dynamics.py 1205-1214): combines the generator, then calls the list of
generators as if it were a function. -/
def oldCombine (S : Sys d m D) (s : State d m D) (k : Nat) :
    State d m D × Except PyErr (Matrix d d ℂ) :=
  match s.ctrlAmps with
  | none => (s, .error .typeError)
  | some amps => (recombine S amps s k, .error .typeError)

/-- What `get_timeslot_for_fidelity_calc` can return: a slot, or a method that was not
called. -/
inductive SlotRet where
  | slot (k : Nat)
  | method

/-- `_get_timeslot_for_fidelity_calc` and its public name (tslotcomp.py 354-372). -/
def newSlotForFid (n : Nat) : SlotRet := .slot n
def oldSlotForFid (_n : Nat) : SlotRet := .method

/-- The flags of a fidelity computer and their old names `uses_evo_t2end` and
`uses_evo_t2targ` (fidcomp.py 231-257). -/
structure Uses where
  onwd : Bool
  onto : Bool

def Uses.t2end (u : Uses) : Bool := u.onwd
def Uses.setT2end (u : Uses) (b : Bool) : Uses := { u with onwd := b }
def Uses.t2targ (u : Uses) : Bool := u.onto
def Uses.setT2targ (u : Uses) (b : Bool) : Uses := { u with onto := b }

end QTrl.Dyn
