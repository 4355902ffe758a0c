import Verif.Model.Reuse

/-
What an object initialised for a system should be, whatever it was used for before.
-/

namespace QTrl.Reuse

open QTrl.Mem (MemOpts Dtype chooseOperDtype)

variable {K V : Type}

/-- What systems have in common: the number of controls, whether they depend on time, the
dimension of the drift, the data type that suits them. -/
structure Sig where
  n : Nat
  timeDep : Bool
  dim : Nat
  dtype : Dtype

/-- The controls are of this kind. -/
def CtrlsFit (s : Sig) : Ctrls V → Prop
  | .list l => s.timeDep = false ∧ l.length = s.n
  | .nested _ => False
  | .array rows => s.timeDep = true ∧ rows ≠ [] ∧ ∀ r ∈ rows, r.length = s.n

/-- The drift has this dimension. -/
def DriftFit (W : World V) (s : Sig) : Drift V → Prop
  | .single A => W.rows A = s.dim
  | .perSlot l => ∃ A r, l = A :: r ∧ W.rows A = s.dim

/-- A system of this kind. -/
structure Fits [AddCommGroup V] (W : World V) (m : MemOpts) (s : Sig) (S : System V) : Prop where
  ctrls : CtrlsFit s S.ctrls
  drift : DriftFit W s S.drift
  dtype : m.operDtype = none → ∀ tdDrift tdCtrl v, sumAll W tdDrift tdCtrl S = .ok v →
    chooseOperDtype m.level (W.rows v) (W.nnz v) = s.dtype

/-- Whether the drift depends on time. -/
def Drift.perSlot? : Drift V → Bool
  | .single _ => false
  | .perSlot _ => true

/-- The options after an initialisation: those set by the user, others by the level
(docstring dynamics.py 218-262). -/
def resolved (m : MemOpts) (phase : Bool) (dtype : Dtype) : MemOpts :=
  let low := decide (m.level ≤ 0)
  { level := m.level
    operDtype := some (m.operDtype.getD dtype)
    cachePhased := some (if phase then m.cachePhased.getD low else false)
    cachePropGrad := some (m.cachePropGrad.getD low)
    cacheAdj := some (m.cacheAdj.getD low)
    sparse := some (m.sparse.getD (decide (1 < m.level))) }

variable [Field K] [AddCommGroup V] [Module K V]

/-- An object that is initialised for the system: everything in it comes from the user's options
and this system. -/
def ready (m : MemOpts) (nTs : Nat) (sympl hasPhase : Bool) (scale : Option K) (s : Sig)
    (S : System V) : Obj K V :=
  { sys := S
    mem := resolved m (sympl || hasPhase) s.dtype
    nTs := nTs
    sympl := sympl
    hasPhase := hasPhase
    checked := true
    num := some s.n
    tdCtrl := s.timeDep
    tdDrift := S.drift.perSlot?
    dim := some s.dim
    omega := if sympl then some (s.dim / 2) else none
    phase := if sympl then some (s.dim / 2) else none
    scale := some (scale.getD (1 / (2 * (s.dim : K))))
    used := some S }

/-- The drift in a slot. -/
def driftOf (S : System V) (k : Nat) : V :=
  match S.drift with
  | .single A => A
  | .perSlot l => l.getD k 0

/-- A control in a slot. -/
def ctrlOf (S : System V) (k j : Nat) : V :=
  match S.ctrls with
  | .list l => l.getD j 0
  | .nested rows => (rows.getD k []).getD j 0
  | .array rows => (rows.getD k []).getD j 0

/-- The generator of a slot: the drift and every control with its amplitude. -/
def docGen (S : System V) (n : Nat) (amps : Nat → Nat → K) (k : Nat) : V :=
  driftOf S k + ((List.range n).map fun j => amps k j • ctrlOf S k j).sum

/-- The histories with systems of a kind. -/
def OpFits (W : World V) (m : MemOpts) (s : Sig) : Op V → Prop
  | .assign S => Fits W m s S
  | _ => True

end QTrl.Reuse
