import Verif.Model.General
import Verif.Spec.Symplectic
import Verif.Spec.OpenSystem
import Verif.Spec.Symmetry

/-
One control problem written for different kinds of dynamics, for C72: Hamiltonians for closed
systems, the generators `-iH` for general ones, commutators as superoperators, and quadratic forms
for symplectic ones.
-/

open Matrix

namespace QTrl.Spec

open QTrl.Dyn

variable {d m n p : Type} [Fintype d] [DecidableEq d] [Fintype m] [DecidableEq m]
  [Fintype n] [DecidableEq n] [Fintype p] [DecidableEq p]

/-- `g` is the closed problem `c` written with generators. -/
structure AsGenerators (c : UnitaryCfg d m) (g : GeneralCfg d m) : Prop where
  nTs : g.nTs = c.nTs
  nCtrls : g.nCtrls = c.nCtrls
  tau : ∀ k, k < c.nTs → g.tau k = c.tau k
  drift : ∀ k, k < c.nTs → g.drift k = -Complex.I • c.drift k
  ctrl : ∀ k j, k < c.nTs → j < c.nCtrls → g.ctrl k j = -Complex.I • c.ctrl k j
  initial : g.initial = c.initial
  target : g.target = c.target
  isQobj : g.isQobj = c.isQobj
  fidKind : g.fidKind = c.fidKind
  phaseOpt : g.phaseOpt = c.phaseOpt
  scaleFactor : g.scaleFactor = c.scaleFactor

/-- The library inverts the target: needed where the unitary measure is used on a square one. -/
def InvertsTarget (g : GeneralCfg d m) : Prop :=
  Fintype.card d = Fintype.card m → g.inv g.target * g.target = 1

/-- `Y` is the object `X` for density matrices.  Its columns are `|x⟩⟨y|` for pairs of columns
`x`, `y` of `X`: one column for a state vector; for an operator `X` it is `ρ ↦ X ρ X†`. -/
def Doubled (e : p ≃ m × m) (X : Matrix n m ℂ) (Y : Matrix (n × n) p ℂ) : Prop :=
  ∀ q, unvec Y q = vecMulVec (fun i => X i (e q).1) (fun i => star (X i (e q).2))

/-- `g` is the closed problem `c` written with superoperators: the generators are the commutators
with the Hamiltonians. -/
structure AsSuperoperators (e : p ≃ m × m) (c : UnitaryCfg n m) (g : GeneralCfg (n × n) p) :
    Prop where
  nTs : g.nTs = c.nTs
  nCtrls : g.nCtrls = c.nCtrls
  tau : ∀ k, k < c.nTs → g.tau k = c.tau k
  drift : ∀ k, k < c.nTs → IsLindblad (g.drift k) (c.drift k) []
  ctrl : ∀ k j, k < c.nTs → j < c.nCtrls → IsLindblad (g.ctrl k j) (c.ctrl k j) []
  initial : Doubled e c.initial g.initial
  target : Doubled e c.target g.target

/-- The generator that belongs to the quadratic form `A`: the standard form `Ω` from the left, or its
negative from the right. -/
def flow {n : Nat} (pre : Bool) (A : Matrix (Fin (2 * n)) (Fin (2 * n)) ℂ) :
    Matrix (Fin (2 * n)) (Fin (2 * n)) ℂ :=
  if pre then stdForm n * A else A * -stdForm n

/-- `g` is the symplectic problem `c` written with generators. -/
structure AsFlow {n : Nat} (pre : Bool) (c : Sympl.Cfg n m) (g : GeneralCfg (Fin (2 * n)) m) :
    Prop where
  nTs : g.nTs = c.nTs
  nCtrls : g.nCtrls = c.nCtrls
  tau : ∀ k, k < c.nTs → g.tau k = c.tau k
  drift : ∀ k, k < c.nTs → g.drift k = flow pre (c.drift k)
  ctrl : ∀ k j, k < c.nTs → j < c.nCtrls → g.ctrl k j = flow pre (c.ctrl k j)
  initial : g.initial = c.initial
  target : g.target = c.target
  fidKind : g.fidKind = .traceDiff
  scaleFactor : g.scaleFactor = c.scaleFactor

/-- `c'` is the gate problem `c` with the slots in reverse order and the target transposed. -/
structure AsTransposed {n : Nat} (c c' : Sympl.Cfg n (Fin (2 * n))) : Prop where
  nTs : c'.nTs = c.nTs
  nCtrls : c'.nCtrls = c.nCtrls
  tau : ∀ k, k < c.nTs → c'.tau k = c.tau (c.nTs - 1 - k)
  drift : ∀ k, k < c.nTs → c'.drift k = c.drift (c.nTs - 1 - k)
  ctrl : ∀ k j, k < c.nTs → j < c.nCtrls → c'.ctrl k j = c.ctrl (c.nTs - 1 - k) j
  initial : c.initial = 1 ∧ c'.initial = 1
  target : c'.target = c.targetᵀ
  scaleFactor : c'.scaleFactor = c.scaleFactor

end QTrl.Spec
