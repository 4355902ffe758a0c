import Verif.Model.Unitary
import Verif.Model.Symplectic

/-
Memory optimisation: `_set_memory_optimizations` and `_choose_oper_dtype`
(dynamics.py 612-714), the part of `_init_evo` that uses them (740-833), the cached
eigenvector adjoints (1600-1691) and the list of phased generators.
-/

open Matrix

namespace QTrl.Mem

open QTrl.Dyn

/-- Values of `oper_dtype`: `Qobj`, `np.ndarray` or anything else. -/
inductive Dtype where
  | qobj
  | ndarray
  | other
  deriving DecidableEq

/-- The options; `none` is Python's `None` (not set by the user). -/
structure MemOpts where
  /-- `memory_optimization` -/
  level : Int
  operDtype : Option Dtype
  cachePhased : Option Bool
  cachePropGrad : Option Bool
  cacheAdj : Option Bool
  sparse : Option Bool

/-- `_choose_oper_dtype` (dynamics.py 675-714): `N` is the dimension and `nnz` the number
of stored elements of the sum of the drift and all controls. -/
def chooseOperDtype (level : Int) (N nnz : Nat) : Dtype :=
  if level > 0 then .qobj
  else if N ^ 2 < 100 * nnz then .ndarray
  else if N > 400 then .qobj
  else .ndarray

/-- `_set_memory_optimizations` (dynamics.py 612-673). -/
def setMemory (o : MemOpts) (N nnz : Nat) : MemOpts :=
  let o := match o.operDtype with
    | none => { o with operDtype := some (chooseOperDtype o.level N nnz) }
    | some _ => o
  let o := match o.cachePhased with
    | none => if o.level > 0 then { o with cachePhased := some false }
              else { o with cachePhased := some true }
    | some _ => o
  let o := match o.cachePropGrad with
    | none => if o.level > 0 then { o with cachePropGrad := some false }
              else { o with cachePropGrad := some true }
    | some _ => o
  let o := match o.cacheAdj with
    | none => if o.level > 0 then { o with cacheAdj := some false }
              else { o with cacheAdj := some true }
    | some _ => o
  match o.sparse with
    | none => if o.level > 1 then { o with sparse := some true }
              else { o with sparse := some false }
    | some _ => o

/-- `_init_phase` (899-903), `_set_memory_optimizations` and the checks in `_init_evo`
(739-778); `size` is `sys_shape[0]`. -/
def initMemory (o : MemOpts) (hasPhase : Bool) (size N nnz : Nat) : Except PyErr MemOpts :=
  let o := if hasPhase then o else { o with cachePhased := some false }
  let o := setMemory o N nnz
  if o.sparse = some true ∧ size ≤ 2 then .error .valueError
  else if o.operDtype = some .other then .error .valueError
  else .ok o

/-! ### Cached eigenvector adjoints -/

variable {d m : Type} [Fintype d] [DecidableEq d] [Fintype m] [DecidableEq m]

/-- A decomposition with `_dyn_gen_eigenvectors_adj[k]`, `none` when the list does not
exist. -/
structure DecompAdj (d : Type) where
  core : Decomp d
  adj : Option (Matrix d d ℂ)

/-- `_spectral_decomp` storing the adjoint when the list exists (1663-1680). -/
noncomputable def spectralDecompAdj (cacheAdj : Bool)
    (eigh : Matrix d d ℂ → (d → ℝ) × Matrix d d ℂ) (prec : ℝ) (H : Matrix d d ℂ) (tau : ℝ) :
    DecompAdj d :=
  let D := spectralDecomp eigh prec H tau
  ⟨D, if cacheAdj then some D.eigVecᴴ else none⟩

/-- `_get_dyn_gen_eigenvectors_adj` (1684-1691). -/
def getAdj (D : DecompAdj d) : Matrix d d ℂ :=
  match D.adj with
  | some A => A
  | none => D.core.eigVecᴴ

/-- `PropCompDiag._compute_propagator` (propcomp.py 225-247). -/
noncomputable def diagPropAdj (D : DecompAdj d) : Matrix d d ℂ :=
  D.core.eigVec * diagonal D.core.propEig * getAdj D

/-- `PropCompDiag._compute_prop_grad` (propcomp.py 249-302). -/
noncomputable def diagGradAdj (D : DecompAdj d) (E : Matrix d d ℂ) (tau : ℝ) : Matrix d d ℂ :=
  D.core.eigVec * (((tau : ℂ) • (getAdj D * E * D.core.eigVec)) ⊙ D.core.factor) * getAdj D

/-- A unitary configuration (`Verif/Model/Unitary.lean`) initialised with resolved memory
options.  `phase` is the way the scalar phase `-1j` is multiplied: `phase*dg` (`preop`) or
`dg*phase` (`postop`), dynamics.py 915-937. -/
noncomputable def memSys (c : UnitaryCfg d m) (postop : Bool) (o : MemOpts) :
    Sys d m (DecompAdj d) :=
  initSys
    { nTs := c.nTs
      nCtrls := c.nCtrls
      drift := c.drift
      ctrl := c.ctrl
      tau := c.tau
      phase := some (if postop then fun A => Matrix.of fun i j => A i j * (-Complex.I)
        else fun A => Matrix.of fun i j => (-Complex.I) * A i j)
      initial := c.initial
      target := c.target
      ontoTarget := c.targetᴴ
      isQobj := o.operDtype = some .qobj
      cachePhased := o.cachePhased = some true
      phasedCtrl := fun _ _ => 0
      cachePropGrad := o.cachePropGrad = some true
      propKind := c.propKind
      fidKind := c.fidKind
      phaseOpt := c.phaseOpt
      dimNorm := initNormalization c.phaseOpt c.target
      scale := defaultScale c.scaleFactor (Fintype.card d)
      expm := NormedSpace.exp
      frechet := augMatGrad
      decompose := spectralDecompAdj (o.cacheAdj = some true) c.eigh c.prec
      diagProp := diagPropAdj
      diagGrad := diagGradAdj }

/-! ### The list of phased generators across initialisations -/

/-- The generator attributes: `cache_phased_dyn_gen`, `_dyn_gen`, `_phased_dyn_gen`
(`none` before it is first created). -/
structure GenState (d : Type) where
  cache : Bool
  dynGen : Nat → Matrix d d ℂ
  phased : Option (Nat → Matrix d d ℂ)

/-- Creation of the lists in `_init_evo` (795-797): the phased list is created when caching
is on and otherwise left as it is; `junk` are the placeholders. -/
def GenState.init (junk : Matrix d d ℂ) (s : GenState d) : GenState d :=
  { s with
    dynGen := fun _ => junk
    phased := if s.cache then some (fun _ => junk) else s.phased }

/-- `_combine_dyn_gen` (1216-1234) for a slot whose combined generator is `G`.  With
caching on, the list exists after an initialisation. -/
def GenState.combine (ph : Matrix d d ℂ → Matrix d d ℂ) (s : GenState d) (k : Nat)
    (G : Matrix d d ℂ) : GenState d :=
  { s with
    dynGen := Function.update s.dynGen k G
    phased := if s.cache then s.phased.map fun l => Function.update l k (ph G) else s.phased }

/-- `_get_phased_dyn_gen` (1246-1253) with a phase set. -/
def GenState.get (ph : Matrix d d ℂ → Matrix d d ℂ) (s : GenState d) (k : Nat) :
    Matrix d d ℂ :=
  match s.phased with
  | none => ph (s.dynGen k)
  | some l => l k

/-- What a user does: set `cache_phased_dyn_gen`, initialise, evolve with combined
generators `G k` in slots below `n`. -/
inductive GenOp (d : Type) where
  | setCache (b : Bool)
  | init
  | combineAll (n : Nat) (G : Nat → Matrix d d ℂ)

def GenState.step (ph : Matrix d d ℂ → Matrix d d ℂ) (junk : Matrix d d ℂ) (s : GenState d) :
    GenOp d → GenState d
  | .setCache b => { s with cache := b }
  | .init => s.init junk
  | .combineAll n G => forRange n (fun k s => s.combine ph k (G k)) s

/-! ### Data types of operators -/

/-- An operator in one of the two data types. -/
inductive Oper (d : Type) where
  | qobj (A : Matrix d d ℂ)
  | ndarray (A : Matrix d d ℂ)

/-- `_apply_phase_postop` (927-937) for a matrix phase: an ndarray has a `dot` method, a
`Qobj` has not.  (`ndarray * Qobj` for a Qobj phase and an ndarray generator does not
occur: a Qobj phase is only created when the data type is `Qobj`.) -/
def applyPostop (phase dg : Oper d) : Except PyErr (Oper d) :=
  match phase, dg with
  | .ndarray P, .ndarray A => .ok (.ndarray (A * P))
  | .ndarray _, .qobj _ => .error .attributeError
  | .qobj P, .qobj A => .ok (.qobj (A * P))
  | .qobj _, .ndarray _ => .error .typeError

/-- The first phased control of symplectic dynamics with the default `postop`, as
`_init_evo` computes it when phased generators are cached, and the first phased generator
otherwise: the phase is created in `_init_phase` (738), *before* the data type is chosen
(740), by `_get_omega` (1782-1791) from the data type set so far; the generator has the
data type chosen. -/
noncomputable def symplecticFirstPhase (n : Nat) (o : MemOpts) (nnz : Nat)
    (A : Matrix (Fin (2 * n)) (Fin (2 * n)) ℂ) : Except PyErr (Oper (Fin (2 * n))) :=
  let om := Sympl.omega n
  let phase : Oper (Fin (2 * n)) := if o.operDtype = some .qobj then .qobj (-om) else .ndarray (-om)
  match initMemory o true (2 * n) (2 * n) nnz with
  | .error e => .error e
  | .ok o' =>
    let dg : Oper (Fin (2 * n)) := if o'.operDtype = some .qobj then .qobj A else .ndarray A
    applyPostop phase dg

end QTrl.Mem
