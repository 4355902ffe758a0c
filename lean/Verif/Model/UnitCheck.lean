import Verif.Model.Unitary

/-
The unitarity check after a recomputation: `_is_unitary`, `check_unitarity`,
`unitarity_check` (dynamics.py 1464-1498, 1693-1731), the call in
`recompute_evolution` (tslotcomp.py 348-349) and the level chosen by `_init_evo`
(dynamics.py 817-820).
-/

open Matrix

namespace QTrl.Dyn

variable {d m : Type} [Fintype d] [DecidableEq d] [Fintype m] [DecidableEq m]

open Classical in
/-- `_is_unitary` (dynamics.py 1464-1480): `np.allclose(eye, A·A†, atol=unitarity_tol)`.
`np.allclose(a, b, atol)` compares `|a - b| ≤ atol + rtol·|b|` entry by entry, with the
default `rtol = 1e-05`.  The branches for `Qobj` and `ndarray` compute the same. -/
noncomputable def isUnitary (tol : ℝ) (A : Matrix d d ℂ) : Bool :=
  decide (∀ i j, ‖(1 : Matrix d d ℂ) i j - (A * Aᴴ) i j‖ ≤ tol + 1e-5 * ‖(A * Aᴴ) i j‖)

open Classical in
/-- The Hermiticity test of `check_unitarity` for arrays (dynamics.py 1712-1713):
`np.all(abs(H† - H) < settings.core["atol"])`. -/
noncomputable def hermTest (atol : ℝ) (H : Matrix d d ℂ) : Bool :=
  decide (∀ i j, ‖Hᴴ i j - H i j‖ < atol)

/-- What the check writes to the log: the warning for one slot, or the line with the
findings `prop unit`, `H herm`, `eigval unit`, `eigvec unit`, `eigvecadj_unit`. -/
inductive CheckRec where
  | notUnitary (k : Nat)
  | details (k : Nat) (prop herm eigval eigvec : Bool) (adj : Option Bool)
  deriving DecidableEq

/-- The classes of dynamics: only `DynamicsUnitary` has a method `check_unitarity`; the
base class has `unitarity_check`, which nothing calls. -/
inductive DynCls where
  | genMat
  | unitary
  | symplectic
  deriving DecidableEq

/-- Settings of the check.  `herm` is the Hermiticity test (`Qobj.isherm`, or `hermTest`). -/
structure CheckCfg (d : Type) where
  cls : DynCls
  /-- `unitarity_check_level` -/
  level : Int
  /-- `unitarity_tol` -/
  tol : ℝ
  herm : Matrix d d ℂ → Bool
  /-- `cache_dyn_gen_eigenvectors_adj` -/
  cacheAdj : Bool

/-- The log written so far and the exception raised, if any. -/
abbrev CheckOut := List CheckRec × Except PyErr Unit

/-- One pass of the loop of `check_unitarity` (dynamics.py 1699-1731).  `diag` says that the
lists of the eigen-decomposition exist: they are created for `PropCompDiag` only
(dynamics.py 814-815); otherwise they are `None`, and `None[k]` raises `TypeError`. -/
noncomputable def checkSlot (cfg : CheckCfg d) (diag : Bool) (s : State d m (Decomp d)) (k : Nat)
    (out : CheckOut) : CheckOut :=
  match out.2 with
  | .error _ => out
  | .ok _ =>
    let propUnit := isUnitary cfg.tol (s.prop k)
    let log := if !propUnit then out.1 ++ [.notUnitary k] else out.1
    if !propUnit || cfg.level > 1 then
      let herm := cfg.herm (s.dynGen k)
      if diag then
        let eigval := isUnitary cfg.tol (diagonal (s.decomp k).propEig)
        let eigvec := isUnitary cfg.tol (s.decomp k).eigVec
        let adj := if cfg.cacheAdj then some (isUnitary cfg.tol (s.decomp k).eigVecᴴ) else none
        (log ++ [.details k propUnit herm eigval eigvec adj], .ok ())
      else (log, .error .typeError)
    else (log, .ok ())

/-- `dyn.check_unitarity()`: `AttributeError` for the classes that lack the method. -/
noncomputable def checkUnitarity (cfg : CheckCfg d) (diag : Bool) (n : Nat)
    (s : State d m (Decomp d)) : CheckOut :=
  match cfg.cls with
  | .unitary => forRange n (checkSlot cfg diag s) ([], .ok ())
  | _ => ([], .error .attributeError)

/-- The slots `unitarity_check` of the base class warns about (dynamics.py 1490-1498). -/
noncomputable def unitarityCheck (tol : ℝ) (n : Nat) (s : State d m (Decomp d)) : List CheckRec :=
  ((List.range n).filter fun k => !isUnitary tol (s.prop k)).map .notUnitary

/-- The end of `recompute_evolution` (tslotcomp.py 348-349). -/
noncomputable def afterRecompute (cfg : CheckCfg d) (S : Sys d m (Decomp d))
    (s : State d m (Decomp d)) : CheckOut :=
  if cfg.level ≠ 0 then checkUnitarity cfg (S.propKind = .diag) S.nTs s else ([], .ok ())

/-- `compute_evolution` (dynamics.py 1420-1436) with the check: an exception of the check
leaves the containers recomputed and `evo_current` unset. -/
noncomputable def computeEvolutionC (cfg : CheckCfg d) (S : Sys d m (Decomp d))
    (s : State d m (Decomp d)) : State d m (Decomp d) × List CheckRec × Except PyErr Bool :=
  if s.evoCurrent then (s, [], .ok false)
  else match s.ctrlAmps with
    | none => ({ s with numRecompute := s.numRecompute + 1, views := {} }, [], .error .typeError)
    | some amps =>
      let t := recompute S amps s
      match afterRecompute cfg S t with
      | (log, .error e) => (t, log, .error e)
      | (log, .ok _) => ({ t with evoCurrent := true }, log, .ok true)

/-- The level after `_init_evo` (dynamics.py 817-820): `1` when the log level is `DEBUG` (10)
or finer and the class is `DynamicsUnitary`. -/
def initLevel (cls : DynCls) (logLevel level : Int) : Int :=
  if logLevel ≤ 10 ∧ cls = .unitary then 1 else level

end QTrl.Dyn
