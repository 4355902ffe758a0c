import Mathlib.Analysis.Normed.Algebra.MatrixExponential
import Mathlib.Analysis.SpecialFunctions.Exponential
import Mathlib.Data.Matrix.Block
import Mathlib.LinearAlgebra.UnitaryGroup
import Mathlib.LinearAlgebra.Matrix.Hadamard

/-
The propagator computers of propcomp.py and the spectral decomposition of
`DynamicsUnitary` (dynamics.py 1600-1682) on complex matrices.  `scipy.linalg.expm`
is the matrix exponential; the eigen-solver is a parameter.
-/

open Matrix

namespace QTrl.Dyn

variable {d : Type} [Fintype d] [DecidableEq d]

/-- What `_spectral_decomp` stores for one slot: `_dyn_gen_eigenvectors[k]`, the
diagonal of `_prop_eigen[k]` and `_dyn_gen_factormatrix[k]`. -/
structure Decomp (d : Type) where
  eigVec : Matrix d d ℂ
  propEig : d → ℂ
  factor : Matrix d d ℂ

open Classical in
/-- `_spectral_decomp` (dynamics.py 1600-1682).  `eigh H` returns the eigenvalues and
the matrix whose columns are the eigenvectors; `prec` is `fact_mat_round_prec`.
The names follow the code: `eig_val_cols[i, j] = eig_val_tau[j]`. -/
noncomputable def spectralDecomp (eigh : Matrix d d ℂ → (d → ℝ) × Matrix d d ℂ) (prec : ℝ)
    (H : Matrix d d ℂ) (tau : ℝ) : Decomp d :=
  let eigVal := (eigh H).1
  let eigValTau : d → ℂ := fun j => -Complex.I * (eigVal j : ℂ) * (tau : ℂ)
  let propEig : d → ℂ := fun j => Complex.exp (eigValTau j)
  let eigValCols : Matrix d d ℂ := Matrix.of fun _ j => eigValTau j
  let eigValDiffs := eigValCols - eigValColsᵀ
  let propEigCols : Matrix d d ℂ := Matrix.of fun _ j => propEig j
  let propEigDiffs := propEigCols - propEigColsᵀ
  let degenMask : d → d → Prop := fun i j => ‖eigValDiffs i j‖ < prec
  let diffs : Matrix d d ℂ := Matrix.of fun i j => if degenMask i j then 1 else eigValDiffs i j
  let factors : Matrix d d ℂ := Matrix.of fun i j => propEigDiffs i j / diffs i j
  { eigVec := (eigh H).2
    propEig := propEig
    factor := Matrix.of fun i j => if degenMask i j then propEigCols i j else factors i j }

/-- `PropCompDiag._compute_propagator` (propcomp.py 225-247). -/
noncomputable def diagProp (D : Decomp d) : Matrix d d ℂ :=
  D.eigVec * diagonal D.propEig * D.eigVecᴴ

/-- `PropCompDiag._compute_prop_grad` (propcomp.py 249-302): `E` is the phased control. -/
noncomputable def diagGrad (D : Decomp d) (E : Matrix d d ℂ) (tau : ℝ) : Matrix d d ℂ :=
  D.eigVec * (((tau : ℂ) • (D.eigVecᴴ * E * D.eigVec)) ⊙ D.factor) * D.eigVecᴴ

/-- `PropCompAugMat._get_aug_mat` (propcomp.py 327-348) for the generator and control
already multiplied by the duration. -/
def augMat (A E : Matrix d d ℂ) : Matrix (d ⊕ d) (d ⊕ d) ℂ := fromBlocks A E 0 A

/-- Propagator and gradient of `PropCompAugMat._compute_prop_grad` (propcomp.py 354-382):
slices of the exponential of the augmented matrix. -/
noncomputable def augMatProp (A E : Matrix d d ℂ) : Matrix d d ℂ :=
  (NormedSpace.exp (augMat A E)).toBlocks₁₁
noncomputable def augMatGrad (A E : Matrix d d ℂ) : Matrix d d ℂ :=
  (NormedSpace.exp (augMat A E)).toBlocks₁₂

/-- `PropCompApproxGrad._compute_diff_prop` (propcomp.py 189-207). -/
noncomputable def diffProp (G C : Matrix d d ℂ) (tau eps : ℝ) : Matrix d d ℂ :=
  NormedSpace.exp ((tau : ℂ) • (G + (eps : ℂ) • C))

end QTrl.Dyn
