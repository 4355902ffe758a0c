import Mathlib.Analysis.Normed.Algebra.MatrixExponential
import Mathlib.Analysis.SpecialFunctions.Exponential
import Mathlib.Analysis.Calculus.Deriv.Slope
import Mathlib.Data.Matrix.Block
import Mathlib.Topology.Instances.Matrix

/-
Facts about the matrix exponential: block triangular exponentials and the
directional derivative.
-/

open Matrix NormedSpace Filter Topology

namespace QTrl.MatExp

variable {d : Type} [Fintype d] [DecidableEq d]

theorem continuous_exp : Continuous fun A : Matrix d d ℂ => NormedSpace.exp A := by
  let : NormedRing (Matrix d d ℂ) := Matrix.linftyOpNormedRing
  let : NormedAlgebra ℂ (Matrix d d ℂ) := Matrix.linftyOpNormedAlgebra
  let : NormedAlgebra ℚ (Matrix d d ℂ) := NormedAlgebra.restrictScalars ℚ ℂ _
  exact NormedSpace.exp_continuous

/-- The block diagonal embedding. -/
def blockHom : (Matrix d d ℂ × Matrix d d ℂ) →+* Matrix (d ⊕ d) (d ⊕ d) ℂ where
  toFun p := fromBlocks p.1 0 0 p.2
  map_one' := by simp
  map_mul' p q := by simp [fromBlocks_multiply]
  map_zero' := by simp
  map_add' p q := by simp [fromBlocks_add]

theorem exp_fromBlocks_diag (A B : Matrix d d ℂ) :
    NormedSpace.exp (fromBlocks A 0 0 B) =
      fromBlocks (NormedSpace.exp A) 0 0 (NormedSpace.exp B) := by
  let : NormedRing (Matrix d d ℂ) := Matrix.linftyOpNormedRing
  let : NormedAlgebra ℂ (Matrix d d ℂ) := Matrix.linftyOpNormedAlgebra
  let : NormedAlgebra ℚ (Matrix d d ℂ) := NormedAlgebra.restrictScalars ℚ ℂ _
  let : NormedRing (Matrix (d ⊕ d) (d ⊕ d) ℂ) := Matrix.linftyOpNormedRing
  have hc : Continuous (blockHom (d := d)) := by
    show Continuous fun p : Matrix d d ℂ × Matrix d d ℂ => fromBlocks p.1 0 0 p.2
    exact Continuous.matrix_fromBlocks continuous_fst continuous_const continuous_const
      continuous_snd
  have := NormedSpace.map_exp blockHom hc (A, B)
  have e : NormedSpace.exp (A, B) = (NormedSpace.exp A, NormedSpace.exp B) :=
    Prod.ext (Prod.fst_exp (A, B)) (Prod.snd_exp (A, B))
  exact (this.symm.trans (congrArg blockHom e))

/-- Exponential of a block triangular matrix whose off-diagonal block is a multiple of the
difference of the diagonal blocks. -/
theorem exp_fromBlocks_diff (A B : Matrix d d ℂ) (c : ℂ) :
    NormedSpace.exp (fromBlocks A (c • (B - A)) 0 B) =
      fromBlocks (NormedSpace.exp A) (c • (NormedSpace.exp B - NormedSpace.exp A)) 0
        (NormedSpace.exp B) := by
  have hPQ : fromBlocks (1 : Matrix d d ℂ) (c • (1 : Matrix d d ℂ)) 0 (1 : Matrix d d ℂ) * fromBlocks (1 : Matrix d d ℂ) (-(c • (1 : Matrix d d ℂ))) 0 (1 : Matrix d d ℂ)
      = 1 := by simp [fromBlocks_multiply]
  have hQP : fromBlocks (1 : Matrix d d ℂ) (-(c • (1 : Matrix d d ℂ))) 0 (1 : Matrix d d ℂ) * fromBlocks (1 : Matrix d d ℂ) (c • (1 : Matrix d d ℂ)) 0 (1 : Matrix d d ℂ)
      = 1 := by simp [fromBlocks_multiply]
  have hform : ∀ X Y : Matrix d d ℂ, fromBlocks X (c • (Y - X)) 0 Y =
      fromBlocks (1 : Matrix d d ℂ) (c • (1 : Matrix d d ℂ)) 0 (1 : Matrix d d ℂ) * fromBlocks X 0 0 Y *
        fromBlocks (1 : Matrix d d ℂ) (-(c • (1 : Matrix d d ℂ))) 0 (1 : Matrix d d ℂ) := by
    intro X Y
    simp only [fromBlocks_multiply]
    congr 1 <;> simp [sub_eq_neg_add]
  rw [hform A B, hform (NormedSpace.exp A) (NormedSpace.exp B), ← exp_fromBlocks_diag]
  exact Matrix.exp_units_conj ⟨_, _, hPQ, hQP⟩ (fromBlocks A 0 0 B)

/-- The augmented matrix `[[A, E], [0, A]]`: diagonal blocks of its exponential. -/
theorem tendsto_aug (A E : Matrix d d ℂ) :
    Tendsto (fun h : ℝ => NormedSpace.exp (fromBlocks A E 0 (A + (h : ℂ) • E))) (𝓝[≠] 0)
      (𝓝 (NormedSpace.exp (fromBlocks A E 0 A))) := by
  have hc : Continuous fun h : ℝ => NormedSpace.exp (fromBlocks A E 0 (A + (h : ℂ) • E)) := by
    refine continuous_exp.comp (Continuous.matrix_fromBlocks continuous_const continuous_const
      continuous_const ?_)
    exact continuous_const.add (Complex.continuous_ofReal.smul continuous_const)
  have := hc.tendsto 0
  simp only [Complex.ofReal_zero, zero_smul, add_zero] at this
  exact this.mono_left nhdsWithin_le_nhds

theorem exp_aug_near (A E : Matrix d d ℂ) {h : ℝ} (hh : h ≠ 0) :
    NormedSpace.exp (fromBlocks A E 0 (A + (h : ℂ) • E)) =
      fromBlocks (NormedSpace.exp A)
        ((h : ℂ)⁻¹ • (NormedSpace.exp (A + (h : ℂ) • E) - NormedSpace.exp A)) 0
        (NormedSpace.exp (A + (h : ℂ) • E)) := by
  rw [← exp_fromBlocks_diff]
  congr 2
  rw [add_sub_cancel_left, smul_smul, inv_mul_cancel₀ (Complex.ofReal_ne_zero.2 hh), one_smul]

/-- Entrywise directional derivative of the exponential: the upper right block of the
exponential of the augmented matrix. -/
theorem hasDerivAt_exp_dir (A E : Matrix d d ℂ) (i j : d) :
    HasDerivAt (fun t : ℝ => NormedSpace.exp (A + (t : ℂ) • E) i j)
      ((NormedSpace.exp (fromBlocks A E 0 A)).toBlocks₁₂ i j) 0 := by
  rw [hasDerivAt_iff_tendsto_slope]
  have h1 := tendsto_pi_nhds.1 (tendsto_pi_nhds.1 (tendsto_aug A E) (Sum.inl i)) (Sum.inr j)
  refine h1.congr' ?_
  filter_upwards [self_mem_nhdsWithin] with h hh
  rw [exp_aug_near A E hh]
  simp [slope, Complex.real_smul]

/-- The diagonal block of the exponential of the augmented matrix is the exponential. -/
theorem exp_aug_toBlocks₁₁ (A E : Matrix d d ℂ) :
    (NormedSpace.exp (fromBlocks A E 0 A)).toBlocks₁₁ = NormedSpace.exp A := by
  ext i j
  have h1 := tendsto_pi_nhds.1 (tendsto_pi_nhds.1 (tendsto_aug A E) (Sum.inl i)) (Sum.inl j)
  refine tendsto_nhds_unique h1 ?_
  refine tendsto_const_nhds.congr' ?_
  filter_upwards [self_mem_nhdsWithin] with h hh
  rw [exp_aug_near A E hh]
  rfl

end QTrl.MatExp
