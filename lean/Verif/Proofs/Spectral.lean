import Verif.Model.Spectral
import Verif.Spec.Derivative
import Verif.Proofs.MatExp
import Mathlib.Analysis.Calculus.Deriv.Mul
import Mathlib.Analysis.Calculus.Deriv.Comp
import Mathlib.Analysis.Complex.RealDeriv
import Mathlib.Analysis.SpecialFunctions.ExpDeriv

/-
Spectral propagators and gradients are the exponential and its derivative.
-/

open Matrix NormedSpace Filter Topology

namespace QTrl.MatExp

open QTrl.Spec

variable {d : Type} [Fintype d] [DecidableEq d]

/-- The directional derivative of the exponential, as a matrix. -/
noncomputable def dexp (A E : Matrix d d ℂ) : Matrix d d ℂ :=
  (NormedSpace.exp (fromBlocks A E 0 A)).toBlocks₁₂

theorem matDeriv_exp (A E : Matrix d d ℂ) :
    MatDeriv (fun t : ℝ => NormedSpace.exp (A + (t : ℂ) • E)) (dexp A E) 0 :=
  fun i j => hasDerivAt_exp_dir A E i j

theorem MatDeriv.unique {a b : Type} {F : ℝ → Matrix a b ℂ} {X Y : Matrix a b ℂ} {t : ℝ}
    (h1 : MatDeriv F X t) (h2 : MatDeriv F Y t) : X = Y := by
  ext i j
  exact (h1 i j).unique (h2 i j)

/-- Exponential of a unitarily diagonalised matrix. -/
theorem exp_unitary_conj (V : Matrix d d ℂ) (hV : V ∈ Matrix.unitaryGroup d ℂ) (A : Matrix d d ℂ) :
    NormedSpace.exp (V * A * Vᴴ) = V * NormedSpace.exp A * Vᴴ := by
  have h1 : V * Vᴴ = 1 := (Matrix.mem_unitaryGroup_iff).1 hV
  have h2 : Vᴴ * V = 1 := (Matrix.mem_unitaryGroup_iff').1 hV
  exact Matrix.exp_units_conj ⟨V, Vᴴ, h1, h2⟩ A

theorem exp_diagonal' (v : d → ℂ) :
    NormedSpace.exp (diagonal v) = diagonal fun i => Complex.exp (v i) := by
  rw [Matrix.exp_diagonal]
  congr 1
  ext i
  rw [Pi.coe_exp, Complex.exp_eq_exp_ℂ]

theorem semiconj_exp {n : Type} [Fintype n] [DecidableEq n] {x a b : Matrix n n ℂ}
    (h : x * a = b * x) : x * NormedSpace.exp a = NormedSpace.exp b * x := by
  let : NormedRing (Matrix n n ℂ) := Matrix.linftyOpNormedRing
  let : NormedAlgebra ℂ (Matrix n n ℂ) := Matrix.linftyOpNormedAlgebra
  let : NormedAlgebra ℚ (Matrix n n ℂ) := NormedAlgebra.restrictScalars ℚ ℂ _
  exact SemiconjBy.exp_right (x := x) (a := a) (b := b) h

/-- Diagonal blocks of a triangular exponential. -/
theorem exp_tri_blocks (A B E : Matrix d d ℂ) :
    NormedSpace.exp (fromBlocks A E 0 B) = fromBlocks (NormedSpace.exp A)
      (NormedSpace.exp (fromBlocks A E 0 B)).toBlocks₁₂ 0 (NormedSpace.exp B) := by
  have h1 := semiconj_exp (x := fromBlocks (1 : Matrix d d ℂ) 0 0 (0 : Matrix d d ℂ))
    (a := fromBlocks A 0 0 B) (b := fromBlocks A E 0 B) (by simp [fromBlocks_multiply])
  have h2 := semiconj_exp (x := fromBlocks (0 : Matrix d d ℂ) 0 0 (1 : Matrix d d ℂ))
    (a := fromBlocks A E 0 B) (b := fromBlocks A 0 0 B) (by simp [fromBlocks_multiply])
  rw [exp_fromBlocks_diag] at h1 h2
  generalize NormedSpace.exp (fromBlocks A E 0 B) = X at h1 h2 ⊢
  rw [← fromBlocks_toBlocks X] at h1 h2
  simp only [fromBlocks_multiply, fromBlocks_inj] at h1 h2
  conv_lhs => rw [← fromBlocks_toBlocks X]
  simp only [fromBlocks_inj]
  refine ⟨?_, trivial, ?_, ?_⟩
  · simpa using h1.1.symm
  · simpa using h1.2.2.1.symm
  · simpa using h2.2.2.2

/-- The off-diagonal block of a triangular exponential with diagonal blocks `diag μ`, `diag ν`. -/
theorem exp_tri_entry (mu nu : d → ℂ) (E : Matrix d d ℂ) (i j : d) :
    (mu i - nu j) * (NormedSpace.exp (fromBlocks (diagonal mu) E 0 (diagonal nu))).toBlocks₁₂ i j =
      (Complex.exp (mu i) - Complex.exp (nu j)) * E i j := by
  have h := semiconj_exp (x := fromBlocks (diagonal mu) E 0 (diagonal nu))
    (a := fromBlocks (diagonal mu) E 0 (diagonal nu)) (b := fromBlocks (diagonal mu) E 0 (diagonal nu))
    rfl
  rw [exp_tri_blocks, exp_diagonal', exp_diagonal'] at h
  generalize (NormedSpace.exp (fromBlocks (diagonal mu) E 0 (diagonal nu))).toBlocks₁₂ = Z at h ⊢
  simp only [fromBlocks_multiply, fromBlocks_inj] at h
  have e := congrFun (congrFun h.2.1 i) j
  simp only [Matrix.add_apply, diagonal_mul, mul_diagonal] at e
  linear_combination e

/-- Entries of the derivative of the exponential at a diagonal matrix: off the degenerate pairs. -/
theorem dexp_diagonal_ne (mu : d → ℂ) (E : Matrix d d ℂ) {i j : d} (h : mu i ≠ mu j) :
    dexp (diagonal mu) E i j =
      (Complex.exp (mu j) - Complex.exp (mu i)) / (mu j - mu i) * E i j := by
  have := exp_tri_entry mu mu E i j
  have h' : mu j - mu i ≠ 0 := sub_ne_zero.2 (Ne.symm h)
  unfold dexp
  rw [div_mul_eq_mul_div, eq_div_iff h']
  linear_combination -this

/-- Entries of the derivative of the exponential at a diagonal matrix: degenerate pairs. -/
theorem dexp_diagonal_eq (mu : d → ℂ) (E : Matrix d d ℂ) {i j : d} (h : mu i = mu j) :
    dexp (diagonal mu) E i j = Complex.exp (mu j) * E i j := by
  have hc : Continuous fun h : ℝ => NormedSpace.exp
      (fromBlocks (diagonal mu) E 0 (diagonal fun k => mu k + (h : ℂ))) := by
    refine continuous_exp.comp (Continuous.matrix_fromBlocks continuous_const continuous_const
      continuous_const ?_)
    refine Continuous.matrix_diagonal (continuous_pi fun k => ?_)
    exact continuous_const.add Complex.continuous_ofReal
  have ht := hc.tendsto 0
  simp only [Complex.ofReal_zero, add_zero] at ht
  have h1 := tendsto_pi_nhds.1 (tendsto_pi_nhds.1 (ht.mono_left
    (nhdsWithin_le_nhds (s := {0}ᶜ))) (Sum.inl i)) (Sum.inr j)
  refine tendsto_nhds_unique h1 ?_
  have hd : HasDerivAt (fun t : ℝ => Complex.exp (mu j + (t : ℂ)) * E i j)
      (Complex.exp (mu j) * E i j) 0 := by
    have h0 : HasDerivAt (fun z : ℂ => Complex.exp (mu j + z) * E i j)
        (Complex.exp (mu j) * E i j) ((0 : ℝ) : ℂ) := by
      have := ((hasDerivAt_id ((0 : ℝ) : ℂ)).const_add (mu j)).cexp.mul_const (E i j)
      simpa using this
    exact h0.comp_ofReal
  rw [hasDerivAt_iff_tendsto_slope] at hd
  refine hd.congr' ?_
  filter_upwards [self_mem_nhdsWithin] with t ht
  have ht' : (t : ℂ) ≠ 0 := Complex.ofReal_ne_zero.2 ht
  have := exp_tri_entry mu (fun k => mu k + (t : ℂ)) E i j
  simp only [toBlocks₁₂, of_apply] at this
  rw [h] at this
  simp only [slope, sub_zero, vsub_eq_sub, Complex.real_smul, Complex.ofReal_inv,
    Complex.ofReal_zero, add_zero]
  rw [inv_mul_eq_iff_eq_mul₀ ht']
  linear_combination this

theorem dexp_conj (V : Matrix d d ℂ) (hV : V ∈ Matrix.unitaryGroup d ℂ) (A E : Matrix d d ℂ) :
    dexp (V * A * Vᴴ) E = V * dexp A (Vᴴ * E * V) * Vᴴ := by
  have h1 : V * Vᴴ = 1 := (Matrix.mem_unitaryGroup_iff).1 hV
  have h2 : Vᴴ * V = 1 := (Matrix.mem_unitaryGroup_iff').1 hV
  have hPQ : fromBlocks V 0 0 V * fromBlocks Vᴴ 0 0 Vᴴ = 1 := by
    simp [fromBlocks_multiply, h1]
  have hQP : fromBlocks Vᴴ 0 0 Vᴴ * fromBlocks V 0 0 V = 1 := by
    simp [fromBlocks_multiply, h2]
  have hE : V * (Vᴴ * E * V) * Vᴴ = E := by
    calc V * (Vᴴ * E * V) * Vᴴ = (V * Vᴴ) * E * (V * Vᴴ) := by simp only [Matrix.mul_assoc]
      _ = E := by rw [h1]; simp
  have hM : fromBlocks (V * A * Vᴴ) E 0 (V * A * Vᴴ) =
      fromBlocks V 0 0 V * fromBlocks A (Vᴴ * E * V) 0 A * fromBlocks Vᴴ 0 0 Vᴴ := by
    simp [fromBlocks_multiply, hE]
  unfold dexp
  have hX : NormedSpace.exp (fromBlocks V 0 0 V * fromBlocks A (Vᴴ * E * V) 0 A *
      fromBlocks Vᴴ 0 0 Vᴴ) = fromBlocks V 0 0 V *
      NormedSpace.exp (fromBlocks A (Vᴴ * E * V) 0 A) * fromBlocks Vᴴ 0 0 Vᴴ :=
    Matrix.exp_units_conj ⟨_, _, hPQ, hQP⟩ (fromBlocks A (Vᴴ * E * V) 0 A)
  rw [hM, hX]
  generalize NormedSpace.exp (fromBlocks A (Vᴴ * E * V) 0 A) = X
  conv_lhs => rw [← fromBlocks_toBlocks X]
  simp [fromBlocks_multiply]

theorem dexp_smul (A E : Matrix d d ℂ) (c : ℝ) : dexp A ((c : ℂ) • E) = (c : ℂ) • dexp A E := by
  refine MatDeriv.unique (matDeriv_exp A ((c : ℂ) • E)) ?_
  intro i j
  have h0 : HasDerivAt (fun t : ℝ => t * c) c 0 := by
    simpa using (hasDerivAt_id (0 : ℝ)).mul_const c
  have h1 := matDeriv_exp A E i j
  rw [show (0 : ℝ) = 0 * c by simp] at h1
  have := h1.scomp (0 : ℝ) h0
  simp only [Complex.real_smul, Function.comp_def] at this
  have e : (fun t : ℝ => NormedSpace.exp (A + (t : ℂ) • (c : ℂ) • E) i j) =
      fun t : ℝ => NormedSpace.exp (A + ((t * c : ℝ) : ℂ) • E) i j := by
    ext t
    rw [smul_smul]
    push_cast
    rfl
  show HasDerivAt (fun t : ℝ => NormedSpace.exp (A + (t : ℂ) • (c : ℂ) • E) i j) _ 0
  rw [e]
  exact this

end QTrl.MatExp
