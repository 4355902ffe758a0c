import Verif.Proofs.Spectral
import Mathlib.Analysis.Matrix.Spectrum
import Mathlib.LinearAlgebra.Matrix.Notation

/-
C15 (diagonalising propagators), C16 (their gradients) and C17 (augmented matrix and
Fréchet gradients).
-/

open Matrix NormedSpace

namespace QTrl.Dyn

open QTrl.Spec QTrl.MatExp

variable {d : Type} [Fintype d] [DecidableEq d]

/-- `-i·H·τ` in the eigenbasis. -/
theorem generator_diag {eigh : Matrix d d ℂ → (d → ℝ) × Matrix d d ℂ} {H : Matrix d d ℂ}
    (h : EighCorrect eigh H) (tau : ℝ) :
    (tau : ℂ) • (-Complex.I • H) = (eigh H).2 *
      diagonal (fun j => -Complex.I * ((eigh H).1 j : ℂ) * (tau : ℂ)) * (eigh H).2ᴴ := by
  conv_lhs => rw [h.diag]
  have : (diagonal (fun j => -Complex.I * ((eigh H).1 j : ℂ) * (tau : ℂ)) : Matrix d d ℂ) =
      ((tau : ℂ) * -Complex.I) • diagonal (fun j => ((eigh H).1 j : ℂ)) := by
    rw [← diagonal_smul]
    congr 1
    ext j
    simp only [Pi.smul_apply, smul_eq_mul]
    ring
  rw [this, smul_smul]
  simp

/-- **C15.** For a Hermitian generator the diagonalising computer returns
`exp(-i·H·τ)`, whatever the degeneracies and whichever eigenbasis the solver picks. -/
theorem C15_diag_is_exp (eigh : Matrix d d ℂ → (d → ℝ) × Matrix d d ℂ) (H : Matrix d d ℂ)
    (h : EighCorrect eigh H) (prec tau : ℝ) :
    diagProp (spectralDecomp eigh prec H tau) =
      NormedSpace.exp ((tau : ℂ) • (-Complex.I • H)) := by
  rw [generator_diag h, exp_unitary_conj _ h.unitary, exp_diagonal']
  rfl

/-- **C15.** The propagator `exp(-i·H·τ)` of a Hermitian generator is unitary. -/
theorem C15_unitary (H : Matrix d d ℂ) (hH : H.IsHermitian) (tau : ℝ) :
    NormedSpace.exp ((tau : ℂ) • (-Complex.I • H)) ∈ Matrix.unitaryGroup d ℂ := by
  rw [Matrix.mem_unitaryGroup_iff, star_eq_conjTranspose, ← Matrix.exp_conjTranspose]
  have : ((tau : ℂ) • (-Complex.I • H))ᴴ = -((tau : ℂ) • (-Complex.I • H)) := by
    simp [conjTranspose_smul, hH.eq]
  rw [this, ← Matrix.exp_add_of_commute _ _ ((Commute.refl ((tau : ℂ) • (-Complex.I • H))).neg_right), add_neg_cancel,
    NormedSpace.exp_zero]

/-- **C15.** Hence the matrix returned by the diagonalising computer is unitary. -/
theorem C15_diag_unitary (eigh : Matrix d d ℂ → (d → ℝ) × Matrix d d ℂ) (H : Matrix d d ℂ)
    (hH : H.IsHermitian) (h : EighCorrect eigh H) (prec tau : ℝ) :
    diagProp (spectralDecomp eigh prec H tau) ∈ Matrix.unitaryGroup d ℂ := by
  rw [C15_diag_is_exp eigh H h]
  exact C15_unitary H hH tau

omit [Fintype d] [DecidableEq d] in
/-- The factor matrix entries. -/
theorem factor_apply (eigh : Matrix d d ℂ → (d → ℝ) × Matrix d d ℂ) (prec : ℝ)
    (H : Matrix d d ℂ) (tau : ℝ) (mu : d → ℂ)
    (hmu : mu = fun j => -Complex.I * ((eigh H).1 j : ℂ) * (tau : ℂ)) (i j : d) :
    (spectralDecomp eigh prec H tau).factor i j =
      if ‖mu j - mu i‖ < prec then Complex.exp (mu j)
      else (Complex.exp (mu j) - Complex.exp (mu i)) / (mu j - mu i) := by
  simp only [spectralDecomp, Matrix.of_apply, Matrix.sub_apply, Matrix.transpose_apply]
  rw [hmu]
  by_cases hc : ‖(-Complex.I * ((eigh H).1 j : ℂ) * (tau : ℂ)) -
      (-Complex.I * ((eigh H).1 i : ℂ) * (tau : ℂ))‖ < prec
  · rw [if_pos hc]
    exact if_pos hc
  · rw [if_neg hc]
    refine (if_neg hc).trans ?_
    congr 1
    exact if_neg hc

omit [Fintype d] [DecidableEq d] in
theorem norm_mu_sub (lam : d → ℝ) (tau : ℝ) (i j : d) :
    ‖(-Complex.I * (lam j : ℂ) * (tau : ℂ)) - (-Complex.I * (lam i : ℂ) * (tau : ℂ))‖ =
      |lam j * tau - lam i * tau| := by
  rw [show (-Complex.I * (lam j : ℂ) * (tau : ℂ)) - (-Complex.I * (lam i : ℂ) * (tau : ℂ)) =
    -Complex.I * ((lam j * tau - lam i * tau : ℝ) : ℂ) by push_cast; ring, norm_mul,
    norm_neg, Complex.norm_I, one_mul, Complex.norm_real, Real.norm_eq_abs]

theorem diagGrad_eq (eigh : Matrix d d ℂ → (d → ℝ) × Matrix d d ℂ) (prec : ℝ)
    (H E : Matrix d d ℂ) (tau : ℝ) :
    diagGrad (spectralDecomp eigh prec H tau) E tau =
      (eigh H).2 * Matrix.of (fun i j => ((eigh H).2ᴴ * ((tau : ℂ) • E) * (eigh H).2) i j *
        (spectralDecomp eigh prec H tau).factor i j) * (eigh H).2ᴴ := by
  unfold diagGrad
  have hV : (spectralDecomp eigh prec H tau).eigVec = (eigh H).2 := rfl
  rw [hV]
  congr 2
  ext i j
  simp [Matrix.hadamard_apply]

/-- The curve of propagators when control `Hc` is added with amplitude `u`. -/
noncomputable def propCurve (H Hc : Matrix d d ℂ) (tau : ℝ) (u : ℝ) : Matrix d d ℂ :=
  NormedSpace.exp ((tau : ℂ) • (-Complex.I • (H + (u : ℂ) • Hc)))

theorem propCurve_deriv (H Hc : Matrix d d ℂ) (tau : ℝ) :
    MatDeriv (propCurve H Hc tau)
      (dexp ((tau : ℂ) • (-Complex.I • H)) ((tau : ℂ) • (-Complex.I • Hc))) 0 := by
  have e : propCurve H Hc tau = fun u : ℝ => NormedSpace.exp
      ((tau : ℂ) • (-Complex.I • H) + (u : ℂ) • ((tau : ℂ) • (-Complex.I • Hc))) := by
    ext u : 1
    unfold propCurve
    congr 1
    simp only [smul_add, smul_smul]
    congr 2
    ring
  rw [e]
  exact matDeriv_exp _ _

/-- **C16.** The gradient returned by the diagonalising computer is the derivative of
`exp(-i(H + u·Hc)τ)` at `u = 0`, for any control and any repeated eigenvalues, as
long as eigenvalues (times `τ`) that are not equal differ by at least the rounding
precision. -/
theorem C16_diag_grad (eigh : Matrix d d ℂ → (d → ℝ) × Matrix d d ℂ) (H Hc : Matrix d d ℂ)
    (h : EighCorrect eigh H) (prec tau : ℝ) (hp : 0 < prec)
    (hs : WellSeparated (eigh H).1 tau prec) :
    MatDeriv (fun u : ℝ => NormedSpace.exp ((tau : ℂ) • (-Complex.I • (H + (u : ℂ) • Hc))))
      (diagGrad (spectralDecomp eigh prec H tau) (-Complex.I • Hc) tau) 0 := by
  have key : diagGrad (spectralDecomp eigh prec H tau) (-Complex.I • Hc) tau =
      dexp ((tau : ℂ) • (-Complex.I • H)) ((tau : ℂ) • (-Complex.I • Hc)) := by
    rw [generator_diag h, dexp_conj _ h.unitary, diagGrad_eq]
    congr 2
    ext i j
    rw [Matrix.of_apply, factor_apply _ _ _ _ _ rfl]
    simp only [norm_mu_sub]
    rcases hs i j with heq | hge
    · have e : -Complex.I * ((eigh H).1 i : ℂ) * (tau : ℂ) =
          -Complex.I * ((eigh H).1 j : ℂ) * (tau : ℂ) := by
        have : ((eigh H).1 i : ℂ) * (tau : ℂ) = ((eigh H).1 j : ℂ) * (tau : ℂ) := by exact_mod_cast heq
        rw [mul_assoc, mul_assoc, this]
      rw [dexp_diagonal_eq _ _ e, if_pos (by rw [heq]; simpa using hp), mul_comm]
    · rw [if_neg (not_lt.2 hge), dexp_diagonal_ne _ _ ?_, mul_comm]
      intro e
      have := norm_mu_sub (eigh H).1 tau i j
      rw [e, sub_self, norm_zero] at this
      rw [← this] at hge
      linarith
  rw [key]
  exact propCurve_deriv H Hc tau

/-- **C16.** Without any assumption on the spectrum: treating close eigenvalues as
equal changes each entry (in the eigenbasis) by at most `prec` times the entry of the
control. -/
theorem C16_diag_grad_error (eigh : Matrix d d ℂ → (d → ℝ) × Matrix d d ℂ) (H Hc : Matrix d d ℂ)
    (h : EighCorrect eigh H) (prec tau : ℝ) (hp : 0 < prec) (hp1 : prec ≤ 1) (X : Matrix d d ℂ)
    (hX : MatDeriv (fun u : ℝ => NormedSpace.exp ((tau : ℂ) • (-Complex.I • (H + (u : ℂ) • Hc))))
      X 0) (i j : d) :
    ‖((eigh H).2ᴴ * (diagGrad (spectralDecomp eigh prec H tau) (-Complex.I • Hc) tau - X) *
        (eigh H).2) i j‖ ≤
      prec * ‖((eigh H).2ᴴ * ((tau : ℂ) • (-Complex.I • Hc)) * (eigh H).2) i j‖ := by
  have hX' := MatDeriv.unique hX (propCurve_deriv H Hc tau)
  subst hX'
  have h2 : (eigh H).2ᴴ * (eigh H).2 = 1 := (Matrix.mem_unitaryGroup_iff').1 h.unitary
  rw [generator_diag h, dexp_conj _ h.unitary, diagGrad_eq, ← Matrix.sub_mul, ← Matrix.mul_sub]
  have hcancel : ∀ Y : Matrix d d ℂ, (eigh H).2ᴴ * ((eigh H).2 * Y * (eigh H).2ᴴ) * (eigh H).2 = Y := by
    intro Y
    calc (eigh H).2ᴴ * ((eigh H).2 * Y * (eigh H).2ᴴ) * (eigh H).2
        = ((eigh H).2ᴴ * (eigh H).2) * Y * ((eigh H).2ᴴ * (eigh H).2) := by
          simp only [Matrix.mul_assoc]
      _ = Y := by rw [h2]; simp
  rw [hcancel]
  generalize (eigh H).2ᴴ * ((tau : ℂ) • (-Complex.I • Hc)) * (eigh H).2 = E
  obtain ⟨mu, hmu⟩ : ∃ mu : d → ℂ, mu = fun j => -Complex.I * ((eigh H).1 j : ℂ) * (tau : ℂ) :=
    ⟨_, rfl⟩
  rw [Matrix.sub_apply, Matrix.of_apply, factor_apply _ _ _ _ mu hmu, ← hmu]
  have hre : ∀ k, ‖Complex.exp (mu k)‖ = 1 := by
    intro k
    rw [Complex.norm_exp]
    simp [hmu]
  by_cases heq : mu i = mu j
  · rw [dexp_diagonal_eq mu E heq, if_pos (by rw [heq, sub_self, norm_zero]; exact hp)]
    rw [mul_comm, sub_self, norm_zero]
    positivity
  · rw [dexp_diagonal_ne mu E heq]
    by_cases hlt : ‖mu j - mu i‖ < prec
    · rw [if_pos hlt]
      set w := mu i - mu j with hw
      have hwn : ‖w‖ < prec := by rw [hw, norm_sub_rev]; exact hlt
      have hw0 : w ≠ 0 := sub_ne_zero.2 heq
      have hi : mu i = mu j + w := by rw [hw]; ring
      have hb := Complex.norm_exp_sub_one_sub_id_le (hwn.le.trans hp1)
      have e : E i j * Complex.exp (mu j) -
          (Complex.exp (mu j) - Complex.exp (mu i)) / (mu j - mu i) * E i j =
          -(E i j * Complex.exp (mu j) * ((Complex.exp w - 1 - w) / w)) := by
        rw [show mu j - mu i = -w by rw [hw]; ring, hi, Complex.exp_add]
        field_simp
        ring
      rw [e, norm_neg, norm_mul, norm_mul, hre, mul_one, norm_div, mul_comm prec]
      refine mul_le_mul_of_nonneg_left ?_ (norm_nonneg _)
      rw [div_le_iff₀ (norm_pos_iff.2 hw0)]
      nlinarith [norm_nonneg w]
    · rw [if_neg hlt, mul_comm, sub_self, norm_zero]
      positivity

/-- **C17.** The upper right block of the exponential of the augmented matrix is the
directional derivative of the exponential, for arbitrary (non-Hermitian,
non-diagonalisable) generators. -/
theorem C17_aug_mat_grad (A E : Matrix d d ℂ) :
    MatDeriv (fun t : ℝ => NormedSpace.exp (A + (t : ℂ) • E)) (augMatGrad A E) 0 :=
  matDeriv_exp A E

/-- **C17.** Its upper left block is the propagator. -/
theorem C17_aug_mat_prop (A E : Matrix d d ℂ) : augMatProp A E = NormedSpace.exp A :=
  exp_aug_toBlocks₁₁ A E

/-- **C17.** All exact gradient computers agree: whatever routine delivers the
derivative of the exponential delivers the augmented matrix result ... -/
theorem C17_frechet_agrees (A E X : Matrix d d ℂ)
    (hX : MatDeriv (fun t : ℝ => NormedSpace.exp (A + (t : ℂ) • E)) X 0) :
    X = augMatGrad A E :=
  MatDeriv.unique hX (C17_aug_mat_grad A E)

/-- **C17.** ... and, for Hermitian generators, so does the diagonalising computer. -/
theorem C17_diag_agrees (eigh : Matrix d d ℂ → (d → ℝ) × Matrix d d ℂ) (H Hc : Matrix d d ℂ)
    (h : EighCorrect eigh H) (prec tau : ℝ) (hp : 0 < prec)
    (hs : WellSeparated (eigh H).1 tau prec) :
    diagGrad (spectralDecomp eigh prec H tau) (-Complex.I • Hc) tau =
      augMatGrad ((tau : ℂ) • (-Complex.I • H)) ((tau : ℂ) • (-Complex.I • Hc)) :=
  MatDeriv.unique (C16_diag_grad eigh H Hc h prec tau hp hs) (propCurve_deriv H Hc tau)

/-! ### Non-vacuity -/

/-- A correct eigen-solver exists for every Hermitian matrix (Mathlib's spectral
theorem), so the hypotheses of C15 and C16 can be met for every Hermitian `H`. -/
theorem exists_eigh : ∃ eigh : Matrix d d ℂ → (d → ℝ) × Matrix d d ℂ,
    ∀ H : Matrix d d ℂ, H.IsHermitian → EighCorrect eigh H := by
  classical
  refine ⟨fun H => if hH : H.IsHermitian then (hH.eigenvalues, hH.eigenvectorUnitary) else (0, 0),
    fun H hH => ?_⟩
  constructor
  · simp only [dif_pos hH]
    exact hH.eigenvectorUnitary.2
  · simp only [dif_pos hH]
    exact hH.spectral_theorem

/-- A degenerate case that meets all hypotheses: `H = 1` on a qubit, `prec = 1e-10`. -/
example : ∃ eigh : Matrix (Fin 2) (Fin 2) ℂ → (Fin 2 → ℝ) × Matrix (Fin 2) (Fin 2) ℂ,
    EighCorrect eigh 1 ∧ WellSeparated (eigh 1).1 1 (1e-10) := by
  refine ⟨fun _ => (fun _ => 1, 1), ⟨?_, ?_⟩, ?_⟩
  · exact one_mem _
  · simp
  · intro i j
    left
    rfl

/-- A non-degenerate case: `H = diag(0, 1)`. -/
example : ∃ eigh : Matrix (Fin 2) (Fin 2) ℂ → (Fin 2 → ℝ) × Matrix (Fin 2) (Fin 2) ℂ,
    EighCorrect eigh (diagonal ![0, 1]) ∧ WellSeparated (eigh (diagonal ![0, 1])).1 1 (1e-10) := by
  refine ⟨fun _ => (![0, 1], 1), ⟨?_, ?_⟩, ?_⟩
  · exact one_mem _
  · simp only [Matrix.one_mul, Matrix.conjTranspose_one, Matrix.mul_one]
    congr 1
    ext i
    fin_cases i <;> simp
  · intro i j
    fin_cases i <;> fin_cases j <;> simp <;> norm_num

end QTrl.Dyn
