import Verif.Proofs.OpenSystem
import Verif.Proofs.Gradient
import Mathlib.Analysis.Matrix.Order

/-
How far apart two states, or two channels, can be.
-/

set_option linter.unusedSectionVars false

open Matrix
open scoped ComplexOrder MatrixOrder

namespace QTrl.Spec

variable {n : Type} [Fintype n] [DecidableEq n]

theorem exists_root {b : Type} [Fintype b] [DecidableEq b] {A : Matrix b b ℂ}
    (h : A.PosSemidef) : ∃ B : Matrix b b ℂ, A = Bᴴ * B := by
  obtain ⟨B, hB⟩ := CStarAlgebra.nonneg_iff_eq_star_mul_self.mp h.nonneg
  exact ⟨B, hB⟩

theorem trace_root {b : Type} [Fintype b] (B : Matrix b b ℂ) :
    (Bᴴ * B).trace = ((∑ i, ∑ x, ‖B x i‖ ^ 2 : ℝ) : ℂ) := by
  rw [frobSq_eq, frobSq, Finset.sum_comm]

/-- The squared norm of a positive operator is at most the square of its trace. -/
theorem frobSq_le_trace {b : Type} [Fintype b] [DecidableEq b] {A : Matrix b b ℂ}
    (h : A.PosSemidef) {t : ℝ} (ht : A.trace = (t : ℂ)) : frobSq A ≤ t ^ 2 := by
  obtain ⟨B, rfl⟩ := exists_root h
  rw [trace_root] at ht
  have ht' : t = ∑ i, ∑ x, ‖B x i‖ ^ 2 := (Complex.ofReal_injective ht).symm
  rw [ht', sq, Finset.sum_mul_sum]
  refine Finset.sum_le_sum fun i _ => Finset.sum_le_sum fun j _ => ?_
  calc ‖(Bᴴ * B) i j‖ ^ 2 ≤ (∑ x, ‖B x i‖ * ‖B x j‖) ^ 2 := by
        refine pow_le_pow_left₀ (norm_nonneg _) ?_ 2
        rw [Matrix.mul_apply]
        refine (norm_sum_le _ _).trans (Finset.sum_le_sum fun x _ => ?_)
        rw [norm_mul, Matrix.conjTranspose_apply, norm_star]
    _ ≤ (∑ x, ‖B x i‖ ^ 2) * ∑ x, ‖B x j‖ ^ 2 :=
        Finset.sum_mul_sq_le_sq_mul_sq _ _ _

theorem trace_mul_nonneg {b : Type} [Fintype b] [DecidableEq b] {A B : Matrix b b ℂ}
    (hA : A.PosSemidef) (hB : B.PosSemidef) : 0 ≤ (A * B).trace.re := by
  obtain ⟨R, rfl⟩ := exists_root hA
  rw [Matrix.mul_assoc, Matrix.trace_mul_comm]
  exact (Complex.le_def.1 (hB.mul_mul_conjTranspose_same R).trace_nonneg).1

/-- The squared distance of two positive operators. -/
theorem frobSq_sub_le {b : Type} [Fintype b] [DecidableEq b] {A B : Matrix b b ℂ}
    (hA : A.PosSemidef) (hB : B.PosSemidef) {s t : ℝ} (hs : A.trace = (s : ℂ))
    (ht : B.trace = (t : ℂ)) : frobSq (A - B) ≤ s ^ 2 + t ^ 2 := by
  have h1 := frobSq_re (A - B)
  rw [Matrix.conjTranspose_sub, hA.isHermitian.eq, hB.isHermitian.eq, Matrix.sub_mul,
    Matrix.mul_sub, Matrix.mul_sub, Matrix.trace_sub, Matrix.trace_sub, Matrix.trace_sub,
    Matrix.trace_mul_comm B A] at h1
  simp only [Complex.sub_re] at h1
  have h2 := frobSq_re A
  have h3 := frobSq_re B
  rw [hA.isHermitian.eq] at h2
  rw [hB.isHermitian.eq] at h3
  have h4 := trace_mul_nonneg hA hB
  have h5 := frobSq_le_trace hA hs
  have h6 := frobSq_le_trace hB ht
  linarith

/-- The Choi matrix of a superoperator. -/
def choi (E : Matrix (n × n) (n × n) ℂ) : Matrix (n × n) (n × n) ℂ :=
  fun x y => E (x.1, y.1) (x.2, y.2)

theorem frobSq_choi (E : Matrix (n × n) (n × n) ℂ) : frobSq (choi E) = frobSq E := by
  simp only [frobSq, choi, Fintype.sum_prod_type]
  refine Finset.sum_congr rfl fun i _ => Finset.sum_comm

theorem choi_sub (E F : Matrix (n × n) (n × n) ℂ) : choi (E - F) = choi E - choi F := rfl

theorem IsChannel.choi {E : Matrix (n × n) (n × n) ℂ} (h : IsChannel E) :
    (choi E).PosSemidef ∧ (choi E).trace = ((Fintype.card n : ℝ) : ℂ) := by
  constructor
  · let v : n × n → ℂ := fun x => if x.1 = x.2 then 1 else 0
    have h1 := h.positive n _ (Matrix.posSemidef_vecMulVec_self_star v)
    have : actBeside E (Matrix.vecMulVec v (star v)) = QTrl.Spec.choi E := by
      ext ⟨i, p⟩ ⟨j, q⟩
      simp [actBeside, QTrl.Spec.choi, Matrix.vecMulVec, v]
    rwa [this] at h1
  · have h1 : ∀ p : n, ∑ i, E (i, i) (p, p) = 1 := by
      intro p
      have h2 := h.trace (Matrix.single p p 1)
      simp only [Matrix.trace, Matrix.diag, act_single] at h2
      rw [h2, Finset.sum_eq_single p]
      · simp
      · intro q _ hq
        rw [Matrix.single_apply_of_ne]
        tauto
      · simp
    simp only [Matrix.trace, Matrix.diag, QTrl.Spec.choi, Fintype.sum_prod_type]
    rw [Finset.sum_comm]
    simp [h1]

/-- The squared distance of two channels. -/
theorem IsChannel.distance {E F : Matrix (n × n) (n × n) ℂ} (hE : IsChannel E)
    (hF : IsChannel F) : frobSq (E - F) ≤ 2 * (Fintype.card n : ℝ) ^ 2 := by
  rw [← frobSq_choi, choi_sub]
  have := frobSq_sub_le hE.choi.1 hF.choi.1 hE.choi.2 hF.choi.2
  linarith

theorem frobSq_unvec {m : Type} [Fintype m] (X : Matrix (n × n) m ℂ) :
    frobSq X = ∑ x, frobSq (unvec X x) := by
  simp only [frobSq, unvec, Fintype.sum_prod_type]
  rw [Finset.sum_comm]
  conv_lhs => rw [Finset.sum_comm]
  conv_rhs => rw [Finset.sum_comm]
  refine Finset.sum_congr rfl fun i _ => ?_
  rw [Finset.sum_comm]

/-- The squared distance of two lists of states. -/
theorem states_distance {m : Type} [Fintype m] {X Y : Matrix (n × n) m ℂ}
    (hX : ∀ x, IsState (unvec X x)) (hY : ∀ x, IsState (unvec Y x)) :
    frobSq (X - Y) ≤ 2 * (Fintype.card m : ℝ) := by
  rw [frobSq_unvec]
  have h : ∀ x ∈ Finset.univ, frobSq (unvec (X - Y) x) ≤ 2 := by
    intro x _
    have e : unvec (X - Y) x = unvec X x - unvec Y x := rfl
    have := frobSq_sub_le (hX x).posSemidef (hY x).posSemidef (s := 1) (t := 1)
      (by rw [(hX x).trace]; simp) (by rw [(hY x).trace]; simp)
    rw [e]
    linarith
  have := Finset.sum_le_card_nsmul _ _ _ h
  simpa [mul_comm] using this

end QTrl.Spec
