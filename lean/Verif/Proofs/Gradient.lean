import Verif.Spec.Gradient
import Verif.Proofs.Evolution
import Mathlib.Analysis.Calculus.Deriv.Mul
import Mathlib.Analysis.Calculus.Deriv.Add
import Mathlib.Analysis.Calculus.Deriv.Comp
import Mathlib.Analysis.Calculus.Deriv.Abs
import Mathlib.Analysis.InnerProductSpace.Calculus
import Mathlib.Analysis.SpecialFunctions.Complex.Arg
import Mathlib.Analysis.SpecialFunctions.Sqrt
import Mathlib.Analysis.Complex.RealDeriv

/-
Product and chain rule for the fidelity errors.
-/

set_option linter.unusedSectionVars false

open Matrix

namespace QTrl.Spec

open QTrl.Dyn

section MatDeriv
variable {a b c : Type} [Fintype a] [Fintype b] [Fintype c]

theorem MatDeriv.const (A : Matrix a b ℂ) (t : ℝ) : MatDeriv (fun _ => A) 0 t :=
  fun i j => hasDerivAt_const t (A i j)

theorem MatDeriv.const_mul (A : Matrix a b ℂ) {F : ℝ → Matrix b c ℂ} {F' : Matrix b c ℂ} {t : ℝ}
    (h : MatDeriv F F' t) : MatDeriv (fun u => A * F u) (A * F') t := by
  intro i j
  simp only [Matrix.mul_apply]
  exact HasDerivAt.fun_sum fun x _ => (h x j).const_mul (A i x)

theorem MatDeriv.mul_const {F : ℝ → Matrix a b ℂ} {F' : Matrix a b ℂ} {t : ℝ}
    (h : MatDeriv F F' t) (B : Matrix b c ℂ) : MatDeriv (fun u => F u * B) (F' * B) t := by
  intro i j
  simp only [Matrix.mul_apply]
  exact HasDerivAt.fun_sum fun x _ => (h i x).mul_const (B x j)

theorem MatDeriv.trace {F : ℝ → Matrix a a ℂ} {F' : Matrix a a ℂ} {t : ℝ}
    (h : MatDeriv F F' t) : HasDerivAt (fun u => (F u).trace) F'.trace t := by
  simp only [Matrix.trace, Matrix.diag]
  exact HasDerivAt.fun_sum fun x _ => h x x

theorem MatDeriv.const_sub (A : Matrix a b ℂ) {F : ℝ → Matrix a b ℂ} {F' : Matrix a b ℂ} {t : ℝ}
    (h : MatDeriv F F' t) : MatDeriv (fun u => A - F u) (-F') t :=
  fun i j => (h i j).const_sub (A i j)

end MatDeriv

theorem hasDerivAt_re {f : ℝ → ℂ} {f' : ℂ} {t : ℝ} (h : HasDerivAt f f' t) :
    HasDerivAt (fun u => (f u).re) f'.re t := by
  have := (Complex.reCLM.hasFDerivAt (x := f t)).comp_hasDerivAt t h
  exact this

/-- Derivative of the modulus away from zero. -/
theorem hasDerivAt_norm {f : ℝ → ℂ} {f' : ℂ} {t : ℝ} (h : HasDerivAt f f' t) (h0 : f t ≠ 0) :
    HasDerivAt (fun u => ‖f u‖)
      ((f' * Complex.exp (-Complex.I * (Complex.arg (f t) : ℂ))).re) t := by
  have h1 := h.norm_sq
  have h2 : HasDerivAt (fun u => Real.sqrt (‖f u‖ ^ 2)) _ t :=
    h1.sqrt (by positivity)
  have e : (fun u => Real.sqrt (‖f u‖ ^ 2)) = fun u => ‖f u‖ := by
    ext u
    rw [Real.sqrt_sq (norm_nonneg _)]
  rw [e] at h2
  convert h2 using 1
  have hn : (‖f t‖ : ℂ) ≠ 0 := by exact_mod_cast norm_ne_zero_iff.2 h0
  have hexp : Complex.exp (-Complex.I * (Complex.arg (f t) : ℂ)) =
      (starRingEnd ℂ) (f t) / (‖f t‖ : ℂ) := by
    rw [eq_div_iff hn]
    have h3 := Complex.norm_mul_exp_arg_mul_I (f t)
    conv_rhs => rw [← h3]
    rw [map_mul, Complex.conj_ofReal, ← Complex.exp_conj, mul_comm]
    congr 2
    simp only [map_mul, Complex.conj_ofReal, Complex.conj_I]
    ring
  rw [hexp, Real.sqrt_sq (norm_nonneg _)]
  have : f' * ((starRingEnd ℂ) (f t) / (‖f t‖ : ℂ)) =
      (f' * (starRingEnd ℂ) (f t)) / ((‖f t‖ : ℝ) : ℂ) := by ring
  rw [this, Complex.div_ofReal_re, Complex.inner]
  have hn' : ‖f t‖ ≠ 0 := norm_ne_zero_iff.2 h0
  field_simp

theorem trace_conjTranspose_mul {a b : Type} [Fintype a] [Fintype b] (A B : Matrix a b ℂ) :
    (Aᴴ * B).trace = ∑ i, ∑ j, (starRingEnd ℂ) (A i j) * B i j := by
  simp only [Matrix.trace, Matrix.diag, Matrix.mul_apply, Matrix.conjTranspose_apply]
  rw [Finset.sum_comm]
  rfl

theorem frobSq_eq {a b : Type} [Fintype a] [Fintype b] (A : Matrix a b ℂ) :
    (Aᴴ * A).trace = (frobSq A : ℂ) := by
  rw [trace_conjTranspose_mul, frobSq]
  push_cast
  refine Finset.sum_congr rfl fun i _ => Finset.sum_congr rfl fun j _ => ?_
  rw [mul_comm, Complex.mul_conj, Complex.normSq_eq_norm_sq]
  push_cast
  rfl

theorem frobSq_re {a b : Type} [Fintype a] [Fintype b] (A : Matrix a b ℂ) :
    (Aᴴ * A).trace.re = frobSq A := by
  rw [frobSq_eq, Complex.ofReal_re]

theorem frobSq_nonneg {a b : Type} [Fintype a] [Fintype b] (A : Matrix a b ℂ) : 0 ≤ frobSq A :=
  Finset.sum_nonneg fun _ _ => Finset.sum_nonneg fun _ _ => sq_nonneg _

theorem frobSq_eq_zero {a b : Type} [Fintype a] [Fintype b] (A : Matrix a b ℂ) :
    frobSq A = 0 ↔ A = 0 := by
  constructor
  · intro h
    ext i j
    have h1 := (Finset.sum_eq_zero_iff_of_nonneg
      (fun i _ => Finset.sum_nonneg fun j _ => sq_nonneg (‖A i j‖))).1 h i (Finset.mem_univ i)
    have h2 := (Finset.sum_eq_zero_iff_of_nonneg
      (fun j _ => sq_nonneg (‖A i j‖))).1 h1 j (Finset.mem_univ j)
    simpa using h2
  · rintro rfl
    simp [frobSq]

theorem hasDerivAt_frobSq {a b : Type} [Fintype a] [Fintype b] {F : ℝ → Matrix a b ℂ}
    {F' : Matrix a b ℂ} {t : ℝ} (h : MatDeriv F F' t) :
    HasDerivAt (fun u => frobSq (F u)) (2 * ((F t)ᴴ * F').trace.re) t := by
  have e : 2 * ((F t)ᴴ * F').trace.re = ∑ i, ∑ j, 2 * inner ℝ (F t i j) (F' i j) := by
    rw [trace_conjTranspose_mul, Complex.re_sum, Finset.mul_sum]
    refine Finset.sum_congr rfl fun i _ => ?_
    rw [Complex.re_sum, Finset.mul_sum]
    refine Finset.sum_congr rfl fun j _ => ?_
    rw [Complex.inner, mul_comm ((starRingEnd ℂ) _)]
  rw [e]
  exact HasDerivAt.fun_sum fun i _ => HasDerivAt.fun_sum fun j _ => (h i j).norm_sq

variable {d m D : Type} [Fintype d] [DecidableEq d] [Fintype m] [DecidableEq m]

theorem propagator_setAmp_ne (S : Sys d m D) (amps : Amps) {k k' : Nat} (j : Nat) (u : ℝ)
    (h : k' ≠ k) : propagator S (setAmp amps k j u) k' = propagator S amps k' := by
  have : generator S (setAmp amps k j u) k' = generator S amps k' := by
    unfold generator setAmp
    simp [h]
  unfold propagator
  rw [this]

theorem setAmp_self (amps : Amps) (k j : Nat) : setAmp amps k j (amps k j) = amps := by
  ext k' j'
  unfold setAmp
  split
  · next h => rw [h.1, h.2]
  · rfl

theorem final_setAmp (S : Sys d m D) (amps : Amps) {k : Nat} (j : Nat) (u : ℝ) (hk : k < S.nTs) :
    final S (setAmp amps k j u) = evolution S amps (k + 1) S.nTs *
      propagator S (setAmp amps k j u) k * (evolution S amps 0 k * S.initial) := by
  have h1 : evolution S (setAmp amps k j u) (k + 1) S.nTs = evolution S amps (k + 1) S.nTs :=
    timeOrdered_congr fun k' h _ => propagator_setAmp_ne S amps j u (by omega)
  have h2 : evolution S (setAmp amps k j u) 0 k = evolution S amps 0 k :=
    timeOrdered_congr fun k' _ h => propagator_setAmp_ne S amps j u (by omega)
  unfold final
  rw [← h1, ← h2]
  unfold evolution
  rw [← timeOrdered_mul _ (Nat.zero_le (k + 1)) hk, timeOrdered_succ _ (Nat.zero_le k)]
  simp only [Matrix.mul_assoc]

theorem final_deriv {S : Sys d m D} {amps : Amps} (hS : ExactPropGrad S amps) {k j : Nat}
    (hk : k < S.nTs) (hj : j < S.nCtrls) :
    MatDeriv (fun u => final S (setAmp amps k j u)) (finalGrad S amps k j) (amps k j) := by
  have e : (fun u => final S (setAmp amps k j u)) = fun u => evolution S amps (k + 1) S.nTs *
      propagator S (setAmp amps k j u) k * (evolution S amps 0 k * S.initial) := by
    ext u : 1
    exact final_setAmp S amps j u hk
  rw [e]
  exact ((hS k j hk hj).const_mul _).mul_const _

theorem overlap_deriv {S : Sys d m D} {amps : Amps} (hS : ExactPropGrad S amps) {k j : Nat}
    (hk : k < S.nTs) (hj : j < S.nCtrls) :
    HasDerivAt (fun u => overlap S (setAmp amps k j u))
      (S.ontoTarget * finalGrad S amps k j).trace (amps k j) :=
  ((final_deriv hS hk hj).const_mul _).trace

end QTrl.Spec
