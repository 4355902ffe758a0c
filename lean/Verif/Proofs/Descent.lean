import Verif.Spec.Descent
import Verif.Proofs.Machine
import Verif.Proofs.Gradient
import Mathlib.Analysis.Normed.Algebra.MatrixExponential
import Mathlib.Analysis.Calculus.Deriv.Pi
import Mathlib.Analysis.Calculus.Deriv.Comp
import Mathlib.Analysis.Calculus.Deriv.Slope
import Mathlib.Analysis.Calculus.FDeriv.Analytic
import Mathlib.Analysis.Calculus.FDeriv.Mul

/-
The evolution is a differentiable function of all amplitudes together, so that partial
derivatives determine the derivative in every direction.
-/

set_option linter.unusedSectionVars false

open Matrix

namespace QTrl.Dyn

open QTrl.Spec

variable {d m D : Type} [Fintype d] [DecidableEq d] [Fintype m] [DecidableEq m]

theorem differentiable_exp_comp {E : Type*} [NormedAddCommGroup E] [NormedSpace ℝ E]
    {F : E → Matrix d d ℂ} (hF : ∀ i j, Differentiable ℝ fun x => F x i j) (i j : d) :
    Differentiable ℝ fun x => NormedSpace.exp (F x) i j := by
  let : NormedRing (Matrix d d ℂ) := Matrix.linftyOpNormedRing
  let : NormedAlgebra ℂ (Matrix d d ℂ) := Matrix.linftyOpNormedAlgebra
  let : NormedAlgebra ℝ (Matrix d d ℂ) := NormedAlgebra.restrictScalars ℝ ℂ _
  have hexp : Differentiable ℝ (NormedSpace.exp : Matrix d d ℂ → Matrix d d ℂ) :=
    fun A => (NormedSpace.exp_analytic (𝕂 := ℝ) A).differentiableAt
  have hF' : Differentiable ℝ F := by
    have e : F = fun x => ∑ i, ∑ j, (F x i j) • Matrix.single i j (1 : ℂ) := by
      ext x : 1
      conv_lhs => rw [Matrix.matrix_eq_sum_single (F x)]
      simp
    rw [e]
    exact Differentiable.fun_sum fun i _ => Differentiable.fun_sum fun j _ =>
      (hF i j).smul_const _
  have hent : Differentiable ℝ fun A : Matrix d d ℂ => A i j :=
    (LinearMap.toContinuousLinearMap (Matrix.entryLinearMap ℝ ℂ i j)).differentiable
  exact hent.comp (hexp.comp hF')

/-- The amplitudes of `x` in place of those of `amps`. -/
def fill (n c : Nat) (amps : Amps) (x : Fin n × Fin c → ℝ) : Amps := fun k j =>
  if h : k < n ∧ j < c then x (⟨k, h.1⟩, ⟨j, h.2⟩) else amps k j

/-- The entries of `amps` as a vector. -/
def pick (n c : Nat) (amps : Amps) (i : Fin n × Fin c) : ℝ := amps i.1 i.2

theorem fill_pick (n c : Nat) (amps : Amps) : fill n c amps (pick n c amps) = amps := by
  ext k j
  simp [fill, pick]

theorem fill_update {n c : Nat} (amps : Amps) (i : Fin n × Fin c) (u : ℝ) :
    fill n c amps (Function.update (pick n c amps) i u) = setAmp amps i.1 i.2 u := by
  obtain ⟨⟨k, hk⟩, ⟨j, hj⟩⟩ := i
  ext k' j'
  unfold fill setAmp
  by_cases h : k' < n ∧ j' < c
  · rw [dif_pos h]
    by_cases he : k' = k ∧ j' = j
    · obtain ⟨rfl, rfl⟩ := he
      simp
    · have : ((⟨k', h.1⟩, ⟨j', h.2⟩) : Fin n × Fin c) ≠ (⟨k, hk⟩, ⟨j, hj⟩) := by
        intro e
        simp only [Prod.mk.injEq, Fin.mk.injEq] at e
        exact he e
      rw [Function.update_of_ne this]
      simp [he, pick]
  · rw [dif_neg h]
    have : ¬ (k' = k ∧ j' = j) := by
      rintro ⟨rfl, rfl⟩
      exact h ⟨hk, hj⟩
    simp [this]

/-- Every slot's propagator is the exponential of an affine function of its amplitudes. -/
def AffineProps (S : Sys d m D) : Prop :=
  ∃ (A : Nat → Matrix d d ℂ) (B : Nat → Nat → Matrix d d ℂ), ∀ amps k, k < S.nTs →
    propagator S amps k = NormedSpace.exp
      (A k + ∑ j ∈ Finset.range S.nCtrls, (amps k j : ℂ) • B k j)

theorem differentiable_fill (n c : Nat) (amps : Amps) (k j : Nat) :
    Differentiable ℝ fun x => fill n c amps x k j := by
  unfold fill
  by_cases h : k < n ∧ j < c
  · simp only [dif_pos h]
    exact differentiable_apply _
  · simp only [dif_neg h]
    exact differentiable_const _

theorem differentiable_evolution {S : Sys d m D} (hS : AffineProps S) (amps : Amps) {hi : Nat}
    (hh : hi ≤ S.nTs) (i j : d) :
    Differentiable ℝ fun x => evolution S (fill S.nTs S.nCtrls amps x) 0 hi i j := by
  obtain ⟨A, B, h⟩ := hS
  unfold evolution
  induction hi generalizing i j with
  | zero =>
    simp only [timeOrdered_self]
    exact differentiable_const _
  | succ k ih =>
    simp only [timeOrdered_succ _ (Nat.zero_le k), Matrix.mul_apply]
    refine Differentiable.fun_sum fun l _ => Differentiable.fun_mul ?_ (ih (by omega) l j)
    simp only [h _ k hh]
    refine differentiable_exp_comp (fun i j => ?_) i l
    simp only [Matrix.add_apply, Matrix.sum_apply, Matrix.smul_apply, smul_eq_mul]
    refine (differentiable_const _).add (Differentiable.fun_sum fun j' _ => ?_)
    exact (Complex.ofRealCLM.differentiable.comp (differentiable_fill _ _ amps k j')).mul_const _

theorem differentiable_final {S : Sys d m D} (hS : AffineProps S) (amps : Amps) (i : d) (j : m) :
    Differentiable ℝ fun x => final S (fill S.nTs S.nCtrls amps x) i j := by
  unfold final
  simp only [Matrix.mul_apply]
  exact Differentiable.fun_sum fun l _ =>
    (differentiable_evolution hS amps le_rfl i l).mul_const _

theorem differentiable_overlap {S : Sys d m D} (hS : AffineProps S) (amps : Amps) :
    Differentiable ℝ fun x => overlap S (fill S.nTs S.nCtrls amps x) := by
  unfold overlap
  simp only [Matrix.trace, Matrix.diag_apply, Matrix.mul_apply]
  exact Differentiable.fun_sum fun i _ => Differentiable.fun_sum fun l _ =>
    (differentiable_final hS amps l i).const_mul _

/-- A function that is differentiable in all amplitudes together has, in every direction, the
derivative its partial derivatives prescribe. -/
theorem hasDerivAt_along {S : Sys d m D} {err : Amps → ℝ} {amps g : Amps}
    (hc : ∀ a b, SameAmps S a b → err a = err b)
    (hd : DifferentiableAt ℝ (fun x => err (fill S.nTs S.nCtrls amps x))
      (pick S.nTs S.nCtrls amps))
    (hg : IsGradient S err amps g) (v : Amps) :
    HasDerivAt (fun t => err (along amps v t)) (pairing S v g) 0 := by
  obtain ⟨L, hL⟩ := hd
  set x0 := pick S.nTs S.nCtrls amps with hx0
  have hpart : ∀ i : Fin S.nTs × Fin S.nCtrls, L (Pi.single i 1) = g i.1 i.2 := by
    intro i
    have h1 : HasDerivAt (fun u => err (fill S.nTs S.nCtrls amps (Function.update x0 i u)))
        (L (Pi.single i 1)) (x0 i) := by
      have hL' : HasFDerivAt (fun x => err (fill S.nTs S.nCtrls amps x)) L
          (Function.update x0 i (x0 i)) := by rwa [Function.update_eq_self]
      exact hL'.comp_hasDerivAt (x0 i) (hasDerivAt_update x0 i (x0 i))
    simp only [hx0, fill_update] at h1
    exact h1.unique (hg i.1 i.2 i.1.2 i.2.2)
  have hline : HasDerivAt (fun t : ℝ => x0 + t • pick S.nTs S.nCtrls v)
      (pick S.nTs S.nCtrls v) 0 := by
    simpa using ((hasDerivAt_id (0 : ℝ)).smul_const (pick S.nTs S.nCtrls v)).const_add x0
  have hL0 : HasFDerivAt (fun x => err (fill S.nTs S.nCtrls amps x)) L
      (x0 + (0 : ℝ) • pick S.nTs S.nCtrls v) := by simpa using hL
  have h2 := hL0.comp_hasDerivAt 0 hline
  have hval : L (pick S.nTs S.nCtrls v) = pairing S v g := by
    have := LinearMap.pi_apply_eq_sum_univ L.toLinearMap (pick S.nTs S.nCtrls v)
    simp only [ContinuousLinearMap.coe_coe] at this
    rw [this, Fintype.sum_prod_type]
    unfold pairing
    rw [← Fin.sum_univ_eq_sum_range (fun k => ∑ j ∈ Finset.range S.nCtrls, v k j * g k j)]
    refine Finset.sum_congr rfl fun k _ => ?_
    rw [← Fin.sum_univ_eq_sum_range (fun j => v k j * g k j)]
    refine Finset.sum_congr rfl fun j _ => ?_
    have e : (fun j' => if (k, j) = j' then (1 : ℝ) else 0) = Pi.single (k, j) 1 := by
      ext i
      simp [Pi.single_apply, eq_comm]
    rw [e, hpart]
    rfl
  rw [hval] at h2
  refine h2.congr_of_eventuallyEq (.of_forall fun t => ?_)
  refine hc _ _ fun k j hk hj => ?_
  simp [along, fill, hk, hj, hx0, pick]

/-- A step against a gradient that does not vanish lowers a function. -/
theorem lower_of_neg_deriv {f : ℝ → ℝ} {f' : ℝ} (h : HasDerivAt f f' 0) (hneg : f' < 0) :
    ∃ δ > 0, ∀ t, 0 < t → t < δ → f t < f 0 := by
  have h1 := hasDerivAt_iff_tendsto_slope_zero.1 h
  have h2 : ∀ᶠ t in nhdsWithin (0 : ℝ) {0}ᶜ, t⁻¹ • (f (0 + t) - f 0) < 0 :=
    h1.eventually (gt_mem_nhds hneg)
  rw [eventually_nhdsWithin_iff, Metric.eventually_nhds_iff] at h2
  obtain ⟨δ, hδ, h2⟩ := h2
  refine ⟨δ, hδ, fun t h0 ht => ?_⟩
  have h3 := h2 (y := t) (by rw [Real.dist_eq, sub_zero, abs_of_pos h0]; exact ht)
    (by simpa using h0.ne')
  rw [zero_add, smul_eq_mul] at h3
  have : f t - f 0 < 0 := by
    by_contra hh
    have := mul_nonneg (inv_nonneg.2 h0.le) (not_lt.1 hh)
    linarith
  linarith

theorem pairing_neg_self_neg {S : Sys d m D} {g : Amps}
    (h : ∃ k j, k < S.nTs ∧ j < S.nCtrls ∧ g k j ≠ 0) :
    pairing S (fun k j => -g k j) g < 0 := by
  obtain ⟨k, j, hk, hj, hne⟩ := h
  unfold pairing
  have hnn : ∀ k' j', -g k' j' * g k' j' ≤ 0 := fun k' j' => by nlinarith [mul_self_nonneg (g k' j')]
  refine Finset.sum_neg' (fun k' _ => Finset.sum_nonpos fun j' _ => hnn k' j') ⟨k, by simpa, ?_⟩
  refine Finset.sum_neg' (fun j' _ => hnn k j') ⟨j, by simpa, ?_⟩
  have := mul_self_pos.2 hne
  linarith

end QTrl.Dyn
