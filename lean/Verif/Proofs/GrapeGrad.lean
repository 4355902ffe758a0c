import Verif.Proofs.GrapeRun
import Verif.Spec.Derivative
import Mathlib.Analysis.Normed.Algebra.MatrixExponential
import Mathlib.Analysis.SpecialFunctions.Exponential
import Mathlib.Analysis.Calculus.Deriv.Comp
import Mathlib.Analysis.Calculus.Deriv.Mul
import Mathlib.Analysis.Calculus.Deriv.Add
import Mathlib.Analysis.Calculus.Deriv.Pow
import Mathlib.Analysis.Calculus.Deriv.Shift
import Mathlib.Topology.Algebra.Module.FiniteDimension

/-
The increments of the GRAPE functions as derivatives.
-/

set_option linter.unusedSectionVars false

open Matrix

namespace QTrl.Grape

variable {d : Type} [Fintype d] [DecidableEq d]

attribute [local instance] Matrix.linftyOpNormedRing Matrix.linftyOpNormedAlgebra in
theorem matDeriv_exp_smul (E : Matrix d d ℂ) :
    QTrl.Spec.MatDeriv (fun x : ℝ => NormedSpace.exp ((x : ℂ) • E)) E 0 := by
  intro i j
  have h := hasDerivAt_exp_smul_const (𝕂 := ℝ) E (0 : ℝ)
  have h2 := (LinearMap.toContinuousLinearMap
    (Matrix.entryLinearMap ℝ ℂ i j : Matrix d d ℂ →ₗ[ℝ] ℂ)).hasFDerivAt
      (x := NormedSpace.exp ((0 : ℝ) • E))
  have h2 := HasFDerivAt.comp_hasDerivAt (0 : ℝ) h2 h
  rw [zero_smul, NormedSpace.exp_zero, one_mul] at h2
  exact h2

theorem hasDerivAt_trace (A B : Matrix d d ℂ) (K : ℝ → Matrix d d ℂ) (K' : Matrix d d ℂ) (t : ℝ)
    (h : QTrl.Spec.MatDeriv K K' t) :
    HasDerivAt (fun x => (A * K x * B).trace) ((A * K' * B).trace) t := by
  simp only [Matrix.trace, Matrix.diag, Matrix.mul_apply]
  refine HasDerivAt.fun_sum fun i _ => HasDerivAt.fun_sum fun k _ => HasDerivAt.mul_const ?_ _
  exact HasDerivAt.fun_sum fun l _ => (h l k).const_mul _

theorem hasDerivAt_overlap (T A B : Matrix d d ℂ) (K : ℝ → Matrix d d ℂ) (K' : Matrix d d ℂ)
    (t : ℝ) (h : QTrl.Spec.MatDeriv K K' t) :
    HasDerivAt (fun x => Spec.Grape.overlap T (A * K x * B)) (Spec.Grape.overlap T (A * K' * B))
      t := by
  have := (hasDerivAt_trace (Tᴴ * A) B K K' t h).div_const (Fintype.card d : ℂ)
  simpa [Spec.Grape.overlap, Matrix.mul_assoc] using this

theorem hasDerivAt_re (g : ℝ → ℂ) (g' : ℂ) (t : ℝ) (h : HasDerivAt g g' t) :
    HasDerivAt (fun x => (g x).re) g'.re t :=
  (Complex.reCLM.hasFDerivAt (x := g t)).comp_hasDerivAt t h

theorem hasDerivAt_im (g : ℝ → ℂ) (g' : ℂ) (t : ℝ) (h : HasDerivAt g g' t) :
    HasDerivAt (fun x => (g x).im) g'.im t :=
  (Complex.imCLM.hasFDerivAt (x := g t)).comp_hasDerivAt t h

theorem hasDerivAt_normSq (g : ℝ → ℂ) (g' : ℂ) (t : ℝ) (h : HasDerivAt g g' t) :
    HasDerivAt (fun x => ‖g x‖ ^ 2) (2 * (g' * (starRingEnd ℂ) (g t)).re) t := by
  have h1 := hasDerivAt_re g g' t h
  have h2 := hasDerivAt_im g g' t h
  have h3 := (h1.fun_mul h1).fun_add (h2.fun_mul h2)
  have e : (fun x => ‖g x‖ ^ 2) = fun x => (g x).re * (g x).re + (g x).im * (g x).im := by
    funext x
    rw [← Complex.normSq_eq_norm_sq, Complex.normSq_apply]
  rw [e]
  refine h3.congr_deriv ?_
  simp only [Complex.mul_re, Complex.conj_re, Complex.conj_im]
  ring

/-! ### Kicks -/

theorem tailEvo_left (U : Nat → Matrix d d ℂ) (N n : Nat) (h : n ≤ N) :
    tailEvo U (N + 1) (n + 1) = U N * tailEvo U N n := by
  induction n with
  | zero => simp [tailEvo]
  | succ n ih =>
    rw [tailEvo, ih (by omega), tailEvo, Matrix.mul_assoc]
    congr 3
    omega

theorem kicked_eq (a : Args d) (h : a.Exact) (v : Nat → Nat → ℝ) (j m : Nat) (x : ℝ) (N : Nat)
    (hm : m < N) (hN : N ≤ a.M) :
    Spec.Grape.kicked a.expm a.h0 a.hOps a.dt v j m x N =
      tailEvo (a.slot v) N (N - 1 - m) *
        a.expm ((-Complex.I * (x : ℂ) * (a.dt : ℂ)) • a.hOps.getD j 0) *
        evo (a.slot v) (m + 1) := by
  have hs : ∀ n, n < N → a.expm ((-Complex.I * (a.dt : ℂ)) •
      Spec.Grape.hamiltonian a.h0 a.hOps fun j => v j n) = a.slot v n := by
    intro n hn
    rw [Args.slot, ham_eq a h v n (by omega)]
  have h1 : ∀ n, n ≤ m → Spec.Grape.kicked a.expm a.h0 a.hOps a.dt v j m x n
      = evo (a.slot v) n := by
    intro n
    induction n with
    | zero => intro _; rfl
    | succ n ih =>
      intro hn
      rw [Spec.Grape.kicked, if_neg (by omega), ih (by omega), one_mul, hs n (by omega), evo]
  have h2 : ∀ k, m + 1 + k ≤ N → Spec.Grape.kicked a.expm a.h0 a.hOps a.dt v j m x (m + 1 + k)
      = tailEvo (a.slot v) (m + 1 + k) k *
        a.expm ((-Complex.I * (x : ℂ) * (a.dt : ℂ)) • a.hOps.getD j 0) *
        evo (a.slot v) (m + 1) := by
    intro k
    induction k with
    | zero =>
      intro hk
      rw [Nat.add_zero, Spec.Grape.kicked, if_pos rfl, h1 m (le_refl m), hs m (by omega), tailEvo,
        one_mul, evo]
    | succ k ih =>
      intro hk
      rw [← Nat.add_assoc, Spec.Grape.kicked, if_neg (by omega), ih (by omega), one_mul,
        hs _ (by omega), tailEvo_left _ _ _ (by omega)]
      simp only [Matrix.mul_assoc]
  have := h2 (N - 1 - m) (by omega)
  rw [show m + 1 + (N - 1 - m) = N by omega] at this
  exact this

/-- The increment is the derivative with respect to a kick. -/
theorem du0_deriv (a : Args d) (h : a.Exact) (hexp : a.expm = NormedSpace.exp)
    (v : Nat → Nat → ℝ) (j m : Nat) (hm : m < a.M - 1) :
    HasDerivAt (fun x => Spec.Grape.closeness a.phaseSensitive a.target
      (Spec.Grape.kicked a.expm a.h0 a.hOps a.dt v j m x (a.M - 1)))
      (a.du0 (a.propagators (a.uList v)) j m).re 0 := by
  obtain ⟨-, -, hf, hb⟩ := propagators_spec a v
  have hf := hf m hm
  have hb := hb m hm
  simp only [kicked_eq a h v j m _ _ hm (show a.M - 1 ≤ a.M by omega)]
  generalize hL : tailEvo (a.slot v) (a.M - 1) (a.M - 1 - 1 - m) = L at *
  generalize hF : evo (a.slot v) (m + 1) = F at *
  have hK : Spec.MatDeriv
      (fun x : ℝ => a.expm ((-Complex.I * (x : ℂ) * (a.dt : ℂ)) • a.hOps.getD j 0))
      ((-Complex.I * (a.dt : ℂ)) • a.hOps.getD j 0) 0 := by
    have := matDeriv_exp_smul ((-Complex.I * (a.dt : ℂ)) • a.hOps.getD j 0)
    rw [hexp]
    simp only [smul_smul] at this ⊢
    have e : ∀ x : ℝ, (x : ℂ) * (-Complex.I * (a.dt : ℂ)) = -Complex.I * (x : ℂ) * (a.dt : ℂ) := by
      intro x; ring
    simp only [e] at this
    exact this
  have hg := hasDerivAt_overlap a.target L F _ _ 0 hK
  have hg0 : a.expm ((-Complex.I * ((0 : ℝ) : ℂ) * (a.dt : ℂ)) • a.hOps.getD j 0) = 1 := by
    rw [hexp]; simp
  have e1 : -overlap (Lᴴ * a.target) ((Complex.I * (a.dt : ℂ)) • (a.hOps.getD j 0 * F)) =
      Spec.Grape.overlap a.target (L * ((-Complex.I * (a.dt : ℂ)) • a.hOps.getD j 0) * F) := by
    unfold overlap Spec.Grape.overlap
    rw [conjTranspose_mul, conjTranspose_conjTranspose]
    simp only [Matrix.mul_smul, Matrix.smul_mul, trace_smul, smul_eq_mul, Matrix.mul_assoc]
    ring
  have e2 : overlap F (Lᴴ * a.target) =
      (starRingEnd ℂ) (Spec.Grape.overlap a.target (L * 1 * F)) := by
    unfold overlap Spec.Grape.overlap
    rw [map_div₀, Complex.conj_natCast]
    congr 1
    have : Fᴴ * (Lᴴ * a.target) = (a.targetᴴ * (L * 1 * F))ᴴ := by
      simp [conjTranspose_mul, Matrix.mul_assoc]
    rw [this, trace_conjTranspose]
    rfl
  have hdu : a.du0 (a.propagators (a.uList v)) j m =
      if a.phaseSensitive then
        -overlap (Lᴴ * a.target) ((Complex.I * (a.dt : ℂ)) • (a.hOps.getD j 0 * F))
      else -2 * overlap (Lᴴ * a.target) ((Complex.I * (a.dt : ℂ)) • (a.hOps.getD j 0 * F))
        * overlap F (Lᴴ * a.target) := by
    unfold Args.du0
    simp only [List.getD_eq_getElem?_getD] at hf hb ⊢
    rw [hf, hb]
    rfl
  rw [hdu]
  unfold Spec.Grape.closeness
  cases a.phaseSensitive with
  | true =>
    simp only [if_true]
    rw [e1]
    exact hasDerivAt_re _ _ _ hg
  | false =>
    simp only [Bool.false_eq_true, if_false]
    have := hasDerivAt_normSq _ _ _ hg
    rw [hg0, ← e2, ← e1] at this
    convert this using 1
    simp only [neg_mul, Complex.neg_re, Complex.mul_re, Complex.mul_im, Complex.re_ofNat,
      Complex.im_ofNat]
    ring

/-- A kick is a change of the amplitude if the control commutes with the Hamiltonian of the
slot. -/
theorem kicked_changed (a : Args d) (hexp : a.expm = NormedSpace.exp) (v : Nat → Nat → ℝ)
    (j m : Nat) (hj : j < a.J)
    (hc : Commute (a.hOps.getD j 0) (Spec.Grape.hamiltonian a.h0 a.hOps fun j => v j m)) (x : ℝ)
    (N : Nat) :
    Spec.Grape.kicked a.expm a.h0 a.hOps a.dt v j m x N =
      Spec.Grape.propagator a.expm a.h0 a.hOps a.dt
        (Spec.Grape.changed v j m (v j m + x)) N := by
  induction N with
  | zero => rfl
  | succ n ih =>
    rw [Spec.Grape.kicked, Spec.Grape.propagator, ih, ← Matrix.mul_assoc]
    congr 1
    by_cases e : n = m
    · subst e
      rw [if_pos rfl, hexp]
      have hH : (Spec.Grape.hamiltonian a.h0 a.hOps fun j' =>
          Spec.Grape.changed v j n (v j n + x) j' n) =
          (x : ℂ) • a.hOps.getD j 0 + Spec.Grape.hamiltonian a.h0 a.hOps fun j' => v j' n := by
        unfold Spec.Grape.hamiltonian Spec.Grape.changed
        have hj : j < a.hOps.length := hj
        rw [add_left_comm]
        congr 1
        simp only [and_true]
        rw [← Finset.sum_erase_add _ _ (Finset.mem_range.2 hj),
          ← Finset.sum_erase_add (s := Finset.range a.hOps.length)
            (f := fun j' => ((v j' n : ℝ) : ℂ) • a.hOps.getD j' 0) (Finset.mem_range.2 hj)]
        have : ∑ x' ∈ (Finset.range a.hOps.length).erase j,
            (((if x' = j then v j n + x else v x' n : ℝ)) : ℂ) • a.hOps.getD x' 0 =
            ∑ x' ∈ (Finset.range a.hOps.length).erase j, ((v x' n : ℝ) : ℂ) • a.hOps.getD x' 0 := by
          refine Finset.sum_congr rfl fun k hk => ?_
          rw [if_neg (Finset.mem_erase.1 hk).1]
        rw [this, if_pos rfl, Complex.ofReal_add, add_smul]
        abel
      rw [hH, smul_add, Matrix.exp_add_of_commute, smul_smul]
      · congr 3
        ring
      · exact (hc.smul_left _).smul_left _ |>.smul_right _
    · rw [if_neg e, one_mul]
      congr 2
      unfold Spec.Grape.hamiltonian Spec.Grape.changed
      congr 1
      refine Finset.sum_congr rfl fun k _ => ?_
      simp only [if_neg (fun h : k = j ∧ n = m => e h.2)]

theorem clipElif_eq (lo hi x : ℝ) (h : lo ≤ hi) :
    clipElif (some (lo, hi)) x = max lo (min hi x) := by
  simp only [clipElif]
  split_ifs with h1 h2
  · rw [max_eq_left]; exact le_trans (min_le_right _ _) h1.le
  · rw [min_eq_left h2.le, max_eq_right h]
  · rw [min_eq_right (not_lt.1 h2), max_eq_right (not_lt.1 h1)]

/-- The increment with the penalties. -/
theorem incr_re (a : Args d) (p : Props d) (j m : Nat) (x : ℝ) :
    (a.incr .py p j m x).re = (a.du0 p j m).re
      - 2 * (a.alpha.getD 0 + a.beta.getD 0 * (m : ℝ)) * x * a.dt := by
  have h0 : ∀ y : Option ℝ, ¬ truthy y → y.getD 0 = 0 := by
    intro y hy
    cases y with
    | none => rfl
    | some b =>
      by_contra h
      exact hy ⟨b, rfl, h⟩
  unfold Args.incr
  simp only
  by_cases ha : truthy a.alpha <;> by_cases hb : truthy a.beta
  · rw [if_pos ha, if_pos hb]
    simp only [Complex.add_re, Complex.ofReal_re]
    ring
  · rw [if_pos ha, if_neg hb, h0 _ hb]
    simp only [Complex.add_re, Complex.ofReal_re]
    ring
  · rw [if_neg ha, if_pos hb, h0 _ ha]
    simp only [Complex.add_re, Complex.ofReal_re]
    ring
  · rw [if_neg ha, if_neg hb, h0 _ ha, h0 _ hb]
    ring

end QTrl.Grape
