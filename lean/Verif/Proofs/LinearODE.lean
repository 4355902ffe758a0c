import Verif.Proofs.Robust
import Mathlib.Analysis.ODE.ExistUnique

/-
Linear equations of motion with continuous generators have solutions on every interval of time.
-/

open Set Metric

namespace QTrl.Spec

section General

set_option linter.unusedSectionVars false

variable {E : Type} [NormedAddCommGroup E] [NormedSpace ℝ E] [CompleteSpace E]

/-- In a short time. -/
theorem linear_short {A : ℝ → E →L[ℝ] E} (hA : Continuous A) {K a b : ℝ} (hK : 0 ≤ K)
    (hab : a ≤ b) (hb : ∀ t ∈ Icc a b, ‖A t‖ ≤ K) (hs : 2 * K * (b - a) ≤ 1) (x : E) :
    ∃ X : ℝ → E, X a = x ∧ ∀ t ∈ Icc a b, HasDerivWithinAt X (A t (X t)) (Icc a b) t := by
  have hr : 0 ≤ ‖x‖ + 1 := by positivity
  have hL : 0 ≤ K * (2 * ‖x‖ + 1) := by positivity
  have hf : IsPicardLindelof (fun t y => A t y) (tmin := a) (tmax := b) ⟨a, le_rfl, hab⟩ x
      ⟨‖x‖ + 1, hr⟩ 0 ⟨K * (2 * ‖x‖ + 1), hL⟩ ⟨K, hK⟩ := by
    refine ⟨fun t ht => ?_, fun y _ => ?_, fun t ht y hy => ?_, ?_⟩
    · exact ((A t).lipschitz.weaken (show ‖A t‖₊ ≤ ⟨K, hK⟩ from hb t ht)).lipschitzOnWith
    · exact (hA.clm_apply continuous_const).continuousOn
    · have h1 : ‖y‖ ≤ 2 * ‖x‖ + 1 := by
        have h3 : ‖y - x‖ ≤ ‖x‖ + 1 := mem_closedBall_iff_norm.1 hy
        have h2 := norm_le_norm_add_norm_sub' y x
        linarith
      exact ((A t).le_opNorm y).trans (mul_le_mul (hb t ht) h1 (norm_nonneg _) hK)
    · simp only [sub_self, NNReal.coe_zero, sub_zero]
      rw [max_eq_left (by linarith)]
      show K * (2 * ‖x‖ + 1) * (b - a) ≤ ‖x‖ + 1
      nlinarith [norm_nonneg x, mul_nonneg hK (sub_nonneg.2 hab)]
  exact hf.exists_eq_forall_mem_Icc_hasDerivWithinAt₀

/-- Two solutions that meet. -/
theorem linear_glue {A : ℝ → E →L[ℝ] E} {a b c : ℝ} (hab : a ≤ b) (hbc : b ≤ c) {X Y : ℝ → E}
    (hX : ∀ t ∈ Icc a b, HasDerivWithinAt X (A t (X t)) (Icc a b) t)
    (hY : ∀ t ∈ Icc b c, HasDerivWithinAt Y (A t (Y t)) (Icc b c) t) (h : Y b = X b) :
    ∃ Z : ℝ → E, Z a = X a ∧ ∀ t ∈ Icc a c, HasDerivWithinAt Z (A t (Z t)) (Icc a c) t := by
  refine ⟨fun t => if t ≤ b then X t else Y t, by simp [hab], fun t ht => ?_⟩
  have hl : ∀ s ∈ Icc a b, (if s ≤ b then X s else Y s) = X s := fun s hs => if_pos hs.2
  have hr : ∀ s ∈ Icc b c, (if s ≤ b then X s else Y s) = Y s := fun s hs => by
    split
    · next hle => rw [le_antisymm hle hs.1, h]
    · rfl
  rw [← Icc_union_Icc_eq_Icc hab hbc]
  have far : ∀ {u v : ℝ} {f : ℝ → E} {f' : E}, t ∉ Icc u v → HasDerivWithinAt f f' (Icc u v) t :=
    fun hn => HasFDerivWithinAt.of_notMem_closure (by rwa [isClosed_Icc.closure_eq])
  refine HasDerivWithinAt.union ?_ ?_
  · by_cases hm : t ∈ Icc a b
    · exact ((hX t hm).congr hl (hl t hm)).congr_deriv (by simp only [hl t hm])
    · exact far hm
  · by_cases hm : t ∈ Icc b c
    · exact ((hY t hm).congr hr (hr t hm)).congr_deriv (by simp only [hr t hm])
    · exact far hm

/-- On every interval. -/
theorem linear_exists {A : ℝ → E →L[ℝ] E} (hA : Continuous A) {T : ℝ} (hT : 0 ≤ T) (x : E) :
    ∃ X : ℝ → E, X 0 = x ∧ ∀ t ∈ Icc 0 T, HasDerivWithinAt X (A t (X t)) (Icc 0 T) t := by
  obtain ⟨K, hK⟩ := isCompact_Icc.exists_bound_of_continuousOn (s := Icc 0 T) hA.continuousOn
  have hK0 : 0 ≤ K := (norm_nonneg _).trans (hK 0 ⟨le_rfl, hT⟩)
  obtain ⟨N, hN⟩ := exists_nat_gt (2 * K * T)
  have hNpos : (0 : ℝ) < N := lt_of_le_of_lt (by positivity) hN
  have key : ∀ n : ℕ, n ≤ N → ∃ X : ℝ → E, X 0 = x ∧
      ∀ t ∈ Icc 0 (n * (T / N)), HasDerivWithinAt X (A t (X t)) (Icc 0 (n * (T / N))) t := by
    intro n
    induction n with
    | zero =>
      intro _
      refine ⟨fun _ => x, rfl, fun t ht => ?_⟩
      have ht0 : t = 0 := by
        simp only [Nat.cast_zero, zero_mul, Icc_self, mem_singleton_iff] at ht
        exact ht
      subst ht0
      simp only [Nat.cast_zero, zero_mul, Icc_self]
      exact HasFDerivWithinAt.of_subsingleton (by simp)
    | succ n ih =>
      intro hn
      obtain ⟨X, h0, hX⟩ := ih (by omega)
      have hstep : (0 : ℝ) ≤ T / N := by positivity
      have hle : (n : ℝ) * (T / N) ≤ ((n + 1 : ℕ) : ℝ) * (T / N) := by
        push_cast
        nlinarith
      have hend : ((n + 1 : ℕ) : ℝ) * (T / N) ≤ T := by
        have : ((n + 1 : ℕ) : ℝ) ≤ N := by exact_mod_cast hn
        calc _ ≤ (N : ℝ) * (T / N) := mul_le_mul_of_nonneg_right this hstep
          _ = T := by field_simp
      have hstart : 0 ≤ (n : ℝ) * (T / N) := by positivity
      obtain ⟨Y, h1, hY⟩ := linear_short hA hK0 hle
        (fun t ht => hK t ⟨hstart.trans ht.1, ht.2.trans hend⟩) (by
          have e : ((n + 1 : ℕ) : ℝ) * (T / N) - n * (T / N) = T / N := by push_cast; ring
          rw [e, ← mul_div_assoc, div_le_one hNpos]
          exact hN.le) (X (n * (T / N)))
      obtain ⟨Z, h2, hZ⟩ := linear_glue hstart hle hX hY h1
      exact ⟨Z, h2.trans h0, hZ⟩
  obtain ⟨X, h0, hX⟩ := key N le_rfl
  have e : (N : ℝ) * (T / N) = T := by field_simp
  rw [e] at hX
  exact ⟨X, h0, hX⟩

end General

variable {d m : Type} [Fintype d] [DecidableEq d] [Fintype m] [DecidableEq m]

open scoped Matrix.Norms.L2Operator

/-- Generators whose entries are continuous. -/
theorem driven_exists {A : ℝ → Matrix d d ℂ} (hA : ∀ i j, Continuous fun t => A t i j) {T : ℝ}
    (hT : 0 ≤ T) (X0 : Matrix d m ℂ) : ∃ X, Driven T A X0 X := by
  let M : Matrix d d ℂ →ₗ[ℝ] Matrix d m ℂ →L[ℝ] Matrix d m ℂ :=
    { toFun := fun B => LinearMap.toContinuousLinearMap
        { toFun := fun Y => B * Y
          map_add' := fun _ _ => Matrix.mul_add _ _ _
          map_smul' := fun r Y => Matrix.mul_smul B r Y }
      map_add' := fun _ _ => by
        ext1 Y
        exact Matrix.add_mul _ _ _
      map_smul' := fun r B => by
        ext1 Y
        exact Matrix.smul_mul r B Y }
  have hc : Continuous fun t => M (A t) :=
    (LinearMap.continuous_of_finiteDimensional M).comp (continuous_matrix hA)
  obtain ⟨X, h0, hX⟩ := linear_exists hc hT X0
  refine ⟨X, h0, fun t ht i j => ?_⟩
  let L : Matrix d m ℂ →L[ℝ] ℂ := LinearMap.toContinuousLinearMap (Matrix.entryLinearMap ℝ ℂ i j)
  exact L.hasFDerivAt.comp_hasDerivWithinAt t (hX t ht)

end QTrl.Spec
