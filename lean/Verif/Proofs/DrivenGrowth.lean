import Verif.Proofs.Growth

/-
Motions under varying generators of bounded growth.
-/

open Matrix QTrl.Dyn

namespace QTrl.Spec

variable {d m : Type} [Fintype d] [DecidableEq d] [Fintype m] [DecidableEq m]

open scoped Matrix.Norms.L2Operator

set_option linter.unusedSectionVars false

/-- A vector that moves under generators of bounded growth. -/
theorem driven_vec {μ T : ℝ} {A : ℝ → Matrix d d ℂ}
    (hA : ∀ t ∈ Set.Icc 0 T, Growth μ (A t)) {x : ℝ → d → ℂ}
    (hx : ∀ t ∈ Set.Icc 0 T, ∀ i, HasDerivWithinAt (fun s => x s i) ((A t *ᵥ x t) i)
      (Set.Icc 0 T) t) {t : ℝ} (ht : t ∈ Set.Icc 0 T) :
    ∑ i, ‖x t i‖ ^ 2 ≤ Real.exp (μ * t) ^ 2 * ∑ i, ‖x 0 i‖ ^ 2 := by
  let g : ℝ → ℝ := fun t => Real.exp (-(2 * μ) * t) * ∑ i, ‖x t i‖ ^ 2
  have hg : ∀ t ∈ Set.Icc 0 T, HasDerivWithinAt g
      (Real.exp (-(2 * μ) * t) * (-(2 * μ)) * (∑ i, ‖x t i‖ ^ 2) +
      Real.exp (-(2 * μ) * t) * (2 * (∑ i, star (x t i) * (A t *ᵥ x t) i).re)) (Set.Icc 0 T) t := by
    intro t ht
    have e1 : HasDerivAt (fun s => Real.exp (-(2 * μ) * s)) (Real.exp (-(2 * μ) * t) * (-(2 * μ))) t := by
      have := ((hasDerivAt_id t).const_mul (-(2 * μ))).exp
      simpa using this
    have e2 : HasDerivWithinAt (fun s => ∑ i, ‖x s i‖ ^ 2)
        (2 * (∑ i, star (x t i) * (A t *ᵥ x t) i).re) (Set.Icc 0 T) t := by
      have := HasDerivWithinAt.fun_sum (u := Finset.univ) fun i _ => (hx t ht i).norm_sq
      rw [Complex.re_sum, Finset.mul_sum]
      convert! this using 2 with i
      rw [Complex.inner, mul_comm ((A t *ᵥ x t) _)]
      rfl
    exact e1.hasDerivWithinAt.mul e2
  have hanti : AntitoneOn g (Set.Icc 0 T) := by
    refine antitoneOn_of_hasDerivWithinAt_nonpos (convex_Icc 0 T)
      (fun s hs => (hg s hs).continuousWithinAt)
      (fun s hs => (hg s (interior_subset hs)).mono interior_subset) fun s hs => ?_
    have h1 := hA s (interior_subset hs) (x s)
    have h2 : Real.exp (-(2 * μ) * s) * (-(2 * μ)) * (∑ i, ‖x s i‖ ^ 2) +
      Real.exp (-(2 * μ) * s) * (2 * (∑ i, star (x s i) * (A s *ᵥ x s) i).re) =
      2 * Real.exp (-(2 * μ) * s) *
        ((∑ i, star (x s i) * (A s *ᵥ x s) i).re - μ * ∑ i, ‖x s i‖ ^ 2) := by
      ring
    rw [h2]
    exact mul_nonpos_of_nonneg_of_nonpos (by positivity) (by linarith)
  have h01 := hanti (a := 0) ⟨le_rfl, ht.1.trans ht.2⟩ ht ht.1
  have e0 : g 0 = ∑ i, ‖x 0 i‖ ^ 2 := by simp [g]
  rw [e0] at h01
  have e2 : Real.exp (μ * t) ^ 2 * Real.exp (-(2 * μ) * t) = 1 := by
    rw [← Real.exp_nat_mul, ← Real.exp_add]
    push_cast
    rw [show 2 * (μ * t) + -(2 * μ) * t = 0 by ring, Real.exp_zero]
  calc _ = Real.exp (μ * t) ^ 2 * g t := by rw [← mul_assoc, e2, one_mul]
    _ ≤ _ := mul_le_mul_of_nonneg_left h01 (by positivity)

/-- A motion under generators of bounded growth. -/
theorem driven_growth {μ T : ℝ} {A : ℝ → Matrix d d ℂ} (hA : ∀ t ∈ Set.Icc 0 T, Growth μ (A t))
    {X0 : Matrix d m ℂ} {X : ℝ → Matrix d m ℂ} (hX : Driven T A X0 X) {t : ℝ}
    (ht : t ∈ Set.Icc 0 T) : opNorm (X t) ≤ Real.exp (μ * t) * opNorm X0 := by
  unfold opNorm
  rw [Matrix.l2_opNorm_def]
  refine ContinuousLinearMap.opNorm_le_bound _ (by positivity) fun v => ?_
  change ‖(WithLp.toLp 2 (X t *ᵥ v.ofLp) : EuclideanSpace ℂ d)‖ ≤ _
  have hx : ∀ t ∈ Set.Icc 0 T, ∀ i, HasDerivWithinAt (fun s => (X s *ᵥ v.ofLp) i)
      ((A t *ᵥ (X t *ᵥ v.ofLp)) i) (Set.Icc 0 T) t := by
    intro t ht i
    have e2 := HasDerivWithinAt.fun_sum (u := Finset.univ) fun k _ =>
      (hX.deriv t ht i k).mul_const (v.ofLp k)
    have e3 : (A t *ᵥ (X t *ᵥ v.ofLp)) i = ∑ k, (A t * X t) i k * v.ofLp k := by
      rw [Matrix.mulVec_mulVec]
      rfl
    rw [e3]
    exact e2
  have h1 := driven_vec hA hx ht
  have h2 : ‖(WithLp.toLp 2 (X t *ᵥ v.ofLp) : EuclideanSpace ℂ d)‖ ≤
      Real.exp (μ * t) * ‖(WithLp.toLp 2 (X 0 *ᵥ v.ofLp) : EuclideanSpace ℂ d)‖ := by
    rw [EuclideanSpace.norm_eq, EuclideanSpace.norm_eq]
    refine Real.sqrt_le_iff.2 ⟨by positivity, ?_⟩
    rw [mul_pow, Real.sq_sqrt (Finset.sum_nonneg fun _ _ => sq_nonneg _)]
    exact h1
  refine h2.trans ?_
  rw [mul_assoc, hX.start]
  exact mul_le_mul_of_nonneg_left (Matrix.l2_opNorm_mulVec X0 v) (Real.exp_pos _).le

/-- In a slot the motion stays close to that under a constant generator. -/
theorem slot_growth_near {a b δ μ M : ℝ} (hab : a ≤ b) {A : ℝ → Matrix d d ℂ} {B : Matrix d d ℂ}
    {X : ℝ → Matrix d m ℂ} (hB : Growth μ B)
    (h : ∀ t ∈ Set.Icc a b, ∀ i j,
      HasDerivWithinAt (fun s => X s i j) ((A t * X t) i j) (Set.Icc a b) t)
    (hb : ∀ t ∈ Set.Icc a b, opNorm (X t) ≤ Real.exp (μ * t) * M)
    (hδ : ∀ t ∈ Set.Icc a b, opNorm (A t - B) ≤ δ) :
    opNorm (X b - NormedSpace.exp (((b - a : ℝ) : ℂ) • B) * X a) ≤
      Real.exp (μ * b) * M * δ * (b - a) := by
  let E : ℝ → Matrix d d ℂ := fun s => NormedSpace.exp (((-1 * (s - b) : ℝ) : ℂ) • B)
  have hY : ∀ t ∈ Set.Icc a b, ∀ i j, HasDerivWithinAt (fun s => (E s * X s) i j)
      ((E t * ((A t - B) * X t)) i j) (Set.Icc a b) t := by
    intro t ht i j
    have e1 : ∀ k, HasDerivWithinAt (fun s => E s i k * X s k j)
        ((((-1 : ℝ) : ℂ) • (B * E t)) i k * X t k j + E t i k * (A t * X t) k j) (Set.Icc a b) t :=
      fun k => (exp_shift_deriv B (-1) b t i k).hasDerivWithinAt.mul (h t ht k j)
    have e2 := HasDerivWithinAt.fun_sum (u := Finset.univ) fun k _ => e1 k
    have e3 : ∑ k, ((((-1 : ℝ) : ℂ) • (B * E t)) i k * X t k j + E t i k * (A t * X t) k j) =
        (E t * ((A t - B) * X t)) i j := by
      rw [Finset.sum_add_distrib, ← Matrix.mul_apply, ← Matrix.mul_apply, ← Matrix.add_apply]
      have : B * E t = E t * B := exp_comm B _
      rw [this, Matrix.sub_mul, Matrix.mul_sub, Matrix.smul_mul, Matrix.mul_assoc]
      simp only [Matrix.add_apply, Matrix.sub_apply, Matrix.smul_apply, smul_eq_mul]
      push_cast
      ring
    rw [e3] at e2
    exact e2
  have hs := opNorm_sub_le_of_deriv (X := fun s => E s * X s) hab hY
    (δ := Real.exp (μ * b) * M * δ) fun t ht => by
      have h1 : opNorm (E t) ≤ Real.exp ((-1 * (t - b)) * μ) :=
        growth_exp (hB.smul (by linarith [ht.2]))
      have hδ0 : 0 ≤ δ := (opNorm_nonneg _).trans (hδ t ht)
      calc _ ≤ opNorm (E t) * (opNorm (A t - B) * opNorm (X t)) :=
            (opNorm_mul _ _).trans (mul_le_mul_of_nonneg_left (opNorm_mul _ _) (opNorm_nonneg _))
        _ ≤ Real.exp ((-1 * (t - b)) * μ) * (δ * (Real.exp (μ * t) * M)) :=
            mul_le_mul h1 (mul_le_mul (hδ t ht) (hb t ht) (opNorm_nonneg _) hδ0)
              (mul_nonneg (opNorm_nonneg _) (opNorm_nonneg _)) (Real.exp_pos _).le
        _ = (Real.exp ((-1 * (t - b)) * μ) * Real.exp (μ * t)) * M * δ := by ring
        _ = _ := by
            rw [← Real.exp_add]
            congr 3
            ring
  have ea : E a = NormedSpace.exp (((b - a : ℝ) : ℂ) • B) := by
    simp only [E]
    congr 3
    ring
  have eb : E b = 1 := by simp [E]
  simp only [ea, eb, Matrix.one_mul] at hs
  exact hs

/-- The motion under varying generators stays close to the product of the exponentials. -/
theorem driven_growth_near {n : Nat} {tau δ : Nat → ℝ} (hτ : ∀ k, k < n → 0 ≤ tau k) {μ : ℝ}
    {A : ℝ → Matrix d d ℂ} {B : Nat → Matrix d d ℂ} {X0 : Matrix d m ℂ} {X : ℝ → Matrix d m ℂ}
    (hX : Driven (slotTime tau n) A X0 X)
    (hA : ∀ t ∈ Set.Icc 0 (slotTime tau n), Growth μ (A t)) (hB : ∀ k, k < n → Growth μ (B k))
    (hδ : ∀ k, k < n → ∀ t ∈ Set.Icc (slotTime tau k) (slotTime tau (k + 1)),
      opNorm (A t - B k) ≤ δ k) {k : Nat} (hk : k ≤ n) :
    opNorm (X (slotTime tau k) -
      timeOrdered (fun k => NormedSpace.exp ((tau k : ℂ) • B k)) 0 k * X0) ≤
      Real.exp (μ * slotTime tau k) * opNorm X0 * ∑ i ∈ Finset.range k, tau i * δ i := by
  have hz : slotTime tau 0 = 0 := by simp [slotTime]
  induction k with
  | zero => simp [hz, timeOrdered_self, hX.start, opNorm_zero]
  | succ k ih =>
    have hsub : Set.Icc (slotTime tau k) (slotTime tau (k + 1)) ⊆ Set.Icc 0 (slotTime tau n) := by
      refine Set.Icc_subset_Icc ?_ (slotTime_le hτ hk (le_refl n))
      rw [← hz]
      exact slotTime_le hτ (Nat.zero_le k) (by omega)
    have hle := slotTime_le hτ (Nat.le_succ k) hk
    have hs := slot_growth_near hle (A := A) (B := B k) (X := X) (δ := δ k) (hB k (by omega))
      (fun t ht i j => (hX.deriv t (hsub ht) i j).mono hsub)
      (fun t ht => driven_growth hA hX (hsub ht)) (hδ k (by omega))
    have hd : slotTime tau (k + 1) - slotTime tau k = tau k := by rw [slotTime_succ]; ring
    rw [hd] at hs
    rw [timeOrdered_succ _ (Nat.zero_le k), Finset.sum_range_succ, Matrix.mul_assoc]
    set Y := timeOrdered (fun k => NormedSpace.exp ((tau k : ℂ) • B k)) 0 k * X0 with hY
    have e : X (slotTime tau (k + 1)) - NormedSpace.exp ((tau k : ℂ) • B k) * Y =
        NormedSpace.exp ((tau k : ℂ) • B k) * (X (slotTime tau k) - Y) +
        (X (slotTime tau (k + 1)) - NormedSpace.exp ((tau k : ℂ) • B k) * X (slotTime tau k)) := by
      rw [Matrix.mul_sub]
      abel
    rw [e]
    have h1 : opNorm (NormedSpace.exp ((tau k : ℂ) • B k)) ≤ Real.exp (tau k * μ) :=
      growth_exp ((hB k (by omega)).smul (hτ k (by omega)))
    have h2 := (opNorm_mul (NormedSpace.exp ((tau k : ℂ) • B k)) (X (slotTime tau k) - Y)).trans
      (mul_le_mul h1 (ih (by omega)) (opNorm_nonneg _) (Real.exp_pos _).le)
    have h3 : Real.exp (μ * slotTime tau (k + 1)) =
        Real.exp (tau k * μ) * Real.exp (μ * slotTime tau k) := by
      rw [← Real.exp_add, slotTime_succ]
      congr 1
      ring
    refine (opNorm_add _ _).trans ((add_le_add h2 hs).trans (le_of_eq ?_))
    rw [h3]
    ring

end QTrl.Spec
