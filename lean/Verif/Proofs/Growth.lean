import Verif.Spec.Growth
import Verif.Proofs.Robust
import Mathlib.Analysis.InnerProductSpace.Calculus
import Mathlib.Analysis.Calculus.Deriv.MeanValue

/-
Exponentials of generators of bounded growth.
-/

open Matrix QTrl.Dyn

namespace QTrl.Spec

variable {d m : Type} [Fintype d] [DecidableEq d] [Fintype m] [DecidableEq m]

open scoped Matrix.Norms.L2Operator

set_option linter.unusedSectionVars false

theorem Growth.smul {μ s : ℝ} {A : Matrix d d ℂ} (h : Growth μ A) (hs : 0 ≤ s) :
    Growth (s * μ) ((s : ℂ) • A) := by
  intro v
  have e : (∑ i, star (v i) * (((s : ℂ) • A) *ᵥ v) i) =
      (s : ℂ) * ∑ i, star (v i) * (A *ᵥ v) i := by
    rw [Finset.mul_sum]
    refine Finset.sum_congr rfl fun i _ => ?_
    rw [Matrix.smul_mulVec, Pi.smul_apply, smul_eq_mul]
    ring
  rw [e, Complex.re_ofReal_mul, mul_assoc]
  exact mul_le_mul_of_nonneg_left (h v) hs

theorem Growth.add {μ ν : ℝ} {A B : Matrix d d ℂ} (h : Growth μ A) (h' : Growth ν B) :
    Growth (μ + ν) (A + B) := by
  intro v
  have e : (∑ i, star (v i) * ((A + B) *ᵥ v) i) =
      (∑ i, star (v i) * (A *ᵥ v) i) + ∑ i, star (v i) * (B *ᵥ v) i := by
    rw [← Finset.sum_add_distrib]
    refine Finset.sum_congr rfl fun i _ => ?_
    rw [Matrix.add_mulVec, Pi.add_apply, mul_add]
  rw [e, Complex.add_re, add_mul]
  exact add_le_add (h v) (h' v)

theorem Growth.mono {μ ν : ℝ} {A : Matrix d d ℂ} (h : Growth μ A) (hn : μ ≤ ν) : Growth ν A :=
  fun v => (h v).trans (mul_le_mul_of_nonneg_right hn (Finset.sum_nonneg fun _ _ => sq_nonneg _))

theorem growth_skew {A : Matrix d d ℂ} (h : Aᴴ = -A) : Growth 0 A := by
  intro v
  have e : star (∑ i, star (v i) * (A *ᵥ v) i) = -∑ i, star (v i) * (A *ᵥ v) i := by
    calc star (∑ i, star (v i) * (A *ᵥ v) i) = star (star v ⬝ᵥ A *ᵥ v) := rfl
      _ = star v ⬝ᵥ Aᴴ *ᵥ v := by
          rw [← Matrix.star_dotProduct_star, star_star, Matrix.star_mulVec, ← Matrix.dotProduct_mulVec]
      _ = _ := by rw [h, Matrix.neg_mulVec, dotProduct_neg]; rfl
  rw [zero_mul]
  generalize (∑ i, star (v i) * (A *ᵥ v) i) = z at e
  have := congrArg Complex.re e
  rw [Complex.star_def, Complex.conj_re, Complex.neg_re] at this
  linarith

/-- Vectors grow no faster than the rate. -/
theorem growth_vec {μ : ℝ} {A : Matrix d d ℂ} (h : Growth μ A) (v : d → ℂ) :
    ∑ i, ‖(NormedSpace.exp A *ᵥ v) i‖ ^ 2 ≤ Real.exp μ ^ 2 * ∑ i, ‖v i‖ ^ 2 := by
  let x : ℝ → d → ℂ := fun t => NormedSpace.exp ((t : ℂ) • A) *ᵥ v
  have hx : ∀ t i, HasDerivAt (fun s => x s i) ((A *ᵥ x t) i) t := by
    intro t i
    have e1 : ∀ k, HasDerivAt (fun s : ℝ => NormedSpace.exp ((s : ℂ) • A) i k * v k)
        ((A * NormedSpace.exp ((t : ℂ) • A)) i k * v k) t := fun k =>
      (exp_entry_deriv A t i k).mul_const _
    have e2 := HasDerivAt.fun_sum (u := Finset.univ) fun k _ => e1 k
    have e3 : (A *ᵥ x t) i = ∑ k, (A * NormedSpace.exp ((t : ℂ) • A)) i k * v k := by
      simp only [x, Matrix.mulVec_mulVec]
      rfl
    rw [e3]
    exact e2
  let g : ℝ → ℝ := fun t => Real.exp (-(2 * μ) * t) * ∑ i, ‖x t i‖ ^ 2
  have hg : ∀ t, HasDerivAt g (Real.exp (-(2 * μ) * t) * (-(2 * μ)) * (∑ i, ‖x t i‖ ^ 2) +
      Real.exp (-(2 * μ) * t) * (2 * (∑ i, star (x t i) * (A *ᵥ x t) i).re)) t := by
    intro t
    have e1 : HasDerivAt (fun s => Real.exp (-(2 * μ) * s)) (Real.exp (-(2 * μ) * t) * (-(2 * μ))) t := by
      have := ((hasDerivAt_id t).const_mul (-(2 * μ))).exp
      simpa using this
    have e2 : HasDerivAt (fun s => ∑ i, ‖x s i‖ ^ 2)
        (2 * (∑ i, star (x t i) * (A *ᵥ x t) i).re) t := by
      have := HasDerivAt.fun_sum (u := Finset.univ) fun i _ => (hx t i).norm_sq
      rw [Complex.re_sum, Finset.mul_sum]
      convert! this using 2 with i
      rw [Complex.inner, mul_comm ((A *ᵥ x t) _)]
      rfl
    exact e1.mul e2
  have hanti : Antitone g := antitone_of_deriv_nonpos (fun t => (hg t).differentiableAt) fun t => by
    rw [(hg t).deriv]
    have h1 := h (x t)
    have h2 : Real.exp (-(2 * μ) * t) * (-(2 * μ)) * (∑ i, ‖x t i‖ ^ 2) +
      Real.exp (-(2 * μ) * t) * (2 * (∑ i, star (x t i) * (A *ᵥ x t) i).re) =
      2 * Real.exp (-(2 * μ) * t) * ((∑ i, star (x t i) * (A *ᵥ x t) i).re - μ * ∑ i, ‖x t i‖ ^ 2) := by
      ring
    rw [h2]
    exact mul_nonpos_of_nonneg_of_nonpos (by positivity) (by linarith)
  have h01 := hanti zero_le_one
  have e0 : g 0 = ∑ i, ‖v i‖ ^ 2 := by simp [g, x]
  have e1 : g 1 = Real.exp (-(2 * μ)) * ∑ i, ‖(NormedSpace.exp A *ᵥ v) i‖ ^ 2 := by simp [g, x]
  rw [e0, e1] at h01
  have e2 : Real.exp μ ^ 2 * Real.exp (-(2 * μ)) = 1 := by
    rw [← Real.exp_nat_mul, ← Real.exp_add]
    simp
  calc _ = Real.exp μ ^ 2 * (Real.exp (-(2 * μ)) * ∑ i, ‖(NormedSpace.exp A *ᵥ v) i‖ ^ 2) := by
        rw [← mul_assoc, e2, one_mul]
    _ ≤ _ := mul_le_mul_of_nonneg_left h01 (by positivity)

/-- The propagator stretches vectors by no more than the rate allows. -/
theorem growth_exp {μ : ℝ} {A : Matrix d d ℂ} (h : Growth μ A) :
    opNorm (NormedSpace.exp A) ≤ Real.exp μ := by
  unfold opNorm
  rw [Matrix.l2_opNorm_def]
  refine ContinuousLinearMap.opNorm_le_bound _ (Real.exp_pos μ).le fun v => ?_
  change ‖(WithLp.toLp 2 (NormedSpace.exp A *ᵥ v.ofLp) : EuclideanSpace ℂ d)‖ ≤ _
  rw [EuclideanSpace.norm_eq, EuclideanSpace.norm_eq]
  refine Real.sqrt_le_iff.2 ⟨by positivity, ?_⟩
  rw [mul_pow, Real.sq_sqrt (Finset.sum_nonneg fun _ _ => sq_nonneg _)]
  exact growth_vec h v.ofLp

theorem growth_opNorm (A : Matrix d d ℂ) : Growth (opNorm A) A := by
  intro v
  have h1 := Matrix.l2_opNorm_mulVec A (WithLp.toLp 2 v)
  have h2 : ‖(∑ i, star (v i) * (A *ᵥ v) i)‖ ≤
      ‖(WithLp.toLp 2 v : EuclideanSpace ℂ d)‖ * ‖(WithLp.toLp 2 (A *ᵥ v) : EuclideanSpace ℂ d)‖ := by
    have := norm_inner_le_norm (𝕜 := ℂ) (WithLp.toLp 2 v : EuclideanSpace ℂ d)
      (WithLp.toLp 2 (A *ᵥ v) : EuclideanSpace ℂ d)
    rw [PiLp.inner_apply] at this
    refine le_trans (le_of_eq ?_) this
    congr 1
    refine Finset.sum_congr rfl fun i _ => ?_
    simp [mul_comm]
  have h3 : ‖(WithLp.toLp 2 (A *ᵥ v) : EuclideanSpace ℂ d)‖ ≤
      opNorm A * ‖(WithLp.toLp 2 v : EuclideanSpace ℂ d)‖ := by
    simpa [opNorm] using h1
  have h4 : ‖(WithLp.toLp 2 v : EuclideanSpace ℂ d)‖ ^ 2 = ∑ i, ‖v i‖ ^ 2 := by
    rw [EuclideanSpace.norm_sq_eq]
  have h5 := norm_nonneg (WithLp.toLp 2 v : EuclideanSpace ℂ d)
  calc _ ≤ ‖(∑ i, star (v i) * (A *ᵥ v) i)‖ := Complex.re_le_norm _
    _ ≤ _ := h2
    _ ≤ ‖(WithLp.toLp 2 v : EuclideanSpace ℂ d)‖ * (opNorm A *
        ‖(WithLp.toLp 2 v : EuclideanSpace ℂ d)‖) := mul_le_mul_of_nonneg_left h3 h5
    _ = _ := by rw [← h4]; ring

/-- Propagators are no further apart than their exponents, up to the growth. -/
theorem growth_near {μ : ℝ} {A B : Matrix d d ℂ} (hA : Growth μ A) (hB : Growth μ B) :
    opNorm (NormedSpace.exp A - NormedSpace.exp B) ≤ Real.exp μ * opNorm (A - B) := by
  let E : ℝ → Matrix d d ℂ := fun s => NormedSpace.exp (((-1 * (s - 1) : ℝ) : ℂ) • B)
  let X : ℝ → Matrix d d ℂ := fun s => NormedSpace.exp ((s : ℂ) • A)
  have hY : ∀ t ∈ Set.Icc (0 : ℝ) 1, ∀ i j, HasDerivWithinAt (fun s => (E s * X s) i j)
      ((E t * ((A - B) * X t)) i j) (Set.Icc 0 1) t := by
    intro t ht i j
    have e1 : ∀ k, HasDerivWithinAt (fun s => E s i k * X s k j)
        ((((-1 : ℝ) : ℂ) • (B * E t)) i k * X t k j + E t i k * (A * X t) k j) (Set.Icc 0 1) t :=
      fun k => (exp_shift_deriv B (-1) 1 t i k).hasDerivWithinAt.mul
        (exp_entry_deriv A t k j).hasDerivWithinAt
    have e2 := HasDerivWithinAt.fun_sum (u := Finset.univ) fun k _ => e1 k
    have e3 : ∑ k, ((((-1 : ℝ) : ℂ) • (B * E t)) i k * X t k j + E t i k * (A * X t) k j) =
        (E t * ((A - B) * X t)) i j := by
      rw [Finset.sum_add_distrib, ← Matrix.mul_apply, ← Matrix.mul_apply, ← Matrix.add_apply]
      have : B * E t = E t * B := exp_comm B _
      rw [this, Matrix.sub_mul, Matrix.mul_sub, Matrix.smul_mul, Matrix.mul_assoc]
      simp only [Matrix.add_apply, Matrix.sub_apply, Matrix.smul_apply, smul_eq_mul]
      push_cast
      ring
    rw [e3] at e2
    exact e2
  have hs := opNorm_sub_le_of_deriv (X := fun s => E s * X s) zero_le_one hY
    (δ := Real.exp μ * opNorm (A - B)) fun t ht => by
      have h1 : opNorm (E t) ≤ Real.exp ((-1 * (t - 1)) * μ) :=
        growth_exp (hB.smul (by linarith [ht.2]))
      have h2 : opNorm (X t) ≤ Real.exp (t * μ) := growth_exp (hA.smul ht.1)
      calc _ ≤ opNorm (E t) * (opNorm (A - B) * opNorm (X t)) :=
            (opNorm_mul _ _).trans (mul_le_mul_of_nonneg_left (opNorm_mul _ _) (opNorm_nonneg _))
        _ ≤ Real.exp ((-1 * (t - 1)) * μ) * (opNorm (A - B) * Real.exp (t * μ)) :=
            mul_le_mul h1 (mul_le_mul_of_nonneg_left h2 (opNorm_nonneg _))
              (mul_nonneg (opNorm_nonneg _) (opNorm_nonneg _)) (Real.exp_pos _).le
        _ = (Real.exp ((-1 * (t - 1)) * μ) * Real.exp (t * μ)) * opNorm (A - B) := by ring
        _ = _ := by
            rw [← Real.exp_add]
            congr 2
            ring
  simpa [E, X] using hs

/-- The evolution over slots of bounded growth. -/
theorem timeOrdered_growth {p : Nat → Matrix d d ℂ} {μ : Nat → ℝ} {n : Nat}
    (hp : ∀ k, k < n → opNorm (p k) ≤ Real.exp (μ k)) :
    opNorm (timeOrdered p 0 n) ≤ Real.exp (∑ k ∈ Finset.range n, μ k) := by
  induction n with
  | zero => simpa [timeOrdered_self] using opNorm_one_le (d := d)
  | succ n ih =>
    rw [timeOrdered_succ _ (Nat.zero_le n), Finset.sum_range_succ, add_comm, Real.exp_add]
    exact (opNorm_mul _ _).trans (mul_le_mul (hp n (by omega)) (ih fun k hk => hp k (by omega))
      (opNorm_nonneg _) (Real.exp_pos _).le)

/-- Two evolutions over slots of bounded growth. -/
theorem timeOrdered_growth_near {p q : Nat → Matrix d d ℂ} {μ δ : Nat → ℝ} {n : Nat}
    (hp : ∀ k, k < n → opNorm (p k) ≤ Real.exp (μ k))
    (hq : ∀ k, k < n → opNorm (q k) ≤ Real.exp (μ k))
    (hd : ∀ k, k < n → opNorm (p k - q k) ≤ Real.exp (μ k) * δ k) :
    opNorm (timeOrdered p 0 n - timeOrdered q 0 n) ≤
      Real.exp (∑ k ∈ Finset.range n, μ k) * ∑ k ∈ Finset.range n, δ k := by
  induction n with
  | zero => simp [timeOrdered_self, opNorm_zero]
  | succ n ih =>
    rw [timeOrdered_succ _ (Nat.zero_le n), timeOrdered_succ _ (Nat.zero_le n),
      Finset.sum_range_succ, Finset.sum_range_succ]
    have e : p n * timeOrdered p 0 n - q n * timeOrdered q 0 n =
        p n * (timeOrdered p 0 n - timeOrdered q 0 n) + (p n - q n) * timeOrdered q 0 n := by
      rw [Matrix.mul_sub, Matrix.sub_mul]
      abel
    have i1 := ih (fun k hk => hp k (by omega)) (fun k hk => hq k (by omega)) fun k hk => hd k (by omega)
    have i2 := timeOrdered_growth (p := q) (μ := μ) (n := n) fun k hk => hq k (by omega)
    have hn := hd n (by omega)
    rw [e, Real.exp_add]
    calc _ ≤ opNorm (p n) * opNorm (timeOrdered p 0 n - timeOrdered q 0 n) +
          opNorm (p n - q n) * opNorm (timeOrdered q 0 n) :=
          (opNorm_add _ _).trans (add_le_add (opNorm_mul _ _) (opNorm_mul _ _))
      _ ≤ Real.exp (μ n) * (Real.exp (∑ k ∈ Finset.range n, μ k) * ∑ k ∈ Finset.range n, δ k) +
          (Real.exp (μ n) * δ n) * Real.exp (∑ k ∈ Finset.range n, μ k) :=
          add_le_add (mul_le_mul (hp n (by omega)) i1 (opNorm_nonneg _) (Real.exp_pos _).le)
            (mul_le_mul hn i2 (opNorm_nonneg _) ((opNorm_nonneg _).trans hn))
      _ = _ := by ring

end QTrl.Spec
