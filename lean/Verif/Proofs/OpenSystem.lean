import Verif.Spec.OpenSystem
import Verif.Proofs.Spectral
import Mathlib.Analysis.Matrix.PosDef
import Mathlib.Topology.Algebra.Order.Field

/-
The exponential of a Lindblad generator is a channel.

`M + (1/c) K · K† + c · 1` is completely positive for `c > 0`, so its exponential is, and so is the
exponential of `M + (1/c) K · K†`; let `c` go to infinity.
-/

set_option linter.unusedSectionVars false

open Matrix Filter Topology
open scoped ComplexOrder

namespace QTrl.Spec

variable {n : Type} [Fintype n] [DecidableEq n]

/-! ### The action of superoperators -/

theorem act_add (S T : Matrix (n × n) (n × n) ℂ) (ρ) : act (S + T) ρ = act S ρ + act T ρ := by
  ext i j
  simp [act, add_mul, Finset.sum_add_distrib]

theorem act_smul (c : ℂ) (S : Matrix (n × n) (n × n) ℂ) (ρ) : act (c • S) ρ = c • act S ρ := by
  ext i j
  simp [act, Finset.mul_sum, mul_assoc]

theorem act_one (ρ : Matrix n n ℂ) : act 1 ρ = ρ := by
  ext i j
  simp only [act]
  rw [Finset.sum_eq_single i, Finset.sum_eq_single j]
  · simp
  · intro q _ hq
    rw [Matrix.one_apply_ne, zero_mul]
    intro h
    exact hq (Prod.ext_iff.1 h).2.symm
  · simp
  · intro p _ hp
    refine Finset.sum_eq_zero fun q _ => ?_
    rw [Matrix.one_apply_ne, zero_mul]
    intro h
    exact hp (Prod.ext_iff.1 h).1.symm
  · simp

theorem act_mul (S T : Matrix (n × n) (n × n) ℂ) (ρ) : act (S * T) ρ = act S (act T ρ) := by
  ext i j
  simp only [act, Matrix.mul_apply, Finset.sum_mul, Finset.mul_sum, Fintype.sum_prod_type,
    mul_assoc]
  calc ∑ p, ∑ q, ∑ r, ∑ s, S (i, j) (r, s) * (T (r, s) (p, q) * ρ p q)
      = ∑ p, ∑ r, ∑ q, ∑ s, S (i, j) (r, s) * (T (r, s) (p, q) * ρ p q) :=
        Finset.sum_congr rfl fun p _ => Finset.sum_comm
    _ = ∑ r, ∑ p, ∑ q, ∑ s, S (i, j) (r, s) * (T (r, s) (p, q) * ρ p q) := Finset.sum_comm
    _ = ∑ r, ∑ p, ∑ s, ∑ q, S (i, j) (r, s) * (T (r, s) (p, q) * ρ p q) :=
        Finset.sum_congr rfl fun r _ => Finset.sum_congr rfl fun p _ => Finset.sum_comm
    _ = ∑ r, ∑ s, ∑ p, ∑ q, S (i, j) (r, s) * (T (r, s) (p, q) * ρ p q) :=
        Finset.sum_congr rfl fun r _ => Finset.sum_comm

theorem act_single (S : Matrix (n × n) (n × n) ℂ) (p q i j : n) :
    act S (Matrix.single p q 1) i j = S (i, j) (p, q) := by
  simp only [act]
  rw [Finset.sum_eq_single p, Finset.sum_eq_single q]
  · simp
  · intro b _ hb
    rw [Matrix.single_apply_of_ne]
    · simp
    · tauto
  · simp
  · intro b _ hb
    refine Finset.sum_eq_zero fun c _ => ?_
    rw [Matrix.single_apply_of_ne]
    · simp
    · tauto
  · simp

theorem act_injective {S T : Matrix (n × n) (n × n) ℂ} (h : ∀ ρ, act S ρ = act T ρ) : S = T := by
  ext ⟨i, j⟩ ⟨p, q⟩
  rw [← act_single S p q i j, h, act_single]

section Beside
variable {a : Type} [Fintype a]

theorem actBeside_add (S T : Matrix (n × n) (n × n) ℂ) (ρ : Matrix (n × a) (n × a) ℂ) :
    actBeside (S + T) ρ = actBeside S ρ + actBeside T ρ := by
  ext i j
  simp [actBeside, add_mul, Finset.sum_add_distrib]

theorem actBeside_smul (c : ℂ) (S : Matrix (n × n) (n × n) ℂ) (ρ : Matrix (n × a) (n × a) ℂ) :
    actBeside (c • S) ρ = c • actBeside S ρ := by
  ext i j
  simp [actBeside, Finset.mul_sum, mul_assoc]

/-- The block of a composite operator that a superoperator acts on. -/
def slice (ρ : Matrix (n × a) (n × a) ℂ) (x y : a) : Matrix n n ℂ := fun i j => ρ (i, x) (j, y)

theorem actBeside_slice (S : Matrix (n × n) (n × n) ℂ) (ρ : Matrix (n × a) (n × a) ℂ) (x y : a) :
    slice (actBeside S ρ) x y = act S (slice ρ x y) := rfl

theorem slice_ext {ρ σ : Matrix (n × a) (n × a) ℂ} (h : ∀ x y, slice ρ x y = slice σ x y) :
    ρ = σ := by
  ext ⟨i, x⟩ ⟨j, y⟩
  exact congrFun (congrFun (h x y) i) j

theorem actBeside_one (ρ : Matrix (n × a) (n × a) ℂ) : actBeside 1 ρ = ρ :=
  slice_ext fun x y => by rw [actBeside_slice, act_one]

theorem actBeside_mul (S T : Matrix (n × n) (n × n) ℂ) (ρ : Matrix (n × a) (n × a) ℂ) :
    actBeside (S * T) ρ = actBeside S (actBeside T ρ) :=
  slice_ext fun x y => by simp only [actBeside_slice, act_mul]

end Beside

/-! ### Complete positivity -/

/-- Completely positive. -/
def CP (S : Matrix (n × n) (n × n) ℂ) : Prop :=
  ∀ (a : Type) [Fintype a] (ρ : Matrix (n × a) (n × a) ℂ), ρ.PosSemidef →
    (actBeside S ρ).PosSemidef

theorem CP.one : CP (1 : Matrix (n × n) (n × n) ℂ) := fun _ _ ρ h => by
  rw [actBeside_one]; exact h

theorem CP.zero : CP (0 : Matrix (n × n) (n × n) ℂ) := fun a _ ρ _ => by
  have : actBeside (0 : Matrix (n × n) (n × n) ℂ) ρ = 0 := by ext; simp [actBeside]
  rw [this]; exact Matrix.PosSemidef.zero

theorem CP.mul {S T : Matrix (n × n) (n × n) ℂ} (hS : CP S) (hT : CP T) : CP (S * T) :=
  fun a _ ρ h => by rw [actBeside_mul]; exact hS a _ (hT a ρ h)

theorem CP.add {S T : Matrix (n × n) (n × n) ℂ} (hS : CP S) (hT : CP T) : CP (S + T) :=
  fun a _ ρ h => by rw [actBeside_add]; exact (hS a ρ h).add (hT a ρ h)

theorem CP.smul {S : Matrix (n × n) (n × n) ℂ} (hS : CP S) {c : ℂ} (hc : 0 ≤ c) : CP (c • S) :=
  fun a _ ρ h => by rw [actBeside_smul]; exact (hS a ρ h).smul hc

theorem CP.pow {S : Matrix (n × n) (n × n) ℂ} (hS : CP S) (k : ℕ) : CP (S ^ k) := by
  induction k with
  | zero => rw [pow_zero]; exact CP.one
  | succ k ih => rw [pow_succ]; exact ih.mul hS

theorem CP.list_sum {l : List (Matrix (n × n) (n × n) ℂ)} (h : ∀ S ∈ l, CP S) : CP l.sum := by
  induction l with
  | nil => exact CP.zero
  | cons S l ih =>
    rw [List.sum_cons]
    exact (h S (by simp)).add (ih fun T hT => h T (by simp [hT]))

theorem CP.sum {s : Finset ℕ} {f : ℕ → Matrix (n × n) (n × n) ℂ} (h : ∀ i ∈ s, CP (f i)) :
    CP (∑ i ∈ s, f i) := by
  classical
  induction s using Finset.induction_on with
  | empty => rw [Finset.sum_empty]; exact CP.zero
  | insert i s hi ih =>
    rw [Finset.sum_insert hi]
    exact (h i (by simp)).add (ih fun j hj => h j (by simp [hj]))

theorem isClosed_posSemidef {b : Type} [Fintype b] :
    IsClosed {ρ : Matrix b b ℂ | ρ.PosSemidef} := by
  simp only [Matrix.posSemidef_iff_dotProduct_mulVec, Set.ofPred_and, Set.ofPred_forall]
  refine IsClosed.inter ?_ (isClosed_iInter fun x => ?_)
  · exact isClosed_eq continuous_id.matrix_conjTranspose continuous_id
  · refine isClosed_le continuous_const ?_
    exact Continuous.dotProduct continuous_const (Continuous.matrix_mulVec continuous_id
      continuous_const)

theorem continuous_actBeside {a : Type} [Fintype a] (ρ : Matrix (n × a) (n × a) ℂ) :
    Continuous fun S : Matrix (n × n) (n × n) ℂ => actBeside S ρ := by
  refine continuous_matrix fun x y => ?_
  refine continuous_finsetSum _ fun p _ => continuous_finsetSum _ fun q _ => ?_
  exact (continuous_id.matrix_elem _ _).mul continuous_const

theorem CP.of_tendsto {ι : Type} {l : Filter ι} [l.NeBot] {f : ι → Matrix (n × n) (n × n) ℂ}
    {S : Matrix (n × n) (n × n) ℂ} (h : Tendsto f l (𝓝 S)) (hf : ∀ᶠ i in l, CP (f i)) : CP S := by
  intro a _ ρ hρ
  refine isClosed_posSemidef.mem_of_tendsto (((continuous_actBeside ρ).tendsto S).comp h) ?_
  filter_upwards [hf] with i hi
  exact hi a ρ hρ

theorem tendsto_exp_sums {d : Type} [Fintype d] [DecidableEq d] (M : Matrix d d ℂ) :
    Tendsto (fun N => ∑ i ∈ Finset.range N, (i.factorial : ℂ)⁻¹ • M ^ i) atTop
      (𝓝 (NormedSpace.exp M)) := by
  let : NormedRing (Matrix d d ℂ) := Matrix.linftyOpNormedRing
  let : NormedAlgebra ℂ (Matrix d d ℂ) := Matrix.linftyOpNormedAlgebra
  exact (NormedSpace.exp_series_hasSum_exp' (𝕂 := ℂ) M).tendsto_sum_nat

theorem CP.exp {S : Matrix (n × n) (n × n) ℂ} (hS : CP S) : CP (NormedSpace.exp S) := by
  refine CP.of_tendsto (tendsto_exp_sums S) (Eventually.of_forall fun N => CP.sum fun i _ => ?_)
  refine (hS.pow i).smul ?_
  have : (0 : ℝ) ≤ ((i.factorial : ℝ))⁻¹ := by positivity
  have h2 : ((i.factorial : ℂ))⁻¹ = ((((i.factorial : ℝ))⁻¹ : ℝ) : ℂ) := by push_cast; rfl
  rw [h2]
  exact_mod_cast this

/-! ### Lindblad generators -/

/-- `ρ ↦ A ρ A†`. -/
def sandwich (A : Matrix n n ℂ) : Matrix (n × n) (n × n) ℂ :=
  fun x y => A x.1 y.1 * star (A x.2 y.2)

/-- `ρ ↦ K ρ + ρ K†`. -/
def bothSides (K : Matrix n n ℂ) : Matrix (n × n) (n × n) ℂ :=
  fun x y => K x.1 y.1 * (1 : Matrix n n ℂ) x.2 y.2 + (1 : Matrix n n ℂ) x.1 y.1 * star (K x.2 y.2)

theorem act_sandwich (A ρ : Matrix n n ℂ) : act (sandwich A) ρ = A * ρ * Aᴴ := by
  ext i j
  simp only [act, sandwich, Matrix.mul_apply, Matrix.conjTranspose_apply, Finset.sum_mul]
  rw [Finset.sum_comm]
  refine Finset.sum_congr rfl fun q _ => Finset.sum_congr rfl fun p _ => ?_
  ring

theorem act_bothSides (K ρ : Matrix n n ℂ) : act (bothSides K) ρ = K * ρ + ρ * Kᴴ := by
  ext i j
  simp only [act, bothSides, add_mul, Finset.sum_add_distrib, Matrix.add_apply, Matrix.mul_apply,
    Matrix.conjTranspose_apply]
  congr 1
  · refine Finset.sum_congr rfl fun p _ => ?_
    rw [Finset.sum_eq_single j]
    · simp
    · intro q _ hq
      simp [Matrix.one_apply_ne hq.symm]
    · simp
  · rw [Finset.sum_eq_single i]
    · refine Finset.sum_congr rfl fun q _ => ?_
      simp [mul_comm]
    · intro p _ hp
      simp [Matrix.one_apply_ne hp.symm]
    · simp

theorem CP.sandwich (A : Matrix n n ℂ) : CP (sandwich A) := by
  classical
  intro a _ ρ hρ
  have : actBeside (QTrl.Spec.sandwich A) ρ =
      (Matrix.of fun x y : n × a => A x.1 y.1 * (1 : Matrix a a ℂ) x.2 y.2) * ρ *
        (Matrix.of fun x y : n × a => A x.1 y.1 * (1 : Matrix a a ℂ) x.2 y.2)ᴴ := by
    have one_sum : ∀ (f : a → ℂ) (x : a), ∑ y, (1 : Matrix a a ℂ) x y * f y = f x := by
      intro f x
      rw [Finset.sum_eq_single x] <;> simp +contextual [eq_comm]
    ext ⟨i, x⟩ ⟨j, y⟩
    simp only [actBeside, QTrl.Spec.sandwich, Matrix.mul_apply, Matrix.conjTranspose_apply,
      Fintype.sum_prod_type, star_mul', Matrix.of_apply]
    have h1 : ∀ q z, ∑ p, ∑ w, A i p * (1 : Matrix a a ℂ) x w * ρ (p, w) (q, z) =
        ∑ p, A i p * ρ (p, x) (q, z) := by
      intro q z
      refine Finset.sum_congr rfl fun p _ => ?_
      have := one_sum (fun w => A i p * ρ (p, w) (q, z)) x
      rw [← this]
      refine Finset.sum_congr rfl fun w _ => ?_
      ring
    simp only [h1]
    have h2 : ∀ q, ∑ z, (∑ p, A i p * ρ (p, x) (q, z)) * (star (A j q) *
        star ((1 : Matrix a a ℂ) y z)) = (∑ p, A i p * ρ (p, x) (q, y)) * star (A j q) := by
      intro q
      rw [← one_sum (fun z => (∑ p, A i p * ρ (p, x) (q, z)) * star (A j q)) y]
      refine Finset.sum_congr rfl fun z _ => ?_
      have : star ((1 : Matrix a a ℂ) y z) = (1 : Matrix a a ℂ) y z := by
        by_cases h : y = z
        · subst h; simp
        · simp [Matrix.one_apply_ne h]
      rw [this]; ring
    simp only [h2]
    rw [Finset.sum_comm]
    refine Finset.sum_congr rfl fun q _ => ?_
    rw [Finset.sum_mul]
    refine Finset.sum_congr rfl fun p _ => ?_
    ring
  rw [this]
  exact hρ.mul_mul_conjTranspose_same _

/-- The part of a Lindblad generator that acts from both sides. -/
noncomputable def drain (H : Matrix n n ℂ) (Cs : List (Matrix n n ℂ)) : Matrix n n ℂ :=
  -Complex.I • H - (1 / 2 : ℂ) • (Cs.map fun C => Cᴴ * C).sum

/-- The Lindblad generator as a matrix. -/
noncomputable def lindbladian (H : Matrix n n ℂ) (Cs : List (Matrix n n ℂ)) :
    Matrix (n × n) (n × n) ℂ := (Cs.map sandwich).sum + bothSides (drain H Cs)

theorem lindbladian_isLindblad {H : Matrix n n ℂ} (hH : H.IsHermitian)
    (Cs : List (Matrix n n ℂ)) : IsLindblad (lindbladian H Cs) H Cs := by
  refine ⟨hH, fun ρ => Eq.symm ?_⟩
  unfold lindbladian
  have hsum : ∀ l : List (Matrix n n ℂ), act (l.map sandwich).sum ρ =
      (l.map fun C => C * ρ * Cᴴ).sum := by
    intro l
    induction l with
    | nil => ext i j; simp [act]
    | cons C l ih => simp only [List.map_cons, List.sum_cons, act_add, act_sandwich, ih]
  have hsplit : ∀ l : List (Matrix n n ℂ),
      (l.map fun C => C * ρ * Cᴴ - (1 / 2 : ℂ) • (Cᴴ * C * ρ + ρ * (Cᴴ * C))).sum =
        (l.map fun C => C * ρ * Cᴴ).sum - (1 / 2 : ℂ) • ((l.map fun C => Cᴴ * C).sum * ρ +
          ρ * (l.map fun C => Cᴴ * C).sum) := by
    intro l
    induction l with
    | nil => simp
    | cons C l ih =>
      rw [List.map_cons, List.sum_cons, ih]
      simp only [List.map_cons, List.sum_cons, add_mul, mul_add, smul_add]
      abel
  have hself : ∀ l : List (Matrix n n ℂ), ((l.map fun C => Cᴴ * C).sum)ᴴ =
      (l.map fun C => Cᴴ * C).sum := by
    intro l
    induction l with
    | nil => simp
    | cons C l ih =>
      simp only [List.map_cons, List.sum_cons, Matrix.conjTranspose_add, ih,
        Matrix.conjTranspose_mul, Matrix.conjTranspose_conjTranspose]
  have hd : (drain H Cs)ᴴ = Complex.I • H - (1 / 2 : ℂ) • (Cs.map fun C => Cᴴ * C).sum := by
    unfold drain
    rw [Matrix.conjTranspose_sub, Matrix.conjTranspose_smul, Matrix.conjTranspose_smul, hself,
      hH.eq]
    simp
  rw [act_add, hsum, act_bothSides, hd, hsplit]
  unfold drain
  simp only [sub_mul, mul_sub, Matrix.smul_mul, Matrix.mul_smul, smul_sub, smul_add, neg_smul,
    neg_mul]
  abel

theorem IsLindblad.form {M : Matrix (n × n) (n × n) ℂ} {H : Matrix n n ℂ}
    {Cs : List (Matrix n n ℂ)} (h : IsLindblad M H Cs) :
    M = (Cs.map sandwich).sum + bothSides (drain H Cs) :=
  act_injective fun ρ => by
    rw [h.eq]
    exact ((lindbladian_isLindblad h.hermitian Cs).eq ρ).symm

theorem sandwich_shift (K : Matrix n n ℂ) {c : ℝ} (hc : 0 < c) :
    sandwich (((Real.sqrt c : ℝ) : ℂ) • (1 : Matrix n n ℂ) + (((Real.sqrt c)⁻¹ : ℝ) : ℂ) • K) =
      (c : ℂ) • (1 : Matrix (n × n) (n × n) ℂ) + bothSides K + ((c⁻¹ : ℝ) : ℂ) • sandwich K := by
  refine act_injective fun ρ => ?_
  simp only [act_add, act_smul, act_sandwich, act_bothSides, act_one, Matrix.conjTranspose_add,
    Matrix.conjTranspose_smul, Matrix.conjTranspose_one, add_mul, mul_add, Matrix.smul_mul,
    Matrix.mul_smul, Matrix.one_mul, Matrix.mul_one, smul_smul]
  have h1 : star ((Real.sqrt c : ℝ) : ℂ) = ((Real.sqrt c : ℝ) : ℂ) := Complex.conj_ofReal _
  have h2 : star (((Real.sqrt c)⁻¹ : ℝ) : ℂ) = (((Real.sqrt c)⁻¹ : ℝ) : ℂ) :=
    Complex.conj_ofReal _
  have hs : Real.sqrt c ≠ 0 := (Real.sqrt_pos.2 hc).ne'
  have hss : Real.sqrt c * Real.sqrt c = c := Real.mul_self_sqrt hc.le
  rw [h1, h2]
  simp only [← Complex.ofReal_mul, hss, mul_inv_cancel₀ hs, inv_mul_cancel₀ hs,
    ← mul_inv, Complex.ofReal_one, one_smul]
  abel

theorem IsLindblad.cp_exp {M : Matrix (n × n) (n × n) ℂ} {H : Matrix n n ℂ}
    {Cs : List (Matrix n n ℂ)} (h : IsLindblad M H Cs) : CP (NormedSpace.exp M) := by
  set K := drain H Cs
  have hlim : Tendsto (fun c : ℝ => NormedSpace.exp (M + ((c⁻¹ : ℝ) : ℂ) • sandwich K)) atTop
      (𝓝 (NormedSpace.exp M)) := by
    have h0 : Tendsto (fun c : ℝ => M + ((c⁻¹ : ℝ) : ℂ) • sandwich K) atTop (𝓝 M) := by
      have h1 : Tendsto (fun c : ℝ => ((c⁻¹ : ℝ) : ℂ)) atTop (𝓝 ((0 : ℝ) : ℂ)) :=
        (Complex.continuous_ofReal.tendsto 0).comp tendsto_inv_atTop_zero
      have h2 := (h1.smul_const (sandwich K)).const_add M
      simpa using h2
    exact (MatExp.continuous_exp.tendsto M).comp h0
  refine CP.of_tendsto hlim ?_
  filter_upwards [eventually_gt_atTop 0] with c hc
  have e : M + ((c⁻¹ : ℝ) : ℂ) • sandwich K = (-(c : ℂ)) • (1 : Matrix (n × n) (n × n) ℂ) +
      ((Cs.map sandwich).sum + sandwich (((Real.sqrt c : ℝ) : ℂ) • (1 : Matrix n n ℂ) +
        (((Real.sqrt c)⁻¹ : ℝ) : ℂ) • K)) := by
    rw [sandwich_shift K hc, neg_smul]
    nth_rewrite 1 [h.form]
    abel
  have hcomm : Commute ((-(c : ℂ)) • (1 : Matrix (n × n) (n × n) ℂ))
      ((Cs.map sandwich).sum + sandwich (((Real.sqrt c : ℝ) : ℂ) • (1 : Matrix n n ℂ) +
        (((Real.sqrt c)⁻¹ : ℝ) : ℂ) • K)) := (Commute.one_left _).smul_left _
  rw [e, Matrix.exp_add_of_commute _ _ hcomm]
  have hexp : NormedSpace.exp ((-(c : ℂ)) • (1 : Matrix (n × n) (n × n) ℂ)) =
      ((Real.exp (-c) : ℝ) : ℂ) • 1 := by
    rw [Matrix.smul_one_eq_diagonal, MatExp.exp_diagonal', Matrix.smul_one_eq_diagonal,
      Complex.ofReal_exp, Complex.ofReal_neg]
  rw [hexp]
  refine (CP.one.smul ?_).mul ((CP.list_sum ?_).add (CP.sandwich _)).exp
  · exact_mod_cast (Real.exp_pos _).le
  · intro S hS
    obtain ⟨C, _, rfl⟩ := List.mem_map.1 hS
    exact CP.sandwich C

theorem IsLindblad.trace_zero {M : Matrix (n × n) (n × n) ℂ} {H : Matrix n n ℂ}
    {Cs : List (Matrix n n ℂ)} (h : IsLindblad M H Cs) (ρ : Matrix n n ℂ) :
    (act M ρ).trace = 0 := by
  have hsum : ∀ l : List (Matrix n n ℂ),
      (l.map fun C => C * ρ * Cᴴ - (1 / 2 : ℂ) • (Cᴴ * C * ρ + ρ * (Cᴴ * C))).sum.trace = 0 := by
    intro l
    induction l with
    | nil => simp
    | cons C l ih =>
      simp only [List.map_cons, List.sum_cons, Matrix.trace_add, ih, add_zero, Matrix.trace_sub,
        Matrix.trace_smul]
      rw [Matrix.trace_mul_comm ρ (Cᴴ * C), Matrix.trace_mul_cycle C ρ Cᴴ, smul_eq_mul]
      ring
  rw [h.eq, Matrix.trace_add, hsum, Matrix.trace_smul, Matrix.trace_sub, Matrix.trace_mul_comm]
  simp

theorem trace_exp {M : Matrix (n × n) (n × n) ℂ} (h : ∀ ρ, (act M ρ).trace = 0)
    (ρ : Matrix n n ℂ) : (act (NormedSpace.exp M) ρ).trace = ρ.trace := by
  have hc : Continuous fun S : Matrix (n × n) (n × n) ℂ => (act S ρ).trace := by
    refine Continuous.matrix_trace (continuous_matrix fun x y => ?_)
    refine continuous_finsetSum _ fun p _ => continuous_finsetSum _ fun q _ => ?_
    exact (continuous_id.matrix_elem _ _).mul continuous_const
  have h1 := (hc.tendsto _).comp (tendsto_exp_sums M)
  refine tendsto_nhds_unique h1 (tendsto_const_nhds.congr' ?_)
  filter_upwards [eventually_gt_atTop 0] with N hN
  obtain ⟨N, rfl⟩ : ∃ k, N = k + 1 := ⟨N - 1, by omega⟩
  clear hN
  simp only [Function.comp]
  induction N with
  | zero => simp [act_one]
  | succ N ih =>
    rw [Finset.sum_range_succ, act_add, Matrix.trace_add, ← ih, act_smul, Matrix.trace_smul,
      pow_succ', act_mul, h]
    simp

/-- The exponential of a Lindblad generator is a channel. -/
theorem IsLindblad.channel {M : Matrix (n × n) (n × n) ℂ} {H : Matrix n n ℂ}
    {Cs : List (Matrix n n ℂ)} (h : IsLindblad M H Cs) : IsChannel (NormedSpace.exp M) :=
  ⟨h.cp_exp, trace_exp h.trace_zero⟩

theorem IsLindblad.add {M M' : Matrix (n × n) (n × n) ℂ} {H H' : Matrix n n ℂ}
    {Cs Cs' : List (Matrix n n ℂ)} (h : IsLindblad M H Cs) (h' : IsLindblad M' H' Cs') :
    IsLindblad (M + M') (H + H') (Cs ++ Cs') := by
  refine ⟨h.hermitian.add h'.hermitian, fun ρ => ?_⟩
  rw [act_add, h.eq, h'.eq, List.map_append, List.sum_append]
  simp only [add_mul, mul_add, smul_sub, smul_add, neg_smul]
  abel

theorem IsLindblad.smul {M : Matrix (n × n) (n × n) ℂ} {H : Matrix n n ℂ}
    {Cs : List (Matrix n n ℂ)} (h : IsLindblad M H Cs) {t : ℝ} (ht : 0 ≤ t) :
    IsLindblad ((t : ℂ) • M) ((t : ℂ) • H) (Cs.map fun C => ((Real.sqrt t : ℝ) : ℂ) • C) := by
  have hs : ((Real.sqrt t : ℝ) : ℂ) * ((Real.sqrt t : ℝ) : ℂ) = (t : ℂ) := by
    rw [← Complex.ofReal_mul, Real.mul_self_sqrt ht]
  have hst : star ((Real.sqrt t : ℝ) : ℂ) = ((Real.sqrt t : ℝ) : ℂ) := Complex.conj_ofReal _
  refine ⟨?_, fun ρ => ?_⟩
  · unfold Matrix.IsHermitian
    rw [Matrix.conjTranspose_smul, h.hermitian.eq]
    congr 1
    exact Complex.conj_ofReal _
  · rw [act_smul, h.eq, smul_add, List.map_map, List.smul_sum, List.map_map]
    congr 1
    · simp only [Matrix.smul_mul, Matrix.mul_smul, ← smul_sub]
      rw [smul_comm]
    · congr 1
      refine List.map_congr_left fun C _ => ?_
      simp only [Function.comp, Matrix.conjTranspose_smul, Matrix.smul_mul, Matrix.mul_smul,
        smul_smul, hst, hs, smul_sub, smul_add]
      rw [mul_comm (t : ℂ) (1 / 2)]

theorem IsLindblad.hamiltonian {M : Matrix (n × n) (n × n) ℂ} {H : Matrix n n ℂ}
    (h : IsLindblad M H []) (t : ℝ) : IsLindblad ((t : ℂ) • M) ((t : ℂ) • H) [] := by
  refine ⟨?_, fun ρ => ?_⟩
  · unfold Matrix.IsHermitian
    rw [Matrix.conjTranspose_smul, h.hermitian.eq]
    congr 1
    exact Complex.conj_ofReal _
  · rw [act_smul, h.eq]
    simp only [List.map_nil, List.sum_nil, add_zero, Matrix.smul_mul, Matrix.mul_smul,
      ← smul_sub]
    rw [smul_comm]

/-! ### Channels -/

theorem IsChannel.one : IsChannel (1 : Matrix (n × n) (n × n) ℂ) :=
  ⟨CP.one, fun ρ => by rw [act_one]⟩

theorem IsChannel.mul {S T : Matrix (n × n) (n × n) ℂ} (hS : IsChannel S) (hT : IsChannel T) :
    IsChannel (S * T) :=
  ⟨CP.mul hS.positive hT.positive, fun ρ => by rw [act_mul, hS.trace, hT.trace]⟩

theorem IsChannel.state {S : Matrix (n × n) (n × n) ℂ} (hS : IsChannel S) {ρ : Matrix n n ℂ}
    (h : IsState ρ) : IsState (act S ρ) := by
  refine ⟨?_, by rw [hS.trace, h.trace]⟩
  have h1 := hS.positive Unit (ρ.submatrix Prod.fst Prod.fst) (h.posSemidef.submatrix _)
  have h2 := h1.submatrix (fun i : n => (i, ()))
  exact h2

theorem unvec_mul {m : Type} (S : Matrix (n × n) (n × n) ℂ) (X : Matrix (n × n) m ℂ) (x : m) :
    unvec (S * X) x = act S (unvec X x) := by
  ext i j
  simp only [unvec, act, Matrix.mul_apply, Fintype.sum_prod_type]

end QTrl.Spec
