import Verif.Proofs.DrivenGrowth
import Verif.Props.Growth
import Verif.Props.Sampling

/-
C86: a continuous pulse sampled in every slot, for every kind of dynamics.
-/

set_option linter.unusedSectionVars false

open Matrix

namespace QTrl.Dyn

open QTrl.Spec

variable {d m D : Type} [Fintype d] [DecidableEq d] [Fintype m] [DecidableEq m]

/-- The error of an object: the scaled square of the distance from the target, or one minus the
normalised overlap. -/
noncomputable def errorAt (S : Sys d m D) (X : Matrix d m ℂ) : ℝ :=
  match S.fidKind with
  | .traceDiff => S.scale * frobSq (S.target - X)
  | .unitary =>
    match S.phaseOpt with
    | .PSU => |1 - ‖(S.ontoTarget * X).trace‖ / S.dimNorm|
    | .SU => |1 - (S.ontoTarget * X).trace.re / S.dimNorm|

/-- Drift and controls are the same in all slots. -/
structure SteadyIn (S : Sys d m D) (H0 : Matrix d d ℂ) (C : Nat → Matrix d d ℂ) : Prop where
  drift : ∀ k, k < S.nTs → S.drift k = H0
  ctrl : ∀ k j, k < S.nTs → j < S.nCtrls → S.ctrl k j = C j

/-- In every slot the amplitudes are the values the pulse has at some time in the slot. -/
def SampledIn (S : Sys d m D) (amps : Amps) (u : Nat → ℝ → ℝ) : Prop :=
  ∀ k, k < S.nTs → ∃ s ∈ Set.Icc (slotTime S.tau k) (slotTime S.tau (k + 1)),
    ∀ j, j < S.nCtrls → amps k j = u j s

/-- How fast the generator changes at most. -/
noncomputable def steepness (φ : Matrix d d ℂ →ₗ[ℂ] Matrix d d ℂ) (C : Nat → Matrix d d ℂ) (n : Nat)
    (L : Nat → ℝ) : ℝ := ∑ j ∈ Finset.range n, L j * opNorm (φ (C j))

section
variable {φ : Matrix d d ℂ →ₗ[ℂ] Matrix d d ℂ} {S : Sys d m D} {H0 : Matrix d d ℂ}
  {C : Nat → Matrix d d ℂ} {u : Nat → ℝ → ℝ} {L : Nat → ℝ}

theorem slotTime_nonneg {tau : Nat → ℝ} {n : Nat} (h : ∀ k, k < n → 0 ≤ tau k) {k : Nat} (hk : k ≤ n) :
    0 ≤ slotTime tau k := by
  have := slotTime_le h (Nat.zero_le k) hk
  simpa [slotTime] using this

theorem reports_errorAt (hv : Valid S)
    (hq : S.fidKind = .unitary → S.phaseOpt = .SU → S.isQobj = true)
    (junk s0 : State d m D) (a0 : Amps) (ops : List Op) :
    query S junk s0 a0 ops .getFidErr = .real (errorAt S (reachedBy S junk s0 a0 ops S.nTs)) := by
  have e : reachedBy S junk s0 a0 ops S.nTs = final S (lastAmps a0 ops) := finalObj_eq hv _ _ _ _
  rw [e, query_eq hv]
  unfold errorAt
  cases hf : S.fidKind with
  | traceDiff => simp only [answer, fidErr, hf, frobSq_re, Out.ofReal]
  | unitary =>
    simp only [answer, fidErr, hf, fidelity_eq_fidNum (hq hf), Except.map, Out.ofReal]
    unfold fidNum
    cases S.phaseOpt <;> rfl

theorem errorAt_near_distance (hf : S.fidKind = .traceDiff) (hp : 0 ≤ S.scale) (X Y : Matrix d m ℂ) :
    |Real.sqrt (errorAt S X) - Real.sqrt (errorAt S Y)| ≤
      Real.sqrt (S.scale * Fintype.card m) * opNorm (X - Y) := by
  simp only [errorAt, hf]
  rw [Real.sqrt_mul hp, Real.sqrt_mul hp, Real.sqrt_mul hp, ← mul_sub, abs_mul,
    abs_of_nonneg (Real.sqrt_nonneg _), mul_assoc]
  refine mul_le_mul_of_nonneg_left ?_ (Real.sqrt_nonneg _)
  have h1 : |dist2 (S.target - X) - dist2 (S.target - Y)| ≤ dist2 (X - Y) := by
    have a1 := dist2_add (S.target - Y) (Y - X)
    have a2 := dist2_add (S.target - X) (X - Y)
    have a3 : dist2 (Y - X) = dist2 (X - Y) := by
      unfold dist2 frobSq
      simp only [Matrix.sub_apply, norm_sub_rev]
    rw [sub_add_sub_cancel] at a1 a2
    rw [abs_le]
    constructor <;> linarith
  exact h1.trans (dist2_le_opNorm _)

theorem errorAt_near_overlap (hf : S.fidKind = .unitary) (X Y : Matrix d m ℂ) :
    |errorAt S X - errorAt S Y| ≤
      Fintype.card m * opNorm S.ontoTarget / |S.dimNorm| * opNorm (X - Y) := by
  have ho : ‖(S.ontoTarget * X).trace - (S.ontoTarget * Y).trace‖ ≤
      Fintype.card m * opNorm S.ontoTarget * opNorm (X - Y) := by
    rw [← Matrix.trace_sub, ← Matrix.mul_sub, mul_assoc]
    exact (norm_trace_le _).trans (mul_le_mul_of_nonneg_left (opNorm_mul _ _) (Nat.cast_nonneg _))
  have key : ∀ a b : ℝ, |a - b| ≤ ‖(S.ontoTarget * X).trace - (S.ontoTarget * Y).trace‖ →
      |(|1 - a / S.dimNorm|) - (|1 - b / S.dimNorm|)| ≤
        Fintype.card m * opNorm S.ontoTarget / |S.dimNorm| * opNorm (X - Y) := by
    intro a b hab
    have h2 := abs_abs_sub_abs_le (1 - a / S.dimNorm) (1 - b / S.dimNorm)
    rw [sub_sub_sub_cancel_left, ← sub_div, abs_div, abs_sub_comm b a] at h2
    refine h2.trans ?_
    rw [div_mul_eq_mul_div]
    exact div_le_div_of_nonneg_right (hab.trans ho) (abs_nonneg _)
  simp only [errorAt, hf]
  cases S.phaseOpt with
  | PSU => exact key _ _ (abs_norm_sub_norm_le _ _)
  | SU =>
    refine key _ _ ?_
    rw [← Complex.sub_re]
    exact Complex.abs_re_le_norm _

theorem map_pulsed (φ : Matrix d d ℂ →ₗ[ℂ] Matrix d d ℂ) (H0 : Matrix d d ℂ)
    (C : Nat → Matrix d d ℂ) (n : Nat) (u : Nat → ℝ → ℝ) (t : ℝ) :
    φ (pulsed H0 C n u t) = pulsed (φ H0) (fun j => φ (C j)) n u t := by
  simp [pulsed, map_sum]

theorem rate_nonneg {f : ℝ → ℝ} {l : ℝ} (h : ∀ s t, |f s - f t| ≤ l * |s - t|) : 0 ≤ l := by
  have := h 1 0
  simp only [sub_zero, abs_one, mul_one] at this
  exact (abs_nonneg _).trans this

/-- **C86.** Generators of any kind that depend on time: if in slot `k` they are within `δ k` of the
generator of the slot, and nothing grows faster than at the rate `μ`, then at the beginning of each
slot and at the end the reported evolution is within the sum of the durations times `δ` of the
motion, times the growth until then and the size of the initial object. -/
theorem C86_apparatus (hv : Valid S) (hS : Exponential φ S) (hτ : ∀ k, k < S.nTs → 0 ≤ S.tau k)
    (junk s0 : State d m D) (a0 : Amps) (ops : List Op) (A : ℝ → Matrix d d ℂ) {μ : ℝ}
    (hA : ∀ t ∈ Set.Icc 0 (slotTime S.tau S.nTs), Growth μ (A t))
    (hB : ∀ k, k < S.nTs → Growth μ (φ (generator S (lastAmps a0 ops) k))) (δ : Nat → ℝ)
    (hδ : ∀ k, k < S.nTs → ∀ t ∈ Set.Icc (slotTime S.tau k) (slotTime S.tau (k + 1)),
      opNorm (A t - φ (generator S (lastAmps a0 ops) k)) ≤ δ k)
    (X : ℝ → Matrix d m ℂ) (hX : Driven (slotTime S.tau S.nTs) A S.initial X) :
    ∀ k, k ≤ S.nTs → opNorm (X (slotTime S.tau k) - reachedBy S junk s0 a0 ops k) ≤
      Real.exp (μ * slotTime S.tau k) * opNorm S.initial *
        ∑ i ∈ Finset.range k, S.tau i * δ i := by
  intro k hk
  rw [reachedBy_eq hv hS junk s0 a0 ops hk]
  exact driven_growth_near hτ hX hA hB hδ hk

/-- **C86.** A pulse that changes no faster than `L j`, sampled anywhere in the slots. -/
theorem C86_sampled (hv : Valid S) (hS : Exponential φ S) (hτ : ∀ k, k < S.nTs → 0 ≤ S.tau k)
    (hs : SteadyIn S H0 C) (hL : ∀ j, j < S.nCtrls → ∀ s t, |u j s - u j t| ≤ L j * |s - t|)
    (junk s0 : State d m D) (a0 : Amps) (ops : List Op) (ha : SampledIn S (lastAmps a0 ops) u) {μ : ℝ}
    (hA : ∀ t ∈ Set.Icc 0 (slotTime S.tau S.nTs), Growth μ (φ (pulsed H0 C S.nCtrls u t)))
    (X : ℝ → Matrix d m ℂ)
    (hX : Driven (slotTime S.tau S.nTs) (fun t => φ (pulsed H0 C S.nCtrls u t)) S.initial X) :
    ∀ k, k ≤ S.nTs → opNorm (X (slotTime S.tau k) - reachedBy S junk s0 a0 ops k) ≤
      Real.exp (μ * slotTime S.tau k) * opNorm S.initial *
        ((∑ i ∈ Finset.range k, S.tau i ^ 2) * steepness φ C S.nCtrls L) := by
  have hgen : ∀ k s, k < S.nTs → (∀ j, j < S.nCtrls → lastAmps a0 ops k j = u j s) →
      generator S (lastAmps a0 ops) k = pulsed H0 C S.nCtrls u s := by
    intro k s hk h
    unfold generator pulsed
    rw [hs.drift k hk]
    congr 1
    refine Finset.sum_congr rfl fun j hj => ?_
    rw [hs.ctrl k j hk (Finset.mem_range.1 hj), h j (Finset.mem_range.1 hj)]
  have e : ∀ k, ∑ i ∈ Finset.range k, S.tau i * (S.tau i * steepness φ C S.nCtrls L) =
      (∑ i ∈ Finset.range k, S.tau i ^ 2) * steepness φ C S.nCtrls L := by
    intro k
    rw [Finset.sum_mul]
    exact Finset.sum_congr rfl fun i _ => by ring
  simp only [← e]
  refine C86_apparatus hv hS hτ junk s0 a0 ops _ hA ?_ _ ?_ X hX
  · intro k hk
    obtain ⟨s, hsI, has⟩ := ha k hk
    rw [hgen k s hk has]
    exact hA s ⟨(slotTime_nonneg hτ hk.le).trans hsI.1, hsI.2.trans (slotTime_le hτ hk le_rfl)⟩
  · intro k hk t ht
    obtain ⟨s, hsI, has⟩ := ha k hk
    have hd : slotTime S.tau (k + 1) - slotTime S.tau k = S.tau k := by rw [slotTime_succ]; ring
    have hst : |t - s| ≤ S.tau k := by
      rw [abs_le]
      constructor <;> linarith [ht.1, ht.2, hsI.1, hsI.2]
    rw [hgen k s hk has, map_pulsed, map_pulsed]
    unfold pulsed steepness
    rw [add_sub_add_left_eq_sub, ← Finset.sum_sub_distrib, Finset.mul_sum]
    refine (opNorm_sum _ _).trans (Finset.sum_le_sum fun j hj => ?_)
    have hj' := Finset.mem_range.1 hj
    rw [← sub_smul, opNorm_smul, ← Complex.ofReal_sub, Complex.norm_real, Real.norm_eq_abs,
      ← mul_assoc]
    refine mul_le_mul_of_nonneg_right ((hL j hj' t s).trans ?_) (opNorm_nonneg _)
    rw [mul_comm (S.tau k)]
    exact mul_le_mul_of_nonneg_left hst (rate_nonneg (hL j hj'))

/-- **C86.** The reported error and that of the continuous pulse: with the trace difference their
square roots, with the overlap measure they themselves differ by no more than that, up to the factor
of the measure. -/
theorem C86_error (hv : Valid S) (hS : Exponential φ S) (hτ : ∀ k, k < S.nTs → 0 ≤ S.tau k)
    (hs : SteadyIn S H0 C) (hL : ∀ j, j < S.nCtrls → ∀ s t, |u j s - u j t| ≤ L j * |s - t|)
    (hp : S.fidKind = .traceDiff → 0 ≤ S.scale)
    (hq : S.fidKind = .unitary → S.phaseOpt = .SU → S.isQobj = true)
    (junk s0 : State d m D) (a0 : Amps) (ops : List Op) (ha : SampledIn S (lastAmps a0 ops) u) {μ : ℝ}
    (hA : ∀ t ∈ Set.Icc 0 (slotTime S.tau S.nTs), Growth μ (φ (pulsed H0 C S.nCtrls u t)))
    (X : ℝ → Matrix d m ℂ)
    (hX : Driven (slotTime S.tau S.nTs) (fun t => φ (pulsed H0 C S.nCtrls u t)) S.initial X) :
    ∃ e, query S junk s0 a0 ops .getFidErr = .real e ∧
      (S.fidKind = .traceDiff →
        |Real.sqrt (errorAt S (X (slotTime S.tau S.nTs))) - Real.sqrt e| ≤
          Real.sqrt (S.scale * Fintype.card m) * (Real.exp (μ * slotTime S.tau S.nTs) *
            opNorm S.initial * ((∑ i ∈ Finset.range S.nTs, S.tau i ^ 2) *
              steepness φ C S.nCtrls L))) ∧
      (S.fidKind = .unitary →
        |errorAt S (X (slotTime S.tau S.nTs)) - e| ≤
          Fintype.card m * opNorm S.ontoTarget / |S.dimNorm| *
            (Real.exp (μ * slotTime S.tau S.nTs) *
            opNorm S.initial * ((∑ i ∈ Finset.range S.nTs, S.tau i ^ 2) *
              steepness φ C S.nCtrls L))) := by
  have h := C86_sampled hv hS hτ hs hL junk s0 a0 ops ha hA X hX S.nTs le_rfl
  refine ⟨_, reports_errorAt hv hq junk s0 a0 ops, fun hf => ?_, fun hf => ?_⟩
  · exact (errorAt_near_distance hf (hp hf) _ _).trans
      (mul_le_mul_of_nonneg_left h (Real.sqrt_nonneg _))
  · exact (errorAt_near_overlap hf _ _).trans (mul_le_mul_of_nonneg_left h
      (div_nonneg (mul_nonneg (Nat.cast_nonneg _) (opNorm_nonneg _)) (abs_nonneg _)))

/-- **C86.** The continuous pulse has a motion, and some rate always serves. -/
theorem C86_motion (hL : ∀ j, j < S.nCtrls → ∀ s t, |u j s - u j t| ≤ L j * |s - t|) {T : ℝ}
    (hT : 0 ≤ T) :
    (∃ X, Driven T (fun t => φ (pulsed H0 C S.nCtrls u t)) S.initial X) ∧
    ∃ μ, ∀ t ∈ Set.Icc 0 T, Growth μ (φ (pulsed H0 C S.nCtrls u t)) := by
  constructor
  · refine driven_exists (fun a b => ?_) hT _
    simp only [map_pulsed]
    simp only [pulsed, Matrix.add_apply, Matrix.sum_apply, Matrix.smul_apply, smul_eq_mul]
    refine continuous_const.add (continuous_finset_sum _ fun j hj => ?_)
    exact (Complex.continuous_ofReal.comp
      (continuous_of_bound (hL j (Finset.mem_range.1 hj)))).mul continuous_const
  · refine ⟨opNorm (φ H0) + ∑ j ∈ Finset.range S.nCtrls, (|u j 0| + L j * T) * opNorm (φ (C j)),
      fun t ht => (growth_opNorm _).mono ?_⟩
    rw [map_pulsed]
    unfold pulsed
    refine (opNorm_add _ _).trans (add_le_add le_rfl ((opNorm_sum _ _).trans
      (Finset.sum_le_sum fun j hj => ?_)))
    have hj' := Finset.mem_range.1 hj
    rw [opNorm_smul, Complex.norm_real, Real.norm_eq_abs]
    refine mul_le_mul_of_nonneg_right ?_ (opNorm_nonneg _)
    have h1 := hL j hj' t 0
    rw [sub_zero, abs_of_nonneg ht.1] at h1
    have h2 := mul_le_mul_of_nonneg_left ht.2 (rate_nonneg (hL j hj'))
    have h3 := abs_sub_abs_le_abs_sub (u j t) (u j 0)
    linarith

end

/-- **C86.** A task with ever more slots of equal durations: the errors reported for a continuous pulse
sampled in the slots converge to the error of the motion under the continuous pulse, whatever the
dynamics, the measure and the histories. -/
theorem C86_limit {φ : Matrix d d ℂ →ₗ[ℂ] Matrix d d ℂ} {H0 : Matrix d d ℂ}
    {C : Nat → Matrix d d ℂ} {u : Nat → ℝ → ℝ} {L : Nat → ℝ} {T : ℝ} (hT : 0 ≤ T)
    (S : Nat → Sys d m D) (hv : ∀ n, Valid (S n)) (hS : ∀ n, Exponential φ (S n))
    (hn : ∀ n, (S n).nTs = n + 1) (hc : ∀ n, (S n).nCtrls = (S 0).nCtrls)
    (hτ : ∀ n k, k ≤ n → (S n).tau k = T / (n + 1)) (he : ∀ n, SameEnds (S 0) (S n))
    (hs : ∀ n, SteadyIn (S n) H0 C) (hp : (S 0).fidKind = .traceDiff → 0 ≤ (S 0).scale)
    (hq : (S 0).fidKind = .unitary → (S 0).phaseOpt = .SU → (S 0).isQobj = true)
    (hL : ∀ j, j < (S 0).nCtrls → ∀ s t, |u j s - u j t| ≤ L j * |s - t|)
    (junk s0 : Nat → State d m D) (a0 : Nat → Amps) (ops : Nat → List Op)
    (ha : ∀ n, SampledIn (S n) (lastAmps (a0 n) (ops n)) u) (X : ℝ → Matrix d m ℂ)
    (hX : Driven T (fun t => φ (pulsed H0 C (S 0).nCtrls u t)) (S 0).initial X) :
    ∃ e : Nat → ℝ, (∀ n, query (S n) (junk n) (s0 n) (a0 n) (ops n) .getFidErr = .real (e n)) ∧
      Filter.Tendsto e Filter.atTop (nhds (errorAt (S 0) (X T))) := by
  obtain ⟨-, μ, hμ⟩ := C86_motion (φ := φ) (S := S 0) (H0 := H0) (C := C) hL hT
  have hend : ∀ n, slotTime (S n).tau (S n).nTs = T := by
    intro n
    rw [hn n]
    unfold slotTime
    rw [Finset.sum_congr rfl fun k hk => hτ n k (by have := Finset.mem_range.1 hk; omega),
      Finset.sum_const, Finset.card_range, nsmul_eq_mul]
    push_cast
    have : ((n : ℝ) + 1) ≠ 0 := by positivity
    field_simp
  have herr : ∀ n Y, errorAt (S n) Y = errorAt (S 0) Y := by
    intro n Y
    unfold errorAt
    rw [(he n).fidKind, (he n).scale, (he n).target, (he n).phaseOpt, (he n).ontoTarget, (he n).dimNorm]
  let R : Nat → Matrix d m ℂ := fun n => reachedBy (S n) (junk n) (s0 n) (a0 n) (ops n) (S n).nTs
  let K : ℝ := Real.exp (μ * T) * opNorm (S 0).initial * (T ^ 2 * steepness φ C (S 0).nCtrls L)
  have hR : ∀ n, opNorm (X T - R n) ≤ K / (n + 1) := by
    intro n
    have h := C86_sampled (hv n) (hS n) (fun k hk => by
        rw [hn n] at hk
        rw [hτ n k (by omega)]
        positivity) (hs n) (by rw [hc n]; exact hL) (junk n) (s0 n) (a0 n) (ops n) (ha n) (μ := μ)
      (by rw [hend n, hc n]; exact hμ) X (by rw [hend n, hc n, (he n).initial]; exact hX)
      (S n).nTs le_rfl
    rw [hend n, hc n, (he n).initial] at h
    refine h.trans (le_of_eq ?_)
    rw [hn n, Finset.sum_congr rfl fun k hk => by
        rw [hτ n k (by have := Finset.mem_range.1 hk; omega)],
      Finset.sum_const, Finset.card_range, nsmul_eq_mul]
    push_cast
    have : ((n : ℝ) + 1) ≠ 0 := by positivity
    simp only [K]
    field_simp
  have hlim : ∀ F : ℝ, Filter.Tendsto (fun n : Nat => F * (K / ((n : ℝ) + 1))) Filter.atTop (nhds 0) := by
    intro F
    have h := (tendsto_one_div_add_atTop_nhds_zero_nat (𝕜 := ℝ)).const_mul (F * K)
    rw [mul_zero] at h
    refine h.congr fun n => ?_
    ring
  refine ⟨fun n => errorAt (S 0) (R n), fun n => ?_, ?_⟩
  · rw [reports_errorAt (hv n) (by rw [(he n).fidKind, (he n).phaseOpt, (he n).isQobj]; exact hq),
      herr]
  · cases hf : (S 0).fidKind with
    | unitary =>
      rw [tendsto_iff_dist_tendsto_zero]
      refine squeeze_zero (fun _ => dist_nonneg) (fun n => ?_)
        (hlim (Fintype.card m * opNorm (S 0).ontoTarget / |(S 0).dimNorm|))
      rw [Real.dist_eq, abs_sub_comm]
      exact (errorAt_near_overlap hf _ _).trans (mul_le_mul_of_nonneg_left (hR n)
        (div_nonneg (mul_nonneg (Nat.cast_nonneg _) (opNorm_nonneg _)) (abs_nonneg _)))
    | traceDiff =>
      have hsq : Filter.Tendsto (fun n => Real.sqrt (errorAt (S 0) (R n))) Filter.atTop
          (nhds (Real.sqrt (errorAt (S 0) (X T)))) := by
        rw [tendsto_iff_dist_tendsto_zero]
        refine squeeze_zero (fun _ => dist_nonneg) (fun n => ?_)
          (hlim (Real.sqrt ((S 0).scale * Fintype.card m)))
        rw [Real.dist_eq, abs_sub_comm]
        exact (errorAt_near_distance hf (hp hf) _ _).trans
          (mul_le_mul_of_nonneg_left (hR n) (Real.sqrt_nonneg _))
      have hnn : ∀ Y, 0 ≤ errorAt (S 0) Y := by
        intro Y
        simp only [errorAt, hf]
        exact mul_nonneg (hp hf) (frobSq_nonneg _)
      have h2 := hsq.pow 2
      simp only [Real.sq_sqrt (hnn _)] at h2
      exact h2

/-! ### Non-vacuity -/

/-- The leaking qubit with `n + 1` slots in the time 3. -/
noncomputable def leakingIn (r : ℝ) (fk : FidKind) (n : Nat) : GeneralCfg (Fin 2) (Fin 2) :=
  { leaking r fk with
    nTs := n + 1
    tau := fun _ => 3 / ((n : ℝ) + 1) }

/-- **C86_sampled**, **C86_error**, **C86_motion**, **C86_limit**: a leaking qubit driven by a sine wave,
with any measure. -/
example (r : ℝ) (fk : FidKind) (junk s0 : State (Fin 2) (Fin 2) Unit) :
    ∃ (X : ℝ → Matrix (Fin 2) (Fin 2) ℂ) (e : Nat → ℝ), X 0 = 1 ∧
      (∀ n, query (leakingIn r fk n).sys junk s0
        (fun k _ => Real.sin (slotTime (leakingIn r fk n).sys.tau k)) [] .getFidErr = .real (e n)) ∧
      Filter.Tendsto e Filter.atTop (nhds (errorAt (leakingIn r fk 0).sys (X 3))) := by
  have hL : ∀ j, j < (leakingIn r fk 0).sys.nCtrls → ∀ s t : ℝ, |Real.sin s - Real.sin t| ≤
      (fun _ => (1 : ℝ)) j * |s - t| := fun _ _ s t => by
    rw [one_mul]
    exact Real.abs_sin_sub_sin_le s t
  obtain ⟨⟨X, hX⟩, -⟩ := C86_motion (φ := LinearMap.id) (S := (leakingIn r fk 0).sys)
    (H0 := diagonal ![0, -(r : ℂ)]) (C := fun _ => -Complex.I • !![0, 1; 1, 0])
    (u := fun _ => Real.sin) hL (T := 3) (by norm_num)
  obtain ⟨e, h1, h2⟩ := C86_limit (by norm_num) (fun n => (leakingIn r fk n).sys)
    (fun n => general_valid (by change 0 < n + 1; omega) (by change 0 < 1; norm_num))
    (fun n => exponential_general _) (fun _ => rfl) (fun _ => rfl) (fun _ _ _ => rfl)
    (fun _ => ⟨⟨rfl, rfl, rfl, rfl, rfl⟩, rfl, rfl, rfl⟩) (fun _ => ⟨fun _ _ => rfl, fun _ _ _ _ => rfl⟩)
    (fun _ => by change (0 : ℝ) ≤ 1; norm_num) (fun _ h => by cases h) hL (fun _ => junk)
    (fun _ => s0) (fun n k _ => Real.sin (slotTime (leakingIn r fk n).sys.tau k)) (fun _ => [])
    (fun n k hk => ⟨slotTime (leakingIn r fk n).sys.tau k, ⟨le_rfl, by
      rw [slotTime_succ]
      have : 0 ≤ (leakingIn r fk n).sys.tau k := by
        change 0 ≤ 3 / ((n : ℝ) + 1)
        positivity
      linarith⟩, fun j _ => rfl⟩) X hX
  exact ⟨X, e, hX.start, h1, h2⟩

end QTrl.Dyn
