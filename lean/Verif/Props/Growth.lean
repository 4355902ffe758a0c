import Verif.Proofs.Growth
import Verif.Proofs.Stages
import Verif.Props.Equivalent
import Verif.Props.Robust

/-
C85: small deviations change the reported error by little, for every kind of dynamics.
-/

set_option linter.unusedSectionVars false

open Matrix

namespace QTrl.Dyn

open QTrl.Spec

variable {d m D D' : Type} [Fintype d] [DecidableEq d] [Fintype m] [DecidableEq m]

/-- The exponent of the propagator of a slot. -/
noncomputable def exponent (φ : Matrix d d ℂ →ₗ[ℂ] Matrix d d ℂ) (S : Sys d m D) (a : Amps)
    (k : Nat) : Matrix d d ℂ := (S.tau k : ℂ) • φ (generator S a k)

/-- The forward evolution after a history. -/
noncomputable def reachedBy (S : Sys d m D) (junk s0 : State d m D) (a0 : Amps) (ops : List Op)
    (k : Nat) : Matrix d m ℂ := (computeEvolution S (reached S junk s0 a0 ops)).1.fwd k

/-- How far apart the propagators of two systems may be together. -/
noncomputable def spread (φ φ' : Matrix d d ℂ →ₗ[ℂ] Matrix d d ℂ) (S : Sys d m D) (S' : Sys d m D')
    (a a' : Amps) (μ : Nat → ℝ) (n : Nat) : ℝ :=
  Real.exp (∑ k ∈ Finset.range n, μ k) *
    ∑ k ∈ Finset.range n, opNorm (exponent φ S a k - exponent φ' S' a' k)

section
variable {φ φ' : Matrix d d ℂ →ₗ[ℂ] Matrix d d ℂ} {S : Sys d m D} {S' : Sys d m D'}

theorem reachedBy_eq (hv : Valid S) (hS : Exponential φ S) (junk s0 : State d m D) (a0 : Amps)
    (ops : List Op) {k : Nat} (hk : k ≤ S.nTs) : reachedBy S junk s0 a0 ops k =
      timeOrdered (fun i => NormedSpace.exp (exponent φ S (lastAmps a0 ops) i)) 0 k * S.initial := by
  obtain ⟨-, h2, h3, -, -⟩ := C03_time_ordered hv junk s0 a0 ops
  unfold reachedBy
  rw [h3 k hk]
  congr 1
  refine timeOrdered_congr fun i _ hi => ?_
  rw [h2 i (by omega), hS _ _ (by omega)]
  rfl

/-- **C85.** Two systems of any dynamics with the same number of slots and the same initial object,
after any two histories: if nothing grows faster than at the rates `μ` in the slots of either, then at
the beginning of each slot and at the end the forward evolutions are no further apart than the
exponents (generators times durations) of the slots before are together, times the growth until
then and the size of the initial object. -/
theorem C85_evolution (hv : Valid S) (hv' : Valid S') (hS : Exponential φ S)
    (hS' : Exponential φ' S') (hn : S'.nTs = S.nTs) (hi : S'.initial = S.initial)
    (junk s0 : State d m D) (junk' s0' : State d m D') (a0 a0' : Amps) (ops ops' : List Op)
    {μ : Nat → ℝ} (hμ : ∀ k, k < S.nTs → Growth (μ k) (exponent φ S (lastAmps a0 ops) k))
    (hμ' : ∀ k, k < S.nTs → Growth (μ k) (exponent φ' S' (lastAmps a0' ops') k)) :
    ∀ k, k ≤ S.nTs →
      opNorm (reachedBy S junk s0 a0 ops k - reachedBy S' junk' s0' a0' ops' k) ≤
        spread φ φ' S S' (lastAmps a0 ops) (lastAmps a0' ops') μ k * opNorm S.initial := by
  intro k hk
  rw [reachedBy_eq hv hS junk s0 a0 ops hk, reachedBy_eq hv' hS' junk' s0' a0' ops' (by omega), hi,
    ← Matrix.sub_mul]
  refine (opNorm_mul _ _).trans (mul_le_mul_of_nonneg_right ?_ (opNorm_nonneg _))
  exact timeOrdered_growth_near (fun i hik => growth_exp (hμ i (by omega)))
    (fun i hik => growth_exp (hμ' i (by omega)))
    fun i hik => growth_near (hμ i (by omega)) (hμ' i (by omega))

theorem spread_nonneg (a a' : Amps) (μ : Nat → ℝ) (n : Nat) : 0 ≤ spread φ φ' S S' a a' μ n :=
  mul_nonneg (Real.exp_pos _).le (Finset.sum_nonneg fun _ _ => opNorm_nonneg _)

theorem dist2_le_opNorm (A : Matrix d m ℂ) : dist2 A ≤ Real.sqrt (Fintype.card m) * opNorm A := by
  rw [dist2, ← Real.sqrt_sq (opNorm_nonneg A), ← Real.sqrt_mul (Nat.cast_nonneg _)]
  refine Real.sqrt_le_sqrt ?_
  have e : frobSq A = (Aᴴ * A).trace.re := (frobSq_re A).symm
  rw [e]
  calc _ ≤ ‖(Aᴴ * A).trace‖ := Complex.re_le_norm _
    _ ≤ Fintype.card m * opNorm (Aᴴ * A) := norm_trace_le _
    _ ≤ Fintype.card m * (opNorm A * opNorm A) := by
        refine mul_le_mul_of_nonneg_left ?_ (Nat.cast_nonneg _)
        have := opNorm_mul Aᴴ A
        rwa [opNorm_conjTranspose] at this
    _ = _ := by ring

theorem final_near (hv : Valid S) (hv' : Valid S') (hS : Exponential φ S)
    (hS' : Exponential φ' S') (hn : S'.nTs = S.nTs) (hi : S'.initial = S.initial)
    (junk s0 : State d m D) (junk' s0' : State d m D') (a0 a0' : Amps) (ops ops' : List Op)
    {μ : Nat → ℝ} (hμ : ∀ k, k < S.nTs → Growth (μ k) (exponent φ S (lastAmps a0 ops) k))
    (hμ' : ∀ k, k < S.nTs → Growth (μ k) (exponent φ' S' (lastAmps a0' ops') k)) :
    opNorm (final S (lastAmps a0 ops) - final S' (lastAmps a0' ops')) ≤
      spread φ φ' S S' (lastAmps a0 ops) (lastAmps a0' ops') μ S.nTs * opNorm S.initial := by
  have h := C85_evolution hv hv' hS hS' hn hi junk s0 junk' s0' a0 a0' ops ops' hμ hμ' S.nTs le_rfl
  have e : reachedBy S' junk' s0' a0' ops' S.nTs = finalObj S' junk' s0' a0' ops' := by
    rw [← hn]; rfl
  rw [e, finalObj_eq hv'] at h
  have e : reachedBy S junk s0 a0 ops S.nTs = finalObj S junk s0 a0 ops := rfl
  rwa [e, finalObj_eq hv] at h

/-- **C85.** With the trace difference both report an error, and the square roots of the errors, which
are distances from the target, differ by no more than that, up to the factor of the measure. -/
theorem C85_trace_difference (hv : Valid S) (hv' : Valid S') (hS : Exponential φ S)
    (hS' : Exponential φ' S') (hn : S'.nTs = S.nTs) (h : SameEnds S S')
    (hf : S.fidKind = .traceDiff) (hp : 0 ≤ S.scale)
    (junk s0 : State d m D) (junk' s0' : State d m D') (a0 a0' : Amps) (ops ops' : List Op)
    {μ : Nat → ℝ} (hμ : ∀ k, k < S.nTs → Growth (μ k) (exponent φ S (lastAmps a0 ops) k))
    (hμ' : ∀ k, k < S.nTs → Growth (μ k) (exponent φ' S' (lastAmps a0' ops') k)) :
    ∃ e e', query S junk s0 a0 ops .getFidErr = .real e ∧
      query S' junk' s0' a0' ops' .getFidErr = .real e' ∧
      |Real.sqrt e - Real.sqrt e'| ≤ Real.sqrt (S.scale * Fintype.card m) *
        (spread φ φ' S S' (lastAmps a0 ops) (lastAmps a0' ops') μ S.nTs * opNorm S.initial) := by
  have hf' : S'.fidKind = .traceDiff := by rw [h.fidKind, hf]
  have hfin := final_near hv hv' hS hS' hn h.initial junk s0 junk' s0' a0 a0' ops ops' hμ hμ'
  refine ⟨S.scale * frobSq (S.target - final S (lastAmps a0 ops)),
    S.scale * frobSq (S.target - final S' (lastAmps a0' ops')), ?_, ?_, ?_⟩
  · rw [query_eq hv]
    simp only [answer, fidErr, hf, frobSq_re, Out.ofReal]
  · rw [query_eq hv']
    simp only [answer, fidErr, hf', frobSq_re, Out.ofReal, h.scale, h.target]
  · set X := final S (lastAmps a0 ops)
    set Y := final S' (lastAmps a0' ops')
    rw [Real.sqrt_mul hp, Real.sqrt_mul hp, Real.sqrt_mul hp, ← mul_sub, abs_mul,
      abs_of_nonneg (Real.sqrt_nonneg _), mul_assoc]
    refine mul_le_mul_of_nonneg_left ?_ (Real.sqrt_nonneg _)
    have h1 : |dist2 (S.target - X) - dist2 (S.target - Y)| ≤ dist2 (X - Y) := by
      have a1 := dist2_add (S.target - Y) (Y - X)
      have a2 := dist2_add (S.target - X) (X - Y)
      have a3 : dist2 (Y - X) = dist2 (X - Y) := by
        unfold dist2 frobSq
        simp only [Matrix.sub_apply, norm_sub_rev]
      rw [sub_add_sub_cancel] at a1 a2
      rw [abs_le]
      constructor <;> linarith
    exact h1.trans ((dist2_le_opNorm _).trans (mul_le_mul_of_nonneg_left hfin (Real.sqrt_nonneg _)))

/-- **C85.** With the overlap measure both report an error, and the errors differ by no more than
that, times the size of the target form in units of the normalisation. -/
theorem C85_overlap (hv : Valid S) (hv' : Valid S') (hS : Exponential φ S)
    (hS' : Exponential φ' S') (hn : S'.nTs = S.nTs) (h : SameEnds S S')
    (hf : S.fidKind = .unitary) (hq : S.phaseOpt = .SU → S.isQobj = true)
    (junk s0 : State d m D) (junk' s0' : State d m D') (a0 a0' : Amps) (ops ops' : List Op)
    {μ : Nat → ℝ} (hμ : ∀ k, k < S.nTs → Growth (μ k) (exponent φ S (lastAmps a0 ops) k))
    (hμ' : ∀ k, k < S.nTs → Growth (μ k) (exponent φ' S' (lastAmps a0' ops') k)) :
    ∃ e e', query S junk s0 a0 ops .getFidErr = .real e ∧
      query S' junk' s0' a0' ops' .getFidErr = .real e' ∧
      |e - e'| ≤ Fintype.card m * opNorm S.ontoTarget / |S.dimNorm| *
        (spread φ φ' S S' (lastAmps a0 ops) (lastAmps a0' ops') μ S.nTs * opNorm S.initial) := by
  have hf' : S'.fidKind = .unitary := by rw [h.fidKind, hf]
  have hq' : S'.phaseOpt = .SU → S'.isQobj = true := by rw [h.phaseOpt, h.isQobj]; exact hq
  have hfin := final_near hv hv' hS hS' hn h.initial junk s0 junk' s0' a0 a0' ops ops' hμ hμ'
  refine ⟨|1 - fidNum S (lastAmps a0 ops)|, |1 - fidNum S' (lastAmps a0' ops')|, ?_, ?_, ?_⟩
  · rw [query_eq hv]
    simp only [answer, fidErr, hf, fidelity_eq_fidNum hq, Except.map, Out.ofReal]
  · rw [query_eq hv']
    simp only [answer, fidErr, hf', fidelity_eq_fidNum hq', Except.map, Out.ofReal]
  · set X := final S (lastAmps a0 ops) with hX
    set Y := final S' (lastAmps a0' ops') with hY
    have ho : ‖overlap S (lastAmps a0 ops) - overlap S' (lastAmps a0' ops')‖ ≤
        Fintype.card m * opNorm S.ontoTarget * opNorm (X - Y) := by
      unfold overlap
      rw [h.ontoTarget, ← hX, ← hY, ← Matrix.trace_sub, ← Matrix.mul_sub, mul_assoc]
      exact (norm_trace_le _).trans (mul_le_mul_of_nonneg_left (opNorm_mul _ _) (Nat.cast_nonneg _))
    have h1 : |fidNum S (lastAmps a0 ops) - fidNum S' (lastAmps a0' ops')| ≤
        ‖overlap S (lastAmps a0 ops) - overlap S' (lastAmps a0' ops')‖ / |S.dimNorm| := by
      unfold fidNum
      rw [h.phaseOpt, h.dimNorm]
      cases S.phaseOpt with
      | PSU =>
        simp only
        rw [← sub_div, abs_div]
        exact div_le_div_of_nonneg_right (abs_norm_sub_norm_le _ _) (abs_nonneg _)
      | SU =>
        simp only
        rw [← sub_div, abs_div, ← Complex.sub_re]
        exact div_le_div_of_nonneg_right (Complex.abs_re_le_norm _) (abs_nonneg _)
    have h2 := abs_abs_sub_abs_le (1 - fidNum S (lastAmps a0 ops)) (1 - fidNum S' (lastAmps a0' ops'))
    rw [sub_sub_sub_cancel_left, abs_sub_comm (fidNum S' _)] at h2
    refine h2.trans (h1.trans ?_)
    rw [div_mul_eq_mul_div]
    refine div_le_div_of_nonneg_right (ho.trans ?_) (abs_nonneg _)
    exact mul_le_mul_of_nonneg_left hfin (mul_nonneg (Nat.cast_nonneg _) (opNorm_nonneg _))

/-- **C85.** Rates that always serve: the spectral norms of the exponents, whichever is larger. -/
theorem C85_rates (a a' : Amps) (k : Nat) :
    Growth (max (opNorm (exponent φ S a k)) (opNorm (exponent φ' S' a' k))) (exponent φ S a k) ∧
    Growth (max (opNorm (exponent φ S a k)) (opNorm (exponent φ' S' a' k))) (exponent φ' S' a' k) :=
  ⟨(growth_opNorm _).mono (le_max_left _ _), (growth_opNorm _).mono (le_max_right _ _)⟩

/-- **C85.** One system, two pulses: the exponents differ by no more than the durations times the
differences of the amplitudes times the strengths of the controls, however strong the drift. -/
theorem C85_amps (a a' : Amps) (μ : Nat → ℝ) (n : Nat) :
    spread φ φ S S a a' μ n ≤ Real.exp (∑ k ∈ Finset.range n, μ k) *
      ∑ k ∈ Finset.range n, |S.tau k| *
        ∑ j ∈ Finset.range S.nCtrls, |a k j - a' k j| * opNorm (φ (S.ctrl k j)) := by
  refine mul_le_mul_of_nonneg_left (Finset.sum_le_sum fun k _ => ?_) (Real.exp_pos _).le
  unfold exponent generator
  rw [← smul_sub, opNorm_smul, Complex.norm_real, Real.norm_eq_abs, ← map_sub]
  refine mul_le_mul_of_nonneg_left ?_ (abs_nonneg _)
  rw [add_sub_add_left_eq_sub, ← Finset.sum_sub_distrib, map_sum]
  refine (opNorm_sum _ _).trans (Finset.sum_le_sum fun j _ => ?_)
  rw [← sub_smul, map_smul, opNorm_smul, ← Complex.ofReal_sub, Complex.norm_real, Real.norm_eq_abs]

end

/-! ### Non-vacuity -/

section Examples

/-- A qubit whose upper level is lost at the rate `r`, driven by `σx`, with any measure. -/
noncomputable def leaking (r : ℝ) (fk : FidKind) : GeneralCfg (Fin 2) (Fin 2) where
  nTs := 3
  nCtrls := 1
  drift _ := diagonal ![0, -(r : ℂ)]
  ctrl _ _ := -Complex.I • !![0, 1; 1, 0]
  tau k := 1 / (k + 1)
  initial := 1
  target := 1
  isQobj := false
  cachePhased := false
  cachePropGrad := false
  approx := false
  fidKind := fk
  phaseOpt := .PSU
  scaleFactor := some 1
  inv X := X⁻¹

theorem leaking_growth {r : ℝ} (hr : 0 ≤ r) (fk : FidKind) (a : Amps) (k : Nat) :
    Growth 0 (exponent LinearMap.id (leaking r fk).sys a k) := by
  have h1 : Growth 0 (diagonal ![0, -(r : ℂ)]) := by
    intro v
    simp only [Fin.sum_univ_two, Matrix.mulVec_diagonal]
    have : (star (v 1) * (-(r : ℂ) * v 1)).re = -(r * ‖v 1‖ ^ 2) := by
      have e : star (v 1) * (-(r : ℂ) * v 1) = ((-(r * ‖v 1‖ ^ 2) : ℝ) : ℂ) := by
        have := Complex.conj_mul' (v 1)
        push_cast
        rw [← this]
        simp only [Complex.star_def]
        ring
      rw [e, Complex.ofReal_re]
    simp only [Matrix.cons_val_zero, Matrix.cons_val_one, zero_mul, mul_zero,
      zero_add, Matrix.cons_val_fin_one]
    rw [this]
    nlinarith [mul_nonneg hr (sq_nonneg ‖v 1‖)]
  have h2 : Growth 0 (((a k 0 : ℝ) : ℂ) • (-Complex.I • (!![0, 1; 1, 0] : Matrix (Fin 2) (Fin 2) ℂ))) :=
    growth_skew (skew_real_smul (skew_of_hermitian sample_ctrl) _)
  have h3 := (h1.add h2).smul (s := 1 / (k + 1)) (by positivity)
  simp only [add_zero, mul_zero] at h3
  have e : exponent LinearMap.id (leaking r fk).sys a k = ((1 / (k + 1) : ℝ) : ℂ) •
      (diagonal ![0, -(r : ℂ)] + ((a k 0 : ℝ) : ℂ) • (-Complex.I • !![0, 1; 1, 0])) := by
    change ((1 / (k + 1) : ℝ) : ℂ) • (diagonal ![0, -(r : ℂ)] + ∑ j ∈ Finset.range 1,
      ((a k j : ℝ) : ℂ) • (-Complex.I • (!![0, 1; 1, 0] : Matrix (Fin 2) (Fin 2) ℂ))) = _
    rw [Finset.sum_range_one]
  rw [e]
  exact h3

/-- **C85_evolution**, **C85_trace_difference**, **C85_overlap**: two qubits with different losses; the
evolution does not grow. -/
example (fk : FidKind) (a : Amps) : ∃ S S' : Sys (Fin 2) (Fin 2) Unit, Valid S ∧ Valid S' ∧
    Exponential LinearMap.id S ∧ Exponential LinearMap.id S' ∧ S'.nTs = S.nTs ∧ SameEnds S S' ∧
    S.drift ≠ S'.drift ∧ S.fidKind = fk ∧ 0 ≤ S.scale ∧ (S.phaseOpt = .SU → S.isQobj = true) ∧
    (∀ k, k < S.nTs → Growth 0 (exponent LinearMap.id S a k)) ∧
    ∀ k, k < S.nTs → Growth 0 (exponent LinearMap.id S' a k) := by
  refine ⟨(leaking 1 fk).sys, (leaking 2 fk).sys, general_valid (by change 0 < 3; norm_num)
      (by change 0 < 1; norm_num),
    general_valid (by change 0 < 3; norm_num)
      (by change 0 < 1; norm_num), exponential_general _, exponential_general _, rfl,
    ⟨⟨rfl, rfl, rfl, rfl, rfl⟩, rfl, rfl, rfl⟩, ?_, rfl, ?_, fun h => ?_,
    fun k _ => leaking_growth zero_le_one fk a k, fun k _ => leaking_growth zero_le_two fk a k⟩
  · intro h
    have := congrFun (congrFun (congrFun h 0) 1) 1
    change -((1 : ℝ) : ℂ) = -((2 : ℝ) : ℂ) at this
    norm_num at this
  · change (0 : ℝ) ≤ 1
    norm_num
  · cases h

end Examples

end QTrl.Dyn
