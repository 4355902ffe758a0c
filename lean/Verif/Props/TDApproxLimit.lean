import Verif.Props.TDApprox
import Mathlib.Topology.Algebra.Order.Field

/-
C14: the finite difference gradient as the step goes to zero.

`C14_limit_partial`: under the hypotheses of `C14_partial` (for all small steps) the reported
gradient tends to the derivative of the reported error.  `C14_diverges`: when the order in
which the code multiplies the factors changes the error, it grows without bound instead.
`C14_violated_limit` gives such a system.
-/

set_option linter.unusedSectionVars false

open Matrix Filter Topology

namespace QTrl.Dyn

open QTrl.Spec QTrl.MatExp

variable {d D : Type} [Fintype d] [DecidableEq d]

/-- The error of the operator that the code compares with the target, as a function of
the step. -/
theorem shifted_hasDerivAt (S : Sys d d D) (hexp : S.expm = NormedSpace.exp) (amps : Amps)
    (k j : Nat) : ∃ f' : ℝ, HasDerivAt
      (fun eps : ℝ => S.scale * frobSq (S.target - shiftedFinal S amps eps k j)) f' 0 := by
  have h1 : MatDeriv (fun eps : ℝ => S.expm ((S.tau k : ℂ) •
      (phased S (generator S amps k) + (eps : ℂ) • phased S (S.ctrl k j))))
      (NormedSpace.exp (fromBlocks ((S.tau k : ℂ) • phased S (generator S amps k))
        ((S.tau k : ℂ) • phased S (S.ctrl k j)) 0
        ((S.tau k : ℂ) • phased S (generator S amps k)))).toBlocks₁₂ 0 := by
    intro a b
    have := hasDerivAt_exp_dir ((S.tau k : ℂ) • phased S (generator S amps k))
      ((S.tau k : ℂ) • phased S (S.ctrl k j)) a b
    simp only [hexp, smul_add, smul_comm (S.tau k : ℂ) (Complex.ofReal _)]
    exact this
  have h2 := ((h1.const_mul (evolution S amps 0 k * S.initial)).mul_const
    (evolution S amps (k + 1) S.nTs)).const_sub S.target
  exact ⟨_, (hasDerivAt_frobSq h2).const_mul S.scale⟩

theorem tendsto_quotient {f : ℝ → ℝ} {f' : ℝ} (h : HasDerivAt f f' 0) :
    Tendsto (fun e => (f e - f 0) / e) (𝓝[≠] 0) (𝓝 f') := by
  refine (hasDerivAt_iff_tendsto_slope.1 h).congr fun e => ?_
  rw [slope_def_field, sub_zero]

theorem tendsto_quotient_atTop {f : ℝ → ℝ} (h : ContinuousAt f 0) {c : ℝ} (hc : f 0 ≠ c) :
    Tendsto (fun e => |(f e - c) / e|) (𝓝[≠] 0) atTop := by
  have h1 : Tendsto (fun e => |f e - c|) (𝓝[≠] 0) (𝓝 |f 0 - c|) :=
    ((h.sub_const c).abs).mono_left nhdsWithin_le_nhds
  have h2 : Tendsto (fun e : ℝ => |e|⁻¹) (𝓝[≠] 0) atTop :=
    tendsto_inv_nhdsGT_zero.comp tendsto_abs_nhdsNE_zero
  have h3 := h1.pos_mul_atTop (abs_pos.2 (sub_ne_zero.2 hc)) h2
  refine h3.congr fun e => ?_
  rw [abs_div, div_eq_mul_inv]

/-- **C14**, the limit: where the property holds for all small steps, e.g. under the
hypotheses of `C14_partial`, the reported gradient tends to the gradient of the reported error
as the step goes to zero. -/
theorem C14_limit_partial {S : Sys d d D} (hn : Valid S) (hu : S.fidKind = .traceDiff)
    (hexp : S.expm = NormedSpace.exp) (hp : S.propKind = .approx)
    (hlin : ∀ (A B : Matrix d d ℂ) (c : ℂ), phased S (A + c • B) = phased S A + c • phased S B)
    (junk s0 : State d d D) (a0 : Amps) (ops : List Op)
    (hall : ∀ᶠ eps in 𝓝[≠] (0 : ℝ), C14_statement S eps junk s0 a0 ops) :
    ∃ err lim, ∃ g : ℝ → Nat → Nat → ℝ,
      (∀ eps a, queryA S eps junk s0 a0 (ops ++ [.updateAmps a]) .getFidErr = .real (err a)) ∧
      (∀ eps, queryA S eps junk s0 a0 ops .getGradient = .array (g eps)) ∧
      IsGradient S err (lastAmps a0 ops) lim ∧
      ∀ k j, k < S.nTs → j < S.nCtrls →
        Tendsto (fun eps => g eps k j) (𝓝[≠] 0) (𝓝 (lim k j)) := by
  set amps := lastAmps a0 ops with hamps
  have hd : ∀ k j, k < S.nTs → j < S.nCtrls → ∃ f', HasDerivAt
      (fun u => S.scale * frobSq (S.target - final S (setAmp amps k j u))) f' (amps k j) := by
    intro k j hk hj
    have h0 : MatDeriv (fun e : ℝ => propagator S (setAmp amps k j (amps k j + e)) k)
        (NormedSpace.exp (fromBlocks ((S.tau k : ℂ) • phased S (generator S amps k))
          ((S.tau k : ℂ) • phased S (S.ctrl k j)) 0
          ((S.tau k : ℂ) • phased S (generator S amps k)))).toBlocks₁₂ 0 := by
      intro a b
      have := hasDerivAt_exp_dir ((S.tau k : ℂ) • phased S (generator S amps k))
        ((S.tau k : ℂ) • phased S (S.ctrl k j)) a b
      simp only [propagator, hp, generator_setAmp S amps hj, hlin, hexp, smul_add,
        smul_comm (S.tau k : ℂ) (Complex.ofReal _), add_sub_cancel_left, reduceCtorEq, if_false]
      exact this
    have h1 : MatDeriv (fun u : ℝ => propagator S (setAmp amps k j u) k)
        (NormedSpace.exp (fromBlocks ((S.tau k : ℂ) • phased S (generator S amps k))
          ((S.tau k : ℂ) • phased S (S.ctrl k j)) 0
          ((S.tau k : ℂ) • phased S (generator S amps k)))).toBlocks₁₂ (amps k j) := by
      intro a b
      have := h0 a b
      rw [← sub_self (amps k j)] at this
      have := HasDerivAt.comp_sub_const (amps k j) (amps k j) this
      simp only [add_sub_cancel] at this
      exact this
    have h2 := (hasDerivAt_frobSq (((h1.const_mul (evolution S amps (k + 1) S.nTs)).mul_const
      (evolution S amps 0 k * S.initial)).const_sub S.target)).const_mul S.scale
    simp only [← final_setAmp S amps j _ hk] at h2
    exact ⟨_, h2⟩
  choose! lim hlim using hd
  refine ⟨fun a => S.scale * frobSq (S.target - final S a), lim,
    fun eps => approxGrad S eps amps, fun eps a => ?_, fun eps => queryA_grad hn hu junk s0 a0 ops,
    hlim, fun k j hk hj => ?_⟩
  · rw [queryA_err hn hu, lastAmps_append_update]
  · have h1 : HasDerivAt (fun e => S.scale * frobSq (S.target -
        final S (setAmp amps k j (amps k j + e)))) (lim k j) 0 := by
      have := hlim k j hk hj
      rw [← add_zero (amps k j)] at this
      exact HasDerivAt.comp_const_add (amps k j) 0 this
    refine (tendsto_quotient h1).congr' ?_
    filter_upwards [hall] with eps ⟨err, g, e1, e2, e3⟩
    have he : err = fun a => S.scale * frobSq (S.target - final S a) := by
      funext a
      have := e1 a
      rw [queryA_err hn hu, lastAmps_append_update] at this
      injection this with this
      exact this.symm
    have hg : g = approxGrad S eps amps := by
      rw [queryA_grad hn hu] at e2
      injection e2 with e2
      exact e2.symm
    rw [← hg, e3 k j hk hj, he]
    simp only [add_zero, setAmp_self, ← hamps]

/-- **C14**, what happens otherwise: if the product in the order of the code has a different
error than the evolution, the entry grows without bound as the step goes to zero. -/
theorem C14_diverges {S : Sys d d D} (hn : Valid S) (hu : S.fidKind = .traceDiff)
    (hexp : S.expm = NormedSpace.exp) (hp : S.propKind = .approx)
    (junk s0 : State d d D) (a0 : Amps) (ops : List Op) {k j : Nat} (hk : k < S.nTs)
    (hj : j < S.nCtrls)
    (hne : S.scale * frobSq (S.target - evolution S (lastAmps a0 ops) 0 k * S.initial *
        propagator S (lastAmps a0 ops) k * evolution S (lastAmps a0 ops) (k + 1) S.nTs) ≠
      S.scale * frobSq (S.target - final S (lastAmps a0 ops))) :
    ∃ g : ℝ → Nat → Nat → ℝ,
      (∀ eps, queryA S eps junk s0 a0 ops .getGradient = .array (g eps)) ∧
      Tendsto (fun eps => |g eps k j|) (𝓝[≠] 0) atTop := by
  refine ⟨fun eps => approxGrad S eps (lastAmps a0 ops),
    fun eps => queryA_grad hn hu junk s0 a0 ops, ?_⟩
  obtain ⟨f', hf⟩ := shifted_hasDerivAt S hexp (lastAmps a0 ops) k j
  refine (tendsto_quotient_atTop hf.continuousAt
    (c := S.scale * frobSq (S.target - final S (lastAmps a0 ops))) ?_).congr fun eps => ?_
  · convert hne using 5
    unfold shiftedFinal propagator
    simp [hp]
  · unfold approxGrad
    beta_reduce
    rw [if_pos ⟨hk, hj⟩]

/-- The exponential in the second slot. -/
theorem twoSlots_second (amps : Amps) (h : amps 1 0 = 0) :
    propagator twoSlots amps 1 = fromBlocks 1 1 0 1 := by
  have : generator twoSlots amps 1 = fromBlocks 0 1 0 0 := by
    simp [generator, twoSlotsOf, h]
  unfold propagator
  rw [if_neg (by simp [twoSlotsOf]), this]
  change NormedSpace.exp (((1 : ℝ) : ℂ) • fromBlocks 0 1 0 0) = _
  rw [Complex.ofReal_one, one_smul, exp_nilpotent]

theorem twoSlots_first (amps : Amps) :
    propagator twoSlots amps 0 = fromBlocks (Complex.exp (amps 0 0) • 1) 0 0 1 := by
  have : generator twoSlots amps 0 = fromBlocks ((amps 0 0 : ℂ) • 1) 0 0 0 := by
    simp [generator, twoSlotsOf, Matrix.fromBlocks_smul]
  unfold propagator
  rw [if_neg (by simp [twoSlotsOf]), this]
  change NormedSpace.exp (((1 : ℝ) : ℂ) • fromBlocks ((amps 0 0 : ℂ) • 1) 0 0 0) = _
  rw [Complex.ofReal_one, one_smul, exp_corner]

/-- **C14 is violated in the limit**: with the two-slot system and amplitude 1 in the first
slot, the reported entry grows without bound as the step goes to zero.  The code multiplies the
propagators of the slots in reverse order, and `(err' - err) / epsilon` divides the difference
of the two orders by the step. -/
theorem C14_violated_limit (junk s0 : State (Fin 1 ⊕ Fin 1) (Fin 1 ⊕ Fin 1) Unit) :
    ∃ g : ℝ → Nat → Nat → ℝ,
      (∀ eps, queryA twoSlots eps junk s0 (fun k _ => if k = 0 then 1 else 0) [] .getGradient =
        .array (g eps)) ∧
      Tendsto (fun eps => |g eps 0 0|) (𝓝[≠] 0) atTop := by
  refine C14_diverges (twoSlots_valid 1) rfl rfl rfl junk s0 _ []
    (show 0 < 2 by norm_num) (show 0 < 1 by norm_num) ?_
  intro h
  have h6 := mul_left_cancel₀ (show twoSlots.scale ≠ 0 by simp [twoSlotsOf]) h
  simp only [lastAmps] at h6
  generalize ha : (fun k _ => if k = 0 then 1 else 0 : Amps) = amps at h6
  have a0 : amps 0 0 = 1 := by simp [← ha]
  have a1 : amps 1 0 = 0 := by simp [← ha]
  have hev : evolution twoSlots amps 1 2 = fromBlocks 1 1 0 1 := by
    unfold evolution
    rw [timeOrdered_succ _ (Nat.le_refl 1), timeOrdered_self, twoSlots_second _ a1, Matrix.mul_one]
  have hev0 : evolution twoSlots amps 0 0 = 1 := timeOrdered_self _ _
  have hf : final twoSlots amps = fromBlocks (Complex.exp (amps 0 0) • 1) 1 0 1 := by
    have := final_setAmp twoSlots amps 0 (amps 0 0) (k := 0) (show 0 < 2 by norm_num)
    rw [setAmp_self] at this
    rw [this, hev0, twoSlots_first]
    change evolution twoSlots amps 1 2 * _ * (1 * 1) = _
    rw [hev, Matrix.mul_one, Matrix.mul_one, Matrix.fromBlocks_multiply]
    simp
  have hA : evolution twoSlots amps 0 0 * twoSlots.initial * propagator twoSlots amps 0 *
      evolution twoSlots amps (0 + 1) twoSlots.nTs =
      fromBlocks (Complex.exp (amps 0 0) • 1) (Complex.exp (amps 0 0) • 1) 0 1 := by
    rw [hev0, twoSlots_first]
    change 1 * 1 * _ * evolution twoSlots amps 1 2 = _
    rw [hev, Matrix.one_mul, Matrix.one_mul, Matrix.fromBlocks_multiply]
    simp
  rw [hA, hf] at h6
  have hx : Complex.exp ((1 : ℝ) : ℂ) = ((Real.exp 1 : ℝ) : ℂ) := (Complex.ofReal_exp 1).symm
  have ht : twoSlots.target = fromBlocks 0 1 0 0 := rfl
  rw [ht, a0, hx] at h6
  simp only [frobSq, Fintype.sum_sum_type, Finset.univ_unique, Finset.sum_singleton,
    Matrix.sub_apply, Matrix.fromBlocks_apply₁₁, Matrix.fromBlocks_apply₁₂,
    Matrix.fromBlocks_apply₂₁, Matrix.fromBlocks_apply₂₂, Matrix.smul_apply, Matrix.one_apply_eq,
    Matrix.zero_apply] at h6
  simp only [smul_eq_mul, mul_one, sub_self, norm_zero, zero_sub, norm_neg] at h6
  have h7 : ‖(1 : ℂ) - ((Real.exp 1 : ℝ) : ℂ)‖ ^ 2 = 0 := by
    have : (0 : ℝ) ^ 2 = 0 := by norm_num
    linarith
  have h8 := norm_eq_zero.1 (pow_eq_zero_iff (by norm_num) |>.1 h7)
  have h9 : Real.exp 1 = 1 := by
    exact_mod_cast (sub_eq_zero.1 h8).symm
  exact one_ne_zero (Real.exp_eq_one_iff 1 |>.1 h9)

/-- A case that meets the hypotheses of `C14_limit_partial`. -/
example (junk s0 : State (Fin 1 ⊕ Fin 1) (Fin 1 ⊕ Fin 1) Unit) (a0 : Amps) (ops : List Op) :
    ∃ lim : Nat → Nat → ℝ, ∃ g : ℝ → Nat → Nat → ℝ,
      (∀ eps, queryA (twoSlotsOf 0) eps junk s0 a0 ops .getGradient = .array (g eps)) ∧
      ∀ k j, k < 2 → j < 1 → Tendsto (fun eps => g eps k j) (𝓝[≠] 0) (𝓝 (lim k j)) := by
  obtain ⟨_, lim, g, _, h2, _, h4⟩ := C14_limit_partial (twoSlots_valid 0) rfl rfl rfl
    (fun _ _ _ => rfl) junk s0 a0 ops (Eventually.of_forall fun eps =>
      twoSlotsOf_zero_statement eps junk s0 a0 ops)
  exact ⟨lim, g, h2, h4⟩

end QTrl.Dyn
