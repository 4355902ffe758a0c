import Verif.Proofs.Symmetry

/-
Equivalent descriptions of a closed control problem: run backwards, with another zero of energy,
beside a spectator.
-/

set_option linter.unusedSectionVars false

open Matrix Kronecker

namespace QTrl.Dyn

open QTrl.Spec QTrl.MatExp

variable {d m e p : Type} [Fintype d] [DecidableEq d] [Fintype m] [DecidableEq m]
  [Fintype e] [DecidableEq e] [Fintype p] [DecidableEq p]

/-! ### Backwards -/

theorem timeOrdered_reverse (q r : Nat → Matrix d d ℂ) (n : Nat)
    (h : ∀ k, k < n → r k = (q (n - 1 - k))ᴴ) {lo hi : Nat} (hl : lo ≤ hi) (hh : hi ≤ n) :
    timeOrdered r lo hi = (timeOrdered q (n - hi) (n - lo))ᴴ := by
  induction hi, hl using Nat.le_induction with
  | base => rw [timeOrdered_self, timeOrdered_self, conjTranspose_one]
  | succ hi hl ih =>
    rw [timeOrdered_succ _ hl, ih (by omega), h hi (by omega),
      timeOrdered_pred q (by omega : n - (hi + 1) < n - lo), conjTranspose_mul,
      show n - (hi + 1) + 1 = n - hi by omega, show n - (hi + 1) = n - 1 - hi by omega]

/-- The length of the evolved object does not change, so its derivative is orthogonal to it. -/
theorem final_ortho {c : UnitaryCfg d m} (hc : Closed c) {a : Amps} (hx : ExactAt c a) {k j : Nat}
    (hk : k < c.nTs) (hj : j < c.nCtrls) :
    ((final c.sys a)ᴴ * finalGrad c.sys a k j).trace.re = 0 := by
  have h1 := final_deriv (hc.exactPropGrad hx) (k := k) (j := j) (by simpa using hk) (by simpa using hj)
  have h2 := hasDerivAt_frobSq h1
  have e : (fun u => frobSq (final c.sys (setAmp a k j u))) = fun _ => frobSq c.initial := by
    ext u
    have hU : evolution c.sys (setAmp a k j u) 0 c.nTs ∈ Matrix.unitaryGroup d ℂ :=
      evolution_unitary hc _ (Nat.zero_le _) (Nat.le_refl _)
    have h3 := (Matrix.mem_unitaryGroup_iff').1 hU
    rw [star_eq_conjTranspose] at h3
    rw [← frobSq_re, ← frobSq_re]
    unfold final
    rw [sys_nTs, sys_initial, conjTranspose_mul]
    calc _ = (c.initialᴴ * ((evolution c.sys (setAmp a k j u) 0 c.nTs)ᴴ *
          evolution c.sys (setAmp a k j u) 0 c.nTs) * c.initial).trace.re := by
          simp only [Matrix.mul_assoc]
      _ = _ := by rw [h3, Matrix.mul_one]
  rw [e, setAmp_self] at h2
  have := h2.unique (hasDerivAt_const _ _)
  linarith

section Reversed
variable {c c' : UnitaryCfg d m} {a a' : Amps}

theorem reversed_generator (h : Reversed c c')
    (ha : ∀ k j, k < c.nTs → j < c.nCtrls → a' k j = a (c.nTs - 1 - k) j) {k : Nat}
    (hk : k < c.nTs) : generator c'.sys a' k = -generator c.sys a (c.nTs - 1 - k) := by
  unfold generator
  simp only [sys_drift, sys_ctrl, sys_nCtrls]
  rw [h.drift k hk, h.nCtrls, neg_add, ← Finset.sum_neg_distrib]
  congr 1
  refine Finset.sum_congr rfl fun j hj => ?_
  have hj := Finset.mem_range.1 hj
  rw [h.ctrl k j hk hj, ha k j hk hj, smul_neg]

theorem exponent_neg {H : Matrix d d ℂ} (hH : H.IsHermitian) (t : ℝ) :
    (t : ℂ) • (-Complex.I • -H) = ((t : ℂ) • (-Complex.I • H))ᴴ := by
  simp [conjTranspose_smul, hH.eq]

theorem reversed_propagator (hc : Closed c) (hc' : Closed c') (h : Reversed c c')
    (ha : ∀ k j, k < c.nTs → j < c.nCtrls → a' k j = a (c.nTs - 1 - k) j) {k : Nat}
    (hk : k < c.nTs) : propagator c'.sys a' k = (propagator c.sys a (c.nTs - 1 - k))ᴴ := by
  rw [propagator_exp hc _ (by omega : c.nTs - 1 - k < c.nTs), propagator_exp hc' _ (h.nTs ▸ hk),
    reversed_generator h ha hk, h.tau k hk, ← Matrix.exp_conjTranspose,
    exponent_neg (generator_hermitian hc _ (by omega))]

theorem reversed_evolution (hc : Closed c) (hc' : Closed c') (h : Reversed c c')
    (ha : ∀ k j, k < c.nTs → j < c.nCtrls → a' k j = a (c.nTs - 1 - k) j) {lo hi : Nat}
    (hl : lo ≤ hi) (hh : hi ≤ c.nTs) :
    evolution c'.sys a' lo hi = (evolution c.sys a (c.nTs - hi) (c.nTs - lo))ᴴ :=
  timeOrdered_reverse _ _ _ (fun _ hk => reversed_propagator hc hc' h ha hk) hl hh

theorem reversed_final (hc : Closed c) (hc' : Closed c') (h : Reversed c c')
    (ha : ∀ k j, k < c.nTs → j < c.nCtrls → a' k j = a (c.nTs - 1 - k) j) :
    final c'.sys a' = (evolution c.sys a 0 c.nTs)ᴴ * c.target := by
  unfold final
  rw [sys_nTs, h.nTs, reversed_evolution hc hc' h ha (Nat.zero_le _) (Nat.le_refl _), sys_initial,
    h.initial, Nat.sub_self, Nat.sub_zero]

theorem reversed_overlap (hc : Closed c) (hc' : Closed c') (h : Reversed c c')
    (ha : ∀ k j, k < c.nTs → j < c.nCtrls → a' k j = a (c.nTs - 1 - k) j) :
    overlap c'.sys a' = (starRingEnd ℂ) (overlap c.sys a) := by
  unfold overlap
  rw [sys_onto, sys_onto, h.target, reversed_final hc hc' h ha]
  unfold final
  rw [sys_nTs, sys_initial, starRingEnd_apply, ← trace_conjTranspose]
  simp only [conjTranspose_mul, conjTranspose_conjTranspose, Matrix.mul_assoc]

theorem reversed_gradTrace (hc : Closed c) (hc' : Closed c') (h : Reversed c c')
    (ha : ∀ k j, k < c.nTs → j < c.nCtrls → a' k j = a (c.nTs - 1 - k) j) (hx : ExactAt c a)
    (hx' : ExactAt c' a') {k j : Nat} (hk : k < c.nTs) (hj : j < c.nCtrls) :
    (c'.targetᴴ * finalGrad c'.sys a' k j).trace =
      (starRingEnd ℂ) (c.targetᴴ * finalGrad c.sys a (c.nTs - 1 - k) j).trace := by
  have hg : propagatorGrad c'.sys a' k j = (propagatorGrad c.sys a (c.nTs - 1 - k) j)ᴴ := by
    rw [propagatorGrad_dexp hc hx (by omega : c.nTs - 1 - k < c.nTs),
      propagatorGrad_dexp hc' hx' (h.nTs ▸ hk), reversed_generator h ha hk, h.tau k hk,
      h.ctrl k j hk hj, ← dexp_conjTranspose, exponent_neg (generator_hermitian hc _ (by omega)),
      exponent_neg (hc.ctrl _ j (by omega) hj)]
  unfold finalGrad
  rw [sys_nTs, h.nTs, reversed_evolution hc hc' h ha hk (Nat.le_refl _),
    reversed_evolution hc hc' h ha (Nat.zero_le _) (Nat.le_of_lt hk), hg, sys_initial, h.initial,
    h.target, sys_nTs, sys_initial, Nat.sub_self, Nat.sub_zero, starRingEnd_apply,
    ← trace_conjTranspose, show c.nTs - 1 - k + 1 = c.nTs - k by omega,
    show c.nTs - (k + 1) = c.nTs - 1 - k by omega]
  simp only [conjTranspose_mul, conjTranspose_conjTranspose, Matrix.mul_assoc]

theorem reversed_frob (hc : Closed c) (hc' : Closed c') (h : Reversed c c')
    (ha : ∀ k j, k < c.nTs → j < c.nCtrls → a' k j = a (c.nTs - 1 - k) j) :
    frobSq (c'.target - final c'.sys a') = frobSq (c.target - final c.sys a) := by
  have hU : evolution c.sys a 0 c.nTs ∈ Matrix.unitaryGroup d ℂ :=
    evolution_unitary hc _ (Nat.zero_le _) (Nat.le_refl _)
  have h1 : evolution c.sys a 0 c.nTs * (evolution c.sys a 0 c.nTs)ᴴ = 1 :=
    (Matrix.mem_unitaryGroup_iff).1 hU
  have h2 : (evolution c.sys a 0 c.nTs)ᴴ * evolution c.sys a 0 c.nTs = 1 :=
    (Matrix.mem_unitaryGroup_iff').1 hU
  have e : c'.target - final c'.sys a' =
      -((evolution c.sys a 0 c.nTs)ᴴ * (c.target - final c.sys a)) := by
    rw [reversed_final hc hc' h ha, h.target, Matrix.mul_sub]
    unfold final
    rw [sys_nTs, sys_initial, ← Matrix.mul_assoc, h2, Matrix.one_mul]
    abel
  rw [← frobSq_re, ← frobSq_re, e, conjTranspose_neg, Matrix.neg_mul, Matrix.mul_neg, neg_neg, conjTranspose_mul,
    conjTranspose_conjTranspose]
  congr 2
  calc _ = (c.target - final c.sys a)ᴴ * (evolution c.sys a 0 c.nTs *
        (evolution c.sys a 0 c.nTs)ᴴ) * (c.target - final c.sys a) := by simp only [Matrix.mul_assoc]
    _ = _ := by rw [h1, Matrix.mul_one]

theorem exp_arg_conj (z : ℂ) :
    Complex.exp (-Complex.I * (Complex.arg ((starRingEnd ℂ) z) : ℂ)) =
      (starRingEnd ℂ) (Complex.exp (-Complex.I * (Complex.arg z : ℂ))) := by
  rw [← Complex.exp_conj, map_mul, Complex.conj_ofReal, map_neg, Complex.conj_I, Complex.arg_conj]
  split
  · next h =>
    rw [h, neg_neg, neg_mul, Complex.exp_neg, mul_comm, Complex.exp_pi_mul_I]
    norm_num
  · push_cast
    ring_nf

theorem reversed_gradEntry (hc : Closed c) (hc' : Closed c') (h : Reversed c c')
    (hn : initNormalization c'.phaseOpt c'.target = initNormalization c.phaseOpt c.target)
    (ha : ∀ k j, k < c.nTs → j < c.nCtrls → a' k j = a (c.nTs - 1 - k) j) (hx : ExactAt c a)
    (hx' : ExactAt c' a') (f : ℝ) {k j : Nat} (hk : k < c.nTs) (hj : j < c.nCtrls) :
    gradEntry c'.sys a' f k j = gradEntry c.sys a f (c.nTs - 1 - k) j := by
  rw [gradEntry_sys, gradEntry_sys]
  have ht := reversed_gradTrace hc hc' h ha hx hx' hk hj
  unfold gradOf
  rw [h.fidKind, h.scaleFactor]
  cases c.fidKind with
  | unitary =>
    simp only
    rw [h.phaseOpt] at hn ⊢
    rw [ht, hn, reversed_overlap hc hc' h ha, exp_arg_conj]
    cases c.phaseOpt with
    | PSU =>
      simp only
      rw [← map_mul, Complex.div_ofReal_re, Complex.conj_re, Complex.div_ofReal_re]
    | SU => simp only [Complex.conj_re]
  | traceDiff =>
    simp only
    rw [conjTranspose_sub, conjTranspose_sub, Matrix.sub_mul, Matrix.sub_mul, trace_sub, trace_sub,
      Complex.sub_re, Complex.sub_re, ht, Complex.conj_re, final_ortho hc hx (by omega) hj,
      final_ortho hc' hx' (h.nTs ▸ hk) (h.nCtrls ▸ hj)]

end Reversed

/-! ### Another zero of energy -/

theorem timeOrdered_scaled (q : Nat → Matrix d d ℂ) (z : Nat → ℂ) {lo hi : Nat} (h : lo ≤ hi) :
    timeOrdered (fun k => z k • q k) lo hi = (∏ k ∈ Finset.Ico lo hi, z k) • timeOrdered q lo hi := by
  induction hi, h using Nat.le_induction with
  | base => simp [timeOrdered_self]
  | succ hi h ih =>
    rw [timeOrdered_succ _ h, timeOrdered_succ _ h, ih, Finset.prod_Ico_succ_top h, Matrix.smul_mul,
      Matrix.mul_smul, smul_smul, mul_comm]

section Shifted
variable {c c' : UnitaryCfg d m} {u : Nat → ℝ} {v : Nat → Nat → ℝ} {a a' : Amps}

/-- The energy added in a slot. -/
noncomputable def addedEnergy (c : UnitaryCfg d m) (u : Nat → ℝ) (v : Nat → Nat → ℝ) (a : Amps)
    (k : Nat) : ℝ := u k + ∑ j ∈ Finset.range c.nCtrls, a k j * v k j

/-- The phase the added energy of a slot amounts to. -/
noncomputable def addedPhase (c : UnitaryCfg d m) (u : Nat → ℝ) (v : Nat → Nat → ℝ) (a : Amps)
    (k : Nat) : ℂ := Complex.exp ((c.tau k : ℂ) * (-Complex.I * (addedEnergy c u v a k : ℂ)))

theorem addedPhase_norm (c : UnitaryCfg d m) (u : Nat → ℝ) (v : Nat → Nat → ℝ) (a : Amps) (k : Nat) :
    ‖addedPhase c u v a k‖ = 1 := by
  unfold addedPhase
  rw [show (c.tau k : ℂ) * (-Complex.I * (addedEnergy c u v a k : ℂ)) =
    ((-(c.tau k * addedEnergy c u v a k) : ℝ) : ℂ) * Complex.I by push_cast; ring]
  exact Complex.norm_exp_ofReal_mul_I _

theorem shifted_generator (h : Shifted u v c c') (ha : AmpsAgree c a a') {k : Nat}
    (hk : k < c.nTs) : generator c'.sys a' k =
      generator c.sys a k + (addedEnergy c u v a k : ℂ) • (1 : Matrix d d ℂ) := by
  have e : ∑ j ∈ Finset.range c.nCtrls, (a' k j : ℂ) • c'.ctrl k j =
      ∑ j ∈ Finset.range c.nCtrls, (a k j : ℂ) • c.ctrl k j +
        ∑ j ∈ Finset.range c.nCtrls, ((a k j * v k j : ℝ) : ℂ) • (1 : Matrix d d ℂ) := by
    rw [← Finset.sum_add_distrib]
    refine Finset.sum_congr rfl fun j hj => ?_
    have hj := Finset.mem_range.1 hj
    rw [h.ctrl k j hk hj, ha k j hk hj, smul_add, smul_smul]
    push_cast
    rfl
  unfold generator addedEnergy
  simp only [sys_drift, sys_ctrl, sys_nCtrls]
  rw [h.drift k hk, h.nCtrls, e, ← Finset.sum_smul]
  push_cast
  rw [add_smul]
  abel

theorem shifted_exponent (H : Matrix d d ℂ) (t w : ℂ) :
    t • (-Complex.I • (H + w • (1 : Matrix d d ℂ))) =
      t • (-Complex.I • H) + (t * (-Complex.I * w)) • (1 : Matrix d d ℂ) := by
  rw [smul_add, smul_add, smul_smul (-Complex.I) w, smul_smul t (-Complex.I * w)]

theorem shifted_propagator (hc : Closed c) (hc' : Closed c') (h : Shifted u v c c')
    (ha : AmpsAgree c a a') {k : Nat} (hk : k < c.nTs) :
    propagator c'.sys a' k = addedPhase c u v a k • propagator c.sys a k := by
  rw [propagator_exp hc _ hk, propagator_exp hc' _ (h.nTs ▸ hk), shifted_generator h ha hk,
    h.tau k hk, shifted_exponent, exp_add_scalar]
  rfl

/-- The phase of the whole evolution. -/
noncomputable def totalPhase (c : UnitaryCfg d m) (u : Nat → ℝ) (v : Nat → Nat → ℝ) (a : Amps) : ℂ :=
  ∏ k ∈ Finset.Ico 0 c.nTs, addedPhase c u v a k

theorem totalPhase_norm (c : UnitaryCfg d m) (u : Nat → ℝ) (v : Nat → Nat → ℝ) (a : Amps) :
    ‖totalPhase c u v a‖ = 1 := by
  unfold totalPhase
  rw [norm_prod]
  exact Finset.prod_eq_one fun k _ => addedPhase_norm c u v a k

theorem shifted_evolution (hc : Closed c) (hc' : Closed c') (h : Shifted u v c c')
    (ha : AmpsAgree c a a') {lo hi : Nat} (hl : lo ≤ hi) (hh : hi ≤ c.nTs) :
    evolution c'.sys a' lo hi =
      (∏ k ∈ Finset.Ico lo hi, addedPhase c u v a k) • evolution c.sys a lo hi := by
  unfold evolution
  rw [← timeOrdered_scaled _ _ hl]
  exact timeOrdered_congr fun k _ hk => shifted_propagator hc hc' h ha (by omega)

theorem shifted_final (hc : Closed c) (hc' : Closed c') (h : Shifted u v c c')
    (ha : AmpsAgree c a a') : final c'.sys a' = totalPhase c u v a • final c.sys a := by
  unfold final
  rw [sys_nTs, h.nTs, shifted_evolution hc hc' h ha (Nat.zero_le _) (Nat.le_refl _), sys_initial,
    h.initial, sys_nTs, sys_initial, Matrix.smul_mul]
  rfl

theorem shifted_overlap (hc : Closed c) (hc' : Closed c') (h : Shifted u v c c')
    (ha : AmpsAgree c a a') : overlap c'.sys a' = totalPhase c u v a * overlap c.sys a := by
  unfold overlap
  rw [sys_onto, sys_onto, h.target, shifted_final hc hc' h ha, Matrix.mul_smul, trace_smul,
    smul_eq_mul]

theorem shifted_finalGrad (hc : Closed c) (hc' : Closed c') (h : Shifted u v c c')
    (ha : AmpsAgree c a a') (hx : ExactAt c a) (hx' : ExactAt c' a') {k j : Nat} (hk : k < c.nTs)
    (hj : j < c.nCtrls) : finalGrad c'.sys a' k j = totalPhase c u v a •
      (finalGrad c.sys a k j + ((c.tau k : ℂ) * (-Complex.I * (v k j : ℂ))) • final c.sys a) := by
  have hg : propagatorGrad c'.sys a' k j = addedPhase c u v a k • (propagatorGrad c.sys a k j +
      ((c.tau k : ℂ) * (-Complex.I * (v k j : ℂ))) • propagator c.sys a k) := by
    rw [propagatorGrad_dexp hc hx hk, propagatorGrad_dexp hc' hx' (h.nTs ▸ hk),
      shifted_generator h ha hk, h.tau k hk, h.ctrl k j hk hj, propagator_exp hc _ hk,
      shifted_exponent, shifted_exponent, dexp_add_scalar]
    rfl
  have hf : final c.sys a = evolution c.sys a (k + 1) c.nTs * propagator c.sys a k *
      (evolution c.sys a 0 k * c.initial) := by
    have := final_setAmp c.sys a j (a k j) (k := k) (by simpa using hk)
    rw [setAmp_self, sys_nTs, sys_initial] at this
    exact this
  have hz : totalPhase c u v a = (∏ k ∈ Finset.Ico (k + 1) c.nTs, addedPhase c u v a k) *
      addedPhase c u v a k * ∏ k ∈ Finset.Ico 0 k, addedPhase c u v a k := by
    unfold totalPhase
    rw [← Finset.prod_Ico_consecutive _ (Nat.zero_le (k + 1)) hk,
      Finset.prod_Ico_succ_top (Nat.zero_le k)]
    ring
  unfold finalGrad
  rw [sys_nTs, h.nTs, shifted_evolution hc hc' h ha hk (Nat.le_refl _),
    shifted_evolution hc hc' h ha (Nat.zero_le _) (Nat.le_of_lt hk), hg, sys_initial, h.initial,
    hf, hz, sys_nTs, sys_initial]
  simp only [Matrix.smul_mul, Matrix.mul_smul, Matrix.mul_add, Matrix.add_mul, smul_add, smul_smul]
  congr 1
  · congr 1; ring
  · congr 1; ring

theorem shifted_gradEntry (hc : Closed c) (hc' : Closed c') (h : Shifted u v c c')
    (ha : AmpsAgree c a a') (hx : ExactAt c a) (hx' : ExactAt c' a') (hu : c.fidKind = .unitary)
    (hp : c.phaseOpt = .PSU) (h0 : overlap c.sys a ≠ 0) (f : ℝ) {k j : Nat} (hk : k < c.nTs)
    (hj : j < c.nCtrls) : gradEntry c'.sys a' f k j = gradEntry c.sys a f k j := by
  have hz := totalPhase_norm c u v a
  have hexp : ∀ z : ℂ, z ≠ 0 → Complex.exp (-Complex.I * (Complex.arg z : ℂ)) =
      (starRingEnd ℂ) z / (‖z‖ : ℂ) := by
    intro z hz
    have hn : (‖z‖ : ℂ) ≠ 0 := by exact_mod_cast norm_ne_zero_iff.2 hz
    rw [eq_div_iff hn]
    have h3 := Complex.norm_mul_exp_arg_mul_I z
    conv_rhs => rw [← h3]
    rw [map_mul, Complex.conj_ofReal, ← Complex.exp_conj, mul_comm]
    congr 2
    simp only [map_mul, Complex.conj_ofReal, Complex.conj_I]
    ring
  have h0' : overlap c'.sys a' ≠ 0 := by
    rw [shifted_overlap hc hc' h ha]
    exact mul_ne_zero (by rw [← norm_ne_zero_iff, hz]; exact one_ne_zero) h0
  have ho : (c.targetᴴ * final c.sys a).trace = overlap c.sys a := by
    unfold overlap; rw [sys_onto]
  rw [gradEntry_sys, gradEntry_sys]
  unfold gradOf
  rw [h.fidKind, hu, h.phaseOpt, hp, h.target]
  simp only
  rw [shifted_finalGrad hc hc' h ha hx hx' hk hj, hexp _ h0, hexp _ h0',
    shifted_overlap hc hc' h ha, norm_mul, hz, one_mul, Matrix.mul_smul, Matrix.mul_add,
    Matrix.mul_smul, trace_smul, trace_add, trace_smul, ho, smul_eq_mul, smul_eq_mul, map_mul]
  have hzz : totalPhase c u v a * (starRingEnd ℂ) (totalPhase c u v a) = 1 := by
    rw [Complex.mul_conj, Complex.normSq_eq_norm_sq, hz]; norm_num
  set g := (c.targetᴴ * finalGrad c.sys a k j).trace
  set o := overlap c.sys a
  set ζ := totalPhase c u v a
  have e1 : ζ * (g + (c.tau k : ℂ) * (-Complex.I * (v k j : ℂ)) * o) *
      ((starRingEnd ℂ) ζ * (starRingEnd ℂ) o / (‖o‖ : ℂ)) =
      g * ((starRingEnd ℂ) o / (‖o‖ : ℂ)) +
        ((c.tau k * v k j * Complex.normSq o / ‖o‖ : ℝ) : ℂ) * -Complex.I := by
    calc _ = (ζ * (starRingEnd ℂ) ζ) * (g * ((starRingEnd ℂ) o / (‖o‖ : ℂ)) +
          (c.tau k : ℂ) * (v k j : ℂ) * (o * (starRingEnd ℂ) o) / (‖o‖ : ℂ) * -Complex.I) := by ring
      _ = _ := by rw [hzz, Complex.mul_conj, one_mul]; push_cast; ring
  have e2 : ((ζ * (g + (c.tau k : ℂ) * (-Complex.I * (v k j : ℂ)) * o) *
      ((starRingEnd ℂ) ζ * (starRingEnd ℂ) o / (‖o‖ : ℂ))) /
        (initNormalization PhaseOpt.PSU c.target : ℂ)).re =
      (g * ((starRingEnd ℂ) o / (‖o‖ : ℂ)) / (initNormalization PhaseOpt.PSU c.target : ℂ)).re := by
    rw [e1, Complex.div_ofReal_re, Complex.div_ofReal_re, Complex.add_re, Complex.re_ofReal_mul]
    simp
  rw [e2]

end Shifted

/-! ### Beside a spectator -/

theorem timeOrdered_kron (q : Nat → Matrix d d ℂ) {lo hi : Nat} (h : lo ≤ hi) :
    timeOrdered (fun k => q k ⊗ₖ (1 : Matrix e e ℂ)) lo hi =
      timeOrdered q lo hi ⊗ₖ (1 : Matrix e e ℂ) := by
  induction hi, h using Nat.le_induction with
  | base => rw [timeOrdered_self, timeOrdered_self, one_kronecker_one]
  | succ hi h ih =>
    rw [timeOrdered_succ _ h, timeOrdered_succ _ h, ih, ← mul_kronecker_mul, Matrix.one_mul]

section Beside
variable {c : UnitaryCfg d m} {c' : UnitaryCfg (d × e) (m × p)} {X : Matrix e p ℂ} {a a' : Amps}

theorem sum_kron {ι : Type} (s : Finset ι) (A : ι → Matrix d d ℂ) :
    (∑ i ∈ s, A i) ⊗ₖ (1 : Matrix e e ℂ) = ∑ i ∈ s, A i ⊗ₖ (1 : Matrix e e ℂ) := by
  ext x y
  simp [Matrix.sum_apply, Finset.sum_mul]

theorem beside_generator (h : Beside X c c') (ha : AmpsAgree c a a') {k : Nat} (hk : k < c.nTs) :
    generator c'.sys a' k = generator c.sys a k ⊗ₖ (1 : Matrix e e ℂ) := by
  unfold generator
  simp only [sys_drift, sys_ctrl, sys_nCtrls]
  rw [h.drift k hk, h.nCtrls, add_kronecker, sum_kron]
  congr 1
  refine Finset.sum_congr rfl fun j hj => ?_
  have hj := Finset.mem_range.1 hj
  rw [h.ctrl k j hk hj, ha k j hk hj, smul_kronecker]

theorem beside_propagator (hc : Closed c) (hc' : Closed c') (h : Beside X c c')
    (ha : AmpsAgree c a a') {k : Nat} (hk : k < c.nTs) :
    propagator c'.sys a' k = propagator c.sys a k ⊗ₖ (1 : Matrix e e ℂ) := by
  rw [propagator_exp hc _ hk, propagator_exp hc' _ (h.nTs ▸ hk), beside_generator h ha hk,
    h.tau k hk, ← exp_kronecker_one, smul_kronecker, smul_kronecker]

theorem beside_evolution (hc : Closed c) (hc' : Closed c') (h : Beside X c c')
    (ha : AmpsAgree c a a') {lo hi : Nat} (hl : lo ≤ hi) (hh : hi ≤ c.nTs) :
    evolution c'.sys a' lo hi = evolution c.sys a lo hi ⊗ₖ (1 : Matrix e e ℂ) := by
  unfold evolution
  rw [← timeOrdered_kron _ hl]
  exact timeOrdered_congr fun k _ hk => beside_propagator hc hc' h ha (by omega)

theorem beside_final (hc : Closed c) (hc' : Closed c') (h : Beside X c c')
    (ha : AmpsAgree c a a') : final c'.sys a' = final c.sys a ⊗ₖ X := by
  unfold final
  rw [sys_nTs, h.nTs, beside_evolution hc hc' h ha (Nat.zero_le _) (Nat.le_refl _), sys_initial,
    h.initial, sys_nTs, sys_initial, ← mul_kronecker_mul, Matrix.one_mul]

theorem beside_finalGrad (hc : Closed c) (hc' : Closed c') (h : Beside X c c')
    (ha : AmpsAgree c a a') (hx : ExactAt c a) (hx' : ExactAt c' a') {k j : Nat} (hk : k < c.nTs)
    (hj : j < c.nCtrls) : finalGrad c'.sys a' k j = finalGrad c.sys a k j ⊗ₖ X := by
  have hg : propagatorGrad c'.sys a' k j = propagatorGrad c.sys a k j ⊗ₖ (1 : Matrix e e ℂ) := by
    rw [propagatorGrad_dexp hc hx hk, propagatorGrad_dexp hc' hx' (h.nTs ▸ hk),
      beside_generator h ha hk, h.tau k hk, h.ctrl k j hk hj, ← dexp_kronecker_one]
    simp only [smul_kronecker]
  unfold finalGrad
  rw [sys_nTs, h.nTs, beside_evolution hc hc' h ha hk (Nat.le_refl _),
    beside_evolution hc hc' h ha (Nat.zero_le _) (Nat.le_of_lt hk), hg, sys_initial, h.initial,
    sys_nTs, sys_initial]
  simp only [← mul_kronecker_mul, Matrix.one_mul]

theorem trace_beside (A B : Matrix d m ℂ) (X : Matrix e p ℂ) :
    ((A ⊗ₖ X)ᴴ * (B ⊗ₖ X)).trace = (Aᴴ * B).trace * (frobSq X : ℂ) := by
  rw [conjTranspose_kronecker, ← mul_kronecker_mul, trace_kronecker, frobSq_eq]

theorem sub_kron (A B : Matrix d m ℂ) (X : Matrix e p ℂ) : A ⊗ₖ X - B ⊗ₖ X = (A - B) ⊗ₖ X := by
  ext x y
  simp [sub_mul]

theorem beside_overlap (hc : Closed c) (hc' : Closed c') (h : Beside X c c')
    (ha : AmpsAgree c a a') : overlap c'.sys a' = overlap c.sys a * (frobSq X : ℂ) := by
  unfold overlap
  rw [sys_onto, sys_onto, h.target, beside_final hc hc' h ha, trace_beside]

theorem beside_norm (h : Beside X c c') : initNormalization c'.phaseOpt c'.target =
    initNormalization c.phaseOpt c.target * frobSq X := by
  unfold initNormalization
  rw [h.phaseOpt, h.target, trace_beside]
  cases c.phaseOpt with
  | PSU =>
    simp only [norm_mul, Complex.norm_real, Real.norm_eq_abs, abs_of_nonneg (frobSq_nonneg X)]
    ring
  | SU =>
    simp only [Complex.re_mul_ofReal]
    ring

theorem beside_gradEntry (hc : Closed c) (hc' : Closed c') (h : Beside X c c')
    (hX : frobSq X ≠ 0) (hs : c.fidKind = .traceDiff → c'.sys.scale * frobSq X = c.sys.scale)
    (ha : AmpsAgree c a a') (hx : ExactAt c a) (hx' : ExactAt c' a') (f : ℝ) {k j : Nat}
    (hk : k < c.nTs) (hj : j < c.nCtrls) :
    gradEntry c'.sys a' f k j = gradEntry c.sys a f k j := by
  have hX' : 0 < frobSq X := lt_of_le_of_ne (frobSq_nonneg X) (Ne.symm hX)
  have hn := beside_norm h
  rw [gradEntry_sys, gradEntry_sys]
  unfold gradOf
  rw [h.fidKind, h.phaseOpt] at *
  rw [h.target] at hn ⊢
  rw [beside_final hc hc' h ha, sub_kron, beside_finalGrad hc hc' h ha hx hx' hk hj, trace_beside,
    trace_beside, beside_overlap hc hc' h ha, Complex.arg_mul_real hX', hn]
  rw [sys_scale, sys_scale] at hs
  cases hk : c.fidKind with
  | unitary =>
    simp only
    cases c.phaseOpt with
    | PSU =>
      simp only
      rw [Complex.div_ofReal_re, Complex.div_ofReal_re]
      have : (c.targetᴴ * finalGrad c.sys a k j).trace * (frobSq X : ℂ) *
          Complex.exp (-Complex.I * (Complex.arg (overlap c.sys a) : ℂ)) =
          ((frobSq X : ℝ) : ℂ) * ((c.targetᴴ * finalGrad c.sys a k j).trace *
          Complex.exp (-Complex.I * (Complex.arg (overlap c.sys a) : ℂ))) := by ring
      rw [this, Complex.re_ofReal_mul, mul_comm (frobSq X), mul_div_mul_right _ _ hX]
    | SU =>
      simp only
      rw [Complex.re_mul_ofReal, mul_div_mul_right _ _ hX]
  | traceDiff =>
    simp only
    rw [← hs hk, Complex.re_mul_ofReal]
    ring

end Beside

end QTrl.Dyn
