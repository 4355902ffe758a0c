import Verif.Spec.Symmetry
import Verif.Proofs.DExp
import Verif.Proofs.Unitary

/-
Equivalent descriptions of a closed control problem have the same evolution, up to the change of
description, and related derivatives.
-/

set_option linter.unusedSectionVars false

open Matrix Kronecker

namespace QTrl.Dyn

open QTrl.Spec QTrl.MatExp

variable {d m e p : Type} [Fintype d] [DecidableEq d] [Fintype m] [DecidableEq m]
  [Fintype e] [DecidableEq e] [Fintype p] [DecidableEq p]

/-- Exact propagator gradients are derivatives of the exponential. -/
theorem propagatorGrad_dexp {c : UnitaryCfg d m} (h : Closed c) {amps : Amps}
    (he : ExactAt c amps) {k j : Nat} (hk : k < c.nTs) :
    propagatorGrad c.sys amps k j = dexp ((c.tau k : ℂ) • (-Complex.I • generator c.sys amps k))
      ((c.tau k : ℂ) • (-Complex.I • c.ctrl k j)) := by
  rcases he with hf | ⟨hd, hp, hs⟩
  · unfold propagatorGrad
    rw [if_neg (by simp [hf])]
    simp only [sys_frechet, sys_tau, phased, sys_phase, sys_ctrl]
    rfl
  · have : propagatorGrad c.sys amps k j = diagGrad (spectralDecomp c.eigh c.prec
        (generator c.sys amps k) (c.tau k)) (-Complex.I • c.ctrl k j) (c.tau k) := by
      unfold propagatorGrad
      rw [if_pos (by simp [hd])]
      simp only [sys_diagGrad, sys_decompose, sys_tau, phased, sys_phase, sys_ctrl]
    rw [this]
    exact C17_diag_agrees c.eigh _ _ (h.eigh _ (generator_hermitian h amps hk)) _ _ hp (hs k hk)

theorem _root_.QTrl.Spec.ExactAt.ne_approx {c : UnitaryCfg d m} {amps : Amps}
    (he : ExactAt c amps) : c.sys.propKind ≠ .approx := by
  rw [sys_propKind]
  rcases he with h | ⟨h, _⟩ <;> rw [h] <;> decide

/-- The element of the gradient belonging to a derivative `X` of the final object. -/
noncomputable def gradOf (c : UnitaryCfg d m) (amps : Amps) (f : ℝ) (X : Matrix d m ℂ) : ℝ :=
  match c.fidKind with
  | .unitary =>
    let g := (c.targetᴴ * X).trace
    let n := match c.phaseOpt with
      | .PSU => (g * Complex.exp (-Complex.I * (Complex.arg (overlap c.sys amps) : ℂ)) /
          (initNormalization c.phaseOpt c.target : ℂ)).re
      | .SU => g.re / initNormalization c.phaseOpt c.target
    if 1 ≤ f then n else -n
  | .traceDiff => -2 * defaultScale c.scaleFactor (Fintype.card d) *
      ((c.target - final c.sys amps)ᴴ * X).trace.re

theorem gradEntry_sys (c : UnitaryCfg d m) (amps : Amps) (f : ℝ) (k j : Nat) :
    gradEntry c.sys amps f k j = gradOf c amps f (finalGrad c.sys amps k j) := by
  unfold gradEntry gradOf
  simp only [sys_fidKind, sys_phaseOpt, sys_onto, sys_dimNorm, sys_scale, sys_target]
  cases c.fidKind <;> cases c.phaseOpt <;> rfl

theorem gradOf_zero (c : UnitaryCfg d m) (amps : Amps) (f : ℝ) : gradOf c amps f 0 = 0 := by
  unfold gradOf
  cases c.fidKind <;> cases c.phaseOpt <;> simp

theorem gradOf_add (c : UnitaryCfg d m) (amps : Amps) (f : ℝ) (X Y : Matrix d m ℂ) :
    gradOf c amps f (X + Y) = gradOf c amps f X + gradOf c amps f Y := by
  unfold gradOf
  cases c.fidKind <;> cases c.phaseOpt <;>
    simp only [Matrix.mul_add, Matrix.trace_add, add_mul, add_div, Complex.add_re] <;>
    (try split) <;> ring

theorem gradOf_smul (c : UnitaryCfg d m) (amps : Amps) (f r : ℝ) (X : Matrix d m ℂ) :
    gradOf c amps f ((r : ℂ) • X) = r * gradOf c amps f X := by
  unfold gradOf
  cases c.fidKind <;> cases c.phaseOpt <;>
    simp only [Matrix.mul_smul, Matrix.trace_smul, smul_eq_mul, mul_assoc, mul_div_assoc,
      Complex.re_ofReal_mul] <;>
    (try split) <;> ring

theorem gradOf_sum (c : UnitaryCfg d m) (amps : Amps) (f : ℝ) {ι : Type} (s : Finset ι)
    (r : ι → ℝ) (X : ι → Matrix d m ℂ) :
    gradOf c amps f (∑ i ∈ s, (r i : ℂ) • X i) = ∑ i ∈ s, r i * gradOf c amps f (X i) := by
  classical
  induction s using Finset.induction_on with
  | empty => simp [gradOf_zero]
  | insert a s ha ih => rw [Finset.sum_insert ha, Finset.sum_insert ha, gradOf_add, gradOf_smul, ih]

section Answers
variable {d' m' : Type} [Fintype d'] [DecidableEq d'] [Fintype m'] [DecidableEq m']

/-- When two configurations report the same fidelity and error. -/
theorem same_answers {c : UnitaryCfg d m} {c' : UnitaryCfg d' m'} (h : SameSettings c c')
    {a a' : Amps}
    (h1 : c.phaseOpt = .PSU → ‖overlap c'.sys a'‖ / c'.sys.dimNorm = ‖overlap c.sys a‖ / c.sys.dimNorm)
    (h2 : c.phaseOpt = .SU → (overlap c'.sys a').re / c'.sys.dimNorm =
      (overlap c.sys a).re / c.sys.dimNorm)
    (h3 : c.fidKind = .traceDiff → c'.sys.scale * frobSq (c'.target - final c'.sys a') =
      c.sys.scale * frobSq (c.target - final c.sys a)) :
    fidelity c'.sys a' = fidelity c.sys a ∧
    answer c'.sys (some a') .getFidelity = answer c.sys (some a) .getFidelity ∧
    answer c'.sys (some a') .getFidErr = answer c.sys (some a) .getFidErr := by
  have hf : fidelity c'.sys a' = fidelity c.sys a := by
    unfold fidelity
    rw [sys_phaseOpt, sys_phaseOpt, sys_isQobj, sys_isQobj, h.isQobj, h.phaseOpt]
    cases hp : c.phaseOpt with
    | PSU => simp only [h1 hp]
    | SU => cases c.isQobj <;> simp only [h2 hp]
  refine ⟨hf, ?_, ?_⟩
  · simp only [answer, sys_fidKind, h.fidKind]
    cases c.fidKind <;> simp only [hf]
  · simp only [answer, fidErr, sys_fidKind, h.fidKind, hf]
    cases hk : c.fidKind with
    | unitary => rfl
    | traceDiff =>
      simp only
      rw [frobSq_re, frobSq_re, sys_target, sys_target, h3 hk]

/-- When the gradients two configurations report are in a relation. -/
theorem grad_answers {c : UnitaryCfg d m} {c' : UnitaryCfg d' m'} (h : SameSettings c c')
    {a a' : Amps} (hx : ExactAt c a) (hx' : ExactAt c' a')
    (hf : fidelity c'.sys a' = fidelity c.sys a) (R : (Nat → Nat → ℝ) → (Nat → Nat → ℝ) → Prop)
    (hR : ∀ f, R (fun k j => if k < c.nTs ∧ j < c.nCtrls then gradEntry c.sys a f k j else 0)
      (fun k j => if k < c'.nTs ∧ j < c'.nCtrls then gradEntry c'.sys a' f k j else 0)) :
    GradRel R (answer c.sys (some a) .getGradient) (answer c'.sys (some a') .getGradient) := by
  unfold answer gradient
  simp only
  rw [if_neg hx.ne_approx, if_neg hx'.ne_approx, sys_fidKind, sys_fidKind, h.fidKind]
  simp only [sys_nTs, sys_nCtrls, hf]
  cases hk : c.fidKind with
  | unitary =>
    simp only
    cases fidelity c.sys a with
    | error e => exact rfl
    | ok f => exact hR f
  | traceDiff => exact hR 0

end Answers

/-! ### Another basis -/

theorem timeOrdered_conj (W : Matrix d d ℂ) (hW : W ∈ Matrix.unitaryGroup d ℂ)
    (q : Nat → Matrix d d ℂ) {lo hi : Nat} (h : lo ≤ hi) :
    timeOrdered (fun k => W * q k * Wᴴ) lo hi = W * timeOrdered q lo hi * Wᴴ := by
  have h1 : W * Wᴴ = 1 := (Matrix.mem_unitaryGroup_iff).1 hW
  have h2 : Wᴴ * W = 1 := (Matrix.mem_unitaryGroup_iff').1 hW
  induction hi, h using Nat.le_induction with
  | base => rw [timeOrdered_self, timeOrdered_self, Matrix.mul_one, h1]
  | succ hi h ih =>
    rw [timeOrdered_succ _ h, timeOrdered_succ _ h, ih]
    calc W * q hi * Wᴴ * (W * timeOrdered q lo hi * Wᴴ) =
        W * q hi * (Wᴴ * W) * (timeOrdered q lo hi * Wᴴ) := by simp only [Matrix.mul_assoc]
      _ = _ := by rw [h2]; simp only [Matrix.mul_assoc, Matrix.one_mul]

section Rebased
variable {c c' : UnitaryCfg d m} {W : Matrix d d ℂ} {V : Matrix m m ℂ} {a a' : Amps}

theorem rebased_generator (h : Rebased W V c c') (ha : AmpsAgree c a a') {k : Nat}
    (hk : k < c.nTs) : generator c'.sys a' k = W * generator c.sys a k * Wᴴ := by
  unfold generator
  simp only [sys_drift, sys_ctrl, sys_nCtrls]
  rw [h.drift k hk, h.nCtrls, Matrix.mul_add, Matrix.add_mul, Matrix.mul_sum, Matrix.sum_mul]
  congr 1
  refine Finset.sum_congr rfl fun j hj => ?_
  have hj := Finset.mem_range.1 hj
  rw [h.ctrl k j hk hj, ha k j hk hj, Matrix.mul_smul, Matrix.smul_mul]

theorem rebased_propagator (hc : Closed c) (hc' : Closed c') (h : Rebased W V c c')
    (hW : W ∈ Matrix.unitaryGroup d ℂ) (ha : AmpsAgree c a a') {k : Nat} (hk : k < c.nTs) :
    propagator c'.sys a' k = W * propagator c.sys a k * Wᴴ := by
  rw [propagator_exp hc _ hk, propagator_exp hc' _ (h.nTs ▸ hk), rebased_generator h ha hk,
    h.tau k hk, ← exp_unitary_conj W hW]
  simp only [Matrix.mul_smul, Matrix.smul_mul]

theorem rebased_evolution (hc : Closed c) (hc' : Closed c') (h : Rebased W V c c')
    (hW : W ∈ Matrix.unitaryGroup d ℂ) (ha : AmpsAgree c a a') {lo hi : Nat} (hl : lo ≤ hi)
    (hh : hi ≤ c.nTs) : evolution c'.sys a' lo hi = W * evolution c.sys a lo hi * Wᴴ := by
  unfold evolution
  rw [← timeOrdered_conj W hW _ hl]
  exact timeOrdered_congr fun k _ hk => rebased_propagator hc hc' h hW ha (by omega)

theorem rebased_final (hc : Closed c) (hc' : Closed c') (h : Rebased W V c c')
    (hW : W ∈ Matrix.unitaryGroup d ℂ) (ha : AmpsAgree c a a') :
    final c'.sys a' = W * final c.sys a * V := by
  have h2 : Wᴴ * W = 1 := (Matrix.mem_unitaryGroup_iff').1 hW
  unfold final
  rw [sys_nTs, h.nTs, rebased_evolution hc hc' h hW ha (Nat.zero_le _) (Nat.le_refl _),
    sys_initial, h.initial, sys_nTs, sys_initial]
  calc _ = W * evolution c.sys a 0 c.nTs * (Wᴴ * W) * (c.initial * V) := by
        simp only [Matrix.mul_assoc]
    _ = _ := by rw [h2]; simp only [Matrix.mul_assoc, Matrix.one_mul]

theorem rebased_finalGrad (hc : Closed c) (hc' : Closed c') (h : Rebased W V c c')
    (hW : W ∈ Matrix.unitaryGroup d ℂ) (ha : AmpsAgree c a a') (hx : ExactAt c a)
    (hx' : ExactAt c' a') {k j : Nat} (hk : k < c.nTs) (hj : j < c.nCtrls) :
    finalGrad c'.sys a' k j = W * finalGrad c.sys a k j * V := by
  have h2 : Wᴴ * W = 1 := (Matrix.mem_unitaryGroup_iff').1 hW
  have hg : propagatorGrad c'.sys a' k j = W * propagatorGrad c.sys a k j * Wᴴ := by
    rw [propagatorGrad_dexp hc hx hk, propagatorGrad_dexp hc' hx' (h.nTs ▸ hk),
      rebased_generator h ha hk, h.tau k hk, h.ctrl k j hk hj, ← dexp_conj' W hW]
    simp only [Matrix.mul_smul, Matrix.smul_mul]
  unfold finalGrad
  rw [sys_nTs, h.nTs, rebased_evolution hc hc' h hW ha hk (Nat.le_refl _),
    rebased_evolution hc hc' h hW ha (Nat.zero_le _) (Nat.le_of_lt hk), hg, sys_initial, h.initial,
    sys_nTs, sys_initial]
  calc _ = W * evolution c.sys a (k + 1) c.nTs * (Wᴴ * W) * propagatorGrad c.sys a k j * (Wᴴ * W) *
        evolution c.sys a 0 k * (Wᴴ * W) * (c.initial * V) := by
        simp only [Matrix.mul_assoc]
    _ = _ := by rw [h2]; simp only [Matrix.mul_assoc, Matrix.one_mul]

theorem trace_rebase (hW : W ∈ Matrix.unitaryGroup d ℂ) (hV : V ∈ Matrix.unitaryGroup m ℂ)
    (A B : Matrix d m ℂ) : ((W * A * V)ᴴ * (W * B * V)).trace = (Aᴴ * B).trace := by
  have h2 : Wᴴ * W = 1 := (Matrix.mem_unitaryGroup_iff').1 hW
  have h3 : V * Vᴴ = 1 := (Matrix.mem_unitaryGroup_iff).1 hV
  rw [conjTranspose_mul, conjTranspose_mul]
  calc (Vᴴ * (Aᴴ * Wᴴ) * (W * B * V)).trace = (Vᴴ * (Aᴴ * (Wᴴ * W) * B * V)).trace := by
        simp only [Matrix.mul_assoc]
    _ = (Aᴴ * B * (V * Vᴴ)).trace := by
        rw [h2, Matrix.mul_one, Matrix.trace_mul_comm]; simp only [Matrix.mul_assoc]
    _ = _ := by rw [h3, Matrix.mul_one]

theorem rebased_norm (h : Rebased W V c c') (hW : W ∈ Matrix.unitaryGroup d ℂ)
    (hV : V ∈ Matrix.unitaryGroup m ℂ) :
    initNormalization c'.phaseOpt c'.target = initNormalization c.phaseOpt c.target := by
  unfold initNormalization
  rw [h.phaseOpt, h.target, trace_rebase hW hV]

theorem rebased_overlap (hc : Closed c) (hc' : Closed c') (h : Rebased W V c c')
    (hW : W ∈ Matrix.unitaryGroup d ℂ) (hV : V ∈ Matrix.unitaryGroup m ℂ) (ha : AmpsAgree c a a') :
    overlap c'.sys a' = overlap c.sys a := by
  unfold overlap
  rw [sys_onto, sys_onto, h.target, rebased_final hc hc' h hW ha, trace_rebase hW hV]

theorem rebased_gradOf (hc : Closed c) (hc' : Closed c') (h : Rebased W V c c')
    (hW : W ∈ Matrix.unitaryGroup d ℂ) (hV : V ∈ Matrix.unitaryGroup m ℂ) (ha : AmpsAgree c a a')
    (f : ℝ) (X : Matrix d m ℂ) : gradOf c' a' f (W * X * V) = gradOf c a f X := by
  unfold gradOf
  rw [h.fidKind, h.phaseOpt, h.scaleFactor, rebased_overlap hc hc' h hW hV ha, h.target,
    rebased_final hc hc' h hW ha, trace_rebase hW hV, ← Matrix.sub_mul, ← Matrix.mul_sub,
    trace_rebase hW hV]
  have hn := rebased_norm h hW hV
  rw [h.phaseOpt, h.target] at hn
  rw [hn]

end Rebased

/-! ### The same propagators -/

section SameProps
variable {c c' : UnitaryCfg d m} {a a' : Amps}

theorem sameProps_final (hn : c'.nTs = c.nTs) (hi : c'.initial = c.initial)
    (hp : ∀ k, k < c.nTs → propagator c'.sys a' k = propagator c.sys a k) :
    final c'.sys a' = final c.sys a := by
  unfold final evolution
  rw [sys_nTs, sys_nTs, hn, sys_initial, sys_initial, hi]
  congr 1
  exact timeOrdered_congr fun k _ hk => hp k hk

theorem sameFinal_overlap (ht : c'.target = c.target) (hf : final c'.sys a' = final c.sys a) :
    overlap c'.sys a' = overlap c.sys a := by
  unfold overlap
  rw [sys_onto, sys_onto, ht, hf]

theorem sameFinal_gradOf (h : SameSettings c c') (ht : c'.target = c.target)
    (hf : final c'.sys a' = final c.sys a) (f : ℝ) (X : Matrix d m ℂ) :
    gradOf c' a' f X = gradOf c a f X := by
  unfold gradOf
  rw [h.fidKind, h.phaseOpt, h.scaleFactor, ht, hf, sameFinal_overlap ht hf]

theorem sameFinal_answers (h : SameSettings c c') (ht : c'.target = c.target)
    (hf : final c'.sys a' = final c.sys a) :
    fidelity c'.sys a' = fidelity c.sys a ∧
    answer c'.sys (some a') .getFidelity = answer c.sys (some a) .getFidelity ∧
    answer c'.sys (some a') .getFidErr = answer c.sys (some a) .getFidErr := by
  have ho := sameFinal_overlap ht hf
  have hd : c'.sys.dimNorm = c.sys.dimNorm := by
    rw [sys_dimNorm, sys_dimNorm, h.phaseOpt, ht]
  have hs : c'.sys.scale = c.sys.scale := by rw [sys_scale, sys_scale, h.scaleFactor]
  exact same_answers h (fun _ => by rw [ho, hd]) (fun _ => by rw [ho, hd])
    fun _ => by rw [hs, hf, ht]

theorem sameProps_finalGrad (hn : c'.nTs = c.nTs) (hi : c'.initial = c.initial)
    (hp : ∀ k, k < c.nTs → propagator c'.sys a' k = propagator c.sys a k) {k i : Nat}
    (hk : k < c.nTs) {ι : Type} {s : Finset ι} {r : ι → ℝ} {j : ι → Nat}
    (hg : propagatorGrad c'.sys a' k i = ∑ x ∈ s, (r x : ℂ) • propagatorGrad c.sys a k (j x)) :
    finalGrad c'.sys a' k i = ∑ x ∈ s, (r x : ℂ) • finalGrad c.sys a k (j x) := by
  have h1 : evolution c'.sys a' (k + 1) c.nTs = evolution c.sys a (k + 1) c.nTs :=
    timeOrdered_congr fun k _ hk => hp k hk
  have h2 : evolution c'.sys a' 0 k = evolution c.sys a 0 k :=
    timeOrdered_congr fun k' _ hk' => hp k' (by omega)
  unfold finalGrad
  simp only [sys_nTs, hn, h1, h2, sys_initial, hi, hg, Matrix.mul_sum, Matrix.sum_mul,
    Matrix.mul_smul, Matrix.smul_mul]

end SameProps

/-! ### Recombined controls -/

section Recombined
variable {c c' : UnitaryCfg d m} {M : Nat → Nat → Nat → ℝ} {b : Nat → Nat → ℝ} {a a' : Amps}

theorem recombined_generator (h : Recombined M b c c')
    (ha : ∀ k j, k < c.nTs → j < c.nCtrls →
      a k j = b k j + ∑ i ∈ Finset.range c'.nCtrls, M k j i * a' k i) {k : Nat}
    (hk : k < c.nTs) : generator c'.sys a' k = generator c.sys a k := by
  unfold generator
  simp only [sys_drift, sys_ctrl, sys_nCtrls]
  rw [h.drift k hk, add_assoc]
  congr 1
  have e1 : ∑ i ∈ Finset.range c'.nCtrls, (a' k i : ℂ) • c'.ctrl k i =
      ∑ j ∈ Finset.range c.nCtrls, ∑ i ∈ Finset.range c'.nCtrls,
        ((M k j i * a' k i : ℝ) : ℂ) • c.ctrl k j := by
    rw [Finset.sum_comm]
    refine Finset.sum_congr rfl fun i hi => ?_
    rw [h.ctrl k i hk (Finset.mem_range.1 hi), Finset.smul_sum]
    refine Finset.sum_congr rfl fun j _ => ?_
    rw [smul_smul, mul_comm]
    push_cast
    rfl
  rw [e1, ← Finset.sum_add_distrib]
  refine Finset.sum_congr rfl fun j hj => ?_
  rw [ha k j hk (Finset.mem_range.1 hj), ← Finset.sum_smul, ← add_smul]
  push_cast
  rfl

theorem recombined_propagator (hc : Closed c) (hc' : Closed c') (h : Recombined M b c c')
    (ha : ∀ k j, k < c.nTs → j < c.nCtrls →
      a k j = b k j + ∑ i ∈ Finset.range c'.nCtrls, M k j i * a' k i) {k : Nat}
    (hk : k < c.nTs) : propagator c'.sys a' k = propagator c.sys a k := by
  rw [propagator_exp hc _ hk, propagator_exp hc' _ (h.nTs ▸ hk), recombined_generator h ha hk,
    h.tau k hk]

theorem recombined_finalGrad (hc : Closed c) (hc' : Closed c') (h : Recombined M b c c')
    (ha : ∀ k j, k < c.nTs → j < c.nCtrls →
      a k j = b k j + ∑ i ∈ Finset.range c'.nCtrls, M k j i * a' k i)
    (hx : ExactAt c a) (hx' : ExactAt c' a') {k i : Nat} (hk : k < c.nTs) (hi : i < c'.nCtrls) :
    finalGrad c'.sys a' k i = ∑ j ∈ Finset.range c.nCtrls, (M k j i : ℂ) • finalGrad c.sys a k j := by
  refine sameProps_finalGrad (j := fun j => j) h.nTs h.initial
    (fun k hk => recombined_propagator hc hc' h ha hk) hk ?_
  rw [propagatorGrad_dexp hc' hx' (h.nTs ▸ hk), recombined_generator h ha hk, h.tau k hk,
    h.ctrl k i hk hi]
  have : (c.tau k : ℂ) • (-Complex.I • ∑ j ∈ Finset.range c.nCtrls, (M k j i : ℂ) • c.ctrl k j) =
      ∑ j ∈ Finset.range c.nCtrls, (M k j i : ℂ) • ((c.tau k : ℂ) • (-Complex.I • c.ctrl k j)) := by
    rw [Finset.smul_sum, Finset.smul_sum]
    refine Finset.sum_congr rfl fun j _ => ?_
    rw [smul_comm (-Complex.I), smul_comm (c.tau k : ℂ)]
  rw [this, dexp_sum]
  refine Finset.sum_congr rfl fun j _ => ?_
  rw [dexp_smul', propagatorGrad_dexp hc hx hk]

end Recombined

/-! ### Other units of time -/

section Rescaled
variable {c c' : UnitaryCfg d m} {s : Nat → ℝ} {a a' : Amps}

theorem rescaled_generator (h : Rescaled s c c') (ha : AmpsAgree c a a') {k : Nat}
    (hk : k < c.nTs) : generator c.sys a k = (s k : ℂ) • generator c'.sys a' k := by
  unfold generator
  simp only [sys_drift, sys_ctrl, sys_nCtrls]
  rw [h.drift k hk, h.nCtrls, smul_add, Finset.smul_sum]
  congr 1
  refine Finset.sum_congr rfl fun j hj => ?_
  have hj := Finset.mem_range.1 hj
  rw [h.ctrl k j hk hj, ha k j hk hj, smul_comm]

theorem rescaled_exponent (h : Rescaled s c c') {k : Nat} (hk : k < c.nTs)
    {A A' : Matrix d d ℂ} (hA : A = (s k : ℂ) • A') :
    (c'.tau k : ℂ) • (-Complex.I • A') = (c.tau k : ℂ) • (-Complex.I • A) := by
  rw [hA, h.tau k hk, smul_comm (-Complex.I) (s k : ℂ), smul_smul (c.tau k : ℂ)]
  push_cast
  rw [mul_comm]

theorem rescaled_propagator (hc : Closed c) (hc' : Closed c') (h : Rescaled s c c')
    (ha : AmpsAgree c a a') {k : Nat} (hk : k < c.nTs) :
    propagator c'.sys a' k = propagator c.sys a k := by
  rw [propagator_exp hc _ hk, propagator_exp hc' _ (h.nTs ▸ hk),
    rescaled_exponent h hk (rescaled_generator h ha hk)]

theorem rescaled_finalGrad (hc : Closed c) (hc' : Closed c') (h : Rescaled s c c')
    (ha : AmpsAgree c a a') (hx : ExactAt c a) (hx' : ExactAt c' a') {k j : Nat} (hk : k < c.nTs)
    (hj : j < c.nCtrls) : finalGrad c'.sys a' k j = finalGrad c.sys a k j := by
  have := sameProps_finalGrad (c := c) (c' := c') (a := a) (a' := a') (i := j) (s := {()})
    (r := fun _ => 1) (j := fun _ => j) h.nTs h.initial
    (fun k hk => rescaled_propagator hc hc' h ha hk) hk ?_
  · simpa using this
  · rw [propagatorGrad_dexp hc' hx' (h.nTs ▸ hk),
      rescaled_exponent h hk (rescaled_generator h ha hk), rescaled_exponent h hk (h.ctrl k j hk hj),
      propagatorGrad_dexp hc hx hk]
    simp

end Rescaled

/-! ### One slot cut in two -/

theorem timeOrdered_shift (q : Nat → Matrix d d ℂ) {lo hi : Nat} (h : lo ≤ hi) :
    timeOrdered q (lo + 1) (hi + 1) = timeOrdered (fun k => q (k + 1)) lo hi := by
  induction hi, h using Nat.le_induction with
  | base => rw [timeOrdered_self, timeOrdered_self]
  | succ hi h ih => rw [timeOrdered_succ _ (by omega), timeOrdered_succ _ h, ih]

section Cut
variable {c c' : UnitaryCfg d m} {s : Nat} {x : ℝ} {a a' : Amps}

theorem cut_generator (h : Cut s x c c')
    (ha : ∀ k j, k < c'.nTs → j < c.nCtrls → a' k j = a (uncut s k) j) {k : Nat}
    (hk : k < c'.nTs) : generator c'.sys a' k = generator c.sys a (uncut s k) := by
  unfold generator
  simp only [sys_drift, sys_ctrl, sys_nCtrls]
  rw [h.drift k hk, h.nCtrls]
  congr 1
  refine Finset.sum_congr rfl fun j hj => ?_
  have hj := Finset.mem_range.1 hj
  rw [h.ctrl k j hk hj, ha k j hk hj]

theorem uncut_lt (h : Cut s x c c') {k : Nat} (hk : k < c'.nTs) : uncut s k < c.nTs := by
  have := h.slot
  have := h.nTs
  unfold uncut
  split <;> omega

theorem cut_propagator (hc : Closed c) (hc' : Closed c') (h : Cut s x c c')
    (ha : ∀ k j, k < c'.nTs → j < c.nCtrls → a' k j = a (uncut s k) j) {k : Nat}
    (hk : k < c'.nTs) (h1 : k ≠ s) (h2 : k ≠ s + 1) :
    propagator c'.sys a' k = propagator c.sys a (uncut s k) := by
  rw [propagator_exp hc _ (uncut_lt h hk), propagator_exp hc' _ hk, cut_generator h ha hk,
    h.tau k hk, if_neg h1, if_neg h2]

theorem cut_slot (hc : Closed c) (hc' : Closed c') (h : Cut s x c c')
    (ha : ∀ k j, k < c'.nTs → j < c.nCtrls → a' k j = a (uncut s k) j) :
    propagator c'.sys a' (s + 1) * propagator c'.sys a' s = propagator c.sys a s := by
  have h1 := h.slot
  have h2 := h.nTs
  have u1 : uncut s s = s := by simp [uncut]
  have u2 : uncut s (s + 1) = s := by simp [uncut]
  rw [propagator_exp hc _ h1, propagator_exp hc' _ (by omega : s + 1 < c'.nTs),
    propagator_exp hc' _ (by omega : s < c'.nTs), cut_generator h ha (by omega),
    cut_generator h ha (by omega), u1, u2, h.tau s (by omega), h.tau (s + 1) (by omega), if_pos rfl,
    if_neg (by omega), if_pos rfl, ← exp_split]
  congr 2
  push_cast
  ring

theorem cut_before (hc : Closed c) (hc' : Closed c') (h : Cut s x c c')
    (ha : ∀ k j, k < c'.nTs → j < c.nCtrls → a' k j = a (uncut s k) j) {lo hi : Nat}
    (hh : hi ≤ s) : evolution c'.sys a' lo hi = evolution c.sys a lo hi := by
  have h1 := h.slot
  have h2 := h.nTs
  refine timeOrdered_congr fun k _ hk => ?_
  rw [cut_propagator hc hc' h ha (by omega) (by omega) (by omega), uncut, if_pos (by omega)]

theorem cut_after (hc : Closed c) (hc' : Closed c') (h : Cut s x c c')
    (ha : ∀ k j, k < c'.nTs → j < c.nCtrls → a' k j = a (uncut s k) j) {lo hi : Nat}
    (hl : s < lo) (hlh : lo ≤ hi) (hh : hi ≤ c.nTs) :
    evolution c'.sys a' (lo + 1) (hi + 1) = evolution c.sys a lo hi := by
  have h2 := h.nTs
  unfold evolution
  rw [timeOrdered_shift _ hlh]
  refine timeOrdered_congr fun k hk1 hk => ?_
  rw [cut_propagator hc hc' h ha (by omega) (by omega) (by omega), uncut, if_neg (by omega)]
  rfl

theorem cut_across (hc : Closed c) (hc' : Closed c') (h : Cut s x c c')
    (ha : ∀ k j, k < c'.nTs → j < c.nCtrls → a' k j = a (uncut s k) j) {lo hi : Nat}
    (hl : lo ≤ s) (hlh : s < hi) (hh : hi ≤ c.nTs) :
    evolution c'.sys a' lo (hi + 1) = evolution c.sys a lo hi := by
  have e1 := cut_after hc hc' h ha (lo := s + 1) (hi := hi) (by omega) hlh hh
  have e2 := cut_before hc hc' h ha (lo := lo) (hi := s) (Nat.le_refl _)
  have e3 := cut_slot hc hc' h ha
  unfold evolution at *
  rw [← timeOrdered_mul (propagator c.sys a) (b := s + 1) (by omega) (by omega : s + 1 ≤ hi),
    timeOrdered_succ _ hl,
    ← timeOrdered_mul (propagator c'.sys a') (b := s + 1 + 1) (by omega) (by omega : s + 1 + 1 ≤ hi + 1),
    timeOrdered_succ _ (by omega : lo ≤ s + 1), timeOrdered_succ _ hl, e1, e2, ← e3]
  simp only [Matrix.mul_assoc]

theorem cut_final (hc : Closed c) (hc' : Closed c') (h : Cut s x c c')
    (ha : ∀ k j, k < c'.nTs → j < c.nCtrls → a' k j = a (uncut s k) j) :
    final c'.sys a' = final c.sys a := by
  unfold final
  rw [sys_nTs, sys_nTs, h.nTs, cut_across hc hc' h ha (Nat.zero_le _) h.slot (Nat.le_refl _),
    sys_initial, sys_initial, h.initial]

theorem cut_finalGrad_before (hc : Closed c) (hc' : Closed c') (h : Cut s x c c')
    (ha : ∀ k j, k < c'.nTs → j < c.nCtrls → a' k j = a (uncut s k) j) (hx : ExactAt c a)
    (hx' : ExactAt c' a') {k j : Nat} (hk : k < s) (hj : j < c.nCtrls) :
    finalGrad c'.sys a' k j = finalGrad c.sys a k j := by
  have h1 := h.slot
  have h2 := h.nTs
  have hu : uncut s k = k := by simp [uncut]; omega
  unfold finalGrad
  rw [sys_nTs, sys_nTs, h.nTs, cut_across hc hc' h ha (by omega) h.slot (Nat.le_refl _),
    cut_before hc hc' h ha (by omega), sys_initial, sys_initial, h.initial,
    propagatorGrad_dexp hc' hx' (by omega), propagatorGrad_dexp hc hx (by omega),
    cut_generator h ha (by omega), hu, h.tau k (by omega), if_neg (by omega), if_neg (by omega), hu,
    h.ctrl k j (by omega) hj, hu]

theorem cut_finalGrad_after (hc : Closed c) (hc' : Closed c') (h : Cut s x c c')
    (ha : ∀ k j, k < c'.nTs → j < c.nCtrls → a' k j = a (uncut s k) j) (hx : ExactAt c a)
    (hx' : ExactAt c' a') {k j : Nat} (hs : s < k) (hk : k < c.nTs) (hj : j < c.nCtrls) :
    finalGrad c'.sys a' (k + 1) j = finalGrad c.sys a k j := by
  have h1 := h.slot
  have h2 := h.nTs
  have hu : uncut s (k + 1) = k := by simp [uncut]; omega
  unfold finalGrad
  rw [sys_nTs, sys_nTs, h.nTs, cut_after hc hc' h ha (by omega) (by omega) (Nat.le_refl _),
    cut_across hc hc' h ha (Nat.zero_le _) hs (by omega), sys_initial, sys_initial, h.initial,
    propagatorGrad_dexp hc' hx' (by omega), propagatorGrad_dexp hc hx (by omega),
    cut_generator h ha (by omega), hu, h.tau (k + 1) (by omega), if_neg (by omega),
    if_neg (by omega), hu, h.ctrl (k + 1) j (by omega) hj, hu]

theorem cut_finalGrad_at (hc : Closed c) (hc' : Closed c') (h : Cut s x c c')
    (ha : ∀ k j, k < c'.nTs → j < c.nCtrls → a' k j = a (uncut s k) j) (hx : ExactAt c a)
    (hx' : ExactAt c' a') {j : Nat} (hj : j < c.nCtrls) :
    finalGrad c'.sys a' s j + finalGrad c'.sys a' (s + 1) j = finalGrad c.sys a s j := by
  have h1 := h.slot
  have h2 := h.nTs
  have u1 : uncut s s = s := by simp [uncut]
  have u2 : uncut s (s + 1) = s := by simp [uncut]
  have e1 : evolution c'.sys a' (s + 1) (c.nTs + 1) =
      evolution c.sys a (s + 1) c.nTs * propagator c'.sys a' (s + 1) := by
    have := cut_after hc hc' h ha (lo := s + 1) (hi := c.nTs) (by omega) (by omega) (Nat.le_refl _)
    unfold evolution at *
    rw [timeOrdered_pred _ (by omega), this]
  have e2 : evolution c'.sys a' 0 (s + 1) =
      propagator c'.sys a' s * evolution c.sys a 0 s := by
    have := cut_before hc hc' h ha (lo := 0) (hi := s) (Nat.le_refl _)
    unfold evolution at *
    rw [timeOrdered_succ _ (Nat.zero_le _), this]
  have e3 := cut_before hc hc' h ha (lo := 0) (hi := s) (Nat.le_refl _)
  have e4 := cut_after hc hc' h ha (lo := s + 1) (hi := c.nTs) (by omega) (by omega) (Nat.le_refl _)
  have hg : propagatorGrad c.sys a s j =
      propagatorGrad c'.sys a' (s + 1) j * propagator c'.sys a' s +
        propagator c'.sys a' (s + 1) * propagatorGrad c'.sys a' s j := by
    rw [propagatorGrad_dexp hc' hx' (by omega : s + 1 < c'.nTs),
      propagatorGrad_dexp hc' hx' (by omega : s < c'.nTs), propagatorGrad_dexp hc hx h1,
      propagator_exp hc' _ (by omega : s + 1 < c'.nTs), propagator_exp hc' _ (by omega : s < c'.nTs),
      cut_generator h ha (by omega), cut_generator h ha (by omega), u1, u2, h.tau s (by omega),
      h.tau (s + 1) (by omega), if_pos rfl, if_neg (by omega), if_pos rfl, h.ctrl s j (by omega) hj,
      h.ctrl (s + 1) j (by omega) hj, u1, u2, ← dexp_split]
    congr 2 <;> (push_cast; ring)
  unfold finalGrad
  rw [sys_nTs, sys_nTs, h.nTs, e1, e2, e3, e4, hg, sys_initial, sys_initial, h.initial]
  simp only [Matrix.mul_add, Matrix.add_mul, Matrix.mul_assoc]
  rw [add_comm]

end Cut

end QTrl.Dyn
