import Verif.Spec.Unitary
import Verif.Proofs.Gradient
import Verif.Proofs.Machine
import Verif.Props.Spectral
import Mathlib.Analysis.Calculus.Deriv.Shift
import Mathlib.Analysis.Calculus.LocalExtr.Basic

/-
Unitary dynamics: propagators are unitary exponentials, gradients are exact, and the
overlap obeys the Cauchy-Schwarz inequality with its equality case.
-/

set_option linter.unusedSectionVars false

open Matrix

namespace QTrl.Dyn

open QTrl.Spec QTrl.MatExp

variable {d m : Type} [Fintype d] [DecidableEq d] [Fintype m] [DecidableEq m]

section Fields
variable (c : UnitaryCfg d m)

/-- `initSys` only fills the cache. -/
theorem initSys_eq {D : Type} (S : Sys d m D) : ∃ pc, initSys S = { S with phasedCtrl := pc } := by
  unfold initSys
  split
  · exact ⟨S.phasedCtrl, rfl⟩
  · split
    · exact ⟨_, rfl⟩
    · exact ⟨S.phasedCtrl, rfl⟩

theorem sys_fields : c.sys.nTs = c.nTs ∧ c.sys.nCtrls = c.nCtrls ∧ c.sys.drift = c.drift ∧
    c.sys.ctrl = c.ctrl ∧ c.sys.tau = c.tau ∧ c.sys.phase = some (fun A => -Complex.I • A) ∧
    c.sys.initial = c.initial ∧ c.sys.target = c.target ∧ c.sys.ontoTarget = c.targetᴴ ∧
    c.sys.isQobj = c.isQobj ∧ c.sys.propKind = c.propKind ∧ c.sys.fidKind = c.fidKind ∧
    c.sys.phaseOpt = c.phaseOpt ∧ c.sys.dimNorm = initNormalization c.phaseOpt c.target ∧
    c.sys.scale = defaultScale c.scaleFactor (Fintype.card d) ∧
    c.sys.expm = NormedSpace.exp ∧ c.sys.frechet = augMatGrad ∧
    c.sys.decompose = spectralDecomp c.eigh c.prec ∧ c.sys.diagProp = diagProp ∧
    c.sys.diagGrad = diagGrad ∧ c.sys.cachePropGrad = c.cachePropGrad := by
  unfold UnitaryCfg.sys
  obtain ⟨pc, h⟩ := initSys_eq
    { nTs := c.nTs, nCtrls := c.nCtrls, drift := c.drift, ctrl := c.ctrl, tau := c.tau
      phase := some fun A => -Complex.I • A, initial := c.initial, target := c.target
      ontoTarget := c.targetᴴ, isQobj := c.isQobj, cachePhased := c.cachePhased
      phasedCtrl := fun _ _ => 0, cachePropGrad := c.cachePropGrad, propKind := c.propKind
      fidKind := c.fidKind, phaseOpt := c.phaseOpt
      dimNorm := initNormalization c.phaseOpt c.target
      scale := defaultScale c.scaleFactor (Fintype.card d), expm := NormedSpace.exp
      frechet := augMatGrad, decompose := spectralDecomp c.eigh c.prec, diagProp := diagProp
      diagGrad := diagGrad : Sys d m (Decomp d) }
  rw [h]
  exact ⟨rfl, rfl, rfl, rfl, rfl, rfl, rfl, rfl, rfl, rfl, rfl, rfl, rfl, rfl, rfl, rfl, rfl, rfl,
    rfl, rfl, rfl⟩

@[simp] theorem sys_nTs : c.sys.nTs = c.nTs := (sys_fields c).1
@[simp] theorem sys_nCtrls : c.sys.nCtrls = c.nCtrls := (sys_fields c).2.1
@[simp] theorem sys_drift : c.sys.drift = c.drift := (sys_fields c).2.2.1
@[simp] theorem sys_ctrl : c.sys.ctrl = c.ctrl := (sys_fields c).2.2.2.1
@[simp] theorem sys_tau : c.sys.tau = c.tau := (sys_fields c).2.2.2.2.1
@[simp] theorem sys_phase : c.sys.phase = some (fun A => -Complex.I • A) :=
  (sys_fields c).2.2.2.2.2.1
@[simp] theorem sys_initial : c.sys.initial = c.initial := (sys_fields c).2.2.2.2.2.2.1
@[simp] theorem sys_target : c.sys.target = c.target := (sys_fields c).2.2.2.2.2.2.2.1
@[simp] theorem sys_onto : c.sys.ontoTarget = c.targetᴴ := (sys_fields c).2.2.2.2.2.2.2.2.1
@[simp] theorem sys_isQobj : c.sys.isQobj = c.isQobj := (sys_fields c).2.2.2.2.2.2.2.2.2.1
@[simp] theorem sys_propKind : c.sys.propKind = c.propKind :=
  (sys_fields c).2.2.2.2.2.2.2.2.2.2.1
@[simp] theorem sys_fidKind : c.sys.fidKind = c.fidKind :=
  (sys_fields c).2.2.2.2.2.2.2.2.2.2.2.1
@[simp] theorem sys_phaseOpt : c.sys.phaseOpt = c.phaseOpt :=
  (sys_fields c).2.2.2.2.2.2.2.2.2.2.2.2.1
@[simp] theorem sys_dimNorm : c.sys.dimNorm = initNormalization c.phaseOpt c.target :=
  (sys_fields c).2.2.2.2.2.2.2.2.2.2.2.2.2.1
@[simp] theorem sys_scale : c.sys.scale = defaultScale c.scaleFactor (Fintype.card d) :=
  (sys_fields c).2.2.2.2.2.2.2.2.2.2.2.2.2.2.1
@[simp] theorem sys_expm : c.sys.expm = NormedSpace.exp :=
  (sys_fields c).2.2.2.2.2.2.2.2.2.2.2.2.2.2.2.1
@[simp] theorem sys_frechet : c.sys.frechet = augMatGrad :=
  (sys_fields c).2.2.2.2.2.2.2.2.2.2.2.2.2.2.2.2.1
@[simp] theorem sys_decompose : c.sys.decompose = spectralDecomp c.eigh c.prec :=
  (sys_fields c).2.2.2.2.2.2.2.2.2.2.2.2.2.2.2.2.2.1
@[simp] theorem sys_diagProp : c.sys.diagProp = diagProp :=
  (sys_fields c).2.2.2.2.2.2.2.2.2.2.2.2.2.2.2.2.2.2.1
@[simp] theorem sys_diagGrad : c.sys.diagGrad = diagGrad :=
  (sys_fields c).2.2.2.2.2.2.2.2.2.2.2.2.2.2.2.2.2.2.2.1
@[simp] theorem sys_cachePropGrad : c.sys.cachePropGrad = c.cachePropGrad :=
  (sys_fields c).2.2.2.2.2.2.2.2.2.2.2.2.2.2.2.2.2.2.2.2

end Fields

theorem _root_.QTrl.Spec.Closed.valid {c : UnitaryCfg d m} (h : Closed c) : Valid c.sys :=
  initSys_valid h.slots h.ctrls

theorem generator_hermitian {c : UnitaryCfg d m} (h : Closed c) (amps : Amps) {k : Nat}
    (hk : k < c.nTs) : (generator c.sys amps k).IsHermitian := by
  unfold generator
  simp only [sys_drift, sys_nCtrls, sys_ctrl]
  refine (h.drift k hk).add ?_
  unfold Matrix.IsHermitian
  rw [Matrix.conjTranspose_sum]
  refine Finset.sum_congr rfl fun j hj => ?_
  rw [Matrix.conjTranspose_smul, (h.ctrl k j hk (Finset.mem_range.1 hj)).eq]
  simp

theorem propagator_exp {c : UnitaryCfg d m} (h : Closed c) (amps : Amps) {k : Nat}
    (hk : k < c.nTs) : propagator c.sys amps k =
      NormedSpace.exp ((c.tau k : ℂ) • (-Complex.I • generator c.sys amps k)) := by
  unfold propagator
  split
  · simp only [sys_diagProp, sys_decompose, sys_tau]
    exact C15_diag_is_exp c.eigh _ (h.eigh _ (generator_hermitian h amps hk)) _ _
  · simp only [sys_expm, sys_tau, phased, sys_phase]

theorem generator_setAmp {D : Type} (S : Sys d m D) (amps : Amps) {k j : Nat} (hj : j < S.nCtrls)
    (u : ℝ) : generator S (setAmp amps k j u) k =
      generator S amps k + ((u - amps k j : ℝ) : ℂ) • S.ctrl k j := by
  unfold generator
  rw [add_assoc]
  congr 1
  have e : ∀ j', (setAmp amps k j u k j' : ℂ) • S.ctrl k j' =
      (amps k j' : ℂ) • S.ctrl k j' + if j' = j then ((u - amps k j : ℝ) : ℂ) • S.ctrl k j else 0 := by
    intro j'
    unfold setAmp
    by_cases h : j' = j
    · subst h
      simp only [true_and, if_true, ← add_smul]
      congr 1
      push_cast
      ring
    · simp [h]
  simp only [e, Finset.sum_add_distrib, Finset.sum_ite_eq', Finset.mem_range, hj, if_true]

theorem _root_.QTrl.Spec.Closed.exactPropGrad {c : UnitaryCfg d m} (h : Closed c) {amps : Amps}
    (he : ExactAt c amps) : ExactPropGrad c.sys amps := by
  intro k j hk hj
  have hk' : k < c.nTs := by simpa using hk
  have hj' : j < c.nCtrls := by simpa using hj
  have hcurve : (fun u => propagator c.sys (setAmp amps k j u) k) =
      fun u => propCurve (generator c.sys amps k) (c.ctrl k j) (c.tau k) (u - amps k j) := by
    ext u : 1
    rw [propagator_exp h _ hk', generator_setAmp c.sys amps hj]
    simp only [sys_ctrl]
    rfl
  have hshift : ∀ X, MatDeriv (propCurve (generator c.sys amps k) (c.ctrl k j) (c.tau k)) X 0 →
      MatDeriv (fun u => propagator c.sys (setAmp amps k j u) k) X (amps k j) := by
    intro X hX
    rw [hcurve]
    intro a b
    have := hX a b
    rw [show (0 : ℝ) = amps k j - amps k j by ring] at this
    exact HasDerivAt.comp_sub_const (amps k j) (amps k j) this
  apply hshift
  rcases he with hf | ⟨hd, hp, hs⟩
  · have : propagatorGrad c.sys amps k j = dexp ((c.tau k : ℂ) • (-Complex.I • generator c.sys amps k))
        ((c.tau k : ℂ) • (-Complex.I • c.ctrl k j)) := by
      unfold propagatorGrad
      rw [if_neg (by simp [hf])]
      simp only [sys_frechet, sys_tau, phased, sys_phase, sys_ctrl]
      rfl
    rw [this]
    exact propCurve_deriv _ _ _
  · have : propagatorGrad c.sys amps k j = diagGrad (spectralDecomp c.eigh c.prec
        (generator c.sys amps k) (c.tau k)) (-Complex.I • c.ctrl k j) (c.tau k) := by
      unfold propagatorGrad
      rw [if_pos (by simp [hd])]
      simp only [sys_diagGrad, sys_decompose, sys_tau, phased, sys_phase, sys_ctrl]
    rw [this]
    exact C16_diag_grad c.eigh _ _ (h.eigh _ (generator_hermitian h amps hk')) _ _ hp (hs k hk')

theorem propagator_unitary {c : UnitaryCfg d m} (h : Closed c) (amps : Amps) {k : Nat}
    (hk : k < c.nTs) : propagator c.sys amps k ∈ Matrix.unitaryGroup d ℂ := by
  rw [propagator_exp h amps hk]
  exact C15_unitary _ (generator_hermitian h amps hk) _

theorem timeOrdered_unitary {p : Nat → Matrix d d ℂ} {lo hi : Nat} (hle : lo ≤ hi)
    (h : ∀ k, lo ≤ k → k < hi → p k ∈ Matrix.unitaryGroup d ℂ) :
    timeOrdered p lo hi ∈ Matrix.unitaryGroup d ℂ := by
  induction hi with
  | zero =>
    have : lo = 0 := by omega
    subst this
    rw [timeOrdered_self]
    exact one_mem _
  | succ hi ih =>
    rcases Nat.lt_or_ge hi lo with hlt | hge
    · have : lo = hi + 1 := by omega
      subst this
      rw [timeOrdered_self]
      exact one_mem _
    · rw [timeOrdered_succ p hge]
      exact mul_mem (h hi hge (Nat.lt_succ_self _)) (ih hge fun k h1 h2 => h k h1 (by omega))

theorem evolution_unitary {c : UnitaryCfg d m} (h : Closed c) (amps : Amps) {lo hi : Nat}
    (hle : lo ≤ hi) (hn : hi ≤ c.nTs) : evolution c.sys amps lo hi ∈ Matrix.unitaryGroup d ℂ :=
  timeOrdered_unitary hle fun _ _ hk => propagator_unitary h amps (by omega)

theorem isometry_of_unitary {U : Matrix d d ℂ} (hU : U ∈ Matrix.unitaryGroup d ℂ)
    (A : Matrix d m ℂ) : (U * A)ᴴ * (U * A) = Aᴴ * A := by
  have : Uᴴ * U = 1 := (Matrix.mem_unitaryGroup_iff').1 hU
  calc (U * A)ᴴ * (U * A) = Aᴴ * (Uᴴ * U) * A := by
        rw [Matrix.conjTranspose_mul]; simp only [Matrix.mul_assoc]
    _ = Aᴴ * A := by rw [this, Matrix.mul_one]

theorem final_isometry {c : UnitaryCfg d m} (h : Closed c) (amps : Amps)
    (hi : c.initialᴴ * c.initial = 1) : (final c.sys amps)ᴴ * final c.sys amps = 1 := by
  unfold final
  rw [isometry_of_unitary (evolution_unitary h amps (Nat.zero_le _) (by simp))]
  simpa using hi

/-- Distance of two isometries. -/
theorem frobSq_sub {F T : Matrix d m ℂ} (hF : Fᴴ * F = 1) (hT : Tᴴ * T = 1) (z : ℂ)
    (hz : ‖z‖ = 1) :
    frobSq (F - z • T) = 2 * (Fintype.card m : ℝ) - 2 * ((starRingEnd ℂ) z * (Tᴴ * F).trace).re := by
  have hzz : (starRingEnd ℂ) z * z = 1 := by
    rw [mul_comm, Complex.mul_conj, Complex.normSq_eq_norm_sq, hz]; simp
  rw [← frobSq_re]
  have e : (F - z • T)ᴴ * (F - z • T) =
      Fᴴ * F - z • (Fᴴ * T) - ((starRingEnd ℂ) z) • (Tᴴ * F) + (Tᴴ * T) := by
    rw [Matrix.conjTranspose_sub, Matrix.conjTranspose_smul, Matrix.sub_mul, Matrix.mul_sub,
      Matrix.mul_sub]
    simp only [Matrix.smul_mul, Matrix.mul_smul, smul_smul]
    have : star z = (starRingEnd ℂ) z := rfl
    rw [this, mul_comm z, hzz, one_smul]
    abel
  have ht : (Fᴴ * T).trace = (starRingEnd ℂ) (Tᴴ * F).trace := by
    have : (Fᴴ * T) = (Tᴴ * F)ᴴ := by rw [Matrix.conjTranspose_mul, Matrix.conjTranspose_conjTranspose]
    rw [this, Matrix.trace_conjTranspose]
    rfl
  rw [e, hF, hT, Matrix.trace_add, Matrix.trace_sub, Matrix.trace_sub, Matrix.trace_smul,
    Matrix.trace_smul, Matrix.trace_one, ht]
  simp only [smul_eq_mul, Complex.add_re, Complex.sub_re, Complex.natCast_re, Complex.mul_re,
    Complex.conj_re, Complex.conj_im]
  ring

/-- A unit phase that makes the overlap real and non-negative. -/
theorem exists_phase (o : ℂ) : ∃ z : ℂ, ‖z‖ = 1 ∧ ((starRingEnd ℂ) z * o).re = ‖o‖ := by
  by_cases h : o = 0
  · exact ⟨1, by simp, by simp [h]⟩
  · have hn : ‖o‖ ≠ 0 := norm_ne_zero_iff.2 h
    refine ⟨o / (‖o‖ : ℂ), ?_, ?_⟩
    · rw [norm_div, Complex.norm_real, norm_norm, div_self hn]
    · rw [map_div₀, Complex.conj_ofReal, div_mul_eq_mul_div, mul_comm, Complex.mul_conj,
        Complex.normSq_eq_norm_sq, ← Complex.ofReal_div, Complex.ofReal_re]
      field_simp

theorem norm_overlap_le {F T : Matrix d m ℂ} (hF : Fᴴ * F = 1) (hT : Tᴴ * T = 1) :
    ‖(Tᴴ * F).trace‖ ≤ (Fintype.card m : ℝ) := by
  obtain ⟨z, hz, ho⟩ := exists_phase (Tᴴ * F).trace
  have h := frobSq_sub hF hT z hz
  rw [ho] at h
  have := frobSq_nonneg (F - z • T)
  linarith

theorem norm_overlap_eq_iff {F T : Matrix d m ℂ} (hF : Fᴴ * F = 1) (hT : Tᴴ * T = 1) :
    ‖(Tᴴ * F).trace‖ = (Fintype.card m : ℝ) ↔ ∃ z : ℂ, ‖z‖ = 1 ∧ F = z • T := by
  constructor
  · intro he
    obtain ⟨z, hz, ho⟩ := exists_phase (Tᴴ * F).trace
    have h := frobSq_sub hF hT z hz
    rw [ho, he, sub_self, frobSq_eq_zero] at h
    exact ⟨z, hz, sub_eq_zero.1 h⟩
  · rintro ⟨z, hz, rfl⟩
    rw [Matrix.mul_smul, Matrix.trace_smul, hT, Matrix.trace_one, smul_eq_mul, norm_mul, hz,
      one_mul, Complex.norm_natCast]

theorem re_overlap_eq_iff {F T : Matrix d m ℂ} (hF : Fᴴ * F = 1) (hT : Tᴴ * T = 1) :
    (Tᴴ * F).trace.re = (Fintype.card m : ℝ) ↔ F = T := by
  have h := frobSq_sub hF hT 1 (by simp)
  simp only [one_smul, map_one, one_mul] at h
  constructor
  · intro he
    rw [he, sub_self, frobSq_eq_zero] at h
    exact sub_eq_zero.1 h
  · rintro rfl
    rw [hT, Matrix.trace_one, Complex.natCast_re]

theorem dimNorm_eq {c : UnitaryCfg d m} (h : c.targetᴴ * c.target = 1) :
    c.sys.dimNorm = (Fintype.card m : ℝ) := by
  rw [sys_dimNorm]
  unfold initNormalization
  cases c.phaseOpt <;> simp [h, Matrix.trace_one]

end QTrl.Dyn
