import Verif.Props.Gradient
import Mathlib.Analysis.Real.Pi.Bounds

/-
C09, C10, C11 and C18, and C12, C13 for unitary dynamics.

The configurations are those of `DynamicsUnitary`: Hermitian drift and controls, any
number of slots, any durations (also different ones), any propagator computer.
-/

set_option linter.unusedSectionVars false

open Matrix

namespace QTrl.Dyn

open QTrl.Spec QTrl.MatExp

variable {d m : Type} [Fintype d] [DecidableEq d] [Fintype m] [DecidableEq m]

/-- The final evolved object after a history, as stored by the evolution. -/
noncomputable def finalObj {D : Type} (S : Sys d m D) (junk s0 : State d m D) (a0 : Amps)
    (ops : List Op) : Matrix d m ℂ :=
  (computeEvolution S (reached S junk s0 a0 ops)).1.fwd S.nTs

theorem finalObj_eq {D : Type} {S : Sys d m D} (hn : Valid S) (junk s0 : State d m D) (a0 : Amps)
    (ops : List Op) : finalObj S junk s0 a0 ops = final S (lastAmps a0 ops) := by
  obtain ⟨_, h2, h3, _⟩ := C03_time_ordered hn junk s0 a0 ops
  unfold finalObj final evolution
  rw [h3 _ (Nat.le_refl _), timeOrdered_congr fun k _ hk => h2 k hk]

/-! ### C18 -/

/-- **C18.** After any history every propagator is unitary, the forward evolution has
orthonormal columns in every slot (gates stay unitary, states stay normalised), the onto
evolution has orthonormal rows and the onward evolution is unitary. -/
theorem C18_unitary {c : UnitaryCfg d m} (hc : Closed c) (hi : Normalised c)
    (junk s0 : State d m (Decomp d)) (a0 : Amps) (ops : List Op) :
    let t := (computeEvolution c.sys (reached c.sys junk s0 a0 ops)).1
    (∀ k, k < c.nTs → t.prop k ∈ Matrix.unitaryGroup d ℂ) ∧
    (∀ k, k ≤ c.nTs → (t.fwd k)ᴴ * t.fwd k = 1) ∧
    (c.fidKind = .unitary → ∀ k, k ≤ c.nTs → t.onto k * (t.onto k)ᴴ = 1) ∧
    (c.fidKind = .traceDiff → ∀ k, k < c.nTs → t.onwd k ∈ Matrix.unitaryGroup d ℂ) := by
  intro t
  obtain ⟨_, h2, h3, h4, h5⟩ := C03_time_ordered hc.valid junk s0 a0 ops
  simp only [sys_nTs, sys_fidKind, sys_initial, sys_onto] at h2 h3 h4 h5
  have hp : ∀ k, k < c.nTs → t.prop k ∈ Matrix.unitaryGroup d ℂ := fun k hk => by
    rw [h2 k hk]; exact propagator_unitary hc _ hk
  have ho : ∀ lo hi, lo ≤ hi → hi ≤ c.nTs → timeOrdered t.prop lo hi ∈ Matrix.unitaryGroup d ℂ :=
    fun lo hi h1 h2 => timeOrdered_unitary h1 fun k _ hk => hp k (by omega)
  refine ⟨hp, fun k hk => ?_, fun hf k hk => ?_, fun hf k hk => ?_⟩
  · rw [h3 k hk, isometry_of_unitary (ho 0 k (Nat.zero_le _) hk), hi.initial]
  · rw [h5 hf k hk]
    have hU := (Matrix.mem_unitaryGroup_iff).1 (ho k c.nTs hk (Nat.le_refl _))
    rw [star_eq_conjTranspose] at hU
    calc c.targetᴴ * timeOrdered t.prop k c.nTs * (c.targetᴴ * timeOrdered t.prop k c.nTs)ᴴ
        = c.targetᴴ * (timeOrdered t.prop k c.nTs * (timeOrdered t.prop k c.nTs)ᴴ) * c.target := by
          rw [Matrix.conjTranspose_mul, Matrix.conjTranspose_conjTranspose]
          simp only [Matrix.mul_assoc]
      _ = 1 := by rw [hU, Matrix.mul_one, hi.target]
  · rw [h4 hf k hk]
    exact ho k c.nTs hk.le (Nat.le_refl _)

/-! ### C09 -/

theorem card_pos' [Nonempty m] : (0 : ℝ) < Fintype.card m := by
  exact_mod_cast Fintype.card_pos

theorem overlap_sys (c : UnitaryCfg d m) (amps : Amps) :
    overlap c.sys amps = (c.targetᴴ * final c.sys amps).trace := by
  unfold overlap
  rw [sys_onto]

theorem fidNum_le_one {c : UnitaryCfg d m} [Nonempty m] (hc : Closed c) (hi : Normalised c)
    (amps : Amps) : |fidNum c.sys amps| ≤ 1 := by
  have hF := final_isometry hc amps hi.initial
  have hN := norm_overlap_le hF hi.target
  have hpos := card_pos' (m := m)
  unfold fidNum
  rw [dimNorm_eq hi.target, overlap_sys]
  cases hp : c.sys.phaseOpt with
  | PSU =>
    simp only
    rw [abs_div, abs_of_nonneg (norm_nonneg _), abs_of_pos hpos, div_le_one hpos]
    exact hN
  | SU =>
    simp only
    rw [abs_div, abs_of_pos hpos, div_le_one hpos]
    exact (Complex.abs_re_le_norm _).trans hN

/-- **C09.** After any history the reported fidelity is in `[-1, 1]`, for PSU in
`[0, 1]`; the reported error is non-negative, equals `1 - fidelity`, and is zero exactly
if the evolution reached the target, for PSU up to a phase factor. -/
theorem C09_range {c : UnitaryCfg d m} [Nonempty m] (hc : Closed c) (hi : Normalised c)
    (hu : c.fidKind = .unitary) (hq : c.phaseOpt = .SU → c.isQobj = true)
    (junk s0 : State d m (Decomp d)) (a0 : Amps) (ops : List Op) :
    ∃ f e, query c.sys junk s0 a0 ops .getFidelity = .real f ∧
      query c.sys junk s0 a0 ops .getFidErr = .real e ∧
      -1 ≤ f ∧ f ≤ 1 ∧ (c.phaseOpt = .PSU → 0 ≤ f) ∧ 0 ≤ e ∧ e = 1 - f ∧
      (c.phaseOpt = .PSU → (e = 0 ↔
        ∃ z : ℂ, ‖z‖ = 1 ∧ finalObj c.sys junk s0 a0 ops = z • c.target)) ∧
      (c.phaseOpt = .SU → (e = 0 ↔ finalObj c.sys junk s0 a0 ops = c.target)) := by
  have hq' : c.sys.phaseOpt = .SU → c.sys.isQobj = true := by simpa using hq
  have hu' : c.sys.fidKind = .unitary := by simpa using hu
  set amps := lastAmps a0 ops with hamps
  have hle := abs_le.1 (fidNum_le_one hc hi amps)
  have hpos := card_pos' (m := m)
  have hF := final_isometry hc amps hi.initial
  have habs : |1 - fidNum c.sys amps| = 1 - fidNum c.sys amps := abs_of_nonneg (by linarith)
  refine ⟨fidNum c.sys amps, 1 - fidNum c.sys amps, ?_, ?_, hle.1, hle.2, ?_, by linarith, rfl,
    ?_, ?_⟩
  · rw [query_eq hc.valid]
    simp only [answer, hu', fidelity_eq_fidNum hq', Out.ofReal, ← hamps]
  · rw [query_eq hc.valid]
    simp only [answer, fidErr, hu', fidelity_eq_fidNum hq', Out.ofReal, Except.map, ← hamps, habs]
  · intro hp
    unfold fidNum
    rw [sys_phaseOpt, hp, dimNorm_eq hi.target]
    positivity
  · intro hp
    rw [finalObj_eq hc.valid, ← hamps, ← norm_overlap_eq_iff hF hi.target, ← overlap_sys,
      sub_eq_zero]
    unfold fidNum
    rw [sys_phaseOpt, hp, dimNorm_eq hi.target]
    simp only
    rw [eq_comm, div_eq_one_iff_eq hpos.ne']
  · intro hp
    rw [finalObj_eq hc.valid, ← hamps, ← re_overlap_eq_iff hF hi.target, ← overlap_sys,
      sub_eq_zero]
    unfold fidNum
    rw [sys_phaseOpt, hp, dimNorm_eq hi.target]
    simp only
    rw [eq_comm, div_eq_one_iff_eq hpos.ne']

/-! ### C12 and C13 for unitary dynamics -/

/-- **C12.** Unitary dynamics: wherever the overlap is not zero (PSU; no condition for
SU), also at fidelity one, the reported gradient is the gradient of the reported error. -/
theorem C12_unitary {c : UnitaryCfg d m} [Nonempty m] (hc : Closed c) (hi : Normalised c)
    (hu : c.fidKind = .unitary) (hq : c.phaseOpt = .SU → c.isQobj = true)
    (junk s0 : State d m (Decomp d)) (a0 : Amps) (ops : List Op)
    (hx : ExactAt c (lastAmps a0 ops))
    (h0 : c.phaseOpt = .PSU → query c.sys junk s0 a0 ops .getFidelity ≠ .real 0) :
    ∃ err g, ReportsErr c.sys junk s0 a0 ops err ∧
      query c.sys junk s0 a0 ops .getGradient = .array g ∧
      IsGradient c.sys err (lastAmps a0 ops) g := by
  have hq' : c.sys.phaseOpt = .SU → c.sys.isQobj = true := by simpa using hq
  have hu' : c.sys.fidKind = .unitary := by simpa using hu
  refine C12_gradient_is_derivative hc.valid hu' ?_ hq' junk s0 a0 ops (hc.exactPropGrad hx) ?_ ?_
  · rw [sys_propKind]
    rcases hx with h | ⟨h, _⟩ <;> simp [h]
  · intro hp ho
    rw [sys_phaseOpt] at hp
    refine h0 hp ?_
    rw [query_eq hc.valid]
    have : fidNum c.sys (lastAmps a0 ops) = 0 := by
      unfold fidNum
      rw [sys_phaseOpt, hp, ho]
      simp
    simp only [answer, hu', fidelity_eq_fidNum hq', Out.ofReal, this]
  · right
    intro a f hf
    obtain ⟨f', _, hf', _, _, hle, _⟩ := C09_range hc hi hu hq junk s0 a0 (ops ++ [.updateAmps a])
    rw [hf'] at hf
    injection hf with hf
    linarith

/-- **C13.** Unitary dynamics with the trace difference measure: the reported gradient is
the gradient of the reported error everywhere. -/
theorem C13_unitary {c : UnitaryCfg d m} (hc : Closed c) (hu : c.fidKind = .traceDiff)
    (junk s0 : State d m (Decomp d)) (a0 : Amps) (ops : List Op)
    (hx : ExactAt c (lastAmps a0 ops)) :
    ∃ err g, ReportsErr c.sys junk s0 a0 ops err ∧
      query c.sys junk s0 a0 ops .getGradient = .array g ∧
      IsGradient c.sys err (lastAmps a0 ops) g := by
  refine C13_gradient_is_derivative hc.valid (by simpa using hu) ?_ junk s0 a0 ops
    (hc.exactPropGrad hx)
  rw [sys_propKind]
  rcases hx with h | ⟨h, _⟩ <;> simp [h]

/-! ### C11 -/

/-- **C11.** Any system: the reported trace difference error is the scale factor times
the squared Frobenius distance of target and final evolution. -/
theorem C11_distance {D : Type} {S : Sys d m D} (hn : Valid S) (hu : S.fidKind = .traceDiff)
    (junk s0 : State d m D) (a0 : Amps) (ops : List Op) :
    ∃ e, query S junk s0 a0 ops .getFidErr = .real e ∧
      e = S.scale * ∑ i, ∑ j, ‖S.target i j - finalObj S junk s0 a0 ops i j‖ ^ 2 ∧
      (0 ≤ S.scale → 0 ≤ e) ∧
      (0 < S.scale → (e = 0 ↔ finalObj S junk s0 a0 ops = S.target)) := by
  refine ⟨S.scale * frobSq (S.target - finalObj S junk s0 a0 ops), ?_, rfl,
    fun h => mul_nonneg h (frobSq_nonneg _), fun h => ?_⟩
  · rw [query_eq hn, finalObj_eq hn]
    simp only [answer, fidErr, hu, Out.ofReal, frobSq_re]
  · rw [mul_eq_zero, or_iff_right h.ne', frobSq_eq_zero, sub_eq_zero, eq_comm]

/-- **C11.** Unitary gates with the default scale factor: the reported error is
`1 - Re tr(target† · U) / N` and lies in `[0, 2]`. -/
theorem C11_default_scale {c : UnitaryCfg d d} [Nonempty d] (hc : Closed c) (hi : Normalised c)
    (hu : c.fidKind = .traceDiff) (hs : c.scaleFactor = none)
    (junk s0 : State d d (Decomp d)) (a0 : Amps) (ops : List Op) :
    ∃ e, query c.sys junk s0 a0 ops .getFidErr = .real e ∧
      e = 1 - (c.targetᴴ * finalObj c.sys junk s0 a0 ops).trace.re / Fintype.card d ∧
      0 ≤ e ∧ e ≤ 2 := by
  obtain ⟨e, h1, h2, h3, _⟩ := C11_distance hc.valid (by simpa using hu) junk s0 a0 ops
  have hpos := card_pos' (m := d)
  have hF : (finalObj c.sys junk s0 a0 ops)ᴴ * finalObj c.sys junk s0 a0 ops = 1 := by
    rw [finalObj_eq hc.valid]
    exact final_isometry hc _ hi.initial
  have hsc : c.sys.scale = 1 / (2 * (Fintype.card d : ℝ)) := by
    rw [sys_scale, hs]; rfl
  have hd := frobSq_sub hi.target hF 1 (by simp)
  simp only [one_smul, map_one, one_mul] at hd
  have hre : ((finalObj c.sys junk s0 a0 ops)ᴴ * c.target).trace.re =
      (c.targetᴴ * finalObj c.sys junk s0 a0 ops).trace.re := by
    rw [← Complex.conj_re (c.targetᴴ * finalObj c.sys junk s0 a0 ops).trace]
    congr 1
    have : (finalObj c.sys junk s0 a0 ops)ᴴ * c.target =
        (c.targetᴴ * finalObj c.sys junk s0 a0 ops)ᴴ := by
      rw [Matrix.conjTranspose_mul, Matrix.conjTranspose_conjTranspose]
    rw [this, Matrix.trace_conjTranspose]
    rfl
  rw [hre] at hd
  have he : e = 1 - (c.targetᴴ * finalObj c.sys junk s0 a0 ops).trace.re / Fintype.card d := by
    rw [h2, hsc, sys_target]
    change 1 / (2 * (Fintype.card d : ℝ)) * frobSq (c.target - finalObj c.sys junk s0 a0 ops) = _
    rw [hd]
    field_simp
  refine ⟨e, h1, he, h3 (by rw [hsc]; positivity), ?_⟩
  have hb := (abs_le.1 ((Complex.abs_re_le_norm _).trans (norm_overlap_le hF hi.target))).1
  have : -1 ≤ (c.targetᴴ * finalObj c.sys junk s0 a0 ops).trace.re / Fintype.card d := by
    rw [le_div_iff₀ hpos]
    linarith
  rw [he]
  linarith

/-! ### C10 -/

/-- The configuration with target and initial object multiplied by factors. -/
def UnitaryCfg.rephase (c : UnitaryCfg d m) (z w : ℂ) : UnitaryCfg d m :=
  { c with target := z • c.target, initial := w • c.initial }

theorem rephase_propagator (c : UnitaryCfg d m) (z w : ℂ) (amps : Amps) (k : Nat) :
    propagator (c.rephase z w).sys amps k = propagator c.sys amps k := by
  unfold propagator generator phased
  simp only [sys_propKind, sys_diagProp, sys_decompose, sys_drift, sys_ctrl, sys_nCtrls, sys_tau,
    sys_expm, sys_phase]
  rfl

theorem rephase_propagatorGrad (c : UnitaryCfg d m) (z w : ℂ) (amps : Amps) (k j : Nat) :
    propagatorGrad (c.rephase z w).sys amps k j = propagatorGrad c.sys amps k j := by
  unfold propagatorGrad generator phased
  simp only [sys_propKind, sys_diagGrad, sys_decompose, sys_drift, sys_ctrl, sys_nCtrls, sys_tau,
    sys_frechet, sys_phase]
  rfl

theorem rephase_evolution (c : UnitaryCfg d m) (z w : ℂ) (amps : Amps) (lo hi : Nat) :
    evolution (c.rephase z w).sys amps lo hi = evolution c.sys amps lo hi :=
  timeOrdered_congr fun k _ _ => rephase_propagator c z w amps k

theorem rephase_final (c : UnitaryCfg d m) (z w : ℂ) (amps : Amps) :
    final (c.rephase z w).sys amps = w • final c.sys amps := by
  unfold final
  rw [rephase_evolution, sys_nTs, sys_nTs, sys_initial, sys_initial]
  exact Matrix.mul_smul _ _ _

theorem rephase_overlap (c : UnitaryCfg d m) (z w : ℂ) (amps : Amps) :
    overlap (c.rephase z w).sys amps = (starRingEnd ℂ) z * w * overlap c.sys amps := by
  rw [overlap_sys, overlap_sys, rephase_final]
  change ((z • c.target)ᴴ * (w • final c.sys amps)).trace = _
  rw [Matrix.conjTranspose_smul, Matrix.smul_mul, Matrix.mul_smul, Matrix.trace_smul,
    Matrix.trace_smul, smul_eq_mul, smul_eq_mul, ← mul_assoc]
  rfl

theorem rephase_gradTrace (c : UnitaryCfg d m) (z w : ℂ) (amps : Amps) (k j : Nat) :
    ((c.rephase z w).sys.ontoTarget * finalGrad (c.rephase z w).sys amps k j).trace =
      (starRingEnd ℂ) z * w * (c.sys.ontoTarget * finalGrad c.sys amps k j).trace := by
  unfold finalGrad
  rw [rephase_evolution, rephase_evolution, rephase_propagatorGrad]
  simp only [sys_nTs, sys_initial, sys_onto]
  change ((z • c.target)ᴴ * (_ * (_ * (w • c.initial)))).trace = _
  rw [Matrix.conjTranspose_smul, Matrix.smul_mul, Matrix.mul_smul, Matrix.mul_smul, Matrix.mul_smul,
    Matrix.trace_smul, Matrix.trace_smul, smul_eq_mul, smul_eq_mul, ← mul_assoc]
  rfl

theorem rephase_dimNorm_PSU (c : UnitaryCfg d m) {z : ℂ} (hz : ‖z‖ = 1) (w : ℂ) :
    (c.rephase z w).sys.dimNorm = c.sys.dimNorm := by
  have hzz : star z * z = 1 := by
    have : star z = (starRingEnd ℂ) z := rfl
    rw [this, mul_comm, Complex.mul_conj, Complex.normSq_eq_norm_sq, hz]; simp
  have : (z • c.target)ᴴ * (z • c.target) = c.targetᴴ * c.target := by
    rw [Matrix.conjTranspose_smul, Matrix.smul_mul, Matrix.mul_smul, smul_smul, hzz, one_smul]
  rw [sys_dimNorm, sys_dimNorm]
  change initNormalization c.phaseOpt (z • c.target) = _
  unfold initNormalization
  rw [this]

theorem norm_conj_mul {z w : ℂ} (hz : ‖z‖ = 1) (hw : ‖w‖ = 1) : ‖(starRingEnd ℂ) z * w‖ = 1 := by
  rw [norm_mul, RCLike.norm_conj, hz, hw, one_mul]

/-- Multiplying by the phase `e^{-i arg o}` undoes a phase common to `g` and `o`. -/
theorem dephase {ζ g o : ℂ} (hζ : ‖ζ‖ = 1) (ho : o ≠ 0) :
    ζ * g * Complex.exp (-Complex.I * (Complex.arg (ζ * o) : ℂ)) =
      g * Complex.exp (-Complex.I * (Complex.arg o : ℂ)) := by
  have key : ∀ x : ℂ, x ≠ 0 → Complex.exp (-Complex.I * (Complex.arg x : ℂ)) = ‖x‖ / x := by
    intro x hx
    have h1 := Complex.norm_mul_exp_arg_mul_I x
    have h2 : Complex.exp (-Complex.I * (Complex.arg x : ℂ)) *
        Complex.exp ((Complex.arg x : ℂ) * Complex.I) = 1 := by
      rw [← Complex.exp_add]
      ring_nf
      exact Complex.exp_zero
    rw [eq_div_iff hx]
    calc Complex.exp (-Complex.I * (Complex.arg x : ℂ)) * x
        = Complex.exp (-Complex.I * (Complex.arg x : ℂ)) *
            (‖x‖ * Complex.exp ((Complex.arg x : ℂ) * Complex.I)) := by rw [h1]
      _ = _ := by rw [mul_left_comm, h2, mul_one]
  have hz : ζ ≠ 0 := by
    intro h
    rw [h, norm_zero] at hζ
    exact zero_ne_one hζ
  rw [key _ (mul_ne_zero hz ho), key _ ho, norm_mul, hζ, one_mul]
  field_simp

/-- **C10.** PSU: multiplying the target by a phase and the evolved object by another
changes neither fidelity nor error, nor the gradient where the overlap is not zero. -/
theorem C10_psu_invariant {c : UnitaryCfg d m} (h1 : 0 < c.nTs) (h2 : 0 < c.nCtrls)
    (hu : c.fidKind = .unitary) (hp : c.phaseOpt = .PSU) (z w : ℂ) (hz : ‖z‖ = 1) (hw : ‖w‖ = 1)
    (junk s0 junk' s0' : State d m (Decomp d)) (a0 : Amps) (ops : List Op) :
    query (c.rephase z w).sys junk' s0' a0 ops .getFidelity =
      query c.sys junk s0 a0 ops .getFidelity ∧
    query (c.rephase z w).sys junk' s0' a0 ops .getFidErr =
      query c.sys junk s0 a0 ops .getFidErr ∧
    (overlap c.sys (lastAmps a0 ops) ≠ 0 →
      query (c.rephase z w).sys junk' s0' a0 ops .getGradient =
        query c.sys junk s0 a0 ops .getGradient) := by
  have hv : Valid c.sys := initSys_valid h1 h2
  have hv' : Valid (c.rephase z w).sys := initSys_valid h1 h2
  have hf : ∀ amps, fidelity (c.rephase z w).sys amps = fidelity c.sys amps := by
    intro amps
    unfold fidelity
    rw [rephase_overlap, rephase_dimNorm_PSU c hz, norm_mul, norm_conj_mul hz hw, one_mul,
      sys_phaseOpt, sys_phaseOpt, hp]
    change (match c.phaseOpt, _ with
      | .PSU, _ => _
      | .SU, true => _
      | .SU, false => _) = _
    rw [hp]
  have hu1 : c.sys.fidKind = .unitary := by simpa using hu
  have hu2 : (c.rephase z w).sys.fidKind = .unitary := by rw [sys_fidKind]; exact hu
  refine ⟨?_, ?_, fun ho => ?_⟩
  · rw [query_eq hv, query_eq hv']
    simp only [answer, hu1, hu2, hf]
  · rw [query_eq hv, query_eq hv']
    simp only [answer, fidErr, hu1, hu2, hf]
  · rw [query_eq hv, query_eq hv']
    have e : ∀ f k j, gradEntry (c.rephase z w).sys (lastAmps a0 ops) f k j =
        gradEntry c.sys (lastAmps a0 ops) f k j := by
      intro f k j
      have hp1 : c.sys.phaseOpt = .PSU := by simpa using hp
      have hp2 : (c.rephase z w).sys.phaseOpt = .PSU := by rw [sys_phaseOpt]; exact hp
      unfold gradEntry
      simp only [hu1, hu2, hp1, hp2]
      rw [rephase_gradTrace, rephase_overlap, rephase_dimNorm_PSU c hz,
        dephase (norm_conj_mul hz hw) ho]
    have k1 : (c.rephase z w).sys.propKind = c.sys.propKind := by rw [sys_propKind, sys_propKind]; rfl
    have k2 : (c.rephase z w).sys.nTs = c.sys.nTs := by rw [sys_nTs, sys_nTs]; rfl
    have k3 : (c.rephase z w).sys.nCtrls = c.sys.nCtrls := by rw [sys_nCtrls, sys_nCtrls]; rfl
    have k4 : (c.rephase z w).sys.cachePropGrad = c.sys.cachePropGrad := by
      rw [sys_cachePropGrad, sys_cachePropGrad]; rfl
    simp only [answer, gradient, hu1, hu2, hf, e, k1, k2, k3, k4]

/-- **C10.** SU: the reported fidelity is the real part of the normalised overlap, and
it sees phases: an evolution that ends at `z · target` has fidelity `Re z`, hence error
zero only for `z = 1`. -/
theorem C10_su_sees_phase {c : UnitaryCfg d m} [Nonempty m] (hc : Closed c) (hi : Normalised c)
    (hu : c.fidKind = .unitary) (hp : c.phaseOpt = .SU) (hq : c.isQobj = true)
    (junk s0 : State d m (Decomp d)) (a0 : Amps) (ops : List Op) :
    query c.sys junk s0 a0 ops .getFidelity =
      .real ((c.targetᴴ * finalObj c.sys junk s0 a0 ops).trace.re / Fintype.card m) ∧
    ∀ z : ℂ, ‖z‖ = 1 → finalObj c.sys junk s0 a0 ops = z • c.target →
      query c.sys junk s0 a0 ops .getFidelity = .real z.re ∧
      (query c.sys junk s0 a0 ops .getFidErr = .real 0 ↔ z = 1) := by
  have hq' : c.sys.phaseOpt = .SU → c.sys.isQobj = true := by simpa using fun _ => hq
  have hu' : c.sys.fidKind = .unitary := by simpa using hu
  have hpos := card_pos' (m := m)
  have hfid : query c.sys junk s0 a0 ops .getFidelity =
      .real ((c.targetᴴ * finalObj c.sys junk s0 a0 ops).trace.re / Fintype.card m) := by
    rw [query_eq hc.valid, finalObj_eq hc.valid]
    simp only [answer, hu', fidelity_eq_fidNum hq', Out.ofReal]
    unfold fidNum
    rw [sys_phaseOpt, hp, dimNorm_eq hi.target, overlap_sys]
  refine ⟨hfid, fun z hz hfin => ?_⟩
  have h1 : query c.sys junk s0 a0 ops .getFidelity = .real z.re := by
    rw [hfid, hfin, Matrix.mul_smul, hi.target, Matrix.trace_smul, Matrix.trace_one, smul_eq_mul]
    congr 1
    simp only [Complex.mul_re, Complex.natCast_re, Complex.natCast_im, mul_zero, sub_zero]
    field_simp
  refine ⟨h1, ?_⟩
  obtain ⟨f, e, h2, h3, _, _, _, _, he, _, h4⟩ := C09_range hc hi hu (fun _ => hq) junk s0 a0 ops
  rw [h1] at h2
  injection h2 with h2
  rw [h3]
  constructor
  · intro h
    injection h with h
    have hre : z.re = 1 := by linarith
    have him : z.im = 0 := by
      have := Complex.sq_norm_sub_sq_re z
      rw [hz, hre] at this
      nlinarith
    exact Complex.ext (by simpa using hre) (by simpa using him)
  · rintro rfl
    rw [he, ← h2]
    simp

/-- The configuration with an energy offset added to the drift of every slot: this
multiplies the evolution by a phase. -/
def UnitaryCfg.offset (c : UnitaryCfg d m) (e : Nat → ℝ) : UnitaryCfg d m :=
  { c with drift := fun k => c.drift k + (e k : ℂ) • 1 }

theorem offset_closed {c : UnitaryCfg d m} (hc : Closed c) (e : Nat → ℝ) : Closed (c.offset e) :=
  ⟨hc.slots, hc.ctrls, fun k hk => (hc.drift k hk).add (by
    unfold Matrix.IsHermitian
    rw [Matrix.conjTranspose_smul, Matrix.conjTranspose_one]
    simp), hc.ctrl, hc.eigh⟩

theorem offset_propagator {c : UnitaryCfg d m} (hc : Closed c) (e : Nat → ℝ) (amps : Amps) {k : Nat}
    (hk : k < c.nTs) : propagator (c.offset e).sys amps k =
      Complex.exp (-Complex.I * (e k * c.tau k : ℝ)) • propagator c.sys amps k := by
  rw [propagator_exp hc amps hk, propagator_exp (offset_closed hc e) amps hk]
  have hg : generator (c.offset e).sys amps k = generator c.sys amps k + (e k : ℂ) • 1 := by
    unfold generator
    simp only [sys_drift, sys_nCtrls, sys_ctrl]
    change (c.drift k + (e k : ℂ) • 1) + _ = _
    rw [add_right_comm]
    rfl
  rw [hg]
  have hs : ((c.tau k : ℝ) : ℂ) • (-Complex.I • (generator c.sys amps k + (e k : ℂ) • 1)) =
      diagonal (fun _ => -Complex.I * (e k * c.tau k : ℝ)) +
        (c.tau k : ℂ) • (-Complex.I • generator c.sys amps k) := by
    rw [smul_add, smul_add, add_comm]
    congr 1
    rw [smul_smul, smul_smul, ← Matrix.diagonal_one, ← Matrix.diagonal_smul]
    congr 1
    ext i
    simp
    ring
  change NormedSpace.exp (((c.tau k : ℝ) : ℂ) • _) = _
  rw [hs, Matrix.exp_add_of_commute, exp_diagonal', ← Matrix.smul_one_eq_diagonal,
    Matrix.smul_mul, Matrix.one_mul]
  rw [← Matrix.smul_one_eq_diagonal]
  exact (Commute.one_left _).smul_left _

theorem timeOrdered_smul (p : Nat → Matrix d d ℂ) (z : Nat → ℂ) (hz : ∀ k, ‖z k‖ = 1) (hi : Nat) :
    ∃ ζ : ℂ, ‖ζ‖ = 1 ∧ ζ = ∏ k ∈ Finset.range hi, z k ∧
      timeOrdered (fun k => z k • p k) 0 hi = ζ • timeOrdered p 0 hi := by
  refine ⟨_, ?_, rfl, ?_⟩
  · rw [norm_prod]
    exact Finset.prod_eq_one fun k _ => hz k
  · induction hi with
    | zero => simp [timeOrdered_self]
    | succ hi ih =>
      rw [timeOrdered_succ _ (Nat.zero_le hi), timeOrdered_succ _ (Nat.zero_le hi), ih,
        Finset.prod_range_succ, Matrix.smul_mul, Matrix.mul_smul, smul_smul, mul_comm]

/-- An energy offset multiplies the overlap by a phase that does not depend on the
amplitudes. -/
theorem offset_overlap {c : UnitaryCfg d m} (hc : Closed c) (e : Nat → ℝ) :
    ∃ ζ : ℂ, ‖ζ‖ = 1 ∧ ∀ amps, overlap (c.offset e).sys amps = ζ * overlap c.sys amps := by
  have hz : ∀ k, ‖Complex.exp (-Complex.I * (e k * c.tau k : ℝ))‖ = 1 := fun k => by
    rw [show -Complex.I * ((e k * c.tau k : ℝ) : ℂ) = ((-(e k * c.tau k) : ℝ) : ℂ) * Complex.I by
      push_cast; ring]
    exact Complex.norm_exp_ofReal_mul_I _
  refine ⟨∏ k ∈ Finset.range c.nTs, Complex.exp (-Complex.I * (e k * c.tau k : ℝ)), ?_, fun amps => ?_⟩
  · rw [norm_prod]
    exact Finset.prod_eq_one fun k _ => hz k
  · obtain ⟨ζ, _, hζ, h⟩ := timeOrdered_smul (propagator c.sys amps) _ hz c.nTs
    rw [← hζ, overlap_sys, overlap_sys]
    unfold final evolution
    rw [sys_nTs, sys_nTs, sys_initial, sys_initial]
    have h' : timeOrdered (propagator (c.offset e).sys amps) 0 (c.offset e).nTs =
        ζ • timeOrdered (propagator c.sys amps) 0 c.nTs := by
      rw [← h]
      exact timeOrdered_congr fun k _ hk => offset_propagator hc e amps hk
    rw [h', Matrix.smul_mul, Matrix.mul_smul, Matrix.trace_smul, smul_eq_mul]
    rfl

/-- **C10.** PSU: an energy offset in the drift, possibly different in every slot,
multiplies the evolution by a phase and changes neither fidelity nor error, nor (with
exact propagator gradients) the gradient where the fidelity is not zero. -/
theorem C10_energy_offset {c : UnitaryCfg d m} [Nonempty m] (hc : Closed c) (hi : Normalised c)
    (hu : c.fidKind = .unitary) (hp : c.phaseOpt = .PSU) (e : Nat → ℝ)
    (junk s0 junk' s0' : State d m (Decomp d)) (a0 : Amps) (ops : List Op) :
    query (c.offset e).sys junk' s0' a0 ops .getFidelity =
      query c.sys junk s0 a0 ops .getFidelity ∧
    query (c.offset e).sys junk' s0' a0 ops .getFidErr =
      query c.sys junk s0 a0 ops .getFidErr ∧
    (ExactAt c (lastAmps a0 ops) → ExactAt (c.offset e) (lastAmps a0 ops) →
      query c.sys junk s0 a0 ops .getFidelity ≠ .real 0 →
      ∃ g g', query (c.offset e).sys junk' s0' a0 ops .getGradient = .array g' ∧
        query c.sys junk s0 a0 ops .getGradient = .array g ∧
        ∀ k j, k < c.nTs → j < c.nCtrls → g' k j = g k j) := by
  have hc' := offset_closed hc e
  have hi' : Normalised (c.offset e) := ⟨hi.initial, hi.target⟩
  have hu1 : c.sys.fidKind = .unitary := by simpa using hu
  have hu2 : (c.offset e).sys.fidKind = .unitary := by rw [sys_fidKind]; exact hu
  have hd : (c.offset e).sys.dimNorm = c.sys.dimNorm := by rw [sys_dimNorm, sys_dimNorm]; rfl
  obtain ⟨ζ, hζ, ho⟩ := offset_overlap hc e
  have hf : ∀ amps, fidelity (c.offset e).sys amps = fidelity c.sys amps := by
    intro amps
    have hp1 : c.sys.phaseOpt = .PSU := by simpa using hp
    have hp2 : (c.offset e).sys.phaseOpt = .PSU := by rw [sys_phaseOpt]; exact hp
    unfold fidelity
    simp only [hp1, hp2]
    rw [ho, norm_mul, hζ, one_mul, hd]
  have q1 : ∀ (ops : List Op), query (c.offset e).sys junk' s0' a0 ops .getFidelity =
      query c.sys junk s0 a0 ops .getFidelity := by
    intro ops
    rw [query_eq hc.valid, query_eq hc'.valid]
    simp only [answer, hu1, hu2, hf]
  have q2 : ∀ (ops : List Op), query (c.offset e).sys junk' s0' a0 ops .getFidErr =
      query c.sys junk s0 a0 ops .getFidErr := by
    intro ops
    rw [query_eq hc.valid, query_eq hc'.valid]
    simp only [answer, fidErr, hu1, hu2, hf]
  refine ⟨q1 ops, q2 ops, fun hx hx' h0 => ?_⟩
  obtain ⟨err, g, r1, r2, r3⟩ := C12_unitary hc hi hu (by simp [hp]) junk s0 a0 ops hx fun _ => h0
  obtain ⟨err', g', r1', r2', r3'⟩ := C12_unitary hc' hi' hu
    (fun h => absurd (hp.symm.trans h) (by decide)) junk' s0' a0 ops hx'
    (fun _ => by rw [q1 ops]; exact h0)
  have herr : err' = err := by
    ext a
    have h1 := r1' a
    rw [q2, r1 a] at h1
    injection h1 with h1
    exact h1.symm
  refine ⟨g, g', r2', r2, fun k j hk hj => ?_⟩
  have d1 := r3 k j (by simpa using hk) (by simpa using hj)
  have d2 := r3' k j (by rw [sys_nTs]; exact hk) (by rw [sys_nCtrls]; exact hj)
  rw [herr] at d2
  exact d2.unique d1

/-! ### Non-vacuity -/

/-- A qubit with drift `H`, control `C`, identity as initial gate and target `T`. -/
noncomputable def qubit (n : Nat) (H C T : Matrix (Fin 2) (Fin 2) ℂ) (fk : FidKind)
    (po : PhaseOpt) : UnitaryCfg (Fin 2) (Fin 2) where
  nTs := n
  nCtrls := 1
  drift := fun _ => H
  ctrl := fun _ _ => C
  tau := fun _ => 1 / 2
  initial := 1
  target := T
  isQobj := true
  cachePhased := true
  cachePropGrad := true
  propKind := .frechet
  fidKind := fk
  phaseOpt := po
  scaleFactor := none
  prec := 1e-10
  eigh := exists_eigh.choose

theorem qubit_closed {n : Nat} (hn : 0 < n) {H C T : Matrix (Fin 2) (Fin 2) ℂ}
    (hH : H.IsHermitian) (hC : C.IsHermitian) (fk : FidKind) (po : PhaseOpt) :
    Closed (qubit n H C T fk po) :=
  ⟨hn, Nat.one_pos, fun _ _ => hH, fun _ _ _ _ => hC, exists_eigh.choose_spec⟩

theorem qubit_normalised {n : Nat} {H C T : Matrix (Fin 2) (Fin 2) ℂ} (hT : Tᴴ * T = 1)
    (fk : FidKind) (po : PhaseOpt) : Normalised (qubit n H C T fk po) :=
  ⟨by change (1 : Matrix (Fin 2) (Fin 2) ℂ)ᴴ * 1 = 1; simp, hT⟩

/-- The propagators of the qubit at zero amplitudes with a diagonal drift. -/
theorem qubit_propagator (n : Nat) (v : Fin 2 → ℂ) (C T : Matrix (Fin 2) (Fin 2) ℂ) (fk : FidKind)
    (po : PhaseOpt) (k : Nat) :
    propagator (qubit n (diagonal v) C T fk po).sys (fun _ _ => 0) k =
      diagonal fun i => Complex.exp (-Complex.I * v i / 2) := by
  unfold propagator generator phased
  simp only [sys_propKind, sys_expm, sys_tau, sys_phase, sys_drift, sys_nCtrls, sys_ctrl]
  rw [if_neg (by simp [qubit])]
  have : ((1 / 2 : ℝ) : ℂ) • (-Complex.I • (diagonal v + ∑ j ∈ Finset.range 1, ((0 : ℝ) : ℂ) • C)) =
      diagonal fun i => -Complex.I * v i / 2 := by
    ext i j
    by_cases h : i = j
    · subst h; simp; ring
    · simp [h]
  exact (congrArg NormedSpace.exp this).trans (exp_diagonal' _)

/-- All hypotheses of C09, C12 and C18 at once, with `σz` drift, `σx` control, two slots, a
phase gate as target and the PSU measure; the fidelity is not zero. -/
theorem qubit_nonzero (junk s0 : State (Fin 2) (Fin 2) (Decomp (Fin 2))) :
    ∃ c : UnitaryCfg (Fin 2) (Fin 2), c = qubit 2 (diagonal ![1, -1]) !![0, 1; 1, 0]
        (diagonal ![1, Complex.I]) .unitary .PSU ∧ Closed c ∧ Normalised c ∧ c.nTs = 2 ∧
      ExactAt c (lastAmps (fun _ _ => 0) []) ∧ c.fidKind = .unitary ∧ c.phaseOpt = .PSU ∧
      query c.sys junk s0 (fun _ _ => 0) [] .getFidelity ≠ .real 0 := by
  have hH : (diagonal ![1, -1] : Matrix (Fin 2) (Fin 2) ℂ).IsHermitian := by
    unfold Matrix.IsHermitian
    rw [Matrix.diagonal_conjTranspose]
    congr 1
    ext i; fin_cases i <;> simp
  have hC : (!![0, 1; 1, 0] : Matrix (Fin 2) (Fin 2) ℂ).IsHermitian := by
    ext i j; fin_cases i <;> fin_cases j <;> simp
  have hT : (diagonal ![1, Complex.I] : Matrix (Fin 2) (Fin 2) ℂ)ᴴ * diagonal ![1, Complex.I] = 1 := by
    rw [Matrix.diagonal_conjTranspose, Matrix.diagonal_mul_diagonal, ← Matrix.diagonal_one]
    congr 1
    ext i; fin_cases i <;> simp
  have hc := qubit_closed (n := 2) (T := diagonal ![1, Complex.I]) (by norm_num) hH hC .unitary .PSU
  have hi := qubit_normalised (n := 2) (H := diagonal ![1, -1]) (C := !![0, 1; 1, 0]) hT .unitary .PSU
  refine ⟨_, rfl, hc, hi, rfl, Or.inl rfl, rfl, rfl, ?_⟩
  rw [query_eq hc.valid]
  intro h
  have ho : overlap (qubit 2 (diagonal ![1, -1]) !![0, 1; 1, 0] (diagonal ![1, Complex.I])
      .unitary .PSU).sys (fun _ _ => 0) = 0 := by
    simp only [answer, sys_fidKind, qubit, fidelity, sys_phaseOpt, Out.ofReal, lastAmps] at h
    injection h with h
    have hd : (qubit 2 (diagonal ![1, -1]) !![0, 1; 1, 0] (diagonal ![1, Complex.I])
      .unitary .PSU).sys.dimNorm = (Fintype.card (Fin 2) : ℝ) := dimNorm_eq hT
    rw [div_eq_zero_iff] at h
    rcases h with h | h
    · exact norm_eq_zero.1 h
    · have := hd.symm.trans h
      norm_num at this
  have hev : final (qubit 2 (diagonal ![1, -1]) !![0, 1; 1, 0] (diagonal ![1, Complex.I])
      .unitary .PSU).sys (fun _ _ => 0) = diagonal ![Complex.exp (-Complex.I), Complex.exp Complex.I] := by
    unfold final evolution
    rw [sys_initial, sys_nTs]
    change timeOrdered _ 0 2 * 1 = _
    rw [timeOrdered_succ _ (Nat.zero_le 1), timeOrdered_succ _ (Nat.le_refl 0), timeOrdered_self,
      qubit_propagator, qubit_propagator, Matrix.mul_one, Matrix.mul_one,
      Matrix.diagonal_mul_diagonal]
    congr 1
    ext i
    rw [← Complex.exp_add]
    fin_cases i
    · simp
    · simp
  rw [overlap_sys, hev] at ho
  change ((diagonal ![1, Complex.I])ᴴ * _).trace = 0 at ho
  rw [Matrix.diagonal_conjTranspose, Matrix.diagonal_mul_diagonal, Matrix.trace_diagonal] at ho
  have hre := congrArg Complex.re ho
  simp [Fin.sum_univ_two, Complex.exp_re, Complex.exp_im] at hre
  have h1 := Real.cos_one_pos
  have h2 : 0 < Real.sin 1 := Real.sin_pos_of_pos_of_lt_pi one_pos (by linarith [Real.pi_gt_three])
  linarith

/-- All hypotheses of `C12_gradient_is_derivative` (which `C12_unitary` discharges),
`C10_su_sees_phase`, `C11_default_scale`, `C13_unitary` and `C13_gradient_is_derivative`: the
same qubit with the SU and the trace difference measure, after a history that submits
amplitudes, asks for the error and submits others. -/
example (a b : Amps) :
    (∃ c : UnitaryCfg (Fin 2) (Fin 2), Closed c ∧ Normalised c ∧ c.nTs = 3 ∧
      c.fidKind = .unitary ∧ c.phaseOpt = .SU ∧ c.isQobj = true ∧
      ExactAt c (lastAmps a [.updateAmps b, .getFidErr, .updateAmps a])) ∧
    ∃ c : UnitaryCfg (Fin 2) (Fin 2), Closed c ∧ Normalised c ∧ c.nTs = 3 ∧
      c.fidKind = .traceDiff ∧ c.scaleFactor = none ∧ Valid c.sys ∧
      c.sys.fidKind = .traceDiff ∧ c.sys.propKind ≠ .approx ∧
      ExactPropGrad c.sys (lastAmps a [.updateAmps b, .getFidErr, .updateAmps a]) := by
  have hH : (diagonal ![1, -1] : Matrix (Fin 2) (Fin 2) ℂ).IsHermitian := by
    unfold Matrix.IsHermitian
    rw [Matrix.diagonal_conjTranspose]
    congr 1
    ext i; fin_cases i <;> simp
  have hC : (!![0, 1; 1, 0] : Matrix (Fin 2) (Fin 2) ℂ).IsHermitian := by
    ext i j; fin_cases i <;> fin_cases j <;> simp
  have hT : (diagonal ![1, Complex.I] : Matrix (Fin 2) (Fin 2) ℂ)ᴴ * diagonal ![1, Complex.I] = 1 := by
    rw [Matrix.diagonal_conjTranspose, Matrix.diagonal_mul_diagonal, ← Matrix.diagonal_one]
    congr 1
    ext i; fin_cases i <;> simp
  have hc := qubit_closed (n := 3) (T := diagonal ![1, Complex.I]) (by norm_num) hH hC
  have hi := qubit_normalised (n := 3) (H := diagonal ![1, -1]) (C := !![0, 1; 1, 0]) hT
  refine ⟨⟨_, hc .unitary .SU, hi .unitary .SU, rfl, rfl, rfl, rfl, Or.inl rfl⟩, ?_⟩
  refine ⟨_, hc .traceDiff .PSU, hi .traceDiff .PSU, rfl, rfl, rfl, (hc .traceDiff .PSU).valid, ?_, ?_,
    (hc .traceDiff .PSU).exactPropGrad (Or.inl rfl)⟩
  · rw [sys_fidKind]; rfl
  · rw [sys_propKind]; decide

/-- **C10**, the exception: at zero overlap, where the PSU fidelity is not
differentiable, the reported gradient does depend on the phase of the target. -/
theorem C10_gradient_zero_overlap :
    ∃ (c : UnitaryCfg (Fin 2) (Fin 2)) (z : ℂ) (a0 : Amps), Closed c ∧ Normalised c ∧
      c.fidKind = .unitary ∧ c.phaseOpt = .PSU ∧ ‖z‖ = 1 ∧
      ∀ junk s0 : State (Fin 2) (Fin 2) (Decomp (Fin 2)),
        query (c.rephase z 1).sys junk s0 a0 [] .getGradient ≠
          query c.sys junk s0 a0 [] .getGradient := by
  have hT : (diagonal ![1, -1] : Matrix (Fin 2) (Fin 2) ℂ)ᴴ * diagonal ![1, -1] = 1 := by
    rw [Matrix.diagonal_conjTranspose, Matrix.diagonal_mul_diagonal, ← Matrix.diagonal_one]
    congr 1
    ext i; fin_cases i <;> simp
  have hH : (diagonal ![1, -1] : Matrix (Fin 2) (Fin 2) ℂ).IsHermitian := by
    unfold Matrix.IsHermitian
    rw [Matrix.diagonal_conjTranspose]
    congr 1
    ext i; fin_cases i <;> simp
  have h0 : (diagonal 0 : Matrix (Fin 2) (Fin 2) ℂ).IsHermitian := by
    unfold Matrix.IsHermitian
    simp
  let c := qubit 1 (diagonal 0) (diagonal ![1, -1]) (diagonal ![1, -1]) .unitary .PSU
  have hc : Closed c := qubit_closed Nat.one_pos h0 hH .unitary .PSU
  have hi : Normalised c := qubit_normalised hT .unitary .PSU
  refine ⟨c, Complex.I, fun _ _ => 0, hc, hi, rfl, rfl, by simp, fun junk s0 h => ?_⟩
  have hv' : Valid (c.rephase Complex.I 1).sys := initSys_valid (S := _) Nat.one_pos Nat.one_pos
  rw [query_eq hc.valid, query_eq hv'] at h
  have hu1 : c.sys.fidKind = .unitary := by rw [sys_fidKind]; rfl
  have hu2 : (c.rephase Complex.I 1).sys.fidKind = .unitary := by rw [sys_fidKind]; rfl
  have hp1 : c.sys.phaseOpt = .PSU := by rw [sys_phaseOpt]; rfl
  have hp2 : (c.rephase Complex.I 1).sys.phaseOpt = .PSU := by rw [sys_phaseOpt]; rfl
  have k1 : c.sys.propKind ≠ .approx := by rw [sys_propKind]; decide
  have k1' : (c.rephase Complex.I 1).sys.propKind ≠ .approx := by rw [sys_propKind]; decide
  have hprop : ∀ k, propagator c.sys (fun _ _ => 0) k = 1 := by
    intro k
    rw [qubit_propagator]
    simp
  have hev : ∀ lo hi, evolution c.sys (fun _ _ => 0) lo hi = 1 := by
    intro lo hi
    unfold evolution timeOrdered
    have : propagator c.sys (fun _ _ => 0) = fun _ => 1 := funext hprop
    rw [this]
    simp
  have hov : overlap c.sys (fun _ _ => 0) = 0 := by
    rw [overlap_sys]
    unfold final
    rw [hev, sys_initial]
    change ((diagonal ![1, -1] : Matrix (Fin 2) (Fin 2) ℂ)ᴴ * (1 * 1)).trace = 0
    rw [Matrix.mul_one, Matrix.mul_one, Matrix.trace_conjTranspose, Matrix.trace_diagonal]
    simp
  have hpg : propagatorGrad c.sys (fun _ _ => 0) 0 0 =
      ((1 / 2 : ℝ) : ℂ) • (-Complex.I • diagonal ![1, -1]) := by
    unfold propagatorGrad generator phased
    simp only [sys_propKind, sys_frechet, sys_tau, sys_phase, sys_drift, sys_nCtrls, sys_ctrl]
    rw [if_neg (by simp [c, qubit])]
    change dexp (((1 / 2 : ℝ) : ℂ) • (-Complex.I • (diagonal 0 + ∑ j ∈ Finset.range 1,
      ((0 : ℝ) : ℂ) • diagonal ![1, -1]))) _ = _
    have : ((1 / 2 : ℝ) : ℂ) • (-Complex.I • (diagonal 0 + ∑ j ∈ Finset.range 1,
      ((0 : ℝ) : ℂ) • (diagonal ![1, -1] : Matrix (Fin 2) (Fin 2) ℂ))) =
        diagonal (fun _ => (0 : ℂ)) := by simp
    rw [this]
    ext i j
    refine (dexp_diagonal_eq (fun _ => (0 : ℂ)) _ rfl).trans ?_
    rw [Complex.exp_zero, one_mul]
    rfl
  have hg : (c.sys.ontoTarget * finalGrad c.sys (fun _ _ => 0) 0 0).trace = -Complex.I := by
    unfold finalGrad
    rw [hev, hev, hpg, sys_onto, sys_initial]
    change ((diagonal ![1, -1] : Matrix (Fin 2) (Fin 2) ℂ)ᴴ * (1 * _ * (1 * 1))).trace = _
    rw [Matrix.one_mul, Matrix.one_mul, Matrix.mul_one, Matrix.mul_smul, Matrix.mul_smul, hT]
    simp only [Matrix.trace_smul, Matrix.trace_one, smul_eq_mul, Fintype.card_fin]
    push_cast
    ring
  simp only [answer, gradient, if_neg k1, if_neg k1', hu1, hu2, fidelity, hp1, hp2, Except.map,
    Out.ofArray] at h
  injection h with h
  have h00 := congrFun (congrFun h 0) 0
  simp only [sys_nTs, sys_nCtrls] at h00
  rw [if_pos ⟨Nat.one_pos, Nat.one_pos⟩, if_pos ⟨Nat.one_pos, Nat.one_pos⟩] at h00
  unfold gradEntry at h00
  simp only [hu1, hu2, hp1, hp2, lastAmps] at h00
  rw [rephase_gradTrace, rephase_overlap, hov, hg, rephase_dimNorm_PSU c (by simp),
    dimNorm_eq hi.target] at h00
  simp at h00
  norm_num at h00

end QTrl.Dyn
