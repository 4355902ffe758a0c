import Verif.Spec.Stages
import Verif.Proofs.Symmetry
import Mathlib.Analysis.Matrix.Normed

/-
Lemmas for C83.
-/

set_option linter.unusedSectionVars false

open Matrix

namespace QTrl.Dyn

open QTrl.Spec QTrl.MatExp

variable {d m D : Type} [Fintype d] [DecidableEq d] [Fintype m] [DecidableEq m]

theorem timeOrdered_offset (q : Nat → Matrix d d ℂ) (p : Nat) {lo hi : Nat} (h : lo ≤ hi) :
    timeOrdered q (lo + p) (hi + p) = timeOrdered (fun k => q (k + p)) lo hi := by
  induction hi, h using Nat.le_induction with
  | base => rw [timeOrdered_self, timeOrdered_self]
  | succ hi h ih =>
    rw [show hi + 1 + p = hi + p + 1 by omega, timeOrdered_succ _ (by omega), timeOrdered_succ _ h, ih]

section Stage
variable {S : Sys d m D} {X : Matrix d m ℂ} {lo n : Nat} {a b : Amps}

theorem stage_valid (hS : Valid S) (hn : 0 < n) : Valid (stage S X lo n) :=
  ⟨hn, hS.ctrls, fun ph h1 h2 k j => hS.phasedCtrl ph h1 h2 (k + lo) j⟩

theorem stage_generator (ha : PartOf S.nCtrls a lo n b) {k : Nat} (hk : k < n) :
    generator (stage S X lo n) b k = generator S a (k + lo) := by
  change S.drift (k + lo) + ∑ j ∈ Finset.range S.nCtrls, (b k j : ℂ) • S.ctrl (k + lo) j = _
  unfold generator
  congr 1
  exact Finset.sum_congr rfl fun j hj => by rw [ha k j hk (Finset.mem_range.1 hj)]

theorem stage_propagator (ha : PartOf S.nCtrls a lo n b) {k : Nat} (hk : k < n) :
    propagator (stage S X lo n) b k = propagator S a (k + lo) := by
  unfold propagator
  rw [stage_generator ha hk]
  rfl

theorem stage_propagatorGrad (ha : PartOf S.nCtrls a lo n b) {k : Nat} (hk : k < n) (j : Nat) :
    propagatorGrad (stage S X lo n) b k j = propagatorGrad S a (k + lo) j := by
  unfold propagatorGrad
  rw [stage_generator ha hk]
  rfl

theorem stage_evolution (ha : PartOf S.nCtrls a lo n b) {u v : Nat} (huv : u ≤ v) (hv : v ≤ n) :
    evolution (stage S X lo n) b u v = evolution S a (u + lo) (v + lo) := by
  unfold evolution
  rw [timeOrdered_offset _ _ huv]
  exact timeOrdered_congr fun k _ hk => stage_propagator ha (by omega)

theorem stage_final (ha : PartOf S.nCtrls a lo n b) :
    final (stage S X lo n) b = evolution S a lo (lo + n) * X := by
  unfold final
  change evolution (stage S X lo n) b 0 n * X = _
  rw [stage_evolution ha (Nat.zero_le _) (Nat.le_refl _), Nat.zero_add, Nat.add_comm n lo]

/-- The last stage, started in what the stages before it reached. -/
theorem rest_final (hp : lo ≤ S.nTs) (hX : X = evolution S a 0 lo * S.initial)
    (ha : PartOf S.nCtrls a lo (S.nTs - lo) b) :
    final (stage S X lo (S.nTs - lo)) b = final S a := by
  rw [stage_final ha, hX, Nat.add_sub_cancel' hp, ← Matrix.mul_assoc]
  unfold final evolution
  rw [timeOrdered_mul _ (Nat.zero_le _) hp]

theorem rest_finalGrad (hp : lo ≤ S.nTs) (hX : X = evolution S a 0 lo * S.initial)
    (ha : PartOf S.nCtrls a lo (S.nTs - lo) b) {k : Nat} (hk : k < S.nTs - lo) (j : Nat) :
    finalGrad (stage S X lo (S.nTs - lo)) b k j = finalGrad S a (k + lo) j := by
  unfold finalGrad
  change evolution (stage S X lo (S.nTs - lo)) b (k + 1) (S.nTs - lo) * _ *
    (evolution (stage S X lo (S.nTs - lo)) b 0 k * X) = _
  rw [stage_evolution ha (by omega) (Nat.le_refl _), stage_evolution ha (Nat.zero_le _) (by omega),
    stage_propagatorGrad ha hk, hX, Nat.sub_add_cancel hp, Nat.zero_add,
    show k + 1 + lo = k + lo + 1 by omega, ← Matrix.mul_assoc (evolution S a lo (k + lo))]
  unfold evolution
  rw [timeOrdered_mul _ (Nat.zero_le _) (by omega : lo ≤ k + lo)]

theorem rest_overlap (hp : lo ≤ S.nTs) (hX : X = evolution S a 0 lo * S.initial)
    (ha : PartOf S.nCtrls a lo (S.nTs - lo) b) :
    overlap (stage S X lo (S.nTs - lo)) b = overlap S a := by
  unfold overlap
  rw [rest_final hp hX ha]
  rfl

theorem rest_fidelity (hp : lo ≤ S.nTs) (hX : X = evolution S a 0 lo * S.initial)
    (ha : PartOf S.nCtrls a lo (S.nTs - lo) b) :
    fidelity (stage S X lo (S.nTs - lo)) b = fidelity S a := by
  unfold fidelity
  rw [rest_overlap hp hX ha]
  rfl

theorem rest_fidErr (hp : lo ≤ S.nTs) (hX : X = evolution S a 0 lo * S.initial)
    (ha : PartOf S.nCtrls a lo (S.nTs - lo) b) :
    fidErr (stage S X lo (S.nTs - lo)) b = fidErr S a := by
  unfold fidErr
  rw [rest_fidelity hp hX ha, rest_final hp hX ha]
  rfl

theorem rest_gradEntry (hp : lo ≤ S.nTs) (hX : X = evolution S a 0 lo * S.initial)
    (ha : PartOf S.nCtrls a lo (S.nTs - lo) b) (f : ℝ) {k : Nat} (hk : k < S.nTs - lo) (j : Nat) :
    gradEntry (stage S X lo (S.nTs - lo)) b f k j = gradEntry S a f (k + lo) j := by
  unfold gradEntry
  rw [rest_overlap hp hX ha, rest_final hp hX ha, rest_finalGrad hp hX ha hk]
  rfl

theorem rest_gradient (hp : lo ≤ S.nTs) (hX : X = evolution S a 0 lo * S.initial)
    (ha : PartOf S.nCtrls a lo (S.nTs - lo) b) :
    GradRel (fun g g' => ∀ k j, k < S.nTs - lo → g' k j = g (k + lo) j)
      (answer S (some a) .getGradient)
      (answer (stage S X lo (S.nTs - lo)) (some b) .getGradient) := by
  have key : ∀ f k j, k < S.nTs - lo →
      (if k < S.nTs - lo ∧ j < S.nCtrls then
        gradEntry (stage S X lo (S.nTs - lo)) b f k j else 0) =
      if k + lo < S.nTs ∧ j < S.nCtrls then gradEntry S a f (k + lo) j else 0 := by
    intro f k j hk
    rw [rest_gradEntry hp hX ha f hk]
    by_cases hj : j < S.nCtrls
    · rw [if_pos ⟨hk, hj⟩, if_pos ⟨by omega, hj⟩]
    · rw [if_neg fun h => hj h.2, if_neg fun h => hj h.2]
  unfold answer gradient
  simp only
  rw [rest_fidelity hp hX ha]
  change GradRel _ _ (.ofArray (if S.propKind = .approx then
    .error (if S.cachePropGrad then .typeError else .usageError) else
    match S.fidKind with
    | .unitary => (fidelity S a).map fun f => fun k j =>
        if k < S.nTs - lo ∧ j < S.nCtrls then
          gradEntry (stage S X lo (S.nTs - lo)) b f k j else 0
    | .traceDiff => .ok fun k j => if k < S.nTs - lo ∧ j < S.nCtrls then
          gradEntry (stage S X lo (S.nTs - lo)) b 0 k j else 0))
  by_cases h : S.propKind = .approx
  · rw [if_pos h, if_pos h]
    exact rfl
  · rw [if_neg h, if_neg h]
    cases S.fidKind with
    | unitary =>
      cases fidelity S a with
      | error e => exact rfl
      | ok f => exact fun k j hk => key f k j hk
    | traceDiff => exact fun k j hk => key 0 k j hk

end Stage

/-! ### Closed systems -/

section Leg
variable {c : UnitaryCfg d m} {X T : Matrix d m ℂ} {lo n : Nat} {a b : Amps}

theorem leg_sys : (leg c X c.target lo n).sys = stage c.sys X lo n := by
  unfold UnitaryCfg.sys initSys stage leg
  simp only
  cases c.cachePhased <;> rfl

theorem leg_closed (hc : Closed c) (hn : 0 < n) (hl : lo + n ≤ c.nTs) : Closed (leg c X T lo n) :=
  ⟨hn, hc.ctrls, fun k hk => hc.drift _ (by change k < n at hk; omega),
    fun k j hk hj => hc.ctrl _ j (by change k < n at hk; omega) hj, hc.eigh⟩

theorem leg_final (ha : PartOf c.nCtrls a lo n b) :
    final (leg c X T lo n).sys b = evolution c.sys a lo (lo + n) * X := by
  have : final (leg c X T lo n).sys b = final (leg c X c.target lo n).sys b := by
    unfold final evolution
    simp only [sys_nTs, sys_initial]
    congr 1
    refine timeOrdered_congr fun k _ _ => ?_
    unfold propagator phased generator
    simp only [sys_propKind, sys_decompose, sys_diagProp, sys_drift, sys_ctrl,
      sys_nCtrls, sys_tau, sys_expm, sys_phase]
    rfl
  rw [this, leg_sys]
  exact stage_final (by simpa using ha)

end Leg

/-! ### Distances -/

section Dist
attribute [local instance] Matrix.frobeniusSeminormedAddCommGroup Matrix.frobeniusNormedAddCommGroup

/-- The distance of two objects. -/
noncomputable def dist2 (A : Matrix d m ℂ) : ℝ := Real.sqrt (frobSq A)

theorem dist2_norm (A : Matrix d m ℂ) : dist2 A = ‖A‖ := by
  rw [dist2, Matrix.frobenius_norm_def, Real.sqrt_eq_rpow]
  simp [frobSq]

theorem dist2_add (A B : Matrix d m ℂ) : dist2 (A + B) ≤ dist2 A + dist2 B := by
  simp only [dist2_norm]
  exact norm_add_le A B

theorem dist2_nonneg (A : Matrix d m ℂ) : 0 ≤ dist2 A := Real.sqrt_nonneg _

end Dist

theorem dist2_unitary {U : Matrix d d ℂ} (hU : U ∈ Matrix.unitaryGroup d ℂ) (A : Matrix d m ℂ) :
    dist2 (U * A) = dist2 A := by
  unfold dist2
  rw [← frobSq_re, isometry_of_unitary hU, frobSq_re]

theorem dist2_phase {z : ℂ} (hz : ‖z‖ = 1) (A : Matrix d m ℂ) : dist2 (z • A) = dist2 A := by
  unfold dist2 frobSq
  simp [hz]

/-- The phases that a measure disregards. -/
def Disregards (fk : FidKind) (po : PhaseOpt) (z : ℂ) : Prop :=
  if fk = .unitary ∧ po = .PSU then ‖z‖ = 1 else z = 1

theorem Disregards.norm {fk : FidKind} {po : PhaseOpt} {z : ℂ} (h : Disregards fk po z) : ‖z‖ = 1 := by
  unfold Disregards at h
  split at h
  · exact h
  · rw [h]; simp

theorem Disregards.one (fk : FidKind) (po : PhaseOpt) : Disregards fk po 1 := by
  unfold Disregards
  split <;> simp

theorem Disregards.mul {fk : FidKind} {po : PhaseOpt} {z w : ℂ} (h : Disregards fk po z)
    (h' : Disregards fk po w) : Disregards fk po (z * w) := by
  unfold Disregards at *
  split at h
  · next hh => rw [if_pos hh] at h' ⊢; rw [norm_mul, h, h', one_mul]
  · next hh => rw [if_neg hh] at h' ⊢; rw [h, h', one_mul]

/-- The factor between error and squared distance. -/
noncomputable def unit (c : UnitaryCfg d m) : ℝ :=
  match c.fidKind with
  | .unitary => 1 / (2 * (Fintype.card m : ℝ))
  | .traceDiff => c.sys.scale

theorem unit_leg (c : UnitaryCfg d m) (X T : Matrix d m ℂ) (lo n : Nat) :
    unit (leg c X T lo n) = unit c := by
  unfold unit
  simp only [sys_scale]
  rfl

theorem unit_nonneg {c : UnitaryCfg d m} (hs : c.fidKind = .traceDiff → 0 ≤ c.sys.scale) :
    0 ≤ unit c := by
  unfold unit
  cases h : c.fidKind with
  | unitary => positivity
  | traceDiff => exact hs h

/-- The reported error is, in its unit, the squared distance of evolution and target, up to the
phases the measure disregards. -/
theorem err_dist {c : UnitaryCfg d m} [Nonempty m] (hc : Closed c)
    (hi : c.fidKind = .unitary → Normalised c)
    (hs : c.fidKind = .traceDiff → 0 ≤ c.sys.scale) {a : Amps} {e : ℝ}
    (he : answer c.sys (some a) .getFidErr = .real e) :
    (∀ z, Disregards c.fidKind c.phaseOpt z →
      Real.sqrt e ≤ Real.sqrt (unit c) * dist2 (final c.sys a - z • c.target)) ∧
    ∃ z, Disregards c.fidKind c.phaseOpt z ∧
      Real.sqrt e = Real.sqrt (unit c) * dist2 (final c.sys a - z • c.target) := by
  suffices h : (∀ z, Disregards c.fidKind c.phaseOpt z →
      e ≤ unit c * frobSq (final c.sys a - z • c.target)) ∧
      ∃ z, Disregards c.fidKind c.phaseOpt z ∧
        e = unit c * frobSq (final c.sys a - z • c.target) by
    have h0 := unit_nonneg hs
    refine ⟨fun z hz => ?_, ?_⟩
    · rw [dist2, ← Real.sqrt_mul h0]
      exact Real.sqrt_le_sqrt (h.1 z hz)
    · obtain ⟨z, hz, e⟩ := h.2
      exact ⟨z, hz, by rw [dist2, ← Real.sqrt_mul h0, ← e]⟩
  have hm : 0 < (Fintype.card m : ℝ) := by exact_mod_cast Fintype.card_pos
  have hne : (Fintype.card m : ℝ) ≠ 0 := hm.ne'
  simp only [answer, fidErr, fidelity, sys_fidKind, sys_phaseOpt, sys_isQobj] at he
  unfold unit
  cases hk : c.fidKind with
  | unitary =>
    have hI := hi hk
    have hF := final_isometry hc a hI.initial
    have hle := norm_overlap_le hF hI.target
    rw [hk] at he
    have ho : overlap c.sys a = (c.targetᴴ * final c.sys a).trace := by
      unfold overlap; rw [sys_onto]
    cases hp : c.phaseOpt with
    | PSU =>
      simp only [hp, Except.map, Out.ofReal, Out.real.injEq] at he
      rw [dimNorm_eq hI.target, ho, abs_of_nonneg (by
        rw [sub_nonneg, div_le_one hm]; exact hle)] at he
      have hd : ∀ z, Disregards .unitary .PSU z ↔ ‖z‖ = 1 := fun z => by simp [Disregards]
      refine ⟨fun z hz => ?_, ?_⟩
      · rw [frobSq_sub hF hI.target z ((hd z).1 hz), ← he]
        have h1 : ((starRingEnd ℂ) z * (c.targetᴴ * final c.sys a).trace).re ≤
            ‖(c.targetᴴ * final c.sys a).trace‖ := by
          refine (Complex.re_le_norm _).trans ?_
          rw [norm_mul, RCLike.norm_conj, (hd z).1 hz, one_mul]
        simp only
        rw [one_div, inv_mul_eq_div, le_div_iff₀ (by positivity)]
        have : (1 - ‖(c.targetᴴ * final c.sys a).trace‖ / (Fintype.card m : ℝ)) *
            (2 * (Fintype.card m : ℝ)) =
            2 * (Fintype.card m : ℝ) - 2 * ‖(c.targetᴴ * final c.sys a).trace‖ := by
          field_simp
        rw [this]
        linarith
      · obtain ⟨z, hz, h⟩ := exists_phase (c.targetᴴ * final c.sys a).trace
        refine ⟨z, (hd z).2 hz, ?_⟩
        rw [frobSq_sub hF hI.target z hz, h, ← he]
        field_simp
    | SU =>
      have hd : ∀ z, Disregards .unitary .SU z ↔ z = 1 := fun z => by simp [Disregards]
      cases hq : c.isQobj with
      | false => simp [hp, hq, Except.map, Out.ofReal] at he
      | true =>
        simp only [hp, hq, Except.map, Out.ofReal, Out.real.injEq] at he
        rw [dimNorm_eq hI.target, ho, abs_of_nonneg (by
          rw [sub_nonneg, div_le_one hm]; exact (Complex.re_le_norm _).trans hle)] at he
        have e1 : e = 1 / (2 * (Fintype.card m : ℝ)) * frobSq (final c.sys a - (1 : ℂ) • c.target) := by
          rw [frobSq_sub hF hI.target 1 (by simp), ← he, map_one, one_mul]
          field_simp
        exact ⟨fun z hz => by rw [(hd z).1 hz]; exact e1.le, 1, (hd 1).2 rfl, e1⟩
  | traceDiff =>
    have hd : ∀ z, Disregards .traceDiff c.phaseOpt z ↔ z = 1 := fun z => by simp [Disregards]
    rw [hk] at he
    simp only [Out.ofReal, Out.real.injEq] at he
    rw [frobSq_re, sys_target] at he
    have e1 : e = c.sys.scale * frobSq (final c.sys a - (1 : ℂ) • c.target) := by
      rw [← he, one_smul, ← frobSq_re, ← frobSq_re, ← neg_sub (final c.sys a), conjTranspose_neg,
        Matrix.neg_mul, Matrix.mul_neg, neg_neg]
    exact ⟨fun z hz => by rw [(hd z).1 hz]; exact e1.le, 1, (hd 1).2 rfl, e1⟩

/-! ### Targets pulled back -/

section Pulled
variable {c : UnitaryCfg d m} {T : Matrix d m ℂ} {p : Nat} {a b : Amps}

theorem leg_finalGrad (ha : PartOf c.nCtrls a 0 p b) {k : Nat} (hk : k < p) (j : Nat) :
    finalGrad (leg c c.initial T 0 p).sys b k j =
      evolution c.sys a (k + 1) p * propagatorGrad c.sys a k j *
        (evolution c.sys a 0 k * c.initial) := by
  have e : finalGrad (leg c c.initial T 0 p).sys b k j =
      finalGrad (leg c c.initial c.target 0 p).sys b k j := by
    unfold finalGrad evolution propagatorGrad
    simp only [sys_nTs, sys_initial]
    have hp : ∀ l, propagator (leg c c.initial T 0 p).sys b l =
        propagator (leg c c.initial c.target 0 p).sys b l := fun l => by
      unfold propagator phased generator
      simp only [sys_propKind, sys_decompose, sys_diagProp, sys_drift, sys_ctrl,
        sys_nCtrls, sys_tau, sys_expm, sys_phase]
      rfl
    rw [timeOrdered_congr (fun l _ _ => hp l), timeOrdered_congr (lo := 0) (fun l _ _ => hp l)]
    unfold phased generator
    simp only [sys_propKind, sys_decompose, sys_diagGrad, sys_drift, sys_ctrl, sys_nCtrls, sys_tau,
      sys_frechet, sys_phase]
    rfl
  have ha' : PartOf c.sys.nCtrls a 0 p b := by simpa using ha
  rw [e, leg_sys]
  unfold finalGrad
  change evolution (stage c.sys c.initial 0 p) b (k + 1) p * _ *
    (evolution (stage c.sys c.initial 0 p) b 0 k * c.initial) = _
  rw [stage_evolution ha' (by omega) (Nat.le_refl _), stage_evolution ha' (Nat.zero_le _) (by omega),
    stage_propagatorGrad ha' hk]
  rfl

theorem pulled_final (hp : p ≤ c.nTs) (ha : PartOf c.nCtrls a 0 p b) :
    final c.sys a = evolution c.sys a p c.nTs * final (leg c c.initial T 0 p).sys b := by
  rw [leg_final ha, Nat.zero_add, ← Matrix.mul_assoc]
  unfold final evolution
  rw [timeOrdered_mul _ (Nat.zero_le _) hp, sys_nTs, sys_initial]

theorem pulled_finalGrad (hp : p ≤ c.nTs) (ha : PartOf c.nCtrls a 0 p b) {k : Nat} (hk : k < p)
    (j : Nat) : finalGrad c.sys a k j =
      evolution c.sys a p c.nTs * finalGrad (leg c c.initial T 0 p).sys b k j := by
  rw [leg_finalGrad ha hk]
  simp only [← Matrix.mul_assoc]
  unfold finalGrad evolution
  rw [timeOrdered_mul _ (by omega : k + 1 ≤ p) hp, sys_nTs, sys_initial]
  simp only [Matrix.mul_assoc]

theorem trace_isometry {U : Matrix d d ℂ} (hU : U ∈ Matrix.unitaryGroup d ℂ) (A B : Matrix d m ℂ) :
    ((U * A)ᴴ * (U * B)).trace = (Aᴴ * B).trace := by
  have h := trace_rebase (V := (1 : Matrix m m ℂ)) hU (one_mem _) A B
  simpa only [Matrix.mul_one] using h

variable (hc : Closed c) (hp : p ≤ c.nTs) (ha : PartOf c.nCtrls a 0 p b)
  (hT : c.target = evolution c.sys a p c.nTs * T)

include hc hp ha hT

theorem pulled_overlap : overlap (leg c c.initial T 0 p).sys b = overlap c.sys a := by
  unfold overlap
  rw [sys_onto, sys_onto, pulled_final (T := T) hp ha, hT,
    trace_isometry (evolution_unitary hc a hp (Nat.le_refl _))]
  rfl

theorem pulled_norm (po : PhaseOpt) : initNormalization po T = initNormalization po c.target := by
  unfold initNormalization
  rw [hT, trace_isometry (evolution_unitary hc a hp (Nat.le_refl _))]

theorem pulled_same : SameSettings c (leg c c.initial T 0 p) := ⟨rfl, rfl, rfl, rfl⟩

theorem pulled_gradOf (f : ℝ) (X : Matrix d m ℂ) :
    gradOf (leg c c.initial T 0 p) b f X = gradOf c a f (evolution c.sys a p c.nTs * X) := by
  have hU := evolution_unitary hc a hp (Nat.le_refl _)
  have hn := pulled_norm hc hp ha hT c.phaseOpt
  have ho := pulled_overlap hc hp ha hT
  unfold gradOf
  rw [ho, pulled_final (T := T) hp ha, ← hn]
  conv_rhs => rw [hT]
  rw [trace_isometry hU, ← Matrix.mul_sub, trace_isometry hU]
  rfl

theorem pulled_frob : frobSq (T - final (leg c c.initial T 0 p).sys b) =
    frobSq (c.target - final c.sys a) := by
  have hU := evolution_unitary hc a hp (Nat.le_refl _)
  rw [pulled_final (T := T) hp ha]
  conv_rhs => rw [hT]
  rw [← Matrix.mul_sub, ← frobSq_re, ← frobSq_re, trace_isometry hU]

end Pulled

/-- When two gradient requests end alike. -/
theorem gradRel_of {S S' : Sys d m D} {a b : Amps} (h1 : S'.propKind = S.propKind)
    (h2 : S'.cachePropGrad = S.cachePropGrad) (h3 : S'.fidKind = S.fidKind)
    (hf : fidelity S' b = fidelity S a) (R : (Nat → Nat → ℝ) → (Nat → Nat → ℝ) → Prop)
    (hR : ∀ f, R (fun k j => if k < S.nTs ∧ j < S.nCtrls then gradEntry S a f k j else 0)
      (fun k j => if k < S'.nTs ∧ j < S'.nCtrls then gradEntry S' b f k j else 0)) :
    GradRel R (answer S (some a) .getGradient) (answer S' (some b) .getGradient) := by
  unfold answer gradient
  simp only
  rw [hf, h1, h2, h3]
  by_cases h : S.propKind = .approx
  · rw [if_pos h, if_pos h]
    exact rfl
  · rw [if_neg h, if_neg h]
    cases S.fidKind with
    | unitary =>
      cases fidelity S a with
      | error e => exact rfl
      | ok f => exact hR f
    | traceDiff => exact hR 0

end QTrl.Dyn
