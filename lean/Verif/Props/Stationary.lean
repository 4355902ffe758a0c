import Verif.Props.Descent
import Verif.Props.OptimizerCases
import Mathlib.Algebra.Order.BigOperators.Ring.Finset

/-
C89: what the reported gradient norm says about the reported error.
-/

set_option linter.unusedSectionVars false

open Matrix

namespace QTrl.Opt

open QTrl.Dyn QTrl.Spec

variable {d m D : Type} [Fintype d] [DecidableEq d] [Fintype m] [DecidableEq m]

/-- The array gives the slope of the error in every direction. -/
def SlopeAt (S : Sys d m D) (a g : Amps) : Prop :=
  ∃ err : Amps → ℝ, (∀ b, fidErr S b = .ok (err b)) ∧
    ∀ v, HasDerivAt (fun t => err (along a v t)) (pairing S v g) 0

/-- The number is the steepest slope of the error at the amplitudes: in no direction does the error
change faster than by this number times the size of the direction, and in some direction it falls
as fast as that. -/
def SteepestSlope (S : Sys d m D) (a : Amps) (ε : ℝ) : Prop :=
  ∃ err : Amps → ℝ, (∀ b, fidErr S b = .ok (err b)) ∧
    (∀ v, ∃ s, HasDerivAt (fun t => err (along a v t)) s 0 ∧ |s| ≤ ε * gradientNorm S v) ∧
    ∃ v, (ε ≠ 0 → gradientNorm S v ≠ 0) ∧
      HasDerivAt (fun t => err (along a v t)) (-(ε * gradientNorm S v)) 0

theorem pairing_le (S : Sys d m D) (v g : Amps) :
    |pairing S v g| ≤ gradientNorm S g * gradientNorm S v := by
  unfold gradientNorm
  rw [← Real.sqrt_mul (Finset.sum_nonneg fun _ _ => Finset.sum_nonneg fun _ _ => sq_nonneg _)]
  refine Real.abs_le_sqrt ?_
  unfold pairing
  rw [← Finset.sum_product', ← Finset.sum_product', ← Finset.sum_product', mul_comm]
  exact Finset.sum_mul_sq_le_sq_mul_sq _ _ _

theorem gradientNorm_nonneg (S : Sys d m D) (g : Amps) : 0 ≤ gradientNorm S g := Real.sqrt_nonneg _

theorem pairing_neg (S : Sys d m D) (g : Amps) :
    pairing S (fun k j => -g k j) g = -(gradientNorm S g * gradientNorm S (fun k j => -g k j)) := by
  have : gradientNorm S (fun k j => -g k j) = gradientNorm S g := by
    unfold gradientNorm
    simp only [neg_sq]
  rw [this]
  unfold gradientNorm
  rw [Real.mul_self_sqrt (Finset.sum_nonneg fun _ _ => Finset.sum_nonneg fun _ _ => sq_nonneg _)]
  unfold pairing
  rw [← Finset.sum_neg_distrib]
  refine Finset.sum_congr rfl fun k _ => ?_
  rw [← Finset.sum_neg_distrib]
  refine Finset.sum_congr rfl fun j _ => ?_
  ring

theorem SlopeAt.steepest {S : Sys d m D} {a g : Amps} (h : SlopeAt S a g) :
    SteepestSlope S a (gradientNorm S g) := by
  obtain ⟨err, h1, h2⟩ := h
  refine ⟨err, h1, fun v => ⟨_, h2 v, pairing_le S v g⟩, fun k j => -g k j, fun hne => ?_, ?_⟩
  · have : gradientNorm S (fun k j => -g k j) = gradientNorm S g := by
      unfold gradientNorm
      simp only [neg_sq]
    rw [this]
    exact hne
  · rw [← pairing_neg]
    exact h2 _

theorem SlopeAt.congr {S : Sys d m D} {a b g : Amps} (h : SlopeAt S a g) (hab : SameAmps S b a) :
    SlopeAt S b g := by
  obtain ⟨err, h1, h2⟩ := h
  refine ⟨err, h1, fun v => ?_⟩
  have e : (fun t => err (along b v t)) = fun t => err (along a v t) := by
    funext t
    have hs : SameAmps S (along b v t) (along a v t) := fun k j hk hj => by
      simp only [along, hab k j hk hj]
    have := fidErr_congr hs
    rw [h1, h1] at this
    injection this
  rw [e]
  exact h2 v

/-- The gradient at the amplitudes is the slope of the error there. -/
def SlopedAt (S : Sys d m D) (a : Amps) : Prop := ∀ g, gradient S a = .ok g → SlopeAt S a g

theorem slopedAt_of {S : Sys d m D} (hv : Valid S) {junk s0 : State d m D} {a : Amps}
    (h : ∃ g, query S junk s0 a [] .getGradient = .array g ∧ SlopeIs S junk s0 a [] g) :
    SlopedAt S a := by
  obtain ⟨g, h1, err, h2, h3⟩ := h
  intro g' hg'
  rw [query_eq hv] at h1
  simp only [answer, lastAmps, hg', Out.ofArray, Out.array.injEq] at h1
  subst h1
  refine ⟨err, fun b => ?_, h3⟩
  have := h2 b
  rw [query_eq hv, lastAmps_update] at this
  simp only [answer] at this
  cases hf : fidErr S b with
  | error e => rw [hf] at this; simp [Out.ofReal] at this
  | ok e => rw [hf] at this; simp only [Out.ofReal, Out.real.injEq] at this; rw [this]

/-- **C89**, partial: if the run is ended by the library's check of the gradient, the result says so, the
reported gradient norm is below the minimum, and it is the steepest slope of the error at the final
amplitudes: no direction promises more.  Missing: results that claim this because of what the
minimiser returned. -/
theorem C89_stopped_partial {S : Sys d m D} (hS : Valid S) (c : Cls) (tc : TermConds)
    (junk s0 : State d m D) (a0 : Amps) (gn0 : ℝ) (ops : List VOp) (gens : List Pulse.Crab)
    (start stop : ℝ) (pre : List Call) (x : List ℝ) (post : List Call) (f : Finish) (t : Term)
    (e0 : ℝ) (he : fidErr S (startAmps a0 ops) = .ok e0) (hq : Quiet S c.vars gens tc start pre)
    (hk : verdict S c.vars gens tc start (funcCount (pre ++ [.grad x])) (.grad x) = some (.term t))
    (hs : ∀ a, ampsOf S c.vars gens x = .ok a → SlopedAt S a) :
    ∃ o' r b, runOptimization S c tc (attached S junk s0 a0 gn0 ops gens) start stop
        (pre ++ .grad x :: post) f = (o', .ok r) ∧
      r.gradNormMinReached = true ∧ r.gradNormFinal < tc.minGradNorm ∧ r.finalAmps = some b ∧
      SteepestSlope S b r.gradNormFinal := by
  obtain ⟨o', r, h1, h2, h3, -, h4, -⟩ := run_stopped hS c tc
    (attached_inv hS junk s0 a0 gn0 ops gens) start stop pre (.grad x) post f t he hq hk
  obtain ⟨g, g1, g2⟩ := h4 x rfl
  obtain ⟨b, hb, hab⟩ := h3.finalAmps
  unfold verdict at hk
  cases hx : ampsOf S c.vars gens x with
  | error e => simp [hx] at hk
  | ok a =>
    have ha : ampsAfter S c.vars gens (startAmps a0 ops) (pre ++ [.grad x]) = a := by
      rw [ampsAfter_append]
      simp only [ampsAfter, hx]
      rfl
    rw [ha] at g1 hab
    simp only [hx, g1] at hk
    split at hk
    · rename_i hlt
      injection hk with hk
      injection hk with hk
      subst hk
      refine ⟨o', r, b, h1, h2.grad, by rw [g2]; exact hlt, hb, ?_⟩
      rw [g2]
      exact ((hs a hx g g1).congr hab).steepest
    · cases hk

/-- **C89**: if the minimiser ends the run at the point where it evaluated the gradient last, the
reported gradient norm is the steepest slope of the error at the final amplitudes. -/
theorem C89_returned {S : Sys d m D} (hS : Valid S) (c : Cls) (tc : TermConds)
    (junk s0 : State d m D) (a0 : Amps) (gn0 : ℝ) (ops : List VOp) (gens : List Pulse.Crab)
    (start stop : ℝ) (pre : List Call) (x : List ℝ) (f : Finish) (e0 : ℝ) (a : Amps)
    (he : fidErr S (startAmps a0 ops) = .ok e0)
    (hq : Quiet S c.vars gens tc start (pre ++ [.grad x])) (hf : f.x = x)
    (hx : ampsOf S c.vars gens x = .ok a) (hs : SlopedAt S a) :
    ∃ o' r b, runOptimization S c tc (attached S junk s0 a0 gn0 ops gens) start stop
        (pre ++ [.grad x]) f = (o', .ok r) ∧
      r.finalAmps = some b ∧ SteepestSlope S b r.gradNormFinal := by
  obtain ⟨o', r, r0, h1, -, -, h3, -, h4, -⟩ := run_finished hS c tc
    (attached_inv hS junk s0 a0 gn0 ops gens) start stop _ f he hq (by rw [hf]; exact hx)
  obtain ⟨g, g1, g2⟩ := h4 x pre rfl (by
    rw [ampsAfter_append]
    simp only [ampsAfter, hx]
    exact fun _ _ _ _ => rfl)
  obtain ⟨b, hb, hab⟩ := h3.finalAmps
  refine ⟨o', r, b, h1, hb, ?_⟩
  rw [g2]
  exact ((hs g g1).congr hab).steepest

/-- Some state. -/
def blank (x : D) : State d m D where
  ctrlAmps := none
  evoCurrent := false
  dynGen _ := 0
  phasedDynGen _ := 0
  decompCurr _ := false
  decomp _ := x
  prop _ := 0
  propGrad _ _ := 0
  fwd _ := 0
  onwd _ := 0
  onto _ := 0
  fidelityCurrent := false
  fidelity := 0
  fidErr := 0
  prenormCurrent := false
  prenorm := 0
  gradCurrent := false
  grad _ _ := 0
  numAmpUpdates := 0
  numAmpChanges := 0
  numTslotChanges := 0
  numRecompute := 0
  numFidComputes := 0
  numGradComputes := 0
  views := {}

/-- **C89**: the gradient is the slope of the error for closed systems with the trace difference. -/
theorem C89_closed_distance {c : UnitaryCfg d m} (hc : Closed c) (hu : c.fidKind = .traceDiff)
    (a : Amps) (hx : ExactAt c a) : SlopedAt c.sys a := by
  obtain ⟨g, h1, h2, -⟩ := C73_unitary_distance hc hu (blank ⟨0, 0, 0⟩) (blank ⟨0, 0, 0⟩) a [] hx
  exact slopedAt_of hc.valid ⟨g, h1, h2⟩

/-- **C89**: likewise with the overlap measure, unless the phase is ignored and the overlap is
zero. -/
theorem C89_closed {c : UnitaryCfg d m} [Nonempty m] (hc : Closed c) (hi : Normalised c)
    (hu : c.fidKind = .unitary) (hq : c.phaseOpt = .SU → c.isQobj = true) (a : Amps)
    (hx : ExactAt c a) (h0 : c.phaseOpt = .PSU → fidelity c.sys a ≠ .ok 0) : SlopedAt c.sys a := by
  have hu' : c.sys.fidKind = .unitary := by simpa using hu
  refine slopedAt_of hc.valid (C73_unitary_slope hc hi hu hq (blank ⟨0, 0, 0⟩) (blank ⟨0, 0, 0⟩) a [] hx fun hp he => ?_)
  rw [query_eq hc.valid] at he
  simp only [answer, lastAmps, hu'] at he
  cases hf : fidelity c.sys a with
  | error e => rw [hf] at he; simp [Out.ofReal] at he
  | ok e =>
    rw [hf] at he
    simp only [Out.ofReal, Out.real.injEq] at he
    exact h0 hp (by rw [hf, he])

/-- **C89**: likewise for given generators, such as those of open systems. -/
theorem C89_general {c : GeneralCfg d m} (h1 : 0 < c.nTs) (h2 : 0 < c.nCtrls)
    (hu : c.fidKind = .traceDiff) (ha : c.approx = false) (a : Amps) : SlopedAt c.sys a := by
  obtain ⟨g, g1, g2, -⟩ := C73_general h1 h2 hu ha (blank ()) (blank ()) a []
  exact slopedAt_of (general_valid h1 h2) ⟨g, g1, g2⟩

/-- **C89**: likewise for symplectic dynamics. -/
theorem C89_symplectic {n : Nat} {c : Sympl.Cfg n m} (h : SymplecticCfg c) (a : Amps) :
    SlopedAt c.sys a := by
  obtain ⟨g, g1, g2, -⟩ := C73_symplectic h (blank ⟨0, 0, 0⟩) (blank ⟨0, 0, 0⟩) a []
  exact slopedAt_of (Sympl.sys_valid h) ⟨g, g1, g2⟩

/-- The hypotheses are met by a qubit driven from zero amplitudes towards half a turn, and by the
other examples of C73. -/
example (a : Amps) : SlopedAt (halfTurn .SU).sys a ∧ SlopedAt (sample 3 .traceDiff .PSU).sys a ∧
    SlopedAt oscillatorFlow.sys a :=
  ⟨C89_closed (halfTurn_closed _) (halfTurn_normalised _) rfl (fun _ => rfl) a (Or.inl rfl)
      (fun h => by cases h),
    C89_closed_distance (sample_closed (by norm_num) _ _) rfl a (Or.inl rfl),
    C89_general (by decide) (by decide) rfl rfl a⟩

/-- **C89**: in numbers: small steps from the final amplitudes lower the error by at most the norm times
the length of the step, up to an error that is as small a part of the step as wanted; and steps in
the best direction lower it by that much. -/
theorem C89_nearby {S : Sys d m D} {a : Amps} {ε : ℝ} (h : SteepestSlope S a ε) :
    ∃ e, fidErr S a = .ok e ∧
      (∀ v, ∀ δ > 0, ∃ η > 0, ∀ t, 0 < t → t < η → ∃ e', fidErr S (along a v t) = .ok e' ∧
        |e' - e| ≤ t * (ε * gradientNorm S v + δ)) ∧
      ∃ v, (ε ≠ 0 → gradientNorm S v ≠ 0) ∧
        ∀ δ > 0, ∃ η > 0, ∀ t, 0 < t → t < η → ∃ e', fidErr S (along a v t) = .ok e' ∧
          e' ≤ e - t * (ε * gradientNorm S v - δ) := by
  obtain ⟨err, h1, h2, v, hv, h3⟩ := h
  have key : ∀ (v : Amps) (s : ℝ), HasDerivAt (fun t => err (along a v t)) s 0 → ∀ δ > 0,
      ∃ η > 0, ∀ t, 0 < t → t < η → |err (along a v t) - err a - t * s| ≤ t * δ := by
    intro v s hs δ hδ
    have hl := (hasDerivAt_iff_isLittleO_nhds_zero.1 hs).def hδ
    obtain ⟨η, hη, hb⟩ := Metric.eventually_nhds_iff.1 hl
    refine ⟨η, hη, fun t ht htη => ?_⟩
    have := hb (y := t) (by rw [dist_zero_right, Real.norm_eq_abs, abs_of_pos ht]; exact htη)
    simp only [zero_add, along_zero, smul_eq_mul, Real.norm_eq_abs, abs_of_pos ht] at this
    linarith
  refine ⟨err a, h1 a, fun v δ hδ => ?_, v, hv, fun δ hδ => ?_⟩
  · obtain ⟨s, hs, hle⟩ := h2 v
    obtain ⟨η, hη, hb⟩ := key v s hs δ hδ
    refine ⟨η, hη, fun t ht htη => ⟨_, h1 _, ?_⟩⟩
    have h4 := hb t ht htη
    have h5 : |t * s| ≤ t * (ε * gradientNorm S v) := by
      rw [abs_mul, abs_of_pos ht]
      exact mul_le_mul_of_nonneg_left hle ht.le
    have h6 := abs_add_le (err (along a v t) - err a - t * s) (t * s)
    rw [sub_add_cancel] at h6
    linarith
  · obtain ⟨η, hη, hb⟩ := key v _ h3 δ hδ
    refine ⟨η, hη, fun t ht htη => ⟨_, h1 _, ?_⟩⟩
    have h4 := (abs_le.1 (hb t ht htη)).2
    linarith

/-! ### The example of one slot and one control -/

theorem dot_sloped (a : Amps) : SlopedAt dotSys a := by
  intro g hg
  obtain ⟨g', h1, h2⟩ := dot_grad a
  rw [hg] at h1
  injection h1 with h1
  subst h1
  refine ⟨_, dot_err, fun v => ?_⟩
  have hp : pairing dotSys v g = v 0 0 * g 0 0 := by
    unfold pairing
    have hn : dotSys.nTs = 1 := rfl
    have hc : dotSys.nCtrls = 1 := rfl
    rw [hn, hc]
    simp
  rw [hp, h2]
  have h3 : HasDerivAt (fun t : ℝ => a 0 0 + t * v 0 0) (v 0 0) 0 := by
    simpa using ((hasDerivAt_id (0 : ℝ)).mul_const (v 0 0)).const_add (a 0 0)
  have h4 := (h3.cos).const_sub 1
  simp only [zero_mul, add_zero, neg_mul, neg_neg] at h4
  rw [mul_comm]
  exact h4

/-- The hypotheses of `C89_stopped_partial` are met: a run that is stopped by the minimum 1 at
`u = π/6`. -/
example (junk s0 : State (Fin 1) (Fin 1) Unit) (f : Finish) (start stop : ℝ) :
    ∃ o' r b, runOptimization dotSys .lbfgsb ⟨-1, 3600, 1, 10⟩
        (attached dotSys junk s0 (fun _ _ => 1) 0 [] []) start stop [.grad [Real.pi / 6]] f =
          (o', .ok r) ∧
      r.gradNormMinReached = true ∧ r.gradNormFinal < 1 ∧ r.finalAmps = some b ∧
      SteepestSlope dotSys b r.gradNormFinal := by
  obtain ⟨a, ha, hv⟩ := dot_point (Real.pi / 6) []
  have ha' : ampsOf dotSys Cls.lbfgsb.vars [] [Real.pi / 6] = .ok a := ha
  obtain ⟨g, hg, hg0⟩ := dot_grad a
  have hn : gradientNorm dotSys g = 1 / 2 := by
    rw [dot_norm a g hg, hv, Real.sin_pi_div_six, abs_of_pos (by norm_num)]
  have hk : verdict dotSys Cls.lbfgsb.vars [] ⟨-1, 3600, 1, 10⟩ start
      (funcCount ([] ++ [.grad [Real.pi / 6]])) (.grad [Real.pi / 6]) =
      some (.term (.gradMin (1 / 2))) := by
    simp only [verdict, ha', hg, hn]
    norm_num
  exact C89_stopped_partial dotSys_valid .lbfgsb ⟨-1, 3600, 1, 10⟩ junk s0 (fun _ _ => 1) 0 [] []
    start stop [] _ [] f _ _ (dot_err _) (by intro p c q h; simp at h) hk fun a _ => dot_sloped a

/-- **C89 fails** when L-BFGS-B returns with `warnflag` 0, for instance because the error has stopped
to fall: the result says that the gradient minimum (1/2) was reached, but at the final amplitudes the
error falls at the rate 1. -/
theorem C89_violated (junk s0 : State (Fin 1) (Fin 1) Unit) :
    ∃ o' r b, runOptimization dotSys .lbfgsb ⟨1 / 2, 3600, 1 / 2, 10⟩
        (attached dotSys junk s0 (fun _ _ => 1) 0 [] []) 0 6
        [.func [Real.pi / 2], .iter 5, .grad [Real.pi / 2]]
        ⟨[Real.pi / 2], 0, "CONVERGENCE: REL_REDUCTION_OF_F", 1⟩ = (o', .ok r) ∧
      r.gradNormMinReached = true ∧ r.finalAmps = some b ∧ SteepestSlope dotSys b 1 := by
  obtain ⟨hq, o', r, h1, h2, h3⟩ := C30_violated_case junk s0
  obtain ⟨a, ha, -⟩ := dot_point (Real.pi / 2) []
  obtain ⟨o'', r', b, h4, h5, h6⟩ := C89_returned dotSys_valid .lbfgsb ⟨1 / 2, 3600, 1 / 2, 10⟩ junk
    s0 (fun _ _ => 1) 0 [] [] 0 6 [.func [Real.pi / 2], .iter 5] [Real.pi / 2]
    ⟨[Real.pi / 2], 0, "CONVERGENCE: REL_REDUCTION_OF_F", 1⟩ _ a (dot_err _) hq rfl ha (dot_sloped a)
  rw [List.cons_append, List.cons_append, List.nil_append, h1] at h4
  injection h4 with h4 h7
  injection h7 with h7
  subst h7
  rw [h3] at h6
  exact ⟨o', r, b, h1, h2, h5, h6⟩

/-- `C89_nearby` at `u = π/2`, where the gradient is 1. -/
example (a : Amps) (ha : a 0 0 = Real.pi / 2) : ∃ e, fidErr dotSys a = .ok e ∧
    ∀ v, ∀ δ > 0, ∃ η > 0, ∀ t, 0 < t → t < η → ∃ e', fidErr dotSys (along a v t) = .ok e' ∧
      |e' - e| ≤ t * (1 * gradientNorm dotSys v + δ) := by
  obtain ⟨g, hg, -⟩ := dot_grad a
  have hn : gradientNorm dotSys g = 1 := by
    rw [dot_norm a g hg, ha, Real.sin_pi_div_two, abs_one]
  have h := (dot_sloped a g hg).steepest
  rw [hn] at h
  obtain ⟨e, h1, h2, -⟩ := C89_nearby h
  exact ⟨e, h1, h2⟩

end QTrl.Opt
