import Verif.Props.Continuum
import Verif.Props.SpeedLimit
import Verif.Props.OptimizerCases

/-
C87: results of optimisations for every kind of dynamics: what belongs together, and what is out of
reach.
-/

set_option linter.unusedSectionVars false

open Matrix

namespace QTrl.Opt

open QTrl.Dyn QTrl.Spec

variable {d m D : Type} [Fintype d] [DecidableEq d] [Fintype m] [DecidableEq m]

/-- Amplitudes, evolution and error belong together: the equation of motion with the generators under
the pulse has a solution, all solutions end in the evolution, and the error is that of their end. -/
def TogetherIn (φ : Matrix d d ℂ →ₗ[ℂ] Matrix d d ℂ) (S : Sys d m D) (amps : Option Amps)
    (evo : Option (Matrix d m ℂ)) (err : ℝ) : Prop :=
  ∃ b, amps = some b ∧
    (∃ X, Motion S.nTs S.tau (fun k => φ (S.drift k + ∑ j ∈ Finset.range S.nCtrls,
      (b k j : ℂ) • S.ctrl k j)) S.initial X) ∧
    ∀ X, Motion S.nTs S.tau (fun k => φ (S.drift k + ∑ j ∈ Finset.range S.nCtrls,
        (b k j : ℂ) • S.ctrl k j)) S.initial X →
      evo = some (X (slotTime S.tau S.nTs)) ∧ err = errorAt S (X (slotTime S.tau S.nTs))

/-- The scale on which errors are compared: distances from the target with the trace difference, the
errors themselves with the overlap measure. -/
noncomputable def gauge (S : Sys d m D) (e : ℝ) : ℝ :=
  match S.fidKind with
  | .traceDiff => Real.sqrt e
  | .unitary => e

/-- How far it moves when the final object moves by one. -/
noncomputable def gaugeFactor (S : Sys d m D) : ℝ :=
  match S.fidKind with
  | .traceDiff => Real.sqrt (S.scale * Fintype.card m)
  | .unitary => Fintype.card m * opNorm S.ontoTarget / |S.dimNorm|

/-- What pulses up to `B` can do at most: durations times amplitudes times strengths of the controls,
times the growth the generators allow and the size of the initial object. -/
noncomputable def reachOf (φ : Matrix d d ℂ →ₗ[ℂ] Matrix d d ℂ) (S : Sys d m D) (μ : Nat → ℝ)
    (B : Amps) : ℝ :=
  Real.exp (∑ k ∈ Finset.range S.nTs, μ k) * (∑ k ∈ Finset.range S.nTs, |S.tau k| *
    ∑ j ∈ Finset.range S.nCtrls, B k j * opNorm (φ (S.ctrl k j))) * opNorm S.initial

section
variable {φ : Matrix d d ℂ →ₗ[ℂ] Matrix d d ℂ} {S : Sys d m D}

theorem fidErr_errorAt {a : Amps} {e : ℝ} (h : fidErr S a = .ok e) : e = errorAt S (final S a) := by
  unfold fidErr at h
  unfold errorAt
  cases hf : S.fidKind with
  | traceDiff =>
    rw [hf] at h
    simp only [frobSq_re] at h
    cases h
    rfl
  | unitary =>
    rw [hf] at h
    unfold fidelity at h
    cases hp : S.phaseOpt with
    | PSU =>
      simp only [hp, Except.map] at h
      cases h
      rfl
    | SU =>
      simp only [hp] at h
      cases hq : S.isQobj with
      | false => rw [hq] at h; simp [Except.map] at h
      | true =>
        simp only [hq, Except.map] at h
        cases h
        rfl

theorem togetherIn_of (hS : Exponential φ S) (hτ : ∀ k, k < S.nTs → 0 ≤ S.tau k) {a : Amps}
    {amps : Option Amps} {evo : Option (Matrix d m ℂ)} {err : ℝ} (h1 : fidErr S a = .ok err)
    (h2 : evo = some (final S a)) (h3 : ∃ b, amps = some b ∧ SameAmps S b a) :
    TogetherIn φ S amps evo err := by
  obtain ⟨b, hb, hs⟩ := h3
  refine ⟨b, hb, ⟨_, motion_exists hτ _ _⟩, fun X hX => ?_⟩
  have hF : final S a = X (slotTime S.tau S.nTs) := by
    rw [motion_value hτ hX (le_refl _)]
    unfold final evolution
    congr 1
    refine timeOrdered_congr fun i _ hi => ?_
    rw [← propagator_congr hs hi, hS _ _ hi]
    rfl
  exact ⟨by rw [h2, hF], by rw [fidErr_errorAt h1, hF]⟩

/-- **C87.** A run that the minimiser ends: the final amplitudes, evolution and error of the result
belong together, and so do the initial ones, whatever the dynamics. -/
theorem C87_returned (hv : Valid S) (hS : Exponential φ S) (hτ : ∀ k, k < S.nTs → 0 ≤ S.tau k)
    (cls : Cls) (tc : TermConds) (junk s0 : State d m D) (a0 : Amps) (gn0 : ℝ) (ops : List VOp)
    (gens : List Pulse.Crab) (start stop : ℝ) (cs : List Call) (f : Finish) (e0 : ℝ) (a : Amps)
    (he : fidErr S (startAmps a0 ops) = .ok e0) (hq : Quiet S cls.vars gens tc start cs)
    (hx : ampsOf S cls.vars gens f.x = .ok a) :
    ∃ o' r, runOptimization S cls tc (attached S junk s0 a0 gn0 ops gens) start stop cs f =
        (o', .ok r) ∧
      TogetherIn φ S r.finalAmps r.evoFullFinal r.fidErr ∧
      TogetherIn φ S r.initialAmps r.evoFullInitial r.initialFidErr := by
  obtain ⟨o', r, h1, h2, -⟩ := C31_returned hv cls tc junk s0 a0 gn0 ops gens start stop cs f
    e0 a he hq hx
  exact ⟨o', r, h1, togetherIn_of hS hτ h2.finalErr h2.finalEvo h2.finalAmps,
    togetherIn_of hS hτ h2.initialErr h2.initialEvo h2.initialAmps⟩

/-- **C87.** Likewise for a run ended by a termination condition. -/
theorem C87_stopped (hv : Valid S) (hS : Exponential φ S) (hτ : ∀ k, k < S.nTs → 0 ≤ S.tau k)
    (cls : Cls) (tc : TermConds) (junk s0 : State d m D) (a0 : Amps) (gn0 : ℝ) (ops : List VOp)
    (gens : List Pulse.Crab) (start stop : ℝ) (pre : List Call) (k : Call) (post : List Call)
    (f : Finish) (t : Term) (e0 : ℝ)
    (he : fidErr S (startAmps a0 ops) = .ok e0) (hq : Quiet S cls.vars gens tc start pre)
    (hk : verdict S cls.vars gens tc start (funcCount (pre ++ [k])) k = some (.term t)) :
    ∃ o' r, runOptimization S cls tc (attached S junk s0 a0 gn0 ops gens) start stop
        (pre ++ k :: post) f = (o', .ok r) ∧
      TogetherIn φ S r.finalAmps r.evoFullFinal r.fidErr ∧
      TogetherIn φ S r.initialAmps r.evoFullInitial r.initialFidErr := by
  obtain ⟨o', r, h1, h2, -⟩ := C31_stopped hv cls tc junk s0 a0 gn0 ops gens start stop pre k
    post f t e0 he hq hk
  exact ⟨o', r, h1, togetherIn_of hS hτ h2.finalErr h2.finalEvo h2.finalAmps,
    togetherIn_of hS hτ h2.initialErr h2.initialEvo h2.initialAmps⟩

theorem gauge_near (hp : S.fidKind = .traceDiff → 0 ≤ S.scale) (X Y : Matrix d m ℂ) :
    |gauge S (errorAt S X) - gauge S (errorAt S Y)| ≤ gaugeFactor S * opNorm (X - Y) := by
  unfold gauge gaugeFactor
  cases hf : S.fidKind with
  | traceDiff => exact errorAt_near_distance hf (hp hf) X Y
  | unitary => exact errorAt_near_overlap hf X Y

theorem gaugeFactor_nonneg : 0 ≤ gaugeFactor S := by
  unfold gaugeFactor
  cases S.fidKind with
  | traceDiff => exact Real.sqrt_nonneg _
  | unitary => exact div_nonneg (mul_nonneg (Nat.cast_nonneg _) (opNorm_nonneg _)) (abs_nonneg _)

theorem gauge_mono {e e' : ℝ} (h : e ≤ e') : gauge S e ≤ gauge S e' := by
  unfold gauge
  cases S.fidKind with
  | traceDiff => exact Real.sqrt_le_sqrt h
  | unitary => exact h

/-- **C87.** After any history the reported error is below the one reported without a pulse by no more
than what the pulse can do, whatever the dynamics and however strong the drift. -/
theorem C87_limit (hv : Valid S) (hS : Exponential φ S)
    (hp : S.fidKind = .traceDiff → 0 ≤ S.scale)
    (hq : S.fidKind = .unitary → S.phaseOpt = .SU → S.isQobj = true)
    (junk s0 junk' s0' : State d m D) (a0 : Amps) (ops : List Op) (B : Amps) {μ : Nat → ℝ}
    (hB : ∀ k j, k < S.nTs → j < S.nCtrls → |lastAmps a0 ops k j| ≤ B k j)
    (hμ : ∀ k, k < S.nTs → Growth (μ k) (exponent φ S (lastAmps a0 ops) k))
    (hμ0 : ∀ k, k < S.nTs → Growth (μ k) (exponent φ S (fun _ _ => 0) k)) :
    ∃ e free, query S junk s0 a0 ops .getFidErr = .real e ∧
      query S junk' s0' (fun _ _ => 0) [] .getFidErr = .real free ∧
      gauge S free - gaugeFactor S * reachOf φ S μ B ≤ gauge S e := by
  refine ⟨_, _, reports_errorAt hv hq junk s0 a0 ops, reports_errorAt hv hq junk' s0' _ [], ?_⟩
  have h1 := C85_evolution hv hv hS hS rfl rfl junk s0 junk' s0' a0 (fun _ _ => 0) ops [] hμ hμ0
    S.nTs le_rfl
  have h2 := C85_amps (φ := φ) (S := S) (lastAmps a0 ops) (lastAmps (fun _ _ => 0) []) μ S.nTs
  have h3 : ∑ k ∈ Finset.range S.nTs, |S.tau k| * ∑ j ∈ Finset.range S.nCtrls,
      |lastAmps a0 ops k j - lastAmps (fun _ _ => 0) [] k j| * opNorm (φ (S.ctrl k j)) ≤
      ∑ k ∈ Finset.range S.nTs, |S.tau k| *
        ∑ j ∈ Finset.range S.nCtrls, B k j * opNorm (φ (S.ctrl k j)) := by
    refine Finset.sum_le_sum fun i hir => mul_le_mul_of_nonneg_left
      (Finset.sum_le_sum fun j hjr => mul_le_mul_of_nonneg_right ?_ (opNorm_nonneg _)) (abs_nonneg _)
    have := hB i j (Finset.mem_range.1 hir) (Finset.mem_range.1 hjr)
    simpa [lastAmps] using this
  have h4 : opNorm (reachedBy S junk s0 a0 ops S.nTs -
      reachedBy S junk' s0' (fun _ _ => 0) [] S.nTs) ≤ reachOf φ S μ B :=
    h1.trans (mul_le_mul_of_nonneg_right (h2.trans (mul_le_mul_of_nonneg_left h3
      (Real.exp_pos _).le)) (opNorm_nonneg _))
  have h5 := (gauge_near hp (reachedBy S junk s0 a0 ops S.nTs)
    (reachedBy S junk' s0' (fun _ _ => 0) [] S.nTs)).trans
    (mul_le_mul_of_nonneg_left h4 gaugeFactor_nonneg)
  have := (abs_le.1 h5).1
  linarith

/-- **C87.** If the amplitudes of all points the minimiser tries are within `B`, and the target error is
below what they can bring the error down to, then the result does not say that the goal was
achieved. -/
theorem C87_goal (hv : Valid S) (hS : Exponential φ S)
    (hp : S.fidKind = .traceDiff → 0 ≤ S.scale)
    (hqo : S.fidKind = .unitary → S.phaseOpt = .SU → S.isQobj = true) (cls : Cls) (tc : TermConds)
    (junk s0 : State d m D) (a0 : Amps) (gn0 : ℝ) (ops : List VOp) (gens : List Pulse.Crab)
    (start stop : ℝ) (cs : List Call) (f : Finish) (o' : OState d m D) (r : Result d m)
    (e0 free : ℝ) (B : Amps) {μ : Nat → ℝ} (he : fidErr S (startAmps a0 ops) = .ok e0)
    (hr : runOptimization S cls tc (attached S junk s0 a0 gn0 ops gens) start stop cs f =
      (o', .ok r))
    (hB : ∀ x a, .func x ∈ cs → ampsOf S cls.vars gens x = .ok a →
      ∀ k j, k < S.nTs → j < S.nCtrls → |a k j| ≤ B k j)
    (hμ : ∀ a : Amps, (∀ k j, k < S.nTs → j < S.nCtrls → |a k j| ≤ B k j) →
      ∀ k, k < S.nTs → Growth (μ k) (exponent φ S a k))
    (hμ0 : ∀ k, k < S.nTs → Growth (μ k) (exponent φ S (fun _ _ => 0) k))
    (hf : query S junk s0 (fun _ _ => 0) [] .getFidErr = .real free)
    (hlt : gauge S tc.fidErrTarg < gauge S free - gaugeFactor S * reachOf φ S μ B) :
    r.goalAchieved = false := by
  cases hg : r.goalAchieved with
  | false => rfl
  | true =>
    exfalso
    obtain ⟨pre, x, post, a, e, rfl, -, hx, hfe, hle⟩ :=
      ((C30_goal hv cls tc junk s0 a0 gn0 ops gens start stop cs f o' r e0 he hr).1).1 hg
    have hBa := hB x a (by simp) hx
    obtain ⟨e', free', h1, h2, h3⟩ := C87_limit hv hS hp hqo junk s0 junk s0 a [] B hBa
      (hμ a hBa) hμ0
    rw [hf] at h2
    injection h2 with h2
    rw [query_eq hv] at h1
    simp only [answer, lastAmps, hfe, Out.ofReal, Out.real.injEq] at h1
    have h4 := gauge_mono (S := S) hle
    rw [h1] at h4
    rw [h2] at hlt
    linarith

end

/-! ### Non-vacuity -/

/-- The leaking qubit with the zero matrix as target. -/
noncomputable def losing (r : ℝ) : GeneralCfg (Fin 2) (Fin 2) :=
  { leaking r .traceDiff with target := 0 }

theorem losing_valid (r : ℝ) : Valid (losing r).sys :=
  general_valid (by change 0 < 3; norm_num) (by change 0 < 1; norm_num)

theorem losing_growth {r : ℝ} (hr : 0 ≤ r) (a : Amps) (k : Nat) :
    Growth 0 (exponent LinearMap.id (losing r).sys a k) := leaking_growth hr .traceDiff a k

theorem losing_err (r : ℝ) (a : Amps) : fidErr (losing r).sys a =
    .ok (errorAt (losing r).sys (final (losing r).sys a)) := by
  have hf : (losing r).sys.fidKind = .traceDiff := rfl
  unfold fidErr errorAt
  simp only [hf, frobSq_re]

theorem losing_nonneg (r : ℝ) (X : Matrix (Fin 2) (Fin 2) ℂ) : 0 ≤ errorAt (losing r).sys X := by
  have hf : (losing r).sys.fidKind = .traceDiff := rfl
  have hs : (losing r).sys.scale = 1 := rfl
  simp only [errorAt, hf, hs, one_mul]
  exact frobSq_nonneg _

/-- Without a pulse the lower level stays occupied. -/
theorem losing_free (r : ℝ) (junk s0 : State (Fin 2) (Fin 2) Unit) :
    ∃ free, query (losing r).sys junk s0 (fun _ _ => 0) [] .getFidErr = .real free ∧ 1 ≤ free := by
  refine ⟨_, reports_errorAt (losing_valid r) (fun h => by cases h) junk s0 _ [], ?_⟩
  have h0 : ∀ k, NormedSpace.exp (exponent LinearMap.id (losing r).sys (fun _ _ => 0) k) =
      diagonal ![1, Complex.exp (((1 / (k + 1) : ℝ) : ℂ) * -(r : ℂ))] := by
    intro k
    have e : exponent LinearMap.id (losing r).sys (fun _ _ => 0) k =
        diagonal ![0, ((1 / (k + 1) : ℝ) : ℂ) * -(r : ℂ)] := by
      change ((1 / (k + 1) : ℝ) : ℂ) • (diagonal ![0, -(r : ℂ)] + ∑ j ∈ Finset.range 1,
        (((0 : ℝ)) : ℂ) • (-Complex.I • (!![0, 1; 1, 0] : Matrix (Fin 2) (Fin 2) ℂ))) = _
      ext i j
      fin_cases i <;> fin_cases j <;> simp
    rw [e, Matrix.exp_diagonal]
    congr 1
    ext i
    fin_cases i
    · simp [Pi.coe_exp]
    · simp [Pi.coe_exp, Complex.exp_eq_exp_ℂ]
  have hX : reachedBy (losing r).sys junk s0 (fun _ _ => 0) [] (losing r).sys.nTs 0 0 = 1 := by
    rw [reachedBy_eq (losing_valid r) (exponential_general _) junk s0 _ [] le_rfl]
    have hl : lastAmps (fun _ _ => 0) [] = (fun _ _ => 0 : Amps) := rfl
    simp only [hl, h0]
    rw [show (losing r).sys.nTs = 2 + 1 from rfl, show (losing r).sys.initial = 1 from rfl, Matrix.mul_one]
    rw [timeOrdered_succ _ (by norm_num), timeOrdered_succ _ (by norm_num),
      timeOrdered_succ _ (by norm_num), timeOrdered_self]
    simp [Matrix.mul_apply, Fin.sum_univ_two, Matrix.diagonal_apply]
  have hf : (losing r).sys.fidKind = .traceDiff := rfl
  have hs : (losing r).sys.scale = 1 := rfl
  have ht : (losing r).sys.target = 0 := rfl
  simp only [errorAt, hf, hs, ht, one_mul]
  unfold frobSq
  simp only [Fin.sum_univ_two, Matrix.sub_apply, hX]
  have := sq_nonneg ‖(0 : Matrix (Fin 2) (Fin 2) ℂ) 0 1 -
    reachedBy (losing r).sys junk s0 (fun _ _ => 0) [] (losing r).sys.nTs 0 1‖
  have := sq_nonneg ‖(0 : Matrix (Fin 2) (Fin 2) ℂ) 1 0 -
    reachedBy (losing r).sys junk s0 (fun _ _ => 0) [] (losing r).sys.nTs 1 0‖
  have := sq_nonneg ‖(0 : Matrix (Fin 2) (Fin 2) ℂ) 1 1 -
    reachedBy (losing r).sys junk s0 (fun _ _ => 0) [] (losing r).sys.nTs 1 1‖
  have : ‖(0 : Matrix (Fin 2) (Fin 2) ℂ) 0 0 - 1‖ ^ 2 = 1 := by simp
  linarith

theorem losing_reach (r : ℝ) : gaugeFactor (losing r).sys *
    reachOf LinearMap.id (losing r).sys (fun _ => 0) (fun _ _ => 1 / 10) ≤ 2 / 5 := by
  have h1 : gaugeFactor (losing r).sys ≤ 3 / 2 := by
    change Real.sqrt (1 * (Fintype.card (Fin 2) : ℝ)) ≤ 3 / 2
    rw [Real.sqrt_le_left (by norm_num)]
    norm_num
  have h2 : opNorm (-Complex.I • (!![0, 1; 1, 0] : Matrix (Fin 2) (Fin 2) ℂ)) ≤ 1 := by
    refine opNorm_isometry ?_
    ext i j
    fin_cases i <;> fin_cases j <;> simp [Matrix.mul_apply, Fin.sum_univ_two]
  have h3 : opNorm (1 : Matrix (Fin 2) (Fin 2) ℂ) ≤ 1 := opNorm_one_le
  have h4 : reachOf LinearMap.id (losing r).sys (fun _ => 0) (fun _ _ => 1 / 10) ≤ 11 / 60 := by
    have e : reachOf LinearMap.id (losing r).sys (fun _ => 0) (fun _ _ => 1 / 10) =
        11 / 60 * opNorm (-Complex.I • (!![0, 1; 1, 0] : Matrix (Fin 2) (Fin 2) ℂ)) *
          opNorm (1 : Matrix (Fin 2) (Fin 2) ℂ) := by
      change Real.exp (∑ k ∈ Finset.range 3, 0) * (∑ k ∈ Finset.range 3, |1 / ((k : ℝ) + 1)| *
        ∑ j ∈ Finset.range 1, (1 / 10) *
          opNorm (-Complex.I • (!![0, 1; 1, 0] : Matrix (Fin 2) (Fin 2) ℂ))) *
          opNorm (1 : Matrix (Fin 2) (Fin 2) ℂ) = _
      rw [Finset.sum_range_one, ← Finset.sum_mul, Finset.sum_const_zero, Real.exp_zero]
      simp only [Finset.sum_range_succ, Finset.sum_range_zero]
      rw [abs_of_pos (by norm_num), abs_of_pos (by norm_num), abs_of_pos (by norm_num)]
      push_cast
      ring
    rw [e]
    have := opNorm_nonneg (-Complex.I • (!![0, 1; 1, 0] : Matrix (Fin 2) (Fin 2) ℂ))
    have := opNorm_nonneg (1 : Matrix (Fin 2) (Fin 2) ℂ)
    nlinarith
  have h5 := gaugeFactor_nonneg (S := (losing r).sys)
  nlinarith

/-- **C87_returned**, **C87_stopped**, **C87_limit**, **C87_goal**: a lossy qubit that is to be emptied; a
run of BFGS that tries amplitudes up to 1/10 returns a result that belongs together and does not
achieve the goal 1/4. -/
example {r : ℝ} (hr : 0 ≤ r) (junk s0 : State (Fin 2) (Fin 2) Unit) :
    ∃ o' res, runOptimization (losing r).sys .bfgs ⟨1 / 4, 10, 0, 10⟩
        (attached (losing r).sys junk s0 (fun _ _ => 0) 0 [.readProp] []) 0 1
        [.func [1 / 10, 1 / 20, 0]] ⟨[1 / 10, 1 / 20, 0], 1, "", 1⟩ = (o', .ok res) ∧
      TogetherIn LinearMap.id (losing r).sys res.finalAmps res.evoFullFinal res.fidErr ∧
      res.goalAchieved = false := by
  obtain ⟨free, hfree, h1⟩ := losing_free r junk s0
  have hreach := losing_reach r
  have hg : ∀ e, gauge (losing r).sys e = Real.sqrt e := fun _ => rfl
  have hsq : 1 ≤ gauge (losing r).sys free := by rw [hg]; exact Real.one_le_sqrt.2 h1
  have htarg : gauge (losing r).sys (1 / 4) = 1 / 2 := by
    rw [hg, show (1 / 4 : ℝ) = (1 / 2) ^ 2 by norm_num, Real.sqrt_sq (by norm_num)]
  obtain ⟨a, ha, ha0⟩ : ∃ a, ampsOf (losing r).sys Cls.bfgs.vars [] [1 / 10, 1 / 20, 0] = .ok a ∧
      ∀ k j, k < (losing r).sys.nTs → j < (losing r).sys.nCtrls → |a k j| ≤ 1 / 10 := by
    obtain ⟨a, h⟩ := (C29_point (losing r).sys [] [1 / 10, 1 / 20, 0]).2 rfl
    refine ⟨a, h, fun k j hk hj => ?_⟩
    have h2 := ((C29_point (losing r).sys [] [1 / 10, 1 / 20, 0]).1 a h).2 k j hk hj
    obtain rfl : j = 0 := by
      change j < 1 at hj
      omega
    change k < 3 at hk
    change [1 / 10, 1 / 20, 0][k * 1 + 0]? = some (a k 0) at h2
    interval_cases k <;> simp at h2 <;> rw [← h2] <;> norm_num [abs_of_pos]
  obtain ⟨e, free', q1, q2, q3⟩ := C87_limit (losing_valid r) (exponential_general _)
    (fun _ => by change (0 : ℝ) ≤ 1; norm_num) (fun h => by cases h) junk s0 junk s0 a []
    (fun _ _ => 1 / 10) ha0 (fun k _ => losing_growth hr a k) (fun k _ => losing_growth hr _ k)
  rw [hfree] at q2
  injection q2 with q2
  have he : fidErr (losing r).sys a = .ok e := by
    rw [query_eq (losing_valid r)] at q1
    simp only [answer, lastAmps, losing_err, Out.ofReal, Out.real.injEq] at q1
    rw [losing_err, q1]
  have hbig : 1 / 4 < e := by
    by_contra hle
    have := gauge_mono (S := (losing r).sys) (not_lt.1 hle)
    rw [htarg] at this
    rw [← q2] at q3
    linarith
  obtain ⟨o', res, hrun, ht, -⟩ := C87_returned (φ := LinearMap.id) (losing_valid r)
    (exponential_general _) (fun k _ => by change 0 ≤ 1 / ((k : ℝ) + 1); positivity) .bfgs
    ⟨1 / 4, 10, 0, 10⟩ junk s0 (fun _ _ => 0) 0 [.readProp] [] 0 1 [.func [1 / 10, 1 / 20, 0]]
    ⟨[1 / 10, 1 / 20, 0], 1, "", 1⟩ _ a (losing_err r _) (by
      intro p k q hp
      obtain ⟨rfl, rfl, rfl⟩ : p = [] ∧ k = .func [1 / 10, 1 / 20, 0] ∧ q = [] := by
        cases p with
        | nil => simpa [eq_comm] using hp
        | cons x p => simp at hp
      simp only [verdict, ha, he]
      rw [if_neg (by linarith), if_neg (by norm_num [funcCount])]) ha
  refine ⟨o', res, hrun, ht, ?_⟩
  refine C87_goal (φ := LinearMap.id) (losing_valid r) (exponential_general _)
    (fun _ => by change (0 : ℝ) ≤ 1; norm_num) (fun h => by cases h) .bfgs ⟨1 / 4, 10, 0, 10⟩ junk s0
    (fun _ _ => 0) 0 [.readProp] [] 0 1 _ _ o' res _ free (fun _ _ => 1 / 10) (μ := fun _ => 0)
    (losing_err r _) hrun (fun x b hx hb => ?_) (fun b _ k _ => losing_growth hr b k)
    (fun k _ => losing_growth hr _ k) hfree ?_
  · have hx : x = [1 / 10, 1 / 20, 0] := by simpa using hx
    subst hx
    rw [ha] at hb
    injection hb with hb
    rw [← hb]
    exact ha0
  · show gauge _ (1 / 4 : ℝ) < _
    rw [htarg]
    linarith

end QTrl.Opt
