import Verif.Props.Evolution
import Verif.Props.Timeslots
import Verif.Spec.Reconfig
import Mathlib.Analysis.SpecialFunctions.Trigonometric.Basic
import Mathlib.Analysis.Complex.Trigonometric
import Mathlib.LinearAlgebra.Matrix.Notation

/-
C07 (configuration changes) and C08 (arrays by reference).  Both properties are
violated by the code: the negations are proved with concrete systems, and what
does hold is proved as `_partial` theorems.
-/

set_option linter.unusedSectionVars false

namespace QTrl.Dyn

open QTrl.Spec

variable {d m D : Type} [Fintype d] [DecidableEq d] [Fintype m] [DecidableEq m]

/-! ### C07 -/

/-- Once a fidelity error has been reported, it is what is reported after *any*
change of the configuration: `get_fid_err` ignores the change. -/
theorem C07_change_ignored (S S' : Sys d m D) (h : S'.fidKind = S.fidKind) (s t : State d m D)
    (v : ℝ) (hv : getFidErr S s = (t, .ok v)) : (getFidErr S' t).2 = .ok v := by
  unfold getFidErr at hv ⊢
  rw [h]
  cases hk : S.fidKind with
  | unitary =>
    simp only [hk] at hv ⊢
    have key : ∀ (u : State d m D) (f : ℝ), getFidelity S s = (u, .ok f) →
        u.fidelityCurrent = true ∧ u.fidelity = f := by
      intro u f hf
      unfold getFidelity at hf
      by_cases hc : s.fidelityCurrent = true
      · rw [if_pos hc] at hf
        cases hf
        exact ⟨hc, rfl⟩
      · rw [if_neg hc] at hf
        rcases hg : getPrenorm S s with ⟨w, _ | g⟩
        · simp [hg] at hf
        · simp only [hg] at hf
          rcases hn : fidNorm S g with _ | z
          · simp [hn] at hf
          · simp only [hn, Prod.mk.injEq, Except.ok.injEq] at hf
            obtain ⟨rfl, rfl⟩ := hf
            exact ⟨rfl, rfl⟩
    rcases hf : getFidelity S s with ⟨u, _ | f⟩
    · simp [hf] at hv
    · simp only [hf, Prod.mk.injEq, Except.ok.injEq] at hv
      obtain ⟨rfl, rfl⟩ := hv
      obtain ⟨h1, h2⟩ := key _ _ hf
      unfold getFidelity
      simp only [h1, if_true, h2]
  | traceDiff =>
    simp only [hk] at hv ⊢
    unfold getFidErrTD at hv ⊢
    by_cases hc : s.fidelityCurrent = true
    · rw [if_pos hc] at hv
      cases hv
      rw [if_pos hc]
    · rw [if_neg hc] at hv
      rcases hg : computeEvolution S s with ⟨w, _ | g⟩
      · simp [hg] at hv
      · simp only [hg, Prod.mk.injEq, Except.ok.injEq] at hv
        obtain ⟨rfl, rfl⟩ := hv
        simp

/-- A one-level system: `H = u`, propagator `exp(-i u tau)`, target 1, phase option
SU, one slot of duration `pi`. -/
noncomputable def tinySys : Sys (Fin 1) (Fin 1) Unit where
  nTs := 1
  nCtrls := 1
  drift _ := 0
  ctrl _ _ := 1
  tau _ := Real.pi
  phase := some fun A => -Complex.I • A
  initial := 1
  target := 1
  ontoTarget := 1
  isQobj := true
  cachePhased := true
  phasedCtrl _ _ := -Complex.I • 1
  cachePropGrad := true
  propKind := .frechet
  fidKind := .unitary
  phaseOpt := .SU
  dimNorm := 1
  scale := 1
  expm A := Matrix.of fun _ _ => Complex.exp (A 0 0)
  frechet A E := Matrix.of fun _ _ => E 0 0 * Complex.exp (A 0 0)
  decompose _ _ := ()
  diagProp _ := 1
  diagGrad _ _ _ := 0

theorem tinySys_valid : Valid tinySys := by
  refine ⟨by simp [tinySys], by simp [tinySys], ?_⟩
  intro ph hph _ k j
  simp only [tinySys, Option.some.injEq] at hph
  subst hph
  rfl

theorem tiny_overlap (a : Amps) (tau : Nat → ℝ) (p : PhaseOpt) (c : ℂ) :
    overlap { tinySys with tau := tau, phaseOpt := p, phase := some fun A => c • A } a =
      Complex.exp (tau 0 * (c * a 0 0)) := by
  simp [overlap, final, evolution, timeOrdered, propagator, tinySys, phased, generator,
    Matrix.trace_fin_one]

theorem tiny_fidErr (a : Amps) (tau : Nat → ℝ) (c : ℂ) :
    fidErr { tinySys with tau := tau, phaseOpt := .SU, phase := some fun A => c • A } a =
      .ok |1 - (Complex.exp (tau 0 * (c * a 0 0))).re| := by
  have h := tiny_overlap a tau .SU c
  simp only [fidErr, fidelity, h]
  simp [tinySys, Except.map]

theorem tiny_fidErr_PSU (a : Amps) (tau : Nat → ℝ) (c : ℂ) :
    fidErr { tinySys with tau := tau, phaseOpt := .PSU, phase := some fun A => c • A } a =
      .ok |1 - ‖Complex.exp (tau 0 * (c * a 0 0))‖| := by
  have h := tiny_overlap a tau .PSU c
  simp only [fidErr, fidelity, h]
  simp [tinySys, Except.map]

theorem tiny_err_two : fidErr tinySys (fun _ _ => 1) = .ok 2 := by
  have h := tiny_fidErr (fun _ _ => 1) (fun _ => Real.pi) (-Complex.I)
  have h1 : Complex.exp ((Real.pi : ℂ) * (-Complex.I * ((1 : ℝ) : ℂ))) = -1 := by
    rw [show (Real.pi : ℂ) * (-Complex.I * ((1 : ℝ) : ℂ)) = -(Real.pi * Complex.I) by push_cast; ring,
      Complex.exp_neg, Complex.exp_pi_mul_I]
    norm_num
  rw [h1] at h
  have h2 : |1 - (-1 : ℂ).re| = (2 : ℝ) := by norm_num
  rw [h2] at h
  exact h

/-- The outputs `get_fid_err`, configuration change, `get_fid_err` on `tinySys` at
amplitude 1. -/
theorem tiny_outputs (junk s0 : State (Fin 1) (Fin 1) Unit) (c : Cfg (Fin 1)) :
    (crun junk (tinySys, initControls tinySys junk s0 fun _ _ => 1)
      [.op .getFidErr, .cfg c, .op .getFidErr]).2 = [.real 2, .none, .real 2] := by
  obtain ⟨hi, b, hb, hs⟩ := initControls_inv (G := fun _ _ => True) tinySys junk s0 fun _ _ => 1
  obtain ⟨t, e, _, _⟩ := getFidErr_some tinySys_valid hi hb
  rw [fidErr_congr hs, tiny_err_two] at e
  have hk : (reconfigure tinySys c).fidKind = tinySys.fidKind := by cases c <;> rfl
  have e2 := C07_change_ignored tinySys (reconfigure tinySys c) hk _ _ _ e
  simp only [crun, cstep, step, e, Out.ofReal, e2]

/-- **C07 is violated (durations).** After changing the slot duration to 0 the
reported fidelity error is still that of the old duration. -/
theorem C07_violated_tau (junk s0 : State (Fin 1) (Fin 1) Unit) :
    let ops : List (COp (Fin 1)) := [.op .getFidErr, .cfg (.setTau fun _ => 0), .op .getFidErr]
    (crun junk (tinySys, initControls tinySys junk s0 fun _ _ => 1) ops).2 ≠
      cAnswers tinySys (fun _ _ => 1) ops := by
  intro ops
  rw [tiny_outputs]
  have h : fidErr (reconfigure tinySys (.setTau fun _ => 0)) (fun _ _ => 1) = .ok 0 := by
    have h := tiny_fidErr (fun _ _ => 1) (fun _ => 0) (-Complex.I)
    have h1 : |1 - (Complex.exp (((0 : ℝ) : ℂ) * (-Complex.I * ((1 : ℝ) : ℂ)))).re| = (0 : ℝ) := by
      simp
    rw [h1] at h
    exact h
  simp only [ops, cAnswers, answer, h, Out.ofReal]
  intro heq
  simp at heq

/-- **C07 is violated (total time).** The same for assigning `evo_time`. -/
theorem C07_violated_evo_time (junk s0 : State (Fin 1) (Fin 1) Unit) :
    let ops : List (COp (Fin 1)) := [.op .getFidErr, .cfg (.setEvoTime 0), .op .getFidErr]
    (crun junk (tinySys, initControls tinySys junk s0 fun _ _ => 1) ops).2 ≠
      cAnswers tinySys (fun _ _ => 1) ops := by
  intro ops
  rw [tiny_outputs]
  have h : fidErr (reconfigure tinySys (.setEvoTime 0)) (fun _ _ => 1) = .ok 0 := by
    have h := tiny_fidErr (fun _ _ => 1) (fun _ => 0) (-Complex.I)
    have h1 : |1 - (Complex.exp (((0 : ℝ) : ℂ) * (-Complex.I * ((1 : ℝ) : ℂ)))).re| = (0 : ℝ) := by
      simp
    rw [h1] at h
    rw [← h]
    simp [reconfigure, tinySys]
  simp only [ops, cAnswers, answer, h, Out.ofReal]
  intro heq
  simp at heq

/-- **C07 is violated (phase option).** After switching from SU to PSU the global
phase is still counted as an error. -/
theorem C07_violated_phase_option (junk s0 : State (Fin 1) (Fin 1) Unit) :
    let ops : List (COp (Fin 1)) := [.op .getFidErr, .cfg (.setPhaseOption .PSU), .op .getFidErr]
    (crun junk (tinySys, initControls tinySys junk s0 fun _ _ => 1) ops).2 ≠
      cAnswers tinySys (fun _ _ => 1) ops := by
  intro ops
  rw [tiny_outputs]
  have h : fidErr (reconfigure tinySys (.setPhaseOption .PSU)) (fun _ _ => 1) = .ok 0 := by
    have h := tiny_fidErr_PSU (fun _ _ => 1) (fun _ => Real.pi) (-Complex.I)
    have h1 : ‖Complex.exp ((Real.pi : ℂ) * (-Complex.I * ((1 : ℝ) : ℂ)))‖ = 1 := by
      rw [Complex.norm_exp]; simp
    rw [h1] at h
    rw [show |(1 : ℝ) - 1| = 0 by norm_num] at h
    exact h
  simp only [ops, cAnswers, answer, h, Out.ofReal]
  intro heq
  simp at heq

/-- **C07 is violated (generator phase).** After setting the phase to 0 the system
does not evolve, but the old error is still reported. -/
theorem C07_violated_generator_phase (junk s0 : State (Fin 1) (Fin 1) Unit) :
    let ops : List (COp (Fin 1)) :=
      [.op .getFidErr, .cfg (.setPhase fun A => (0 : ℂ) • A), .op .getFidErr]
    (crun junk (tinySys, initControls tinySys junk s0 fun _ _ => 1) ops).2 ≠
      cAnswers tinySys (fun _ _ => 1) ops := by
  intro ops
  rw [tiny_outputs]
  have h : fidErr (reconfigure tinySys (.setPhase fun A => (0 : ℂ) • A)) (fun _ _ => 1) = .ok 0 := by
    have h := tiny_fidErr (fun _ _ => 1) (fun _ => Real.pi) 0
    have h1 : |1 - (Complex.exp ((Real.pi : ℂ) * (0 * ((1 : ℝ) : ℂ)))).re| = (0 : ℝ) := by simp
    rw [h1] at h
    exact h
  simp only [ops, cAnswers, answer, h, Out.ofReal]
  intro heq
  simp at heq

/-- **C07, what holds (1).** Re-initialising (`initialize_controls`) after any
mixed history makes every later result that of the current configuration.
Missing for the full property: results between the change and the
re-initialisation (or next real amplitude change). -/
theorem C07_after_reinit_partial (junk : State d m D) (x : Sys d m D × State d m D)
    (hist : List (COp d)) (a : Amps) (ops : List Op)
    (h1 : 0 < (crun junk x hist).1.1.nTs) (h2 : 0 < (crun junk x hist).1.1.nCtrls) :
    let y := (crun junk x hist).1
    (run (initSys y.1) junk (cstep junk y (.op (.reinit a))).1.2 ops).2 =
      answers (initSys y.1) (some a) ops := by
  intro y
  exact C05_caching_transparent (initSys_valid h1 h2) junk y.2 a ops

/-- The specification does not look at the cache of phased controls, so the
re-initialised system is judged by the current configuration. -/
theorem answer_initSys (S : Sys d m D) (A : Option Amps) (op : Op) :
    answer (initSys S) A op = answer S A op := by
  have : ∀ S' : Sys d m D, (∃ pc, S' = { S with phasedCtrl := pc }) →
      answer S' A op = answer S A op := by
    rintro _ ⟨pc, rfl⟩; rfl
  apply this
  unfold initSys
  split
  · exact ⟨_, rfl⟩
  · split <;> exact ⟨_, rfl⟩

/-- **C07**: the durations with which the results are computed once the total time of an initialised
system has been assigned are those its `tau` then shows: all the same, and adding up to that time. -/
theorem C07_evo_time (S : Sys d m D) (hS : 0 < S.nTs) (s : Timeslots.TS ℝ)
    (hi : s.initialized = true) (hn : s.numTslots = some (S.nTs : Int)) (T : ℝ) :
    Timeslots.readTau (Timeslots.setEvoTime s (some T)).1 =
        some ((List.range S.nTs).map (reconfigure S (.setEvoTime T)).tau) ∧
      ((List.range S.nTs).map (reconfigure S (.setEvoTime T)).tau).sum = T := by
  obtain ⟨-, -, -, h⟩ := Timeslots.C02_set_evo s hi S.nTs hn T
  have e : (List.range S.nTs).map (reconfigure S (.setEvoTime T)).tau =
      List.replicate S.nTs (T / S.nTs) := by
    simp [reconfigure]
  refine ⟨by rw [h, e], ?_⟩
  have : (S.nTs : ℝ) ≠ 0 := by exact_mod_cast hS.ne'
  rw [e, List.sum_replicate, nsmul_eq_mul]
  field_simp

/-- A system of three slots whose total time is set to 6 meets the hypotheses. -/
example : ∃ s : Timeslots.TS ℝ, s.initialized = true ∧ s.numTslots = some 3 ∧
    Timeslots.readTau (Timeslots.setEvoTime s (some 6)).1 = some [2, 2, 2] := by
  refine ⟨(Timeslots.setTau Timeslots.TS.fresh (some [1, 2, 3])).1, rfl, rfl, ?_⟩
  have := (Timeslots.C02_set_evo (Timeslots.setTau Timeslots.TS.fresh (some [1, 2, 3])).1 rfl 3 rfl
    (6 : ℝ)).2.2.2
  rw [this]
  norm_num [List.replicate]

/-- **C07, what holds (2).** After changing durations, total time or phase option,
the first submission of amplitudes that really differ makes all later results
those of the new configuration, without re-initialising. -/
theorem C07_after_amp_change_partial {S : Sys d m D} (hS : Valid S) (junk s0 : State d m D)
    (a0 : Amps) (hist : List Op) (c : Cfg d) (hc : ∀ ph, c ≠ .setPhase ph) (a : Amps)
    (hne : ∃ k j, k < S.nTs ∧ j < S.nCtrls ∧ lastAmps a0 hist k j ≠ a k j) (ops : List Op) :
    (run (reconfigure S c) junk
      (step (reconfigure S c) junk (reached S junk s0 a0 hist) (.updateAmps a)).1 ops).2 =
      answers (reconfigure S c) (some a) ops := by
  obtain ⟨hi, b, hb, hs⟩ := reached_inv hS junk s0 a0 hist
  have hn : (reconfigure S c).nTs = S.nTs := by cases c <;> rfl
  have hnc : (reconfigure S c).nCtrls = S.nCtrls := by cases c <;> rfl
  have hini : (reconfigure S c).initial = S.initial := by cases c <;> rfl
  have hont : (reconfigure S c).ontoTarget = S.ontoTarget := by cases c <;> rfl
  have hS' : Valid (reconfigure S c) := by
    refine ⟨by rw [hn]; exact hS.slots, by rw [hnc]; exact hS.ctrls, ?_⟩
    cases c with
    | setPhase ph => exact absurd rfl (hc ph)
    | _ => exact hS.phasedCtrl
  have hch : numChanged (reconfigure S c) b a ≠ 0 := by
    intro h
    obtain ⟨k, j, hk, hj, hkj⟩ := hne
    have := (numChanged_eq_zero _ b a).1 h k j (by rw [hn]; exact hk) (by rw [hnc]; exact hj)
    exact hkj ((hs k j hk hj).symm.trans this)
  have hinv : Inv (reconfigure S c)
      (compareAmps (reconfigure S c) (reached S junk s0 a0 hist) a).1 := by
    rw [compareAmps_changed hb hch]
    refine ⟨⟨?_, ?_⟩, ?_, ?_, ?_, ?_⟩
    · rw [hini]; exact hi.ends.fwd0
    · rw [hont, hn]; exact hi.ends.ontoN
    all_goals intro h; simp [flagSystemChanged] at h
  refine (run_spec hS' junk ops hinv (A := some a) ⟨a, ?_, fun _ _ _ _ => rfl⟩).1
  rw [compareAmps_changed hb hch]
  rfl

/-- The hypotheses of the partial theorems are met, e.g. for `tinySys`. -/
example : Valid tinySys ∧ (∀ ph, (Cfg.setTau (d := Fin 1) fun _ => 0) ≠ .setPhase ph) ∧
    ∃ k j, k < tinySys.nTs ∧ j < tinySys.nCtrls ∧ lastAmps (fun _ _ => 1) [.getFidErr] k j ≠ 2 :=
  ⟨tinySys_valid, by simp, 0, 0, by simp [tinySys], by simp [tinySys], by simp [lastAmps]⟩

/-! ### C08 -/

/-- **C08 is violated.** The caller initialises with array 0 (amplitude 0: error
0), asks for the error, changes the array in place to amplitude 1 (error 2) and
submits it again: the change is not recognised and the old error is returned. -/
theorem C08_violated (junk s0 : State (Fin 1) (Fin 1) Unit) :
    let ops : List HOp := [.reinit 0, .query .getFidErr, .mutate 0 fun _ _ => 1, .submit 0,
      .query .getFidErr]
    (hrun tinySys junk ⟨fun _ _ _ => 0, none, s0⟩ ops).2 ≠
      hAnswers tinySys (fun _ _ _ => 0) (fun _ _ => 0) ops := by
  intro ops
  obtain ⟨hi, b, hb, hs⟩ := initControls_inv tinySys junk s0 fun _ _ => 0
  obtain ⟨t, e, it, at'⟩ := getFidErr_some tinySys_valid hi hb
  have h0 : fidErr tinySys (fun _ _ => 0) = .ok 0 := by
    have h := tiny_fidErr (fun _ _ => 0) (fun _ => Real.pi) (-Complex.I)
    have h1 : |1 - (Complex.exp ((Real.pi : ℂ) * (-Complex.I * ((0 : ℝ) : ℂ)))).re| = (0 : ℝ) := by
      simp
    rw [h1] at h
    exact h
  rw [fidErr_congr hs, h0] at e
  have hsame : compareAmps tinySys { t with ctrlAmps := some fun _ _ => 1 } (fun _ _ => 1) =
      ({ t with ctrlAmps := some fun _ _ => 1 }, true) :=
    compareAmps_same rfl ((numChanged_eq_zero _ _ _).2 fun _ _ _ _ => rfl)
  have hstale : (getFidErr tinySys { t with ctrlAmps := some fun _ _ => 1 }).2 = .ok 0 := by
    have hk : tinySys.fidKind = .unitary := rfl
    have h1 : (getFidErr tinySys t).2 = .ok 0 := C07_change_ignored tinySys tinySys rfl _ _ _ e
    have hcur : t.fidelityCurrent = true := by
      have hv := step_query_view tinySys_valid junk hi hb .getFidErr trivial
      have : (step tinySys junk (initControls tinySys junk s0 fun _ _ => 0) .getFidErr).1 = t := by
        simp only [step, e]
      rw [this] at hv
      have hvf := congrArg View.fid hv
      have hnorm : normOK tinySys = true := rfl
      simp only [View.query, hk, View.addFid, hnorm, if_true] at hvf
      show (view t).fid = true
      rw [hvf]
      split <;> simp_all
    unfold getFidErr getFidelity at h1 ⊢
    simp only [hk, hcur, if_true] at h1 ⊢
    exact h1
  have hupd : (Function.update (fun (_ : Nat) (_ : Nat) (_ : Nat) => (0 : ℝ)) 0 fun _ _ => 1) 0 =
      fun _ _ => 1 := by simp
  have hL : (hrun tinySys junk ⟨fun _ _ _ => 0, none, s0⟩ ops).2 =
      [.none, .real 0, .none, .none, .real 0] := by
    simp only [ops, hrun, hstep, step, e, Out.ofReal, if_true, hupd, hsame, hstale]
  rw [hL]
  have hR : hAnswers tinySys (fun _ _ _ => 0) (fun _ _ => 0) ops =
      [.none, .real 0, .none, .none, .real 2] := by
    simp only [ops, hAnswers, answer, h0, Out.ofReal, hupd, tiny_err_two]
  rw [hR]
  intro heq
  simp at heq

/-- **C08, what holds.** If the caller never modifies an array after handing it
over (the optimisers pass copies), every query is answered from the contents of
the last submitted array.  Missing for the full property: histories that modify a
submitted array in place. -/
theorem C08_hand_over_partial {S : Sys d m D} (hS : Valid S) (junk s0 : State d m D)
    (h0 : Nat → Amps) (r0 : Nat) (ops : List HOp) (hq : ∀ o, HOp.query o ∈ ops → IsQuery o)
    (hd : HandsOver [r0] ops) :
    (hrun S junk ⟨h0, some r0, initControls S junk s0 (h0 r0)⟩ ops).2 =
      hAnswers S h0 (h0 r0) ops := by
  obtain ⟨hi, hA⟩ := initControls_inv S junk s0 (h0 r0)
  generalize initControls S junk s0 (h0 r0) = s at hi hA
  have gen : ∀ (ops : List HOp) (x : HState d m D) (a : Amps) (given : List Nat),
      (∀ o, HOp.query o ∈ ops → IsQuery o) → HandsOver given ops → Inv S x.st →
      AmpsRel S x.st (some a) → (∀ r, x.ref = some r → r ∈ given) →
      (hrun S junk x ops).2 = hAnswers S x.heap a ops := by
    intro ops
    induction ops with
    | nil => intro x a given _ _ _ _ _; rfl
    | cons o os ih =>
      intro x a given hq hd hi hA hr
      have hq' : ∀ o, HOp.query o ∈ os → IsQuery o :=
        fun o h => hq o (List.mem_cons_of_mem _ h)
      cases o with
      | mutate r b =>
        obtain ⟨hd1, hd2⟩ := hd
        have hne : x.ref ≠ some r := fun h => hd1 (hr r h)
        simp only [hrun, hstep, if_neg hne, hAnswers]
        exact congrArg _ (ih _ a given hq' hd2 hi hA hr)
      | submit r =>
        obtain ⟨h1, h2⟩ := compareAmps_amps hi (x.heap r)
        simp only [hrun, hstep, hAnswers]
        refine congrArg _ (ih _ (x.heap r) (r :: given) hq' hd h1 h2 ?_)
        intro r' hr'
        simp only at hr'
        split at hr'
        · exact List.mem_cons_of_mem _ (hr r' hr')
        · cases hr'; exact List.mem_cons_self ..
      | reinit r =>
        obtain ⟨h1, h2⟩ := initControls_inv S junk x.st (x.heap r)
        simp only [hrun, hstep, hAnswers]
        refine congrArg _ (ih _ (x.heap r) (r :: given) hq' hd h1 h2 ?_)
        intro r' hr'
        cases hr'; exact List.mem_cons_self ..
      | query o =>
        have ho := hq o (List.mem_cons_self ..)
        obtain ⟨e, h1, h2⟩ := step_spec hS junk hi hA o
        cases o with
        | updateAmps _ => exact ho.elim
        | reinit _ => exact ho.elim
        | _ =>
          simp only [hrun, hstep, hAnswers, e]
          exact congrArg _ (ih _ a given hq' hd h1 h2 hr)
  exact gen ops ⟨h0, some r0, s⟩ (h0 r0) [r0] hq hd hi hA (by intro r h; cases h; simp)

/-- A history meeting the hand-over discipline, with a change between queries. -/
example : HandsOver [0] [.query .getFidErr, .mutate 1 fun _ _ => 3, .submit 1, .query .getGradient,
    .mutate 2 fun _ _ => 4, .submit 2] ∧ ¬ HandsOver [0] [.mutate 0 fun _ _ => 1] := by
  simp [HandsOver]

end QTrl.Dyn
