import Verif.Props.Robust
import Verif.Props.Descent

/-
C79: a goal that is out of reach in the time available is not reported as achieved.
-/

set_option linter.unusedSectionVars false

open Matrix

namespace QTrl.Opt

open QTrl.Dyn QTrl.Spec

variable {d m : Type} [Fintype d] [DecidableEq d] [Fintype m] [DecidableEq m]

/-- What a pulse can do at most: durations times amplitudes times strengths of the controls. -/
noncomputable def effort (c : UnitaryCfg d m) (B : Amps) : ℝ :=
  ∑ i ∈ Finset.range c.nTs, |c.tau i| * ∑ j ∈ Finset.range c.nCtrls, B i j * opNorm (c.ctrl i j)

/-- **C79.** After any history the reported error is below the one reported, by whatever object of
the same system, without a pulse by no more than what the pulse can do, up to the factor of the
measure; the drift may be as strong as it likes. -/
theorem C79_limit {c : UnitaryCfg d m} [Nonempty m] (hc : Closed c) (hi : Normalised c)
    (hq : c.fidKind = .unitary → c.phaseOpt = .SU → c.isQobj = true)
    (junk s0 junk' s0' : State d m (Decomp d)) (a0 : Amps) (ops : List Op) (B : Amps)
    (hB : ∀ k j, k < c.nTs → j < c.nCtrls → |lastAmps a0 ops k j| ≤ B k j) :
    ∃ e free, query c.sys junk s0 a0 ops .getFidErr = .real e ∧
      query c.sys junk' s0' (fun _ _ => 0) [] .getFidErr = .real free ∧
      free - slack c * effort c B ≤ e := by
  obtain ⟨e, free, h1, h2, h3⟩ := C74_amps hc hi hq junk s0 junk' s0' a0 (fun _ _ => 0) ops []
  refine ⟨e, free, h1, h2, ?_⟩
  have h4 : ∑ i ∈ Finset.range c.nTs, |c.tau i| * ∑ j ∈ Finset.range c.nCtrls,
      |lastAmps a0 ops i j - lastAmps (fun _ _ => 0) [] i j| * opNorm (c.ctrl i j) ≤ effort c B := by
    refine Finset.sum_le_sum fun i hir => mul_le_mul_of_nonneg_left
      (Finset.sum_le_sum fun j hjr => mul_le_mul_of_nonneg_right ?_ (opNorm_nonneg _)) (abs_nonneg _)
    have := hB i j (Finset.mem_range.1 hir) (Finset.mem_range.1 hjr)
    simpa [lastAmps] using this
  have h5 := h3.trans (mul_le_mul_of_nonneg_left h4 (slack_nonneg c))
  have := (abs_le.1 h5).1
  linarith

/-- **C79.** So with amplitudes up to `B` and controls whose strengths are together no more than
`w`, reaching the error `e` takes at least the time `(free - e) / (B w)`, up to the factor of the
measure. -/
theorem C79_time {c : UnitaryCfg d m} [Nonempty m] (hc : Closed c) (hi : Normalised c)
    (hq : c.fidKind = .unitary → c.phaseOpt = .SU → c.isQobj = true)
    (hτ : ∀ k, k < c.nTs → 0 ≤ c.tau k)
    (junk s0 junk' s0' : State d m (Decomp d)) (a0 : Amps) (ops : List Op) (B w : ℝ) (hB0 : 0 ≤ B)
    (hB : ∀ k j, k < c.nTs → j < c.nCtrls → |lastAmps a0 ops k j| ≤ B)
    (hw : ∀ k, k < c.nTs → ∑ j ∈ Finset.range c.nCtrls, opNorm (c.ctrl k j) ≤ w) (e free : ℝ)
    (he : query c.sys junk s0 a0 ops .getFidErr = .real e)
    (hf : query c.sys junk' s0' (fun _ _ => 0) [] .getFidErr = .real free) :
    free - e ≤ slack c * (B * w) * slotTime c.tau c.nTs := by
  obtain ⟨e', free', h1, h2, h3⟩ :=
    C79_limit hc hi hq junk s0 junk' s0' a0 ops (fun _ _ => B) hB
  rw [he] at h1
  rw [hf] at h2
  injection h1 with h1
  injection h2 with h2
  subst h1 h2
  have h4 : effort c (fun _ _ => B) ≤ B * w * slotTime c.tau c.nTs := by
    unfold effort slotTime
    rw [Finset.mul_sum]
    refine Finset.sum_le_sum fun i hir => ?_
    have hik := Finset.mem_range.1 hir
    rw [abs_of_nonneg (hτ i hik), ← Finset.mul_sum, mul_comm (c.tau i)]
    exact mul_le_mul_of_nonneg_right (mul_le_mul_of_nonneg_left (hw i hik) hB0) (hτ i hik)
  have h5 := mul_le_mul_of_nonneg_left h4 (slack_nonneg c)
  rw [← mul_assoc] at h5
  linarith

/-- **C79.** If the amplitudes of all points the minimiser tries are within `B`, and the target error
is below what they can bring the error down to, then the result does not say that the goal was
achieved. -/
theorem C79_goal {c : UnitaryCfg d m} [Nonempty m] (hc : Closed c) (hi : Normalised c)
    (hqo : c.fidKind = .unitary → c.phaseOpt = .SU → c.isQobj = true) (cls : Cls) (tc : TermConds)
    (junk s0 : State d m (Decomp d)) (a0 : Amps) (gn0 : ℝ) (ops : List VOp)
    (gens : List Pulse.Crab) (start stop : ℝ) (cs : List Call) (f : Finish)
    (o' : OState d m (Decomp d)) (r : Result d m) (e0 free : ℝ) (B : Amps)
    (he : fidErr c.sys (startAmps a0 ops) = .ok e0)
    (hr : runOptimization c.sys cls tc (attached c.sys junk s0 a0 gn0 ops gens) start stop cs f =
      (o', .ok r))
    (hB : ∀ x a, .func x ∈ cs → ampsOf c.sys cls.vars gens x = .ok a →
      ∀ k j, k < c.nTs → j < c.nCtrls → |a k j| ≤ B k j)
    (hf : query c.sys junk s0 (fun _ _ => 0) [] .getFidErr = .real free)
    (hlt : tc.fidErrTarg < free - slack c * effort c B) : r.goalAchieved = false := by
  cases hg : r.goalAchieved with
  | false => rfl
  | true =>
    exfalso
    obtain ⟨pre, x, post, a, e, rfl, -, hx, hfe, hle⟩ :=
      ((C30_goal hc.valid cls tc junk s0 a0 gn0 ops gens start stop cs f o' r e0 he hr).1).1 hg
    obtain ⟨e', free', h1, h2, h3⟩ := C79_limit hc hi hqo junk s0 junk s0 a [] B
      (hB x a (by simp) hx)
    rw [hf] at h2
    injection h2 with h2
    rw [query_eq hc.valid] at h1
    simp only [answer, lastAmps, hfe, Out.ofReal, Out.real.injEq] at h1
    linarith

/-- The error of the half turn without a pulse is 1, and amplitudes up to 1/10 can do no more than
1/20. -/
theorem halfTurn_effort (po : PhaseOpt) (junk s0 : State (Fin 2) (Fin 2) (Decomp (Fin 2))) :
    query (halfTurn po).sys junk s0 (fun _ _ => 0) [] .getFidErr = .real 1 ∧
      slack (halfTurn po) * effort (halfTurn po) (fun _ _ => 1 / 10) ≤ 1 / 20 := by
  refine ⟨?_, ?_⟩
  · rw [query_eq (halfTurn_closed po).valid]
    have hu : (halfTurn po).sys.fidKind = .unitary := rfl
    have h0 : overlap (halfTurn po).sys (fun _ _ => 0) = 0 := by rw [halfTurn_overlap]; simp
    have hf : fidNum (halfTurn po).sys (fun _ _ => 0) = 0 := by
      unfold fidNum
      rw [h0]
      cases (halfTurn po).sys.phaseOpt <;> simp
    simp only [answer, lastAmps, fidErr, hu, fidelity_eq_fidNum (S := (halfTurn po).sys) (fun _ => rfl),
      Except.map, Out.ofReal, hf]
    norm_num
  · have h1 : slack (halfTurn po) = 1 := rfl
    have h2 : opNorm (diagonal ![1, -1] : Matrix (Fin 2) (Fin 2) ℂ) ≤ 1 := by
      refine opNorm_isometry ?_
      ext i j
      fin_cases i <;> fin_cases j <;> simp [Matrix.mul_apply, Fin.sum_univ_two]
    have h3 : effort (halfTurn po) (fun _ _ => 1 / 10) =
        |(1 / 2 : ℝ)| * (1 / 10 * opNorm (diagonal ![1, -1] : Matrix (Fin 2) (Fin 2) ℂ)) := by
      unfold effort
      simp [halfTurn, qubit]
    rw [h1, h3, abs_of_pos (by norm_num)]
    linarith

theorem fidErr_of_query {S : Sys (Fin 2) (Fin 2) (Decomp (Fin 2))} (hS : Valid S)
    (junk s0 : State (Fin 2) (Fin 2) (Decomp (Fin 2))) (a : Amps) (e : ℝ)
    (h : query S junk s0 a [] .getFidErr = .real e) : fidErr S a = .ok e := by
  rw [query_eq hS] at h
  simp only [answer, lastAmps] at h
  generalize fidErr S a = y at h
  cases y with
  | error x => cases h
  | ok y => simp only [Out.ofReal, Out.real.injEq] at h; rw [h]

theorem halfTurn_limit (junk s0 : State (Fin 2) (Fin 2) (Decomp (Fin 2))) (a : Amps)
    (ha : |a 0 0| ≤ 1 / 10) : ∃ e, fidErr (halfTurn .PSU).sys a = .ok e ∧
      query (halfTurn .PSU).sys junk s0 a [] .getFidErr = .real e ∧ 19 / 20 ≤ e := by
  have hc := halfTurn_closed .PSU
  obtain ⟨hfree, heff⟩ := halfTurn_effort .PSU junk s0
  obtain ⟨e, free, h1, h2, h3⟩ := C79_limit hc (halfTurn_normalised .PSU) (fun _ h => by cases h)
    junk s0 junk s0 a [] (fun _ _ => 1 / 10) (fun k j hk hj => by
      obtain rfl : k = 0 := by simpa [halfTurn, qubit] using hk
      obtain rfl : j = 0 := by simpa [halfTurn, qubit] using hj
      exact ha)
  rw [hfree] at h2
  injection h2 with h2
  exact ⟨e, fidErr_of_query hc.valid junk s0 a e h1, h1, by linarith⟩

theorem bfgs_one {c : UnitaryCfg (Fin 2) (Fin 2)} (hc : Closed c) (hi : Normalised c)
    (hqo : c.fidKind = .unitary → c.phaseOpt = .SU → c.isQobj = true) (hn : c.nTs = 1)
    (hm : c.nCtrls = 1) (junk s0 : State (Fin 2) (Fin 2) (Decomp (Fin 2))) (e0 e1 : ℝ) (a : Amps)
    (ha : ampsOf c.sys Cls.bfgs.vars [] [1 / 10] = .ok a) (ha0 : a 0 0 = 1 / 10)
    (he0 : fidErr c.sys (fun _ _ => 0) = .ok e0) (he1 : fidErr c.sys a = .ok e1) (hle : 19 / 20 ≤ e1)
    (hfree : query c.sys junk s0 (fun _ _ => 0) [] .getFidErr = .real 1)
    (heff : slack c * effort c (fun _ _ => 1 / 10) ≤ 1 / 20) :
    ∃ o' r, runOptimization c.sys .bfgs ⟨9 / 10, 10, 0, 10⟩
        (attached c.sys junk s0 (fun _ _ => 0) 0 [.readProp] []) 0 1
        [.func [1 / 10]] ⟨[1 / 10], 1, "", 1⟩ = (o', .ok r) ∧ r.goalAchieved = false := by
  obtain ⟨o', r, hr, -⟩ := C31_returned hc.valid .bfgs ⟨9 / 10, 10, 0, 10⟩ junk s0 (fun _ _ => 0) 0
    [.readProp] [] 0 1 [.func [1 / 10]] ⟨[1 / 10], 1, "", 1⟩ e0 a he0 (by
      intro p k q hp
      obtain ⟨rfl, rfl, rfl⟩ : p = [] ∧ k = .func [1 / 10] ∧ q = [] := by
        cases p with
        | nil => simpa [eq_comm] using hp
        | cons x p => simp at hp
      simp only [verdict, ha, he1]
      rw [if_neg (by norm_num; linarith), if_neg (by norm_num [funcCount])]) ha
  refine ⟨o', r, hr, C79_goal hc hi hqo .bfgs ⟨9 / 10, 10, 0, 10⟩ junk s0 (fun _ _ => 0) 0
    [.readProp] [] 0 1 [.func [1 / 10]] ⟨[1 / 10], 1, "", 1⟩ o' r e0 1 (fun _ _ => 1 / 10) he0 hr (fun x b hx hb k j hk hj => ?_) hfree
    (by show (9 / 10 : ℝ) < _; linarith)⟩
  obtain rfl : k = 0 := by omega
  obtain rfl : j = 0 := by omega
  have hx : x = [1 / 10] := by simpa using hx
  subst hx
  rw [ha] at hb
  injection hb with hb
  rw [← hb, ha0]
  norm_num

/-- Non-vacuity of `C79_limit` and `C79_goal`: with the amplitude 1/10 the error of the half turn
stays above 19/20, and a run of BFGS that tries it does not achieve the goal 9/10. -/
example (junk s0 : State (Fin 2) (Fin 2) (Decomp (Fin 2))) :
    (∃ e, query (halfTurn .PSU).sys junk s0 (fun _ _ => 1 / 10) [] .getFidErr = .real e ∧
      19 / 20 ≤ e) ∧
    ∃ o' r, runOptimization (halfTurn .PSU).sys .bfgs ⟨9 / 10, 10, 0, 10⟩
        (attached (halfTurn .PSU).sys junk s0 (fun _ _ => 0) 0 [.readProp] []) 0 1
        [.func [1 / 10]] ⟨[1 / 10], 1, "", 1⟩ = (o', .ok r) ∧ r.goalAchieved = false := by
  have hc := halfTurn_closed .PSU
  have hi := halfTurn_normalised .PSU
  obtain ⟨hfree, heff⟩ := halfTurn_effort .PSU junk s0
  have hlim := halfTurn_limit junk s0
  obtain ⟨e, -, h1, h2⟩ := hlim (fun _ _ => 1 / 10) (by norm_num)
  refine ⟨⟨e, h1, h2⟩, ?_⟩
  obtain ⟨a, ha, ha0⟩ : ∃ a, ampsOf (halfTurn .PSU).sys Cls.bfgs.vars [] [1 / 10] = .ok a ∧
      a 0 0 = 1 / 10 := by
    simp [ampsOf, Cls.vars, getCtrlAmps, unflatten, halfTurn, qubit, Except.map]
  obtain ⟨e0, he0, -⟩ := hlim (fun _ _ => 0) (by norm_num)
  obtain ⟨e1, he1, -, hle⟩ := hlim a (by rw [ha0]; norm_num)
  exact bfgs_one hc hi (fun _ h => by cases h) rfl rfl junk s0 e0 e1 a ha ha0 he0 he1 hle hfree heff

/-- Non-vacuity of `C79_time`: the same system. -/
example (junk s0 : State (Fin 2) (Fin 2) (Decomp (Fin 2))) (e : ℝ)
    (he : query (halfTurn .PSU).sys junk s0 (fun _ _ => 1 / 10) [] .getFidErr = .real e) :
    1 - e ≤ 1 * (1 / 10 * 1) * (1 / 2) := by
  have := C79_time (halfTurn_closed .PSU) (halfTurn_normalised .PSU) (fun _ h => by cases h)
    (fun _ _ => by norm_num [halfTurn, qubit]) junk s0 junk s0 (fun _ _ => 1 / 10) [] (1 / 10) 1
    (by norm_num) (fun _ _ _ _ => by norm_num [lastAmps]) (fun k _ => ?_) e 1 he
    (halfTurn_effort .PSU junk s0).1
  · refine this.trans (le_of_eq ?_)
    have h1 : slack (halfTurn .PSU) = 1 := rfl
    have h2 : slotTime (halfTurn .PSU).tau (halfTurn .PSU).nTs = 1 / 2 := by
      simp [slotTime, halfTurn, qubit]
    rw [h1, h2]
  · have : opNorm (diagonal ![1, -1] : Matrix (Fin 2) (Fin 2) ℂ) ≤ 1 := by
      refine opNorm_isometry ?_
      ext i j
      fin_cases i <;> fin_cases j <;> simp [Matrix.mul_apply, Fin.sum_univ_two]
    simpa [halfTurn, qubit] using this

end QTrl.Opt
