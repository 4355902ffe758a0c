import Verif.Proofs.Stats

/-
C49: statistics.
-/

namespace QTrl.Props.Stats

open QTrl.Stats Spec.Stats

set_option linter.unusedSectionVars false

variable {n m : Nat} {α : Type} [DecidableEq α]

/-! ### Counts and means -/

/-- After any sequence of events the statistics count what happened since they were made or, if a
run was started since, what happened since the last start of a run: updates with a change against the
pulse in force before, amplitudes and timeslots changed, calls and computations. -/
theorem C49_counts (hm : 0 < m) (t : Rat) :
    (∀ es : List (Event n m α), NoStart es → Counts none es (run (fresh t) es).stats) ∧
    ∀ (pre post : List (Event n m α)) (i : Nat), NoStart post →
      Counts (pulses pre).getLast? post (run (fresh t) (pre ++ .start i :: post)).stats := by
  refine ⟨fun es hn => counts_of hm es (fresh t) hn rfl rfl rfl rfl rfl rfl rfl rfl rfl rfl, ?_⟩
  intro pre post i hn
  have e : run (fresh t) (pre ++ .start i :: post) =
      run (step (run (fresh t) pre) (.start i)) post := by
    unfold run
    rw [List.foldl_append]
    rfl
  have ha : (step (run (fresh t) pre) (.start i)).amps = (pulses pre).getLast? := by
    have h1 : (step (run (fresh t) pre) (.start i)).amps = (run (fresh t) pre).amps := rfl
    have h2 : (fresh t : World n m α).amps = none := rfl
    rw [h1, run_amps, h2, Option.or_none]
  rw [e, ← ha]
  exact counts_of hm post _ hn rfl rfl rfl rfl rfl rfl rfl rfl rfl rfl

/-- After any sequence of events that ends with the report of a run or with `calculate` the means are
the totals over the numbers, and not a number if nothing was counted. -/
theorem C49_means (hm : 0 < m) (t : Rat) (es : List (Event n m α)) (last : Event n m α)
    (hl : last = .report ∨ last = .calculate) :
    let s := (run (fresh t) (es ++ [last])).stats
    Mean s.numUpdates.val s.numIter.val s.meanUpdates ∧
    Mean s.numSlotChanges.val s.numUpdates.val s.meanSlotChanges ∧
    Mean s.numAmpChanges.val s.numUpdates.val s.meanAmpChanges := by
  have hk : Kinds (run (fresh t) es).stats :=
    run_kinds hm es _ ⟨le_refl _, rfl, fun _ => ⟨rfl, rfl⟩⟩
  have e : run (fresh t) (es ++ [last]) = step (run (fresh t) es) last := by
    unfold run
    rw [List.foldl_append]
    rfl
  simp only
  rw [e]
  obtain ⟨w, hw⟩ : ∃ w, w = run (fresh t) es := ⟨_, rfl⟩
  rw [← hw] at hk ⊢
  have key : ∀ s : Base, Kinds s → Mean s.calculate.numUpdates.val s.calculate.numIter.val
      s.calculate.meanUpdates ∧
      Mean s.calculate.numSlotChanges.val s.calculate.numUpdates.val s.calculate.meanSlotChanges ∧
      Mean s.calculate.numAmpChanges.val s.calculate.numUpdates.val s.calculate.meanAmpChanges := by
    intro s hs
    have h1 := tryDiv_mean s.numUpdates s.numIter fun _ => hs.2.1
    have h2 := tryDiv_mean s.numSlotChanges s.numUpdates fun h => (hs.2.2 h).2
    have h3 := tryDiv_mean s.numAmpChanges s.numUpdates fun h => (hs.2.2 h).1
    unfold Base.calculate
    by_cases h : s.wallEnd > 0
    · simp only [if_pos h]; exact ⟨h1, h2, h3⟩
    · simp only [if_neg h]; exact ⟨h1, h2, h3⟩
  rcases hl with rfl | rfl
  · exact key { w.stats with wallEnd := w.endTime } hk
  · exact key w.stats hk

/-- A pulse of two slots with one control. -/
def pulse (a b : Nat) : Fin 2 → Fin 1 → Nat := fun k _ => if k = 0 then a else b

/-- A pulse set before the run, then three pulses, the second like the first, in one iteration. -/
def exRun : List (Event 2 1 Nat) :=
  [.update (pulse 0 0), .evolve 1 1 1 1, .start 0, .funcCall, .update (pulse 0 1), .evolve 1 2 1 1,
    .fidelity, .gradCall, .update (pulse 0 1), .gradient 1, .funcCall, .update (pulse 2 5),
    .iteration false, .stop]

example : (run (fresh 10) (exRun ++ [.report])).stats.numUpdates.val = 2 ∧
    (run (fresh 10) (exRun ++ [.report])).stats.meanAmpChanges = .num (3 / 2) ∧
    (run (fresh 10) (exRun ++ [.report])).stats.numFidCalls = 2 ∧
    (run (fresh 10) (exRun ++ [.report])).stats.numRecompute = 1 ∧
    (run (fresh 10) (exRun ++ [.report])).stats.wallOptim = 6 ∧
    (run (fresh 10 : World 2 1 Nat) [.start 0, .stop, .report]).stats.meanAmpChanges = .nan := by
  refine ⟨by decide +kernel, by decide +kernel, by decide +kernel, by decide +kernel,
    by decide +kernel, by decide +kernel⟩

/-! ### Times -/

/-- Whatever happened before the run, if nothing is computed for the result after the end of the
minimisation, then the categories add up to at most the time of the run. -/
theorem C49_times_partial (w : World n m α) (i : Nat) (es : List (Event n m α))
    (hp : ∀ e ∈ es, Proper e) (hi : ∀ e ∈ es, Inner e) (hw : 0 ≤ w.now) :
    let s := (run w (.start i :: es ++ [.stop, .report])).stats
    categorised s ≤ s.wallOptim ∧
    s.wallOptim = (run w (.start i :: es ++ [.stop, .report])).now - w.now := by
  simp only
  have e : run w (.start i :: es ++ [.stop, .report]) =
      step (step (run (step w (.start i)) es) .stop) .report := by
    unfold run
    rw [List.foldl_append]
    rfl
  rw [e]
  obtain ⟨h1, h2, h3, h4⟩ := run_inner es (step w (.start i)) hp hi
  have k1 : categorised (step w (.start i)).stats = 0 := by
    simp [step, categorised, Base.clear]
  have k2 : (step w (.start i)).now = w.now := rfl
  have k3 : (step w (.start i)).stats.wallStart = w.now := rfl
  have k4 : (step w (.start i)).stats.wallOptim = 0 := rfl
  rw [k1, k2] at h1
  rw [k2] at h2
  rw [k3] at h3
  rw [k4] at h4
  obtain ⟨v, hv⟩ : ∃ v, v = run (step w (.start i)) es := ⟨_, rfl⟩
  rw [← hv] at h1 h2 h3 h4 ⊢
  have key : ∀ s : Base, s.wallEnd = v.now → s.wallStart = w.now → s.wallOptim = 0 →
      categorised s ≤ v.now - w.now → categorised s.calculate ≤ s.calculate.wallOptim ∧
        s.calculate.wallOptim = v.now - w.now := by
    intro s a1 a2 a3 a4
    by_cases h : s.wallEnd > 0
    · have c1 : categorised s.calculate = categorised s := by
        unfold Base.calculate; simp only [if_pos h]; rfl
      have c2 : s.calculate.wallOptim = s.wallEnd - s.wallStart := by
        unfold Base.calculate; simp only [if_pos h]
      rw [c1, c2, a1, a2]
      exact ⟨a4, rfl⟩
    · have c1 : categorised s.calculate = categorised s := by
        unfold Base.calculate; simp only [if_neg h]; rfl
      have c2 : s.calculate.wallOptim = s.wallOptim := by
        unfold Base.calculate; simp only [if_neg h]
      rw [c1, c2, a3]
      rw [a1] at h
      have hz : v.now = 0 := le_antisymm (not_lt.1 h) (hw.trans h2)
      have hz' : w.now = 0 := le_antisymm (hz ▸ h2) hw
      rw [hz, hz'] at *
      exact ⟨by linarith, by ring⟩
  rw [sub_zero] at h1
  exact key _ rfl h3 h4 h1

example : categorised (run (fresh 10) (exRun ++ [.report])).stats = 6 := by decide +kernel

/-! ### The statistics of the dynamic update mode -/

/-- If everything was counted at least once, no exception is raised and every mean is the total
over the number. -/
theorem C49_dynamic_partial (s : DynStats) (hu : s.base.numUpdates.val ≠ 0)
    (h1 : s.numDynGen.val ≠ 0) (h2 : s.numProp.val ≠ 0) (h3 : s.numFwd.val ≠ 0)
    (h4 : s.numOnwd.val ≠ 0) :
    s.calculate.2 = none ∧
    s.calculate.1.base = s.base.calculate ∧
    s.calculate.1.meanNumDynGen = .num (s.numDynGen.val / s.base.numUpdates.val) ∧
    s.calculate.1.meanWallDynGen = .num (s.base.wallDynGen / s.numDynGen.val) ∧
    s.calculate.1.meanNumProp = .num (s.numProp.val / s.base.numUpdates.val) ∧
    s.calculate.1.meanWallProp = .num (s.base.wallProp / s.numProp.val) ∧
    s.calculate.1.meanNumFwd = .num (s.numFwd.val / s.base.numUpdates.val) ∧
    s.calculate.1.meanWallFwd = .num (s.base.wallFwd / s.numFwd.val) ∧
    s.calculate.1.meanNumOnwd = .num (s.numOnwd.val / s.base.numUpdates.val) ∧
    s.calculate.1.meanWallOnwd = .num (s.base.wallOnwd / s.numOnwd.val) := by
  have hb : s.base.calculate.numUpdates = s.base.numUpdates := (calculate_counts s.base).1
  have c : s.base.calculate.wallDynGen = s.base.wallDynGen ∧
      s.base.calculate.wallProp = s.base.wallProp ∧ s.base.calculate.wallFwd = s.base.wallFwd ∧
      s.base.calculate.wallOnwd = s.base.wallOnwd := by
    unfold Base.calculate
    by_cases h : s.base.wallEnd > 0
    · simp [if_pos h]
    · simp [if_neg h]
  obtain ⟨c1, c2, c3, c4⟩ := c
  simp [DynStats.calculate, assign, Num.div, time, hb, hu, h1, h2, h3, h4, c1, c2, c3, c4]

/-- Statistics with everything counted. -/
def exDyn : DynStats :=
  { DynStats.reset with
    base := { Base.clear with numUpdates := ⟨2, false⟩, wallProp := 3 }
    numDynGen := ⟨4, true⟩, numProp := ⟨4, true⟩, numFwd := ⟨6, true⟩, numOnwd := ⟨6, true⟩ }

example : exDyn.calculate.2 = none ∧ exDyn.calculate.1.meanWallProp = .num (3 / 4) ∧
    exDyn.calculate.1.meanNumFwd = .num 3 :=
  ⟨by decide +kernel, by decide +kernel, by decide +kernel⟩

/-! ### What the claim says and the code does not do -/

/-- In the dynamic update mode the calculation raises if nothing was counted, and the later
means are left as they were. -/
theorem C49_violated_dynamic :
    DynStats.reset.calculate.2 = some .zeroDivisionError ∧
    ∃ s : DynStats, s.base.numUpdates.val = 2 ∧ s.numFwd.val = 6 ∧
      s.calculate.2 = some .zeroDivisionError ∧ s.calculate.1.meanNumFwd = .num 0 :=
  ⟨by decide +kernel, { exDyn with numProp := ⟨0, false⟩ }, rfl, rfl, by decide +kernel,
    by decide +kernel⟩

/-- What is computed for the result after the minimiser returned counts in the categories and not in
the time of the run: the pulse returned is not the one tried last, and the time of the end was taken
before the fidelity of this pulse was computed. -/
theorem C49_violated_last :
    ∃ es : List (Event 2 1 Nat), (∀ e ∈ es, Proper e) ∧
      es = [.start 0, .funcCall, .update (pulse 0 1), .evolve 1 1 1 1, .fidelity,
        .update (pulse 0 2), .stop, .evolve 1 1 1 1, .fidelity, .report] ∧
      (run (fresh 10) es).stats.wallOptim = 4 ∧ categorised (run (fresh 10) es).stats = 8 := by
  refine ⟨_, ?_, rfl, by decide +kernel, by decide +kernel⟩
  intro e he
  simp only [List.mem_cons, List.not_mem_nil, or_false] at he
  rcases he with rfl | rfl | rfl | rfl | rfl | rfl | rfl | rfl | rfl | rfl <;>
    trivial

/-- `calculate` during a run does not set the time to the time so far, as its comment says: it stays
zero, whatever was computed. -/
theorem C49_violated_running (w : World n m α) (i : Nat) (es : List (Event n m α))
    (hp : ∀ e ∈ es, Proper e) (hi : ∀ e ∈ es, Inner e) :
    (run w (.start i :: es ++ [.calculate])).stats.wallOptim = 0 ∧
    ∃ es' : List (Event 2 1 Nat), (∀ e ∈ es', Inner e) ∧
      categorised (run (fresh 10) (.start 0 :: es' ++ [.calculate])).stats = 4 := by
  constructor
  · have e : run w (.start i :: es ++ [.calculate]) =
        step (run (step w (.start i)) es) .calculate := by
      unfold run
      rw [List.foldl_append]
      rfl
    rw [e]
    obtain ⟨-, -, -, h4⟩ := run_inner es (step w (.start i)) hp hi
    have h5 : (run (step w (.start i)) es).stats.wallEnd = 0 := by
      refine wallEnd_inner es _ hi
    generalize run (step w (.start i)) es = v at h4 h5
    have k4 : (step w (.start i)).stats.wallOptim = 0 := rfl
    have h6 : ¬ v.stats.wallEnd > 0 := by rw [h5]; exact lt_irrefl _
    show v.stats.calculate.wallOptim = 0
    unfold Base.calculate
    simp only [if_neg h6]
    rw [h4, k4]
  · refine ⟨[.evolve 1 1 1 1], ?_, by decide +kernel⟩
    intro e he
    rcases List.mem_cons.1 he with rfl | he
    · trivial
    · cases he

/-- In the dynamic update mode the numbers of computations are not cleared when a run starts, but the
times and the number of updates are: with the first run as before, a second run that computes two
propagators in two seconds for one update reports six propagators per update and a third of a second
for each. -/
theorem C49_violated_dynamic_second :
    ∃ s : DynStats, s = ((DynStats.reset.start 0 0).update 4 4).evolve (4, 4) (4, 4) (4, 4) (4, 4) ∧
      s.calculate.1.meanNumProp = .num 4 ∧ s.calculate.1.meanWallProp = .num 1 ∧
      ∃ r : DynStats, r = ((s.calculate.1.start 20 0).update 2 2).evolve (2, 2) (2, 2) (2, 2) (2, 2) ∧
        r.calculate.2 = none ∧ r.calculate.1.base.numUpdates.val = 1 ∧
        r.calculate.1.meanNumProp = .num 6 ∧ r.calculate.1.meanWallProp = .num (1 / 3) :=
  ⟨_, rfl, by decide +kernel, by decide +kernel, _, rfl, by decide +kernel, by decide +kernel,
    by decide +kernel, by decide +kernel⟩

/-- The number of iterations in the statistics is not the one in the result: the iteration in
which the time limit is exceeded is not counted, and an algorithm that starts counting at one and
stops before its first iteration has one. -/
theorem C49_violated_iterations :
    (∃ es : List (Event 2 1 Nat), (run (fresh 10) es).stats.numIter.val = 1 ∧
      (run (fresh 10) es).optIter = 2) ∧
    (∃ es : List (Event 2 1 Nat), (run (fresh 10) es).stats.numIter.val = 1 ∧
      (run (fresh 10) es).optIter = 0) :=
  ⟨⟨[.start 0, .iteration false, .iteration true, .stop, .report], by decide +kernel,
      by decide +kernel⟩,
    ⟨[.start 1, .stop, .report], by decide +kernel, by decide +kernel⟩⟩

end QTrl.Props.Stats
