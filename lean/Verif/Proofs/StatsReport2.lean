import Verif.Proofs.StatsReport

/-
The lines of a report.
-/

namespace QTrl.Stats

open QTrl.Spec.StatsReport

/-- The lines common to both reports, as a fixed text and a value each, followed by others. -/
def entries (fl : Val → Text) (s : Base) (x0 x1 x2 x3 x4 x5 : Text)
    (rest : List (Text × Text)) : List (Text × Text) :=
  [([], []), ("------------------------------------".toList, []),
    ("---- Control optimisation stats ----".toList, []),
    ("**** Timings (HH:MM:SS.US) ****".toList, []),
    ("Total wall time elapsed during optimisation: ".toList, x0),
    ("Wall time computing Hamiltonians: ".toList, x1),
    ("Wall time computing propagators: ".toList, x2),
    ("Wall time computing forward propagation: ".toList, x3),
    ("Wall time computing onward propagation: ".toList, x4),
    ("Wall time computing gradient: ".toList, x5), ([], []),
    ("**** Iterations and function calls ****".toList, []),
    ("Number of iterations: ".toList, showNum fl s.numIter),
    ("Number of fidelity function calls: ".toList, dec s.numFidCalls),
    ("Number of times fidelity is computed: ".toList, dec s.numFidComputes),
    ("Number of gradient function calls: ".toList, dec s.numGradCalls),
    ("Number of times gradients are computed: ".toList, dec s.numGradComputes),
    ("Number of times timeslot evolution is recomputed: ".toList, dec s.numRecompute), ([], []),
    ("**** Control amplitudes ****".toList, []),
    ("Number of control amplitude updates: ".toList, showNum fl s.numUpdates),
    ("Mean number of updates per iteration: ".toList, fl s.meanUpdates),
    ("Number of timeslot values changed: ".toList, showNum fl s.numSlotChanges),
    ("Mean number of timeslot changes per update: ".toList, fl s.meanSlotChanges),
    ("Number of amplitude values changed: ".toList, showNum fl s.numAmpChanges),
    ("Mean number of amplitude changes per update: ".toList, fl s.meanAmpChanges)] ++ rest

/-- The last line. -/
def lastEntry : Text × Text := ("------------------------------------".toList, [])

/-- The further lines in the dynamic update mode. -/
def dynEntries (fl : Val → Text) (name : String) (s : DynStats) : List (Text × Text) :=
  [(("**** " ++ name ++ " Computations ****").toList, []),
    (("Total number of " ++ name ++ " computations: ").toList, showNum fl s.numDynGen),
    (("Mean number of " ++ name ++ " computations per update: ").toList, fl s.meanNumDynGen),
    (("Mean wall time to compute " ++ name ++ "s: ").toList, fl s.meanWallDynGen ++ " s".toList),
    ("**** Propagator Computations ****".toList, []),
    ("Total number of propagator computations: ".toList, showNum fl s.numProp),
    ("Mean number of propagator computations per update: ".toList, fl s.meanNumProp),
    ("Mean wall time to compute propagator ".toList, fl s.meanWallProp ++ " s".toList),
    ("**** Forward Propagation ****".toList, []),
    ("Total number of forward propagation step computations: ".toList, showNum fl s.numFwd),
    ("Mean number of forward propagation step computations per update: ".toList,
      fl s.meanNumFwd),
    ("Mean wall time to compute forward propagation ".toList, fl s.meanWallFwd ++ " s".toList),
    ("**** Onward Propagation ****".toList, []),
    ("Total number of onward propagation step computations: ".toList, showNum fl s.numOnwd),
    ("Mean number of onward propagation step computations per update: ".toList,
      fl s.meanNumOnwd),
    ("Mean wall time to compute onward propagation ".toList, fl s.meanWallOnwd ++ " s".toList),
    lastEntry]

/-- The texts of the times, if they can be shown. -/
structure TimeTexts (s : Base) (x0 x1 x2 x3 x4 x5 : Text) : Prop where
  h0 : formatDatetime s.wallOptim 0 = .ok x0
  h1 : formatDatetime s.wallDynGen s.wallOptim = .ok x1
  h2 : formatDatetime s.wallProp s.wallOptim = .ok x2
  h3 : formatDatetime s.wallFwd s.wallOptim = .ok x3
  h4 : formatDatetime s.wallOnwd s.wallOptim = .ok x4
  h5 : formatDatetime s.wallGrad s.wallOptim = .ok x5

theorem timeTexts {s : Base} (h : ∀ p ∈ times s, InRange p.2.1) :
    ∃ x0 x1 x2 x3 x4 x5, TimeTexts s x0 x1 x2 x3 x4 x5 := by
  simp only [times, List.mem_cons, List.not_mem_nil, or_false, forall_eq_or_imp, forall_eq] at h
  obtain ⟨h0, h1, h2, h3, h4, h5⟩ := h
  obtain ⟨x0, e0⟩ := formatDatetime_inRange h0 0
  obtain ⟨x1, e1⟩ := formatDatetime_inRange h1 s.wallOptim
  obtain ⟨x2, e2⟩ := formatDatetime_inRange h2 s.wallOptim
  obtain ⟨x3, e3⟩ := formatDatetime_inRange h3 s.wallOptim
  obtain ⟨x4, e4⟩ := formatDatetime_inRange h4 s.wallOptim
  obtain ⟨x5, e5⟩ := formatDatetime_inRange h5 s.wallOptim
  exact ⟨x0, x1, x2, x3, x4, x5, e0, e1, e2, e3, e4, e5⟩

theorem reportTimings_eq {s : Base} {x0 x1 x2 x3 x4 x5 : Text}
    (h : TimeTexts s x0 x1 x2 x3 x4 x5) (out : List Text) :
    s.reportTimings (out, none) = (out ++ ["**** Timings (HH:MM:SS.US) ****".toList,
      line "Total wall time elapsed during optimisation: " x0,
      line "Wall time computing Hamiltonians: " x1,
      line "Wall time computing propagators: " x2,
      line "Wall time computing forward propagation: " x3,
      line "Wall time computing onward propagation: " x4,
      line "Wall time computing gradient: " x5, []], none) := by
  unfold Base.reportTimings
  simp only
  rw [printAll_none, printTime_none _ _ _ _ h.h0, printTime_none _ _ _ _ h.h1,
    printTime_none _ _ _ _ h.h2, printTime_none _ _ _ _ h.h3, printTime_none _ _ _ _ h.h4,
    printTime_none _ _ _ _ h.h5, printAll_none]
  simp only [List.append_assoc, List.cons_append, List.nil_append]

theorem report_eq (fl : Val → Text) {s : Base} {x0 x1 x2 x3 x4 x5 : Text}
    (h : TimeTexts s x0 x1 x2 x3 x4 x5) :
    s.report fl = ((entries fl s x0 x1 x2 x3 x4 x5 [lastEntry]).map fun e => e.1 ++ e.2, none) := by
  unfold Base.report
  simp only
  rw [printAll_none, reportTimings_eq h, printAll_none, printAll_none, printAll_none]
  rfl

theorem dynReport_eq (fl : Val → Text) (name : String) {s : DynStats} {x0 x1 x2 x3 x4 x5 : Text}
    (h : TimeTexts s.base x0 x1 x2 x3 x4 x5) :
    s.report fl name = ((entries fl s.base x0 x1 x2 x3 x4 x5 (dynEntries fl name s)).map
      fun e => e.1 ++ e.2, none) := by
  unfold DynStats.report
  simp only
  rw [printAll_none, reportTimings_eq h, printAll_none, printAll_none, printAll_none,
    printAll_none, printAll_none, printAll_none]
  rfl

/-- The labels common to both reports. -/
def labels (s : Base) : List String :=
  (times s).map Prod.fst ++ (calls s).map Prod.fst ++ (counts s).map Prod.fst ++
    (means s).map Prod.fst

theorem shows_entry {l rest : List (Text × Text)} {k : String} {v : Text}
    (hk : k.toList ≠ []) (h : l.filter (fun e => !apart k.toList e) = [(k.toList, v)])
    (hr : rest.filter (fun e => !apart k.toList e) = []) :
    Shows ((l ++ rest).map fun e => e.1 ++ e.2) k v :=
  shows_of_apart hk (by rw [List.filter_append, h, hr, List.append_nil])

theorem readInt_showNum (fl : Val → Text) {n : Num} {k : Int} (h : n.val = k) :
    readInt (showNum fl n) = some k := by
  unfold showNum
  rw [h, if_pos (by simp), Rat.num_intCast, readInt_decInt]

theorem showsAll_entries (fl : Val → Text) {s : Base} {x0 x1 x2 x3 x4 x5 : Text}
    (h : TimeTexts s x0 x1 x2 x3 x4 x5) (rest : List (Text × Text))
    (hr : ∀ k ∈ labels s, rest.filter (fun e => !apart k.toList e) = []) :
    ShowsAll fl s ((entries fl s x0 x1 x2 x3 x4 x5 rest).map fun e => e.1 ++ e.2) := by
  simp only [labels, times, calls, counts, means, List.map_cons, List.map_nil, List.cons_append,
    List.nil_append, List.mem_cons, List.not_mem_nil, or_false, forall_eq_or_imp, forall_eq] at hr
  obtain ⟨r1, r2, r3, r4, r5, r6, r7, r8, r9, r10, r11, r12, r13, r14, r15, r16, r17, r18⟩ := hr
  constructor
  · simp only [times, List.mem_cons, List.not_mem_nil, or_false, forall_eq_or_imp, forall_eq]
    exact ⟨⟨x0, shows_entry (by decide) rfl r1, formatDatetime_shows h.h0⟩,
      ⟨x1, shows_entry (by decide) rfl r2, formatDatetime_shows h.h1⟩,
      ⟨x2, shows_entry (by decide) rfl r3, formatDatetime_shows h.h2⟩,
      ⟨x3, shows_entry (by decide) rfl r4, formatDatetime_shows h.h3⟩,
      ⟨x4, shows_entry (by decide) rfl r5, formatDatetime_shows h.h4⟩,
      ⟨x5, shows_entry (by decide) rfl r6, formatDatetime_shows h.h5⟩⟩
  · simp only [calls, List.mem_cons, List.not_mem_nil, or_false, forall_eq_or_imp, forall_eq]
    exact ⟨⟨_, shows_entry (by decide) rfl r7, readNat_dec _⟩,
      ⟨_, shows_entry (by decide) rfl r8, readNat_dec _⟩,
      ⟨_, shows_entry (by decide) rfl r9, readNat_dec _⟩,
      ⟨_, shows_entry (by decide) rfl r10, readNat_dec _⟩,
      ⟨_, shows_entry (by decide) rfl r11, readNat_dec _⟩⟩
  · simp only [counts, List.mem_cons, List.not_mem_nil, or_false, forall_eq_or_imp, forall_eq]
    exact ⟨fun k hk => ⟨_, shows_entry (by decide) rfl r12, readInt_showNum fl hk⟩,
      fun k hk => ⟨_, shows_entry (by decide) rfl r13, readInt_showNum fl hk⟩,
      fun k hk => ⟨_, shows_entry (by decide) rfl r14, readInt_showNum fl hk⟩,
      fun k hk => ⟨_, shows_entry (by decide) rfl r15, readInt_showNum fl hk⟩⟩
  · simp only [means, List.mem_cons, List.not_mem_nil, or_false, forall_eq_or_imp, forall_eq]
    exact ⟨shows_entry (by decide) rfl r16, shows_entry (by decide) rfl r17,
      shows_entry (by decide) rfl r18⟩

/-! ### The dynamic update mode -/

/-- The two documented names of the generators. -/
def Named (name : String) : Prop := name = "dynamics generator" ∨ name = "Hamiltonian"

set_option maxHeartbeats 1000000 in
theorem dyn_apart (fl : Val → Text) {name : String} (hn : Named name) (s : DynStats) (b : Base) :
    ∀ k ∈ labels b, (dynEntries fl name s).filter (fun e => !apart k.toList e) = [] := by
  intro k hk
  simp only [labels, times, calls, counts, means, List.map_cons, List.map_nil, List.cons_append,
    List.nil_append, List.mem_cons, List.not_mem_nil, or_false] at hk
  rcases hn with rfl | rfl
  · rcases hk with rfl | rfl | rfl | rfl | rfl | rfl | rfl | rfl | rfl | rfl | rfl | rfl | rfl |
      rfl | rfl | rfl | rfl | rfl <;> rfl
  · rcases hk with rfl | rfl | rfl | rfl | rfl | rfl | rfl | rfl | rfl | rfl | rfl | rfl | rfl |
      rfl | rfl | rfl | rfl | rfl <;> rfl

set_option maxHeartbeats 1000000 in
theorem dyn_counts (fl : Val → Text) {name : String} (hn : Named name) (s : DynStats)
    (x0 x1 x2 x3 x4 x5 : Text) :
    ∀ p ∈ dynCounts name s, Shows ((entries fl s.base x0 x1 x2 x3 x4 x5
      (dynEntries fl name s)).map fun e => e.1 ++ e.2) p.1 (showNum fl p.2) := by
  simp only [dynCounts, List.mem_cons, List.not_mem_nil, or_false, forall_eq_or_imp, forall_eq]
  rcases hn with rfl | rfl
  · exact ⟨shows_of_apart (by decide) rfl, shows_of_apart (by decide) rfl,
      shows_of_apart (by decide) rfl, shows_of_apart (by decide) rfl⟩
  · exact ⟨shows_of_apart (by decide) rfl, shows_of_apart (by decide) rfl,
      shows_of_apart (by decide) rfl, shows_of_apart (by decide) rfl⟩

set_option maxHeartbeats 1000000 in
theorem dyn_means (fl : Val → Text) {name : String} (hn : Named name) (s : DynStats)
    (x0 x1 x2 x3 x4 x5 : Text) :
    ∀ p ∈ dynMeans name s, Shows ((entries fl s.base x0 x1 x2 x3 x4 x5
      (dynEntries fl name s)).map fun e => e.1 ++ e.2) p.1 (fl p.2) := by
  simp only [dynMeans, List.mem_cons, List.not_mem_nil, or_false, forall_eq_or_imp, forall_eq]
  rcases hn with rfl | rfl
  · exact ⟨shows_of_apart (by decide) rfl, shows_of_apart (by decide) rfl,
      shows_of_apart (by decide) rfl, shows_of_apart (by decide) rfl⟩
  · exact ⟨shows_of_apart (by decide) rfl, shows_of_apart (by decide) rfl,
      shows_of_apart (by decide) rfl, shows_of_apart (by decide) rfl⟩

set_option maxHeartbeats 1000000 in
theorem dyn_meanTimes (fl : Val → Text) {name : String} (hn : Named name) (s : DynStats)
    (x0 x1 x2 x3 x4 x5 : Text) :
    ∀ p ∈ dynMeanTimes name s, Shows ((entries fl s.base x0 x1 x2 x3 x4 x5
      (dynEntries fl name s)).map fun e => e.1 ++ e.2) p.1 (fl p.2 ++ " s".toList) := by
  simp only [dynMeanTimes, List.mem_cons, List.not_mem_nil, or_false, forall_eq_or_imp, forall_eq]
  rcases hn with rfl | rfl
  · exact ⟨shows_of_apart (by decide) rfl, shows_of_apart (by decide) rfl,
      shows_of_apart (by decide) rfl, shows_of_apart (by decide) rfl⟩
  · exact ⟨shows_of_apart (by decide) rfl, shows_of_apart (by decide) rfl,
      shows_of_apart (by decide) rfl, shows_of_apart (by decide) rfl⟩

end QTrl.Stats
