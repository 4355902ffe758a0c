import Verif.Proofs.Timeslots
import Mathlib.Algebra.Field.Rat
import Mathlib.Data.Rat.Cast.Lemmas
import Mathlib.Tactic.NormNum

/-
C01 (timeslot data always agree) and C02 (last assignment wins).
-/

namespace QTrl.Timeslots

variable {K : Type*} [Field K]

/-- A history in which every slot count assigned is positive (or `None`) and every
`tau` assigned is non-empty (or `None`).  Outside it the code really does break the
property: see `C01_fails_for_zero_slots` and `C01_fails_for_negative_slots`. -/
def ValidHistory (ops : List (Op K)) : Prop :=
  (∀ v, Op.setNum (some v) ∈ ops → 0 < v) ∧ (∀ l, Op.setTau (some l) ∈ ops → l ≠ [])

omit [Field K] in
theorem ValidHistory.opPos {ops : List (Op K)} (h : ValidHistory ops) : ∀ op ∈ ops, OpPos op := by
  intro op hop
  rcases op with (_ | v) | (_ | v) | (_ | v) | _ | _ | _ | _ | _ <;> try trivial
  · exact h.1 v hop
  · exact h.2 v hop

/-- **C01.** After any valid history of assignments and reads, reading the timeslot
attributes succeeds and what is read agrees. -/
theorem C01_timeslots_agree [CharZero K] (ops : List (Op K)) (h : ValidHistory ops) :
    ∃ n e tau time,
      readNum (run ops) = some n ∧ readEvo (run ops) = some e ∧
      readTau (run ops) = some tau ∧ readTime (run ops) = some time ∧
      Spec.TimeslotsAgree n e tau time := by
  have hi := ensureInit_inv _ (run_inv ops h.opPos)
  obtain ⟨n, e, tau, time, h1, h2, h3, h4, _, h5⟩ := hi.2.2.1 hi.2.1
  exact ⟨n, e, tau, time, h1, h2, h3, h4, h5⟩

/-- **C01**, end point: the cumulative time starts at 0 and ends at `evo_time`. -/
theorem C01_time_end_points [CharZero K] (ops : List (Op K)) (h : ValidHistory ops) :
    ∃ n : Nat, ∃ e time, readNum (run ops) = some (n : Int) ∧ readEvo (run ops) = some e ∧
      readTime (run ops) = some time ∧ time[0]? = some 0 ∧ time[n]? = some e ∧
      time.length = n + 1 := by
  obtain ⟨n, e, tau, time, h1, h2, _, h4, h5, h6, h7, h8⟩ := C01_timeslots_agree ops h
  refine ⟨tau.length, e, time, by rw [h1, h5], h2, h4, by simpa using h8 0 (Nat.zero_le _), ?_, h7⟩
  rw [h8 _ (Nat.le_refl _), List.take_length, h6]

/-- **C01**, `get_amp_times`: once any attribute has been read, it returns the start
time of every slot. -/
theorem C01_amp_times [CharZero K] (ops : List (Op K)) (h : ValidHistory ops) (op : Op K)
    (hop : op = .readNum ∨ op = .readEvo ∨ op = .readTau) :
    ∃ tau, readTau (run ops) = some tau ∧
      (getAmpTimes (step (run ops) op)).2 =
        .ok ((List.range tau.length).map fun k => (tau.take k).sum) := by
  have hs : step (run ops) op = (ensureInit (run ops)).1 := by
    rcases hop with rfl | rfl | rfl <;> rfl
  have hi := ensureInit_inv _ (run_inv ops h.opPos)
  obtain ⟨n, e, tau, time, h1, h2, h3, h4, _, h5, h6, h7, h8⟩ := hi.2.2.1 hi.2.1
  refine ⟨tau, h3, ?_⟩
  rw [hs]
  have hini := hi.2.1
  generalize (ensureInit (run ops)).1 = t at *
  simp only [getAmpTimes, ensureInit, hini, if_true, h4, h1, Option.getD_some, ← h5,
    Int.toNat_natCast]
  congr 1
  apply List.ext_getElem?
  intro k
  simp only [List.getElem?_take, List.getElem?_map]
  by_cases hk : k < tau.length
  · simp [hk, h8 k hk.le]
  · simp [hk]

/-- The guard of C01 is met by a history that mixes every operation. -/
example : ValidHistory ([.setNum (some 4), .readTau, .setEvo (some 2), .setTau (some [1, 2, 5]),
    .setNum (some 3), .ampTimes, .setNum none, .initTslots] : List (Op ℚ)) := by
  constructor
  · intro v hv; simp at hv; omega
  · intro l hl; simp at hl; simp [hl]

/-- Outside the guard (1): zero slots leave `evo_time` at 5 although the durations sum to 0. -/
theorem C01_fails_for_zero_slots :
    ∃ ops : List (Op ℚ), readEvo (run ops) = some 5 ∧ readTau (run ops) = some [] :=
  ⟨[.setNum (some 0), .setEvo (some 5)], rfl, rfl⟩

/-- Outside the guard (2): a rejected negative count nevertheless stays readable and the
durations are lost. -/
theorem C01_fails_for_negative_slots :
    ∃ ops : List (Op ℚ), readNum (run ops) = some (-3) ∧ readTau (run ops) = none :=
  ⟨[.readTau, .setNum (some (-3))], rfl, rfl⟩

/-! ### C02 -/

/-- **C02** (`tau`): from any state whatsoever, after assigning durations the slot count and
evolution time are derived from them. -/
theorem C02_set_tau (s : TS K) (tau : List K) :
    (setTau s (some tau)).2 = .ok () ∧
    readTau (setTau s (some tau)).1 = some tau ∧
    readNum (setTau s (some tau)).1 = some (tau.length : Int) ∧
    readEvo (setTau s (some tau)).1 = some tau.sum := by
  refine ⟨rfl, rfl, rfl, rfl⟩

/-- **C02** (`num_tslots`): assigning a positive slot count to an initialised object makes all
slots equal, keeping the total time. -/
theorem C02_set_num (s : TS K) (hi : s.initialized = true) (e : K) (he : s.evoTime = some e)
    (n : Nat) (_hn : 0 < n) :
    (setNumTslots s (some n)).2 = .ok () ∧
    readNum (setNumTslots s (some n)).1 = some (n : Int) ∧
    readEvo (setNumTslots s (some n)).1 = some e ∧
    readTau (setNumTslots s (some n)).1 = some (List.replicate n (e / (n : K))) := by
  have hneg : ¬ ((n : Int) < 0) := by omega
  simp [setNumTslots, hi, initTimeslots, he, hneg, readNum, readEvo, readTau, ensureInit]

/-- **C02** (`evo_time`): assigning a total time to an initialised object makes all slots
equal, keeping the slot count. -/
theorem C02_set_evo (s : TS K) (hi : s.initialized = true) (n : Nat)
    (hn : s.numTslots = some (n : Int)) (e : K) :
    (setEvoTime s (some e)).2 = .ok () ∧
    readNum (setEvoTime s (some e)).1 = some (n : Int) ∧
    readEvo (setEvoTime s (some e)).1 = some e ∧
    readTau (setEvoTime s (some e)).1 = some (List.replicate n (e / (n : K))) := by
  have hneg : ¬ ((n : Int) < 0) := by omega
  simp [setEvoTime, hi, initTimeslots, hn, hneg, readNum, readEvo, readTau, ensureInit]

/-- **C02** (before initialisation): the values assigned last are the ones used, whatever the
order, with 10 slots and total time 1 for what was never assigned. -/
theorem C02_uninitialised (s : TS K) (hi : s.initialized = false) (ht : s.tau = none)
    (hn : ∀ n, s.numTslots = some n → 0 < n) :
    ∃ n : Nat, ∃ e : K, (n : Int) = s.numTslots.getD 10 ∧ e = s.evoTime.getD 1 ∧
      readNum s = some (n : Int) ∧ readEvo s = some e ∧
      readTau s = some (List.replicate n (e / (n : K))) := by
  have hpos : 0 < s.numTslots.getD 10 := by
    cases h : s.numTslots with
    | none => simp
    | some n => simpa using hn n h
  obtain ⟨m, hm⟩ := Int.eq_ofNat_of_zero_le (le_of_lt hpos)
  refine ⟨m, s.evoTime.getD 1, hm.symm, rfl, ?_⟩
  have hneg : ¬ ((m : Int) < 0) := by omega
  simp [readNum, readEvo, readTau, ensureInit, hi, initTimeslots, ht, defNumTslots, defEvoTime,
    hm, hneg]

/-- **C02**, history form: whatever happened before, assigning `num_tslots` and then `evo_time`
gives `n` slots of length `e/n`. -/
theorem C02_num_then_evo [CharZero K] (ops : List (Op K)) (h : ValidHistory ops)
    (n : Nat) (hn : 0 < n) (e : K) :
    let s := run (ops ++ [.setNum (some n), .setEvo (some e)])
    readNum s = some (n : Int) ∧ readEvo s = some e ∧
      readTau s = some (List.replicate n (e / (n : K))) := by
  have hinv := run_inv ops h.opPos
  have hrun : run (ops ++ [.setNum (some (n : Int)), .setEvo (some e)]) =
      (setEvoTime (setNumTslots (run ops) (some (n : Int))).1 (some e)).1 := by
    simp [run, List.foldl_append, step]
  intro s
  have hs : s = (setEvoTime (setNumTslots (run ops) (some (n : Int))).1 (some e)).1 := hrun
  cases hi : (run ops).initialized with
  | true =>
    have h1 : (setNumTslots (run ops) (some (n : Int))).1.initialized = true ∧
        (setNumTslots (run ops) (some (n : Int))).1.numTslots = some (n : Int) := by
      have hneg : ¬ ((n : Int) < 0) := by omega
      simp [setNumTslots, hi, initTimeslots, hneg]
    rw [hs]
    exact (C02_set_evo _ h1.1 n h1.2 e).2
  | false =>
    have ht := (hinv.2 hi).1
    have hneg : ¬ ((n : Int) < 0) := by omega
    rw [hs]
    simp [setNumTslots, setEvoTime, hi, readNum, readEvo, readTau, ensureInit, initTimeslots, ht,
      hneg]

example : (run [.readTau, .setTau (some [1, 2])] : TS ℚ).initialized = true ∧
    (run [.readTau, .setTau (some [1, 2])] : TS ℚ).evoTime = some ([1, 2] : List ℚ).sum := ⟨rfl, rfl⟩

end QTrl.Timeslots
