import Verif.Spec.DynReset

/-
What `reset` of a dynamics object leaves behind.
-/

namespace QTrl.DynReset

open QTrl.Timeslots
open QTrl.Par (PV)

variable {K : Type} [Field K]

/-! ### Plain attributes -/

omit [Field K] in
theorem setList_ts (l : List (String × PV)) (s : Dyn K) :
    (s.setList l).ts = s.ts ∧ (s.setList l).appl = s.appl ∧ (s.setList l).phase = s.phase ∧
      (s.setList l).apply = s.apply ∧ (s.setList l).params = s.params := by
  induction l generalizing s with
  | nil => exact ⟨rfl, rfl, rfl, rfl, rfl⟩
  | cons x r ih =>
    obtain ⟨k, v⟩ := x
    exact ih (s.set k v)

/-- The value last assigned to a name. -/
def lastOf (k : String) : List (String × PV) → Option PV
  | [] => none
  | (n, v) :: r => (lastOf k r).or (if n = k then some v else none)

theorem lastOf_append (k : String) (a b : List (String × PV)) :
    lastOf k (a ++ b) = (lastOf k b).or (lastOf k a) := by
  induction a with
  | nil => simp [lastOf]
  | cons x r ih =>
    obtain ⟨n, v⟩ := x
    simp only [List.cons_append, lastOf, ih, Option.or_assoc]

theorem lastOf_isSome {k : String} {l : List (String × PV)} :
    (lastOf k l).isSome = true ↔ k ∈ l.map Prod.fst := by
  induction l with
  | nil => simp [lastOf]
  | cons x r ih =>
    obtain ⟨n, v⟩ := x
    simp only [lastOf, Option.isSome_or, Bool.or_eq_true, ih, List.map_cons, List.mem_cons]
    by_cases h : n = k
    · simp [h]
    · simp [h, Ne.symm h]

omit [Field K] in
theorem setList_attrs (l : List (String × PV)) (s : Dyn K) (k : String) :
    (s.setList l).attrs k = (lastOf k l).or (s.attrs k) := by
  induction l generalizing s with
  | nil => rfl
  | cons x r ih =>
    obtain ⟨n, v⟩ := x
    simp only [Dyn.setList, ih, lastOf, Dyn.set]
    by_cases h : n = k
    · simp [h]
    · simp [h, Ne.symm h]

/-- The value of a plain name in a dictionary. -/
def plainOf (k : String) : List (Entry K) → Option PV
  | [] => none
  | .plain n v :: r => (plainOf k r).or (if n = k then some v else none)
  | _ :: r => plainOf k r

omit [Field K] in
theorem plainOf_none {k : String} {d : List (Entry K)} (h : ∀ v, Entry.plain k v ∉ d) :
    plainOf k d = none := by
  induction d with
  | nil => rfl
  | cons e r ih =>
    have hr := ih fun v hv => h v (List.mem_cons_of_mem _ hv)
    cases e with
    | plain n v =>
      have : n ≠ k := fun e => h v (by rw [e]; exact List.mem_cons_self ..)
      simp [plainOf, hr, this]
    | _ => exact hr

omit [Field K] in
theorem plainOf_some {k : String} {v : PV} {d : List (Entry K)} (hn : (d.map Entry.key).Nodup)
    (h : Entry.plain k v ∈ d) : plainOf k d = some v := by
  induction d with
  | nil => cases h
  | cons e r ih =>
    rw [List.map_cons, List.nodup_cons] at hn
    rcases List.mem_cons.1 h with h | h
    · subst h
      have : plainOf k r = none := plainOf_none fun w hw =>
        hn.1 (List.mem_map.2 ⟨_, hw, rfl⟩)
      simp [plainOf, this]
    · have := ih hn.2 h
      cases e with
      | plain n w => simp [plainOf, this]
      | _ => exact this

theorem setEntry_attrs {c : Cls} {s s' : Dyn K} {e : Entry K} {r : Except PyErr Unit}
    (h : s.setEntry c e = (s', r)) (k : String) :
    s'.attrs k = (plainOf k [e]).or (s.attrs k) ∧ s'.params = s.params := by
  cases e with
  | plain n v =>
    simp only [Dyn.setEntry, Prod.mk.injEq] at h
    rw [← h.1]
    refine ⟨?_, rfl⟩
    simp only [Dyn.set, plainOf, Option.none_or]
    by_cases e : n = k
    · simp [e]
    · simp [e, Ne.symm e]
  | appl v =>
    simp only [Dyn.setEntry] at h
    split at h <;> (injection h with h1 h2; rw [← h1]; exact ⟨rfl, rfl⟩)
  | phase v =>
    simp only [Dyn.setEntry] at h
    split at h <;> (injection h with h1 h2; rw [← h1]; exact ⟨rfl, rfl⟩)
  | num n => injection h with h1 h2; rw [← h1]; exact ⟨rfl, rfl⟩
  | evo n => injection h with h1 h2; rw [← h1]; exact ⟨rfl, rfl⟩
  | tau n => injection h with h1 h2; rw [← h1]; exact ⟨rfl, rfl⟩

omit [Field K] in
theorem plainOf_cons (k : String) (e : Entry K) (r : List (Entry K)) :
    plainOf k (e :: r) = (plainOf k r).or (plainOf k [e]) := by
  cases e <;> simp [plainOf]

theorem setEntries_attrs {c : Cls} {d : List (Entry K)} {s s' : Dyn K}
    (h : s.setEntries c d = (s', .ok ())) (k : String) :
    s'.attrs k = (plainOf k d).or (s.attrs k) ∧ s'.params = s.params := by
  induction d generalizing s with
  | nil => injection h with h1 h2; rw [← h1]; exact ⟨rfl, rfl⟩
  | cons e r ih =>
    simp only [Dyn.setEntries] at h
    split at h
    · injection h with h1 h2; cases h2
    · rename_i s1 h1
      obtain ⟨e1, e2⟩ := setEntry_attrs h1 k
      obtain ⟨e3, e4⟩ := ih h
      refine ⟨?_, e4.trans e2⟩
      rw [e3, e1, plainOf_cons k e r, Option.or_assoc]

/-! ### Valid dictionaries are accepted -/

theorem initTimeslots_ok (s : TS K) (h : ∀ n, s.numTslots = some n → 0 ≤ n) :
    (initTimeslots s).2 = .ok () := by
  unfold initTimeslots
  cases ht : s.tau with
  | some t => rfl
  | none =>
    simp only
    have : ¬ (s.numTslots.getD defNumTslots < 0) := by
      cases hn : s.numTslots with
      | none => decide
      | some n => simpa using h n hn
    rw [if_neg this]

/-- The numbers of slots stored are not negative. -/
def Good (s : TS K) : Prop := ∀ n, s.numTslots = some n → 0 ≤ n

theorem initTimeslots_good (s : TS K) (h : Good s) : Good (initTimeslots s).1 := by
  unfold initTimeslots
  cases ht : s.tau with
  | some t =>
    intro n hn
    simp only [Option.some.injEq] at hn
    omega
  | none =>
    have hge : 0 ≤ s.numTslots.getD defNumTslots := by
      cases hn : s.numTslots with
      | none => decide
      | some n => simpa using h n hn
    simp only
    rw [if_neg (by omega)]
    intro n hn
    simp only [Option.some.injEq] at hn
    omega

theorem setEntry_ok {c : Cls} {s : Dyn K} {e : Entry K} (hs : Good s.ts) (he : e.Ok c) :
    (s.setEntry c e).2 = .ok () ∧ Good (s.setEntry c e).1.ts := by
  cases e with
  | num n =>
    simp only [Entry.Ok] at he
    have hg : Good { s.ts with numTslots := some n } := by
      intro m hm
      simp only [Option.some.injEq] at hm
      omega
    simp only [Dyn.setEntry, setNumTslots]
    split
    · exact ⟨initTimeslots_ok _ hg, initTimeslots_good _ hg⟩
    · exact ⟨rfl, hg⟩
  | evo T =>
    have hg : Good { s.ts with evoTime := some T } := hs
    simp only [Dyn.setEntry, setEvoTime]
    split
    · exact ⟨initTimeslots_ok _ hg, initTimeslots_good _ hg⟩
    · exact ⟨rfl, hg⟩
  | tau t =>
    have hg : Good { s.ts with tau := some t } := hs
    simp only [Dyn.setEntry, setTau]
    exact ⟨initTimeslots_ok _ hg, initTimeslots_good _ hg⟩
  | appl v =>
    obtain ⟨t, rfl, h⟩ := he
    have hne : (PhaseSet.Val.str t) ≠ .none := by simp
    simp only [Dyn.setEntry, if_neg hne, configure]
    rcases h with h | h | h <;> simp [h, hs]
  | phase v =>
    simp only [Entry.Ok] at he
    cases c with
    | symplectic => exact (he rfl).elim
    | _ => exact ⟨rfl, hs⟩
  | plain k v => exact ⟨rfl, hs⟩

theorem setEntries_ok {c : Cls} {d : List (Entry K)} {s : Dyn K} (hs : Good s.ts)
    (hd : ∀ e ∈ d, e.Ok c) : (s.setEntries c d).2 = .ok () ∧ Good (s.setEntries c d).1.ts := by
  induction d generalizing s with
  | nil => exact ⟨rfl, hs⟩
  | cons e r ih =>
    obtain ⟨h1, h2⟩ := setEntry_ok (c := c) hs (hd e (List.mem_cons_self ..))
    simp only [Dyn.setEntries]
    rcases h : s.setEntry c e with ⟨s1, _ | u⟩
    · rw [h] at h1; cases h1
    · rw [h] at h2
      exact ih h2 fun e he => hd e (List.mem_cons_of_mem _ he)

/-! ### The time slots -/

/-- The effect of an entry on the time slots. -/
def tsStep (s : TS K) : Entry K → TS K
  | .num n => (setNumTslots s (some n)).1
  | .evo T => (setEvoTime s (some T)).1
  | .tau t => (setTau s (some t)).1
  | _ => s

theorem setEntry_ts {c : Cls} {s s' : Dyn K} {e : Entry K} {r : Except PyErr Unit}
    (h : s.setEntry c e = (s', r)) : s'.ts = tsStep s.ts e := by
  cases e with
  | plain n v => injection h with h1 h2; rw [← h1]; rfl
  | appl v =>
    simp only [Dyn.setEntry] at h
    split at h <;> (injection h with h1 h2; rw [← h1]; rfl)
  | phase v =>
    simp only [Dyn.setEntry] at h
    split at h <;> (injection h with h1 h2; rw [← h1]; rfl)
  | num n => injection h with h1 h2; rw [← h1]; rfl
  | evo n => injection h with h1 h2; rw [← h1]; rfl
  | tau n => injection h with h1 h2; rw [← h1]; rfl

theorem setEntries_ts {c : Cls} {d : List (Entry K)} {s s' : Dyn K}
    (h : s.setEntries c d = (s', .ok ())) : s'.ts = d.foldl tsStep s.ts := by
  induction d generalizing s with
  | nil => injection h with h1 h2; rw [← h1]; rfl
  | cons e r ih =>
    simp only [Dyn.setEntries] at h
    split at h
    · injection h with h1 h2; cases h2
    · rename_i s1 h1
      rw [ih h, setEntry_ts h1]
      rfl

/-- Time slots not initialised, with the given numbers. -/
def pending (n : Option Int) (T : Option K) : TS K := ⟨n, T, none, none, false⟩

/-- Time slots initialised with equal durations. -/
def equal (n : Int) (T : K) : TS K :=
  ⟨some n, some T, some (equalSlots n T), some (cumTime (equalSlots n T) n.toNat), true⟩

/-- Time slots initialised with given durations. -/
def given (t : List K) : TS K :=
  ⟨some t.length, some t.sum, some t, some (cumTime t t.length), true⟩

theorem setTau_given (s : TS K) (t : List K) : (setTau s (some t)).1 = given t := rfl

omit [Field K] in
theorem numOf_cons (e : Entry K) (r : List (Entry K)) : numOf (e :: r) = (numOf r).or e.num? := rfl
omit [Field K] in
theorem evoOf_cons (e : Entry K) (r : List (Entry K)) : evoOf (e :: r) = (evoOf r).or e.evo? := rfl
omit [Field K] in
theorem tauOf_cons (e : Entry K) (r : List (Entry K)) : tauOf (e :: r) = (tauOf r).or e.tau? := rfl

omit [Field K] in
theorem tauOf_cons_none {e : Entry K} {r : List (Entry K)} (h : tauOf (e :: r) = none) :
    tauOf r = none ∧ e.tau? = none := by
  rw [tauOf_cons, Option.or_eq_none_iff] at h
  exact h

theorem fold_pending (d : List (Entry K)) (ht : tauOf d = none) (n : Option Int) (T : Option K) :
    d.foldl tsStep (pending n T) = pending ((numOf d).or n) ((evoOf d).or T) := by
  induction d generalizing n T with
  | nil => rfl
  | cons e r ih =>
    obtain ⟨h1, h2⟩ := tauOf_cons_none ht
    rw [List.foldl_cons, numOf_cons, evoOf_cons]
    cases e with
    | tau t => cases h2
    | num m =>
      show List.foldl tsStep (pending (some m) T) r = _
      rw [ih h1]
      cases numOf r <;> simp [Entry.num?, Entry.evo?]
    | evo m =>
      show List.foldl tsStep (pending n (some m)) r = _
      rw [ih h1]
      cases evoOf r <;> simp [Entry.num?, Entry.evo?]
    | _ =>
      show List.foldl tsStep (pending n T) r = _
      rw [ih h1]
      simp [Entry.num?, Entry.evo?]

theorem init_equal (n : Int) (T : K) (time : Option (List K)) (b : Bool) (hn : 0 ≤ n) :
    (initTimeslots ⟨some n, some T, none, time, b⟩).1 = equal n T := by
  unfold initTimeslots equal equalSlots
  simp only [Option.getD_some]
  rw [if_neg (by omega)]

/-- An initialised object: entries without durations. -/
theorem fold_init {c : Cls} (d : List (Entry K)) (hd : ∀ e ∈ d, e.Ok c) (ht : tauOf d = none)
    (n : Int) (T : K) (t : List K) (tm : List K) (hn : 0 ≤ n) :
    d.foldl tsStep ⟨some n, some T, some t, some tm, true⟩ =
      if numOf d = none ∧ evoOf d = none then ⟨some n, some T, some t, some tm, true⟩
      else equal ((numOf d).getD n) ((evoOf d).getD T) := by
  induction d generalizing n T t tm with
  | nil => rfl
  | cons e r ih =>
    obtain ⟨h1, h2⟩ := tauOf_cons_none ht
    have hr : ∀ e ∈ r, e.Ok c := fun e he => hd e (List.mem_cons_of_mem _ he)
    have he := hd e (List.mem_cons_self ..)
    rw [List.foldl_cons, numOf_cons, evoOf_cons]
    cases e with
    | tau t => cases h2
    | num m =>
      simp only [Entry.Ok] at he
      have : tsStep (⟨some n, some T, some t, some tm, true⟩ : TS K) (.num m) = equal m T := by
        show (initTimeslots ⟨some m, some T, none, some tm, true⟩).1 = _
        exact init_equal _ _ _ _ (by omega)
      rw [this, equal, ih hr h1 _ _ _ _ (by omega)]
      by_cases hb : numOf r = none ∧ evoOf r = none
      · simp [hb, Entry.num?, Entry.evo?, equal]
      · rw [if_neg hb, if_neg (by simp [Entry.num?])]
        cases numOf r <;> simp [Entry.num?, Entry.evo?]
    | evo m =>
      have : tsStep (⟨some n, some T, some t, some tm, true⟩ : TS K) (.evo m) = equal n m := by
        show (initTimeslots ⟨some n, some m, none, some tm, true⟩).1 = _
        exact init_equal _ _ _ _ hn
      rw [this, equal, ih hr h1 _ _ _ _ hn]
      by_cases hb : numOf r = none ∧ evoOf r = none
      · simp [hb, Entry.num?, Entry.evo?, equal]
      · rw [if_neg hb, if_neg (by simp [Entry.evo?])]
        cases evoOf r <;> simp [Entry.num?, Entry.evo?]
    | _ =>
      show List.foldl tsStep (⟨some n, some T, some t, some tm, true⟩ : TS K) r = _
      rw [ih hr h1 _ _ _ _ hn]
      simp [Entry.num?, Entry.evo?]

/-- Given durations, then entries without durations: nothing else matters. -/
theorem fold_given {c : Cls} (A B : List (Entry K)) (t : List K) (hB : ∀ e ∈ B, e.Ok c)
    (ht : tauOf B = none) (s : TS K) :
    (A ++ .tau t :: B).foldl tsStep s =
      if numOf B = none ∧ evoOf B = none then given t
      else equal ((numOf B).getD t.length) ((evoOf B).getD t.sum) := by
  rw [List.foldl_append, List.foldl_cons]
  show List.foldl tsStep (given t) B = _
  rw [given, fold_init B hB ht _ _ _ _ (by omega)]

/-! ### The phase settings -/

/-- The option of a dictionary. -/
def applOf : List (Entry K) → Option PhaseSet.Val
  | [] => none
  | .appl v :: r => (applOf r).or (some v)
  | _ :: r => applOf r

/-- The phase of a dictionary. -/
def phaseOf : List (Entry K) → Option PV
  | [] => none
  | .phase v :: r => (phaseOf r).or (some v)
  | _ :: r => phaseOf r

omit [Field K] in
theorem applOf_none {d : List (Entry K)} (h : ∀ v, Entry.appl v ∉ d) : applOf d = none := by
  induction d with
  | nil => rfl
  | cons e r ih =>
    have hr := ih fun v hv => h v (List.mem_cons_of_mem _ hv)
    cases e with
    | appl v => exact (h v (List.mem_cons_self ..)).elim
    | _ => exact hr

omit [Field K] in
theorem applOf_some {v : PhaseSet.Val} {d : List (Entry K)} (hn : (d.map Entry.key).Nodup)
    (h : Entry.appl v ∈ d) : applOf d = some v := by
  induction d with
  | nil => cases h
  | cons e r ih =>
    rw [List.map_cons, List.nodup_cons] at hn
    rcases List.mem_cons.1 h with h | h
    · subst h
      have : applOf r = none := applOf_none fun w hw =>
        hn.1 (List.mem_map.2 ⟨_, hw, rfl⟩)
      simp [applOf, this]
    · have := ih hn.2 h
      cases e with
      | appl w => simp [applOf, this]
      | _ => exact this

omit [Field K] in
theorem phaseOf_none {d : List (Entry K)} (h : ∀ v, Entry.phase v ∉ d) : phaseOf d = none := by
  induction d with
  | nil => rfl
  | cons e r ih =>
    have hr := ih fun v hv => h v (List.mem_cons_of_mem _ hv)
    cases e with
    | phase v => exact (h v (List.mem_cons_self ..)).elim
    | _ => exact hr

omit [Field K] in
theorem phaseOf_some {v : PV} {d : List (Entry K)} (hn : (d.map Entry.key).Nodup)
    (h : Entry.phase v ∈ d) : phaseOf d = some v := by
  induction d with
  | nil => cases h
  | cons e r ih =>
    rw [List.map_cons, List.nodup_cons] at hn
    rcases List.mem_cons.1 h with h | h
    · subst h
      have : phaseOf r = none := phaseOf_none fun w hw =>
        hn.1 (List.mem_map.2 ⟨_, hw, rfl⟩)
      simp [phaseOf, this]
    · have := ih hn.2 h
      cases e with
      | phase w => simp [phaseOf, this]
      | _ => exact this

theorem setEntry_phase {c : Cls} {s s' : Dyn K} {e : Entry K}
    (h : s.setEntry c e = (s', .ok ())) :
    s'.appl = (applOf [e]).getD s.appl ∧ s'.phase = (phaseOf [e]).getD s.phase := by
  cases e with
  | plain n v => injection h with h1 h2; rw [← h1]; exact ⟨rfl, rfl⟩
  | appl v =>
    simp only [Dyn.setEntry] at h
    split at h
    · injection h with h1 h2; cases h2
    · injection h with h1 h2; rw [← h1]; exact ⟨rfl, rfl⟩
  | phase v =>
    simp only [Dyn.setEntry] at h
    split at h
    · injection h with h1 h2; cases h2
    · injection h with h1 h2; rw [← h1]; exact ⟨rfl, rfl⟩
  | num n => injection h with h1 h2; rw [← h1]; exact ⟨rfl, rfl⟩
  | evo n => injection h with h1 h2; rw [← h1]; exact ⟨rfl, rfl⟩
  | tau n => injection h with h1 h2; rw [← h1]; exact ⟨rfl, rfl⟩

theorem setEntries_phase {c : Cls} {d : List (Entry K)} {s s' : Dyn K}
    (h : s.setEntries c d = (s', .ok ())) :
    s'.appl = (applOf d).getD s.appl ∧ s'.phase = (phaseOf d).getD s.phase := by
  induction d generalizing s with
  | nil => injection h with h1 h2; rw [← h1]; exact ⟨rfl, rfl⟩
  | cons e r ih =>
    simp only [Dyn.setEntries] at h
    split at h
    · injection h with h1 h2; cases h2
    · rename_i s1 h1
      obtain ⟨e1, e2⟩ := setEntry_phase h1
      obtain ⟨e3, e4⟩ := ih h
      rw [e3, e4, e1, e2]
      constructor
      · cases e <;> simp [applOf]
      · cases e <;> simp [phaseOf]

/-! ### The parts of `reset` -/

omit [Field K] in
theorem base_facts (s : Dyn K) :
    s.base.ts = TS.fresh ∧ s.base.appl = .none ∧ s.base.phase = .none ∧ s.base.apply = s.apply ∧
      s.base.params = s.params :=
  setList_ts baseList _

theorem applyParams_none (c : Cls) (s : Dyn K) :
    s.applyParams c none =
      match s.params with
      | none => (s, .ok ())
      | some d => s.setEntries c d := by
  unfold Dyn.applyParams
  cases h : s.params with
  | none => simp
  | some d =>
    simp only
    congr 1
    cases s
    simp_all

/-- What `reset` does for a valid dictionary: the two passes. -/
theorem reset_parts {c : Cls} {dynamic : Bool} {s : Dyn K} {d : List (Entry K)}
    (hp : s.params = some d) (hd : ∀ e ∈ d, e.Ok c) :
    ∃ s1 s2 s3 : Dyn K, s.base.setEntries c d = (s1, .ok ()) ∧
      s2 = ownPhase c (((s1.setList (computers dynamic c)).setList clearList).setList (ownList c)) ∧
      s2.params = some d ∧ s2.ts = s1.ts ∧
      s2.setEntries c d = (s3, .ok ()) ∧ s.reset c dynamic = (s3, .ok ()) := by
  obtain ⟨b1, b2, b3, b4, b5⟩ := base_facts s
  have hg : Good s.base.ts := by rw [b1]; intro n hn; cases hn
  obtain ⟨o1, g1⟩ := setEntries_ok hg hd
  rcases h1 : s.base.setEntries c d with ⟨s1, r1⟩
  rw [h1] at o1 g1
  simp only at o1 g1
  subst o1
  have p1 : s1.params = some d := by
    rw [(setEntries_attrs h1 "").2, b5, hp]
  have own : ∀ x : Dyn K, (ownPhase c x).params = x.params ∧ (ownPhase c x).ts = x.ts := by
    intro x; cases c <;> exact ⟨rfl, rfl⟩
  let s2 := ownPhase c (((s1.setList (computers dynamic c)).setList clearList).setList (ownList c))
  have p2 : s2.params = some d := by
    show (ownPhase c _).params = _
    rw [(own _).1, (setList_ts _ _).2.2.2.2, (setList_ts _ _).2.2.2.2, (setList_ts _ _).2.2.2.2, p1]
  have t2 : s2.ts = s1.ts := by
    show (ownPhase c _).ts = _
    rw [(own _).2, (setList_ts _ _).1, (setList_ts _ _).1, (setList_ts _ _).1]
  obtain ⟨o2, g2⟩ := setEntries_ok (c := c) (s := s2) (d := d) (by rw [t2]; exact g1) hd
  rcases h2 : s2.setEntries c d with ⟨s3, r3⟩
  rw [h2] at o2
  simp only at o2
  subst o2
  refine ⟨s1, s2, s3, rfl, rfl, p2, t2, h2, ?_⟩
  unfold Dyn.reset Dyn.resetBase
  rw [applyParams_none, b5, hp]
  simp only [h1]
  show s2.applyParams c none = _
  rw [applyParams_none, p2]
  exact h2

/-! ### A reset object is like a new one -/

omit [Field K] in
theorem alike_setList {names : String → Prop} {s s' : Dyn K} (h : Alike names s s')
    (l : List (String × PV)) :
    Alike (fun k => names k ∨ k ∈ l.map Prod.fst) (s.setList l) (s'.setList l) := by
  obtain ⟨a1, a2, a3, _, a5⟩ := setList_ts l s
  obtain ⟨b1, b2, b3, _, b5⟩ := setList_ts l s'
  refine ⟨by rw [a1, b1, h.ts], by rw [a2, b2, h.appl], by rw [a3, b3, h.phase], ?_,
    by rw [a5, b5, h.params]⟩
  intro k hk
  rw [setList_attrs, setList_attrs]
  rcases hk with hk | hk
  · rw [h.attrs k hk]
  · obtain ⟨v, hv⟩ := Option.isSome_iff_exists.1 (lastOf_isSome.2 hk)
    rw [hv]
    rfl

omit [Field K] in
theorem configure_error (f f' : QTrl.PhaseSet.ApplyFn) (v : PhaseSet.Val) :
    (∀ e, configure f v = .error e ↔ configure f' v = .error e) := by
  intro e
  unfold configure
  split
  · repeat' split
    all_goals simp
  · rfl

theorem alike_setEntry {names : String → Prop} {s s' : Dyn K} {c : Cls} (h : Alike names s s')
    (e : Entry K) :
    (s.setEntry c e).2 = (s'.setEntry c e).2 ∧
      Alike (fun k => names k ∨ ∃ v, e = .plain k v) (s.setEntry c e).1 (s'.setEntry c e).1 := by
  cases e with
  | num n =>
    simp only [Dyn.setEntry, h.ts]
    exact ⟨trivial, ⟨rfl, h.appl, h.phase, fun k hk => h.attrs k (by simpa using hk), h.params⟩⟩
  | evo n =>
    simp only [Dyn.setEntry, h.ts]
    exact ⟨trivial, ⟨rfl, h.appl, h.phase, fun k hk => h.attrs k (by simpa using hk), h.params⟩⟩
  | tau n =>
    simp only [Dyn.setEntry, h.ts]
    exact ⟨trivial, ⟨rfl, h.appl, h.phase, fun k hk => h.attrs k (by simpa using hk), h.params⟩⟩
  | appl v =>
    simp only [Dyn.setEntry, h.appl]
    have key := configure_error s.apply s'.apply (if v = .none then s'.appl else v)
    cases h1 : configure s.apply (if v = .none then s'.appl else v) with
    | error e =>
      rw [(key e).1 h1]
      exact ⟨rfl, ⟨h.ts, h.appl, h.phase, fun k hk => h.attrs k (by simpa using hk), h.params⟩⟩
    | ok f =>
      cases h2 : configure s'.apply (if v = .none then s'.appl else v) with
      | error e => rw [(key e).2 h2] at h1; cases h1
      | ok f' => exact ⟨rfl, ⟨h.ts, rfl, h.phase, fun k hk => h.attrs k (by simpa using hk), h.params⟩⟩
  | phase v =>
    cases c <;>
      first
      | exact ⟨rfl, ⟨h.ts, h.appl, rfl, fun k hk => h.attrs k (by simpa using hk), h.params⟩⟩
      | exact ⟨rfl, ⟨h.ts, h.appl, h.phase, fun k hk => h.attrs k (by simpa using hk), h.params⟩⟩
  | plain n v =>
    refine ⟨rfl, ⟨h.ts, h.appl, h.phase, ?_, h.params⟩⟩
    intro k hk
    simp only [Dyn.setEntry, Dyn.set]
    by_cases e : k = n
    · simp [e]
    · simp only [if_neg e]
      rcases hk with hk | ⟨w, hw⟩
      · exact h.attrs k hk
      · injection hw with h1 h2
        exact (e h1.symm).elim

omit [Field K] in
theorem alike_mono {names names' : String → Prop} {s s' : Dyn K} (h : Alike names s s')
    (hn : ∀ k, names' k → names k) : Alike names' s s' :=
  ⟨h.ts, h.appl, h.phase, fun k hk => h.attrs k (hn k hk), h.params⟩

theorem alike_setEntries {c : Cls} (d : List (Entry K)) {names : String → Prop} {s s' : Dyn K}
    (h : Alike names s s') :
    (s.setEntries c d).2 = (s'.setEntries c d).2 ∧
      Alike names (s.setEntries c d).1 (s'.setEntries c d).1 ∧
      ((s.setEntries c d).2 = .ok () →
        Alike (fun k => names k ∨ ∃ v, Entry.plain k v ∈ d) (s.setEntries c d).1
          (s'.setEntries c d).1) := by
  induction d generalizing names s s' with
  | nil => exact ⟨rfl, h, fun _ => alike_mono h fun k hk => by simpa using hk⟩
  | cons e r ih =>
    obtain ⟨h1, h2⟩ := alike_setEntry (c := c) h e
    simp only [Dyn.setEntries]
    rcases he : s.setEntry c e with ⟨s1, r1⟩
    rcases he' : s'.setEntry c e with ⟨s1', r1'⟩
    rw [he, he'] at h1 h2
    simp only at h1 h2
    subst h1
    cases r1 with
    | error x => exact ⟨rfl, alike_mono h2 fun k hk => .inl hk, fun hx => by cases hx⟩
    | ok u =>
      obtain ⟨i1, i2, i3⟩ := ih h2
      refine ⟨i1, alike_mono i2 fun k hk => .inl hk, fun ho => alike_mono (i3 ho) ?_⟩
      rintro k (hk | ⟨v, hv⟩)
      · exact .inl (.inl hk)
      · rcases List.mem_cons.1 hv with hv | hv
        · exact .inl (.inr ⟨v, hv.symm⟩)
        · exact .inr ⟨v, hv⟩

/-- The names a dictionary assigns to. -/
def named (p : Option (List (Entry K))) (k : String) : Prop :=
  ∃ d v, p = some d ∧ Entry.plain k v ∈ d

theorem alike_apply {c : Cls} {names : String → Prop} {s s' : Dyn K} (h : Alike names s s') :
    (s.applyParams c none).2 = (s'.applyParams c none).2 ∧
      Alike names (s.applyParams c none).1 (s'.applyParams c none).1 ∧
      ((s.applyParams c none).2 = .ok () →
        Alike (fun k => names k ∨ named s.params k) (s.applyParams c none).1
          (s'.applyParams c none).1) := by
  rw [applyParams_none, applyParams_none, ← h.params]
  cases hp : s.params with
  | none =>
    refine ⟨rfl, h, fun _ => alike_mono h ?_⟩
    rintro k (hk | ⟨d, v, hd, _⟩)
    · exact hk
    · cases hd
  | some d =>
    obtain ⟨i1, i2, i3⟩ := alike_setEntries (c := c) d h
    refine ⟨i1, i2, fun ho => alike_mono (i3 ho) ?_⟩
    rintro k (hk | ⟨d', v, hd, hv⟩)
    · exact .inl hk
    · injection hd with hd
      exact .inr ⟨v, by rw [hd]; exact hv⟩

omit [Field K] in
theorem alike_base (s s' : Dyn K) (h : s.params = s'.params) :
    Alike (fun k => k ∈ baseList.map Prod.fst) s.base s'.base := by
  have : Alike (fun _ => False) ({ s with ts := TS.fresh, appl := .none, phase := .none } : Dyn K)
      { s' with ts := TS.fresh, appl := .none, phase := .none } :=
    ⟨rfl, rfl, rfl, fun _ hk => hk.elim, h⟩
  exact alike_mono (alike_setList this baseList) fun k hk => .inr hk

theorem apply_params_eq {c : Cls} (s : Dyn K) (h : (s.applyParams c none).2 = .ok ()) :
    (s.applyParams c none).1.params = s.params := by
  rw [applyParams_none] at h ⊢
  cases hp : s.params with
  | none => simp only; exact hp
  | some d =>
    rw [hp] at h
    simp only at h ⊢
    rcases he : s.setEntries c d with ⟨s1, r⟩
    rw [he] at h
    simp only at h
    subst h
    rw [(setEntries_attrs he "").2, hp]

omit [Field K] in
theorem alike_own {c : Cls} {names : String → Prop} {s s' : Dyn K} (h : Alike names s s') :
    Alike names (ownPhase c s) (ownPhase c s') := by
  cases c with
  | genMat => exact h
  | unitary => exact ⟨h.ts, rfl, rfl, h.attrs, h.params⟩
  | symplectic => exact ⟨h.ts, rfl, h.phase, h.attrs, h.params⟩

theorem alike_reset (c : Cls) (dynamic : Bool) (s s' : Dyn K) (h : s.params = s'.params) :
    (s.reset c dynamic).2 = (s'.reset c dynamic).2 ∧
      ((s.reset c dynamic).2 = .ok () →
        Alike (fun k => k ∈ known dynamic c ∨ named s.params k) (s.reset c dynamic).1
          (s'.reset c dynamic).1) := by
  have hb := alike_base s s' h
  obtain ⟨i1, i2, i3⟩ := alike_apply (c := c) hb
  unfold Dyn.reset Dyn.resetBase
  rcases he : s.base.applyParams c none with ⟨s1, r1⟩
  rcases he' : s'.base.applyParams c none with ⟨s1', r1'⟩
  rw [he, he'] at i1 i2 i3
  simp only at i1 i2 i3
  subst i1
  cases r1 with
  | error x => exact ⟨rfl, fun hx => by cases hx⟩
  | ok u =>
    simp only
    have a1 := i3 rfl
    have a2 := alike_own (c := c) (alike_setList (alike_setList (alike_setList a1
      (computers dynamic c)) clearList) (ownList c))
    obtain ⟨j1, j2, j3⟩ := alike_apply (c := c) a2
    refine ⟨j1, fun ho => alike_mono j2 ?_⟩
    rintro k (hk | hk)
    · simp only [known, List.map_append, List.mem_append] at hk
      tauto
    · refine .inl (.inl (.inl (.inr ?_)))
      rw [(base_facts s).2.2.2.2]
      exact hk

end QTrl.DynReset
