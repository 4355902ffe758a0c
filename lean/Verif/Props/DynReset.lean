import Verif.Proofs.DynReset
import Mathlib.Data.Rat.Defs
import Mathlib.Algebra.Field.Rat
import Mathlib.Algebra.Order.Ring.Unbundled.Rat

/-
C67: the attributes of a dynamics object after its construction or a `reset` are the documented
ones, overridden by the dictionary of parameters, whatever the object held before.
-/

namespace QTrl.DynReset

open QTrl.Timeslots
open QTrl.Par (PV)

variable {K : Type} [Field K]

/-- The dictionary of the examples. -/
def exDict : List (Entry Rat) :=
  [.num 4, .plain "memory_optimization" (.num 1), .evo 2, .appl (.str "custom"),
   .phase (.func "1j"), .plain "colour" (.str "red"), .plain "fid_computer" (.func "Mine")]

theorem exDict_valid : Valid .unitary exDict := by
  refine ⟨?_, by decide⟩
  intro e he
  simp only [exDict, List.mem_cons, List.not_mem_nil, or_false] at he
  rcases he with rfl | rfl | rfl | rfl | rfl | rfl | rfl
  · show (0 : Int) < 4; decide
  · show _ ∉ properties; decide
  · trivial
  · exact ⟨_, rfl, .inr (.inr (by decide))⟩
  · show Cls.unitary ≠ .symplectic; decide
  · show _ ∉ properties; decide
  · show _ ∉ properties; decide

/-- **C67**: every plain entry of the dictionary is the value of its attribute after a `reset`,
whatever object it is, and `reset` raises nothing.  This includes the names that `reset` itself
assigns later (the computers, `evo_current`, `id_text`). -/
theorem C67_params (c : Cls) (dynamic : Bool) (s : Dyn K) (d : List (Entry K))
    (hp : s.params = some d) (hd : Valid c d) :
    (s.reset c dynamic).2 = .ok () ∧
      ∀ k v, Entry.plain k v ∈ d → (s.reset c dynamic).1.attrs k = some v := by
  obtain ⟨s1, s2, s3, h1, h2, h3, h4, h5, h6⟩ := reset_parts (dynamic := dynamic) hp hd.ok
  rw [h6]
  refine ⟨rfl, fun k v hk => ?_⟩
  rw [(setEntries_attrs h5 k).1, plainOf_some hd.nodup hk]
  rfl

example : ((construct .unitary false (some exDict)).1.attrs "fid_computer") =
    some (.func "Mine") :=
  (C67_params .unitary false (Dyn.blank (some exDict)) exDict rfl exDict_valid).2 _ _
    (by simp [exDict])

/-- **C67**: every documented attribute that the dictionary does not name has its documented
value after a `reset`. -/
theorem C67_defaults (c : Cls) (dynamic : Bool) (s : Dyn K) (d : List (Entry K))
    (hp : s.params = some d) (hd : Valid c d) (k : String) (v : PV)
    (hk : (k, v) ∈ documented dynamic c) (hn : k ∉ d.map Entry.key) :
    (s.reset c dynamic).1.attrs k = some v := by
  obtain ⟨s1, s2, s3, h1, h2, h3, h4, h5, h6⟩ := reset_parts (dynamic := dynamic) hp hd.ok
  rw [h6]
  have np : plainOf k d = none := plainOf_none fun w hw => hn (List.mem_map.2 ⟨_, hw, rfl⟩)
  have own : ∀ x : Dyn K, (ownPhase c x).attrs k = x.attrs k := by
    intro x; cases c <;> rfl
  simp only
  rw [(setEntries_attrs h5 k).1, np, h2, own, setList_attrs, setList_attrs, setList_attrs,
    (setEntries_attrs h1 k).1, np]
  simp only [Option.none_or, Dyn.base]
  rw [setList_attrs, ← Option.or_assoc, ← Option.or_assoc, ← Option.or_assoc]
  have key : (((lastOf k (ownList c)).or (lastOf k clearList)).or
      (lastOf k (computers dynamic c))).or (lastOf k baseList) = some v := by
    revert k v
    have : ∀ p ∈ documented dynamic c,
        (((lastOf p.1 (ownList c)).or (lastOf p.1 clearList)).or
          (lastOf p.1 (computers dynamic c))).or (lastOf p.1 baseList) = some p.2 := by
      cases c <;> cases dynamic <;> decide +kernel
    intro k v hk _ _ _
    exact this _ hk
  rw [key]
  rfl

example : ((construct .unitary false (some exDict)).1.attrs "prop_computer") =
    some (.func "PropCompDiag") :=
  C67_defaults .unitary false (Dyn.blank (some exDict)) exDict rfl exDict_valid _ _
    (by simp [documented]) (by decide)

/-- **C67**, the time slots of a dictionary without durations: equal slots of the number and the
time given, or 10 slots and the time 1; the order of the entries does not matter. -/
theorem C67_slots_partial (c : Cls) (dynamic : Bool) (s : Dyn K) (d : List (Entry K))
    (hp : s.params = some d) (hd : Valid c d) (ht : tauOf d = none) :
    let r := (s.reset c dynamic).1.ts
    let n := (numOf d).getD 10
    let T := (evoOf d).getD 1
    readNum r = some n ∧ readEvo r = some T ∧ readTau r = some (equalSlots n T) := by
  obtain ⟨s1, s2, s3, h1, h2, h3, h4, h5, h6⟩ := reset_parts (dynamic := dynamic) hp hd.ok
  have hts : s3.ts = pending (numOf d) (evoOf d) := by
    rw [setEntries_ts h5, h4, setEntries_ts h1, (base_facts s).1]
    show List.foldl tsStep (List.foldl tsStep (pending none none) d) d = _
    rw [fold_pending d ht, fold_pending d ht]
    simp
  have hn : ∀ n, numOf d = some n → 0 ≤ n := by
    have hg : Good s3.ts := by
      have := (setEntries_ok (c := c) (s := s.base) (d := d)
        (by rw [(base_facts s).1]; intro n hn; cases hn) hd.ok).2
      rw [h1] at this
      have g2 : Good s2.ts := by rw [h4]; exact this
      have := (setEntries_ok (c := c) (d := d) g2 hd.ok).2
      rw [h5] at this
      exact this
    intro n h
    apply hg
    rw [hts]
    exact h
  rw [h6]
  simp only [hts, readNum, readEvo, readTau, ensureInit, pending, initTimeslots]
  have hge : ¬ ((numOf d).getD defNumTslots < 0) := by
    cases h : numOf d with
    | none => decide
    | some n => have := hn n h; simpa using this
  simp only [Bool.false_eq_true, if_false, if_neg hge]
  exact ⟨rfl, rfl, rfl⟩

example : readTau (construct .unitary false (some exDict)).1.ts =
    some [1 / 2, 1 / 2, 1 / 2, 1 / 2] := by
  rw [construct, (C67_slots_partial .unitary false (Dyn.blank (some exDict)) exDict rfl
    exDict_valid rfl).2.2]
  simp only [exDict, numOf, evoOf, List.foldr, Entry.num?, Entry.evo?, Option.or_none,
    Option.none_or, Option.getD_some, equalSlots]
  show some (List.replicate 4 (2 / ((4 : Int) : Rat))) = _
  norm_num [List.replicate]

/-- **C67**, the time slots of a dictionary with durations: they are the ones given and the
number of slots and the time are theirs, if neither is given after them. -/
theorem C67_slots_given_partial (c : Cls) (dynamic : Bool) (s : Dyn K) (A B : List (Entry K))
    (t : List K) (hp : s.params = some (A ++ .tau t :: B)) (hd : Valid c (A ++ .tau t :: B))
    (hB : ∀ e ∈ B, e.num? = none ∧ e.evo? = none) :
    let r := (s.reset c dynamic).1.ts
    readNum r = some t.length ∧ readEvo r = some t.sum ∧ readTau r = some t := by
  obtain ⟨s1, s2, s3, h1, h2, h3, h4, h5, h6⟩ := reset_parts (dynamic := dynamic) hp hd.ok
  have hnd := hd.nodup
  have hbt : tauOf B = none := by
    have : "tau" ∉ B.map Entry.key := by
      rw [List.map_append, List.map_cons] at hnd
      exact (List.nodup_cons.1 hnd.of_append_right).1
    clear hB hp hd hnd h1 h2 h3 h4 h5 h6
    induction B with
    | nil => rfl
    | cons e r ih =>
      rw [List.map_cons, List.mem_cons, not_or] at this
      rw [tauOf_cons, ih this.2]
      cases e with
      | tau t => exact (this.1 rfl).elim
      | _ => rfl
  have hno : numOf B = none ∧ evoOf B = none := by
    clear hbt hp hd hnd h1 h2 h3 h4 h5 h6
    induction B with
    | nil => exact ⟨rfl, rfl⟩
    | cons e r ih =>
      obtain ⟨i1, i2⟩ := ih fun e he => hB e (List.mem_cons_of_mem _ he)
      obtain ⟨j1, j2⟩ := hB e (List.mem_cons_self ..)
      rw [numOf_cons, evoOf_cons, i1, i2, j1, j2]
      exact ⟨rfl, rfl⟩
  have hts : s3.ts = given t := by
    rw [setEntries_ts h5, fold_given (c := c) A B t
      (fun e he => hd.ok e (List.mem_append_right _ (List.mem_cons_of_mem _ he))) hbt,
      if_pos hno]
  rw [h6]
  simp only [hts]
  exact ⟨rfl, rfl, rfl⟩

theorem exTau_valid : Valid .genMat ([.num 7] ++ .tau [1, 3] :: [] : List (Entry Rat)) := by
  refine ⟨?_, by decide⟩
  intro e he
  simp only [List.cons_append, List.nil_append, List.mem_cons, List.not_mem_nil, or_false] at he
  rcases he with rfl | rfl
  · show (0 : Int) < 7; decide
  · show ([1, 3] : List Rat) ≠ []; simp

example : readTau (construct .genMat true
    (some ([.num 7] ++ .tau [1, 3] :: [] : List (Entry Rat)))).1.ts = some [1, 3] :=
  (C67_slots_given_partial .genMat true (Dyn.blank _) [.num 7] [] [1, 3] rfl exTau_valid
    (by simp)).2.2

/-- **C67, violated**: durations followed by a number of slots or by a time are dropped: what
remains are equal slots of the number and the time, the one not given being that of the
durations.  The same entries the other way round keep the durations
(`C67_slots_given_partial`). -/
theorem C67_violated_tau_order (c : Cls) (dynamic : Bool) (s : Dyn K) (A B : List (Entry K))
    (t : List K) (hp : s.params = some (A ++ .tau t :: B)) (hd : Valid c (A ++ .tau t :: B))
    (ht : tauOf B = none) (hB : ∃ e ∈ B, e.num? ≠ none ∨ e.evo? ≠ none) :
    readTau (s.reset c dynamic).1.ts =
      some (equalSlots ((numOf B).getD t.length) ((evoOf B).getD t.sum)) := by
  obtain ⟨s1, s2, s3, h1, h2, h3, h4, h5, h6⟩ := reset_parts (dynamic := dynamic) hp hd.ok
  have hno : ¬ (numOf B = none ∧ evoOf B = none) := by
    clear ht hp hd h1 h2 h3 h4 h5 h6
    induction B with
    | nil => obtain ⟨e, he, _⟩ := hB; cases he
    | cons e r ih =>
      obtain ⟨x, hx, hx'⟩ := hB
      rw [numOf_cons, evoOf_cons, Option.or_eq_none_iff, Option.or_eq_none_iff]
      rintro ⟨⟨n1, n2⟩, e1, e2⟩
      rcases List.mem_cons.1 hx with rfl | hx
      · rcases hx' with h | h
        · exact h n2
        · exact h e2
      · exact ih ⟨x, hx, hx'⟩ ⟨n1, e1⟩
  rw [h6]
  simp only
  rw [setEntries_ts h5, fold_given (c := c) A B t
      (fun e he => hd.ok e (List.mem_append_right _ (List.mem_cons_of_mem _ he))) ht,
      if_neg hno]
  rfl

theorem exOrder_valid : Valid .genMat ([] ++ .tau [1, 3] :: [.num 2] : List (Entry Rat)) := by
  refine ⟨?_, by decide⟩
  intro e he
  simp only [List.nil_append, List.mem_cons, List.not_mem_nil, or_false] at he
  rcases he with rfl | rfl
  · show ([1, 3] : List Rat) ≠ []; simp
  · show (0 : Int) < 2; decide

example : readTau (construct .genMat true
    (some ([] ++ .tau [1, 3] :: [.num 2] : List (Entry Rat)))).1.ts = some [2, 2] := by
  rw [construct, C67_violated_tau_order .genMat true (Dyn.blank _) [] [.num 2] [1, 3] rfl
    exOrder_valid rfl ⟨_, List.mem_cons_self .., .inl (by simp [Entry.num?])⟩]
  show some (List.replicate 2 (([1, 3] : List Rat).sum / ((2 : Int) : Rat))) = _
  norm_num [List.replicate]

/-- **C67**: the phase and its application are those of the dictionary, or those of the class. -/
theorem C67_phase (c : Cls) (dynamic : Bool) (s : Dyn K) (d : List (Entry K))
    (hp : s.params = some d) (hd : Valid c d) :
    (∀ v, Entry.appl v ∈ d → (s.reset c dynamic).1.appl = v) ∧
    ((∀ v, Entry.appl v ∉ d) → (s.reset c dynamic).1.appl = classAppl c) ∧
    (∀ v, Entry.phase v ∈ d → (s.reset c dynamic).1.phase = v) ∧
    ((∀ v, Entry.phase v ∉ d) → (s.reset c dynamic).1.phase = classPhase c) := by
  obtain ⟨s1, s2, s3, h1, h2, h3, h4, h5, h6⟩ := reset_parts (dynamic := dynamic) hp hd.ok
  obtain ⟨b1, b2, b3, b4, b5⟩ := base_facts s
  rw [h6]
  obtain ⟨x1, y1⟩ := setEntries_phase h1
  obtain ⟨x2, y2⟩ := setEntries_phase h5
  have own : ∀ x : Dyn K, x.appl = s1.appl → x.phase = s1.phase →
      (s1.appl = .none → (ownPhase c x).appl = classAppl c) ∧
      (s1.phase = .none → (ownPhase c x).phase = classPhase c) := by
    intro x hx hy
    cases c <;> simp [ownPhase, hx, hy, classAppl, classPhase]
  obtain ⟨o1, o2⟩ := own (((s1.setList (computers dynamic c)).setList clearList).setList
    (ownList c))
    (by rw [(setList_ts _ _).2.1, (setList_ts _ _).2.1, (setList_ts _ _).2.1])
    (by rw [(setList_ts _ _).2.2.1, (setList_ts _ _).2.2.1, (setList_ts _ _).2.2.1])
  rw [← h2] at o1 o2
  refine ⟨fun v hv => ?_, fun hv => ?_, fun v hv => ?_, fun hv => ?_⟩
  · simp only
    rw [x2, applOf_some hd.nodup hv]
    rfl
  · simp only
    rw [x2, applOf_none hv]
    exact o1 (by rw [x1, applOf_none hv, b2]; rfl)
  · simp only
    rw [y2, phaseOf_some hd.nodup hv]
    rfl
  · simp only
    rw [y2, phaseOf_none hv]
    exact o2 (by rw [y1, phaseOf_none hv, b3]; rfl)

example : (construct .unitary false (some exDict)).1.phase = .func "1j" :=
  (C67_phase .unitary false (Dyn.blank (some exDict)) exDict rfl exDict_valid).2.2.1 _
    (by simp [exDict])

/-- **C67**: `reset` of any object and a new object with the same dictionary, valid or not: the
same exception or none, and in the latter case the same time slots and phase settings and the
same documented attributes, internal attributes and attributes named in the dictionary. -/
theorem C67_as_new (c : Cls) (dynamic : Bool) (s : Dyn K) :
    (s.reset c dynamic).2 = (construct c dynamic s.params).2 ∧
      ((s.reset c dynamic).2 = .ok () →
        Alike (fun k => k ∈ (documented dynamic c).map Prod.fst ∨ k ∈ known dynamic c ∨
            ∃ d v, s.params = some d ∧ Entry.plain k v ∈ d)
          (s.reset c dynamic).1 (construct c dynamic s.params).1) := by
  obtain ⟨h1, h2⟩ := alike_reset c dynamic s (Dyn.blank s.params) rfl
  refine ⟨h1, fun ho => alike_mono (h2 ho) ?_⟩
  have sub : ∀ k ∈ (documented dynamic c).map Prod.fst, k ∈ known dynamic c := by
    cases c <;> cases dynamic <;> decide +kernel
  rintro k (hk | hk | hk)
  · exact .inl (sub k hk)
  · exact .inl hk
  · exact .inr hk

/-- An object that was used with other settings. -/
def exUsed : Dyn Rat :=
  { ts := ⟨some 3, some 1, none, none, false⟩, appl := .str "postop", apply := .preop
    phase := .func "2j", attrs := fun _ => some (.str "used"), params := some exDict }

example : (exUsed.reset .unitary false).1.attrs "initial" =
    (construct .unitary false (some exDict)).1.attrs "initial" :=
  ((C67_as_new .unitary false exUsed).2
    (C67_params .unitary false exUsed exDict rfl exDict_valid).1).attrs _
    (.inl (by simp [documented, documented.common]))

/-- **C67**: `apply_params` with a dictionary keeps it for a later `reset` and sets its plain
entries; without a dictionary, or with an empty one, it is the kept one that is applied. -/
theorem C67_apply (c : Cls) (s : Dyn K) (d : List (Entry K)) (hd : Valid c d)
    (hs : ∀ n, s.ts.numTslots = some n → 0 ≤ n) :
    (d ≠ [] → (s.applyParams c (some d)).2 = .ok () ∧
      (s.applyParams c (some d)).1.params = some d ∧
      ∀ k v, Entry.plain k v ∈ d → (s.applyParams c (some d)).1.attrs k = some v) ∧
    (s.applyParams c (some []) = s.applyParams c none) ∧
    (s.params = some d → s.applyParams c none = s.applyParams c (some d)) := by
  refine ⟨fun hne => ?_, rfl, fun hp => ?_⟩
  · obtain ⟨x, r, rfl⟩ := List.exists_cons_of_ne_nil hne
    have ho := (setEntries_ok (c := c) (s := { s with params := some (x :: r) }) hs hd.ok).1
    have he : s.applyParams c (some (x :: r)) =
        ({ s with params := some (x :: r) }.setEntries c (x :: r)) := rfl
    rw [he]
    have hx : ({ s with params := some (x :: r) } : Dyn K).setEntries c (x :: r) =
        ((({ s with params := some (x :: r) } : Dyn K).setEntries c (x :: r)).1, .ok ()) :=
      Prod.ext rfl ho
    refine ⟨ho, ?_, fun k v hk => ?_⟩
    · rw [(setEntries_attrs hx "").2]
    · rw [(setEntries_attrs hx k).1, plainOf_some hd.nodup hk]
      rfl
  · cases d with
    | nil => rfl
    | cons x r =>
      unfold Dyn.applyParams
      rw [hp]

example : ((exUsed.applyParams .unitary (some exDict)).1.attrs "colour") = some (.str "red") :=
  ((C67_apply .unitary exUsed exDict exDict_valid
    (fun n h => by cases h; decide)).1 (by decide)).2.2 _ _ (by simp [exDict])

/-- **C67**: the initialisation of the phase after a `reset`: with no phase it accepts whatever
option there is and keeps the method; for unitary dynamics with no option in the dictionary the
phase is applied before. -/
theorem C67_init_phase (dynamic : Bool) (s : Dyn K) (d : List (Entry K)) (hp : s.params = some d) :
    (Valid .genMat d → (∀ v, Entry.phase v ∉ d) →
      (s.reset .genMat dynamic).1.initPhase = .ok (s.reset .genMat dynamic).1.apply) ∧
    (Valid .unitary d → (∀ v, Entry.appl v ∉ d) → (∀ v, Entry.phase v ∉ d) →
      (s.reset .unitary dynamic).1.initPhase = .ok .preop) := by
  refine ⟨fun hd hv => ?_, fun hd ha hv => ?_⟩
  · have := (C67_phase .genMat dynamic s d hp hd).2.2.2 hv
    unfold Dyn.initPhase
    rw [this]
    rfl
  · have h1 := (C67_phase .unitary dynamic s d hp hd).2.2.2 hv
    have h2 := (C67_phase .unitary dynamic s d hp hd).2.1 ha
    unfold Dyn.initPhase
    rw [h1, h2]
    rfl

example : (({ exUsed with params := some [] } : Dyn Rat).reset .genMat false).1.initPhase =
    .ok .preop :=
  ((C67_init_phase false ({ exUsed with params := some [] } : Dyn Rat) [] rfl).1
    ⟨by simp, by simp⟩ (by simp)).trans rfl

/-- **C67, violated**: an attribute that an earlier dictionary created and that neither `reset`
nor the present dictionary names keeps its value over a `reset`; a new object has no such
attribute. -/
theorem C67_violated_stale (c : Cls) (dynamic : Bool) (s : Dyn K) (d : List (Entry K))
    (hp : s.params = some d) (hd : Valid c d) (k : String) (hk : k ∉ known dynamic c)
    (hn : k ∉ d.map Entry.key) :
    (s.reset c dynamic).1.attrs k = s.attrs k ∧
      (construct c dynamic s.params).1.attrs k = none := by
  have all : ∀ s : Dyn K, s.params = some d → (s.reset c dynamic).1.attrs k = s.attrs k := by
    intro s hp
    obtain ⟨s1, s2, s3, h1, h2, h3, h4, h5, h6⟩ := reset_parts (dynamic := dynamic) hp hd.ok
    rw [h6]
    have np : plainOf k d = none := plainOf_none fun w hw => hn (List.mem_map.2 ⟨_, hw, rfl⟩)
    have own : ∀ x : Dyn K, (ownPhase c x).attrs k = x.attrs k := by
      intro x; cases c <;> rfl
    have no : ∀ l, k ∉ l.map Prod.fst → lastOf k l = none := by
      intro l hl
      rw [← Option.not_isSome_iff_eq_none, lastOf_isSome]
      exact hl
    simp only [known, List.map_append, List.mem_append, not_or] at hk
    simp only
    rw [(setEntries_attrs h5 k).1, np, h2, own, setList_attrs, setList_attrs, setList_attrs,
      (setEntries_attrs h1 k).1, np, no _ hk.2, no _ hk.1.2, no _ hk.1.1.2]
    simp only [Option.none_or, Dyn.base]
    rw [setList_attrs, no _ hk.1.1.1]
    rfl
  refine ⟨all s hp, ?_⟩
  rw [hp]
  exact all (Dyn.blank (some d)) rfl

example : (exUsed.reset .unitary false).1.attrs "sound" = some (.str "used") ∧
    (construct .unitary false (some exDict)).1.attrs "sound" = none :=
  C67_violated_stale .unitary false exUsed exDict rfl exDict_valid "sound" (by decide +kernel)
    (by decide)

/-- **C67, violated**: the method that applies the phase survives a `reset`: with the option
'custom' an object that used 'preop' before goes on with that method, a new object uses the
one of its class. -/
theorem C67_violated_custom :
    ((exUsed.reset .unitary false).1.initPhase = .ok .preop ∧
      (construct .unitary false exUsed.params).1.initPhase = .ok .default) := by
  refine ⟨?_, ?_⟩ <;> rfl

/-- **C67, violated**: a phase in the dictionary of symplectic dynamics ends the construction
with an `AttributeError`: the property has no setter there. -/
theorem C67_violated_phase_param (dynamic : Bool) (A B : List (Entry K)) (v : PV)
    (hA : ∀ e ∈ A, e.Ok .symplectic) :
    (construct .symplectic dynamic (some (A ++ .phase v :: B))).2 = .error .attributeError := by
  have hb := base_facts (Dyn.blank (some (A ++ .phase v :: B)))
  have h : ((Dyn.blank (some (A ++ .phase v :: B))).base.setEntries .symplectic
      (A ++ .phase v :: B)).2 = .error .attributeError := by
    have hg : Good (Dyn.blank (some (A ++ .phase v :: B))).base.ts := by
      rw [hb.1]; intro n hn; cases hn
    revert hg
    generalize (Dyn.blank (some (A ++ .phase v :: B))).base = x
    clear hb
    induction A generalizing x with
    | nil => intro _; rfl
    | cons e r ih =>
      intro hg
      obtain ⟨o1, o2⟩ := setEntry_ok (c := .symplectic) hg (hA e (List.mem_cons_self ..))
      simp only [List.cons_append, Dyn.setEntries]
      rcases he : x.setEntry .symplectic e with ⟨x1, _ | u⟩
      · rw [he] at o1; cases o1
      · rw [he] at o2
        exact ih (fun e he => hA e (List.mem_cons_of_mem _ he)) x1 o2
  unfold construct Dyn.reset Dyn.resetBase
  rw [applyParams_none, hb.2.2.2.2]
  revert h
  show _ → (match (match (Dyn.blank (some (A ++ .phase v :: B))).base.setEntries .symplectic
      (A ++ .phase v :: B) with
    | (s, .error e) => _
    | (s, .ok ()) => _ : Dyn K × Except PyErr Unit) with
    | (s, .error e) => _
    | (s, .ok ()) => _ : Dyn K × Except PyErr Unit).2 = _
  rcases (Dyn.blank (some (A ++ .phase v :: B))).base.setEntries .symplectic
    (A ++ .phase v :: B) with ⟨x, r⟩
  intro h
  simp only at h
  subst h
  rfl

example : (construct .symplectic true (some [.evo (2 : Rat), .phase (.num 1)])).2 =
    .error .attributeError :=
  C67_violated_phase_param true [.evo 2] [] (.num 1) (by simp [Entry.Ok])

/-! ### Parameter files -/

/-- What the options of the file say. -/
def FileOpt.entry : FileOpt K → Entry K
  | .num n => .num n
  | .evo T => .evo T
  | .tau t => .tau t

/-- **C67**, from a parameter file: a number of slots and a time in any order give
equal slots. -/
theorem C67_file_partial (single : K → K) (l : List (FileOpt K)) (hne : l ≠ [])
    (hl : ∀ o ∈ l, (∃ n, o = .num n ∧ 0 < n) ∨ ∃ T, o = .evo T) :
    let d := l.map FileOpt.entry
    let r := setParams single TS.fresh l
    r.2 = .ok () ∧
      readTau r.1 = some (equalSlots ((numOf d).getD 10) ((evoOf d).getD 1)) := by
  have main : ∀ (l : List (FileOpt K)) (n : Int) (T : K), 0 ≤ n →
      (∀ o ∈ l, (∃ n, o = .num n ∧ 0 < n) ∨ ∃ T, o = .evo T) →
      setParams single (equal n T) l =
        (equal ((numOf (l.map FileOpt.entry)).getD n) ((evoOf (l.map FileOpt.entry)).getD T),
          .ok ()) := by
    intro l
    induction l with
    | nil => intros; rfl
    | cons o r ih =>
      intro n T hn hl
      have hr : ∀ o ∈ r, (∃ n, o = .num n ∧ 0 < n) ∨ ∃ T, o = .evo T :=
        fun o ho => hl o (List.mem_cons_of_mem _ ho)
      rw [List.map_cons, numOf_cons, evoOf_cons]
      rcases hl o (List.mem_cons_self ..) with ⟨m, rfl, hm⟩ | ⟨X, rfl⟩
      · have : setParam single (equal n T) (.num m) = (equal m T, .ok ()) := by
          show initTimeslots ⟨some m, some T, none, _, true⟩ = _
          refine Prod.ext (init_equal m T _ true (by omega)) (initTimeslots_ok _ ?_)
          intro k hk
          simp only [Option.some.injEq] at hk
          omega
        simp only [setParams, this]
        rw [ih m T (by omega) hr]
        cases numOf (r.map FileOpt.entry) <;> simp [FileOpt.entry, Entry.num?, Entry.evo?]
      · have : setParam single (equal n T) (.evo X) = (equal n X, .ok ()) := by
          show initTimeslots ⟨some n, some X, none, _, true⟩ = _
          refine Prod.ext (init_equal n X _ true hn) (initTimeslots_ok _ ?_)
          intro k hk
          simp only [Option.some.injEq] at hk
          omega
        simp only [setParams, this]
        rw [ih n X hn hr]
        cases evoOf (r.map FileOpt.entry) <;> simp [FileOpt.entry, Entry.num?, Entry.evo?]
  have first : ∀ o, setParam single (TS.fresh : TS K) o = setParam single (equal 10 1) o := by
    intro o; rfl
  have : setParams single (TS.fresh : TS K) l = setParams single (equal 10 1) l := by
    cases l with
    | nil => exact (hne rfl).elim
    | cons o r => simp only [setParams, first]
  simp only
  rw [this, main l 10 1 (by decide) hl]
  exact ⟨rfl, rfl⟩

example : readTau (setParams id TS.fresh [.evo (6 : Rat), .num 3]).1 = some [2, 2, 2] := by
  rw [(C67_file_partial id [.evo (6 : Rat), .num 3] (by simp) (by simp)).2]
  show some (List.replicate 3 ((6 : Rat) / ((3 : Int) : Rat))) = _
  norm_num [List.replicate]

/-- **C67, violated**: durations from a parameter file are converted to single precision, those
of a dictionary are not: durations that the conversion changes differ. -/
theorem C67_violated_file_tau (single : K → K) (t : List K) (c : Cls) (dynamic : Bool)
    (ht : t.map single ≠ t) :
    readTau (setParams single TS.fresh [.tau t]).1 = some (t.map single) ∧
      readTau (construct c dynamic (some [.tau t])).1.ts = some t ∧
      readTau (setParams single TS.fresh [.tau t]).1 ≠
        readTau (construct c dynamic (some [.tau t])).1.ts := by
  have h0 : t ≠ [] := by rintro rfl; exact ht rfl
  have h1 : readTau (setParams single TS.fresh [.tau t]).1 = some (t.map single) := rfl
  have h2 := (C67_slots_given_partial c dynamic (Dyn.blank (some [.tau t])) [] [] t rfl
    ⟨by simp [Entry.Ok, h0], by simp⟩ (by simp)).2.2
  refine ⟨h1, h2, ?_⟩
  rw [h1]
  intro h
  exact ht (Option.some.inj (h.trans h2))

example : readTau (setParams (fun x : Rat => (x.floor : Rat)) TS.fresh [.tau [1 / 3]]).1 ≠
    readTau (construct .genMat true (some [.tau [1 / 3]])).1.ts :=
  (C67_violated_file_tau _ [1 / 3] .genMat true (by decide +kernel)).2.2

end QTrl.DynReset
