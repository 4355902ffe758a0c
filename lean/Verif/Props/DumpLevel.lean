import Verif.Model.DumpLevel
import Batteries.Data.Char.AsciiCasing

/-
C37: the dump level determines what is recorded.
-/

namespace QTrl.Dump

/-- What the documentation says a level stands for, by its upper-cased name
(dump.py 113-131, optimizer.py 314-325, dynamics.py 473-486): a summary only, or everything
the fidelity computer uses. -/
inductive Documented where
  | summaryOnly
  | everything
  | custom
  | unknown
  deriving DecidableEq

def documented (name : String) : Documented :=
  if pyUpper name = "SUMMARY" then .summaryOnly
  else if pyUpper name = "FULL" then .everything
  else if pyUpper name = "CUSTOM" then .custom
  else .unknown

theorem documented_eq (name : String) : documented name =
    if pyUpper name = "SUMMARY" then .summaryOnly
    else if pyUpper name = "FULL" then .everything
    else if pyUpper name = "CUSTOM" then .custom
    else .unknown := rfl

variable {F : Type}

theorem applyLevel_eq (K : Kind F) (v : String) (f : F) :
    applyLevel K (.str v) none f =
      match documented v with
      | .summaryOnly => .ok (K.setSummary f)
      | .everything => .ok (K.setFull f)
      | .custom => if v = "CUSTOM" then .error .valueError else .ok (K.setSummary f)
      | .unknown => .error .valueError := by
  unfold applyLevel documented
  simp only [Option.getD_none]
  by_cases h1 : pyUpper v = "SUMMARY"
  · simp [h1]
  · by_cases h2 : pyUpper v = "FULL"
    · simp [h2]
    · by_cases h3 : pyUpper v = "CUSTOM"
      · by_cases h4 : v = "CUSTOM"
        · subst h4
          have : pyUpper "CUSTOM" = "CUSTOM" := h3
          simp [this]
        · simp [h3, h4]
      · simp [h1, h2, h3]

/-- **C37, optimiser dump.**  Whatever the flags were, assigning SUMMARY in any letter case
leaves exactly the iteration summary enabled and assigning FULL enables the summary and all
three logs; the level then reads back as assigned. -/
theorem C37_optim_levels (s : LState OptFlags) (v : String) :
    (documented v = .summaryOnly →
      (setLevel optKind s (.str v)).2 = .ok () ∧
      (setLevel optKind s (.str v)).1.flags = ⟨true, false, false, false⟩ ∧
      readLevel optKind (setLevel optKind s (.str v)).1.flags = "SUMMARY") ∧
    (documented v = .everything →
      (setLevel optKind s (.str v)).2 = .ok () ∧
      (setLevel optKind s (.str v)).1.flags = ⟨true, true, true, true⟩ ∧
      readLevel optKind (setLevel optKind s (.str v)).1.flags = "FULL") := by
  constructor <;> intro h <;>
    · simp only [setLevel, applyLevel_eq, h]
      refine ⟨trivial, rfl, rfl⟩

example : documented "Summary" = .summaryOnly ∧ documented "full" = .everything := by
  constructor <;> rw [documented_eq] <;> decide

/-- **C37, dynamics dump.**  SUMMARY enables the summary alone; FULL enables all operators,
the onward and onto evolution exactly if the fidelity computer uses them. -/
theorem C37_dynamics_levels (onwd onto : Bool) (s : LState DynFlags) (v : String) :
    (documented v = .summaryOnly →
      (setLevel (dynKind onwd onto) s (.str v)).2 = .ok () ∧
      (setLevel (dynKind onwd onto) s (.str v)).1.flags =
        ⟨true, false, false, false, false, false, false, false⟩ ∧
      readLevel (dynKind onwd onto) (setLevel (dynKind onwd onto) s (.str v)).1.flags =
        "SUMMARY") ∧
    (documented v = .everything →
      (setLevel (dynKind onwd onto) s (.str v)).2 = .ok () ∧
      (setLevel (dynKind onwd onto) s (.str v)).1.flags =
        ⟨true, true, true, true, true, true, onwd, onto⟩ ∧
      readLevel (dynKind onwd onto) (setLevel (dynKind onwd onto) s (.str v)).1.flags =
        "FULL") := by
  constructor <;> intro h <;>
    · simp only [setLevel, applyLevel_eq, h]
      refine ⟨trivial, rfl, ?_⟩
      cases onwd <;> cases onto <;> rfl

/-- **C37, reading the level.**  For flags set individually the level reads SUMMARY when only
the summary is on, FULL when everything is, and CUSTOM otherwise. -/
theorem C37_read (f : OptFlags) :
    (readLevel optKind f = "SUMMARY" ↔ f = ⟨true, false, false, false⟩) ∧
    (readLevel optKind f = "FULL" ↔ f = ⟨true, true, true, true⟩) ∧
    (readLevel optKind f = "CUSTOM" ↔
      f ≠ ⟨true, false, false, false⟩ ∧ f ≠ ⟨true, true, true, true⟩) := by
  rcases f with ⟨_ | _, _ | _, _ | _, _ | _⟩ <;> decide

theorem C37_read_dynamics (onwd onto : Bool) (f : DynFlags) :
    (readLevel (dynKind onwd onto) f = "SUMMARY" ↔
      f = ⟨true, false, false, false, false, false, false, false⟩) ∧
    (readLevel (dynKind onwd onto) f = "FULL" ↔
      f = ⟨true, true, true, true, true, true, onwd, onto⟩) ∧
    (readLevel (dynKind onwd onto) f = "CUSTOM" ↔
      f ≠ ⟨true, false, false, false, false, false, false, false⟩ ∧
      f ≠ ⟨true, true, true, true, true, true, onwd, onto⟩) := by
  revert onwd onto
  rcases f with ⟨_ | _, _ | _, _ | _, _ | _, _ | _, _ | _, _ | _, _ | _⟩ <;> decide

/-- The flags a history leaves, by the documentation: each recognised level sets its flags,
anything else changes nothing.  CUSTOM starts from the summary. -/
def flagsOf (K : Kind F) (f : F) : LOp F → F
  | .setFlags g => g
  | .setLevel .other => f
  | .setLevel (.str v) =>
      match documented v with
      | .summaryOnly => K.setSummary f
      | .everything => K.setFull f
      | .custom => if v = "CUSTOM" then f else K.setSummary f
      | .unknown => f

/-- **C37, histories (partial).**  After any history of level assignments (accepted or
rejected) and individual flag settings, the flags are those of the last change, with one
deviation from the documentation: CUSTOM spelled in capitals is rejected
(`C37_violated_custom`) and so changes nothing. -/
theorem C37_history_partial (K : Kind F) (s : LState F) (ops : List (LOp F)) :
    (ops.foldl (lstep K) s).flags = ops.foldl (flagsOf K) s.flags := by
  induction ops generalizing s with
  | nil => rfl
  | cons op ops ih =>
    rw [List.foldl_cons, List.foldl_cons, ih]
    congr 1
    cases op with
    | setFlags g => rfl
    | setLevel v =>
      cases v with
      | other => rfl
      | str v =>
        simp only [lstep, flagsOf, setLevel, applyLevel_eq]
        cases documented v with
        | custom => by_cases hv : v = "CUSTOM" <;> simp [hv]
        | _ => rfl

/-- The flags after FULL, individual changes, a rejected level and reading. -/
example : ([LOp.setLevel (.str "full"), .setFlags ⟨true, true, false, true⟩,
      .setLevel (.str "most"), .setLevel .other].foldl (lstep optKind)
      ⟨.str "SUMMARY", ⟨true, false, false, false⟩⟩).flags = ⟨true, true, false, true⟩ := by
  rw [C37_history_partial]
  have h1 : documented "full" = .everything := by rw [documented_eq]; decide
  have h2 : documented "most" = .unknown := by rw [documented_eq]; decide
  simp [flagsOf, h1, h2]

/-- **C37, rejection.**  Every value that is not a known level raises ValueError and leaves
all flags, hence what is recorded and the level that is read, as they were. -/
theorem C37_rejected (K : Kind F) (s : LState F) (v : LvlVal)
    (h : ∀ n, v = .str n → documented n = .unknown) :
    (setLevel K s v).2 = .error .valueError ∧ (setLevel K s v).1.flags = s.flags := by
  cases v with
  | other => exact ⟨rfl, rfl⟩
  | str n => simp [setLevel, applyLevel_eq, h n rfl]

example : ∀ n, LvlVal.str "everything" = .str n → documented n = .unknown := by
  rintro n ⟨⟩
  rw [documented_eq]
  decide

/-- **C37 is violated: a rejected level is not forgotten.**  A dump object that could be
reset before cannot be reset any more after a rejected assignment. -/
theorem C37_violated_rejected :
    ∃ (s : LState OptFlags) (v : LvlVal),
      (reset optKind s).2 = .ok () ∧ (setLevel optKind s v).2 = .error .valueError ∧
      (reset optKind (setLevel optKind s v).1).2 = .error .valueError := by
  refine ⟨⟨.str "SUMMARY", ⟨true, false, false, false⟩⟩, .other, ?_, rfl, rfl⟩
  have h : documented "SUMMARY" = .summaryOnly := by rw [documented_eq]; decide
  simp [reset, applyLevel_eq, h]

/-- **C37 is violated: CUSTOM.**  Assigning the documented level CUSTOM always raises
ValueError, whatever the flags and the class. -/
theorem C37_violated_custom (K : Kind F) (s : LState F) :
    (setLevel K s (.str "CUSTOM")).2 = .error .valueError ∧
    (setLevel K s (.str "CUSTOM")).1.flags = s.flags := by
  have h : documented "CUSTOM" = .custom := by rw [documented_eq]; decide
  simp [setLevel, applyLevel_eq, h]

/-- The same through `dumping` of optimiser and dynamics, in any letter case, whether or not
a dump object exists. -/
theorem C37_violated_dumping_custom (K : Kind F) (blank : F) (h : Option (LState F)) (v : String)
    (hv : pyUpper v = "CUSTOM") :
    (setDumping K blank h (.str v)).2 = .error .valueError ∧
    (h = none → (setDumping K blank h (.str v)).1 = none) := by
  have hn : ¬ pyUpper v = "NONE" := by rw [hv]; decide
  have hd : documented "CUSTOM" = .custom := by rw [documented_eq]; decide
  cases h with
  | none => simp [setDumping, hv, construct, reset, applyLevel_eq, hd]
  | some s =>
    simp [setDumping, hv, C37_violated_custom]

example : pyUpper "Custom" = "CUSTOM" := by decide

/-- **C37, `dumping`.**  For optimiser and dynamics alike: NONE (or Python's `None`) removes
the dump object; SUMMARY and FULL, in any letter case, give one with exactly the flags of the
level, whether or not there was one before; an unknown level raises ValueError and changes
neither the presence nor the flags of the dump object. -/
theorem C37_dumping (K : Kind F) (blank : F) (h : Option (LState F)) (v : String)
    (hK : ∀ f g, K.setSummary f = K.setSummary g ∧ K.setFull f = K.setFull g) :
    (setDumping K blank h .none).1 = none ∧
    (pyUpper v = "NONE" → setDumping K blank h (.str v) = (none, .ok ())) ∧
    (pyUpper v = "SUMMARY" → (setDumping K blank h (.str v)).2 = .ok () ∧
      (setDumping K blank h (.str v)).1.map LState.flags = some (K.setSummary blank)) ∧
    (pyUpper v = "FULL" → (setDumping K blank h (.str v)).2 = .ok () ∧
      (setDumping K blank h (.str v)).1.map LState.flags = some (K.setFull blank)) ∧
    (documented v = .unknown → pyUpper v ≠ "NONE" →
      (setDumping K blank h (.str v)).2 = .error .valueError ∧
      (setDumping K blank h (.str v)).1.map LState.flags = h.map LState.flags) := by
  have upup : pyUpper (pyUpper v) = pyUpper v := by
    simp [pyUpper, List.map_map, Function.comp_def]
  refine ⟨rfl, ?_, ?_, ?_, ?_⟩
  · intro hv
    simp [setDumping, hv]
  · intro hv
    have hd : documented (pyUpper v) = .summaryOnly := by
      rw [documented_eq, upup, hv]; decide
    have hn : ¬ pyUpper v = "NONE" := by rw [hv]; decide
    cases h with
    | none =>
      simp only [setDumping, hn, if_false, construct, reset, applyLevel_eq, hd]
      simp [(hK (K.summaryOn blank) blank).1]
    | some s =>
      simp only [setDumping, hn, if_false, setLevel, applyLevel_eq, hd]
      simp [(hK s.flags blank).1]
  · intro hv
    have hd : documented (pyUpper v) = .everything := by
      rw [documented_eq, upup, hv]; decide
    have hn : ¬ pyUpper v = "NONE" := by rw [hv]; decide
    cases h with
    | none =>
      simp only [setDumping, hn, if_false, construct, reset, applyLevel_eq, hd]
      simp [(hK (K.summaryOn blank) blank).2]
    | some s =>
      simp only [setDumping, hn, if_false, setLevel, applyLevel_eq, hd]
      simp [(hK s.flags blank).2]
  · intro hu hn
    have hd : documented (pyUpper v) = .unknown := by
      rw [documented_eq, upup, ← documented_eq]; exact hu
    cases h with
    | none => simp only [setDumping, hn, if_false, construct, reset, applyLevel_eq, hd]; simp
    | some s => simp only [setDumping, hn, if_false, setLevel, applyLevel_eq, hd]; simp

theorem readDumping_flags (K : Kind F) (h : Option (LState F)) :
    readDumping K h = ((h.map LState.flags).map (readLevel K)).getD "NONE" := by
  cases h <;> rfl

/-- **C37, reading `dumping`.**  For optimiser and dynamics alike: after NONE, SUMMARY or FULL,
in any letter case, the level given is the level read, whatever was there before; an unknown
level leaves the level read unchanged; and NONE is read exactly if there is no dump object. -/
theorem C37_dumping_read (onwd onto : Bool) (ob : OptFlags) (db : DynFlags)
    (oh : Option (LState OptFlags)) (dh : Option (LState DynFlags)) (v : String) :
    (pyUpper v = "NONE" ∨ pyUpper v = "SUMMARY" ∨ pyUpper v = "FULL" →
      readDumping optKind (setDumping optKind ob oh (.str v)).1 = pyUpper v ∧
      readDumping (dynKind onwd onto) (setDumping (dynKind onwd onto) db dh (.str v)).1 =
        pyUpper v) ∧
    (documented v = .unknown → pyUpper v ≠ "NONE" →
      readDumping optKind (setDumping optKind ob oh (.str v)).1 = readDumping optKind oh ∧
      readDumping (dynKind onwd onto) (setDumping (dynKind onwd onto) db dh (.str v)).1 =
        readDumping (dynKind onwd onto) dh) ∧
    (readDumping optKind oh = "NONE" ↔ oh = none) ∧
    (readDumping (dynKind onwd onto) dh = "NONE" ↔ dh = none) := by
  obtain ⟨-, o1, o2, o3, o4⟩ := C37_dumping optKind ob oh v fun _ _ => ⟨rfl, rfl⟩
  obtain ⟨-, d1, d2, d3, d4⟩ := C37_dumping (dynKind onwd onto) db dh v fun _ _ => ⟨rfl, rfl⟩
  refine ⟨?_, ?_, ?_, ?_⟩
  · rintro (h | h | h)
    · rw [o1 h, d1 h, h]; exact ⟨rfl, rfl⟩
    · rw [readDumping_flags, readDumping_flags, (o2 h).2, (d2 h).2, h]
      exact ⟨rfl, rfl⟩
    · rw [readDumping_flags, readDumping_flags, (o3 h).2, (d3 h).2, h]
      cases onwd <;> cases onto <;> exact ⟨rfl, rfl⟩
  · intro hu hn
    simp only [readDumping_flags, (o4 hu hn).2, (d4 hu hn).2, and_self]
  · cases oh with
    | none => simp [readDumping]
    | some s =>
      simp only [readDumping, readLevel, reduceCtorEq, iff_false]
      split <;> [decide; (split <;> decide)]
  · cases dh with
    | none => simp [readDumping]
    | some s =>
      simp only [readDumping, readLevel, reduceCtorEq, iff_false]
      split <;> [decide; (split <;> decide)]

/-- The hypothesis of `C37_dumping` holds of both classes. -/
example (onwd onto : Bool) :
    (∀ f g, optKind.setSummary f = optKind.setSummary g ∧ optKind.setFull f = optKind.setFull g) ∧
    (∀ f g, (dynKind onwd onto).setSummary f = (dynKind onwd onto).setSummary g ∧
      (dynKind onwd onto).setFull f = (dynKind onwd onto).setFull g) :=
  ⟨fun _ _ => ⟨rfl, rfl⟩, fun _ _ => ⟨rfl, rfl⟩⟩

end QTrl.Dump
