import Verif.Proofs.SaveAmps

/-
C58: saved amplitudes.
-/

namespace QTrl.Save

/-- **C58**: saving the current amplitudes of an initialised dynamics object writes the start of each
slot and the amplitudes in it to the file asked for, or to the default one, to six digits, and
touches no other file.  An option for the times that is not known makes no difference. -/
theorem C58_save {rnd : ℝ → ℤ} (hr : Nearest rnd) {d : Dyn} (hd : d.Ready) (fs : Files)
    (name : Option String) (hw : fs.writable (name.getD d.defName) = true) (times : TimesArg)
    (ht : times = .none ∨ ∃ s, times = .str s ∧ pyLower s ≠ "exclude") :
    ∃ fs' t, save rnd d fs name times .none = .ok (fs', false) ∧
      fs'.content (name.getD d.defName) = some t ∧
      HoldsPulse t (d.time.take d.numTslots) d.ctrlAmps.rows ∧
      ∀ n, n ≠ name.getD d.defName → fs'.content n = fs.content n := by
  have hl := ampTimes_length hd
  have hp : pickTimes d times = some (.list d.ampTimes) := by
    rcases ht with rfl | ⟨s, rfl, hs⟩
    · rfl
    · simp [pickTimes, hs]
  simp only [save, hd.init, if_true, hp, table, column_list hl, Option.map_some, hw]
  exact ⟨_, _, rfl, if_pos rfl, fmt_pulse hr hl, fun n hn => by simp [Files.write, hn]⟩

/-- **C58**: with the times excluded, in any letter case, the file holds the amplitudes alone. -/
theorem C58_exclude {rnd : ℝ → ℤ} (hr : Nearest rnd) {d : Dyn} (hd : d.Ready) (fs : Files)
    (name : Option String) (hw : fs.writable (name.getD d.defName) = true) (s : String)
    (hs : pyLower s = "exclude") :
    ∃ fs' t, save rnd d fs name (.str s) .none = .ok (fs', false) ∧
      fs'.content (name.getD d.defName) = some t ∧ Holds t d.ctrlAmps.rows := by
  simp only [save, hd.init, if_true, pickTimes, hs, table, hw]
  exact ⟨_, _, rfl, if_pos rfl, fmt_table hr _⟩

/-- **C58**: amplitudes and times of the caller are written instead, if there is one time for each
row; and the amplitudes alone if the times are excluded. -/
theorem C58_given {rnd : ℝ → ℤ} (hr : Nearest rnd) {d : Dyn} (hd : d.Ready) (fs : Files)
    (name : Option String) (hw : fs.writable (name.getD d.defName) = true) (a : Arr)
    (l : List ℝ) (hl : l.length = a.rows.length) :
    (∃ fs' t, save rnd d fs name (.list l) (.two a) = .ok (fs', false) ∧
      fs'.content (name.getD d.defName) = some t ∧ HoldsPulse t l a.rows) ∧
    ∃ fs' t, save rnd d fs name (.str "exclude") (.two a) = .ok (fs', false) ∧
      fs'.content (name.getD d.defName) = some t ∧ Holds t a.rows := by
  have he : pyLower "exclude" = "exclude" := by decide +kernel
  constructor
  · simp only [save, hd.init, if_true, pickTimes, table, column_list hl, Option.map_some, hw]
    exact ⟨_, _, rfl, if_pos rfl, fmt_pulse hr hl⟩
  · simp only [save, hd.init, if_true, pickTimes, he, table, hw]
    exact ⟨_, _, rfl, if_pos rfl, fmt_table hr _⟩

/-- **C58**: nothing is written before the controls are initialised; that is an error. -/
theorem C58_not_initialised (rnd : ℝ → ℤ) (d : Dyn) (h : d.ctrlsInit = false) (fs : Files)
    (name : Option String) (times : TimesArg) (amps : AmpsArg) :
    save rnd d fs name times amps = .error .usageError := by
  simp [save, h]

/-- **C58**: `optimize_pulse` with a file extension leaves the initial amplitudes in one file and the
final ones, which are those of the result, in another; without an extension it writes nothing. -/
theorem C58_optimize {rnd : ℝ → ℤ} (hr : Nearest rnd) {d : Dyn} (hd : d.Ready) (fs : Files)
    (e : String) (hw : ∀ n, fs.writable n = true) (final : Arr)
    (hf : final.rows.length = d.numTslots) :
    aroundRun rnd d fs none final = .ok fs ∧
    ∃ fs' t t', aroundRun rnd d fs (some e) final = .ok fs' ∧
      fs'.content ("ctrl_amps_initial_" ++ e) = some t ∧
      HoldsPulse t (d.time.take d.numTslots) d.ctrlAmps.rows ∧
      fs'.content ("ctrl_amps_final_" ++ e) = some t' ∧
      HoldsPulse t' (d.time.take d.numTslots) final.rows := by
  refine ⟨rfl, ?_⟩
  have hd' : Dyn.Ready { d with ctrlAmps := final } := ⟨hd.init, hd.time, hf⟩
  have hl := ampTimes_length hd
  have hl' : d.ampTimes.length = final.rows.length := ampTimes_length hd'
  have hne : "ctrl_amps_initial_" ++ e ≠ "ctrl_amps_final_" ++ e := by
    intro h
    have h1 := congrArg String.toList h
    rw [String.toList_append, String.toList_append] at h1
    have h2 := congrArg (List.take 11) h1
    simp at h2
  simp only [aroundRun, save_current rnd hd fs _ (hw _)]
  rw [save_current rnd hd' _ _ (by exact hw _)]
  refine ⟨_, _, _, rfl, ?_, fmt_pulse hr hl, if_pos rfl, fmt_pulse hr hl'⟩
  simp only [Files.write, if_neg hne, if_true]
  rfl

/-- A dynamics object with two slots and two controls. -/
noncomputable def exDyn : Dyn where
  ctrlsInit := true
  ctrlAmps := ⟨[[1, 2], [3, 4]], 2⟩
  time := [0, 1, 2]
  numTslots := 2
  defName := "ctrl_amps.txt"

/-- A disk on which every name can be written to. -/
def exFiles : Files where
  content := fun _ => none
  writable := fun _ => true

example : exDyn.Ready := ⟨rfl, rfl, rfl⟩

example : Nearest round := fun x => by
  rw [abs_sub_comm]
  exact abs_sub_round x

example : pyLower "Exclude" = "exclude" ∧ pyLower "all" ≠ "exclude" := by decide

/-- **C58 is violated**: times of the wrong number are not written and no exception tells so: the
call returns as if the file had been saved. -/
theorem C58_violated_silent (rnd : ℝ → ℤ) :
    save rnd exDyn exFiles none (.list [0, 1, 2]) .none = .ok (exFiles, true) := by
  simp [save, exDyn, pickTimes, table, column]

/-- **C58 is violated**: a file that cannot be written is no exception either. -/
theorem C58_violated_unwritable (rnd : ℝ → ℤ) (d : Dyn) (h : d.ctrlsInit = true) (fs : Files)
    (name : Option String) (hw : fs.writable (name.getD d.defName) = false) (times : TimesArg)
    (amps : AmpsArg) : save rnd d fs name times amps = .ok (fs, true) := by
  simp only [save, h, if_true, hw]
  cases table d (pickTimes d times) amps <;> rfl

/-- **C58 is violated**: a single time is written into every line. -/
theorem C58_violated_broadcast (rnd : ℝ → ℤ) (x : ℝ) : ∃ fs',
    save rnd exDyn exFiles none (.list [x]) .none = .ok (fs', false) ∧
      fs'.content "ctrl_amps.txt" = some [[fmt rnd x, fmt rnd 1, fmt rnd 2],
        [fmt rnd x, fmt rnd 3, fmt rnd 4]] := by
  simp only [save, exDyn, exFiles, pickTimes, table, column, if_true, Option.map_some]
  exact ⟨_, rfl, by simp [Files.write, List.replicate]⟩

end QTrl.Save
