import Verif.Proofs.Verbose
import Verif.Props.Evolution
import Mathlib.Data.List.GetD

/-
C66: the log level changes what is written, not what is computed, and what is written is true.

The theorems are about arbitrary histories after `initialize_controls(a0)` on an object in an
arbitrary earlier state.  The check of unitarity, which the level switches on as well, is in
`Verif/Props/UnitCheck.lean` (`C59_logging_violated`).
-/

set_option linter.unusedSectionVars false

namespace QTrl.Dyn

open QTrl.Spec QTrl.Spec.Verbose

variable {d m D : Type} [Fintype d] [DecidableEq d] [Fintype m] [DecidableEq m]

/-- **C66** (part: levels above `DEBUG_INTENSE` for the time slot computer).  A history leaves the
same state and gives the same results as without messages, and the messages are exactly those of
the computations that take place whose severity reaches the level. -/
theorem C66_results_partial {lv : Levels} (hl : 6 < lv.ts) (S : Sys d m D)
    (junk s0 : State d m D) (a0 : Amps) (ops : List Op) :
    runL lv S junk (initControls S junk s0 a0) ops =
      (run S junk (initControls S junk s0 a0) ops,
        shown lv (allMessages S junk (initControls S junk s0 a0) ops)) :=
  runL_quiet hl S junk ops _

/-- **C66** (part).  Raising levels only removes messages. -/
theorem C66_fewer_partial {lv lv' : Levels} (hl : 6 < lv.ts) (hd : lv.dyn ≤ lv'.dyn)
    (ht : lv.ts ≤ lv'.ts) (hf : lv.fid ≤ lv'.fid) (S : Sys d m D) (junk s : State d m D)
    (ops : List Op) :
    (runL lv' S junk s ops).1 = (runL lv S junk s ops).1 ∧
    (runL lv' S junk s ops).2.Sublist (runL lv S junk s ops).2 := by
  rw [runL_quiet hl, runL_quiet (lt_of_lt_of_le hl ht)]
  refine ⟨rfl, ?_⟩
  show List.Sublist (List.filter _ _) (List.filter _ _)
  have e : ∀ l : List (Msg d m), l.filter (fun x => decide (levelOf lv' x ≤ severity x)) =
      (l.filter (fun x => decide (levelOf lv x ≤ severity x))).filter
        (fun x => decide (levelOf lv' x ≤ severity x)) := by
    intro l
    rw [List.filter_filter]
    refine List.filter_congr fun x _ => ?_
    have hx : levelOf lv x ≤ levelOf lv' x := by cases x <;> assumption
    by_cases h : levelOf lv' x ≤ severity x
    · simp [h, hx.trans h]
    · simp [h]
  rw [e]
  exact List.filter_sublist

/-- **C66** (part).  With all levels above `DEBUG`, `INFO` say, nothing is written. -/
theorem C66_silent {lv : Levels} (hd : 10 < lv.dyn) (ht : 10 < lv.ts) (hf : 10 < lv.fid)
    (S : Sys d m D) (junk s : State d m D) (ops : List Op) : (runL lv S junk s ops).2 = [] := by
  rw [runL_quiet (lt_trans (by decide) ht)]
  refine List.filter_eq_nil_iff.2 fun x _ => ?_
  have h1 : 10 < levelOf lv x := by cases x <;> assumption
  have h2 : severity x ≤ 10 := by cases x <;> simp [severity]
  simpa using lt_of_le_of_lt h2 h1

/-- **C66** (part).  After any history, the overlap, fidelity, error, operators, gradient and norm
written during a request are those of the specification for the amplitudes supplied last. -/
theorem C66_true_partial {lv : Levels} (hl : 6 < lv.ts) {S : Sys d m D} (hn : Valid S)
    (junk s0 : State d m D) (a0 : Amps) (ops : List Op) (op : Op) (ho : Asks op) :
    ∀ x ∈ (stepL lv S junk (reached S junk s0 a0 ops) op).2,
      Truthful S (lastAmps a0 ops) x := by
  intro x hx
  rw [stepL_quiet hl] at hx
  obtain ⟨hi, b, hb, hs⟩ := reached_inv hn junk s0 a0 ops
  exact Truthful.congr hs (messages_true hn hi hb op ho x (List.mem_of_mem_filter hx))

/-- **C66** (part).  After any history, amplitudes that are supplied again are reported as
unchanged, others by the number of elements that differ from those supplied last. -/
theorem C66_changes_partial {lv : Levels} (hl : 6 < lv.ts) (hl' : lv.ts ≤ 10) (hd : 6 < lv.dyn)
    {S : Sys d m D} (hn : Valid S) (junk s0 : State d m D) (a0 : Amps) (ops : List Op)
    (a : Amps) :
    (stepL lv S junk (reached S junk s0 a0 ops) (.updateAmps a)).2 =
      if changedAmps S (lastAmps a0 ops) a = 0 then [.unchanged]
      else [.changed (changedAmps S (lastAmps a0 ops) a)] := by
  obtain ⟨-, b, hb, hs⟩ := reached_inv hn junk s0 a0 ops
  rw [stepL_quiet hl]
  have e : changedAmps S b a = changedAmps S (lastAmps a0 ops) a := by
    unfold changedAmps
    refine congrArg Finset.card (Finset.filter_congr fun p hp => ?_)
    obtain ⟨h1, h2⟩ := Finset.mem_product.1 hp
    rw [hs p.1 p.2 (Finset.mem_range.1 h1) (Finset.mem_range.1 h2)]
  simp only [messages, hb, updateMsgs, e, shown_cons]
  have h1 : emit (levelOf lv (.updating (some b) a : Msg d m))
      (severity (.updating (some b) a : Msg d m)) (.updating (some b) a : Msg d m) = [] :=
    if_neg (not_le.2 hd)
  rw [h1, List.nil_append]
  split
  · exact (shown_cons lv _ _).trans (by rw [shown_nil, List.append_nil]; exact if_pos hl')
  · exact (shown_cons lv _ _).trans (by rw [shown_nil, List.append_nil]; exact if_pos hl')

/-- **C66 violated** (at `DEBUG_INTENSE`).  With exact gradients computed along with the
propagators – the defaults – and at least one slot and one control, every request in every history
raises `AttributeError`: the text of a message is made from an attribute the object does not
have. -/
theorem C66_violated_intense {lv : Levels} (hl : lv.ts ≤ 6) {S : Sys d m D}
    (hx : gradExact S = true) (hc : S.cachePropGrad = true) (hn : 0 < S.nTs) (hm : 0 < S.nCtrls)
    (junk s0 : State d m D) (a0 : Amps) (ops : List Op) :
    List.Forall₂ (fun op out => Asks op → out = .error .attributeError) ops
      (runL lv S junk (initControls S junk s0 a0) ops).1.2 := by
  refine runL_intense hl S hx hc hn hm junk ops _ ?_
  unfold initControls
  rw [compareAmps_none (by rfl)]
  exact ⟨⟨a0, rfl⟩, rfl, rfl, rfl, rfl⟩

/-- **C66 violated** (gradient by differences).  The message that announces the gradient, of
severity `DEBUG`, is written at the level `DEBUG` only, and not at the more detailed levels. -/
theorem C66_violated_difference (lv : ℕ) :
    ((tdApproxBegin lv : List (Msg d m)) = [.tdGradient] ↔ lv = 10) ∧
    ((tdApproxBegin lv : List (Msg d m)) = [] ↔ lv ≠ 10) := by
  unfold tdApproxBegin emit DEBUG
  rcases lt_trichotomy lv 10 with h | h | h
  · rw [if_neg (not_le.2 h)]
    exact ⟨iff_of_false (by simp) h.ne, iff_of_true rfl h.ne⟩
  · subst h; simp
  · rw [if_pos h.le, if_neg (not_le.2 h)]
    exact ⟨iff_of_false (by simp) h.ne', iff_of_true rfl h.ne'⟩

/-! ### The summary of the system -/

theorem forRange_addCtrl {α : Type} (g : Gens α) (f : Nat → α ⊕ List α) (l : List (Item α))
    (n : Nat) (h : ∀ j < n, g.ctrlAt j = .ok (f j)) :
    forRange n g.addCtrl (.ok l) =
      .ok (l ++ (List.range n).map fun j => .control (j + 1) (f j)) := by
  induction n with
  | zero => rw [forRange_zero]; simp
  | succ n ih =>
    rw [forRange_succ, ih fun j hj => h j (Nat.lt_succ_of_lt hj)]
    unfold Gens.addCtrl
    simp only [h n (Nat.lt_succ_self n), List.range_succ, List.map_append, List.map_cons,
      List.map_nil, List.append_assoc]

theorem forRange_addCtrl_error {α : Type} (g : Gens α) (l : List (Item α)) (n j : Nat)
    (hj : j < n) (h : g.ctrlAt j = .error .indexError)
    (hb : ∀ i, (∃ a, g.ctrlAt i = .ok a) ∨ g.ctrlAt i = .error .indexError) :
    forRange n g.addCtrl (.ok l) = .error .indexError := by
  have step : ∀ n, (∃ l', forRange n g.addCtrl (.ok l) = .ok l') ∨
      forRange n g.addCtrl (.ok l) = .error .indexError := by
    intro n
    induction n with
    | zero => exact Or.inl ⟨l, rfl⟩
    | succ n ih =>
      rw [forRange_succ]
      rcases ih with ⟨l', h'⟩ | h'
      · rw [h']
        rcases hb n with ⟨a, ha⟩ | ha
        · exact Or.inl ⟨l' ++ [.control (n + 1) a], by simp only [Gens.addCtrl, ha]⟩
        · exact Or.inr (by simp only [Gens.addCtrl, ha])
      · rw [h']; exact Or.inr rfl
  induction n with
  | zero => exact absurd hj (Nat.not_lt_zero j)
  | succ n ih =>
    rw [forRange_succ]
    rcases step n with ⟨l', h'⟩ | h'
    · rcases Nat.lt_succ_iff_lt_or_eq.1 hj with hlt | rfl
      · rw [ih hlt] at h'; exact absurd h' (by simp)
      · rw [h']; simp only [Gens.addCtrl, h]
    · rw [h']; rfl

theorem ctrlAt_cases {α : Type} (g : Gens α) (i : Nat) :
    (∃ a, g.ctrlAt i = .ok a) ∨ g.ctrlAt i = .error .indexError := by
  unfold Gens.ctrlAt
  cases g.ctrls with
  | inl l => cases h : l[i]? with
    | some a => exact Or.inl ⟨.inl a, by simp [h]⟩
    | none => exact Or.inr (by simp [h])
  | inr l => cases h : l[i]? with
    | some a => exact Or.inl ⟨.inr a, by simp [h]⟩
    | none => exact Or.inr (by simp [h])

/-- **C66** (part: summary, controls that do not depend on time).  At every level the result is
that of the optimisation; at `INFO` and below the summary shows the drift and the controls, each
under its number. -/
theorem C66_summary_partial {α R : Type} (lv : ℕ) (drift : α ⊕ List α) (cs : List α)
    (d0 : Item α) (hd : (∃ a, drift = .inl a ∧ d0 = .drift a) ∨
      (∃ a l, drift = .inr (a :: l) ∧ d0 = .initialDrift a)) (run : Except PyErr R) :
    optimizeAt lv ⟨drift, .inl cs, cs.length⟩ run =
      (run, if lv ≤ 20 then d0 :: cs.mapIdx fun j c => .control (j + 1) (.inl c) else []) := by
  have hfirst : (⟨drift, .inl cs, cs.length⟩ : Gens α).first = .ok d0 := by
    rcases hd with ⟨a, rfl, rfl⟩ | ⟨a, l, rfl, rfl⟩ <;> rfl
  unfold optimizeAt INFO
  by_cases hl : lv ≤ 20
  · rw [if_pos hl, if_pos hl]
    cases cs with
    | nil =>
      unfold summary
      rw [hfirst]
      rfl
    | cons c cs =>
      have h := forRange_addCtrl (⟨drift, .inl (c :: cs), (c :: cs).length⟩ : Gens α)
        (fun j => .inl ((c :: cs).getD j c)) [d0] (c :: cs).length (by
          intro j hj
          simp only [Gens.ctrlAt, List.getElem?_eq_getElem hj, List.getD_eq_getElem _ _ hj])
      unfold summary
      rw [hfirst]
      simp only [h]
      refine Prod.ext rfl ?_
      show [d0] ++ _ = _
      rw [List.singleton_append]
      congr 1
      refine List.ext_getElem (by simp) fun i h1 h2 => ?_
      have hi : i < (c :: cs).length := by simpa using h1
      simp only [List.getElem_map, List.getElem_range, List.getElem_mapIdx,
        List.getD_eq_getElem _ _ hi]
  · rw [if_neg hl, if_neg hl]

/-- **C66 violated** (summary, controls that depend on time).  What is shown as control `j` is the
row of slot `j`, with one operator for every control. -/
theorem C66_violated_summary_rows {α R : Type} {lv : ℕ} (hl : lv ≤ 20) (a : α)
    (rows : List (List α)) (n : ℕ) (hn : n ≤ rows.length) (run : Except PyErr R) :
    optimizeAt lv ⟨.inl a, .inr rows, n⟩ run =
      (run, .drift a :: (rows.take n).mapIdx fun k row => .control (k + 1) (.inr row)) := by
  have h := forRange_addCtrl (⟨.inl a, .inr rows, n⟩ : Gens α) (fun j => .inr (rows.getD j []))
    [.drift a] n (by
      intro j hj
      simp only [Gens.ctrlAt, List.getElem?_eq_getElem (lt_of_lt_of_le hj hn),
        List.getD_eq_getElem _ _ (lt_of_lt_of_le hj hn)])
  unfold optimizeAt INFO summary Gens.first
  rw [if_pos hl]
  simp only [h]
  refine Prod.ext rfl ?_
  show [Item.drift a] ++ _ = _
  rw [List.singleton_append]
  congr 1
  refine List.ext_getElem (by simp [hn]) fun i h1 h2 => ?_
  have hi : i < n := by simpa using h1
  simp only [List.getElem_map, List.getElem_range, List.getElem_mapIdx, List.getElem_take,
    List.getD_eq_getElem _ _ (lt_of_lt_of_le hi hn)]

/-- **C66 violated** (summary, more controls that depend on time than slots).  At `INFO` and below
there is an `IndexError` instead of the result that is returned at the other levels. -/
theorem C66_violated_summary_result {α R : Type} (lv : ℕ) (a : α) (rows : List (List α)) (n : ℕ)
    (hn : rows.length < n) (run : Except PyErr R) :
    optimizeAt lv ⟨.inl a, .inr rows, n⟩ run =
      (if lv ≤ 20 then .error .indexError else run, []) := by
  unfold optimizeAt INFO
  by_cases hl : lv ≤ 20
  · rw [if_pos hl, if_pos hl]
    have h := forRange_addCtrl_error (⟨.inl a, .inr rows, n⟩ : Gens α) [.drift a] n rows.length hn
      (by simp [Gens.ctrlAt]) (ctrlAt_cases _)
    unfold summary Gens.first
    simp only [h]
  · rw [if_neg hl, if_neg hl]

/-! ### Examples -/

/-- After an evolution has been computed, the same amplitudes and then others. -/
example (junk s0 : State (Fin 2) (Fin 2) (Matrix (Fin 2) (Fin 2) ℂ)) :
    let S := demoSys .unitary .frechet
    let t := reached S junk s0 (fun _ _ => 1) [.computeEvolution]
    (stepL ⟨10, 10, 10⟩ S junk t (.updateAmps fun _ _ => 1)).2 = [.unchanged] ∧
    (stepL ⟨10, 10, 10⟩ S junk t (.updateAmps fun _ _ => 2)).2 = [.changed 2] := by
  have e1 : changedAmps (demoSys .unitary .frechet) (fun _ _ => 1) (fun _ _ => 1) = 0 := by
    simp [changedAmps]
  have e2 : changedAmps (demoSys .unitary .frechet) (fun _ _ => 1) (fun _ _ => 2) = 2 := by
    simp [changedAmps, demoSys]
  have h := fun a => C66_changes_partial (lv := ⟨10, 10, 10⟩) (by decide) (by decide) (by decide)
    (demoSys_valid .unitary .frechet) junk s0 (fun _ _ => 1) [.computeEvolution] a
  refine ⟨(h _).trans ?_, (h _).trans ?_⟩
  · exact if_pos e1
  · rw [show lastAmps (fun _ _ => 1) [.computeEvolution] = fun _ _ => 1 from rfl, e2]
    rfl

/-- The first request for the evolution at `DEBUG` and at `DEBUG_VERBOSE`. -/
example (junk s0 : State (Fin 2) (Fin 2) (Matrix (Fin 2) (Fin 2) ℂ)) :
    let S := demoSys .unitary .frechet
    let s := initControls S junk s0 fun _ _ => 1
    (runL ⟨10, 10, 10⟩ S junk s [.computeEvolution]).2 = [.recomputing (s0.numRecompute + 1)] ∧
    (runL ⟨8, 8, 8⟩ S junk s [.computeEvolution]).2 =
      [.computing, .recomputing (s0.numRecompute + 1)] := by
  intro S s
  have hs : s = initControls S junk s0 (fun _ _ => 1) := rfl
  unfold initControls at hs
  rw [compareAmps_none (by rfl)] at hs
  have hm : allMessages S junk s [.computeEvolution] =
      [.computing, .recomputing (s0.numRecompute + 1)] := by
    simp only [allMessages, messages, evoMsgs]
    rw [hs]; rfl
  rw [C66_results_partial (by decide), C66_results_partial (by decide)]
  refine ⟨?_, ?_⟩
  · exact congrArg (shown ⟨10, 10, 10⟩) hm
  · exact congrArg (shown ⟨8, 8, 8⟩) hm

/-- The default settings at `DEBUG_INTENSE`: the error instead of the fidelity error, twice. -/
example (junk s0 : State (Fin 2) (Fin 2) (Matrix (Fin 2) (Fin 2) ℂ)) :
    (runL ⟨6, 6, 6⟩ (demoSys .unitary .frechet) junk
      (initControls (demoSys .unitary .frechet) junk s0 fun _ _ => 1)
      [.getFidErr, .getGradient]).1.2 = [.error .attributeError, .error .attributeError] := by
  have h := C66_violated_intense (lv := ⟨6, 6, 6⟩) (S := demoSys .unitary .frechet) (by decide)
    rfl rfl (by decide) (by decide) junk s0 (fun _ _ => 1) [.getFidErr, .getGradient]
  obtain ⟨o, os, h1, h2, e⟩ := List.forall₂_cons_left_iff.1 h
  obtain ⟨o', os', h3, h4, e'⟩ := List.forall₂_cons_left_iff.1 h2
  rw [e, e', h1 trivial, h3 trivial, List.forall₂_nil_left_iff.1 h4]

example : optimizeAt 20 (⟨.inl 'd', .inl ['x', 'y'], 2⟩ : Gens Char) (.ok ()) =
    (.ok (), [.drift 'd', .control 1 (.inl 'x'), .control 2 (.inl 'y')]) := rfl

/-- Three slots, two controls: "Control 2" shows the row of the second slot. -/
example : optimizeAt 20 (⟨.inl 'd', .inr [['x', 'y'], ['z', 'u'], ['v', 'w']], 2⟩ : Gens Char)
    (.ok ()) =
    (.ok (), [.drift 'd', .control 1 (.inr ['x', 'y']), .control 2 (.inr ['z', 'u'])]) :=
  C66_violated_summary_rows (by decide) _ _ _ (by decide) _

/-- One slot, two controls. -/
example : optimizeAt 20 (⟨.inl 'd', .inr [['x', 'y']], 2⟩ : Gens Char) (.ok ()) =
    (.error .indexError, []) ∧
    optimizeAt 30 (⟨.inl 'd', .inr [['x', 'y']], 2⟩ : Gens Char) (.ok ()) = (.ok (), []) :=
  ⟨C66_violated_summary_result 20 _ _ _ (by decide) _,
    C66_violated_summary_result 30 _ _ _ (by decide) _⟩

end QTrl.Dyn
