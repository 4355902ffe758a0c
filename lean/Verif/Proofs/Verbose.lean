import Verif.Spec.Verbose
import Verif.Proofs.Counting

/-
Operations with messages compared with those without.
-/

set_option linter.unusedSectionVars false

namespace QTrl.Dyn

open QTrl.Spec QTrl.Spec.Verbose

variable {d m D : Type} [Fintype d] [DecidableEq d] [Fintype m] [DecidableEq m]

theorem shown_append (lv : Levels) (a b : List (Msg d m)) :
    shown lv (a ++ b) = shown lv a ++ shown lv b := List.filter_append ..

theorem shown_nil (lv : Levels) : shown lv ([] : List (Msg d m)) = [] := rfl

theorem shown_cons (lv : Levels) (a : Msg d m) (b : List (Msg d m)) :
    shown lv (a :: b) = emit (levelOf lv a) (severity a) a ++ shown lv b := by
  unfold shown emit
  by_cases h : levelOf lv a ≤ severity a <;> simp [h]

theorem forRange_ok {σ : Type} {n : Nat} {body : Nat → σ → σ}
    {bodyL : Nat → σ × Except PyErr Unit → σ × Except PyErr Unit}
    (h : ∀ k s, bodyL k (s, .ok ()) = (body k s, .ok ())) (s : σ) :
    forRange n bodyL (s, .ok ()) = (forRange n body s, .ok ()) := by
  induction n with
  | zero => rfl
  | succ n ih => rw [forRange_succ, forRange_succ, ih, h]

theorem forRange_error {σ : Type} {n : Nat}
    {bodyL : Nat → σ × Except PyErr Unit → σ × Except PyErr Unit} {e : PyErr}
    (h : ∀ k s, bodyL k (s, .error e) = (s, .error e))
    (h0 : ∀ s, ∃ t, bodyL 0 (s, .ok ()) = (t, .error e)) (hn : 0 < n) (s : σ) :
    ∃ t, forRange n bodyL (s, .ok ()) = (t, .error e) := by
  induction n with
  | zero => exact absurd hn (lt_irrefl 0)
  | succ n ih =>
    rw [forRange_succ]
    rcases Nat.eq_zero_or_pos n with rfl | hp
    · rw [forRange_zero]; exact h0 s
    · obtain ⟨t, ht⟩ := ih hp
      exact ⟨t, by rw [ht, h]⟩

theorem propBodyL_quiet {lv : Levels} (hl : INTENSE < lv.ts) (S : Sys d m D) (k : Nat)
    (s : State d m D) : propBodyL lv S k (s, .ok ()) = (propBody S k s, .ok ()) := by
  unfold propBodyL propBody
  by_cases h : (gradExact S && S.cachePropGrad) = true
  · simp only [if_pos h]
    refine forRange_ok (fun j s => ?_) s
    unfold ctrlBodyL
    by_cases hj : j = 0
    · simp only [if_pos hj, if_neg (not_le.2 hl)]
    · simp only [if_neg hj]
  · simp only [if_neg h]

theorem recomputeL_quiet {lv : Levels} (hl : INTENSE < lv.ts) (S : Sys d m D) (amps : Amps)
    (s : State d m D) : recomputeL lv S amps s =
      ((recompute S amps s, .ok ()), emit lv.ts DEBUG (.recomputing (s.numRecompute + 1))) := by
  unfold recomputeL recompute
  simp only
  rw [forRange_ok (fun k s => propBodyL_quiet hl S k s)]

theorem computeEvolutionL_quiet {lv : Levels} (hl : INTENSE < lv.ts) (S : Sys d m D)
    (s : State d m D) :
    computeEvolutionL lv S s = (computeEvolution S s, shown lv (evoMsgs s)) := by
  unfold computeEvolutionL computeEvolution evoMsgs
  by_cases h : s.evoCurrent = true
  · simp only [if_pos h]; rfl
  · simp only [if_neg h, shown_cons, shown_nil, List.append_nil]
    cases s.ctrlAmps with
    | none => rfl
    | some a => simp only [recomputeL_quiet hl]; rfl

theorem getPrenormL_quiet {lv : Levels} (hl : INTENSE < lv.ts) (S : Sys d m D)
    (s : State d m D) : getPrenormL lv S s = (getPrenorm S s, shown lv (prenormMsgs S s)) := by
  unfold getPrenormL prenormMsgs getPrenorm
  by_cases h : s.prenormCurrent = true
  · simp only [if_pos h]; rfl
  · simp only [if_neg h, computeEvolutionL_quiet hl, shown_append]
    rcases computeEvolution S s with ⟨t, _ | _⟩
    · simp only [shown_nil, List.append_nil]
    · simp only [shown_cons, shown_nil, List.append_nil]; rfl

theorem getFidelityL_quiet {lv : Levels} (hl : INTENSE < lv.ts) (S : Sys d m D)
    (s : State d m D) : getFidelityL lv S s = (getFidelity S s, shown lv (fidelityMsgs S s)) := by
  unfold getFidelityL fidelityMsgs getFidelity
  by_cases h : s.fidelityCurrent = true
  · simp only [if_pos h]; rfl
  · simp only [if_neg h, getPrenormL_quiet hl, shown_append]
    rcases getPrenorm S s with ⟨t, _ | f⟩
    · simp only [shown_nil, List.append_nil]
    · simp only
      cases fidNorm S f with
      | error e => simp only [shown_nil, List.append_nil]
      | ok v => simp only [shown_cons, shown_nil, List.append_nil]; rfl

theorem getFidErrL_quiet {lv : Levels} (hl : INTENSE < lv.ts) (S : Sys d m D)
    (s : State d m D) : getFidErrL lv S s = (getFidErr S s, shown lv (errMsgs S s)) := by
  unfold getFidErrL errMsgs getFidErr
  cases S.fidKind with
  | unitary =>
    simp only [getFidelityL_quiet hl]
    rcases getFidelity S s with ⟨t, _ | f⟩ <;> rfl
  | traceDiff =>
    simp only
    unfold getFidErrTDL getFidErrTD
    by_cases h : s.fidelityCurrent = true
    · simp only [if_pos h]; rfl
    · simp only [if_neg h, computeEvolutionL_quiet hl, shown_append]
      rcases computeEvolution S s with ⟨t, _ | _⟩
      · simp only [shown_nil, List.append_nil]
      · simp only [shown_cons, shown_nil, List.append_nil, List.append_assoc]; rfl

theorem norm2_eq (S : Sys d m D) (g : Nat → Nat → ℝ) : norm2 S g =
    Real.sqrt (∑ k ∈ Finset.range S.nTs, ∑ j ∈ Finset.range S.nCtrls, g k j ^ 2) := by
  have : ∀ (n : Nat) (f : Nat → ℝ), ((List.range n).map f).sum = ∑ i ∈ Finset.range n, f i := by
    intro n f
    induction n with
    | zero => rfl
    | succ n ih => simp [List.range_succ, Finset.sum_range_succ, ih]
  unfold norm2
  rw [this]
  simp only [this]

theorem getGradUnitaryL_quiet {lv : Levels} (hl : INTENSE < lv.ts) (S : Sys d m D)
    (hu : S.fidKind = .unitary) (s : State d m D) :
    getGradUnitaryL lv S s = (getGradUnitary S s, shown lv (gradMsgs S s)) := by
  have hg : getGrad S s = getGradUnitary S s := by unfold getGrad; rw [hu]
  unfold gradMsgs
  rw [hg, hu]
  unfold getGradUnitaryL getGradUnitary computeFidGradL
  by_cases h : s.gradCurrent = true
  · simp only [if_pos h]; rfl
  simp only [if_neg h, computeEvolutionL_quiet hl, shown_append]
  unfold computeFidGrad
  rcases computeEvolution S s with ⟨t, _ | _⟩
  · simp only [shown_nil, List.append_nil]
  simp only
  rcases gradLoop S (gradEntryUnitary S) (fun _ _ => 0) t with ⟨t', _ | gpre⟩
  · simp only [shown_nil, List.append_nil]
  simp only [getFidelityL_quiet hl]
  rcases getFidelity S t' with ⟨t'', _ | f⟩
  · simp only [shown_cons, resultMsgs, List.append_nil, List.append_assoc]
    rfl
  simp only [getPrenormL_quiet hl]
  rcases hp : getPrenorm S t'' with ⟨tp, _ | fpn⟩
  · simp only [shown_cons, shown_append, resultMsgs, List.append_nil, List.append_assoc]
    rfl
  simp only [shown_cons, shown_append, resultMsgs, shown_nil, List.append_nil, List.append_assoc,
    norm2_eq]
  rfl

theorem getGradTDL_quiet {lv : Levels} (hl : INTENSE < lv.ts) (S : Sys d m D)
    (hu : S.fidKind = .traceDiff) (s : State d m D) :
    getGradTDL lv S s = (getGradTD S s, shown lv (gradMsgs S s)) := by
  have hg : getGrad S s = getGradTD S s := by unfold getGrad; rw [hu]
  unfold gradMsgs
  rw [hg, hu]
  unfold getGradTDL getGradTD computeErrGradTD
  by_cases h : s.gradCurrent = true
  · simp only [if_pos h]; rfl
  simp only [if_neg h, computeEvolutionL_quiet hl, shown_append]
  rcases computeEvolution S s with ⟨t, _ | _⟩
  · simp only [resultMsgs, shown_nil, List.append_nil]
  simp only
  rcases gradLoop S (gradEntryTD S (S.target - t.fwd S.nTs)) (fun _ _ => 0) t with ⟨t', _ | g⟩
  · simp only [resultMsgs, shown_nil, List.append_nil]
  simp only [shown_cons, resultMsgs, shown_nil, List.append_nil, List.append_assoc, norm2_eq]
  rfl

theorem updateL_quiet (lv : Levels) (S : Sys d m D) (s : State d m D) (new : Amps) :
    updateL lv S s new = ((compareAmps S s new).1, shown lv (updateMsgs S s.ctrlAmps new)) := by
  cases ha : s.ctrlAmps with
  | none =>
    rw [compareAmps_none ha]
    unfold updateL updateMsgs
    rw [ha]
    simp only [shown_cons, shown_nil, List.append_nil]
    rfl
  | some old =>
    unfold updateL updateMsgs
    rw [ha]
    simp only [numChanged_eq]
    by_cases h : changedAmps S old new = 0
    · rw [compareAmps_same ha (by rw [numChanged_eq]; exact h)]
      simp only [h, if_pos, ne_eq, not_true, if_false, shown_cons, shown_nil, List.append_nil]
      rfl
    · rw [compareAmps_changed ha (by rw [numChanged_eq]; exact h)]
      simp only [h, ne_eq, not_false_eq_true, if_true, if_false, shown_cons, shown_nil,
        List.append_nil, numChanged_eq]
      rfl

theorem stepL_quiet {lv : Levels} (hl : INTENSE < lv.ts) (S : Sys d m D) (junk s : State d m D)
    (op : Op) : stepL lv S junk s op = (step S junk s op, shown lv (messages S s op)) := by
  cases op with
  | updateAmps a => simp only [stepL, step, messages, updateL_quiet]
  | reinit a => simp only [stepL, step, messages, updateL_quiet]; rfl
  | computeEvolution => simp only [stepL, step, messages, computeEvolutionL_quiet hl]
  | getFidelity =>
    simp only [stepL, step, messages]
    cases S.fidKind with
    | unitary => simp only [getFidelityL_quiet hl]
    | traceDiff => rfl
  | getFidErr => simp only [stepL, step, messages, getFidErrL_quiet hl]
  | getGradient =>
    simp only [stepL, step, messages]
    have : getGradL lv S s = (getGrad S s, shown lv (gradMsgs S s)) := by
      unfold getGradL getGrad
      cases h : S.fidKind with
      | unitary => exact getGradUnitaryL_quiet hl S h s
      | traceDiff => exact getGradTDL_quiet hl S h s
    rw [this]

theorem runL_quiet {lv : Levels} (hl : INTENSE < lv.ts) (S : Sys d m D) (junk : State d m D)
    (ops : List Op) (s : State d m D) :
    runL lv S junk s ops = (run S junk s ops, shown lv (allMessages S junk s ops)) := by
  induction ops generalizing s with
  | nil => rfl
  | cons op ops ih =>
    simp only [runL, run, allMessages, stepL_quiet hl, ih, shown_append]

/-! ### The messages are true -/

section truthful

variable {S : Sys d m D} {s : State d m D} {b : Amps}

theorem evoMsgs_true (s : State d m D) : ∀ x ∈ evoMsgs s, Truthful S b x := by
  intro x hx
  unfold evoMsgs at hx
  split at hx
  · exact absurd hx List.not_mem_nil
  · rcases List.mem_cons.1 hx with rfl | hx
    · trivial
    · rw [List.mem_singleton.1 hx]; trivial

theorem prenormMsgs_true (hn : Valid S) (hi : Inv S s)
    (ha : s.ctrlAmps = some b) : ∀ x ∈ prenormMsgs S s, Truthful S b x := by
  intro x hx
  obtain ⟨t, e, -, -⟩ := getPrenorm_some hn hi ha
  unfold prenormMsgs at hx
  split at hx
  · exact absurd hx List.not_mem_nil
  · rcases List.mem_append.1 hx with hx | hx
    · exact evoMsgs_true s x hx
    · simp only [e, List.mem_singleton] at hx
      rw [hx]; rfl

theorem fidelityMsgs_true (hn : Valid S) (hu : S.fidKind = .unitary) (hi : Inv S s)
    (ha : s.ctrlAmps = some b) : ∀ x ∈ fidelityMsgs S s, Truthful S b x := by
  intro x hx
  obtain ⟨t, e, -, -⟩ := getFidelity_some hn hu hi ha
  unfold fidelityMsgs at hx
  split at hx
  · exact absurd hx List.not_mem_nil
  · rcases List.mem_append.1 hx with hx | hx
    · exact prenormMsgs_true hn hi ha x hx
    · rw [e] at hx
      simp only at hx
      cases hf : fidelity S b with
      | ok v =>
        rw [hf] at hx
        rw [List.mem_singleton.1 hx]
        exact hf
      | error _ =>
        rw [hf] at hx
        exact absurd hx List.not_mem_nil

theorem errMsgs_true (hn : Valid S) (hi : Inv S s) (ha : s.ctrlAmps = some b) :
    ∀ x ∈ errMsgs S s, Truthful S b x := by
  intro x hx
  obtain ⟨t, e, it, at'⟩ := getFidErr_some hn hi ha
  unfold errMsgs at hx
  cases hu : S.fidKind with
  | unitary =>
    rw [hu] at hx
    exact fidelityMsgs_true hn hu hi ha x hx
  | traceDiff =>
    rw [hu] at hx
    simp only at hx
    split at hx
    · exact absurd hx List.not_mem_nil
    rename_i hc
    rcases List.mem_append.1 hx with hx | hx
    · exact evoMsgs_true s x hx
    · unfold getFidErr at e
      rw [hu] at e
      simp only at e
      have hfin : t.fwd S.nTs = final S b := by
        obtain ⟨r, t', e', -, -, -, ot⟩ := computeEvolution_some hn hi ha
        unfold getFidErrTD at e
        rw [if_neg hc] at e
        simp only [e'] at e
        have h1 : t'.fwd S.nTs = t.fwd S.nTs := congrArg (fun p => State.fwd p.1 S.nTs) e
        rw [← h1]
        exact ot.fwd _ (Nat.le_refl _)
      rw [e] at hx
      cases hf : fidErr S b with
      | ok v =>
        rw [hf] at hx
        simp only [hfin] at hx
        rcases List.mem_cons.1 hx with rfl | hx
        · exact ⟨rfl, rfl, rfl⟩
        · rw [List.mem_singleton.1 hx]; exact hf
      | error _ =>
        rw [hf] at hx
        exact absurd hx List.not_mem_nil

theorem resultMsgs_true : ∀ x ∈ resultMsgs S (gradient S b), Truthful S b x := by
  intro x hx
  cases hg : gradient S b with
  | ok g =>
    rw [hg] at hx
    rcases List.mem_cons.1 hx with rfl | hx
    · exact hg
    · rw [List.mem_singleton.1 hx]; exact ⟨g, hg, rfl⟩
  | error _ =>
    rw [hg] at hx
    exact absurd hx List.not_mem_nil

theorem gradMsgs_true (hn : Valid S) (hi : Inv S s) (ha : s.ctrlAmps = some b) :
    ∀ x ∈ gradMsgs S s, Truthful S b x := by
  intro x hx
  obtain ⟨t, e, -, -⟩ := getGrad_some hn hi ha
  unfold gradMsgs at hx
  split at hx
  · exact absurd hx List.not_mem_nil
  rw [e] at hx
  cases hu : S.fidKind with
  | traceDiff =>
    rw [hu] at hx
    rcases List.mem_append.1 hx with hx | hx
    · exact evoMsgs_true s x hx
    · exact resultMsgs_true x hx
  | unitary =>
    rw [hu] at hx
    rcases List.mem_append.1 hx with hx | hx
    · exact evoMsgs_true s x hx
    obtain ⟨t1, i1, a1, e1⟩ := computeFidGrad_some hn hu hi ha
    rw [e1] at hx
    by_cases hp : S.propKind = .approx
    · simp only [if_pos hp] at hx
      exact absurd hx List.not_mem_nil
    · simp only [if_neg hp] at hx
      obtain ⟨t2, e2, i2, a2⟩ := getFidelity_some hn hu i1 a1
      rcases List.mem_append.1 hx with hx | hx
      · rcases List.mem_append.1 hx with hx | hx
        · rcases List.mem_cons.1 hx with rfl | hx
          · rfl
          · exact fidelityMsgs_true hn hu i1 a1 x hx
        · rw [e2] at hx
          cases hf : fidelity S b with
          | ok v =>
            rw [hf] at hx
            exact prenormMsgs_true hn i2 a2 x hx
          | error _ =>
            rw [hf] at hx
            exact absurd hx List.not_mem_nil
      · exact resultMsgs_true x hx

theorem Truthful.congr {a : Amps} (h : SameAmps S b a) {x : Msg d m} (hx : Truthful S b x) :
    Truthful S a x := by
  cases x with
  | prenorm f => exact (hx : f = _).trans (overlap_congr h)
  | fidelity v => exact (fidelity_congr h).symm.trans hx
  | fidErr e => exact (fidErr_congr h).symm.trans hx
  | traceDiff t f e =>
    obtain ⟨h1, h2, h3⟩ := hx
    exact ⟨h1, h2.trans (final_congr h), h3.trans (by rw [final_congr h])⟩
  | gradPrenorm g =>
    refine (hx : g = _).trans (funext fun k => funext fun j => ?_)
    by_cases hk : k < S.nTs ∧ j < S.nCtrls
    · rw [if_pos hk, if_pos hk, finalGrad_congr h hk.1]
    · rw [if_neg hk, if_neg hk]
  | gradients g => exact (gradient_congr h).symm.trans hx
  | gradNorm r =>
    obtain ⟨g, h1, h2⟩ := hx
    exact ⟨g, (gradient_congr h).symm.trans h1, h2⟩
  | _ => trivial

theorem messages_true (hn : Valid S) (hi : Inv S s) (ha : s.ctrlAmps = some b) (op : Op)
    (ho : Asks op) : ∀ x ∈ messages S s op, Truthful S b x := by
  cases op with
  | updateAmps a => exact absurd ho id
  | reinit a => exact absurd ho id
  | computeEvolution => exact evoMsgs_true s
  | getFidelity =>
    intro x hx
    unfold messages at hx
    cases hu : S.fidKind with
    | unitary => rw [hu] at hx; exact fidelityMsgs_true hn hu hi ha x hx
    | traceDiff => rw [hu] at hx; exact absurd hx List.not_mem_nil
  | getFidErr => exact errMsgs_true hn hi ha
  | getGradient => exact gradMsgs_true hn hi ha

end truthful

/-! ### At the level `DEBUG_INTENSE` -/

/-- The caches after amplitudes have been supplied, when no evolution can be computed. -/
structure AllStale (s : State d m D) : Prop where
  amps : ∃ a, s.ctrlAmps = some a
  evo : s.evoCurrent = false
  fid : s.fidelityCurrent = false
  pre : s.prenormCurrent = false
  grad : s.gradCurrent = false

/-- The caches that tell what is current stay as they are. -/
structure SameCurrent (s t : State d m D) : Prop where
  amps : t.ctrlAmps = s.ctrlAmps
  evo : t.evoCurrent = s.evoCurrent
  fid : t.fidelityCurrent = s.fidelityCurrent
  pre : t.prenormCurrent = s.prenormCurrent
  grad : t.gradCurrent = s.gradCurrent

theorem SameCurrent.refl (s : State d m D) : SameCurrent s s := ⟨rfl, rfl, rfl, rfl, rfl⟩

theorem SameCurrent.trans {s t u : State d m D} (h : SameCurrent s t) (g : SameCurrent t u) :
    SameCurrent s u :=
  ⟨g.amps.trans h.amps, g.evo.trans h.evo, g.fid.trans h.fid, g.pre.trans h.pre,
    g.grad.trans h.grad⟩

theorem SameCurrent.stuck {s t : State d m D} (h : SameCurrent s t) (g : AllStale s) : AllStale t :=
  ⟨by rw [h.amps]; exact g.amps, h.evo.trans g.evo, h.fid.trans g.fid, h.pre.trans g.pre,
    h.grad.trans g.grad⟩

theorem genLoop_keeps (S : Sys d m D) (amps : Amps) (s : State d m D) :
    SameCurrent s (genLoop S amps s) := by
  unfold genLoop
  refine forRange_inv (fun _ t => SameCurrent s t) (SameCurrent.refl s) ?_
  intro k t _ h
  exact h.trans ⟨rfl, rfl, rfl, rfl, rfl⟩

theorem computeProp_keeps (S : Sys d m D) (s : State d m D) (k : Nat) :
    SameCurrent s (computeProp S s k).1 := by
  unfold computeProp
  cases S.propKind <;> simp only [ensureDecomp] <;>
    first
    | exact SameCurrent.refl s
    | (split
       · exact SameCurrent.refl s
       · exact ⟨rfl, rfl, rfl, rfl, rfl⟩)

theorem computeGrad_keeps (S : Sys d m D) (s : State d m D) (k j : Nat) :
    SameCurrent s (computeGrad S s k j).1 := by
  unfold computeGrad
  cases S.propKind <;> simp only [ensureDecomp] <;>
    first
    | exact SameCurrent.refl s
    | (split
       · exact SameCurrent.refl s
       · exact ⟨rfl, rfl, rfl, rfl, rfl⟩)

theorem ctrlBodyL_keeps (lv : Levels) (S : Sys d m D) (k j : Nat)
    (acc : State d m D × Except PyErr Unit) : SameCurrent acc.1 (ctrlBodyL lv S k j acc).1 := by
  rcases acc with ⟨s, e | _⟩
  · exact SameCurrent.refl s
  · unfold ctrlBodyL
    by_cases hj : j = 0
    · simp only [if_pos hj]
      have h := (computeProp_keeps S s k).trans (computeGrad_keeps S (computeProp S s k).1 k j)
      split
      · exact h.trans ⟨rfl, rfl, rfl, rfl, rfl⟩
      · exact h.trans ⟨rfl, rfl, rfl, rfl, rfl⟩
    · simp only [if_neg hj]
      exact (computeGrad_keeps S s k j).trans ⟨rfl, rfl, rfl, rfl, rfl⟩

theorem propBodyL_keeps (lv : Levels) (S : Sys d m D) (k : Nat)
    (acc : State d m D × Except PyErr Unit) : SameCurrent acc.1 (propBodyL lv S k acc).1 := by
  rcases acc with ⟨s, e | _⟩
  · exact SameCurrent.refl s
  · unfold propBodyL
    simp only
    split
    · exact forRange_inv (s := ((s, .ok ()) : State d m D × Except PyErr Unit)) (fun _ t => SameCurrent s t.1) (SameCurrent.refl s)
        fun j t _ h => h.trans (ctrlBodyL_keeps lv S k j t)
    · exact (computeProp_keeps S s k).trans ⟨rfl, rfl, rfl, rfl, rfl⟩

/-- The first propagator raises. -/
theorem recomputeL_intense {lv : Levels} (hl : lv.ts ≤ INTENSE) (S : Sys d m D)
    (hx : gradExact S = true) (hc : S.cachePropGrad = true) (hn : 0 < S.nTs) (hm : 0 < S.nCtrls)
    (amps : Amps) (s : State d m D) :
    ∃ t l, recomputeL lv S amps s = ((t, .error .attributeError), l) ∧ SameCurrent s t := by
  unfold recomputeL
  simp only
  obtain ⟨s', hs'⟩ : ∃ s', s' = genLoop S amps
    { s with numRecompute := s.numRecompute + 1, views := {} } := ⟨_, rfl⟩
  have hf : SameCurrent s s' := by
    rw [hs']
    exact SameCurrent.trans (t := { s with numRecompute := s.numRecompute + 1, views := {} })
      ⟨rfl, rfl, rfl, rfl, rfl⟩ (genLoop_keeps S amps _)
  rw [← hs']
  have hfl : SameCurrent s' (forRange S.nTs (propBodyL lv S) (s', .ok ())).1 :=
    forRange_inv (fun _ t => SameCurrent s' t.1) (SameCurrent.refl s')
      fun k t _ h => h.trans (propBodyL_keeps lv S k t)
  obtain ⟨t, ht⟩ := forRange_error (n := S.nTs) (bodyL := propBodyL lv S) (e := .attributeError)
    (fun k s => rfl) (fun s => by
      unfold propBodyL
      simp only [hx, hc, Bool.and_self, if_true]
      refine forRange_error (fun j s => rfl) (fun s => ?_) hm s
      unfold ctrlBodyL
      simp only [if_true, if_pos hl]
      exact ⟨_, rfl⟩) hn s'
  rw [ht] at hfl ⊢
  exact ⟨t, _, rfl, hf.trans hfl⟩

theorem computeEvolutionL_intense {lv : Levels} (hl : lv.ts ≤ INTENSE) (S : Sys d m D)
    (hx : gradExact S = true) (hc : S.cachePropGrad = true) (hn : 0 < S.nTs) (hm : 0 < S.nCtrls)
    (s : State d m D) (hs : AllStale s) :
    ∃ t l, computeEvolutionL lv S s = ((t, .error .attributeError), l) ∧ AllStale t := by
  obtain ⟨a, ha⟩ := hs.amps
  obtain ⟨t, l, h, hf⟩ := recomputeL_intense hl S hx hc hn hm a s
  unfold computeEvolutionL
  simp only [hs.evo, Bool.false_eq_true, if_false, ha, h]
  exact ⟨t, _, rfl, hf.stuck hs⟩

theorem stepL_intense {lv : Levels} (hl : lv.ts ≤ INTENSE) (S : Sys d m D)
    (hx : gradExact S = true) (hc : S.cachePropGrad = true) (hn : 0 < S.nTs) (hm : 0 < S.nCtrls)
    (junk s : State d m D) (op : Op) (hs : AllStale s) :
    AllStale (stepL lv S junk s op).1.1 ∧
      (Asks op → (stepL lv S junk s op).1.2 = .error .attributeError) := by
  have hupd : ∀ (s : State d m D) (a : Amps), (AllStale s ∨ s.ctrlAmps = none) →
      AllStale (updateL lv S s a).1 := by
    intro s a h
    rw [updateL_quiet]
    cases ha : s.ctrlAmps with
    | none => rw [compareAmps_none ha]; exact ⟨⟨a, rfl⟩, rfl, rfl, rfl, rfl⟩
    | some old =>
      have hs : AllStale s := h.resolve_right (by rw [ha]; exact Option.some_ne_none old)
      by_cases h : numChanged S old a = 0
      · rw [compareAmps_same ha h]
        exact ⟨hs.amps, hs.evo, hs.fid, hs.pre, hs.grad⟩
      · rw [compareAmps_changed ha h]; exact ⟨⟨a, rfl⟩, rfl, rfl, rfl, rfl⟩
  obtain ⟨t, l, he, ht⟩ := computeEvolutionL_intense hl S hx hc hn hm s hs
  have hpre : getPrenormL lv S s = ((t, .error .attributeError), l) := by
    unfold getPrenormL
    simp only [hs.pre, Bool.false_eq_true, if_false, he]
  have hfid : getFidelityL lv S s = ((t, .error .attributeError), l) := by
    unfold getFidelityL
    simp only [hs.fid, Bool.false_eq_true, if_false, hpre]
  cases op with
  | updateAmps a => exact ⟨hupd s a (Or.inl hs), fun h => absurd h id⟩
  | reinit a => exact ⟨hupd _ a (Or.inr rfl), fun h => absurd h id⟩
  | computeEvolution =>
    simp only [stepL, he]
    exact ⟨ht, fun _ => rfl⟩
  | getFidelity =>
    simp only [stepL]
    cases S.fidKind with
    | unitary => simp only [hfid]; exact ⟨ht, fun _ => rfl⟩
    | traceDiff => exact ⟨hs, fun _ => rfl⟩
  | getFidErr =>
    simp only [stepL, getFidErrL]
    cases S.fidKind with
    | unitary => simp only [hfid]; exact ⟨ht, fun _ => rfl⟩
    | traceDiff =>
      simp only [getFidErrTDL, hs.fid, Bool.false_eq_true, if_false, he]
      exact ⟨ht, fun _ => rfl⟩
  | getGradient =>
    simp only [stepL, getGradL]
    cases S.fidKind with
    | unitary =>
      simp only [getGradUnitaryL, computeFidGradL, hs.grad, Bool.false_eq_true, if_false, he]
      exact ⟨ht, fun _ => rfl⟩
    | traceDiff =>
      simp only [getGradTDL, hs.grad, Bool.false_eq_true, if_false, he]
      exact ⟨ht, fun _ => rfl⟩

theorem runL_intense {lv : Levels} (hl : lv.ts ≤ INTENSE) (S : Sys d m D)
    (hx : gradExact S = true) (hc : S.cachePropGrad = true) (hn : 0 < S.nTs) (hm : 0 < S.nCtrls)
    (junk : State d m D) (ops : List Op) (s : State d m D) (hs : AllStale s) :
    List.Forall₂ (fun op out => Asks op → out = .error .attributeError) ops
      (runL lv S junk s ops).1.2 := by
  induction ops generalizing s with
  | nil => exact List.Forall₂.nil
  | cons op ops ih =>
    obtain ⟨h1, h2⟩ := stepL_intense hl S hx hc hn hm junk s op hs
    exact List.Forall₂.cons h2 (ih _ h1)

end QTrl.Dyn
