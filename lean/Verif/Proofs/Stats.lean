import Verif.Spec.Stats
import Mathlib.Data.Fintype.BigOperators
import Mathlib.Tactic.Linarith
import Mathlib.Tactic.Ring

/-
Counting changes of pulses.
-/

namespace QTrl.Stats

open Spec.Stats

set_option linter.unusedSectionVars false

variable {n m : Nat} {α : Type} [DecidableEq α]

theorem newAmps_some (o a : Fin n → Fin m → α) :
    (newAmps (some o) a).card = ampChanges o a := by
  unfold newAmps ampChanges
  congr 1
  ext p
  simp

theorem newAmps_none (a : Fin n → Fin m → α) : (newAmps none a).card = n * m := by
  unfold newAmps
  simp

theorem newSlots_some (o a : Fin n → Fin m → α) :
    (newSlots (some o) a).card = slotChanges o a := by
  unfold newSlots slotChanges newAmps
  congr 1
  ext k
  simp

theorem newSlots_none (a : Fin n → Fin m → α) (hm : 0 < m) : (newSlots none a).card = n := by
  unfold newSlots newAmps
  rw [Finset.filter_true_of_mem]
  · simp
  · intro k _
    exact ⟨⟨0, hm⟩, by simp⟩

/-- The slots with new amplitudes are those of the new amplitudes. -/
theorem newSlots_le (o : Option (Fin n → Fin m → α)) (a : Fin n → Fin m → α) :
    (newSlots o a).card ≤ (newAmps o a).card ∧ (newAmps o a).card ≤ m * (newSlots o a).card ∧
    ((newAmps o a).card ≠ 0 → 1 ≤ (newSlots o a).card) := by
  have himg : newSlots o a = (newAmps o a).image Prod.fst := by
    ext k
    simp only [newSlots, Finset.mem_filter, Finset.mem_univ, true_and, Finset.mem_image,
      Prod.exists, exists_and_right, exists_eq_right]
  have hsub : newAmps o a ⊆ newSlots o a ×ˢ Finset.univ := by
    intro p hp
    rw [Finset.mem_product]
    refine ⟨?_, Finset.mem_univ _⟩
    rw [himg]
    exact Finset.mem_image_of_mem _ hp
  have h2 : (newAmps o a).card ≤ m * (newSlots o a).card := by
    have := Finset.card_le_card hsub
    rw [Finset.card_product, Finset.card_univ, Fintype.card_fin, Nat.mul_comm] at this
    exact this
  refine ⟨himg ▸ Finset.card_image_le, h2, ?_⟩
  intro h
  by_contra h'
  have h0 : (newSlots o a).card = 0 := by omega
  rw [h0, Nat.mul_zero] at h2
  omega

/-- Events that are no updates do not change the counts. -/
def sameCounts (s s' : Base) : Prop :=
  s'.numUpdates = s.numUpdates ∧ s'.numAmpChanges = s.numAmpChanges ∧
    s'.numSlotChanges = s.numSlotChanges

theorem calculate_counts (s : Base) : sameCounts s s.calculate := by
  unfold Base.calculate
  by_cases h : s.wallEnd > 0
  · simp only [if_pos h]; exact ⟨rfl, rfl, rfl⟩
  · simp only [if_neg h]; exact ⟨rfl, rfl, rfl⟩

theorem step_other (w : World n m α) (e : Event n m α) (he : ∀ a, e ≠ .update a)
    (hs : ∀ i, e ≠ .start i) :
    sameCounts w.stats (step w e).stats ∧ (step w e).amps = w.amps := by
  cases e with
  | update a => exact absurd rfl (he a)
  | start i => exact absurd rfl (hs i)
  | report =>
    refine ⟨?_, rfl⟩
    exact calculate_counts { w.stats with wallEnd := w.endTime }
  | calculate => exact ⟨calculate_counts w.stats, rfl⟩
  | iteration t => cases t <;> exact ⟨⟨rfl, rfl, rfl⟩, rfl⟩
  | _ => exact ⟨⟨rfl, rfl, rfl⟩, rfl⟩

theorem pulses_other (e : Event n m α) (es : List (Event n m α)) (he : ∀ a, e ≠ .update a) :
    pulses (e :: es) = pulses es := by
  cases e with
  | update a => exact absurd rfl (he a)
  | _ => rfl

/-- One update counts the new amplitudes and slots. -/
theorem countUpdate_spec (hm : 0 < m) (old : Option (Fin n → Fin m → α)) (a : Fin n → Fin m → α)
    (s : Base) :
    (countUpdate old a s).numUpdates.val =
      s.numUpdates.val + (if (newAmps old a).card = 0 then 0 else 1 : Nat) ∧
    (countUpdate old a s).numAmpChanges.val = s.numAmpChanges.val + (newAmps old a).card ∧
    (countUpdate old a s).numSlotChanges.val = s.numSlotChanges.val + (newSlots old a).card ∧
    (countUpdate old a s).numUpdates.numpy = s.numUpdates.numpy ∧
    (((countUpdate old a s).numAmpChanges.numpy = s.numAmpChanges.numpy ∧
      (countUpdate old a s).numSlotChanges.numpy = s.numSlotChanges.numpy) ∨
      (newAmps old a).card ≠ 0) ∧
    (countUpdate old a s).numIter = s.numIter := by
  cases old with
  | none =>
    refine ⟨?_, ?_, ?_, ?_, Or.inl ⟨?_, ?_⟩, rfl⟩
    · rw [newAmps_none]; rfl
    · rw [newAmps_none]; rfl
    · rw [newSlots_none a hm]; rfl
    · simp [countUpdate, Num.add]
    · simp [countUpdate, Num.add]
    · simp [countUpdate, Num.add]
  | some o =>
    obtain ⟨h1, -, -⟩ := newSlots_le (some o) a
    rw [newAmps_some, newSlots_some] at *
    unfold countUpdate
    simp only
    by_cases h : ampChanges o a = 0
    · rw [if_pos h, if_pos h, h]
      have : slotChanges o a = 0 := by omega
      rw [this]
      simp
    · rw [if_neg h, if_neg h]
      simp [Num.add, h]

/-- The counts after any events within a run. -/
theorem run_counts (hm : 0 < m) (es : List (Event n m α)) (w : World n m α) (hn : NoStart es) :
    (run w es).stats.numUpdates.val = w.stats.numUpdates.val +
      (total (fun o a => if (newAmps o a).card = 0 then 0 else 1) w.amps (pulses es) : Nat) ∧
    (run w es).stats.numAmpChanges.val = w.stats.numAmpChanges.val +
      (total (fun o a => (newAmps o a).card) w.amps (pulses es) : Nat) ∧
    (run w es).stats.numSlotChanges.val = w.stats.numSlotChanges.val +
      (total (fun o a => (newSlots o a).card) w.amps (pulses es) : Nat) := by
  induction es generalizing w with
  | nil => simp [run, pulses, total]
  | cons e es ih =>
    obtain ⟨i1, i2, i3⟩ := ih (step w e) fun i hi => hn i (List.mem_cons_of_mem _ hi)
    have hr : run w (e :: es) = run (step w e) es := rfl
    rw [hr, i1, i2, i3]
    by_cases he : ∃ a, e = .update a
    · obtain ⟨a, rfl⟩ := he
      obtain ⟨c1, c2, c3, -⟩ := countUpdate_spec hm w.amps a w.stats
      have hs : (step w (.update a)).stats = countUpdate w.amps a w.stats := rfl
      have ha : (step w (.update a)).amps = some a := rfl
      rw [hs, ha, c1, c2, c3]
      simp only [pulses, total]
      refine ⟨?_, ?_, ?_⟩ <;> push_cast <;> ring
    · have he' : ∀ a, e ≠ .update a := fun a h => he ⟨a, h⟩
      obtain ⟨⟨s1, s2, s3⟩, s4⟩ := step_other w e he' fun i h => hn i (h ▸ List.mem_cons_self)
      rw [s1, s2, s3, s4, pulses_other e es he']
      exact ⟨rfl, rfl, rfl⟩

/-- The pulse in force after some events. -/
theorem run_amps (es : List (Event n m α)) (w : World n m α) :
    (run w es).amps = ((pulses es).getLast?).or w.amps := by
  induction es generalizing w with
  | nil => rfl
  | cons e es ih =>
    have hr : run w (e :: es) = run (step w e) es := rfl
    rw [hr, ih]
    by_cases he : ∃ a, e = .update a
    · obtain ⟨a, rfl⟩ := he
      have ha : (step w (.update a)).amps = some a := rfl
      rw [ha, pulses, List.getLast?_cons]
      cases (pulses es).getLast? <;> rfl
    · have he' : ∀ a, e ≠ .update a := fun a h => he ⟨a, h⟩
      rw [pulses_other e es he']
      have : (step w e).amps = w.amps := by
        cases e with
        | update a => exact absurd rfl (he' a)
        | iteration t => cases t <;> rfl
        | _ => rfl
      rw [this]

theorem calculate_calls (s : Base) :
    s.calculate.numFidCalls = s.numFidCalls ∧ s.calculate.numGradCalls = s.numGradCalls ∧
    s.calculate.numRecompute = s.numRecompute ∧ s.calculate.numFidComputes = s.numFidComputes ∧
    s.calculate.numGradComputes = s.numGradComputes := by
  unfold Base.calculate
  by_cases h : s.wallEnd > 0
  · simp only [if_pos h]; simp only [and_self]
  · simp only [if_neg h]; simp only [and_self]

/-- The calls and computations after any events within a run. -/
theorem run_calls (es : List (Event n m α)) (w : World n m α) (hn : NoStart es)
    (h1 : w.stats.numFidCalls = w.optFid) (h2 : w.stats.numGradCalls = w.optGrad) :
    (run w es).stats.numFidCalls = w.stats.numFidCalls + occurrences isFunc es ∧
    (run w es).stats.numGradCalls = w.stats.numGradCalls + occurrences isGrad es ∧
    (run w es).stats.numRecompute = w.stats.numRecompute + occurrences isEvolve es ∧
    (run w es).stats.numFidComputes = w.stats.numFidComputes + occurrences isFidelity es ∧
    (run w es).stats.numGradComputes = w.stats.numGradComputes + occurrences isGradient es := by
  induction es generalizing w with
  | nil => exact ⟨rfl, rfl, rfl, rfl, rfl⟩
  | cons e es ih =>
    have hr : run w (e :: es) = run (step w e) es := rfl
    have hn' : NoStart es := fun i hi => hn i (List.mem_cons_of_mem _ hi)
    rw [hr]
    cases e with
    | start i => exact absurd List.mem_cons_self (hn i)
    | update a =>
      have hs : (step w (.update a)).stats.numFidCalls = w.stats.numFidCalls ∧
          (step w (.update a)).stats.numGradCalls = w.stats.numGradCalls ∧
          (step w (.update a)).stats.numRecompute = w.stats.numRecompute ∧
          (step w (.update a)).stats.numFidComputes = w.stats.numFidComputes ∧
          (step w (.update a)).stats.numGradComputes = w.stats.numGradComputes := by
        simp only [step, countUpdate]
        split
        · exact ⟨rfl, rfl, rfl, rfl, rfl⟩
        · split <;> exact ⟨rfl, rfl, rfl, rfl, rfl⟩
      have := ih (step w (.update a)) hn' (hs.1.trans h1) (hs.2.1.trans h2)
      rw [hs.1, hs.2.1, hs.2.2.1, hs.2.2.2.1, hs.2.2.2.2] at this
      simpa [occurrences, isFunc, isGrad, isEvolve, isFidelity, isGradient] using this
    | report =>
      obtain ⟨c1, c2, c3, c4, c5⟩ := calculate_calls { w.stats with wallEnd := w.endTime }
      have := ih (step w .report) hn' (c1.trans h1) (c2.trans h2)
      have e1 : (step w .report).stats = { w.stats with wallEnd := w.endTime }.calculate := rfl
      rw [e1, c1, c2, c3, c4, c5] at this
      simpa [occurrences, isFunc, isGrad, isEvolve, isFidelity, isGradient] using this
    | calculate =>
      obtain ⟨c1, c2, c3, c4, c5⟩ := calculate_calls w.stats
      have := ih (step w .calculate) hn' (c1.trans h1) (c2.trans h2)
      have e1 : (step w .calculate).stats = w.stats.calculate := rfl
      rw [e1, c1, c2, c3, c4, c5] at this
      simpa [occurrences, isFunc, isGrad, isEvolve, isFidelity, isGradient] using this
    | iteration t =>
      cases t
      · have := ih (step w (.iteration false)) hn' h1 h2
        simpa [step, occurrences, isFunc, isGrad, isEvolve, isFidelity, isGradient] using this
      · have := ih (step w (.iteration true)) hn' h1 h2
        simpa [step, occurrences, isFunc, isGrad, isEvolve, isFidelity, isGradient] using this
    | funcCall =>
      have := ih (step w .funcCall) hn' rfl h2
      simp only [step, occurrences, isFunc, isGrad, isEvolve, isFidelity, isGradient,
        List.countP_cons] at this ⊢
      simp only [h1]
      simp at this ⊢
      omega
    | gradCall =>
      have := ih (step w .gradCall) hn' h1 rfl
      simp only [step, occurrences, isFunc, isGrad, isEvolve, isFidelity, isGradient,
        List.countP_cons] at this ⊢
      simp only [h2]
      simp at this ⊢
      omega
    | evolve a b c d =>
      have := ih (step w (.evolve a b c d)) hn' h1 h2
      simp only [step, occurrences, isFunc, isGrad, isEvolve, isFidelity, isGradient,
        List.countP_cons] at this ⊢
      simp at this ⊢
      omega
    | fidelity =>
      have := ih (step w .fidelity) hn' h1 h2
      simp only [step, occurrences, isFunc, isGrad, isEvolve, isFidelity, isGradient,
        List.countP_cons] at this ⊢
      simp at this ⊢
      omega
    | gradient g =>
      have := ih (step w (.gradient g)) hn' h1 h2
      simp only [step, occurrences, isFunc, isGrad, isEvolve, isFidelity, isGradient,
        List.countP_cons] at this ⊢
      simp at this ⊢
      omega
    | pass t =>
      have := ih (step w (.pass t)) hn' h1 h2
      simpa [step, occurrences, isFunc, isGrad, isEvolve, isFidelity, isGradient] using this
    | stop =>
      have := ih (step w .stop) hn' h1 h2
      simpa [step, occurrences, isFunc, isGrad, isEvolve, isFidelity, isGradient] using this

theorem total_le (f g : Option (Fin n → Fin m → α) → (Fin n → Fin m → α) → Nat) (c : Nat)
    (h : ∀ o a, f o a ≤ c * g o a) (o : Option (Fin n → Fin m → α))
    (as : List (Fin n → Fin m → α)) : total f o as ≤ c * total g o as := by
  induction as generalizing o with
  | nil => simp [total]
  | cons a as ih =>
    simp only [total, Nat.mul_add]
    exact Nat.add_le_add (h o a) (ih (some a))

/-- Statistics that were just cleared count what follows. -/
theorem counts_of (hm : 0 < m) (es : List (Event n m α)) (w : World n m α) (hn : NoStart es)
    (z1 : w.stats.numUpdates.val = 0) (z2 : w.stats.numAmpChanges.val = 0)
    (z3 : w.stats.numSlotChanges.val = 0) (z4 : w.stats.numFidCalls = 0) (z5 : w.optFid = 0)
    (z6 : w.stats.numGradCalls = 0) (z7 : w.optGrad = 0) (z8 : w.stats.numRecompute = 0)
    (z9 : w.stats.numFidComputes = 0) (z10 : w.stats.numGradComputes = 0) :
    Counts w.amps es (run w es).stats := by
  obtain ⟨h1, h2, h3⟩ := run_counts hm es w hn
  obtain ⟨c1, c2, c3, c4, c5⟩ := run_calls es w hn (z4.trans z5.symm) (z6.trans z7.symm)
  rw [z1, zero_add] at h1
  rw [z2, zero_add] at h2
  rw [z3, zero_add] at h3
  rw [z4, Nat.zero_add] at c1
  rw [z6, Nat.zero_add] at c2
  rw [z8, Nat.zero_add] at c3
  rw [z9, Nat.zero_add] at c4
  rw [z10, Nat.zero_add] at c5
  refine ⟨h1, h2, h3, ?_, ?_, ?_, c1, c2, c3, c4, c5⟩
  · rw [h1, h3, Nat.cast_le]
    refine (total_le _ _ 1 (fun o a => ?_) _ _).trans_eq (Nat.one_mul _)
    rw [Nat.one_mul]
    split
    · exact Nat.zero_le _
    · next h => exact (newSlots_le o a).2.2 h
  · rw [h2, h3, Nat.cast_le]
    refine (total_le _ _ 1 (fun o a => ?_) _ _).trans_eq (Nat.one_mul _)
    rw [Nat.one_mul]
    exact (newSlots_le o a).1
  · rw [h2, h3]
    exact_mod_cast total_le _ _ m (fun o a => (newSlots_le o a).2.1) _ _

/-- What holds of the kinds of numbers: NumPy only when something was counted. -/
def Kinds (s : Base) : Prop :=
  0 ≤ s.numUpdates.val ∧ s.numUpdates.numpy = false ∧
  (s.numUpdates.val = 0 → s.numAmpChanges.numpy = false ∧ s.numSlotChanges.numpy = false)

theorem step_kinds (hm : 0 < m) (w : World n m α) (e : Event n m α) (h : Kinds w.stats) :
    Kinds (step w e).stats := by
  by_cases hs : ∃ i, e = .start i
  · obtain ⟨i, rfl⟩ := hs
    exact ⟨le_refl _, rfl, fun _ => ⟨rfl, rfl⟩⟩
  by_cases he : ∃ a, e = .update a
  · obtain ⟨a, rfl⟩ := he
    obtain ⟨c1, c2, c3, c4, c5, -⟩ := countUpdate_spec hm w.amps a w.stats
    have hs : (step w (.update a)).stats = countUpdate w.amps a w.stats := rfl
    rw [hs]
    obtain ⟨h1, h2, h3⟩ := h
    have hnn : (0 : Rat) ≤ ((if (newAmps w.amps a).card = 0 then 0 else 1 : Nat) : Rat) :=
      Nat.cast_nonneg _
    refine ⟨?_, ?_, ?_⟩
    · rw [c1]; linarith
    · rw [c4, h2]
    · intro h0
      rw [c1] at h0
      have hz : w.stats.numUpdates.val = 0 := by linarith
      have hc : ((if (newAmps w.amps a).card = 0 then 0 else 1 : Nat) : Rat) = 0 := by linarith
      rcases c5 with ⟨k1, k2⟩ | k
      · rw [k1, k2]
        exact h3 hz
      · rw [if_neg k] at hc
        norm_num at hc
  · have he' : ∀ a, e ≠ .update a := fun a h => he ⟨a, h⟩
    obtain ⟨⟨s1, s2, s3⟩, -⟩ := step_other w e he' fun i h => hs ⟨i, h⟩
    unfold Kinds
    rw [s1, s2, s3]
    exact h

theorem run_kinds (hm : 0 < m) (es : List (Event n m α)) (w : World n m α) (h : Kinds w.stats) :
    Kinds (run w es).stats := by
  induction es generalizing w with
  | nil => exact h
  | cons e es ih => exact ih (step w e) (step_kinds hm w e h)

theorem tryDiv_mean (a b : Num) (h : b.val = 0 → a.numpy = false) :
    Mean a.val b.val (tryDiv a b) := by
  unfold tryDiv Num.div Mean
  by_cases hb : b.val = 0
  · left
    rw [if_pos hb, h hb]
    exact ⟨hb, rfl⟩
  · right
    rw [if_neg hb]
    exact ⟨hb, rfl⟩

/-- A run without its ends: the categories grow by at most the time that passes. -/
theorem run_inner (es : List (Event n m α)) (w : World n m α) (hp : ∀ e ∈ es, Proper e)
    (hi : ∀ e ∈ es, Inner e) :
    categorised (run w es).stats - categorised w.stats ≤ (run w es).now - w.now ∧
    w.now ≤ (run w es).now ∧
    (run w es).stats.wallStart = w.stats.wallStart ∧
    (run w es).stats.wallOptim = w.stats.wallOptim := by
  induction es generalizing w with
  | nil => simp [run]
  | cons e es ih =>
    obtain ⟨i1, i2, i3, i4⟩ := ih (step w e) (fun x hx => hp x (List.mem_cons_of_mem _ hx))
      (fun x hx => hi x (List.mem_cons_of_mem _ hx))
    have hr : run w (e :: es) = run (step w e) es := rfl
    rw [hr, i3, i4]
    have hpe := hp e List.mem_cons_self
    have hie := hi e List.mem_cons_self
    suffices h : categorised (step w e).stats - categorised w.stats ≤ (step w e).now - w.now ∧
        w.now ≤ (step w e).now ∧ (step w e).stats.wallStart = w.stats.wallStart ∧
        (step w e).stats.wallOptim = w.stats.wallOptim by
      obtain ⟨h1, h2, h3, h4⟩ := h
      exact ⟨by linarith, by linarith, h3, h4⟩
    cases e with
    | update a =>
      have : categorised (step w (.update a)).stats = categorised w.stats ∧
          (step w (.update a)).stats.wallStart = w.stats.wallStart ∧
          (step w (.update a)).stats.wallOptim = w.stats.wallOptim := by
        simp only [step, countUpdate]
        split
        · exact ⟨rfl, rfl, rfl⟩
        · split <;> exact ⟨rfl, rfl, rfl⟩
      refine ⟨?_, le_refl _, this.2⟩
      rw [this.1]
      show _ ≤ w.now - w.now
      linarith
    | evolve a b c d =>
      obtain ⟨h1, h2, h3, h4⟩ := hpe
      refine ⟨?_, ?_, rfl, rfl⟩
      · simp only [step, categorised]; linarith
      · simp only [step]; linarith
    | gradient g =>
      have h1 : 0 ≤ g := hpe
      refine ⟨?_, ?_, rfl, rfl⟩
      · simp only [step, categorised]; linarith
      · simp only [step]; linarith
    | iteration t =>
      cases t <;> refine ⟨?_, ?_, rfl, rfl⟩ <;> simp [step, categorised]
    | fidelity => refine ⟨?_, ?_, rfl, rfl⟩ <;> simp [step, categorised]
    | funcCall => refine ⟨?_, ?_, rfl, rfl⟩ <;> simp [step, categorised]
    | gradCall => refine ⟨?_, ?_, rfl, rfl⟩ <;> simp [step, categorised]
    | pass t =>
      have h1 : 0 ≤ t := hpe
      refine ⟨?_, ?_, rfl, rfl⟩
      · simp only [step]; linarith
      · simp only [step]; linarith
    | start i => exact absurd hie id
    | stop => exact absurd hie id
    | report => exact absurd hie id
    | calculate => exact absurd hie id

/-- Within a run no end is noted. -/
theorem wallEnd_inner (es : List (Event n m α)) (w : World n m α) (hi : ∀ e ∈ es, Inner e) :
    (run w es).stats.wallEnd = w.stats.wallEnd := by
  induction es generalizing w with
  | nil => rfl
  | cons e es ih =>
    have hr : run w (e :: es) = run (step w e) es := rfl
    rw [hr, ih (step w e) (fun x hx => hi x (List.mem_cons_of_mem _ hx))]
    have hie := hi e List.mem_cons_self
    cases e with
    | update a =>
      simp only [step, countUpdate]
      split
      · rfl
      · split <;> rfl
    | iteration t => cases t <;> rfl
    | start i => exact absurd hie id
    | stop => exact absurd hie id
    | report => exact absurd hie id
    | calculate => exact absurd hie id
    | _ => rfl

end QTrl.Stats
