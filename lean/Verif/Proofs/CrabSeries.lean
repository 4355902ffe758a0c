import Verif.Proofs.PulseGauss
import Verif.Proofs.PulseHistory
import Verif.Proofs.Crab
import Verif.Spec.CrabSeries

/-
Sums of waves, guess and ramping pulses.
-/

namespace QTrl.Pulse

open QTrl.Spec

theorem addWaves_sum {t : List ℝ} (ws : List (ℝ → ℝ)) (s r : List ℝ) (hl : t.length = s.length)
    (h : addWaves t ws s = .ok r) :
    r.length = s.length ∧ ∀ (k : ℕ) (x y : ℝ), t[k]? = some x → s[k]? = some y →
      r[k]? = some (y + (ws.map fun w => w x).sum) := by
  induction ws generalizing s with
  | nil =>
    injection h with h
    subst h
    exact ⟨rfl, fun k x y _ hy => by simpa using hy⟩
  | cons w ws ih =>
    unfold addWaves at h
    split at h
    · cases h
    · rename_i s' hs'
      unfold addInto at hs'
      rw [if_pos (by simpa using hl)] at hs'
      injection hs' with hs'
      have hlen : s'.length = s.length := by
        rw [← hs']; simp [hl]
      obtain ⟨h1, h2⟩ := ih s' (by rw [hlen, hl]) h
      refine ⟨h1.trans hlen, fun k x y hx hy => ?_⟩
      have hk : s'[k]? = some (y + w x) := by
        rw [← hs']
        simp [List.getElem?_zipWith, hx, hy]
      rw [h2 k x _ hx hk]
      simp [add_assoc]

theorem zipArr_get {f : ℝ → ℝ → ℝ} {a b r : List ℝ} (h : zipArr f a b = .ok r) :
    a.length = b.length ∧ r.length = a.length ∧ ∀ (k : ℕ) (x : ℝ), a[k]? = some x →
      r[k]? = some (f x (b.getD k 0)) := by
  unfold zipArr at h
  split at h
  · rename_i hl
    injection h with h
    subst h
    refine ⟨hl, by simp [hl], fun k x hx => ?_⟩
    have hk : k < b.length := by
      rw [← hl]; exact (List.getElem?_eq_some_iff.1 hx).1
    simp [List.getElem?_zipWith, hx, List.getD, List.getElem?_eq_getElem hk]
  · cases h

/-- The parts of a successful initialisation of a CRAB generator. -/
theorem crab_init_parts {g g' : Crab} {n : Option ℕ} {i : Option (List ℝ)} {rc : ℕ → ℕ → ℝ}
    {rf : ℕ → ℝ} (h : g.init n i rc rf = .ok g') :
    ∃ b g1 g2, g.base.init = .ok b ∧
      ({ g with base := b } : Crab).initCoeffs n i rc = .ok g1 ∧ g1.initGuess = .ok g2 ∧
      g2.initBounds = .ok g'.cond ∧ g' = { g2 with cond := g'.cond, freqs := some (g2.initFreqs rf) } := by
  unfold Crab.init at h
  split at h
  · cases h
  · rename_i b hb
    split at h
    · cases h
    · rename_i g1 h1
      split at h
      · cases h
      · rename_i g2 h2
        split at h
        · cases h
        · rename_i c hc
          split at h
          · cases h
          · injection h with h
            subst h
            exact ⟨b, g1, g2, hb, h1, h2, hc, rfl⟩

theorem initGuess_parts {g g' : Crab} (h : g.initGuess = .ok g') :
    (g.guessPulse = none ∧ g' = g) ∨ ∃ q a, g.guessPulse = some q ∧ g.guessAction = some a ∧
      ((pyUpper a = "MODULATE" ∧ g' = { g with guessFunc := some .modulate }) ∨
       (pyUpper a = "ADD" ∧ g' = { g with guessFunc := some .add })) := by
  unfold Crab.initGuess at h
  split at h
  · rename_i hq
    injection h with h
    exact .inl ⟨hq, h.symm⟩
  · rename_i q hq
    split at h
    · cases h
    · rename_i a ha
      split at h
      · rename_i hm
        injection h with h
        exact .inr ⟨q, a, hq, ha, .inl ⟨hm, h.symm⟩⟩
      · split at h
        · rename_i hm
          injection h with h
          exact .inr ⟨q, a, hq, ha, .inr ⟨hm, h.symm⟩⟩
        · cases h

theorem applyRamp_get {g : Crab} {a r : List ℝ} (h : g.applyRamp a = .ok r) :
    r.length = a.length ∧ (∀ q, g.ramping = some q → q.length = a.length) ∧
      ∀ (k : ℕ) (x : ℝ), a[k]? = some x → r[k]? = some (ramped g.ramping k x) := by
  unfold Crab.applyRamp at h
  split at h
  · rename_i hq
    injection h with h
    subst h
    refine ⟨rfl, fun q h => (by rw [hq] at h; cases h), fun k x hx => ?_⟩
    simpa [ramped, hq] using hx
  · rename_i q hq
    obtain ⟨h1, h2, h3⟩ := zipArr_get h
    refine ⟨h2, fun q' h => ?_, fun k x hx => ?_⟩
    · rw [hq] at h; injection h with h; rw [← h, h1]
    · rw [h3 k x hx, hq]
      rfl

theorem foldl_max_spec (x : ℝ) (xs : List ℝ) :
    xs.foldl max x ∈ x :: xs ∧ ∀ y ∈ x :: xs, y ≤ xs.foldl max x := by
  induction xs generalizing x with
  | nil => simp
  | cons a xs ih =>
    obtain ⟨h1, h2⟩ := ih (max x a)
    simp only [List.foldl_cons, List.mem_cons] at h1 h2 ⊢
    refine ⟨?_, fun y hy => ?_⟩
    · rcases h1 with h1 | h1
      · rcases max_choice x a with h | h <;> rw [h] at h1 ⊢ <;> simp [h1]
      · exact Or.inr (Or.inr h1)
    · have := h2 _ (Or.inl rfl)
      rcases hy with rfl | rfl | hy
      · exact le_trans (le_max_left _ _) this
      · exact le_trans (le_max_right _ _) this
      · exact h2 y (Or.inr hy)

theorem foldl_min_spec (x : ℝ) (xs : List ℝ) :
    xs.foldl min x ∈ x :: xs ∧ ∀ y ∈ x :: xs, xs.foldl min x ≤ y := by
  induction xs generalizing x with
  | nil => simp
  | cons a xs ih =>
    obtain ⟨h1, h2⟩ := ih (min x a)
    simp only [List.foldl_cons, List.mem_cons] at h1 h2 ⊢
    refine ⟨?_, fun y hy => ?_⟩
    · rcases h1 with h1 | h1
      · rcases min_choice x a with h | h <;> rw [h] at h1 ⊢ <;> simp [h1]
      · exact Or.inr (Or.inr h1)
    · have := h2 _ (Or.inl rfl)
      rcases hy with rfl | rfl | hy
      · exact le_trans this (min_le_left _ _)
      · exact le_trans this (min_le_right _ _)
      · exact h2 y (Or.inr hy)

theorem guessScale_spec {g : Crab} {r : ℝ} (h : g.guessScale = .ok r) :
    GuessRange g.guessPulse r := by
  unfold Crab.guessScale at h
  refine ⟨fun hq => ?_, fun l hl => ?_⟩
  · rw [hq] at h
    injection h with h
    exact h.symm
  · rw [hl] at h
    cases l with
    | nil => simp [maxOf] at h
    | cons x xs =>
      simp only [maxOf, minOf, Except.ok.injEq] at h
      obtain ⟨a1, a2⟩ := foldl_max_spec x xs
      obtain ⟨b1, b2⟩ := foldl_min_spec x xs
      subst h
      refine ⟨⟨fun y hy => le_trans (a2 y hy) (le_max_right _ _), fun y hy z hz =>
        le_trans (sub_le_sub (a2 y hy) (b2 z hz)) (le_max_left _ _)⟩, fun s hs => ?_⟩
      exact max_le (hs.2 _ a1 _ b1) (hs.1 _ a1)

end QTrl.Pulse
