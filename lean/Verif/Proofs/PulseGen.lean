import Verif.Model.PulseGen
import Mathlib.Tactic.Linarith
import Mathlib.Tactic.Ring
import Mathlib.Tactic.FieldSimp
import Mathlib.Tactic.Positivity

/-
Lemmas about the bounding of pulses and the sampling loops.
-/

namespace QTrl.Pulse

open Flt

theorem foldl_max (xs : List ℝ) (x : ℝ) :
    ∃ M, (xs.map Flt.fin).foldl (fun m y => if m.lt y then y else m) (.fin x) = .fin M ∧
      M ∈ x :: xs ∧ ∀ y ∈ x :: xs, y ≤ M := by
  induction xs generalizing x with
  | nil => exact ⟨x, rfl, by simp, by simp⟩
  | cons a as ih =>
    simp only [List.map_cons, List.foldl_cons, fin_lt]
    by_cases h : x < a
    · rw [if_pos h]
      obtain ⟨M, h1, h2, h3⟩ := ih a
      refine ⟨M, h1, List.mem_cons_of_mem _ h2, ?_⟩
      intro y hy
      rcases List.mem_cons.1 hy with rfl | hy
      · exact h.le.trans (h3 a (by simp))
      · exact h3 y hy
    · rw [if_neg h]
      obtain ⟨M, h1, h2, h3⟩ := ih x
      refine ⟨M, h1, ?_, ?_⟩
      · rcases List.mem_cons.1 h2 with rfl | h2
        · simp
        · simp [h2]
      · intro y hy
        rcases List.mem_cons.1 hy with rfl | hy
        · exact h3 _ (by simp)
        · rcases List.mem_cons.1 hy with rfl | hy
          · exact (not_lt.1 h).trans (h3 x (by simp))
          · exact h3 y (by simp [hy])

theorem foldl_min (xs : List ℝ) (x : ℝ) :
    ∃ M, (xs.map Flt.fin).foldl (fun m y => if y.lt m then y else m) (.fin x) = .fin M ∧
      M ∈ x :: xs ∧ ∀ y ∈ x :: xs, M ≤ y := by
  induction xs generalizing x with
  | nil => exact ⟨x, rfl, by simp, by simp⟩
  | cons a as ih =>
    simp only [List.map_cons, List.foldl_cons, fin_lt]
    by_cases h : a < x
    · rw [if_pos h]
      obtain ⟨M, h1, h2, h3⟩ := ih a
      refine ⟨M, h1, List.mem_cons_of_mem _ h2, ?_⟩
      intro y hy
      rcases List.mem_cons.1 hy with rfl | hy
      · exact (h3 a (by simp)).trans h.le
      · exact h3 y hy
    · rw [if_neg h]
      obtain ⟨M, h1, h2, h3⟩ := ih x
      refine ⟨M, h1, ?_, ?_⟩
      · rcases List.mem_cons.1 h2 with rfl | h2
        · simp
        · simp [h2]
      · intro y hy
        rcases List.mem_cons.1 hy with rfl | hy
        · exact h3 _ (by simp)
        · rcases List.mem_cons.1 hy with rfl | hy
          · exact (h3 x (by simp)).trans (not_lt.1 h)
          · exact h3 y (by simp [hy])

theorem pyMax_fin {l : List ℝ} (h : l ≠ []) :
    ∃ M, pyMax (l.map .fin) = .ok (.fin M) ∧ M ∈ l ∧ ∀ y ∈ l, y ≤ M := by
  cases l with
  | nil => exact absurd rfl h
  | cons x xs =>
    obtain ⟨M, h1, h2, h3⟩ := foldl_max xs x
    exact ⟨M, by simp only [List.map_cons, pyMax, h1], h2, h3⟩

theorem pyMin_fin {l : List ℝ} (h : l ≠ []) :
    ∃ M, pyMin (l.map .fin) = .ok (.fin M) ∧ M ∈ l ∧ ∀ y ∈ l, M ≤ y := by
  cases l with
  | nil => exact absurd rfl h
  | cons x xs =>
    obtain ⟨M, h1, h2, h3⟩ := foldl_min xs x
    exact ⟨M, by simp only [List.map_cons, pyMin, h1], h2, h3⟩

/-- What `applyBounds` does to a finite pulse. -/
structure Bounded (lb ub : Option ℝ) (off : ℝ) (raw : List ℝ) (a b : ℝ) : Prop where
  nonneg : 0 ≤ a
  le_one : a ≤ 1
  low : ∀ l ∈ lb, ∀ x ∈ raw, l ≤ a * x + b
  up : ∀ u ∈ ub, ∀ x ∈ raw, a * x + b ≤ u
  fits : (∀ l ∈ lb, ∀ x ∈ raw, l ≤ x + off) → (∀ u ∈ ub, ∀ x ∈ raw, x + off ≤ u) → a = 1 ∧ b = off
  scaled : a ≠ 1 → ∃ l ∈ lb, ∃ u ∈ ub, ∃ x ∈ raw, ∃ y ∈ raw, u - l < y - x
  flat : a = 0 → ∃ l ∈ lb, l ∈ ub

theorem applyBounds_nil {lb ub : Option ℝ} (off : ℝ) (h : lb ≠ none ∨ ub ≠ none) :
    applyBounds (lb.map .fin) (ub.map .fin) off [] = .error .valueError := by
  cases lb <;> cases ub <;> simp_all [applyBounds, pyMax]

theorem applyBounds_fin (lb ub : Option ℝ) (off : ℝ) (raw : List ℝ)
    (hne : raw ≠ [] ∨ (lb = none ∧ ub = none))
    (hlu : ∀ l ∈ lb, ∀ u ∈ ub, l ≤ u) :
    ∃ a b, Bounded lb ub off raw a b ∧
      applyBounds (lb.map .fin) (ub.map .fin) off (raw.map .fin) =
        .ok (raw.map fun x => .fin (a * x + b)) := by
  -- the plain shift
  have shift : ∀ a b : ℝ, a = 1 → b = off →
      (raw.map .fin).map (fun x : Flt => x.add (.fin off)) = raw.map fun x => Flt.fin (a * x + b) := by
    rintro a b rfl rfl; simp
  by_cases hnn : lb = none ∧ ub = none
  · obtain ⟨rfl, rfl⟩ := hnn
    refine ⟨1, off, ⟨by simp, le_refl _, by simp, by simp, by simp, by simp, by simp⟩, ?_⟩
    simp [applyBounds]
  have hraw : raw ≠ [] := hne.resolve_right hnn
  obtain ⟨M, hM1, hM2, hM3⟩ := pyMax_fin hraw
  obtain ⟨m, hm1, hm2, hm3⟩ := pyMin_fin hraw
  have hi : ((lb.map Flt.fin).isNone && (ub.map Flt.fin).isNone) = false := by
    cases lb <;> cases ub <;> simp_all
  unfold applyBounds
  rw [hi, if_neg (by simp), hM1, hm1]
  simp only []
  by_cases hfit : (upOk (ub.map .fin) (.fin M) off && lowOk (lb.map .fin) (.fin m) off) = true
  · rw [if_pos hfit, shift 1 off rfl rfl]
    rw [Bool.and_eq_true] at hfit
    refine ⟨1, off, ⟨by simp, le_refl _, ?_, ?_, by simp, by simp, by simp⟩, rfl⟩
    · intro l hl x hx
      rw [Option.mem_def] at hl; subst hl
      have := hfit.2
      simp [lowOk] at this
      have := hm3 x hx; linarith
    · intro u hu x hx
      rw [Option.mem_def] at hu; subst hu
      have := hfit.1
      simp [upOk] at this
      have := hM3 x hx; linarith
  · rw [if_neg hfit]
    have hnot : (∀ l ∈ lb, ∀ x ∈ raw, l ≤ x + off) → (∀ u ∈ ub, ∀ x ∈ raw, x + off ≤ u) → False := by
      intro h1 h2
      apply hfit
      rw [Bool.and_eq_true]
      constructor
      · cases ub with
        | none => rfl
        | some u => simpa [upOk] using h2 u rfl M hM2
      · cases lb with
        | none => rfl
        | some l => simpa [lowOk] using h1 l rfl m hm2
    cases lb with
    | none =>
      cases ub with
      | none => exact absurd ⟨rfl, rfl⟩ hnn
      | some u =>
        refine ⟨1, u - M, ⟨by simp, le_refl _, by simp, ?_, fun h1 h2 => (hnot h1 h2).elim,
          by simp, by simp⟩, ?_⟩
        · rintro u' hu x hx
          cases hu
          have := hM3 x hx; linarith
        · simp only [Option.map_none, Option.map_some, List.map_map]
          congr 1
          apply List.map_congr_left
          intro x _
          simp; ring
    | some l =>
      cases ub with
      | none =>
        refine ⟨1, l - m, ⟨by simp, le_refl _, ?_, by simp, fun h1 h2 => (hnot h1 h2).elim,
          by simp, by simp⟩, ?_⟩
        · rintro u' hu x hx
          cases hu
          have := hm3 x hx; linarith
        · simp only [Option.map_none, Option.map_some, List.map_map]
          congr 1
          apply List.map_congr_left
          intro x _
          simp; ring
      | some u =>
        have hlu' : l ≤ u := hlu l rfl u rfl
        simp only [Option.map_some, fin_sub, fin_lt]
        by_cases hr : u - l < M - m
        · rw [if_pos hr]
          have hpos : 0 < M - m := by linarith
          have hne0 : M - m ≠ 0 := hpos.ne'
          have hmap : (raw.map Flt.fin).map (fun x : Flt => (x.mul (.fin (u - l))).div (.fin (M - m))) =
              (raw.map fun x => x * (u - l) / (M - m)).map Flt.fin := by
            simp only [List.map_map]
            apply List.map_congr_left
            intro x _
            simp [fin_div hne0]
          rw [hmap]
          obtain ⟨m', h1', h2', h3'⟩ := pyMin_fin (l := raw.map fun x => x * (u - l) / (M - m))
            (by simpa using hraw)
          rw [h1']
          have hm' : m' = m * (u - l) / (M - m) := by
            apply le_antisymm
            · exact h3' _ (List.mem_map.2 ⟨m, hm2, rfl⟩)
            · obtain ⟨x, hx, rfl⟩ := List.mem_map.1 h2'
              have := hm3 x hx
              gcongr
          have ha0 : 0 ≤ (u - l) / (M - m) := div_nonneg (by linarith) hpos.le
          refine ⟨(u - l) / (M - m), l - (u - l) / (M - m) * m, ⟨ha0, ?_, ?_, ?_, fun h1 h2 => (hnot h1 h2).elim,
            ?_, ?_⟩, ?_⟩
          · rw [div_le_one hpos]; exact hr.le
          · rintro l' hl x hx
            cases hl
            have h := mul_le_mul_of_nonneg_left (hm3 x hx) ha0
            linarith
          · rintro u' hu x hx
            cases hu
            have h := mul_le_mul_of_nonneg_left (hM3 x hx) ha0
            have h2 : (u - l) / (M - m) * M - (u - l) / (M - m) * m = u - l := by
              field_simp
            linarith
          · intro _
            exact ⟨l, rfl, u, rfl, m, hm2, M, hM2, hr⟩
          · intro h0
            rw [div_eq_zero_iff] at h0
            have : u = l := by rcases h0 with h0 | h0 <;> linarith
            exact ⟨l, rfl, by rw [this]; rfl⟩
          · simp only [List.map_map]
            congr 1
            apply List.map_congr_left
            intro x _
            simp [hm']; ring
        · rw [if_neg hr, hm1]
          refine ⟨1, l - m, ⟨by simp, le_refl _, ?_, ?_, fun h1 h2 => (hnot h1 h2).elim,
            by simp, by simp⟩, ?_⟩
          · rintro l' hl x hx
            cases hl
            have := hm3 x hx; linarith
          · rintro u' hu x hx
            cases hu
            have := hM3 x hx; linarith
          · simp only [List.map_map]
            congr 1
            apply List.map_congr_left
            intro x _
            simp; ring

/-! ### Sampling loops -/

theorem sampleLoop_ok {α : Type} (f : ℝ → α) (n : ℕ) (t : ℝ) (tau : List ℝ) (h : n ≤ tau.length) :
    ∃ l, sampleLoop f n t tau = .ok l ∧ l.length = n ∧
      ∀ k, k < n → l[k]? = some (f (t + (tau.take k).sum)) := by
  induction n generalizing t tau with
  | zero => exact ⟨[], rfl, rfl, fun k hk => absurd hk (by omega)⟩
  | succ n ih =>
    cases tau with
    | nil => simp at h
    | cons d ds =>
      obtain ⟨l, h1, h2, h3⟩ := ih (t + d) ds (by simpa using h)
      refine ⟨f t :: l, by simp only [sampleLoop, h1], by simp [h2], ?_⟩
      intro k hk
      cases k with
      | zero => simp
      | succ k =>
        rw [List.getElem?_cons_succ, h3 k (by omega)]
        simp [add_assoc]

theorem sampleLoop_error {α : Type} (f : ℝ → α) (n : ℕ) (t : ℝ) (tau : List ℝ) (h : tau.length < n) :
    sampleLoop f n t tau = .error .indexError := by
  induction n generalizing t tau with
  | zero => simp at h
  | succ n ih =>
    cases tau with
    | nil => rfl
    | cons d ds => simp only [sampleLoop, ih (t + d) ds (by simpa using h)]

theorem timeLoop_ok (n : ℕ) (t : ℝ) (tau : List ℝ) (h : n ≤ tau.length + 1) :
    ∃ l, timeLoop n t tau = .ok l ∧ l.length = n ∧
      ∀ k, k < n → l[k]? = some (t + (tau.take k).sum) := by
  induction n generalizing t tau with
  | zero => exact ⟨[], rfl, rfl, fun k hk => absurd hk (by omega)⟩
  | succ n ih =>
    cases n with
    | zero => exact ⟨[t], rfl, rfl, fun k hk => by
        have : k = 0 := by omega
        subst this; simp⟩
    | succ n =>
      cases tau with
      | nil => simp at h
      | cons d ds =>
        obtain ⟨l, h1, h2, h3⟩ := ih (t + d) ds (by simpa using h)
        refine ⟨t :: l, by simp only [timeLoop, h1], by simp [h2], ?_⟩
        intro k hk
        cases k with
        | zero => simp
        | succ k =>
          rw [List.getElem?_cons_succ, h3 k (by omega)]
          simp [add_assoc]

end QTrl.Pulse
