import Verif.Model.GrapePlot

/-
Helpers about the loops of `plot_grape_control_fields`.
-/

namespace QTrl.Grape

theorem foldlM_range_succ {σ : Type} (f : σ → Nat → Except PyErr σ) (n : Nat) (s : σ) :
    (List.range (n + 1)).foldlM f s = (List.range n).foldlM f s >>= fun s => f s n := by
  rw [List.range_succ, List.foldlM_append]
  simp

theorem foldlM_step {σ : Type} (f : σ → Nat → Except PyErr σ) {n : Nat} {s s' : σ}
    (h : (List.range n).foldlM f s = .ok s') {k : Nat} (hk : k < n) :
    ∃ s1 s2, f s1 k = .ok s2 := by
  induction n generalizing s' with
  | zero => omega
  | succ n ih =>
    rw [foldlM_range_succ] at h
    generalize h1 : (List.range n).foldlM f s = x at h
    rcases x with e | s1
    · cases h
    · rcases Nat.lt_or_ge k n with hlt | hge
      · exact ih h1 hlt
      · obtain rfl : k = n := by omega
        exact ⟨s1, s', h⟩

theorem foldlM_pure {σ : Type} (f : σ → Nat → Except PyErr σ) (g : Nat → σ → σ) {n : Nat}
    (h : ∀ k, k < n → ∀ s, f s k = .ok (g k s)) (s : σ) :
    (List.range n).foldlM f s = .ok (forRange n g s) := by
  induction n with
  | zero => rfl
  | succ n ih =>
    rw [foldlM_range_succ, ih fun k hk => h k (by omega)]
    show f _ n = _
    rw [h n (by omega), forRange, forRange, List.range_succ, List.foldl_append]
    rfl

theorem forRange_succ' {σ : Type} (n : Nat) (g : Nat → σ → σ) (s : σ) :
    forRange (n + 1) g s = g n (forRange n g s) := by
  rw [forRange, forRange, List.range_succ, List.foldl_append]
  rfl

/-- What a pass does to an axis if nothing is raised. -/
noncomputable def PlotArgs.drawn (a : PlotArgs) (y : ℝ) (r j : Nat) (ax : Axis) : Axis :=
  { ylabel := if r = a.R - 1 then a.labels[j]? else ax.ylabel
    xlabel := if r = a.R - 1 then some "$t$" else ax.xlabel
    xlim := if r = a.R - 1 then some (0, a.times.getLastD 0) else ax.xlim
    ylim := if a.uniform then some (-y, y) else ax.ylim
    lines := ax.lines ++ [⟨a.times, (List.range a.M).map (a.u r j),
      if r = a.R - 1 then 2.0 else 0.5, if r = a.R - 1 then "k" else "b",
      if r = a.R - 1 then 1.0 else 0.25⟩] }

theorem draw_eq (a : PlotArgs) (hM : 0 < a.M) (ht : a.times.length = a.M)
    (hl : a.J ≤ a.labels.length) (y : ℝ) (r j : Nat) (hj : j < a.J) (ax : Axis) :
    a.draw y r j ax = .ok (a.drawn y r j ax) := by
  have h1 : a.labels[j]? = some a.labels[j] := List.getElem?_eq_getElem (by omega)
  have h2 : a.times.getLast? = some (a.times.getLastD 0) := by
    cases h : a.times with
    | nil => rw [h] at ht; simp at ht; omega
    | cons x xs => rw [List.getLast?_cons]; cases xs <;> rfl
  unfold PlotArgs.draw PlotArgs.drawn
  rw [h1, h2]
  by_cases hr : r = a.R - 1 <;> by_cases hu : a.uniform = true <;>
    simp only [hr, hu, ht, ne_eq, not_true_eq_false, if_true, if_false,
      Bool.false_eq_true]

theorem draw_ok (a : PlotArgs) {y : ℝ} {r j : Nat} {ax ax' : Axis} (h : a.draw y r j ax = .ok ax') :
    a.times.length = a.M ∧ (r = a.R - 1 → j < a.labels.length) := by
  unfold PlotArgs.draw at h
  by_cases hr : r = a.R - 1
  · simp only [if_pos hr] at h
    cases hl : a.labels[j]? with
    | none => rw [hl] at h; cases h
    | some l =>
      rw [hl] at h
      cases ht : a.times.getLast? with
      | none => rw [ht] at h; cases h
      | some t =>
        rw [ht] at h
        by_cases hn : a.times.length = a.M
        · refine ⟨hn, fun _ => ?_⟩
          by_contra hge
          rw [List.getElem?_eq_none (by omega)] at hl
          cases hl
        · simp only [ne_eq, hn, not_false_eq_true, if_true] at h
          cases h
  · simp only [if_neg hr] at h
    by_cases hn : a.times.length = a.M
    · exact ⟨hn, fun h' => absurd h' hr⟩
    · simp only [ne_eq, hn, not_false_eq_true, if_true] at h
      cases h

/-- Passing over the entries of a list. -/
theorem pass_get (g : Nat → Axis → Axis) (n : Nat) (l : List Axis) :
    (forRange n (fun j l => l.set j (g j (l.getD j Axis.new))) l).length = l.length ∧
    ∀ j, (forRange n (fun j l => l.set j (g j (l.getD j Axis.new))) l)[j]? =
      if j < n then l[j]?.map (g j) else l[j]? := by
  induction n with
  | zero => exact ⟨rfl, fun j => by simp [forRange]⟩
  | succ n ih =>
    obtain ⟨h1, h2⟩ := ih
    rw [forRange_succ']
    refine ⟨by rw [List.length_set, h1], fun j => ?_⟩
    rw [List.getElem?_set]
    by_cases hj : n = j
    · subst hj
      simp only [if_true, Nat.lt_succ_self]
      rw [h1]
      by_cases hl : n < l.length
      · rw [if_pos hl, List.getD_eq_getElem?_getD, h2 n, if_neg (lt_irrefl n),
          List.getElem?_eq_getElem hl]
        rfl
      · rw [if_neg hl, List.getElem?_eq_none (by omega)]
        rfl
    · rw [if_neg hj, h2 j]
      by_cases hlt : j < n
      · rw [if_pos hlt, if_pos (by omega)]
      · rw [if_neg hlt, if_neg (by omega)]

/-- The axes after `n` passes. -/
theorem passes_get (a : PlotArgs) (y : ℝ) (n : Nat) :
    (forRange n (fun r l => forRange a.J (fun j l => l.set j (a.drawn y r j (l.getD j Axis.new))) l)
      (List.replicate a.J Axis.new)).length = a.J ∧
    ∀ j, j < a.J →
      (forRange n (fun r l => forRange a.J (fun j l => l.set j (a.drawn y r j (l.getD j Axis.new))) l)
        (List.replicate a.J Axis.new))[j]? =
      some (forRange n (fun r ax => a.drawn y r j ax) Axis.new) := by
  induction n with
  | zero =>
    refine ⟨List.length_replicate, fun j hj => ?_⟩
    show (List.replicate a.J Axis.new)[j]? = _
    rw [List.getElem?_replicate, if_pos hj]
    rfl
  | succ n ih =>
    obtain ⟨h1, h2⟩ := ih
    rw [forRange_succ']
    obtain ⟨p1, p2⟩ := pass_get (a.drawn y n) a.J (forRange n (fun r l => forRange a.J
      (fun j l => l.set j (a.drawn y r j (l.getD j Axis.new))) l) (List.replicate a.J Axis.new))
    refine ⟨p1.trans h1, fun j hj => ?_⟩
    rw [p2 j, if_pos hj, h2 j hj, forRange_succ']
    rfl

theorem loops_eq (a : PlotArgs) (hM : 0 < a.M) (ht : a.times.length = a.M)
    (hl : a.J ≤ a.labels.length) (y : ℝ) :
    a.loops y = .ok (forRange a.R (fun r l => forRange a.J
      (fun j l => l.set j (a.drawn y r j (l.getD j Axis.new))) l) (List.replicate a.J Axis.new)) := by
  unfold PlotArgs.loops
  refine foldlM_pure _ _ (fun r _ l => ?_) _
  refine foldlM_pure _ _ (fun j hj l => ?_) _
  simp only [draw_eq a hM ht hl y r j hj]

/-- An axis after `n` passes. -/
theorem axis_get (a : PlotArgs) (y : ℝ) (j n : Nat) (hn : n ≤ a.R) :
    let ax := forRange n (fun r ax => a.drawn y r j ax) Axis.new
    ax.lines = (List.range n).map (fun r => (⟨a.times, (List.range a.M).map (a.u r j),
      if r = a.R - 1 then 2.0 else 0.5, if r = a.R - 1 then "k" else "b",
      if r = a.R - 1 then 1.0 else 0.25⟩ : Line)) ∧
    (0 < n → ax.ylim = if a.uniform then some (-y, y) else none) ∧
    (a.uniform = false → ax.ylim = none) ∧
    (0 < n → n = a.R → ax.ylabel = a.labels[j]? ∧ ax.xlabel = some "$t$" ∧
      ax.xlim = some (0, a.times.getLastD 0)) := by
  induction n with
  | zero =>
    refine ⟨rfl, fun h => absurd h (lt_irrefl 0), fun _ => rfl, fun h => absurd h (lt_irrefl 0)⟩
  | succ n ih =>
    obtain ⟨h1, h2, h3, -⟩ := ih (by omega)
    intro ax
    have hax : ax = a.drawn y n j (forRange n (fun r ax => a.drawn y r j ax) Axis.new) :=
      forRange_succ' _ _ _
    generalize forRange n (fun r ax => a.drawn y r j ax) Axis.new = ax' at h1 h2 h3 hax
    have hyl : ax.ylim = if a.uniform then some (-y, y) else none := by
      rw [hax]
      unfold PlotArgs.drawn
      by_cases hu : a.uniform = true
      · simp only [hu, if_true]
      · have hu' : a.uniform = false := by simpa using hu
        simp only [hu', Bool.false_eq_true, if_false]
        exact h3 hu'
    refine ⟨?_, fun _ => hyl, fun hu => by rw [hyl, hu]; rfl, fun _ hR => ?_⟩
    · rw [hax]
      unfold PlotArgs.drawn
      simp only
      rw [h1, List.range_succ, List.map_append]
      rfl
    · have : n = a.R - 1 := by omega
      rw [hax]
      unfold PlotArgs.drawn
      simp only [if_pos this]
      exact ⟨trivial, trivial, trivial⟩

theorem foldl_max (x : ℝ) (xs : List ℝ) :
    xs.foldl max x ∈ x :: xs ∧ ∀ z ∈ x :: xs, z ≤ xs.foldl max x := by
  induction xs generalizing x with
  | nil => exact ⟨by simp, by simp⟩
  | cons z zs ih =>
    obtain ⟨h1, h2⟩ := ih (max x z)
    rw [List.foldl_cons]
    refine ⟨?_, ?_⟩
    · rcases List.mem_cons.1 h1 with h | h
      · rw [h]
        rcases max_choice x z with e | e <;> rw [e] <;> simp
      · simp [h]
    · intro w hw
      have h3 := h2 (max x z) (by simp)
      rcases List.mem_cons.1 hw with h | h
      · rw [h]; exact (le_max_left _ _).trans h3
      · rcases List.mem_cons.1 h with h | h
        · rw [h]; exact (le_max_right _ _).trans h3
        · exact h2 w (by simp [h])

theorem mem_entries (a : PlotArgs) (x : ℝ) :
    x ∈ a.entries ↔ ∃ r j m, r < a.R ∧ j < a.J ∧ m < a.M ∧ a.u r j m = x := by
  unfold PlotArgs.entries
  simp only [List.mem_flatMap, List.mem_map, List.mem_range]
  constructor
  · rintro ⟨r, hr, j, hj, m, hm, h⟩
    exact ⟨r, j, m, hr, hj, hm, h⟩
  · rintro ⟨r, j, m, hr, hj, hm, h⟩
    exact ⟨r, hr, j, hj, m, hm, h⟩

theorem yMax_ok (a : PlotArgs) {y : ℝ} (h : a.yMax = .ok y) :
    (∃ r j m, r < a.R ∧ j < a.J ∧ m < a.M ∧ |a.u r j m| = y) ∧
    ∀ r j m, r < a.R → j < a.J → m < a.M → |a.u r j m| ≤ y := by
  unfold PlotArgs.yMax at h
  have hm : ∀ z, z ∈ a.entries.map abs ↔
      ∃ r j m, r < a.R ∧ j < a.J ∧ m < a.M ∧ |a.u r j m| = z := fun z => by
    rw [List.mem_map]
    constructor
    · rintro ⟨x, hx, rfl⟩
      obtain ⟨r, j, m, hr, hj, hm, rfl⟩ := (mem_entries a x).1 hx
      exact ⟨r, j, m, hr, hj, hm, rfl⟩
    · rintro ⟨r, j, m, hr, hj, hm, rfl⟩
      exact ⟨_, (mem_entries a _).2 ⟨r, j, m, hr, hj, hm, rfl⟩, rfl⟩
  generalize a.entries.map abs = l at h hm
  cases l with
  | nil => cases h
  | cons x xs =>
    simp only at h
    injection h with h
    subst h
    obtain ⟨h1, h2⟩ := foldl_max x xs
    exact ⟨(hm _).1 h1, fun r j m hr hj hmm => h2 _ ((hm _).2 ⟨r, j, m, hr, hj, hmm, rfl⟩)⟩

theorem yMax_exists (a : PlotArgs) (hR : 0 < a.R) (hJ : 0 < a.J) (hM : 0 < a.M) :
    ∃ y, a.yMax = .ok y := by
  have : a.u 0 0 0 ∈ a.entries := (mem_entries a _).2 ⟨0, 0, 0, hR, hJ, hM, rfl⟩
  unfold PlotArgs.yMax
  cases h : a.entries with
  | nil => rw [h] at this; cases this
  | cons x xs => exact ⟨_, rfl⟩

/-- What a step line shows between two points. -/
theorem shown_slot (xs ys : List ℝ) (w : ℝ) (c : String) (al : ℝ) (hl : ys.length = xs.length)
    (hs : xs.SortedLT) (k : Nat) (hk : k + 1 < xs.length) (t : ℝ) (h1 : xs.getD k 0 < t)
    (h2 : t ≤ xs.getD (k + 1) 0) :
    (Line.mk xs ys w c al).shown t = ys[k + 1]? := by
  have hp : ∀ i, i < xs.length → xs[i]? = some (xs.getD i 0) := fun i hi => by
    rw [List.getD_eq_getElem?_getD, List.getElem?_eq_getElem hi]; rfl
  have hmono : ∀ i j, i ≤ j → j < xs.length → xs.getD i 0 ≤ xs.getD j 0 := fun i j hij hj => by
    rw [List.getD_eq_getElem?_getD, List.getD_eq_getElem?_getD, List.getElem?_eq_getElem hj,
      List.getElem?_eq_getElem (by omega)]
    simp only [Option.getD_some]
    rcases Nat.lt_or_ge i j with h | h
    · exact (hs.getElem_lt_getElem_of_lt h).le
    · obtain rfl : i = j := by omega
      exact le_refl _
  have hhead : xs.headD 0 = xs.getD 0 0 := by cases xs <;> rfl
  unfold Line.shown
  simp only
  rw [if_neg (by rw [hhead]; have := hmono 0 k (Nat.zero_le k) (by omega); linarith)]
  have hz : ∀ i (hi : i < (xs.zip ys).length), ((xs.zip ys)[i]).1 = xs.getD i 0 := fun i hi => by
    have hi' : i < xs.length := by rw [List.length_zip] at hi; omega
    rw [List.getElem_zip, List.getD_eq_getElem?_getD, List.getElem?_eq_getElem hi']
    rfl
  have hlen : k + 1 < (xs.zip ys).length := by rw [List.length_zip]; omega
  have hf : (xs.zip ys).find? (fun p => decide (t ≤ p.1)) = some ((xs.zip ys)[k + 1]) := by
    rw [List.find?_eq_some_iff_getElem]
    refine ⟨by rw [hz]; simpa using h2, k + 1, hlen, rfl, fun i hi => ?_⟩
    have h3 := hmono i k (by omega) (by omega)
    have := hz i (by omega)
    simp only [this, Bool.not_eq_true', decide_eq_false_iff_not, not_le]
    linarith
  rw [hf, List.getElem_zip, List.getElem?_eq_getElem (by omega)]
  rfl

end QTrl.Grape
