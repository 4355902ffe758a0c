import Verif.Proofs.GrapePlot
import Verif.Props.Grape

/-
C76: the plot of GRAPE control fields.
-/

namespace QTrl.Grape

/-- The plot is made exactly if there is something to plot, as many times as amplitudes and a
label for every control. -/
theorem C76_accepts (a : PlotArgs) :
    (∃ axes, a.plot = .ok axes) ↔
      0 < a.R ∧ 0 < a.J ∧ 0 < a.M ∧ a.times.length = a.M ∧ a.J ≤ a.labels.length := by
  constructor
  · rintro ⟨axes, h⟩
    unfold PlotArgs.plot at h
    by_cases hJ : a.J = 0
    · rw [if_pos hJ] at h; cases h
    rw [if_neg hJ] at h
    cases hy : a.yMax with
    | error e => rw [hy] at h; cases h
    | ok y =>
      rw [hy] at h
      simp only at h
      obtain ⟨⟨r, j, m, hr, hj, hm, -⟩, -⟩ := yMax_ok a hy
      obtain ⟨s1, s2, h1⟩ := foldlM_step _ h (show a.R - 1 < a.R by omega)
      obtain ⟨l1, l2, h2⟩ := foldlM_step _ h1 (show a.J - 1 < a.J by omega)
      cases hd : a.draw y (a.R - 1) (a.J - 1) (l1.getD (a.J - 1) Axis.new) with
      | error e => rw [hd] at h2; cases h2
      | ok ax =>
        obtain ⟨h3, h4⟩ := draw_ok a hd
        have := h4 rfl
        exact ⟨by omega, by omega, by omega, h3, by omega⟩
  · rintro ⟨hR, hJ, hM, ht, hl⟩
    obtain ⟨y, hy⟩ := yMax_exists a hR hJ hM
    refine ⟨_, Eq.trans ?_ (loops_eq a hM ht hl y)⟩
    unfold PlotArgs.plot
    rw [if_neg (by omega), hy]

/-- The axes returned, in terms of the passes. -/
theorem plot_ok (a : PlotArgs) {axes : List Axis} (h : a.plot = .ok axes) :
    ∃ y, a.yMax = .ok y ∧ axes.length = a.J ∧
      ∀ j, j < a.J → axes[j]? = some (forRange a.R (fun r ax => a.drawn y r j ax) Axis.new) := by
  obtain ⟨hR, hJ, hM, ht, hl⟩ := (C76_accepts a).1 ⟨axes, h⟩
  obtain ⟨y, hy⟩ := yMax_exists a hR hJ hM
  refine ⟨y, hy, ?_⟩
  unfold PlotArgs.plot at h
  rw [if_neg (by omega), hy] at h
  simp only at h
  rw [loops_eq a hM ht hl y] at h
  injection h with h
  subst h
  exact passes_get a y a.R

/-- There is one axis per control, with the control's label, the times from zero to the last
on the horizontal axis, and one line per iteration, in order, through the amplitudes of that
iteration over the times; only the last is drawn thick, black and opaque. -/
theorem C76_draws (a : PlotArgs) {axes : List Axis} (h : a.plot = .ok axes) :
    axes.length = a.J ∧ ∀ j, j < a.J → ∃ ax t, axes[j]? = some ax ∧
      a.times.getLast? = some t ∧ ax.xlim = some (0, t) ∧ ax.xlabel = some "$t$" ∧
      (∃ s, a.labels[j]? = some s ∧ ax.ylabel = some s) ∧ ax.lines.length = a.R ∧
      ∀ r, r < a.R → ∃ l, ax.lines[r]? = some l ∧ l.xs = a.times ∧ l.ys.length = a.M ∧
        (∀ m, m < a.M → l.ys[m]? = some (a.u r j m)) ∧
        (r + 1 = a.R → l.width = 2 ∧ l.color = "k" ∧ l.alpha = 1) ∧
        (r + 1 ≠ a.R → l.width = 1 / 2 ∧ l.color = "b" ∧ l.alpha = 1 / 4) := by
  obtain ⟨hR, hJ, hM, ht, hl⟩ := (C76_accepts a).1 ⟨axes, h⟩
  obtain ⟨y, hy, h1, h2⟩ := plot_ok a h
  refine ⟨h1, fun j hj => ?_⟩
  obtain ⟨g1, -, -, g4⟩ := axis_get a y j a.R (le_refl _)
  obtain ⟨g5, g6, g7⟩ := g4 hR rfl
  refine ⟨_, a.times.getLastD 0, h2 j hj, ?_, g7, g6, ⟨a.labels[j], ?_, ?_⟩, ?_, fun r hr => ?_⟩
  · cases h : a.times with
    | nil => rw [h] at ht; simp at ht; omega
    | cons x xs => rw [List.getLast?_cons]; cases xs <;> rfl
  · exact List.getElem?_eq_getElem (by omega)
  · rw [g5]; exact List.getElem?_eq_getElem (by omega)
  · rw [g1]; simp
  · refine ⟨_, by rw [g1, List.getElem?_map, List.getElem?_range hr]; rfl, rfl, by simp,
      fun m hm => ?_, fun hr' => ?_, fun hr' => ?_⟩
    · show ((List.range a.M).map (a.u r j))[m]? = _
      rw [List.getElem?_map, List.getElem?_range hm]
      rfl
    · simp only [show r = a.R - 1 by omega, if_true]
      norm_num
    · simp only [show ¬ r = a.R - 1 by omega, if_false]
      norm_num

/-- With uniform axes all axes have the same scale, symmetric about zero, up to the largest
magnitude of all amplitudes, so that every point lies within; otherwise none is set. -/
theorem C76_scale (a : PlotArgs) {axes : List Axis} (h : a.plot = .ok axes) :
    (a.uniform = true → ∃ y, (∀ j, j < a.J → ∃ ax, axes[j]? = some ax ∧ ax.ylim = some (-y, y)) ∧
      (∃ r j m, r < a.R ∧ j < a.J ∧ m < a.M ∧ |a.u r j m| = y) ∧
      ∀ r j m, r < a.R → j < a.J → m < a.M → -y ≤ a.u r j m ∧ a.u r j m ≤ y) ∧
    (a.uniform = false → ∀ ax ∈ axes, ax.ylim = none) := by
  obtain ⟨hR, hJ, hM, ht, hl⟩ := (C76_accepts a).1 ⟨axes, h⟩
  obtain ⟨y, hy, h1, h2⟩ := plot_ok a h
  obtain ⟨y1, y2⟩ := yMax_ok a hy
  refine ⟨fun hu => ⟨y, fun j hj => ⟨_, h2 j hj, ?_⟩, y1, fun r j m hr hj hm =>
    abs_le.1 (y2 r j m hr hj hm)⟩, fun hu ax hax => ?_⟩
  · obtain ⟨-, g2, -, -⟩ := axis_get a y j a.R (le_refl _)
    rw [g2 hR, hu]
    rfl
  · obtain ⟨j, hj, rfl⟩ := List.getElem_of_mem hax
    have := h2 j (by omega)
    rw [List.getElem?_eq_getElem hj] at this
    injection this with this
    rw [this]
    exact (axis_get a y j a.R (le_refl _)).2.2.1 hu

/-- During slot `k`, from time `k` to the next, every line shows the amplitude of slot
`k + 1`. -/
theorem C76_shown (a : PlotArgs) {axes : List Axis} (h : a.plot = .ok axes)
    (hs : a.times.SortedLT) (r j k : Nat) (hr : r < a.R) (hj : j < a.J) (hk : k + 1 < a.M) (t : ℝ)
    (h1 : a.times.getD k 0 < t) (h2 : t ≤ a.times.getD (k + 1) 0) :
    ∃ ax l, axes[j]? = some ax ∧ ax.lines[r]? = some l ∧ l.shown t = some (a.u r j (k + 1)) := by
  obtain ⟨-, -, -, ht, -⟩ := (C76_accepts a).1 ⟨axes, h⟩
  obtain ⟨-, g⟩ := C76_draws a h
  obtain ⟨ax, -, g1, -, -, -, -, -, g2⟩ := g j hj
  obtain ⟨l, g3, g4, g5, g6, -⟩ := g2 r hr
  refine ⟨ax, l, g1, g3, ?_⟩
  rw [← g6 (k + 1) hk]
  obtain ⟨xs, ys, w, c, al⟩ := l
  simp only at g4 g5
  subst g4
  exact shown_slot _ ys w c al (by omega) hs k (by omega) t h1 h2

/-- So it shows the amplitude GRAPE uses in the slot where that is the same as in the next.

Missing: it is also shown where the amplitude changes (`C76_violated`). -/
theorem C76_shown_partial (a : PlotArgs) {axes : List Axis} (h : a.plot = .ok axes)
    (hs : a.times.SortedLT) (r j k : Nat) (hr : r < a.R) (hj : j < a.J) (hk : k + 1 < a.M) (t : ℝ)
    (h1 : a.times.getD k 0 < t) (h2 : t ≤ a.times.getD (k + 1) 0)
    (he : a.u r j (k + 1) = a.u r j k) :
    ∃ ax l, axes[j]? = some ax ∧ ax.lines[r]? = some l ∧ l.shown t = some (a.u r j k) := by
  obtain ⟨ax, l, g1, g2, g3⟩ := C76_shown a h hs r j k hr hj hk t h1 h2
  exact ⟨ax, l, g1, g2, by rw [g3, he]⟩

/-- The times at which a slot is drawn are inside the axis, which goes from one limit to the other
(backwards if the second is smaller), exactly if they are not negative. -/
theorem C76_window (a : PlotArgs) {axes : List Axis} (h : a.plot = .ok axes)
    (hs : a.times.SortedLT) (j k : Nat) (hj : j < a.J) (hk : k + 1 < a.M) (t : ℝ)
    (h2 : t < a.times.getD (k + 1) 0) :
    ∃ ax lo hi, axes[j]? = some ax ∧ ax.xlim = some (lo, hi) ∧ (t ∈ Set.uIcc lo hi ↔ 0 ≤ t) := by
  obtain ⟨-, -, -, ht, -⟩ := (C76_accepts a).1 ⟨axes, h⟩
  obtain ⟨-, g⟩ := C76_draws a h
  obtain ⟨ax, e, g1, g2, g3, -⟩ := g j hj
  suffices hle : a.times.getD (k + 1) 0 ≤ e by
    refine ⟨ax, 0, e, g1, g3, ?_⟩
    rw [Set.mem_uIcc]
    constructor
    · rintro (h | h)
      · exact h.1
      · linarith [h.1]
    · exact fun h => .inl ⟨h, by linarith⟩
  have hlen : k + 1 < a.times.length := by omega
  rw [List.getLast?_eq_getElem?] at g2
  have hl : a.times.length - 1 < a.times.length := by omega
  rw [List.getElem?_eq_getElem hl] at g2
  injection g2 with g2
  rw [← g2, List.getD_eq_getElem?_getD, List.getElem?_eq_getElem hlen, Option.getD_some]
  exact hs.strictMono_get.monotone (a := ⟨k + 1, hlen⟩) (b := ⟨_, hl⟩)
    (by change k + 1 ≤ a.times.length - 1; omega)

/-- Times before zero. -/
noncomputable def early : PlotArgs :=
  { times := [-3, -2, -1], R := 1, J := 1, M := 3, u := fun _ _ m => m, labels := ["x"]
    uniform := false }

/-- Times need not start at zero for GRAPE, but the plot always does: a pulse from time -3 to time -1
lies outside of the axis, which goes from 0 to -1. -/
theorem C76_violated_window : ∃ axes, early.plot = .ok axes ∧ early.times.SortedLT ∧
    ∃ ax, axes[0]? = some ax ∧ ax.xlim = some ((0 : ℝ), (-1 : ℝ)) ∧
      ∀ t ∈ Set.Ico (-3 : ℝ) (-1), t ∉ Set.uIcc (0 : ℝ) (-1) := by
  obtain ⟨axes, h⟩ := (C76_accepts early).2
    ⟨Nat.one_pos, Nat.one_pos, by norm_num [early], rfl, le_refl 1⟩
  obtain ⟨-, g⟩ := C76_draws early h
  obtain ⟨ax, e, g1, g2, g3, -⟩ := g 0 Nat.one_pos
  have he : e = -1 := by
    simp only [early, List.getLast?_cons_cons, List.getLast?_singleton, Option.some.injEq] at g2
    exact g2.symm
  subst he
  refine ⟨axes, h, ?_, ax, g1, g3, fun t ht h0 => ?_⟩
  swap
  · rcases Set.mem_uIcc.1 h0 with h0 | h0 <;> linarith [ht.2, h0.1]
  simp only [early, List.sortedLT_iff_pairwise]
  norm_num

/-- A run of GRAPE that starts from the amplitudes 0, 1, 1 and has step size zero. -/
noncomputable def steps : Args Unit :=
  { target := 1, h0 := 0, hOps := [1], nIter := 2, times := [0, 1, 2], eps := some 0
    uStart := some (.list [.vec [0, 1, 1]]), startInt := false, uLimits := none, useInterp := false
    alpha := none, beta := none, phaseSensitive := true, expm := NormedSpace.exp
    interp := fun _ _ _ => 0 }

/-- Its plot. -/
noncomputable def stepsPlot (res : Result Unit) : PlotArgs :=
  { times := steps.times, u := res.u, R := steps.nIter, J := steps.J, M := steps.M
    labels := ["a"], uniform := true }

theorem steps_run (i : Impl) :
    ∃ res, steps.run i = .ok res ∧ res.u 0 0 0 = 0 ∧ res.u 0 0 1 = 1 ∧ res.u 1 0 0 = 0 ∧
      res.u 1 0 1 = 1 := by
  have hi : steps.init none = .ok (fun r j m => if r = 0 ∧ j = 0 then [0, 1, 1].getD m 0 else 0) :=
    rfl
  have h := run_eq steps i 0 none _ rfl rfl hi (le_refl 2) (by norm_num [Args.M, steps])
  obtain ⟨h0, h1, -⟩ := loop_spec steps i 0 none (by norm_num [Args.M, steps])
    (fun r j m => if r = 0 ∧ j = 0 then [0, 1, 1].getD m 0 else 0) (steps.nIter - 1)
  have e0 : ∀ m, (steps.final i 0 none fun r j m =>
      if r = 0 ∧ j = 0 then [0, 1, 1].getD m 0 else 0).u 0 0 m = [0, 1, 1].getD m 0 := fun m =>
    congrFun (congrFun h0 0) m
  refine ⟨_, h, e0 0, e0 1, ?_, ?_⟩
  · refine (h1 0 (by norm_num [steps]) 0 0 Nat.one_pos (by norm_num [Args.M, steps])).trans ?_
    have : min 0 (steps.M - 2) = 0 := by simp
    rw [this]
    have e := e0 0
    unfold Args.final at e
    rw [e]
    cases i <;> simp [Args.newVal, clipElif]
  · refine (h1 0 (by norm_num [steps]) 0 1 Nat.one_pos (by norm_num [Args.M, steps])).trans ?_
    have : min 1 (steps.M - 2) = 1 := rfl
    rw [this]
    have e := e0 1
    unfold Args.final at e
    rw [e]
    cases i <;> simp [Args.newVal, clipElif]

/-- The plot shows every amplitude one slot too early: `step` is called without `where`, so
each amplitude is drawn up to its time, while GRAPE applies it from its time on.  A run that
applies 0 in the first and 1 in the second slot, as the returned propagator shows, is drawn as
1 throughout; the amplitude of the first slot is not drawn at all. -/
theorem C76_violated (i : Impl) :
    ∃ res axes, steps.run i = .ok res ∧ (stepsPlot res).plot = .ok axes ∧
      res.ht 0 0 = 0 ∧ res.ht 0 1 = 1 ∧
      res.uf = Spec.Grape.propagator steps.expm steps.h0 steps.hOps steps.dt (res.u 0) 2 ∧
      res.u 0 0 0 = 0 ∧ res.u 0 0 1 = 1 ∧
      ∀ r, r < 2 → ∀ t : ℝ, 0 < t → t ≤ 1 → ∃ ax l, axes[0]? = some ax ∧ ax.lines[r]? = some l ∧
        l.shown t = some 1 := by
  obtain ⟨res, h, h1, h2, h3, h4⟩ := steps_run i
  obtain ⟨axes, hp⟩ := (C76_accepts (stepsPlot res)).2
    ⟨by norm_num [stepsPlot, steps], Nat.one_pos, by norm_num [stepsPlot, steps, Args.M], rfl,
      le_refl 1⟩
  have hx : steps.Exact := fun h => by simp [steps] at h
  obtain ⟨c1, c2⟩ := C41_previous steps i res hx h
  have c2' : res.ht = res.u 1 := c2
  refine ⟨res, axes, h, hp, by rw [c2']; exact h3, by rw [c2']; exact h4, c1, h1, h2,
    fun r hr t ht0 ht1 => ?_⟩
  have hs : (stepsPlot res).times.SortedLT := by
    rw [List.sortedLT_iff_pairwise]
    simp [stepsPlot, steps]
  obtain ⟨ax, l, g1, g2, g3⟩ := C76_shown (stepsPlot res) hp hs r 0 0 hr Nat.one_pos
    (by norm_num [stepsPlot, steps, Args.M]) t ht0 ht1
  refine ⟨ax, l, g1, g2, ?_⟩
  rw [g3]
  obtain rfl | rfl : r = 0 ∨ r = 1 := by omega
  · exact congrArg some h2
  · exact congrArg some h4

/-- Non-vacuity of `C76_draws`, `C76_scale`, `C76_shown` and `C76_shown_partial`: the second
slot of that run. -/
example : ∃ res axes ax l, steps.run .py = .ok res ∧ (stepsPlot res).plot = .ok axes ∧
    axes[0]? = some ax ∧ ax.lines[0]? = some l ∧ (3 / 2 : ℝ) ≤ 2 ∧
    l.shown (3 / 2) = some (res.u 0 0 2) := by
  obtain ⟨res, axes, h, hp, -⟩ := C76_violated .py
  have hs : (stepsPlot res).times.SortedLT := by
    rw [List.sortedLT_iff_pairwise]
    simp [stepsPlot, steps]
  obtain ⟨ax, l, g1, g2, g3⟩ := C76_shown (stepsPlot res) hp hs 0 0 1
    (by norm_num [stepsPlot, steps]) Nat.one_pos (by norm_num [stepsPlot, steps, Args.M]) (3 / 2)
    (by norm_num [stepsPlot, steps]) (by norm_num [stepsPlot, steps])
  exact ⟨res, axes, ax, l, h, hp, g1, g2, by norm_num, g3⟩

/-- `C76_window`: in a plot over times around zero only the later part of the first slot is seen. -/
example : ∃ axes ax, { early with times := [-1, 1, 2] }.plot = .ok axes ∧ axes[0]? = some ax ∧
    ∃ lo hi, ax.xlim = some (lo, hi) ∧ (-1 / 2 : ℝ) ∉ Set.uIcc lo hi := by
  obtain ⟨axes, h⟩ := (C76_accepts { early with times := [-1, 1, 2] }).2
    ⟨Nat.one_pos, Nat.one_pos, by norm_num [early], rfl, le_refl 1⟩
  obtain ⟨ax, lo, hi, g1, g2, g3⟩ := C76_window _ h
    (by simp only [List.sortedLT_iff_pairwise]; norm_num) 0 0 Nat.one_pos (by norm_num [early])
    (-1 / 2) (by norm_num)
  exact ⟨axes, ax, h, g1, lo, hi, g2, fun h => by linarith [g3.1 h]⟩

end QTrl.Grape
