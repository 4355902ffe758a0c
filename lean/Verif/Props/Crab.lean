import Verif.Proofs.Crab

/-
C27: CRAB pulses respect their bounds.  C28: optimisation variables and coefficients.
-/

namespace QTrl.Pulse

open QTrl.Spec Flt

/-- Giving an initialised generator one vector of optimisation variables after the other
(as the optimiser does) and generating the pulse each time. -/
noncomputable def crabRun : Crab → List (List ℝ) → Except PyErr (Crab × List (List ℝ))
  | g, [] => .ok (g, [])
  | g, v :: vs =>
      match g.setCoeffs v with
      | .error e => .error e
      | .ok g' =>
          match g'.gen with
          | .error e => .error e
          | .ok p =>
              match crabRun g' vs with
              | .error e => .error e
              | .ok (g'', ps) => .ok (g'', p :: ps)

theorem setCoeffs_eq {g g' : Crab} {v : List ℝ} (h : g.setCoeffs v = .ok g') :
    ∃ a, reshape v (g.numCoeffs.getD 0) g.numBasis = .ok a ∧ g' = { g with coeffs := some a } := by
  unfold Crab.setCoeffs at h
  split at h
  · cases h
  · rename_i a ha
    injection h with h
    exact ⟨a, ha, h.symm⟩

theorem initCoeffs_eq {g g' : Crab} {n : Option ℕ} {i : Option (List ℝ)} {rnd : ℕ → ℕ → ℝ}
    (h : g.initCoeffs n i rnd = .ok g') :
    ∃ a, a.rows = g.settleNum n ∧ a.cols = g.numBasis ∧
      g' = { g with numCoeffs := some (g.settleNum n), numOptimVars := g.settleNum n * g.numBasis,
                    coeffs := some a } := by
  unfold Crab.initCoeffs at h
  simp only [] at h
  split at h
  · obtain ⟨a, ha, rfl⟩ := setCoeffs_eq h
    obtain ⟨h1, h2, _⟩ := reshape_spec ha
    exact ⟨a, h1, h2, rfl⟩
  · injection h with h
    exact ⟨_, rfl, rfl, h.symm⟩

theorem initGuess_eq {g g' : Crab} (h : g.initGuess = .ok g') :
    ∃ f, g' = { g with guessFunc := f } := by
  unfold Crab.initGuess at h
  split at h
  · injection h with h; exact ⟨g.guessFunc, h.symm⟩
  · split at h
    · cases h
    · split at h
      · injection h with h; exact ⟨_, h.symm⟩
      · split at h
        · injection h with h; exact ⟨_, h.symm⟩
        · cases h

/-- What initialising leaves behind. -/
theorem crab_init_eq {g g' : Crab} {n : Option ℕ} {i : Option (List ℝ)} {rc : ℕ → ℕ → ℝ}
    {rf : ℕ → ℝ} (h : g.init n i rc rf = .ok g') :
    g.base.init = .ok g'.base ∧ g'.initBounds = .ok g'.cond ∧
      g'.numCoeffs = some (g.settleNum n) ∧ g'.numOptimVars = g.settleNum n * g.numBasis ∧
      g'.numBasis = g.numBasis ∧ g'.fixFreqs = g.fixFreqs ∧
      (∃ a, g'.coeffs = some a ∧ a.rows = g.settleNum n ∧ a.cols = g.numBasis) := by
  unfold Crab.init at h
  split at h
  · cases h
  · rename_i b hb
    split at h
    · cases h
    · rename_i g1 h1
      obtain ⟨a, ha1, ha2, rfl⟩ := initCoeffs_eq h1
      split at h
      · cases h
      · rename_i g2 h2
        obtain ⟨f, rfl⟩ := initGuess_eq h2
        split at h
        · cases h
        · rename_i c hc
          split at h
          · cases h
          · injection h with h
            subst h
            exact ⟨hb, hc, rfl, rfl, rfl, rfl, a, rfl, ha1, ha2⟩

theorem cond_apply_eq {c : BoundCond} {raw p : List ℝ} (h : c.apply raw = .ok p) :
    p = raw.map (boundAt c) := by
  cases c <;> simp only [BoundCond.apply] at h
  · cases h
  all_goals
    injection h with h
    exact h.symm

theorem gen_bounded {g : Crab} {p : List ℝ} (h : g.gen = .ok p) :
    ∃ raw : List ℝ, p = raw.map (boundAt g.cond) := by
  unfold Crab.gen at h
  split at h
  · simp only [] at h
    generalize (if g.fixFreqs = true then 2 else 3) = m at h
    split at h
    · cases h
    · split at h
      · cases h
      · split at h
        · cases h
        · split at h
          · cases h
          · exact ⟨_, cond_apply_eq h⟩
  · cases h

/-- **C27.** Whatever sequence of coefficient vectors the search tries on an initialised
CRAB generator with any guess pulse, ramping pulse and bounds, every amplitude of every
pulse is within the bounds that are set. -/
theorem C27_bounds (g g' g'' : Crab) (n : Option ℕ) (i : Option (List ℝ)) (rc : ℕ → ℕ → ℝ)
    (rf : ℕ → ℝ) (vs : List (List ℝ)) (ps : List (List ℝ))
    (hgood : GoodBounds g.base.lbound g.base.ubound)
    (hi : g.init n i rc rf = .ok g') (hr : crabRun g' vs = .ok (g'', ps)) :
    ∀ p ∈ ps, ∀ y ∈ p, (∀ l : ℝ, g.base.lbound = some (.fin l) → l ≤ y) ∧
      (∀ u : ℝ, g.base.ubound = some (.fin u) → y ≤ u) := by
  obtain ⟨hb, hc, -⟩ := crab_init_eq hi
  have hready := ready_init hgood hb
  have key : ∀ x, (∀ l : ℝ, g.base.lbound = some (.fin l) → l ≤ boundAt g'.cond x) ∧
      (∀ u : ℝ, g.base.ubound = some (.fin u) → boundAt g'.cond x ≤ u) := by
    intro x
    obtain ⟨time, e, _⟩ := init_eq hb
    have := initBounds_within hc hready.good x
    rw [e] at this
    simp only [dropInf_fin] at this
    exact this
  clear hi hb hc hready
  induction vs generalizing g' ps with
  | nil =>
    injection hr with hr
    cases hr
    simp
  | cons v vs ih =>
    unfold crabRun at hr
    split at hr
    · cases hr
    · rename_i g1 h1
      obtain ⟨a, _, rfl⟩ := setCoeffs_eq h1
      split at hr
      · cases hr
      · rename_i p hp
        split at hr
        · cases hr
        · rename_i g2 qs hq
          injection hr with hr
          cases hr
          intro q hq' y hy
          rcases List.mem_cons.1 hq' with rfl | hq'
          · obtain ⟨raw, rfl⟩ := gen_bounded hp
            obtain ⟨x, _, rfl⟩ := List.mem_map.1 hy
            exact key x
          · exact ih _ _ hq key q hq' y hy

/-- **C27**, partial: the bounding map is strictly increasing with two different bounds,
with only a positive upper bound, and with only a negative lower bound. -/
theorem C27_monotone_partial (g g' : Crab) (n : Option ℕ) (i : Option (List ℝ)) (rc : ℕ → ℕ → ℝ)
    (rf : ℕ → ℝ) (hi : g.init n i rc rf = .ok g')
    (hcase : (∃ l u : ℝ, g.base.lbound = some (.fin l) ∧ g.base.ubound = some (.fin u) ∧ l < u) ∨
      (∃ u : ℝ, g.base.lbound = none ∧ g.base.ubound = some (.fin u) ∧ 0 < u) ∨
      (∃ l : ℝ, g.base.lbound = some (.fin l) ∧ g.base.ubound = none ∧ l < 0) ∨
      (g.base.lbound = none ∧ g.base.ubound = none)) :
    StrictMono (boundAt g'.cond) := by
  obtain ⟨hb, hc, _⟩ := crab_init_eq hi
  obtain ⟨time, e, _⟩ := init_eq hb
  unfold Crab.initBounds at hc
  rw [e] at hc
  rcases hcase with ⟨l, u, hl, hu, hlu⟩ | ⟨u, hl, hu, hpos⟩ | ⟨l, hl, hu, hneg⟩ | ⟨hl, hu⟩
  · simp only [hl, hu, dropInf, isInf] at hc
    injection hc with hc
    rw [← hc]
    intro x y hxy
    have h := tanh_lt_tanh hxy
    simp only [boundAt]
    have hs : (0 : ℝ) < 0.5 * (u - l) := by norm_num; linarith
    have := mul_lt_mul_of_pos_right h hs
    linarith
  · simp only [hl, hu, dropInf, isInf, gt_iff_lt, Bool.false_eq_true, if_false] at hc
    rw [if_pos hpos] at hc
    injection hc with hc
    rw [← hc]
    intro x y hxy
    simp only [boundAt]
    by_cases hx : x > 0
    · rw [if_pos hx, if_pos (by linarith)]
      have := mul_lt_mul_of_pos_right (tanh_lt_tanh hxy) hpos
      linarith
    · rw [if_neg hx]
      split
      · rename_i hy
        have h0 := tanh_lt_tanh (show (0 : ℝ) < y by linarith)
        rw [Real.tanh_zero] at h0
        have := mul_pos h0 hpos
        linarith
      · exact hxy
  · simp only [hl, hu, dropInf, isInf, Bool.false_eq_true, if_false] at hc
    rw [if_pos hneg] at hc
    injection hc with hc
    rw [← hc]
    intro x y hxy
    have hp : 0 < |l| := abs_pos.2 hneg.ne
    simp only [boundAt]
    by_cases hy : y < 0
    · rw [if_pos hy, if_pos (by linarith)]
      have := mul_lt_mul_of_pos_right (tanh_lt_tanh hxy) hp
      linarith
    · rw [if_neg hy]
      split
      · rename_i hx
        have h0 := tanh_lt_tanh hx
        rw [Real.tanh_zero] at h0
        have := mul_neg_of_neg_of_pos h0 hp
        linarith
      · exact hxy
  · simp only [hl, hu, dropInf] at hc
    injection hc with hc
    rw [← hc]
    intro x y hxy
    simpa [boundAt] using hxy

/-- A new CRAB generator over four slots, with one coefficient pair. -/
def crabExample (ub : Option Flt) : Crab :=
  { Crab.fresh (Base.ofDyn 4 4 1 0 [1, 1, 1, 1] true) (some 2) (some 1) true with
    base := { Base.ofDyn 4 4 1 0 [1, 1, 1, 1] true with ubound := ub } }

/-- It initialises successfully, and a vector of two variables generates a pulse. -/
theorem crabExample_init (ub : Option ℝ) (rc : ℕ → ℕ → ℝ) (rf : ℕ → ℝ) :
    ∃ g', (crabExample (ub.map .fin)).init none none rc rf = .ok g' ∧
      g'.cond = (match ub with
        | none => .noBounds
        | some u => if u > 0 then .gtMean 0 u else .gtMean (-1 + u) 1) := by
  cases ub with
  | none =>
    refine ⟨_, by
      simp [crabExample, Crab.fresh, Crab.init, Base.init, Base.ofDyn, Base.tauOrDefault, timeLoop,
        Except.map, boundsInverted, dropInf, Crab.initCoeffs, Crab.settleNum, Crab.initGuess,
        Crab.initBounds, pyDiv]
      rfl, rfl⟩
  | some u =>
    by_cases hu : u > 0
    · refine ⟨_, by
        simp [crabExample, Crab.fresh, Crab.init, Base.init, Base.ofDyn, Base.tauOrDefault, timeLoop,
          Except.map, boundsInverted, dropInf, isInf, Crab.initCoeffs, Crab.settleNum,
          Crab.initGuess, Crab.initBounds, pyDiv, hu]
        rfl, ?_⟩
      simp [hu]
    · refine ⟨_, by
        simp [crabExample, Crab.fresh, Crab.init, Base.init, Base.ofDyn, Base.tauOrDefault, timeLoop,
          Except.map, boundsInverted, dropInf, isInf, Crab.initCoeffs, Crab.settleNum,
          Crab.initGuess, Crab.initBounds, pyDiv, Crab.guessScale, hu]
        rfl, ?_⟩
      simp [hu]

/-- **C27 fails for monotonicity** with only a negative upper bound: raising an amplitude
from -2 to -1 lowers its bounded value. -/
theorem C27_violated_monotone (rc : ℕ → ℕ → ℝ) (rf : ℕ → ℝ) :
    ∃ g', (crabExample (some (.fin (-1)))).init none none rc rf = .ok g' ∧
      boundAt g'.cond (-1) < boundAt g'.cond (-2) := by
  obtain ⟨g', h, hc⟩ := crabExample_init (some (-1)) rc rf
  refine ⟨g', h, ?_⟩
  have h0 := tanh_lt_tanh (show (-1 : ℝ) < 0 by norm_num)
  rw [Real.tanh_zero] at h0
  rw [hc]
  norm_num [boundAt]
  simpa using h0

/-- The hypotheses of `C27_bounds` are met, with an upper bound that is in force. -/
example (rc : ℕ → ℕ → ℝ) (rf : ℕ → ℝ) :
    ∃ g' g'' ps, (crabExample (some (.fin 1))).init none none rc rf = .ok g' ∧
      crabRun g' [[5, 7], [1, 2]] = .ok (g'', ps) ∧ ps.length = 2 ∧
      GoodBounds (crabExample (some (.fin 1))).base.lbound (crabExample (some (.fin 1))).base.ubound := by
  refine ⟨_, _, _, by
    simp [crabExample, Crab.fresh, Crab.init, Base.init, Base.ofDyn, Base.tauOrDefault, timeLoop,
      Except.map, boundsInverted, dropInf, isInf, Crab.initCoeffs, Crab.settleNum,
      Crab.initGuess, Crab.initBounds, pyDiv]
    rfl, by
    simp [crabRun, Crab.setCoeffs, reshape, Crab.gen, Crab.initFreqs, addWaves, addInto,
      Crab.applyGuess, Crab.applyRamp, BoundCond.apply, List.replicate]
    exact ⟨rfl, rfl⟩, rfl, ?_⟩
  simp [crabExample, Crab.fresh, Base.ofDyn, GoodBounds]

/-- Passing coefficients directly to `gen_pulse` as the documented array raises ValueError
whenever there is more than one coefficient. -/
theorem C27_coeffs_argument (g : Crab) (a : Arr2) (h : a.rows * a.cols ≠ 1) :
    g.genWith a = .error .valueError := by
  simp [Crab.genWith, Arr2.truth, h]

/-! ### C28 -/

/-- The generator's number of optimisation variables is that of its coefficients. -/
def Sized (g : Crab) : Prop :=
  ∃ a, g.coeffs = some a ∧ a.rows = g.numCoeffs.getD 0 ∧ a.cols = g.numBasis ∧
    g.numOptimVars = g.numCoeffs.getD 0 * g.numBasis

/-- Initialised generators are so. -/
theorem C28_init (g g' : Crab) (n : Option ℕ) (i : Option (List ℝ)) (rc : ℕ → ℕ → ℝ)
    (rf : ℕ → ℝ) (hi : g.init n i rc rf = .ok g') : Sized g' := by
  obtain ⟨_, _, h1, h2, h3, _, a, ha, h4, h5⟩ := crab_init_eq hi
  exact ⟨a, ha, by rw [h1, h4]; rfl, by rw [h3, h5], by rw [h1, h2, h3]; rfl⟩

/-- Position of the first variable of generator `k`. -/
def varStart (gs : List Crab) (k : ℕ) : ℕ := ((gs.take k).map Crab.numOptimVars).sum

/-- **C28.** Distributing a vector over the generators gives every control its own slice in
order, coefficient by coefficient, generates each control's pulse from it, and collecting
the variables again gives back the vector. -/
theorem C28_distribute_collect (gs gs' : List Crab) (v : List ℝ) (ps : List (List ℝ))
    (hs : ∀ g ∈ gs, Sized g) (hlen : v.length = (gs.map Crab.numOptimVars).sum)
    (h : distribute v 0 gs = .ok (gs', ps)) :
    collect gs' = .ok v ∧ gs'.length = gs.length ∧ ps.length = gs.length ∧
      ∀ k g, gs[k]? = some g → ∃ a p, gs'[k]? = some { g with coeffs := some a } ∧
        ps[k]? = some p ∧ Crab.gen { g with coeffs := some a } = .ok p ∧
        a.rows = g.numCoeffs.getD 0 ∧ a.cols = g.numBasis ∧
        ∀ r c, r < a.rows → c < a.cols →
          v[varStart gs k + (r * a.cols + c)]? = some (a.val r c) := by
  have gen : ∀ (gs gs' : List Crab) (ps : List (List ℝ)) (st : ℕ), (∀ g ∈ gs, Sized g) →
      v.length = st + (gs.map Crab.numOptimVars).sum → distribute v st gs = .ok (gs', ps) →
      collect gs' = .ok (v.drop st) ∧ gs'.length = gs.length ∧ ps.length = gs.length ∧
      ∀ k g, gs[k]? = some g → ∃ a p, gs'[k]? = some { g with coeffs := some a } ∧
        ps[k]? = some p ∧ Crab.gen { g with coeffs := some a } = .ok p ∧
        a.rows = g.numCoeffs.getD 0 ∧ a.cols = g.numBasis ∧
        ∀ r c, r < a.rows → c < a.cols →
          v[st + varStart gs k + (r * a.cols + c)]? = some (a.val r c) := by
    intro gs
    induction gs with
    | nil =>
      intro gs' ps st _ hlen h
      injection h with h
      cases h
      simp at hlen
      refine ⟨?_, rfl, rfl, fun k g hk => by simp at hk⟩
      rw [List.drop_eq_nil_of_le (by omega)]
      rfl
    | cons g gs ih =>
      intro gs' ps st hs hlen h
      unfold distribute at h
      split at h
      · cases h
      · rename_i g1 h1
        obtain ⟨a, ha, rfl⟩ := setCoeffs_eq h1
        obtain ⟨ar, ac, al, av, ai⟩ := reshape_spec ha
        split at h
        · cases h
        · rename_i p hp
          split at h
          · cases h
          · rename_i gs1 ps1 h2
            injection h with h
            cases h
            obtain ⟨_, _, _, _, hnv⟩ := hs g (by simp)
            have hlen' : v.length = st + g.numOptimVars + (gs.map Crab.numOptimVars).sum := by
              rw [hlen]; simp; omega
            obtain ⟨i1, i2, i3, i4⟩ := ih gs1 ps1 _ (fun g hg => hs g (by simp [hg])) hlen' h2
            refine ⟨?_, by simp [i2], by simp [i3], ?_⟩
            · simp only [collect, i1, av]
              congr 1
              rw [← List.drop_drop, List.take_append_drop]
            · intro k g0 hk
              cases k with
              | zero =>
                simp only [List.getElem?_cons_zero, Option.some.injEq] at hk
                subst hk
                refine ⟨a, p, rfl, rfl, hp, ar, ac, ?_⟩
                intro r c hr hc
                rw [ar] at hr
                rw [ac] at hc ⊢
                have := ai r c hr hc
                have hlt : r * g.numBasis + c < g.numOptimVars := by
                  rw [hnv]
                  calc r * g.numBasis + c < r * g.numBasis + g.numBasis := by omega
                    _ = (r + 1) * g.numBasis := by ring
                    _ ≤ _ := Nat.mul_le_mul_right _ hr
                rw [List.getElem?_take_of_lt hlt, List.getElem?_drop] at this
                simpa [varStart] using this
              | succ k =>
                rw [List.getElem?_cons_succ] at hk
                obtain ⟨a', p', e1, e2, e3, e4, e5, e6⟩ := i4 k g0 hk
                refine ⟨a', p', e1, e2, e3, e4, e5, ?_⟩
                intro r c hr hc
                have := e6 r c hr hc
                rw [← this]
                congr 1
                simp [varStart]; omega
  have := gen gs gs' ps 0 hs (by simpa using hlen) h
  simpa using this

/-- **C28**, converse: collecting the variables of all generators and giving them back
leaves every coefficient as it was. -/
theorem C28_collect_distribute (gs gs' : List Crab) (v : List ℝ) (ps : List (List ℝ))
    (hs : ∀ g ∈ gs, Sized g) (hc : collect gs = .ok v) (h : distribute v 0 gs = .ok (gs', ps)) :
    v.length = (gs.map Crab.numOptimVars).sum ∧
    ∀ (k : ℕ) (g : Crab) (a : Arr2), gs[k]? = some g → g.coeffs = some a → ∃ a' : Arr2, gs'[k]? = some { g with coeffs := some a' } ∧
      a'.rows = a.rows ∧ a'.cols = a.cols ∧ ∀ r c, r < a.rows → c < a.cols → a'.val r c = a.val r c := by
  -- where the collected variables sit
  have pos : ∀ (gs : List Crab) (v : List ℝ), (∀ g ∈ gs, Sized g) → collect gs = .ok v →
      v.length = (gs.map Crab.numOptimVars).sum ∧
      ∀ (k : ℕ) (g : Crab) (a : Arr2), gs[k]? = some g → g.coeffs = some a → ∀ r c, r < a.rows → c < a.cols →
        v[varStart gs k + (r * a.cols + c)]? = some (a.val r c) := by
    intro gs
    induction gs with
    | nil =>
      intro v _ h
      injection h with h
      subst h
      exact ⟨rfl, fun k g a hk => by simp at hk⟩
    | cons g gs ih =>
      intro v hs h
      unfold collect at h
      split at h
      · cases h
      · rename_i a ha
        split at h
        · cases h
        · rename_i r hr
          injection h with h
          subst h
          obtain ⟨a0, h0, h1, h2, h3⟩ := hs g (by simp)
          rw [ha] at h0
          cases h0
          obtain ⟨i1, i2⟩ := ih r (fun g hg => hs g (by simp [hg])) hr
          have hl : a.ravel.length = g.numOptimVars := by rw [ravel_length, h1, h2, h3]
          refine ⟨by simp [hl, i1], ?_⟩
          intro k g0 a' hk hg0 p q hp hq
          cases k with
          | zero =>
            simp only [List.getElem?_cons_zero, Option.some.injEq] at hk
            subst hk
            rw [ha] at hg0
            cases hg0
            have := ravel_get a hp hq
            have hlt := (List.getElem?_eq_some_iff.1 this).1
            simp only [varStart, List.take_zero, List.map_nil, List.sum_nil, Nat.zero_add]
            rw [List.getElem?_append_left hlt, this]
          | succ k =>
            rw [List.getElem?_cons_succ] at hk
            have := i2 k g0 a' hk hg0 p q hp hq
            rw [← this, List.getElem?_append_right (by simp [varStart, hl]; omega)]
            congr 1
            simp [varStart, hl]; omega
  obtain ⟨hlen, hv⟩ := pos gs v hs hc
  refine ⟨hlen, ?_⟩
  obtain ⟨_, _, _, hd⟩ := C28_distribute_collect gs gs' v ps hs hlen h
  intro k g a hk ha
  obtain ⟨a', p, e1, _, _, e4, e5, e6⟩ := hd k g hk
  obtain ⟨a0, h0, h1, h2, h3⟩ := hs g (List.mem_of_getElem? hk)
  rw [ha] at h0
  cases h0
  have hr : a'.rows = a.rows := by rw [e4, h1]
  have hcc : a'.cols = a.cols := by rw [e5, h2]
  refine ⟨a', e1, hr, hcc, ?_⟩
  intro r c hr' hc'
  have h1 := e6 r c (by omega) (by omega)
  rw [hcc, hv k g a hk ha r c hr' hc'] at h1
  exact (Option.some.inj h1).symm

/-- A vector that is too short is rejected with ValueError at the first control that lacks
a variable. -/
theorem C28_too_short (g : Crab) (gs : List Crab) (v : List ℝ) (st : ℕ) (hs : Sized g)
    (h0 : 0 < g.numOptimVars) (h : v.length < st + g.numOptimVars) :
    distribute v st (g :: gs) = .error .valueError := by
  obtain ⟨a, _, _, _, h3⟩ := hs
  have : ¬ ((v.drop st).take g.numOptimVars).length = g.numCoeffs.getD 0 * g.numBasis := by
    rw [← h3, List.length_take, List.length_drop]; omega
  simp only [distribute, Crab.setCoeffs, reshape, if_neg this]

/-- Two generators, with four and two variables, that meet the hypotheses. -/
noncomputable def crabPair : List Crab :=
  let g := { crabExample none with
    base := { (crabExample none).base with time := some [0, 1, 2, 3], initialised := true }
    cond := .noBounds, freqs := some [1, 2], numBasis := 2 }
  [{ g with numCoeffs := some 2, numOptimVars := 4, coeffs := some ⟨2, 2, fun i j => i + 2 * j⟩ },
   { g with numCoeffs := some 1, numOptimVars := 2, coeffs := some ⟨1, 2, fun _ j => 5 + j⟩ }]

example : (∀ g ∈ crabPair, Sized g) ∧ collect crabPair = .ok [0, 2, 1, 3, 5, 6] ∧
    (∃ gs' ps, distribute [1, 2, 3, 4, 5, 6] 0 crabPair = .ok (gs', ps)) := by
  refine ⟨?_, ?_, _, _, by
    simp [crabPair, distribute, crabExample, Crab.fresh, Base.ofDyn, Crab.setCoeffs, reshape, Crab.gen,
      addWaves, addInto, Crab.applyGuess, Crab.applyRamp, BoundCond.apply, List.replicate, List.range,
      List.range.loop, crabWave]
    exact ⟨rfl, rfl⟩⟩
  · intro g hg
    simp only [crabPair, List.mem_cons, List.not_mem_nil, or_false] at hg
    rcases hg with rfl | rfl <;> exact ⟨_, rfl, rfl, rfl, rfl⟩
  · norm_num [crabPair, collect, Arr2.ravel, List.range, List.range.loop]

end QTrl.Pulse
