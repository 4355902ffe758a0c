import Verif.Proofs.CrabSeries
import Verif.Props.Crab
import Mathlib.Analysis.Complex.ExponentialBounds

/-
C54: the CRAB pulse is the documented series.
-/

namespace QTrl.Pulse

open QTrl.Spec Flt

/-- **C54.** After initialisation there are as many coefficients for each basis function as
documented. -/
theorem C54_count (g g' : Crab) (n : Option ℕ) (i : Option (List ℝ)) (rc : ℕ → ℕ → ℝ)
    (rf : ℕ → ℝ) (hi : g.init n i rc rf = .ok g') :
    ∃ m, g'.numCoeffs = some m ∧ 0 < m ∧ CoeffCount n g.numCoeffs g.dim m := by
  obtain ⟨_, _, h, _⟩ := crab_init_eq hi
  refine ⟨_, h, ?_⟩
  have hest : ∀ d, 0 < estimateNumCoeffs d ∧ (d ≤ 3 → estimateNumCoeffs d = 2) ∧
      (3 < d → estimateNumCoeffs d + 1 = d) := by
    intro d
    unfold estimateNumCoeffs
    refine ⟨by omega, fun h => by omega, fun h => by omega⟩
  unfold Crab.settleNum CoeffCount
  rcases n with _ | _ | n <;> rcases hn : g.numCoeffs with _ | _ | m <;> rcases hd : g.dim with _ | d <;>
    simp [hest] <;> exact (hest _).2

/-- **C54.** The initial coefficients are the ones given, row by row; without given ones they
are all equal to `scaling` if not randomised and otherwise at most `scaling` in absolute value,
whatever the random numbers in [0, 1). -/
theorem C54_initial (g g' : Crab) (n : Option ℕ) (i : Option (List ℝ)) (rc : ℕ → ℕ → ℝ)
    (rf : ℕ → ℝ) (hi : g.init n i rc rf = .ok g') (hr : ∀ i j, 0 ≤ rc i j ∧ rc i j < 1) :
    ∃ a m, g'.coeffs = some a ∧ g'.numCoeffs = some m ∧ a.rows = m ∧ a.cols = g.numBasis ∧
      (∀ v, i = some v → a.ravel = v) ∧
      (i = none → ∀ p q, |a.val p q| ≤ |g.base.scaling| ∧
        (g.randomizeCoeffs = false → a.val p q = g.base.scaling)) := by
  obtain ⟨b, g1, g2, hb, h1, h2, _, he⟩ := crab_init_parts hi
  obtain ⟨_, _, hm, _, _, _, a, ha, h4, h5⟩ := crab_init_eq hi
  refine ⟨a, _, ha, hm, h4, h5, ?_⟩
  have hc : g1.coeffs = some a := by
    rw [he] at ha
    obtain ⟨f, hf⟩ := initGuess_eq h2
    rw [hf] at ha
    exact ha
  have hs : b.scaling = g.base.scaling := by
    obtain ⟨time, rfl, _⟩ := init_eq hb
    rfl
  unfold Crab.initCoeffs at h1
  simp only [] at h1
  split at h1
  · rename_i v
    obtain ⟨a', ha', rfl⟩ := setCoeffs_eq h1
    obtain ⟨_, _, _, h6, _⟩ := reshape_spec ha'
    have : a' = a := Option.some.inj hc
    refine ⟨fun v' hv => ?_, fun h => (by cases h)⟩
    injection hv with hv
    rw [← hv, ← this, h6]
  · injection h1 with h1
    rw [← h1] at hc
    injection hc with hc
    refine ⟨fun v h => (by cases h), fun _ p q => ?_⟩
    rw [← hc]
    simp only [hs]
    cases g.randomizeCoeffs with
    | false => exact ⟨le_refl _, fun _ => rfl⟩
    | true =>
      refine ⟨?_, fun h => (by cases h)⟩
      simp only [if_true]
      rw [abs_mul]
      have : |2 * rc p q - 1| ≤ 1 := by
        rw [abs_le]; constructor <;> linarith [(hr p q).1, (hr p q).2]
      calc |2 * rc p q - 1| * |g.base.scaling| ≤ 1 * |g.base.scaling| :=
            mul_le_mul_of_nonneg_right this (abs_nonneg _)
        _ = _ := one_mul _

/-- **C54.** The frequencies of a generator with randomised frequencies are within 1/2 of the
Fourier harmonics of the pulse time; without, they are these harmonics. -/
theorem C54_freqs (g g' : Crab) (n : Option ℕ) (i : Option (List ℝ)) (rc : ℕ → ℕ → ℝ)
    (rf : ℕ → ℝ) (hi : g.init n i rc rf = .ok g') (hr : ∀ i, 0 ≤ rf i ∧ rf i < 1) :
    ∃ fr m, g'.freqs = some fr ∧ g'.numCoeffs = some m ∧ fr.length = m ∧
      ∀ k, k < m → ∃ w, fr[k]? = some w ∧
        |w - (k + 1 : ℕ) * (2 * Real.pi / g.base.pulseTime)| ≤ 1 / 2 ∧
        (g.randomizeFreqs = false → w = (k + 1 : ℕ) * (2 * Real.pi / g.base.pulseTime)) := by
  obtain ⟨b, g1, g2, hb, h1, h2, _, he⟩ := crab_init_parts hi
  obtain ⟨_, _, hm, _⟩ := crab_init_eq hi
  obtain ⟨time, rfl, _⟩ := init_eq hb
  obtain ⟨a, _, _, rfl⟩ := initCoeffs_eq h1
  obtain ⟨f, rfl⟩ := initGuess_eq h2
  refine ⟨_, _, by rw [he], hm, ?_, ?_⟩
  · simp [Crab.initFreqs]
    rfl
  · intro k hk
    refine ⟨2 * Real.pi / g.base.pulseTime * (k + 1) + (if g.randomizeFreqs then rf k - 0.5 else 0),
      ?_, ?_, ?_⟩
    · have hk' : k < Crab.settleNum { g with base := { g.base with tau := some g.base.tauOrDefault, time := time, initialised := true, lbound := dropInf g.base.lbound, ubound := dropInf g.base.ubound } } n := hk
      simp [Crab.initFreqs, List.getElem?_range hk']
    · have e : 2 * Real.pi / g.base.pulseTime * (k + 1) +
          (if g.randomizeFreqs then rf k - 0.5 else 0) -
          (k + 1 : ℕ) * (2 * Real.pi / g.base.pulseTime) =
          (if g.randomizeFreqs then rf k - 0.5 else 0) := by push_cast; ring
      rw [e]
      cases g.randomizeFreqs
      · simp
      · simp only [if_true]
        rw [abs_le]
        constructor <;> norm_num <;> linarith [(hr k).1, (hr k).2]
    · intro h
      simp only [h]
      push_cast
      simp
      ring

/-- **C54.** For every array of coefficients the pulse of an initialised generator is, slot by
slot, the Fourier series at the start of the slot, combined with the guess pulse, multiplied by
the ramping pulse and put into the bounds.  The frequencies are those of the generator, or the
third coefficients if they are optimised, too. -/
theorem C54_series (g g' : Crab) (n : Option ℕ) (i : Option (List ℝ)) (rc : ℕ → ℕ → ℝ)
    (rf : ℕ → ℝ) (a : Arr2) (p : List ℝ) (hu : g.base.usesTime = true)
    (hlen : g.base.numTslots ≤ g.base.tauOrDefault.length + 1)
    (hi : g.init n i rc rf = .ok g') (h : Crab.gen { g' with coeffs := some a } = .ok p) :
    ∃ fr m, g'.freqs = some fr ∧ g'.numCoeffs = some m ∧ p.length = g.base.numTslots ∧
      (∀ q, g.guessPulse = some q → q.length = g.base.numTslots) ∧
      (∀ q, g.ramping = some q → q.length = g.base.numTslots) ∧
      ∀ k, k < g.base.numTslots → p[k]? = some (boundAt g'.cond (ramped g.ramping k
        (guessed g.guessAction g.guessPulse k
          (fourier m (fun i => a.val i 0) (fun i => a.val i 1)
            (fun i => if g.fixFreqs then fr.getD i 0 else a.val i 2)
            (slotStart g.base.tauOrDefault k))))) := by
  obtain ⟨b, g1, g2, hb, h1, h2, _, he⟩ := crab_init_parts hi
  obtain ⟨_, _, hm, _⟩ := crab_init_eq hi
  obtain ⟨time, rfl, _, ht, _⟩ := init_eq hb
  obtain ⟨t, ht1, rfl⟩ := ht hu
  obtain ⟨t', e1, e2, e3⟩ := timeLoop_ok _ 0 _ hlen
  rw [ht1] at e1
  injection e1 with e1
  subst e1
  obtain ⟨a1, _, _, hg1⟩ := initCoeffs_eq h1
  refine ⟨g2.initFreqs rf, _, by rw [he], hm, ?_⟩
  generalize g2.initFreqs rf = fr at he ⊢
  generalize hmm : g.settleNum n = m at hm
  have hm' : Crab.settleNum { g with base := { g.base with tau := some g.base.tauOrDefault, time := some t, initialised := true, lbound := dropInf g.base.lbound, ubound := dropInf g.base.ubound } } n = m := hmm
  rw [hm'] at hg1
  have hgen : ∃ p0 p1 p2, addWaves t ((List.range m).map (crabWave g.fixFreqs fr a))
      (List.replicate g.base.numTslots 0) = .ok p0 ∧ g2.applyGuess p0 = .ok p1 ∧
      g2.applyRamp p1 = .ok p2 ∧ g'.cond.apply p2 = .ok p := by
    rw [he] at h
    obtain ⟨f, hg2⟩ := initGuess_eq h2
    unfold Crab.gen at h
    rw [hg2, hg1] at h ⊢
    simp only [Option.getD_some] at h
    generalize (if g.fixFreqs = true then 2 else 3) = mm at h
    split at h
    · cases h
    · split at h
      · cases h
      · rename_i p0 h3
        split at h
        · cases h
        · rename_i p1 h4
          split at h
          · cases h
          · rename_i p2 h5
            exact ⟨p0, p1, p2, h3, h4, h5, h⟩
  obtain ⟨p0, p1, p2, s1, s2, s3, s4⟩ := hgen
  obtain ⟨w1, w2⟩ := addWaves_sum _ _ _ (by simpa using e2) s1
  rw [List.length_replicate] at w1
  have hguess : p1.length = p0.length ∧ (∀ q, g.guessPulse = some q → q.length = p0.length) ∧
      ∀ (k : ℕ) (x : ℝ), p0[k]? = some x →
        p1[k]? = some (guessed g.guessAction g.guessPulse k x) := by
    unfold Crab.applyGuess at s2
    rcases initGuess_parts h2 with ⟨hq, hg2⟩ | ⟨q, act, hq, hact, hg2⟩
    · rw [hg2, hg1] at s2
      rw [hg1] at hq
      simp only at s2 hq
      split at s2
      · injection s2 with s2
        subst s2
        refine ⟨rfl, fun q h => (by rw [hq] at h; cases h), fun k x hx => ?_⟩
        simpa [guessed, hq] using hx
      · rw [hq] at s2; cases s2
    · rw [hg1] at hq hact
      simp only at hq hact
      rcases hg2 with ⟨hup, hg2⟩ | ⟨hup, hg2⟩
      · rw [hg2, hg1] at s2
        simp only [hq] at s2
        obtain ⟨l1, l2, l3⟩ := zipArr_get s2
        refine ⟨l2, fun q' h => ?_, fun k x hx => ?_⟩
        · rw [hq] at h; injection h with h; rw [← h, l1]
        · rw [l3 k x hx]; simp [guessed, hq, hact, hup]
      · rw [hg2, hg1] at s2
        simp only [hq] at s2
        obtain ⟨l1, l2, l3⟩ := zipArr_get s2
        refine ⟨l2, fun q' h => ?_, fun k x hx => ?_⟩
        · rw [hq] at h; injection h with h; rw [← h, l1]
        · rw [l3 k x hx]; simp [guessed, hq, hact, hup]
  obtain ⟨u1, u2, u3⟩ := hguess
  obtain ⟨v1, v2, v3⟩ := applyRamp_get s3
  have hr : g2.ramping = g.ramping := by
    obtain ⟨f, hg2⟩ := initGuess_eq h2
    rw [hg2, hg1]
  rw [hr] at v2 v3
  have hp := cond_apply_eq s4
  refine ⟨by rw [hp, List.length_map, v1, u1, w1], fun q hq => by rw [u2 q hq, w1],
    fun q hq => by rw [v2 q hq, u1, w1], fun k hk => ?_⟩
  have := v3 k _ (u3 k _ (w2 k _ 0 (e3 k hk) (by simp [hk])))
  rw [hp, List.getElem?_map, this]
  simp only [Option.map_some, zero_add]
  congr 4
  have hw : ∀ x, (List.map (fun w => w x) ((List.range m).map (crabWave g.fixFreqs fr a))).sum =
      fourier m (fun i => a.val i 0) (fun i => a.val i 1)
        (fun i => if g.fixFreqs then fr.getD i 0 else a.val i 2) x := by
    intro x
    rw [List.map_map]
    unfold fourier
    have : ∀ f : ℕ → ℝ, ((List.range m).map f).sum = ∑ i ∈ Finset.range m, f i := fun _ => rfl
    rw [this]
    apply Finset.sum_congr rfl
    intro i _
    cases h : g.fixFreqs <;> simp [crabWave]
  rw [hw]
  rfl

/-- **C54.** What putting into the bounds means: nothing without bounds, and squashing by the
hyperbolic tangent with two finite bounds or with one bound on its usual side of zero. -/
theorem C54_bounds_partial (g g' : Crab) (n : Option ℕ) (i : Option (List ℝ)) (rc : ℕ → ℕ → ℝ)
    (rf : ℕ → ℝ) (lb ub : Option ℝ) (hl : g.base.lbound = lb.map .fin)
    (hu : g.base.ubound = ub.map .fin) (h1 : lb = none → ∀ u, ub = some u → 0 < u)
    (h2 : ub = none → ∀ l, lb = some l → l < 0) (hi : g.init n i rc rf = .ok g') (x : ℝ) :
    boundAt g'.cond x = squash lb ub x := by
  obtain ⟨hb, hc, -⟩ := crab_init_eq hi
  obtain ⟨time, e, _⟩ := init_eq hb
  unfold Crab.initBounds at hc
  rw [e, hl, hu] at hc
  rcases lb with _ | l <;> rcases ub with _ | u
  · simp only [dropInf, Option.map_none] at hc
    injection hc with hc
    rw [← hc]
    rfl
  · have hpos := h1 rfl u rfl
    simp [dropInf, isInf, hpos] at hc
    rw [← hc]
    simp only [boundAt, squash, gt_iff_lt]
    by_cases hx : x ≤ 0
    · simp [hx, not_lt.2 hx]
    · simp [hx, not_le.1 hx, mul_comm]
  · have hneg := h2 rfl l rfl
    simp [dropInf, isInf, hneg] at hc
    rw [← hc]
    simp only [boundAt, squash]
    by_cases hx : 0 ≤ x
    · simp [hx, not_lt.2 hx]
    · simp [hx, not_le.1 hx, abs_of_neg hneg, mul_comm]
  · simp [dropInf, isInf] at hc
    rw [← hc]
    simp only [boundAt, squash]
    ring

/-- **C54.** Without bounds, all coefficients zero reproduce the guess pulse times the ramping
pulse when it is modulated. -/
theorem C54_zero_coeffs (g g' : Crab) (n : Option ℕ) (i : Option (List ℝ)) (rc : ℕ → ℕ → ℝ)
    (rf : ℕ → ℝ) (r c : ℕ) (p q : List ℝ) (hu : g.base.usesTime = true)
    (hlen : g.base.numTslots ≤ g.base.tauOrDefault.length + 1)
    (hl : g.base.lbound = none) (hub : g.base.ubound = none) (hq : g.guessPulse = some q)
    (hr : g.ramping = none) (hi : g.init n i rc rf = .ok g')
    (h : Crab.gen { g' with coeffs := some ⟨r, c, fun _ _ => 0⟩ } = .ok p) : p = q := by
  obtain ⟨fr, m, _, _, h1, h2, _, h3⟩ := C54_series g g' n i rc rf _ p hu hlen hi h
  have hb := C54_bounds_partial g g' n i rc rf none none hl hub (fun _ u h => (by cases h))
    (fun _ u h => (by cases h)) hi
  apply List.ext_getElem?
  intro k
  by_cases hk : k < g.base.numTslots
  · rw [h3 k hk, hb]
    have hk' : k < q.length := by rw [h2 q hq]; exact hk
    simp [squash, ramped, hr, guessed, hq, fourier, List.getD, List.getElem?_eq_getElem hk']
  · rw [List.getElem?_eq_none (by omega), List.getElem?_eq_none (by rw [h2 q hq]; omega)]

/-- A new generator over four slots with a guess pulse of constant amplitude 1/2. -/
noncomputable def crabGuess (lb ub : Option Flt) : Crab :=
  { crabExample none with
    base := { (crabExample none).base with lbound := lb, ubound := ub }
    guessPulse := some [1 / 2, 1 / 2, 1 / 2, 1 / 2] }

/-- It meets the hypotheses of the theorems above. -/
example (rc : ℕ → ℕ → ℝ) (rf : ℕ → ℝ) :
    ∃ g' p, (crabGuess none none).init none none rc rf = .ok g' ∧
      Crab.gen { g' with coeffs := some ⟨1, 2, fun _ j => j⟩ } = .ok p ∧
      (crabGuess none none).base.usesTime = true ∧ p[0]? = some 1 := by
  refine ⟨_, _, by
    simp [crabGuess, crabExample, Crab.fresh, Crab.init, Base.init, Base.ofDyn, Base.tauOrDefault,
      timeLoop, Except.map, boundsInverted, dropInf, Crab.initCoeffs, Crab.settleNum, Crab.initGuess,
      Crab.initBounds, pyDiv, show pyUpper "MODULATE" = "MODULATE" by decide]
    rfl, by
    simp [Crab.gen, Crab.initFreqs, addWaves, addInto, List.replicate, List.range, List.range.loop,
      crabWave, Crab.applyGuess, Crab.applyRamp, zipArr, BoundCond.apply]
    rfl, rfl, ?_⟩
  norm_num [boundAt]

theorem crab_init_guess {g g' : Crab} {n : Option ℕ} {i : Option (List ℝ)} {rc : ℕ → ℕ → ℝ}
    {rf : ℕ → ℝ} (h : g.init n i rc rf = .ok g') : g'.guessPulse = g.guessPulse := by
  obtain ⟨b, g1, g2, hb, h1, h2, hc, e⟩ := crab_init_parts h
  rw [e]
  obtain ⟨a, -, -, rfl⟩ := initCoeffs_eq h1
  rcases initGuess_parts h2 with ⟨-, rfl⟩ | ⟨_, _, -, -, ⟨-, rfl⟩ | ⟨-, rfl⟩⟩ <;> rfl

/-- **C54.** What putting into the bounds means with one bound on the other side of zero: only
amplitudes beyond a threshold are changed, and the distance of the threshold from the bound is
the amplitude scale times the number of coefficients plus the range of the guess pulse. -/
theorem C54_bounds_one_sided (g g' : Crab) (n : Option ℕ) (i : Option (List ℝ))
    (rc : ℕ → ℕ → ℝ) (rf : ℕ → ℝ) (b : ℝ) (upper : Bool)
    (hb : if upper then g.base.lbound = none ∧ g.base.ubound = some (.fin b) ∧ b ≤ 0
      else g.base.lbound = some (.fin b) ∧ g.base.ubound = none ∧ 0 ≤ b)
    (hi : g.init n i rc rf = .ok g') :
    ∃ m r, g'.numCoeffs = some m ∧ GuessRange g.guessPulse r ∧
      ∀ x, boundAt g'.cond x =
        farSquash upper b (g.base.scaling * m + r) x := by
  obtain ⟨h1, hc, hm, -⟩ := crab_init_eq hi
  obtain ⟨time, e, _⟩ := init_eq h1
  have hg := crab_init_guess hi
  refine ⟨g.settleNum n, ?_⟩
  unfold Crab.initBounds at hc
  rw [e] at hc
  cases upper
  · obtain ⟨a1, a2, a3⟩ := hb
    simp only [a1, a2, dropInf, isInf] at hc
    revert hc
    cases hs : g'.guessScale with
    | error e => intro hc; simp [not_lt.2 a3] at hc
    | ok r =>
      intro hc
      simp [hm, not_lt.2 a3] at hc
      refine ⟨r, hm, hg ▸ guessScale_spec hs, fun x => ?_⟩
      rw [← hc]
      simp only [boundAt, farSquash]
      by_cases hx : |g.base.scaling * (g.settleNum n : ℝ) + r| + b ≤ x
      · rw [if_neg (not_lt.2 hx)]
        simp [add_comm b, hx]
      · rw [if_pos (not_le.1 hx)]
        simp [add_comm b, hx, mul_comm]
        ring
  · obtain ⟨a1, a2, a3⟩ := hb
    simp only [a1, a2, dropInf, isInf] at hc
    revert hc
    cases hs : g'.guessScale with
    | error e => intro hc; simp [not_lt.2 a3] at hc
    | ok r =>
      intro hc
      simp [hm, not_lt.2 a3] at hc
      refine ⟨r, hm, hg ▸ guessScale_spec hs, fun x => ?_⟩
      rw [← hc]
      simp only [boundAt, farSquash]
      by_cases hx : x ≤ -|g.base.scaling * (g.settleNum n : ℝ) + r| + b
      · rw [if_neg (not_lt.2 hx)]
        simp [sub_eq_neg_add, hx]
      · rw [if_pos (not_le.1 hx)]
        simp [sub_eq_neg_add, hx, mul_comm]
        ring

/-- With the upper bound -1 the guess pulse meets the hypotheses: the threshold is at -4.5. -/
example (rc : ℕ → ℕ → ℝ) (rf : ℕ → ℝ) :
    ∃ g', (crabGuess none (some (.fin (-1)))).init none none rc rf = .ok g' ∧
      boundAt g'.cond (-5) = -5 := by
  refine ⟨_, by
    simp [crabGuess, crabExample, Crab.fresh, Crab.init, Base.init, Base.ofDyn, Base.tauOrDefault,
      timeLoop, Except.map, boundsInverted, dropInf, isInf, Crab.initCoeffs, Crab.settleNum,
      Crab.initGuess, Crab.initBounds, Crab.guessScale, maxOf, minOf, pyDiv,
      show pyUpper "MODULATE" = "MODULATE" by decide, show ¬ (0 : ℝ) < -1 by norm_num]
    rfl, ?_⟩
  norm_num [boundAt]

/-- **C54 fails for bounded guess pulses**: with bounds, coefficients that are all zero do not
reproduce the guess pulse although it lies well within them. -/
theorem C54_violated_guess (rc : ℕ → ℕ → ℝ) (rf : ℕ → ℝ) :
    ∃ g' p, (crabGuess (some (.fin (-1))) (some (.fin 1))).init none none rc rf = .ok g' ∧
      Crab.gen { g' with coeffs := some ⟨1, 2, fun _ _ => 0⟩ } = .ok p ∧
      ∃ y, p[0]? = some y ∧ y < 1 / 2 := by
  refine ⟨_, _, by
    simp [crabGuess, crabExample, Crab.fresh, Crab.init, Base.init, Base.ofDyn, Base.tauOrDefault,
      timeLoop, Except.map, boundsInverted, dropInf, isInf, Crab.initCoeffs, Crab.settleNum,
      Crab.initGuess, Crab.initBounds, pyDiv, show pyUpper "MODULATE" = "MODULATE" by decide,
      show ¬ (1 : ℝ) < 0 by norm_num]
    rfl, by
    simp [Crab.gen, Crab.initFreqs, addWaves, addInto, List.replicate, List.range, List.range.loop,
      crabWave, Crab.applyGuess, Crab.applyRamp, zipArr, BoundCond.apply]
    rfl, ?_⟩
  refine ⟨_, by simp; rfl, ?_⟩
  have ht : Real.tanh (1 / 2) < 1 / 2 := by
    have h3 := Real.exp_one_lt_three
    have hy : Real.exp (1 / 2) * Real.exp (1 / 2) = Real.exp 1 := by
      rw [← Real.exp_add]; norm_num
    have hz : Real.exp (1 / 2) * Real.exp (-(1 / 2)) = 1 := by
      rw [← Real.exp_add]; norm_num
    have p1 := Real.exp_pos (1 / 2)
    have p2 := Real.exp_pos (-(1 / 2))
    rw [Real.tanh_eq_sinh_div_cosh, Real.sinh_eq, Real.cosh_eq, div_div_div_cancel_right₀ two_ne_zero,
      div_lt_iff₀ (by positivity)]
    nlinarith
  norm_num [boundAt] at ht ⊢
  linarith

/-- **C54 fails for optimised frequencies**: the harmonics generated at initialisation have no
influence on the pulse, the frequencies start out as random as the other coefficients. -/
theorem C54_violated_free_freqs (g : Crab) (fr fr' : List ℝ) (hf : g.fixFreqs = false) :
    Crab.gen { g with freqs := some fr } = Crab.gen { g with freqs := some fr' } := by
  have : crabWave false fr = crabWave false fr' := by
    funext a i t
    simp [crabWave]
  unfold Crab.gen
  cases g.coeffs with
  | none => rfl
  | some a =>
    cases g.base.time with
    | none => rfl
    | some t =>
      simp only [hf, this]
      rfl

/-- **C54 fails for unknown guess pulse actions**: a missing or unknown action, announced as being
ignored, makes the initialisation raise `AttributeError`, where with a known action it succeeds. -/
theorem C54_violated_action (g g1 : Crab) (n : Option ℕ) (i : Option (List ℝ)) (rc : ℕ → ℕ → ℝ)
    (rf : ℕ → ℝ) (q : List ℝ) (hq : g.guessPulse = some q)
    (ha : ∀ a, g.guessAction = some a → pyUpper a ≠ "MODULATE" ∧ pyUpper a ≠ "ADD")
    (h : Crab.init { g with guessAction := some "ADD" } n i rc rf = .ok g1) :
    g.init n i rc rf = .error .attributeError := by
  unfold Crab.init at h ⊢
  cases hb : g.base.init with
  | error e => simp [hb] at h
  | ok b =>
    simp only [hb] at h ⊢
    have hn : ∀ a, ({ { g with guessAction := a } with base := b } : Crab).initCoeffs n i rc =
        (({ g with base := b } : Crab).initCoeffs n i rc).map
          fun c => { c with guessAction := a } := by
      intro a
      unfold Crab.initCoeffs Crab.settleNum
      cases i with
      | none => rfl
      | some v =>
        simp only [Crab.setCoeffs, Option.getD_some]
        cases reshape v _ g.numBasis <;> rfl
    have hn' := hn (some "ADD")
    simp only at hn'
    rw [hn'] at h
    cases hc : ({ g with base := b } : Crab).initCoeffs n i rc with
    | error e => rw [hc] at h; simp [Except.map] at h
    | ok c =>
      simp only
      obtain ⟨_, -, -, e⟩ := initCoeffs_eq hc
      have h1 : c.guessPulse = some q := by rw [e]; exact hq
      have h2 : c.guessAction = g.guessAction := by rw [e]
      have : c.initGuess = .error .attributeError := by
        unfold Crab.initGuess
        rw [h1, h2]
        cases hg : g.guessAction with
        | none => rfl
        | some a =>
          obtain ⟨h3, h4⟩ := ha a hg
          simp only [if_neg h3, if_neg h4]
      rw [this]

/-- The guess pulse of the example with the action `"REPLACE"`. -/
example (rc : ℕ → ℕ → ℝ) (rf : ℕ → ℝ) :
    Crab.init { crabGuess none none with guessAction := some "REPLACE" } none none rc rf =
      .error .attributeError := by
  refine C54_violated_action _ _ _ _ _ _ _ rfl (fun a ha => ?_) (by
    simp [crabGuess, crabExample, Crab.fresh, Crab.init, Base.init, Base.ofDyn, Base.tauOrDefault,
      timeLoop, Except.map, boundsInverted, dropInf, Crab.initCoeffs, Crab.settleNum,
      Crab.initGuess, Crab.initBounds, pyDiv, show pyUpper "ADD" = "ADD" by decide,
      show pyUpper "ADD" ≠ "MODULATE" by decide]
    rfl)
  cases ha
  decide

end QTrl.Pulse
