import Verif.Proofs.PulseHistory

/-
C22-C26: the pulse generators.
-/

namespace QTrl.Pulse

open QTrl.Spec Flt

/-! ### C22: bounds are respected -/

/-- **C22.** Whatever the raw pulse, offset and finite or absent bounds, the bounded pulse
has the same length and every amplitude is a number within the bounds. -/
theorem C22_bounds (lb ub : Option ℝ) (off : ℝ) (raw : List ℝ) (hne : raw ≠ [])
    (hlu : ∀ l ∈ lb, ∀ u ∈ ub, l ≤ u) :
    ∃ out, applyBounds (lb.map .fin) (ub.map .fin) off (raw.map .fin) = .ok out ∧
      out.length = raw.length ∧
      ∀ y ∈ out, ∃ r : ℝ, y = .fin r ∧ (∀ l ∈ lb, l ≤ r) ∧ (∀ u ∈ ub, r ≤ u) := by
  obtain ⟨a, b, hb, h⟩ := applyBounds_fin lb ub off raw (.inl hne) hlu
  refine ⟨_, h, by simp, ?_⟩
  intro y hy
  obtain ⟨x, hx, rfl⟩ := List.mem_map.1 hy
  exact ⟨_, rfl, fun l hl => hb.low l hl x hx, fun u hu => hb.up u hu x hx⟩

/-- **C22**, for whole generators: whatever the kind of generator, its attributes, the
random numbers and the bounds set on it, an amplitude of a generated pulse is a number
within the bounds (infinite bounds not restricting it).  For the two kinds that do not
initialise, and for generators initialised before their bounds were set, the bounds must be
finite: see `C25_violated_infinite`.  Generators whose raw pulse is nan are left out: linear ones
without a gradient over one slot (`C24_violated_linear_single`), Gaussian ones with a variance or
decay time of zero (`C53_violated_zero`). -/
theorem C22_generators (fuel : ℕ) (rnd : ℕ → ℝ) (b : Base) (k : Kind) (out : List Flt)
    (hreg : Regular b k) (hgood : GoodBounds b.lbound b.ubound)
    (hfin : (¬ Initialises k ∨ b.initialised = true) →
      FiniteBound b.lbound ∧ FiniteBound b.ubound)
    (h : generate fuel rnd b k = some (.ok out)) :
    ∀ y ∈ out, AmpWithin b.lbound b.ubound y := by
  obtain ⟨b', raw, hf, hcase⟩ := generate_finish hreg h
  have hready : Ready b b' := by
    rcases hcase with ⟨hk, rfl⟩ | ⟨hk, he⟩
    · exact ready_self (hfin (.inl hk)).1 (hfin (.inl hk)).2 hgood
    · exact ready_ensure hgood (fun hi => hfin (.inr hi)) he
  intro y hy
  exact hready.imp y ((finish_within hready.low hready.up hready.good hf).2 y hy)

/-- With a bound set, an empty pulse (no timeslots) raises ValueError. -/
theorem C22_empty (lb ub : Option ℝ) (off : ℝ) (h : lb ≠ none ∨ ub ≠ none) :
    applyBounds (lb.map .fin) (ub.map .fin) off [] = .error .valueError :=
  applyBounds_nil off h

/-! ### C23: the shape is preserved -/

/-- **C23.** Bounding is an affine map with a factor between 0 and 1 applied to every
amplitude: a mere shift by the offset if the result then fits; a mere shift unless the
pulse's range exceeds the distance of two bounds; and constant only if both bounds are
equal. -/
theorem C23_shape (lb ub : Option ℝ) (off : ℝ) (raw : List ℝ) (hne : raw ≠ [])
    (hlu : ∀ l ∈ lb, ∀ u ∈ ub, l ≤ u) :
    ∃ a b : ℝ, 0 ≤ a ∧ a ≤ 1 ∧
      applyBounds (lb.map .fin) (ub.map .fin) off (raw.map .fin) =
        .ok (raw.map fun x => .fin (a * x + b)) ∧
      ((∀ l ∈ lb, ∀ x ∈ raw, l ≤ x + off) → (∀ u ∈ ub, ∀ x ∈ raw, x + off ≤ u) → a = 1 ∧ b = off) ∧
      (a ≠ 1 → ∃ l ∈ lb, ∃ u ∈ ub, ∃ x ∈ raw, ∃ y ∈ raw, u - l < y - x) ∧
      (a = 0 → ∃ l ∈ lb, l ∈ ub) := by
  obtain ⟨a, b, hb, h⟩ := applyBounds_fin lb ub off raw (.inl hne) hlu
  exact ⟨a, b, hb.nonneg, hb.le_one, h, hb.fits, hb.scaled, hb.flat⟩

/-- **C23**, order: unless the two bounds are equal, amplitudes keep their strict order. -/
theorem C23_order (lb ub : Option ℝ) (off : ℝ) (raw : List ℝ) (out : List Flt)
    (hlu : ∀ l ∈ lb, ∀ u ∈ ub, l < u)
    (h : applyBounds (lb.map .fin) (ub.map .fin) off (raw.map .fin) = .ok out)
    (i j : ℕ) (x y : ℝ) (hi : raw[i]? = some x) (hj : raw[j]? = some y) (hxy : x < y) :
    ∃ x' y' : ℝ, out[i]? = some (.fin x') ∧ out[j]? = some (.fin y') ∧ x' < y' ∧
      y' - x' ≤ y - x := by
  have hne : raw ≠ [] := by rintro rfl; simp at hi
  obtain ⟨a, b, h0, h1, h2, _, _, h3⟩ :=
    C23_shape lb ub off raw hne (fun l hl u hu => (hlu l hl u hu).le)
  rw [h2] at h
  injection h with h
  subst h
  have ha : 0 < a := by
    refine lt_of_le_of_ne h0 fun he => ?_
    obtain ⟨l, hl, hu⟩ := h3 he.symm
    exact lt_irrefl l (hlu l hl l hu)
  refine ⟨a * x + b, a * y + b, by simp [hi], by simp [hj], ?_, ?_⟩
  · have := mul_lt_mul_of_pos_left hxy ha; linarith
  · have : a * (y - x) ≤ 1 * (y - x) := by
      apply mul_le_mul_of_nonneg_right h1; linarith
    linarith

/-- A pulse that has to be scaled and shifted. -/
example : applyBounds (some (.fin 0)) (some (.fin 1)) 0 ([-1, 3].map .fin) =
    .ok [.fin 0, .fin 1] := by
  norm_num [applyBounds, pyMax, pyMin, upOk, lowOk, Flt.sub, Flt.neg, Flt.add, Flt.lt, Flt.le,
    Flt.mul, Flt.div]

/-! ### C24: waveforms -/

/-- **C24.** The shapes are the documented ones: square, saw-tooth and triangular waves. -/
theorem C24_shapes : IsSquareWave (waveAt .square) ∧ IsSawWave (waveAt .saw) ∧
    IsTriangleWave (waveAt .triangle) ∧ ∀ p, waveAt .sine p = Real.sin p :=
  ⟨square_spec, saw_spec, triangle_spec, fun _ => rfl⟩

/-- **C24.** All periodic waves stay between -1 and 1, the square wave takes only these two
values, and all repeat with every cycle of the phase. -/
theorem C24_range_period (w : Wave) (p : ℝ) :
    |waveAt w p| ≤ 1 ∧ waveAt w (p + 2 * Real.pi) = waveAt w p ∧
      (waveAt .square p = 1 ∨ waveAt .square p = -1) :=
  ⟨wave_range w p, wave_periodic w p, square_values p⟩

/-- **C24**, samples: after any history of `gen_pulse` calls on a new periodic generator
with any attributes, a successful call returns the bounded form of `scaling` times the wave
sampled at the start of every slot, with the frequency of the last call (or else of the
attributes) that specified one and the start phase last given. -/
theorem C24_samples_partial (w : Wave) (b : Base) (nw f wl : Option ℝ) (phi : ℝ)
    (cs : List Args) (c : Args) (g' : Periodic) (out : List Flt) (hnew : b.initialised = false)
    (hlen : b.numTslots ≤ b.tauOrDefault.length)
    (h : genRun w ⟨b, nw, f, wl, phi⟩ cs c = .ok (g', out)) :
    ∃ F, (cs ++ [c]).foldl (freqAfter b.pulseTime) (effFreq b.pulseTime nw wl f) = some F ∧
      ∃ raw, raw.length = b.numTslots ∧ g'.base.finish raw = .ok out ∧
        (∀ k, k < b.numTslots → raw[k]? = some (b.scaling *
          waveAt w (2 * Real.pi * F * slotStart b.tauOrDefault k +
            (cs ++ [c]).foldl (fun p c => c.startPhase.getD p) phi))) ∧
        g'.base.lbound = dropInf b.lbound ∧ g'.base.ubound = dropInf b.ubound ∧
        g'.base.offset = b.offset := by
  obtain ⟨hinv, F, raw, hF, hs, hf⟩ :=
    genRun_spec cs c ⟨b, nw, f, wl, phi⟩ g' out _ _ (.inl ⟨rfl, hnew, rfl, rfl⟩) h
  refine ⟨F, by rw [← hinv.freq, hF], raw, ?_⟩
  obtain ⟨l, h1, h2, h3⟩ := sampleLoop_ok
    (fun t => b.scaling * waveAt w (2 * Real.pi * F * t + g'.startPhase)) b.numTslots 0
    b.tauOrDefault hlen
  rw [h1] at hs
  injection hs with hs
  subst hs
  obtain ⟨time, hb', _⟩ := init_eq hinv.base
  refine ⟨h2, hf, ?_, by rw [hb'], by rw [hb'], by rw [hb']⟩
  intro k hk
  rw [h3 k hk, zero_add, hinv.phase]
  rfl

/-- **C24**, without bounds the pulse is exactly the scaled wave plus the offset. -/
theorem C24_unbounded (w : Wave) (b : Base) (nw f wl : Option ℝ) (phi : ℝ)
    (cs : List Args) (c : Args) (g' : Periodic) (out : List Flt) (hnew : b.initialised = false)
    (hlen : b.numTslots ≤ b.tauOrDefault.length) (hl : b.lbound = none) (hu : b.ubound = none)
    (h : genRun w ⟨b, nw, f, wl, phi⟩ cs c = .ok (g', out)) :
    ∃ F, (cs ++ [c]).foldl (freqAfter b.pulseTime) (effFreq b.pulseTime nw wl f) = some F ∧
      out.length = b.numTslots ∧
      ∀ k, k < b.numTslots → out[k]? = some (.fin (b.scaling *
          waveAt w (2 * Real.pi * F * slotStart b.tauOrDefault k +
            (cs ++ [c]).foldl (fun p c => c.startPhase.getD p) phi) + b.offset)) := by
  obtain ⟨F, hF, raw, h1, h2, h3, h4, h5, h6⟩ :=
    C24_samples_partial w b nw f wl phi cs c g' out hnew hlen h
  refine ⟨F, hF, ?_⟩
  unfold Base.finish at h2
  rw [h4, h5, hl, hu, h6] at h2
  simp only [applyBounds, dropInf, Option.isNone_none, Bool.and_self, if_true] at h2
  injection h2 with h2
  subst h2
  refine ⟨by simpa using h1, ?_⟩
  intro k hk
  simp [h3 k hk]

/-- A new sine generator over four unit slots, as made from a Dynamics object. -/
def fourSlots : Base := Base.ofDyn 4 4 1 0 [1, 1, 1, 1] false

/-- The hypotheses are met: two calls, the second changing the frequency by its wavelength
and the phase. -/
example : ∃ g' out, genRun .square (Periodic.fresh fourSlots) [⟨none, none, none, none⟩]
    ⟨none, some 8, none, some 1⟩ = .ok (g', out) ∧ g'.freq = some (1 / 8) := by
  refine ⟨_, _, by
    simp [genRun, Periodic.gen, Periodic.fresh, fourSlots, Base.ofDyn, Periodic.init, Base.init,
      Base.tauOrDefault, boundsInverted, dropInf, Periodic.derive, pyDiv, sampleLoop, Base.finish,
      applyBounds]
    exact ⟨rfl, rfl⟩, ?_⟩
  simp

/-- **C24 fails for the number of waves**: configured through the frequency, the generator
reports `pulse_time / freq` waves, not the `freq * pulse_time` that occur.  With frequency 2
over a pulse of length 4 there are 8 waves but 2 are reported. -/
theorem C24_violated_num_waves :
    ∃ g', (⟨fourSlots, none, some 2, none, 0⟩ : Periodic).init none none none none = .ok g' ∧
      g'.freq = some 2 ∧ g'.base.pulseTime = 4 ∧ g'.numWaves = some 2 := by
  refine ⟨_, by
    simp [fourSlots, Base.ofDyn, Periodic.init, Base.init, Base.tauOrDefault, boundsInverted,
      dropInf, Periodic.derive, pyDiv]
    rfl, rfl, rfl, ?_⟩
  simp only []; norm_num

/-- **C24 fails for a second initialisation**: it derives the frequency from the number of
waves wrongly calculated before, and the frequency configured by the user is lost. -/
theorem C24_violated_reinit :
    ∃ g' g'', (⟨fourSlots, none, some 2, none, 0⟩ : Periodic).init none none none none = .ok g' ∧
      g'.init none none none none = .ok g'' ∧ g'.freq = some 2 ∧ g''.freq = some (1 / 2) := by
  refine ⟨⟨{ fourSlots with initialised := true }, some 2, some 2, some (1 / 2), 0⟩,
    ⟨{ fourSlots with initialised := true }, some 2, some (1 / 2), some 2, 0⟩, ?_, ?_, rfl, rfl⟩
  · simp [fourSlots, Base.ofDyn, Periodic.init, Base.init, Base.tauOrDefault, boundsInverted,
      dropInf, Periodic.derive, pyDiv]
    norm_num
  · norm_num [fourSlots, Base.ofDyn, Periodic.init, Base.init, Base.tauOrDefault, boundsInverted,
      dropInf, Periodic.derive, pyDiv]

/-- **C24**, linear pulses: a new generator with start and end values yields, before
bounding, the straight line from `scaling * start` in the first slot with the gradient that
reaches `scaling * end` at the start of the last slot. -/
theorem C24_linear_partial (b : Base) (grad0 : Option Flt) (s e last : ℝ) (g' : Linear)
    (out : List Flt) (hnew : b.initialised = false)
    (hlen : b.tauOrDefault.length = b.numTslots) (hlast : b.tauOrDefault.getLast? = some last)
    (hT : b.pulseTime ≠ last)
    (h : Linear.gen ⟨b, grad0, some s, some e⟩ none none none = .ok (g', out)) :
    ∃ raw, raw.length = b.numTslots ∧ g'.base.finish raw = .ok out ∧
      (∀ k, k < b.numTslots → raw[k]? = some (b.scaling *
        (s + (e - s) / (b.pulseTime - last) * slotStart b.tauOrDefault k))) ∧
      raw[0]? = some (b.scaling * s) ∧
      (b.tauOrDefault.sum = b.pulseTime → raw[b.numTslots - 1]? = some (b.scaling * e)) := by
  have hpos : 0 < b.numTslots := by
    rw [← hlen]
    cases hl : b.tauOrDefault with
    | nil => rw [hl] at hlast; simp at hlast
    | cons => simp
  unfold Linear.gen at h
  simp only [Option.isSome_none, Bool.or_false, Bool.false_eq_true, if_false, hnew] at h
  split at h
  · cases h
  · rename_i g2 hg2
    unfold Linear.init at hg2
    split at hg2
    · cases hg2
    · rename_i b' hb'
      obtain ⟨i1, i2, i3, i4, i5, i6⟩ := init_initialised hb'
      simp only [i3, Option.getD_some, hlast, i2] at hg2
      injection hg2 with hg2
      subst hg2
      simp only [i3, i4, i5, fin_div (sub_ne_zero.2 hT), fin_mul, fin_add] at h
      rw [sampleLoop_map (fun t => b.scaling * ((e - s) / (b.pulseTime - last) * t + s)) Flt.fin] at h
      obtain ⟨l, h1, h2, h3⟩ := sampleLoop_ok
        (fun t => b.scaling * ((e - s) / (b.pulseTime - last) * t + s)) b.numTslots 0
        b.tauOrDefault hlen.ge
      rw [h1] at h
      simp only [Except.map] at h
      split at h
      · cases h
      · rename_i o ho
        injection h with h
        cases h
        have hk : ∀ k, k < b.numTslots → l[k]? = some (b.scaling *
            (s + (e - s) / (b.pulseTime - last) * slotStart b.tauOrDefault k)) := by
          intro k hk
          rw [h3 k hk, zero_add, add_comm s]
          rfl
        refine ⟨l, h2, ho, hk, ?_, ?_⟩
        · rw [hk 0 hpos]; simp [slotStart]
        · intro hsum
          rw [hk _ (by omega)]
          have hd : slotStart b.tauOrDefault (b.numTslots - 1) = b.pulseTime - last := by
            unfold slotStart
            have hcat : b.tauOrDefault = b.tauOrDefault.dropLast ++ [last] :=
              (List.dropLast_append_getLast? _ hlast).symm
            rw [← hlen, ← List.dropLast_eq_take]
            rw [hcat, List.sum_append] at hsum
            simp at hsum
            linarith
          rw [hd]
          have := sub_ne_zero.2 hT
          congr 2
          field_simp
          ring

/-- The hypotheses are met by the default linear pulse over four slots. -/
example : ∃ g' out, Linear.gen ⟨fourSlots, none, some (-1), some 1⟩ none none none = .ok (g', out) ∧
    fourSlots.tauOrDefault.length = fourSlots.numTslots ∧
    fourSlots.tauOrDefault.getLast? = some 1 ∧ fourSlots.pulseTime ≠ 1 := by
  refine ⟨_, _, by
    simp [Linear.gen, Linear.init, fourSlots, Base.ofDyn, Base.init, Base.tauOrDefault,
      boundsInverted, dropInf, sampleLoop, applyBounds]
    exact ⟨rfl, rfl⟩, rfl, rfl, ?_⟩
  norm_num [fourSlots, Base.ofDyn]

/-- **C24 fails for a linear pulse of one slot**: the gradient is divided by the zero
distance between the start of the first and of the last slot, and the amplitude is nan. -/
theorem C24_violated_linear_single :
    ∃ g', Linear.gen (Linear.fresh (Base.ofDyn 1 1 1 0 [1] false)) none none none =
      .ok (g', [.nan]) := by
  exact ⟨_, by
    simp [Linear.gen, Linear.fresh, Linear.init, Base.ofDyn, Base.init, Base.tauOrDefault,
      boundsInverted, dropInf, sampleLoop, applyBounds, Flt.div, Flt.mul, Flt.add]
    rfl⟩

/-- **C24 fails for the gradient argument of linear pulses**: its value has no influence at
all on the pulse. -/
theorem C24_violated_linear_gradient (g : Linear) (s e : Option ℝ) (x y : ℝ) :
    g.gen (some x) s e = g.gen (some y) s e := rfl

/-! ### C25: validation of bounds -/

/-- **C25.** Initialising rejects an upper bound below the lower one and, if it succeeds,
drops infinite bounds and keeps all others. -/
theorem C25_init (b : Base) :
    (∀ l u : ℝ, b.lbound = some (.fin l) → b.ubound = some (.fin u) → u < l →
      ∃ e, b.init = .error e) ∧
    (∀ b', b.init = .ok b' → GoodBounds b.lbound b.ubound →
      FiniteBound b'.lbound ∧ FiniteBound b'.ubound ∧
      (∀ l : ℝ, b'.lbound = some (.fin l) ↔ b.lbound = some (.fin l)) ∧
      (∀ u : ℝ, b'.ubound = some (.fin u) ↔ b.ubound = some (.fin u))) := by
  constructor
  · intro l u hl hu hlt
    cases hi : b.init with
    | error e => exact ⟨e, rfl⟩
    | ok b' =>
      obtain ⟨_, _, hb, _⟩ := init_eq hi
      rw [hl, hu] at hb
      simp [dropInf, isInf, boundsInverted, ← Bool.not_eq_true] at hb
      exact absurd hlt (not_lt.2 hb)
  · intro b' hi hg
    obtain ⟨_, rfl, _⟩ := init_eq hi
    exact ⟨dropInf_finite hg.1, dropInf_finite hg.2.1, fun _ => dropInf_fin, fun _ => dropInf_fin⟩

/-- **C25**, partial: all generators except the zero and the random one reject inverted
bounds, and treat infinite bounds as absent ones, when first used. -/
theorem C25_generators_partial (fuel : ℕ) (rnd : ℕ → ℝ) (b : Base) (k : Kind)
    (hk : Initialises k) (hi : b.initialised = false) :
    (∀ l u : ℝ, b.lbound = some (.fin l) → b.ubound = some (.fin u) → u < l →
      ∃ e, generate fuel rnd b k = some (.error e)) ∧
    generate fuel rnd { b with lbound := dropInf b.lbound, ubound := dropInf b.ubound } k =
      generate fuel rnd b k := by
  constructor
  · intro l u hl hu hlt
    obtain ⟨e, he⟩ := (C25_init b).1 l u hl hu hlt
    exact generate_init_error hk hi he
  · exact generate_congr hk hi hi (init_dropInf b) rfl rfl

/-- **C25 fails for the zero and random generators**, which are not initialised by
`gen_pulse`: inverted bounds are accepted.  The zero generator then returns nan, the random
one amplitudes above both bounds. -/
theorem C25_violated_unchecked :
    ∃ b : Base, b.lbound = some (.fin 2) ∧ b.ubound = some (.fin 1) ∧
      genZero b = .ok [.nan, .nan] ∧
      ∃ rnd : ℕ → ℝ, (∀ i, 0 ≤ rnd i ∧ rnd i < 1) ∧ genRandom b rnd = .ok [.fin 3, .fin 2] := by
  refine ⟨{ Base.ofDyn 2 1 1 0 [1, 1] false with lbound := some (.fin 2), ubound := some (.fin 1) },
    rfl, rfl, ?_, fun i => if i = 0 then 1 / 4 else 3 / 4, ?_, ?_⟩
  · norm_num [genZero, Base.finish, Base.ofDyn, applyBounds, pyMax, pyMin, upOk, lowOk, Flt.sub,
      Flt.neg, Flt.add, Flt.lt, Flt.le, Flt.div, Flt.mul, List.replicate]
  · intro i
    simp only []
    split <;> norm_num
  · norm_num [genRandom, Base.finish, Base.ofDyn, applyBounds, pyMax, pyMin, upOk, lowOk, Flt.sub,
      Flt.neg, Flt.add, Flt.lt, Flt.le, Flt.div, Flt.mul, List.range_succ]

/-- **C25 fails for infinite bounds on the zero and random generators**: with the
documented default `-inf` as lower bound and an upper bound that has to be enforced, every
amplitude becomes `-inf`. -/
theorem C25_violated_infinite (rnd : ℕ → ℝ) :
    ∃ b : Base, b.lbound = some (.inf true) ∧ b.ubound = some (.fin (-3)) ∧
      genZero b = .ok [.inf true] ∧
      ((∀ i, 0 ≤ rnd i ∧ rnd i < 1) → genRandom b rnd = .ok [.inf true]) := by
  refine ⟨{ Base.ofDyn 1 1 1 0 [1] false with lbound := some (.inf true), ubound := some (.fin (-3)) },
    rfl, rfl, ?_, ?_⟩
  · norm_num [genZero, Base.finish, Base.ofDyn, applyBounds, pyMax, pyMin, upOk, lowOk, Flt.sub,
      Flt.neg, Flt.add, Flt.lt, Flt.le]
  · intro h
    have h0 := h 0
    have : ¬ (2 * rnd 0 - 1 ≤ -3) := by linarith
    simp [genRandom, Base.finish, Base.ofDyn, applyBounds, pyMax, pyMin, upOk, lowOk, Flt.sub,
      Flt.neg, Flt.add, Flt.lt, Flt.le, List.range_one, this]

/-! ### C26: random pulses -/

/-- `np.random.random` yields numbers in `[0, 1)`. -/
def InUnit (rnd : ℕ → ℝ) : Prop := ∀ i, 0 ≤ rnd i ∧ rnd i < 1

/-- **C26**, random pulses: before bounding all amplitudes are within `scaling` of zero;
hence within `scaling` of the offset without bounds. -/
theorem C26_random (b : Base) (rnd : ℕ → ℝ) (hr : InUnit rnd) :
    ∃ raw : List ℝ, raw.length = b.numTslots ∧ (∀ x ∈ raw, |x| ≤ |b.scaling|) ∧
      genRandom b rnd = b.finish raw ∧
      (b.lbound = none → b.ubound = none → ∃ out, genRandom b rnd = .ok out ∧
        out.length = b.numTslots ∧
        ∀ y ∈ out, ∃ r : ℝ, y = .fin r ∧ |r - b.offset| ≤ |b.scaling|) := by
  have hraw : ∀ x ∈ (List.range b.numTslots).map fun k => (2 * rnd k - 1) * b.scaling,
      |x| ≤ |b.scaling| := by
    intro x hx
    obtain ⟨k, _, rfl⟩ := List.mem_map.1 hx
    rw [abs_mul, mul_comm 2]
    have := rand_centered (hr k).1 (hr k).2
    calc |rnd k * 2 - 1| * |b.scaling| ≤ 1 * |b.scaling| := by gcongr
      _ = |b.scaling| := one_mul _
  refine ⟨_, by simp, hraw, rfl, ?_⟩
  intro hl hu
  refine ⟨(((List.range b.numTslots).map fun k => (2 * rnd k - 1) * b.scaling).map Flt.fin).map
    fun x => x.add (.fin b.offset), by simp only [genRandom, Base.finish, hl, hu, applyBounds,
    Option.isNone_none, Bool.and_self, if_true], by simp, ?_⟩
  intro y hy
  obtain ⟨z, hz, rfl⟩ := List.mem_map.1 hy
  obtain ⟨x, hx, rfl⟩ := List.mem_map.1 hz
  exact ⟨x + b.offset, rfl, by rw [add_sub_cancel_right]; exact hraw x hx⟩

/-- **C26**, first random walk: consecutive amplitudes of the returned pulse never differ
by more than `max_d_amp * scaling`, whatever bounds are enforced. -/
theorem C26_walk1 (b : Base) (d : ℝ) (rnd : ℕ → ℝ) (hr : InUnit rnd) (out : List Flt)
    (hgood : GoodBounds b.lbound b.ubound)
    (hfin : b.initialised = true → FiniteBound b.lbound ∧ FiniteBound b.ubound)
    (h : genRndWalk1 b d rnd = .ok out) (k : ℕ) (y z : Flt)
    (hy : out[k]? = some y) (hz : out[k + 1]? = some z) :
    ∃ p q : ℝ, y = .fin p ∧ z = .fin q ∧ |q - p| ≤ |d * b.scaling| := by
  unfold genRndWalk1 at h
  split at h
  · cases h
  · rename_i g' hg'
    have hready := ready_ensure hgood hfin hg'
    split at h
    · rename_i tau htau
      obtain ⟨lb, ub, _, _, a, c, hb, rfl⟩ := finish_spec hready.low hready.up hready.good h
      rw [List.getElem?_map] at hy hz
      obtain ⟨p, hp, rfl⟩ := Option.map_eq_some_iff.1 hy
      obtain ⟨q, hq, rfl⟩ := Option.map_eq_some_iff.1 hz
      refine ⟨_, _, rfl, rfl, ?_⟩
      have hstep := walk1_step _ _ _ _ (fun i => hr (i + 1)) k p q hp hq
      rw [show a * q + c - (a * p + c) = a * (q - p) by ring, abs_mul, abs_of_nonneg hb.nonneg]
      calc a * |q - p| ≤ 1 * |d * b.scaling| :=
            mul_le_mul hb.le_one hstep (abs_nonneg _) zero_le_one
        _ = |d * b.scaling| := one_mul _
    · cases h

/-- A walk over four slots. -/
example : (∃ out, genRndWalk1 (Base.ofDyn 4 4 1 0 [1, 1, 1, 1] true) (1 / 10) (fun _ => 1 / 2) =
      .ok out) ∧ InUnit (fun _ => 1 / 2) := by
  refine ⟨⟨_, by
    simp [genRndWalk1, Base.ensureInit, Base.ofDyn, Base.init, timeLoop, Base.tauOrDefault,
      Except.map, boundsInverted, dropInf, Base.finish, applyBounds]
    rfl⟩, fun _ => by norm_num⟩

/-- **C26**, second random walk: the change of step between consecutive slots is at most
`max_d2_amp`. -/
theorem C26_walk2_partial (b : Base) (d : ℝ) (rnd : ℕ → ℝ) (hr : InUnit rnd) (out : List Flt)
    (hgood : GoodBounds b.lbound b.ubound)
    (hfin : b.initialised = true → FiniteBound b.lbound ∧ FiniteBound b.ubound)
    (h : genRndWalk2 b d rnd = .ok out) (k : ℕ) (x y z : Flt)
    (hx : out[k]? = some x) (hy : out[k + 1]? = some y) (hz : out[k + 2]? = some z) :
    ∃ o p q : ℝ, x = .fin o ∧ y = .fin p ∧ z = .fin q ∧ |(q - p) - (p - o)| ≤ |d| := by
  unfold genRndWalk2 at h
  split at h
  · cases h
  · rename_i g' hg'
    have hready := ready_ensure hgood hfin hg'
    split at h
    · rename_i tau htau
      obtain ⟨lb, ub, _, _, a, c, hb, rfl⟩ := finish_spec hready.low hready.up hready.good h
      rw [List.getElem?_map] at hx hy hz
      obtain ⟨o, ho, rfl⟩ := Option.map_eq_some_iff.1 hx
      obtain ⟨p, hp, rfl⟩ := Option.map_eq_some_iff.1 hy
      obtain ⟨q, hq, rfl⟩ := Option.map_eq_some_iff.1 hz
      refine ⟨_, _, _, rfl, rfl, rfl, ?_⟩
      have hstep := walk2_step _ _ _ _ _ (fun i => hr (i + 1)) k o p q ho hp hq
      rw [show a * q + c - (a * p + c) - (a * p + c - (a * o + c)) = a * ((q - p) - (p - o)) by ring,
        abs_mul, abs_of_nonneg hb.nonneg]
      calc a * |(q - p) - (p - o)| ≤ 1 * |d| :=
            mul_le_mul hb.le_one hstep (abs_nonneg _) zero_le_one
        _ = |d| := one_mul _
    · cases h

/-- **C26 fails for the scaling of the second walk**: documented to be factored by
`scaling`, the limit on the change of step is not.  With limit 1 and scaling 1/4 there are
random numbers for which the step changes by 3/4. -/
theorem C26_violated_walk2_scaling :
    ∃ (rnd : ℕ → ℝ), InUnit rnd ∧
      genRndWalk2 (Base.ofDyn 3 3 (1 / 4) 0 [1, 1, 1] false) 1 rnd =
        .ok [.fin 0, .fin 0, .fin (3 / 4)] := by
  refine ⟨fun i => if i = 2 then 7 / 8 else 1 / 2, ?_, ?_⟩
  · intro i
    simp only []
    split <;> norm_num
  · simp [genRndWalk2, Base.ensureInit, Base.ofDyn, Base.init, Base.tauOrDefault, boundsInverted,
      dropInf, Base.finish, walk2, applyBounds]
    norm_num

/-- **C26**, Fourier series: an impossible minimum wavelength is rejected; otherwise, for a
positive one, the decomposition terminates after some number of tests, with at least one
component; the components' wavelengths are the successive halves of twice the pulse time
that exceed the minimum. -/
theorem C26_fourier_terminates (b : Base) (m : ℝ) (rnd : ℕ → ℝ) :
    (b.pulseTime < m → ∀ fuel, genRndFourier fuel b m rnd = some (.error .valueError)) ∧
    (0 < m → m ≤ b.pulseTime → ∃ fuel wl, waveLens fuel (2 * b.pulseTime) m = some wl ∧
      wl ≠ [] ∧ (∀ i, i < wl.length → wl[i]? = some (2 * b.pulseTime / 2 ^ i)) ∧
      (∀ x ∈ wl, m < x) ∧ 2 * b.pulseTime / 2 ^ wl.length ≤ m ∧
      genRndFourier fuel b m rnd ≠ none) := by
  constructor
  · intro h fuel
    simp [genRndFourier, h]
  · intro hm hT
    obtain ⟨n, hn⟩ := pow_unbounded_of_one_lt (2 * b.pulseTime / m) (one_lt_two (α := ℝ))
    have hle : 2 * b.pulseTime / 2 ^ n ≤ m := by
      rw [div_lt_iff₀ hm] at hn
      rw [div_le_iff₀ (by positivity)]
      linarith
    obtain ⟨wl, hwl⟩ := waveLens_terminates m n _ hle
    obtain ⟨h1, h2, h3⟩ := waveLens_spec _ _ _ _ hwl
    refine ⟨n + 1, wl, hwl, ?_, h1, h2, h3, ?_⟩
    · rintro rfl
      simp at h3
      linarith
    · unfold genRndFourier
      rw [if_neg (not_lt.2 hT)]
      split
      · simp
      · rename_i g' hg'
        have hp : g'.pulseTime = b.pulseTime := by
          rcases ensureInit_bounds hg' with ⟨_, rfl⟩ | ⟨_, h⟩
          · rfl
          · exact (init_initialised h).2.1
        rw [hp, hwl]
        split
        · rename_i he; cases he
        · simp only []
          split <;> simp
        · simp

/-- **C26 fails for a negative minimum wavelength**: it is not rejected, and the
decomposition never ends. -/
theorem C26_violated_fourier_diverges (b : Base) (m : ℝ) (rnd : ℕ → ℝ) (b' : Base)
    (hT : 0 < b.pulseTime) (hm : m < 0) (hb : b.ensureInit = .ok b') :
    ∀ fuel, genRndFourier fuel b m rnd = none := by
  intro fuel
  have hp : b'.pulseTime = b.pulseTime := by
    rcases ensureInit_bounds hb with ⟨_, rfl⟩ | ⟨_, h⟩
    · rfl
    · exact (init_initialised h).2.1
  unfold genRndFourier
  rw [if_neg (by linarith), hb]
  simp only [hp, waveLens_diverges m hm.le fuel (2 * b.pulseTime) (by linarith)]

/-- The divergence happens for an ordinary new generator. -/
example : ∃ b', (Base.ofDyn 4 4 1 0 [1, 1, 1, 1] true).ensureInit = .ok b' ∧
    (0 : ℝ) < (Base.ofDyn 4 4 1 0 [1, 1, 1, 1] true).pulseTime := by
  exact ⟨_, by
    simp [Base.ensureInit, Base.ofDyn, Base.init, timeLoop, Base.tauOrDefault, Except.map,
      boundsInverted, dropInf]
    rfl, by norm_num [Base.ofDyn]⟩

/-- **C26**, amplitude of the Fourier and wave sums: before bounding, at most
`sqrt 8 * scaling` in absolute value. -/
theorem C26_wave_sums (b : Base) (rnd : ℕ → ℝ) (hr : InUnit rnd) (out : List Flt) :
    (∀ fuel m, genRndFourier fuel b m rnd = some (.ok out) →
      ∃ b' raw, b.ensureInit = .ok b' ∧ b'.finish raw = .ok out ∧
        ∀ x ∈ raw, |x| ≤ Real.sqrt 8 * |b.scaling|) ∧
    (∀ n m M, genRndWaves b n m M rnd = .ok out →
      m ≤ b.pulseTime ∧ m < M ∧ ∃ b' raw, b.ensureInit = .ok b' ∧ b'.finish raw = .ok out ∧
        ∀ x ∈ raw, |x| ≤ Real.sqrt 8 * |b.scaling|) := by
  have hsc : ∀ b', b.ensureInit = .ok b' → b'.scaling = b.scaling := by
    intro b' hb
    rcases ensureInit_bounds hb with ⟨_, rfl⟩ | ⟨_, h⟩
    · rfl
    · exact (init_initialised h).2.2.2.2.1
  have tot : ∀ (n : ℕ), (0 : ℝ) + n * |Real.sqrt 8 * b.scaling / n| ≤ Real.sqrt 8 * |b.scaling| := by
    intro n
    rcases Nat.eq_zero_or_pos n with rfl | hn
    · simp
    · have : (0 : ℝ) < n := by exact_mod_cast hn
      rw [zero_add, abs_div, abs_mul, abs_of_nonneg (Real.sqrt_nonneg 8), abs_of_pos this]
      apply le_of_eq
      field_simp
  constructor
  · intro fuel m h
    unfold genRndFourier at h
    split at h
    · cases h
    · split at h
      · cases h
      · rename_i g' hg'
        split at h
        · cases h
        · rename_i wl tau t hw htau ht
          simp only [] at h
          split at h
          · cases h
          · rename_i s hs
            refine ⟨g', s, hg', Option.some.inj h, ?_⟩
            obtain ⟨_, hbd⟩ := addWaves_bound (A := |Real.sqrt 8 * b.scaling / wl.length|) _ (by
              intro w hw x
              obtain ⟨i, _, rfl⟩ := List.mem_map.1 hw
              rw [hsc _ hg']
              exact compWave_bound _ _ _ (hr _).1 (hr _).2) _ _ 0 (by
                intro x hx; rw [List.eq_of_mem_replicate hx]; simp) hs
            intro x hx
            refine (hbd x hx).trans ?_
            rw [List.length_map, List.length_range]
            exact tot wl.length
        · cases h
  · intro n m M h
    unfold genRndWaves at h
    split at h
    · cases h
    · rename_i h1
      split at h
      · cases h
      · rename_i h2
        refine ⟨not_lt.1 h1, not_le.1 h2, ?_⟩
        split at h
        · cases h
        · rename_i g' hg'
          split at h
          · rename_i tau t htau ht
            simp only [] at h
            split at h
            · cases h
            · rename_i s hs
              refine ⟨g', s, hg', h, ?_⟩
              obtain ⟨_, hbd⟩ := addWaves_bound (A := |Real.sqrt 8 * b.scaling / n|) _ (by
                intro w hw x
                obtain ⟨i, _, rfl⟩ := List.mem_map.1 hw
                rw [hsc _ hg']
                exact compWave_bound _ _ _ (hr _).1 (hr _).2) _ _ 0 (by
                  intro x hx; rw [List.eq_of_mem_replicate hx]; simp) hs
              intro x hx
              refine (hbd x hx).trans ?_
              rw [List.length_map, List.length_range]
              exact tot n
          · cases h

end QTrl.Pulse
