import Verif.Proofs.PulseGauss
import Verif.Props.Pulse
import Mathlib.Analysis.Complex.ExponentialBounds

/-
C53: Gaussian and Gaussian-edge pulses.
-/

namespace QTrl.Pulse

open QTrl.Spec

/-- **C53.** A new Gaussian generator with a positive variance yields, before bounding, at the
start of every slot the normal density with the mean and the variance in force (the attributes,
or the arguments that are given and not zero), scaled to the peak `scaling`. -/
theorem C53_gaussian_partial (b : Base) (m v : ℝ) (ma va : Option ℝ) (out : List Flt)
    (w : NNReal) (hw : truthyOr va v = w) (hw0 : w ≠ 0)
    (hnew : b.initialised = false) (hu : b.usesTime = true)
    (hlen : b.numTslots ≤ b.tauOrDefault.length + 1)
    (h : genGaussian b m v ma va = .ok out) :
    ∃ raw : List ℝ, raw.length = b.numTslots ∧
      applyBounds (dropInf b.lbound) (dropInf b.ubound) b.offset (raw.map .fin) = .ok out ∧
      ∀ k, k < b.numTslots → raw[k]? =
        some (gaussianShape b.scaling (truthyOr ma m) w (slotStart b.tauOrDefault k)) := by
  unfold genGaussian at h
  split at h
  · cases h
  · rename_i b' hb'
    obtain ⟨t, h1, h2, h3, h4, h5, h6, h7, h8⟩ := ensureInit_time hnew hu hlen hb'
    have hne : truthyOr va v ≠ 0 := by
      rw [hw]; exact_mod_cast hw0
    simp only [h1] at h
    rw [gaussian_fin _ _ _ _ hne] at h
    refine ⟨t.map fun x => gaussianShape b.scaling (truthyOr ma m) w x, ?_, ?_, ?_⟩
    · simpa using h2
    · rw [← h4, ← h5, ← h6, ← h]
      simp only [gaussianShape_eq _ _ _ hw0, h7, hw]
    · exact map_samples _ h3

/-- **C53.** Without bounds the pulse is that plus the offset, and with a positive scaling its
values lie above the offset and at most at `scaling + offset`, which is the value of the slots
that begin at the mean and of no others. -/
theorem C53_gaussian_peak (b : Base) (m v : ℝ) (out : List Flt) (hv : 0 < v)
    (hs : 0 < b.scaling) (hnew : b.initialised = false) (hu : b.usesTime = true)
    (hlen : b.numTslots ≤ b.tauOrDefault.length + 1)
    (hl : dropInf b.lbound = none) (hub : dropInf b.ubound = none)
    (h : genGaussian b m v none none = .ok out) :
    out.length = b.numTslots ∧ ∀ k, k < b.numTslots → ∃ y : ℝ, out[k]? = some (.fin y) ∧
      b.offset < y ∧ y ≤ b.scaling + b.offset ∧
      (y = b.scaling + b.offset ↔ slotStart b.tauOrDefault k = m) := by
  have hv' : (⟨v, hv.le⟩ : NNReal) ≠ 0 := by
    intro h0
    exact hv.ne' (congrArg NNReal.toReal h0)
  obtain ⟨raw, h1, h2, h3⟩ := C53_gaussian_partial b m v none none out ⟨v, hv.le⟩ rfl hv' hnew hu
    hlen h
  have h4 : out = raw.map fun x => .fin (x + b.offset) :=
    finish_unbounded (b := { b with lbound := none, ubound := none }) rfl rfl
      (by unfold Base.finish; rw [← h2, hl, hub])
  subst h4
  refine ⟨by simpa using h1, fun k hk => ⟨_, by rw [List.getElem?_map, h3 k hk]; rfl, ?_⟩⟩
  rw [gaussianShape_eq _ _ _ hv']
  have hexp : -(slotStart b.tauOrDefault k - m) ^ 2 / (2 * v) ≤ 0 := by
    apply div_nonpos_of_nonpos_of_nonneg
    · nlinarith [sq_nonneg (slotStart b.tauOrDefault k - m)]
    · linarith
  have e1 := Real.exp_pos (-(slotStart b.tauOrDefault k - m) ^ 2 / (2 * v))
  have e2 := Real.exp_le_one_iff.2 hexp
  show _ < b.scaling * Real.exp (-(slotStart b.tauOrDefault k - m) ^ 2 / (2 * v)) + _ ∧
    b.scaling * Real.exp (-(slotStart b.tauOrDefault k - m) ^ 2 / (2 * v)) + _ ≤ _ ∧
    (b.scaling * Real.exp (-(slotStart b.tauOrDefault k - m) ^ 2 / (2 * v)) + _ = _ ↔ _)
  refine ⟨by nlinarith, by nlinarith, ?_⟩
  constructor
  · intro e
    have : Real.exp (-(slotStart b.tauOrDefault k - m) ^ 2 / (2 * v)) = 1 := by
      have : b.scaling * Real.exp (-(slotStart b.tauOrDefault k - m) ^ 2 / (2 * v)) =
          b.scaling * 1 := by linarith
      exact mul_left_cancel₀ hs.ne' this
    rw [Real.exp_eq_one_iff] at this
    rcases div_eq_zero_iff.1 this with h0 | h0
    · have : (slotStart b.tauOrDefault k - m) ^ 2 = 0 := by linarith
      have := pow_eq_zero_iff (two_ne_zero) |>.1 this
      linarith
    · linarith
  · intro e
    rw [e]
    simp

/-- The default Gaussian over four slots of one time unit meets the hypotheses; its third slot
begins at the mean and has the full amplitude. -/
example : ∃ out, genGaussian (Base.ofDyn 4 4 1 0 [1, 1, 1, 1] true) 2 2 none none = .ok out ∧
    out[2]? = some (.fin 1) := by
  refine ⟨_, by
    simp [genGaussian, Base.ensureInit, Base.ofDyn, Base.init, Base.tauOrDefault, timeLoop,
      Except.map, boundsInverted, dropInf, truthyOr, applyBounds]
    rfl, ?_⟩
  simp [Flt.div]
  norm_num

/-- **C53.** A Gaussian generator created without parameters has its peak in the middle of the
pulse. -/
theorem C53_default_peak (fuel : ℕ) (rnd : ℕ → ℝ) (b : Base) (k : Kind) (out : List Flt)
    (hk : createPulseGen "GAUSSIAN" b.pulseTime = .ok (.gen k)) (hT : 0 < b.pulseTime)
    (hs : 0 < b.scaling) (hnew : b.initialised = false) (hu : b.usesTime = true)
    (hlen : b.numTslots ≤ b.tauOrDefault.length + 1)
    (hl : dropInf b.lbound = none) (hub : dropInf b.ubound = none)
    (h : generate fuel rnd b k = some (.ok out)) :
    ∀ j, j < b.numTslots → (out[j]? = some (.fin (b.scaling + b.offset)) ↔
      slotStart b.tauOrDefault j = b.pulseTime / 2) := by
  have : k = .gaussian (b.pulseTime / 2) (b.pulseTime / 2) := by
    simp [createPulseGen] at hk
    rw [← hk]
    norm_num
    ring
  subst this
  intro j hj
  obtain ⟨y, h1, _, _, h2⟩ := (C53_gaussian_peak b _ _ out (by linarith) hs hnew hu hlen hl hub
    (Option.some.inj h)).2
    j hj
  rw [h1, ← h2]
  constructor
  · intro e; injection e with e; injection e
  · intro e; rw [e]

/-- **C53 fails for a peak at the beginning**: asking for the mean 0 is taken for not asking,
and the pulse is the one with the mean of the attribute. -/
theorem C53_violated_mean_zero (b : Base) (m v : ℝ) (va : Option ℝ) :
    genGaussian b m v (some 0) va = genGaussian b m v none va := by
  have : truthyOr (some 0) m = truthyOr none m := by simp [truthyOr]
  simp only [genGaussian, this]

/-- **C53**, Gaussian edges: a new generator with a positive decay time yields, before bounding,
`scaling` times a shape that is within `exp (-T ^ 2 / decay)` of zero at the beginning, within
`2 * exp (-d ^ 2 / decay)` of one at any time `d` away from both ends, and between -1 and 1
everywhere. -/
theorem C53_edge_partial (b : Base) (d : ℝ) (da : Option ℝ) (out : List Flt)
    (hd : 0 < truthyOr da d) (hnew : b.initialised = false) (hu : b.usesTime = true)
    (hlen : b.numTslots ≤ b.tauOrDefault.length + 1)
    (h : genGaussianEdge b d da = .ok out) :
    ∃ (raw : List ℝ) (shape : ℝ → ℝ), raw.length = b.numTslots ∧
      applyBounds (dropInf b.lbound) (dropInf b.ubound) b.offset (raw.map .fin) = .ok out ∧
      (∀ k, k < b.numTslots → raw[k]? =
        some (b.scaling * shape (slotStart b.tauOrDefault k))) ∧
      (∀ x, shape (b.pulseTime - x) = shape x) ∧
      (∀ x, |shape x| ≤ 1) ∧
      |shape 0| ≤ Real.exp (-b.pulseTime ^ 2 / truthyOr da d) ∧
      ∀ x e, 0 ≤ e → e ≤ x → e ≤ b.pulseTime - x →
        1 - 2 * Real.exp (-e ^ 2 / truthyOr da d) ≤ shape x ∧ shape x < 1 := by
  unfold genGaussianEdge at h
  split at h
  · cases h
  · rename_i b' hb'
    obtain ⟨t, h1, h2, h3, h4, h5, h6, h7, h8⟩ := ensureInit_time hnew hu hlen hb'
    simp only [h1] at h
    rw [edge_fin _ _ _ _ hd.ne'] at h
    generalize truthyOr da d = D at *
    have le1 : ∀ y : ℝ, Real.exp (-y ^ 2 / D) ≤ 1 := fun y =>
      Real.exp_le_one_iff.2 (div_nonpos_of_nonpos_of_nonneg (by nlinarith [sq_nonneg y]) hd.le)
    have pos : ∀ y : ℝ, 0 < Real.exp (-y ^ 2 / D) := fun y => Real.exp_pos _
    refine ⟨t.map fun x => b.scaling *
        (1 - Real.exp (-x ^ 2 / D) - Real.exp (-(x - b.pulseTime) ^ 2 / D)),
      fun x => 1 - Real.exp (-x ^ 2 / D) - Real.exp (-(x - b.pulseTime) ^ 2 / D), ?_, ?_,
      map_samples _ h3, ?_, ?_, ?_, ?_⟩
    · simpa using h2
    · rw [← h4, ← h5, ← h6, ← h]
      simp only [h7, h8, mul_comm]
    · intro x
      have e1 : (b.pulseTime - x - b.pulseTime) ^ 2 = x ^ 2 := by ring
      have e2 : (b.pulseTime - x) ^ 2 = (x - b.pulseTime) ^ 2 := by ring
      simp only [e1, e2]
      ring
    · intro x
      rw [abs_le]
      have := le1 x; have := pos x; have := le1 (x - b.pulseTime); have := pos (x - b.pulseTime)
      constructor <;> linarith
    · have e : (0 - b.pulseTime) ^ 2 = b.pulseTime ^ 2 := by ring
      simp only [e]
      have := pos b.pulseTime
      rw [abs_le]
      constructor
      · simp
      · simp
        linarith
    · intro x e he h1 h2
      have mono : ∀ y, e ≤ |y| → Real.exp (-y ^ 2 / D) ≤ Real.exp (-e ^ 2 / D) := by
        intro y hy
        apply Real.exp_le_exp.2
        apply div_le_div_of_nonneg_right _ hd.le
        have := pow_le_pow_left₀ he hy 2
        rw [sq_abs] at this
        linarith
      have a1 := mono x (by rw [abs_of_nonneg (he.trans h1)]; exact h1)
      have a2 := mono (x - b.pulseTime) (by
        rw [abs_sub_comm, abs_of_nonneg (he.trans h2)]; exact h2)
      have := pos x; have := pos (x - b.pulseTime)
      constructor
      · simp only []; linarith
      · simp only []; linarith

/-- **C53 fails for short Gaussian-edge pulses**: with the decay time at its default, a tenth of
the pulse time, and a pulse time of 1/10, the pulse neither starts at zero nor reaches one: it is
negative in every slot, however many there are, and starts below -1/3. -/
theorem C53_violated_edge (n : ℕ) (hn : 0 < n) :
    ∃ out, genGaussianEdge (Base.ofDyn n (1 / 10) 1 0 (List.replicate n (1 / 10 / n)) true)
        (1 / 10 / 10) none = .ok out ∧ out.length = n ∧
      (∀ y ∈ out, ∃ r : ℝ, y = .fin r ∧ r < 0) ∧
      ∃ r : ℝ, out[0]? = some (.fin r) ∧ r < -1 / 3 := by
  set b := Base.ofDyn n (1 / 10) 1 0 (List.replicate n (1 / 10 / n)) true with hb
  have hlen : b.numTslots ≤ b.tauOrDefault.length + 1 := by
    simp [hb, Base.ofDyn, Base.tauOrDefault]
  obtain ⟨b', hb'⟩ := init_ok b ⟨by simp [hb, Base.ofDyn], by simp [hb, Base.ofDyn],
    by simp [hb, Base.ofDyn]⟩ (fun _ => hlen)
  have he : b.ensureInit = .ok b' := by simpa [Base.ensureInit, hb, Base.ofDyn] using hb'
  obtain ⟨t, h1, h2, h3, h4, h5, h6, h7, h8⟩ := ensureInit_time rfl rfl hlen he
  have hgen : genGaussianEdge b (1 / 10 / 10) none = .ok ((t.map fun x =>
      (1 - Real.exp (-x ^ 2 / (1 / 10 / 10)) - Real.exp (-(x - 1 / 10) ^ 2 / (1 / 10 / 10))) * 1).map
        fun x => .fin (x + 0)) := by
    have hT : b'.pulseTime = 1 / 10 := h8
    have hS : b'.scaling = 1 := h7
    have hO : b'.offset = 0 := h6
    have hL : b'.lbound = none := h4
    have hU : b'.ubound = none := h5
    unfold genGaussianEdge
    simp only [he, truthyOr, h1]
    rw [edge_fin _ _ _ _ (by norm_num)]
    simp [hL, hU, hO, hS, hT, applyBounds]
  have hn' : b.numTslots = n := rfl
  refine ⟨_, hgen, by simpa [hn'] using h2, ?_, ?_⟩
  · intro y hy
    simp only [List.map_map, List.mem_map, Function.comp_apply] at hy
    obtain ⟨x, hx, rfl⟩ := hy
    refine ⟨_, rfl, ?_⟩
    obtain ⟨k, hk, hkx⟩ := List.getElem_of_mem hx
    have hk' : k < n := by rw [h2, hn'] at hk; exact hk
    have hxs := h3 k (by rw [hn']; exact hk')
    rw [List.getElem?_eq_getElem hk, hkx] at hxs
    injection hxs with hxs
    have hval : x = k * (1 / 10 / n) := by
      rw [hxs]
      simp [slotStart, hb, Base.ofDyn, Base.tauOrDefault, List.take_replicate, min_eq_left hk'.le]
    have hnpos : (0 : ℝ) < n := by exact_mod_cast hn
    have hkn : (k : ℝ) ≤ n := by exact_mod_cast hk'.le
    have hx0 : 0 ≤ x := by rw [hval]; positivity
    have hx1 : x ≤ 1 / 10 := by
      rw [hval]
      have : (k : ℝ) * (1 / 10 / n) ≤ n * (1 / 10 / n) :=
        mul_le_mul_of_nonneg_right hkn (by positivity)
      rwa [mul_div_cancel₀ _ hnpos.ne'] at this
    have hsum : -x ^ 2 / (1 / 10 / 10) + -(x - 1 / 10) ^ 2 / (1 / 10 / 10) ≥ -1 := by
      nlinarith [mul_nonneg hx0 (sub_nonneg.2 hx1)]
    have a1 := Real.add_one_le_exp (-x ^ 2 / (1 / 10 / 10))
    have a2 := Real.add_one_le_exp (-(x - 1 / 10) ^ 2 / (1 / 10 / 10))
    by_cases hx00 : x = 0
    · have := Real.exp_pos (-(x - 1 / 10) ^ 2 / (1 / 10 / 10))
      subst hx00
      norm_num at this ⊢
      exact this
    · have a3 := Real.add_one_lt_exp (show -x ^ 2 / (1 / 10 / 10) ≠ 0 by
        have := sq_pos_of_ne_zero hx00
        intro h0
        rcases div_eq_zero_iff.1 h0 with h0 | h0
        · linarith
        · norm_num at h0)
      linarith
  · refine ⟨1 - Real.exp (-0 ^ 2 / (1 / 10 / 10)) - Real.exp (-(0 - 1 / 10) ^ 2 / (1 / 10 / 10)), ?_, ?_⟩
    · have h0 := h3 0 (by rw [hn']; exact hn)
      have : slotStart b.tauOrDefault 0 = 0 := by simp [slotStart]
      rw [this] at h0
      simp [List.getElem?_map, h0]
    · have e : (-(0 - 1 / 10) ^ 2 / (1 / 10 / 10) : ℝ) = -1 := by norm_num
      rw [e]
      have h1 := Real.exp_one_lt_d9
      have h2 : Real.exp (-1) * Real.exp 1 = 1 := by rw [← Real.exp_add]; simp
      have h3 := Real.exp_pos (-1)
      norm_num
      nlinarith

/-- **C53 fails for a negative variance**, which is not rejected: without bounds and with a positive
scaling, the pulse is above the documented maximum `scaling + offset` in every slot that does not
begin at the mean. -/
theorem C53_violated_variance (b : Base) (m v : ℝ) (out : List Flt) (hv : v < 0)
    (hs : 0 < b.scaling) (hnew : b.initialised = false) (hu : b.usesTime = true)
    (hlen : b.numTslots ≤ b.tauOrDefault.length + 1)
    (hl : dropInf b.lbound = none) (hub : dropInf b.ubound = none)
    (h : genGaussian b m v none none = .ok out) :
    out.length = b.numTslots ∧ ∀ k, k < b.numTslots → slotStart b.tauOrDefault k ≠ m →
      ∃ y : ℝ, out[k]? = some (.fin y) ∧ b.scaling + b.offset < y := by
  unfold genGaussian at h
  split at h
  · cases h
  · rename_i b' hb'
    obtain ⟨t, h1, h2, h3, h4, h5, h6, h7, h8⟩ := ensureInit_time hnew hu hlen hb'
    simp only [h1, truthyOr] at h
    rw [gaussian_fin _ _ _ _ hv.ne, h4, h5, hl, hub, h6, h7] at h
    have h9 := finish_unbounded (b := { b with lbound := none, ubound := none }) rfl rfl h
    subst h9
    refine ⟨by simpa using h2, fun k hk hkm =>
      ⟨b.scaling * Real.exp (-(slotStart b.tauOrDefault k - m) ^ 2 / (2 * v)) + b.offset, ?_, ?_⟩⟩
    · rw [List.getElem?_map, List.getElem?_map, h3 k hk]
      rfl
    · have hpos : 0 < -(slotStart b.tauOrDefault k - m) ^ 2 / (2 * v) := by
        apply div_pos_of_neg_of_neg
        · have := sq_pos_of_ne_zero (sub_ne_zero.2 hkm)
          linarith
        · linarith
      have := Real.one_lt_exp_iff.2 hpos
      nlinarith

/-- **C53 fails for a variance or a decay time of zero**, which are not rejected either: a slot that
begins at the mean, and the first slot of a pulse with Gaussian edges, have the amplitude nan. -/
theorem C53_violated_zero (b : Base) (m : ℝ) (out : List Flt)
    (hnew : b.initialised = false) (hu : b.usesTime = true)
    (hlen : b.numTslots ≤ b.tauOrDefault.length + 1)
    (hl : dropInf b.lbound = none) (hub : dropInf b.ubound = none) :
    (genGaussian b m 0 none none = .ok out → ∀ k, k < b.numTslots →
      slotStart b.tauOrDefault k = m → out[k]? = some .nan) ∧
    (genGaussianEdge b 0 none = .ok out → 0 < b.numTslots → out[0]? = some .nan) := by
  constructor
  · intro h k hk hkm
    unfold genGaussian at h
    split at h
    · cases h
    · rename_i b' hb'
      obtain ⟨t, h1, h2, h3, h4, h5, h6, h7, h8⟩ := ensureInit_time hnew hu hlen hb'
      simp only [h1, truthyOr, h4, h5, hl, hub, applyBounds, Option.isNone_none, Bool.and_self,
        if_true] at h
      cases h
      rw [List.getElem?_map, List.getElem?_map, h3 k hk, hkm]
      simp [Flt.div, Flt.exp, Flt.mul, Flt.add]
  · intro h hn
    unfold genGaussianEdge at h
    split at h
    · cases h
    · rename_i b' hb'
      obtain ⟨t, h1, h2, h3, h4, h5, h6, h7, h8⟩ := ensureInit_time hnew hu hlen hb'
      simp only [h1, truthyOr, h4, h5, hl, hub, applyBounds, Option.isNone_none, Bool.and_self,
        if_true] at h
      cases h
      rw [List.getElem?_map, List.getElem?_map, h3 0 hn]
      simp [slotStart, Flt.div, Flt.exp, Flt.mul, Flt.add, Flt.sub, Flt.neg]

/-- Four slots of one time unit with the mean at the beginning of the third: the hypotheses of both
are met. -/
example (v : ℝ) : (∃ out, genGaussian (Base.ofDyn 4 4 1 0 [1, 1, 1, 1] true) 2 v none none = .ok out) ∧
    slotStart [1, 1, 1, 1] 2 = (2 : ℝ) ∧
    ∃ out, genGaussianEdge (Base.ofDyn 4 4 1 0 [1, 1, 1, 1] true) 0 none = .ok out := by
  refine ⟨⟨_, by
    simp [genGaussian, Base.ensureInit, Base.ofDyn, Base.init, Base.tauOrDefault, timeLoop,
      Except.map, boundsInverted, dropInf, truthyOr, applyBounds]
    rfl⟩, ?_, ⟨_, by
    simp [genGaussianEdge, Base.ensureInit, Base.ofDyn, Base.init, Base.tauOrDefault, timeLoop,
      Except.map, boundsInverted, dropInf, truthyOr, applyBounds]
    rfl⟩⟩
  simp [slotStart]
  norm_num

/-- A Gaussian over four slots with bounds that have to be enforced meets the hypotheses of
`C22_generators`. -/
example :
    let b := { Base.ofDyn 4 4 1 0 [1, 1, 1, 1] true with
      lbound := some (.fin 0), ubound := some (.fin (1 / 2)) }
    Regular b (.gaussian 2 2) ∧ GoodBounds b.lbound b.ubound ∧ b.initialised = false ∧
    ∃ out, generate 0 (fun _ => 0) b (.gaussian 2 2) = some (.ok out) ∧
      ∀ y ∈ out, AmpWithin b.lbound b.ubound y := by
  intro b
  have hgood : GoodBounds b.lbound b.ubound := by
    refine ⟨by simp [b], by simp [b], ?_⟩
    intro l u hl hu
    cases hl
    cases hu
    norm_num
  have hreg : Regular b (.gaussian 2 2) := by norm_num [Regular]
  obtain ⟨b', hb'⟩ := init_ok b hgood (fun _ => by simp [b, Base.ofDyn, Base.tauOrDefault])
  have he : b.ensureInit = .ok b' := by simpa [Base.ensureInit, b, Base.ofDyn] using hb'
  obtain ⟨t, h1, h2, h3, h4, h5, h6, h7, h8⟩ := ensureInit_time rfl rfl
    (by simp [b, Base.ofDyn, Base.tauOrDefault]) he
  have hne : (t.map fun x => b'.scaling * Real.exp (-(x - 2) ^ 2 / (2 * 2))) ≠ [] := by
    intro h
    have : t.length = 0 := by simpa using congrArg List.length h
    rw [h2] at this
    simp [b, Base.ofDyn] at this
  obtain ⟨out, ho, -, -⟩ := C22_bounds (some 0) (some (1 / 2)) b'.offset _ hne
    (by rintro l hl u hu; cases hl; cases hu; norm_num)
  have hgen : generate 0 (fun _ => 0) b (.gaussian 2 2) = some (.ok out) := by
    simp only [generate, genGaussian, he, h1, truthyOr]
    rw [gaussian_fin _ _ _ _ two_ne_zero, h4, h5]
    exact congrArg some ho
  exact ⟨hreg, hgood, rfl, out, hgen,
    C22_generators 0 _ b _ out hreg hgood (by simp [Initialises, b, Base.ofDyn]) hgen⟩

/-- **C53.** A generator that was given no durations samples at equidistant times: slot `k` begins at
`k` times the pulse time over the number of slots. -/
theorem C53_default_grid (b : Base) (ht : b.tau = none) (k : ℕ) (hk : k ≤ b.numTslots) :
    slotStart b.tauOrDefault k = k * b.pulseTime / b.numTslots ∧
      (0 < b.numTslots → slotStart b.tauOrDefault b.numTslots = b.pulseTime) := by
  have key : ∀ k, k ≤ b.numTslots → slotStart b.tauOrDefault k = k * b.pulseTime / b.numTslots := by
    intro k hk
    simp only [slotStart, Base.tauOrDefault, ht, List.take_replicate, Nat.min_eq_left hk,
      List.sum_replicate, nsmul_eq_mul]
    ring
  refine ⟨key k hk, fun hn => ?_⟩
  rw [key _ le_rfl]
  have : (b.numTslots : ℝ) ≠ 0 := by exact_mod_cast hn.ne'
  field_simp

/-- **C53 fails for a zero variance**, which is not rejected: without bounds the slots that begin at
the mean have the value nan, and all others only the offset. -/
theorem C53_violated_zero_variance (b : Base) (m : ℝ) (out : List Flt)
    (hnew : b.initialised = false) (hu : b.usesTime = true)
    (hlen : b.numTslots ≤ b.tauOrDefault.length + 1)
    (hl : dropInf b.lbound = none) (hub : dropInf b.ubound = none)
    (h : genGaussian b m 0 none none = .ok out) :
    out.length = b.numTslots ∧ ∀ k, k < b.numTslots →
      (slotStart b.tauOrDefault k = m → out[k]? = some .nan) ∧
      (slotStart b.tauOrDefault k ≠ m → out[k]? = some (.fin b.offset)) := by
  unfold genGaussian at h
  split at h
  · cases h
  · rename_i b' hb'
    obtain ⟨t, h1, h2, h3, h4, h5, h6, h7, h8⟩ := ensureInit_time hnew hu hlen hb'
    simp only [h1, h4, h5, hl, hub, h6, h7, applyBounds, truthyOr, Option.isNone_none, Bool.and_self,
      if_true, Except.ok.injEq] at h
    subst h
    refine ⟨by simpa using h2, fun k hk => ?_⟩
    simp only [List.getElem?_map, h3 k hk, Option.map_some]
    constructor
    · intro e
      simp [e, Flt.div, Flt.exp, Flt.mul, Flt.add]
    · intro e
      have : ¬ slotStart b.tauOrDefault k - m = 0 := sub_ne_zero.2 e
      have hp : 0 < (slotStart b.tauOrDefault k - m) ^ 2 := by positivity
      simp [Flt.div, Flt.exp, Flt.mul, Flt.add, this, hp]

/-- **C53 fails for a decay time of zero**, a pulse without ramps: without bounds every slot that
begins strictly inside has the full value, but the first is nan instead of zero, and so is a slot
that begins at the end. -/
theorem C53_violated_zero_decay (b : Base) (out : List Flt)
    (hnew : b.initialised = false) (hu : b.usesTime = true)
    (hlen : b.numTslots ≤ b.tauOrDefault.length + 1)
    (hl : dropInf b.lbound = none) (hub : dropInf b.ubound = none)
    (h : genGaussianEdge b 0 none = .ok out) :
    out.length = b.numTslots ∧ (0 < b.numTslots → out[0]? = some .nan) ∧ ∀ k, k < b.numTslots →
      (slotStart b.tauOrDefault k = b.pulseTime → out[k]? = some .nan) ∧
      (slotStart b.tauOrDefault k ≠ 0 → slotStart b.tauOrDefault k ≠ b.pulseTime →
        out[k]? = some (.fin (b.scaling + b.offset))) := by
  unfold genGaussianEdge at h
  split at h
  · cases h
  · rename_i b' hb'
    obtain ⟨t, h1, h2, h3, h4, h5, h6, h7, h8⟩ := ensureInit_time hnew hu hlen hb'
    simp only [h1, h4, h5, hl, hub, h6, h7, h8, applyBounds, truthyOr, Option.isNone_none,
      Bool.and_self, if_true, Except.ok.injEq] at h
    subst h
    refine ⟨by simpa using h2, fun hn => ?_, fun k hk => ?_⟩
    · simp only [List.getElem?_map, h3 0 hn, Option.map_some]
      simp [slotStart, Flt.div, Flt.exp, Flt.mul, Flt.add, Flt.sub, Flt.neg]
    simp only [List.getElem?_map, h3 k hk, Option.map_some]
    constructor
    · intro e
      rw [e]
      by_cases h0 : b.pulseTime = 0
      · simp [h0, Flt.div, Flt.exp, Flt.mul, Flt.add, Flt.sub, Flt.neg]
      · have hp : 0 < b.pulseTime ^ 2 := by positivity
        simp [h0, hp, Flt.div, Flt.exp, Flt.mul, Flt.add, Flt.sub, Flt.neg]
    · intro e0 e
      have e' : ¬ slotStart b.tauOrDefault k - b.pulseTime = 0 := sub_ne_zero.2 e
      have hp : 0 < (slotStart b.tauOrDefault k - b.pulseTime) ^ 2 := by positivity
      have hp' : 0 < (slotStart b.tauOrDefault k) ^ 2 := by positivity
      simp [e0, e', hp, hp', Flt.div, Flt.exp, Flt.mul, Flt.add, Flt.sub, Flt.neg]

/-- Four slots of a pulse of four time units without durations meet the hypotheses of the three
theorems; the one without ramps is `nan, 1, 1, 1`. -/
example :
    genGaussianEdge { Base.ofDyn 4 4 1 0 [] true with tau := none } 0 none =
      .ok [.nan, .fin 1, .fin 1, .fin 1] ∧
    genGaussian { Base.ofDyn 4 4 1 0 [] true with tau := none } 2 0 none none =
      .ok [.fin 0, .fin 0, .nan, .fin 0] := by
  constructor <;>
  norm_num [genGaussianEdge, genGaussian, Base.ensureInit, Base.ofDyn, Base.init, Base.tauOrDefault,
    timeLoop, Except.map, boundsInverted, dropInf, truthyOr, applyBounds, List.replicate,
    Flt.div, Flt.exp, Flt.mul, Flt.add, Flt.sub, Flt.neg]

end QTrl.Pulse
