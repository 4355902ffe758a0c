import Verif.Proofs.PulseKinds
import Verif.Proofs.Waves

/-
Periodic generators used repeatedly; sums of waves; random walks.
-/

namespace QTrl.Pulse

open QTrl.Spec Flt

theorem init_idem {g g' : Base} (h : g.init = .ok g') : g'.init = .ok g' := by
  obtain ⟨time, rfl, hb, h1, h2⟩ := init_eq h
  unfold Base.init
  simp only [dropInf_idem, hb, Base.tauOrDefault, Bool.false_eq_true, if_false]
  by_cases hu : g.usesTime = true
  · obtain ⟨t, ht, rfl⟩ := h1 hu
    simp only [Base.tauOrDefault] at ht
    simp only [hu, if_true, ht, Except.map]
  · simp only [hu]
    rfl

theorem derive_freq {g g' : Periodic} (h : g.derive = .ok g') :
    g'.freq = effFreq g.base.pulseTime g.numWaves g.wavelen g.freq ∧ ∃ f, g'.freq = some f := by
  unfold Periodic.derive at h
  split at h
  · rename_i nw hn
    split at h
    · cases h
    · rename_i f hf
      split at h
      · cases h
      · injection h with h
        subst h
        unfold pyDiv at hf
        split at hf
        · cases hf
        · injection hf with hf
          subst hf
          simp [hn, effFreq]
  · rename_i w hn hw
    split at h
    · cases h
    · rename_i f hf
      injection h with h
      subst h
      unfold pyDiv at hf
      split at hf
      · cases hf
      · injection hf with hf
        subst hf
        simp [hn, hw, effFreq]
  · rename_i f hn hw hf
    split at h
    · cases h
    · injection h with h
      subst h
      simp [hn, hw, hf, effFreq]
  · cases h

/-- The arguments of a `gen_pulse` call of a periodic generator. -/
structure Args where
  numWaves : Option ℝ
  wavelen : Option ℝ
  freq : Option ℝ
  startPhase : Option ℝ

/-- Whether the call gives any of the arguments that define the frequency. -/
def Args.given (c : Args) : Bool := c.numWaves.isSome || c.wavelen.isSome || c.freq.isSome

/-- The frequency in force after a call: that of its own arguments, if it has any. -/
noncomputable def freqAfter (T : ℝ) (old : Option ℝ) (c : Args) : Option ℝ :=
  if c.given then effFreq T c.numWaves c.wavelen c.freq else old

/-- A sequence of `gen_pulse` calls, ending with the state of the generator and the last
pulse. -/
noncomputable def genRun (w : Wave) : Periodic → List Args → Args → Except PyErr (Periodic × List Flt)
  | g, [], c => g.gen w c.numWaves c.wavelen c.freq c.startPhase
  | g, c :: cs, d =>
      match g.gen w c.numWaves c.wavelen c.freq c.startPhase with
      | .error e => .error e
      | .ok (g', _) => genRun w g' cs d

/-- The generator as the history of calls leaves it. -/
structure PInv (b : Base) (g : Periodic) (F : Option ℝ) (phi : ℝ) : Prop where
  base : b.init = .ok g.base
  freq : g.freq = F
  phase : g.startPhase = phi

theorem init_initialised {g g' : Base} (h : g.init = .ok g') :
    g'.initialised = true ∧ g'.pulseTime = g.pulseTime ∧ g'.tau = some g.tauOrDefault ∧
      g'.numTslots = g.numTslots ∧ g'.scaling = g.scaling ∧ g'.offset = g.offset := by
  obtain ⟨time, rfl, _⟩ := init_eq h
  exact ⟨rfl, rfl, rfl, rfl, rfl, rfl⟩

theorem periodic_init_spec {g g' : Periodic} {n w f s : Option ℝ} (h : g.init n w f s = .ok g') :
    g.base.init = .ok g'.base ∧ g'.startPhase = s.getD g.startPhase ∧
      g'.freq = (if n.isSome || w.isSome || f.isSome then effFreq g.base.pulseTime n w f
        else effFreq g.base.pulseTime g.numWaves g.wavelen g.freq) := by
  refine ⟨(periodic_init_base h).1, (periodic_init_base h).2, ?_⟩
  unfold Periodic.init at h
  split at h
  · cases h
  · rename_i b hb
    have hT := (init_initialised hb).2.1
    simp only [] at h
    obtain ⟨h1, _⟩ := derive_freq h
    rw [h1]
    split
    · simp only [hT]
    · simp only [hT]

/-- One `gen_pulse` call. -/
theorem gen_spec {w : Wave} {b : Base} {g g' : Periodic} {c : Args} {out : List Flt}
    (hg : (g.base = b ∧ b.initialised = false) ∨ b.init = .ok g.base)
    (h : g.gen w c.numWaves c.wavelen c.freq c.startPhase = .ok (g', out)) :
    PInv b g' (freqAfter b.pulseTime (if g.base.initialised then g.freq else
        effFreq b.pulseTime g.numWaves g.wavelen g.freq) c) (c.startPhase.getD g.startPhase) ∧
      ∃ F raw, g'.freq = some F ∧
        sampleLoop (fun t => b.scaling * waveAt w (2 * Real.pi * F * t + g'.startPhase))
          b.numTslots 0 b.tauOrDefault = .ok raw ∧ g'.base.finish raw = .ok out := by
  unfold Periodic.gen at h
  simp only [] at h
  split at h
  · cases h
  · rename_i g1 hg1
    split at h
    · cases h
    · rename_i g2 hg2
      have hinv : PInv b g2 (freqAfter b.pulseTime (if g.base.initialised then g.freq else
        effFreq b.pulseTime g.numWaves g.wavelen g.freq) c) (c.startPhase.getD g.startPhase) := by
        have hT : g.base.pulseTime = b.pulseTime := by
          rcases hg with ⟨h, _⟩ | h
          · rw [h]
          · exact (init_initialised h).2.1
        have hinit : ∀ B, g.base.init = .ok B → b.init = .ok B := by
          intro B hB
          rcases hg with ⟨h, _⟩ | h
          · rwa [h] at hB
          · have := init_idem h
            rw [this] at hB
            injection hB with hB
            rw [← hB, h]
        by_cases hc : (c.numWaves.isSome || c.wavelen.isSome || c.freq.isSome) = true
        · rw [if_pos hc] at hg1
          obtain ⟨e1, e2, e3⟩ := periodic_init_spec hg1
          rw [if_pos hc] at e3
          simp only [] at e1 e2 e3
          have hi := (init_initialised e1).1
          rw [if_pos hi] at hg2
          injection hg2 with hg2
          subst hg2
          refine ⟨hinit _ e1, ?_, ?_⟩
          · rw [e3, hT]; unfold freqAfter Args.given; rw [if_pos hc]
          · rw [e2]; cases c.startPhase <;> rfl
        · rw [if_neg hc] at hg1
          injection hg1 with hg1
          subst hg1
          simp only [] at hg2
          by_cases hi : g.base.initialised = true
          · rw [if_pos hi] at hg2
            injection hg2 with hg2
            subst hg2
            refine ⟨?_, ?_, rfl⟩
            · rcases hg with ⟨h, h0⟩ | h
              · rw [h, h0] at hi; cases hi
              · exact h
            · unfold freqAfter Args.given; rw [if_neg hc, if_pos hi]
          · rw [if_neg hi] at hg2
            obtain ⟨e1, e2, e3⟩ := periodic_init_spec hg2
            simp only [] at e1 e2 e3
            refine ⟨hinit _ e1, ?_, e2⟩
            rw [e3, hT]; unfold freqAfter Args.given; rw [if_neg hc, if_neg hi]
            simp
      split at h
      · rename_i F tau hF htau
        obtain ⟨i1, i2, i3, i4, i5, i6⟩ := init_initialised hinv.base
        rw [i3] at htau
        injection htau with htau
        subst htau
        rw [i4, i5] at h
        split at h
        · cases h
        · rename_i raw hraw
          split at h
          · cases h
          · rename_i o ho
            injection h with h
            cases h
            exact ⟨hinv, F, raw, hF, hraw, ho⟩
      · cases h

theorem genRun_spec {w : Wave} {b : Base} (cs : List Args) (c : Args) (g g' : Periodic)
    (out : List Flt) (F0 : Option ℝ) (phi : ℝ)
    (hg : (g.base = b ∧ b.initialised = false ∧ F0 = effFreq b.pulseTime g.numWaves g.wavelen g.freq ∧
        phi = g.startPhase) ∨ PInv b g F0 phi)
    (h : genRun w g cs c = .ok (g', out)) :
    PInv b g' ((cs ++ [c]).foldl (freqAfter b.pulseTime) F0)
        ((cs ++ [c]).foldl (fun p c => c.startPhase.getD p) phi) ∧
      ∃ F raw, g'.freq = some F ∧
        sampleLoop (fun t => b.scaling * waveAt w (2 * Real.pi * F * t + g'.startPhase))
          b.numTslots 0 b.tauOrDefault = .ok raw ∧ g'.base.finish raw = .ok out := by
  have one : ∀ c' g1 o, g.gen w c'.numWaves c'.wavelen c'.freq c'.startPhase = .ok (g1, o) →
      PInv b g1 (freqAfter b.pulseTime F0 c') (c'.startPhase.getD phi) ∧
      ∃ F raw, g1.freq = some F ∧
        sampleLoop (fun t => b.scaling * waveAt w (2 * Real.pi * F * t + g1.startPhase))
          b.numTslots 0 b.tauOrDefault = .ok raw ∧ g1.base.finish raw = .ok o := by
    intro c' g1 o h1
    rcases hg with ⟨hb, hi, hF, hp⟩ | hinv
    · have := gen_spec (.inl ⟨hb, hi⟩) h1
      rw [hb, hi] at this
      simpa [hF, hp] using this
    · have := gen_spec (.inr hinv.base) h1
      rw [(init_initialised hinv.base).1, hinv.freq, hinv.phase] at this
      simpa using this
  induction cs generalizing g F0 phi with
  | nil => simpa using one c g' out h
  | cons d ds ih =>
    unfold genRun at h
    split at h
    · cases h
    · rename_i g1 o h1
      have h2 := (one d g1 o h1).1
      have := ih g1 (freqAfter b.pulseTime F0 d) (d.startPhase.getD phi) (.inr h2) h
      refine this ?_
      intro c' g2 o2 h3
      have := gen_spec (.inr h2.base) h3
      rw [(init_initialised h2.base).1, h2.freq, h2.phase] at this
      simpa using this

/-! ### Sums of waves -/

theorem addInto_bound {s t r : List ℝ} {c A : ℝ} (hs : ∀ x ∈ s, |x| ≤ c) (ht : ∀ x ∈ t, |x| ≤ A)
    (h : addInto s t = .ok r) : r.length = s.length ∧ ∀ x ∈ r, |x| ≤ c + A := by
  unfold addInto at h
  split at h
  · rename_i hl
    injection h with h
    subst h
    refine ⟨by simp [hl], ?_⟩
    intro x hx
    rw [List.zipWith_eq_zipWith_take_min, ← List.map_uncurry_zip_eq_zipWith] at hx
    obtain ⟨⟨a, b⟩, hab, rfl⟩ := List.mem_map.1 hx
    have := List.of_mem_zip hab
    exact (abs_add_le a b).trans
      (add_le_add (hs _ (List.mem_of_mem_take this.1)) (ht _ (List.mem_of_mem_take this.2)))
  · split at h
    · rename_i w _
      injection h with h
      subst h
      refine ⟨by simp, ?_⟩
      intro x hx
      obtain ⟨a, ha, rfl⟩ := List.mem_map.1 hx
      exact (abs_add_le a w).trans (add_le_add (hs _ ha) (ht _ (by simp)))
    · cases h

theorem addWaves_bound {t : List ℝ} {A : ℝ} (ws : List (ℝ → ℝ)) (hw : ∀ w ∈ ws, ∀ x, |w x| ≤ A)
    (s r : List ℝ) (c : ℝ) (hs : ∀ x ∈ s, |x| ≤ c) (h : addWaves t ws s = .ok r) :
    r.length = s.length ∧ ∀ x ∈ r, |x| ≤ c + ws.length * A := by
  induction ws generalizing s c with
  | nil =>
    injection h with h
    subst h
    exact ⟨rfl, by simpa using hs⟩
  | cons w ws ih =>
    unfold addWaves at h
    split at h
    · cases h
    · rename_i s' hs'
      obtain ⟨h1, h2⟩ := addInto_bound hs (A := A) (by
        intro x hx
        obtain ⟨a, _, rfl⟩ := List.mem_map.1 hx
        exact hw w (by simp) a) hs'
      obtain ⟨h3, h4⟩ := ih (fun w' hw' => hw w' (by simp [hw'])) s' (c + A) h2 h
      refine ⟨h3.trans h1, fun x hx => (h4 x hx).trans (le_of_eq ?_)⟩
      simp; ring

theorem rand_centered {r : ℝ} (h0 : 0 ≤ r) (h1 : r < 1) : |r * 2 - 1| ≤ 1 := by
  rw [abs_le]; constructor <;> linarith

theorem compWave_bound {A r1 : ℝ} (r2 l t : ℝ) (h0 : 0 ≤ r1) (h1 : r1 < 1) :
    |compWave A r1 r2 l t| ≤ |A| := by
  unfold compWave
  rw [abs_mul, abs_mul]
  have h2 := rand_centered h0 h1
  have h3 := Real.abs_sin_le_one (2 * Real.pi * t / l + r2 * Real.pi / 2)
  calc |A| * |r1 * 2 - 1| * |Real.sin _| ≤ |A| * 1 * 1 := by gcongr
    _ = |A| := by ring

/-! ### The halving loop -/

theorem waveLens_spec (fuel : ℕ) (w m : ℝ) (wl : List ℝ) (h : waveLens fuel w m = some wl) :
    (∀ i, i < wl.length → wl[i]? = some (w / 2 ^ i)) ∧ (∀ x ∈ wl, m < x) ∧ w / 2 ^ wl.length ≤ m := by
  induction fuel generalizing w wl with
  | zero => cases h
  | succ fuel ih =>
    unfold waveLens at h
    split at h
    · rename_i hlt
      cases hr : waveLens fuel (w / 2) m with
      | none => rw [hr] at h; cases h
      | some r =>
        rw [hr] at h
        simp only [Option.map_some, Option.some.injEq] at h
        subst h
        obtain ⟨h1, h2, h3⟩ := ih _ _ hr
        refine ⟨?_, ?_, ?_⟩
        · intro i hi
          cases i with
          | zero => simp
          | succ i =>
            rw [List.getElem?_cons_succ, h1 i (by simpa using hi)]
            congr 1
            rw [pow_succ]; field_simp
        · intro x hx
          rcases List.mem_cons.1 hx with rfl | hx
          · exact hlt
          · exact h2 x hx
        · rw [List.length_cons, pow_succ]
          calc w / (2 ^ r.length * 2) = w / 2 / 2 ^ r.length := by field_simp
            _ ≤ m := h3
    · rename_i hlt
      simp only [Option.some.injEq] at h
      subst h
      exact ⟨fun i hi => absurd hi (by simp), by simp, by simpa using hlt⟩

theorem waveLens_terminates (m : ℝ) (n : ℕ) (w : ℝ) (h : w / 2 ^ n ≤ m) :
    ∃ wl, waveLens (n + 1) w m = some wl := by
  induction n generalizing w with
  | zero =>
    refine ⟨[], ?_⟩
    have : ¬ m < w := by simpa using h
    simp [waveLens, this]
  | succ n ih =>
    obtain ⟨wl, hwl⟩ := ih (w / 2) (by rw [pow_succ] at h; calc
      w / 2 / 2 ^ n = w / (2 ^ n * 2) := by field_simp
      _ ≤ m := h)
    unfold waveLens
    split
    · exact ⟨w :: wl, by rw [hwl]; rfl⟩
    · exact ⟨[], rfl⟩

theorem waveLens_diverges (m : ℝ) (hm : m ≤ 0) (fuel : ℕ) (w : ℝ) (hw : 0 < w) :
    waveLens fuel w m = none := by
  induction fuel generalizing w with
  | zero => rfl
  | succ n ih =>
    unfold waveLens
    rw [if_pos (lt_of_le_of_lt hm hw), ih (w / 2) (by linarith)]
    rfl

/-! ### Walks -/

theorem walk1_length (d : ℝ) (n : ℕ) (a : ℝ) (r : ℕ → ℝ) : (walk1 d n a r).length = n := by
  induction n generalizing a r with
  | zero => rfl
  | succ n ih => simp [walk1, ih]

theorem walk1_step (d : ℝ) (n : ℕ) (a : ℝ) (r : ℕ → ℝ) (hr : ∀ i, 0 ≤ r i ∧ r i < 1) (k : ℕ) (x y : ℝ)
    (hx : (walk1 d n a r)[k]? = some x) (hy : (walk1 d n a r)[k + 1]? = some y) : |y - x| ≤ |d| := by
  induction n generalizing a r k with
  | zero => simp [walk1] at hx
  | succ n ih =>
    simp only [walk1] at hx hy
    cases k with
    | zero =>
      cases n with
      | zero => simp [walk1] at hy
      | succ n =>
        simp [walk1] at hx hy
        rw [← hx, ← hy, add_sub_cancel_left, abs_mul]
        have := rand_centered (hr 0).1 (hr 0).2
        calc |r 0 * 2 - 1| * |d| ≤ 1 * |d| := by gcongr
          _ = |d| := one_mul _
    | succ k =>
      simp only [List.getElem?_cons_succ] at hx hy
      exact ih _ _ (fun i => hr (i + 1)) k hx hy

theorem walk2_length (d : ℝ) (n : ℕ) (a g : ℝ) (r : ℕ → ℝ) : (walk2 d n a g r).length = n := by
  induction n generalizing a g r with
  | zero => rfl
  | succ n ih => simp [walk2, ih]

/-- Second differences of the second random walk. -/
theorem walk2_step (d : ℝ) (n : ℕ) (a g : ℝ) (r : ℕ → ℝ) (hr : ∀ i, 0 ≤ r i ∧ r i < 1) (k : ℕ)
    (x y z : ℝ) (hx : (walk2 d n a g r)[k]? = some x) (hy : (walk2 d n a g r)[k + 1]? = some y)
    (hz : (walk2 d n a g r)[k + 2]? = some z) : |(z - y) - (y - x)| ≤ |d| := by
  induction n generalizing a g r k with
  | zero => simp [walk2] at hx
  | succ n ih =>
    simp only [walk2] at hx hy hz
    cases k with
    | zero =>
      cases n with
      | zero => simp [walk2] at hy
      | succ n =>
        cases n with
        | zero => simp [walk2] at hz
        | succ n =>
          simp [walk2] at hx hy hz
          have e : (z - y) - (y - x) = (r 1 * 2 - 1) * d := by
            rw [← hx, ← hy, ← hz]; ring
          rw [e, abs_mul]
          have := rand_centered (hr 1).1 (hr 1).2
          calc |r 1 * 2 - 1| * |d| ≤ 1 * |d| := by gcongr
            _ = |d| := one_mul _
    | succ k =>
      simp only [List.getElem?_cons_succ] at hx hy hz
      exact ih _ _ _ (fun i => hr (i + 1)) k hx hy hz

end QTrl.Pulse
