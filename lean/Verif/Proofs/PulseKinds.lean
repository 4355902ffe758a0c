import Verif.Proofs.PulseInit

/-
Each `gen_pulse` ends by bounding a raw pulse, with the bounds of an initialised generator.
-/

namespace QTrl.Pulse

open QTrl.Spec Flt

theorem sampleLoop_map {α β : Type} (f : ℝ → α) (c : α → β) (n : ℕ) (t : ℝ) (tau : List ℝ) :
    sampleLoop (fun t => c (f t)) n t tau = (sampleLoop f n t tau).map (List.map c) := by
  induction n generalizing t tau with
  | zero => rfl
  | succ n ih =>
    cases tau with
    | nil => rfl
    | cons d ds =>
      simp only [sampleLoop, ih (t + d) ds]
      cases sampleLoop f n (t + d) ds <;> rfl

theorem derive_base {g g' : Periodic} (h : g.derive = .ok g') :
    g'.base = g.base ∧ g'.startPhase = g.startPhase := by
  unfold Periodic.derive at h
  repeat' split at h
  all_goals first
    | (injection h with h; subst h; exact ⟨rfl, rfl⟩)
    | (injection h)

theorem periodic_init_base {g g' : Periodic} {n w f s : Option ℝ} (h : g.init n w f s = .ok g') :
    g.base.init = .ok g'.base ∧ g'.startPhase = s.getD g.startPhase := by
  unfold Periodic.init at h
  split at h
  · cases h
  · rename_i b hb
    obtain ⟨h1, h2⟩ := derive_base h
    rw [h1, h2, hb]
    split <;> exact ⟨rfl, rfl⟩

theorem linear_init_base {g g' : Linear} {a s e : Option ℝ} (h : g.init a s e = .ok g') :
    g.base.init = .ok g'.base := by
  unfold Linear.init at h
  split at h
  · cases h
  · rename_i b hb
    rw [hb]
    simp only [] at h
    split at h
    · split at h
      · cases h
      · cases Except.ok.inj h
        split <;> rfl
    · cases Except.ok.inj h
      split <;> rfl

/-- The linear generator gets a finite gradient: one set by hand must be finite, and a
calculated one does not divide by zero. -/
def LinearFinite (b : Base) (grad : Option Flt) : Prop :=
  (∀ v, grad = some v → ∃ r : ℝ, v = .fin r) ∧ b.tauOrDefault.getLast? ≠ some b.pulseTime

theorem linear_init_gradient {g g' : Linear} (hg : LinearFinite g.base g.gradient)
    (h : g.init none none none = .ok g') : ∀ v, g'.gradient = some v → ∃ r : ℝ, v = .fin r := by
  unfold Linear.init at h
  split at h
  · cases h
  · rename_i b hb
    obtain ⟨time, rfl, _⟩ := init_eq hb
    simp only [] at h
    split at h
    · split at h
      · cases h
      · rename_i last hl
        cases Except.ok.inj h
        rintro v ⟨⟩
        simp only [Option.getD_some] at hl
        refine ⟨_, fin_div ?_⟩
        intro h0
        apply hg.2
        rw [hl]
        congr 1; linarith
    · cases Except.ok.inj h
      exact hg.1

/-- A kind of generator that never produces non-finite raw amplitudes in state `b`. -/
def Regular (b : Base) : Kind → Prop
  | .linear grad _ _ => LinearFinite b grad
  | .gaussian _ v => v ≠ 0
  | .gaussianEdge d => d ≠ 0
  | _ => True

/-- The Gaussian with a variance other than zero is finite. -/
theorem gaussian_fin (s m v : ℝ) (t : List ℝ) (hv : v ≠ 0) :
    (t.map fun x => (Flt.fin s).mul ((Flt.fin (-(x - m) ^ 2)).div (.fin (2 * v))).exp) =
      (t.map fun x => s * Real.exp (-(x - m) ^ 2 / (2 * v))).map .fin := by
  rw [List.map_map]
  refine List.map_congr_left fun x _ => ?_
  simp only [Flt.fin_div (mul_ne_zero two_ne_zero hv), fin_exp, fin_mul, Function.comp]

theorem edge_fin (s T D : ℝ) (t : List ℝ) (hD : D ≠ 0) :
    (t.map fun x => ((((Flt.fin 1).sub ((Flt.fin (-x ^ 2)).div (.fin D)).exp).sub
            ((Flt.fin (-(x - T) ^ 2)).div (.fin D)).exp).mul (.fin s))) =
      (t.map fun x => (1 - Real.exp (-x ^ 2 / D) - Real.exp (-(x - T) ^ 2 / D)) * s).map .fin := by
  rw [List.map_map]
  refine List.map_congr_left fun x _ => ?_
  simp only [Flt.fin_div hD, fin_exp, fin_mul, fin_sub, Function.comp]

/-- Kinds whose `gen_pulse` initialises the generator if needed. -/
def Initialises : Kind → Prop
  | .zero => False
  | .random => False
  | _ => True

/-- Every successful `gen_pulse` bounds some finite raw pulse with the bounds of the
generator, initialised first if the kind does that. -/
theorem generate_finish {fuel : ℕ} {rnd : ℕ → ℝ} {b : Base} {k : Kind} {out : List Flt}
    (hr : Regular b k) (h : generate fuel rnd b k = some (.ok out)) :
    ∃ b' raw, b'.finish raw = .ok out ∧
      ((¬ Initialises k ∧ b' = b) ∨ (Initialises k ∧ b.ensureInit = .ok b')) := by
  cases k with
  | zero => exact ⟨b, _, Option.some.inj h, .inl ⟨not_false, rfl⟩⟩
  | random => exact ⟨b, _, Option.some.inj h, .inl ⟨not_false, rfl⟩⟩
  | rndFourier m =>
    simp only [generate] at h
    unfold genRndFourier at h
    split at h
    · cases h
    · split at h
      · cases h
      · rename_i g' hg'
        split at h
        · cases h
        · simp only [] at h
          split at h
          · cases h
          · rename_i s hs
            exact ⟨g', s, Option.some.inj h, .inr ⟨trivial, hg'⟩⟩
        · cases h
  | rndWaves n m M =>
    simp only [generate, Option.some.injEq] at h
    unfold genRndWaves at h
    split at h
    · cases h
    · split at h
      · cases h
      · split at h
        · cases h
        · rename_i g' hg'
          split at h
          · simp only [] at h
            split at h
            · cases h
            · rename_i s hs
              exact ⟨g', s, h, .inr ⟨trivial, hg'⟩⟩
          · cases h
  | rndWalk1 d =>
    simp only [generate, Option.some.injEq] at h
    unfold genRndWalk1 at h
    split at h
    · cases h
    · rename_i g' hg'
      split at h
      · exact ⟨g', _, h, .inr ⟨trivial, hg'⟩⟩
      · cases h
  | rndWalk2 d =>
    simp only [generate, Option.some.injEq] at h
    unfold genRndWalk2 at h
    split at h
    · cases h
    · rename_i g' hg'
      split at h
      · exact ⟨g', _, h, .inr ⟨trivial, hg'⟩⟩
      · cases h
  | linear grad s e =>
    simp only [generate, Option.some.injEq] at h
    cases hgen : Linear.gen ⟨b, grad, s, e⟩ none none none with
    | error er => rw [hgen] at h; cases h
    | ok p =>
      rw [hgen] at h
      cases Except.ok.inj h
      unfold Linear.gen at hgen
      simp only [Option.isSome_none, Bool.or_false, Bool.false_eq_true, if_false] at hgen
      split at hgen
      · cases hgen
      · rename_i g2 hg2
        have hbase : b.ensureInit = .ok g2.base ∧
            ∀ v, g2.gradient = some v → ∃ r : ℝ, v = .fin r := by
          unfold Base.ensureInit
          by_cases hi : b.initialised = true
          · rw [if_pos hi] at hg2 ⊢
            cases Except.ok.inj hg2
            exact ⟨rfl, hr.1⟩
          · rw [if_neg hi] at hg2 ⊢
            exact ⟨linear_init_base hg2, linear_init_gradient (g := ⟨b, grad, s, e⟩) hr hg2⟩
        split at hgen
        · rename_i v st tau hv hs ht
          obtain ⟨r, rfl⟩ := hbase.2 _ hv
          have := sampleLoop_map (fun t => g2.base.scaling * (r * t + st)) Flt.fin
            g2.base.numTslots 0 tau
          simp only [fin_mul, fin_add] at hgen
          rw [this] at hgen
          cases hsl : sampleLoop (fun t => g2.base.scaling * (r * t + st)) g2.base.numTslots 0 tau with
          | error er => rw [hsl] at hgen; cases hgen
          | ok raw =>
            rw [hsl] at hgen
            simp only [Except.map] at hgen
            split at hgen
            · cases hgen
            · rename_i o ho
              cases Except.ok.inj hgen
              exact ⟨g2.base, raw, ho, .inr ⟨trivial, hbase.1⟩⟩
        · cases hgen
  | periodic w n f l p =>
    simp only [generate, Option.some.injEq] at h
    cases hgen : Periodic.gen w ⟨b, n, f, l, p⟩ none none none none with
    | error er => rw [hgen] at h; cases h
    | ok q =>
      rw [hgen] at h
      cases Except.ok.inj h
      unfold Periodic.gen at hgen
      simp only [Option.isSome_none, Bool.or_false, Bool.false_eq_true, if_false] at hgen
      split at hgen
      · cases hgen
      · rename_i g2 hg2
        have hbase : b.ensureInit = .ok g2.base := by
          unfold Base.ensureInit
          by_cases hi : b.initialised = true
          · rw [if_pos hi] at hg2 ⊢
            cases Except.ok.inj hg2
            rfl
          · rw [if_neg hi] at hg2 ⊢
            exact (periodic_init_base hg2).1
        split at hgen
        · split at hgen
          · cases hgen
          · rename_i raw hraw
            split at hgen
            · cases hgen
            · rename_i o ho
              cases Except.ok.inj hgen
              exact ⟨g2.base, raw, ho, .inr ⟨trivial, hbase⟩⟩
        · cases hgen
  | gaussian m v =>
    simp only [generate, Option.some.injEq] at h
    unfold genGaussian at h
    split at h
    · cases h
    · rename_i g' hg'
      simp only [truthyOr] at h
      split at h
      · rw [gaussian_fin _ _ _ _ hr] at h
        exact ⟨g', _, h, .inr ⟨trivial, hg'⟩⟩
      · cases h
  | gaussianEdge d =>
    simp only [generate, Option.some.injEq] at h
    unfold genGaussianEdge at h
    split at h
    · cases h
    · rename_i g' hg'
      simp only [truthyOr] at h
      split at h
      · rw [edge_fin _ _ _ _ hr] at h
        exact ⟨g', _, h, .inr ⟨trivial, hg'⟩⟩
      · cases h

/-- A failing initialisation makes `gen_pulse` fail, before any loop is entered. -/
theorem generate_init_error {fuel : ℕ} {rnd : ℕ → ℝ} {b : Base} {k : Kind} {e : PyErr}
    (hk : Initialises k) (hi : b.initialised = false) (h : b.init = .error e) :
    ∃ e', generate fuel rnd b k = some (.error e') := by
  have he : b.ensureInit = .error e := by simp [Base.ensureInit, hi, h]
  cases k with
  | zero => exact hk.elim
  | random => exact hk.elim
  | rndFourier m =>
    simp only [generate, genRndFourier, he]
    split <;> exact ⟨_, rfl⟩
  | rndWaves n m M =>
    simp only [generate, genRndWaves, he]
    split
    · exact ⟨_, rfl⟩
    · split <;> exact ⟨_, rfl⟩
  | rndWalk1 d => exact ⟨e, by simp only [generate, genRndWalk1, he]⟩
  | rndWalk2 d => exact ⟨e, by simp only [generate, genRndWalk2, he]⟩
  | linear grad s t =>
    exact ⟨e, by simp [generate, Linear.gen, Linear.init, hi, h, Except.map]⟩
  | periodic w n f l p =>
    exact ⟨e, by simp [generate, Periodic.gen, Periodic.init, hi, h, Except.map]⟩
  | gaussian m v => exact ⟨e, by simp only [generate, genGaussian, he]⟩
  | gaussianEdge d => exact ⟨e, by simp only [generate, genGaussianEdge, he]⟩

/-- The initialisation does not distinguish an infinite bound from an absent one. -/
theorem init_dropInf (b : Base) :
    ({ b with lbound := dropInf b.lbound, ubound := dropInf b.ubound } : Base).init = b.init := by
  unfold Base.init
  simp only [dropInf_idem]
  rfl

theorem generate_congr {fuel : ℕ} {rnd : ℕ → ℝ} {b c : Base} {k : Kind} (hk : Initialises k)
    (hi : b.initialised = false) (hc : c.initialised = false) (h : c.init = b.init)
    (hs : c.scaling = b.scaling) (ht : c.pulseTime = b.pulseTime) :
    generate fuel rnd c k = generate fuel rnd b k := by
  have he : c.ensureInit = b.ensureInit := by simp [Base.ensureInit, hi, hc, h]
  cases k with
  | zero => exact hk.elim
  | random => exact hk.elim
  | rndFourier m => simp only [generate, genRndFourier, he, ht]
  | rndWaves n m M => simp only [generate, genRndWaves, he, ht]
  | rndWalk1 d => simp only [generate, genRndWalk1, he, hs]
  | rndWalk2 d => simp only [generate, genRndWalk2, he]
  | linear grad s t =>
    simp only [generate, Linear.gen, Linear.init, hi, hc, h, Option.isSome_none, Bool.or_false,
      Bool.false_eq_true, if_false]
  | periodic w n f l p =>
    simp only [generate, Periodic.gen, Periodic.init, hi, hc, h, Option.isSome_none, Bool.or_false,
      Bool.false_eq_true, if_false]
  | gaussian m v => simp only [generate, genGaussian, he]
  | gaussianEdge d => simp only [generate, genGaussianEdge, he]

end QTrl.Pulse
