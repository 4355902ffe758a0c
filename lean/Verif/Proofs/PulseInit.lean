import Verif.Proofs.PulseGen
import Verif.Spec.Pulse

/-
Initialisation of generators and the last step of every `gen_pulse`.
-/

namespace QTrl.Pulse

open QTrl.Spec Flt

theorem FiniteBound.real {b : Option Flt} (h : FiniteBound b) : ∃ r : Option ℝ, b = r.map .fin := by
  cases b with
  | none => exact ⟨none, rfl⟩
  | some v =>
    obtain ⟨r, rfl⟩ := h v rfl
    exact ⟨some r, rfl⟩

theorem dropInf_finite {b : Option Flt} (h : b ≠ some .nan) : FiniteBound (dropInf b) := by
  intro v hv
  cases b with
  | none => simp [dropInf] at hv
  | some w =>
    cases w with
    | fin r => simp [dropInf, isInf] at hv; exact ⟨r, hv.symm⟩
    | inf s => simp [dropInf, isInf] at hv
    | nan => exact absurd rfl h

theorem dropInf_fin {b : Option Flt} {l : ℝ} : dropInf b = some (.fin l) ↔ b = some (.fin l) := by
  cases b with
  | none => simp [dropInf]
  | some w => cases w <;> simp [dropInf, isInf]

theorem dropInf_of_finite {b : Option Flt} (h : FiniteBound b) : dropInf b = b := by
  obtain ⟨r, rfl⟩ := FiniteBound.real h
  cases r <;> simp [dropInf, isInf]

theorem goodBounds_dropInf {lb ub : Option Flt} (h : GoodBounds lb ub) :
    GoodBounds (dropInf lb) (dropInf ub) := by
  obtain ⟨h1, h2, h3⟩ := h
  refine ⟨?_, ?_, fun l u hl hu => h3 l u (dropInf_fin.1 hl) (dropInf_fin.1 hu)⟩
  · intro e; obtain ⟨r, hr⟩ := dropInf_finite h1 _ e; cases hr
  · intro e; obtain ⟨r, hr⟩ := dropInf_finite h2 _ e; cases hr

theorem dropInf_idem (b : Option Flt) : dropInf (dropInf b) = dropInf b := by
  cases b with
  | none => rfl
  | some w => cases w <;> simp [dropInf, isInf]

theorem boundsInverted_good {lb ub : Option Flt} (h : GoodBounds lb ub) :
    boundsInverted (dropInf lb) (dropInf ub) = false := by
  have hl := dropInf_finite h.1
  have hu := dropInf_finite h.2.1
  have h3 := (goodBounds_dropInf h).2.2
  obtain ⟨l, el⟩ := FiniteBound.real hl
  obtain ⟨u, eu⟩ := FiniteBound.real hu
  rw [el, eu] at h3 ⊢
  cases l with
  | none => rfl
  | some l =>
    cases u with
    | none => rfl
    | some u =>
      have := h3 l u rfl rfl
      simpa [boundsInverted, ← Bool.not_eq_true] using this

/-- What `init_pulse` leaves behind when it succeeds. -/
theorem init_eq {g g' : Base} (h : g.init = .ok g') :
    ∃ time, g' = { g with tau := some g.tauOrDefault, time := time, initialised := true,
                          lbound := dropInf g.lbound, ubound := dropInf g.ubound } ∧
      boundsInverted (dropInf g.lbound) (dropInf g.ubound) = false ∧
      (g.usesTime = true → ∃ t, timeLoop g.numTslots 0 g.tauOrDefault = .ok t ∧ time = some t) ∧
      (g.usesTime = false → time = g.time) := by
  unfold Base.init at h
  split at h
  · cases h
  · rename_i time ht
    split at h
    · cases h
    · rename_i hb
      refine ⟨time, (Except.ok.inj h).symm, by simpa using hb, ?_, ?_⟩
      · intro hu
        rw [hu, if_pos rfl] at ht
        cases hl : timeLoop g.numTslots 0 g.tauOrDefault with
        | error e => rw [hl] at ht; cases ht
        | ok t => rw [hl] at ht; exact ⟨t, rfl, (Except.ok.inj ht).symm⟩
      · intro hu
        rw [hu, if_neg (by simp)] at ht
        exact (Except.ok.inj ht).symm

theorem init_ok (g : Base) (hb : GoodBounds g.lbound g.ubound)
    (ht : g.usesTime = true → g.numTslots ≤ g.tauOrDefault.length + 1) :
    ∃ g', g.init = .ok g' := by
  unfold Base.init
  rw [boundsInverted_good hb]
  by_cases hu : g.usesTime = true
  · obtain ⟨t, h1, _⟩ := timeLoop_ok g.numTslots 0 g.tauOrDefault (ht hu)
    simp [hu, h1, Except.map]
  · simp [hu]

theorem ensureInit_bounds {g g' : Base} (h : g.ensureInit = .ok g') :
    (g.initialised = true ∧ g' = g) ∨ (g.initialised = false ∧ g.init = .ok g') := by
  unfold Base.ensureInit at h
  split at h
  · rename_i hi; exact .inl ⟨hi, (Except.ok.inj h).symm⟩
  · rename_i hi; exact .inr ⟨by simpa using hi, h⟩

/-- The last step of every `gen_pulse`, for finite bounds. -/
theorem finish_spec {g : Base} {raw : List ℝ} {out : List Flt} (hl : FiniteBound g.lbound)
    (hu : FiniteBound g.ubound) (hg : GoodBounds g.lbound g.ubound) (h : g.finish raw = .ok out) :
    ∃ lb ub : Option ℝ, g.lbound = lb.map .fin ∧ g.ubound = ub.map .fin ∧
      ∃ a b, Bounded lb ub g.offset raw a b ∧ out = raw.map fun x => .fin (a * x + b) := by
  obtain ⟨lb, el⟩ := FiniteBound.real hl
  obtain ⟨ub, eu⟩ := FiniteBound.real hu
  refine ⟨lb, ub, el, eu, ?_⟩
  have hlu : ∀ l ∈ lb, ∀ u ∈ ub, l ≤ u := by
    intro l hl u hu
    exact hg.2.2 l u (by rw [el, Option.mem_def.1 hl]; rfl) (by rw [eu, Option.mem_def.1 hu]; rfl)
  unfold Base.finish at h
  rw [el, eu] at h
  by_cases hne : raw ≠ [] ∨ (lb = none ∧ ub = none)
  · obtain ⟨a, b, h1, h2⟩ := applyBounds_fin lb ub g.offset raw hne hlu
    rw [h2] at h
    exact ⟨a, b, h1, (Except.ok.inj h).symm⟩
  · rw [not_or, not_not] at hne
    obtain ⟨rfl, h2⟩ := hne
    rw [List.map_nil, applyBounds_nil g.offset (by
      rcases lb with _ | _ <;> rcases ub with _ | _ <;> simp_all)] at h
    cases h

theorem finish_within {g : Base} {raw : List ℝ} {out : List Flt} (hl : FiniteBound g.lbound)
    (hu : FiniteBound g.ubound) (hg : GoodBounds g.lbound g.ubound) (h : g.finish raw = .ok out) :
    out.length = raw.length ∧ ∀ y ∈ out, AmpWithin g.lbound g.ubound y := by
  obtain ⟨lb, ub, el, eu, a, b, hb, rfl⟩ := finish_spec hl hu hg h
  refine ⟨by simp, ?_⟩
  intro y hy
  obtain ⟨x, hx, rfl⟩ := List.mem_map.1 hy
  refine ⟨_, rfl, ?_, ?_⟩
  · intro l hl'
    rw [el] at hl'
    cases lb with
    | none => cases hl'
    | some l' => cases hl'; exact hb.low _ rfl x hx
  · intro u hu'
    rw [eu] at hu'
    cases ub with
    | none => cases hu'
    | some l' => cases hu'; exact hb.up _ rfl x hx

theorem finish_ok {g : Base} {raw : List ℝ} (hl : FiniteBound g.lbound)
    (hu : FiniteBound g.ubound) (hg : GoodBounds g.lbound g.ubound) (hne : raw ≠ []) :
    ∃ out, g.finish raw = .ok out := by
  obtain ⟨lb, el⟩ := FiniteBound.real hl
  obtain ⟨ub, eu⟩ := FiniteBound.real hu
  have hlu : ∀ l ∈ lb, ∀ u ∈ ub, l ≤ u := by
    intro l hl u hu
    exact hg.2.2 l u (by rw [el, Option.mem_def.1 hl]; rfl) (by rw [eu, Option.mem_def.1 hu]; rfl)
  obtain ⟨a, b, h1, h2⟩ := applyBounds_fin lb ub g.offset raw (.inl hne) hlu
  exact ⟨_, by unfold Base.finish; rw [el, eu, h2]⟩

/-- A generator whose bounds can be used as they are. -/
structure Ready (g0 g : Base) : Prop where
  low : FiniteBound g.lbound
  up : FiniteBound g.ubound
  good : GoodBounds g.lbound g.ubound
  imp : ∀ y, AmpWithin g.lbound g.ubound y → AmpWithin g0.lbound g0.ubound y

theorem ready_self {g : Base} (hl : FiniteBound g.lbound) (hu : FiniteBound g.ubound)
    (hg : GoodBounds g.lbound g.ubound) : Ready g g := ⟨hl, hu, hg, fun _ h => h⟩

theorem ready_init {g g' : Base} (hg : GoodBounds g.lbound g.ubound) (h : g.init = .ok g') :
    Ready g g' := by
  obtain ⟨time, rfl, _⟩ := init_eq h
  refine ⟨dropInf_finite hg.1, dropInf_finite hg.2.1, goodBounds_dropInf hg, ?_⟩
  rintro y ⟨r, hr, h1, h2⟩
  exact ⟨r, hr, fun l hl => h1 l (dropInf_fin.2 hl), fun u hu => h2 u (dropInf_fin.2 hu)⟩

theorem ready_ensure {g g' : Base} (hg : GoodBounds g.lbound g.ubound)
    (hf : g.initialised = true → FiniteBound g.lbound ∧ FiniteBound g.ubound)
    (h : g.ensureInit = .ok g') : Ready g g' := by
  rcases ensureInit_bounds h with ⟨hi, rfl⟩ | ⟨_, h⟩
  · exact ready_self (hf hi).1 (hf hi).2 hg
  · exact ready_init hg h

end QTrl.Pulse
