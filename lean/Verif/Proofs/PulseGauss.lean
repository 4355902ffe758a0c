import Verif.Proofs.PulseKinds
import Verif.Spec.PulseGauss

/-
The sample times of the generators that use time, and the Gaussian shape.
-/

namespace QTrl.Pulse

open QTrl.Spec

theorem gaussianShape_eq (peak mean : ℝ) (v : NNReal) (hv : v ≠ 0) (x : ℝ) :
    gaussianShape peak mean v x = peak * Real.exp (-(x - mean) ^ 2 / (2 * v)) := by
  have hpos : (Real.sqrt (2 * Real.pi * v))⁻¹ ≠ 0 := by
    have : (0 : ℝ) < v := by exact_mod_cast pos_iff_ne_zero.2 hv
    have := Real.pi_pos
    positivity
  unfold gaussianShape
  simp only [ProbabilityTheory.gaussianPDFReal, sub_self]
  rw [mul_div_mul_left _ _ hpos]
  simp

/-- A new generator that uses time, once initialised, has the start times of its slots. -/
theorem ensureInit_time {b b' : Base} (hnew : b.initialised = false) (hu : b.usesTime = true)
    (hlen : b.numTslots ≤ b.tauOrDefault.length + 1) (h : b.ensureInit = .ok b') :
    ∃ t, b'.time = some t ∧ t.length = b.numTslots ∧
      (∀ k, k < b.numTslots → t[k]? = some (slotStart b.tauOrDefault k)) ∧
      b'.lbound = dropInf b.lbound ∧ b'.ubound = dropInf b.ubound ∧ b'.offset = b.offset ∧
      b'.scaling = b.scaling ∧ b'.pulseTime = b.pulseTime := by
  rcases ensureInit_bounds h with ⟨hi, _⟩ | ⟨_, hi⟩
  · rw [hi] at hnew; cases hnew
  · obtain ⟨time, rfl, _, ht, _⟩ := init_eq hi
    obtain ⟨t, h1, rfl⟩ := ht hu
    obtain ⟨l, h2, h3, h4⟩ := timeLoop_ok b.numTslots 0 b.tauOrDefault hlen
    rw [h1] at h2
    injection h2 with h2
    subst h2
    refine ⟨t, rfl, h3, ?_, rfl, rfl, rfl, rfl, rfl⟩
    intro k hk
    rw [h4 k hk, zero_add]
    rfl

/-- Sampling a function at the slot starts. -/
theorem map_samples {t : List ℝ} {n : ℕ} {tau : List ℝ} (f : ℝ → ℝ)
    (h : ∀ k, k < n → t[k]? = some (slotStart tau k)) :
    ∀ k, k < n → (t.map f)[k]? = some (f (slotStart tau k)) := by
  intro k hk
  rw [List.getElem?_map, h k hk]
  rfl

theorem finish_unbounded {b : Base} {raw : List ℝ} {out : List Flt} (hl : b.lbound = none)
    (hu : b.ubound = none) (h : b.finish raw = .ok out) :
    out = raw.map fun x => .fin (x + b.offset) := by
  unfold Base.finish at h
  rw [hl, hu] at h
  simp only [applyBounds, Option.isNone_none, Bool.and_self, if_true] at h
  injection h with h
  rw [← h]
  simp

end QTrl.Pulse
