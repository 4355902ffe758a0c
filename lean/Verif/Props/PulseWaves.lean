import Verif.Props.Pulse
import Verif.Proofs.PulseGauss
import Verif.Proofs.CrabSeries

/-
C26: the random sums of waves are sums of sine waves of the documented wavelengths, sampled at the
start of every slot.
-/

namespace QTrl.Pulse

open QTrl.Spec

/-- The samples are the sum of `n` sine waves at the slot starts, wave `i` with the wavelength
`lam i`, an amplitude of at most `A` and a phase within the first quarter. -/
def IsWaveSum (raw tau : List ℝ) (slots n : ℕ) (A : ℝ) (lam : ℕ → ℝ) : Prop :=
  ∃ amp phi : ℕ → ℝ, (∀ i, i < n → |amp i| ≤ A ∧ 0 ≤ phi i ∧ phi i < Real.pi / 2) ∧
    raw.length = slots ∧ ∀ k, k < slots → raw[k]? = some (∑ i ∈ Finset.range n,
      amp i * Real.sin (2 * Real.pi * slotStart tau k / lam i + phi i))

theorem wave_sum_of {b b' : Base} {s tau t : List ℝ} {n : ℕ} {A : ℝ} {r1 r2 lam : ℕ → ℝ}
    (hnew : b.initialised = false) (hu : b.usesTime = true)
    (hlen : b.tauOrDefault.length = b.numTslots) (hg : b.ensureInit = .ok b')
    (htau : b'.tau = some tau) (ht : b'.time = some t) (h1 : ∀ i, 0 ≤ r1 i ∧ r1 i < 1)
    (h2 : ∀ i, 0 ≤ r2 i ∧ r2 i < 1)
    (hs : addWaves t ((List.range n).map fun i => compWave A (r1 i) (r2 i) (lam i))
      (List.replicate tau.length 0) = .ok s) :
    IsWaveSum s b.tauOrDefault b.numTslots n |A| lam := by
  obtain ⟨t', e1, e2, e3, -⟩ := ensureInit_time hnew hu (by omega) hg
  rw [ht] at e1
  injection e1 with e1
  subst e1
  have e4 : tau = b.tauOrDefault := by
    rcases ensureInit_bounds hg with ⟨hi, _⟩ | ⟨_, hi⟩
    · rw [hi] at hnew; cases hnew
    · obtain ⟨time, rfl, _⟩ := init_eq hi
      injection htau with htau
      exact htau.symm
  obtain ⟨f1, f2⟩ := addWaves_sum _ _ _ (by rw [List.length_replicate, e2, e4, hlen]) hs
  refine ⟨fun i => A * (r1 i * 2 - 1), fun i => r2 i * Real.pi / 2, fun i _ => ⟨?_, ?_, ?_⟩, ?_, ?_⟩
  · rw [abs_mul]
    have : |r1 i * 2 - 1| ≤ 1 := by
      rw [abs_le]
      constructor <;> linarith [(h1 i).1, (h1 i).2]
    exact mul_le_of_le_one_right (abs_nonneg _) this
  · have := (h2 i).1
    have := Real.pi_pos
    positivity
  · have := (h2 i).2
    have := Real.pi_pos
    nlinarith
  · rw [f1, List.length_replicate, e4, hlen]
  · intro k hk
    rw [f2 k _ 0 (e3 k hk) (by
      rw [List.getElem?_replicate, if_pos (by rw [e4, hlen]; exact hk)])]
    congr 1
    rw [zero_add, List.map_map]
    rfl

/-- **C26**, the random Fourier pulse: a sum of waves whose wavelengths are twice the pulse time,
halved again and again; all of them longer than the minimum wavelength, and the next one would
not be.  Amplitudes are at most the scaling times `√8` over the number of waves. -/
theorem C26_fourier_series (b : Base) (hnew : b.initialised = false) (hu : b.usesTime = true)
    (hlen : b.tauOrDefault.length = b.numTslots) (rnd : ℕ → ℝ) (hr : InUnit rnd) (fuel : ℕ) (m : ℝ)
    (out : List Flt) (h : genRndFourier fuel b m rnd = some (.ok out)) :
    ∃ (b' : Base) (raw : List ℝ) (n : ℕ), b.ensureInit = .ok b' ∧ b'.finish raw = .ok out ∧
      (∀ i, i < n → m < 2 * b.pulseTime / 2 ^ i) ∧ 2 * b.pulseTime / 2 ^ n ≤ m ∧
      IsWaveSum raw b.tauOrDefault b.numTslots n |Real.sqrt 8 * b.scaling / n|
        (fun i => 2 * b.pulseTime / 2 ^ i) := by
  unfold genRndFourier at h
  split at h
  · cases h
  · split at h
    · cases h
    · rename_i g' hg'
      split at h
      · cases h
      · rename_i wl tau t hw htau ht
        simp only [] at h
        split at h
        · cases h
        · rename_i s hs
          obtain ⟨_, _, _, _, _, _, _, hsc, hpt⟩ := ensureInit_time hnew hu (by omega) hg'
          obtain ⟨w1, w2, w3⟩ := waveLens_spec _ _ _ _ hw
          rw [hpt] at w1 w3
          refine ⟨g', s, wl.length, hg', Option.some.inj h, ?_, w3, ?_⟩
          · intro i hi
            exact w2 _ (List.mem_of_getElem? (w1 i hi))
          · have hs' : addWaves t ((List.range wl.length).map fun i =>
                compWave (Real.sqrt 8 * b.scaling / wl.length) (rnd (2 * i)) (rnd (2 * i + 1))
                  (2 * b.pulseTime / 2 ^ i)) (List.replicate tau.length 0) = .ok s := by
              rw [← hs]
              congr 1
              apply List.map_congr_left
              intro i hi
              rw [hsc, List.getD_eq_getElem?_getD, w1 i (List.mem_range.1 hi)]
              rfl
            exact wave_sum_of hnew hu hlen hg' htau ht (fun i => hr _) (fun i => hr _) hs'
      · cases h

/-- **C26**, the random waves: a sum of the number of waves asked for, with wavelengths between the
minimum and the maximum. -/
theorem C26_waves_series (b : Base) (hnew : b.initialised = false) (hu : b.usesTime = true)
    (hlen : b.tauOrDefault.length = b.numTslots) (rnd : ℕ → ℝ) (hr : InUnit rnd) (n : ℕ) (m M : ℝ)
    (out : List Flt) (h : genRndWaves b n m M rnd = .ok out) :
    ∃ (b' : Base) (raw : List ℝ) (lam : ℕ → ℝ), b.ensureInit = .ok b' ∧ b'.finish raw = .ok out ∧
      (∀ i, m ≤ lam i ∧ lam i < M) ∧
      IsWaveSum raw b.tauOrDefault b.numTslots n |Real.sqrt 8 * b.scaling / n| lam := by
  unfold genRndWaves at h
  split at h
  · cases h
  · split at h
    · cases h
    · rename_i hM
      split at h
      · cases h
      · rename_i g' hg'
        split at h
        · rename_i tau t htau ht
          simp only [] at h
          split at h
          · cases h
          · rename_i s hs
            obtain ⟨_, _, _, _, _, _, _, hsc, _⟩ := ensureInit_time hnew hu (by omega) hg'
            rw [hsc] at hs
            refine ⟨g', s, fun i => m + rnd (3 * i + 2) * (M - m), hg', h, fun i => ?_,
              wave_sum_of hnew hu hlen hg' htau ht (fun i => hr _) (fun i => hr _) hs⟩
            have hd : 0 < M - m := by linarith [not_le.1 hM]
            have h1 := (hr (3 * i + 2)).1
            have h2 := (hr (3 * i + 2)).2
            constructor
            · nlinarith
            · nlinarith
        · cases h

/-- The hypotheses: a new generator over four unit slots that uses the times, and a successful
call. -/
example : (Base.ofDyn 4 4 1 0 [1, 1, 1, 1] true).initialised = false ∧
    (Base.ofDyn 4 4 1 0 [1, 1, 1, 1] true).usesTime = true ∧
    (Base.ofDyn 4 4 1 0 [1, 1, 1, 1] true).tauOrDefault.length = 4 ∧
    ∃ out, genRndWaves (Base.ofDyn 4 4 1 0 [1, 1, 1, 1] true) 1 1 2 (fun _ => 1 / 2) =
      .ok out := by
  refine ⟨rfl, rfl, rfl, ?_⟩
  simp [genRndWaves, Base.ofDyn, Base.ensureInit, Base.init, timeLoop, Base.tauOrDefault,
    boundsInverted, dropInf, addWaves, addInto, Base.finish, applyBounds, Except.map,
    show ¬ (2 : ℝ) ≤ 1 by norm_num, show ¬ (4 : ℝ) < 1 by norm_num]

end QTrl.Pulse
