import Verif.Props.Robust
import Verif.Proofs.LinearODE
import Verif.Props.Pulse
import Mathlib.Analysis.SpecialFunctions.Trigonometric.Bounds

/-
C75: a continuous pulse sampled in every slot.
-/

set_option linter.unusedSectionVars false

open Matrix

namespace QTrl.Dyn

open QTrl.Spec QTrl.Opt

variable {d m : Type} [Fintype d] [DecidableEq d] [Fintype m] [DecidableEq m]

/-- The Hamiltonian under a continuous pulse: drift plus the values of the pulse times the
controls. -/
noncomputable def pulsed (H0 : Matrix d d ℂ) (C : Nat → Matrix d d ℂ) (n : Nat) (u : Nat → ℝ → ℝ)
    (t : ℝ) : Matrix d d ℂ := H0 + ∑ j ∈ Finset.range n, (u j t : ℂ) • C j

/-- Drift and controls are the same in all slots. -/
structure Steady (c : UnitaryCfg d m) (H0 : Matrix d d ℂ) (C : Nat → Matrix d d ℂ) : Prop where
  drift : ∀ k, k < c.nTs → c.drift k = H0
  ctrl : ∀ k j, k < c.nTs → j < c.nCtrls → c.ctrl k j = C j

/-- In every slot the amplitudes are the values the pulse has at some time in the slot. -/
def Samples (c : UnitaryCfg d m) (amps : Amps) (u : Nat → ℝ → ℝ) : Prop :=
  ∀ k, k < c.nTs → ∃ s ∈ Set.Icc (slotTime c.tau k) (slotTime c.tau (k + 1)),
    ∀ j, j < c.nCtrls → amps k j = u j s

theorem pulsed_hermitian {H0 : Matrix d d ℂ} {C : Nat → Matrix d d ℂ} {n : Nat}
    (h0 : H0.IsHermitian) (hC : ∀ j, j < n → (C j).IsHermitian) (u : Nat → ℝ → ℝ) (t : ℝ) :
    (pulsed H0 C n u t).IsHermitian := by
  unfold pulsed Matrix.IsHermitian
  rw [Matrix.conjTranspose_add, h0.eq, Matrix.conjTranspose_sum]
  congr 1
  refine Finset.sum_congr rfl fun j hj => ?_
  rw [Matrix.conjTranspose_smul, (hC j (Finset.mem_range.1 hj)).eq]
  simp

/-- **C75.** A pulse that changes no faster than `L j`, sampled anywhere in the slots: the reported
evolution at the beginning of each slot and at the end is within the sum of the squares of the
durations times `L j` times the strengths of the controls of that under the continuous pulse, and
the reported error is within that of the error of the continuous pulse, up to the factor of the
measure. -/
theorem C75_sampled {c : UnitaryCfg d m} [Nonempty m] (hc : Closed c) (hi : Normalised c)
    (hq : c.fidKind = .unitary → c.phaseOpt = .SU → c.isQobj = true)
    (hτ : ∀ k, k < c.nTs → 0 ≤ c.tau k) {H0 : Matrix d d ℂ} {C : Nat → Matrix d d ℂ}
    (hs : Steady c H0 C) (u : Nat → ℝ → ℝ) (L : Nat → ℝ)
    (hL : ∀ j, j < c.nCtrls → ∀ s t, |u j s - u j t| ≤ L j * |s - t|)
    (junk s0 : State d m (Decomp d)) (a0 : Amps) (ops : List Op)
    (ha : Samples c (lastAmps a0 ops) u) (X : ℝ → Matrix d m ℂ)
    (hX : Driven (slotTime c.tau c.nTs) (fun t => -Complex.I • pulsed H0 C c.nCtrls u t)
      c.initial X) :
    (∀ k, k ≤ c.nTs → opNorm (X (slotTime c.tau k) - forward c junk s0 a0 ops k) ≤
      (∑ i ∈ Finset.range k, c.tau i ^ 2) * ∑ j ∈ Finset.range c.nCtrls, L j * opNorm (C j)) ∧
    ∃ e, query c.sys junk s0 a0 ops .getFidErr = .real e ∧
      |closedErr c (X (slotTime c.tau c.nTs)) - e| ≤ slack c * ((∑ i ∈ Finset.range c.nTs,
        c.tau i ^ 2) * ∑ j ∈ Finset.range c.nCtrls, L j * opNorm (C j)) := by
  have h0 : H0.IsHermitian := hs.drift 0 hc.slots ▸ hc.drift 0 hc.slots
  have hC : ∀ j, j < c.nCtrls → (C j).IsHermitian := fun j hj =>
    hs.ctrl 0 j hc.slots hj ▸ hc.ctrl 0 j hc.slots hj
  have e : ∀ k, ∑ i ∈ Finset.range k, c.tau i *
      (c.tau i * ∑ j ∈ Finset.range c.nCtrls, L j * opNorm (C j)) =
      (∑ i ∈ Finset.range k, c.tau i ^ 2) * ∑ j ∈ Finset.range c.nCtrls, L j * opNorm (C j) := by
    intro k
    rw [Finset.sum_mul]
    exact Finset.sum_congr rfl fun i _ => by ring
  simp only [← e]
  refine C74_apparatus hc hi hq hτ junk s0 a0 ops _ (pulsed_hermitian h0 hC u) _ ?_ X hX
  intro k hk t ht
  obtain ⟨s, hsI, has⟩ := ha k hk
  have hd : slotTime c.tau (k + 1) - slotTime c.tau k = c.tau k := by rw [slotTime_succ]; ring
  have hst : |t - s| ≤ c.tau k := by
    rw [abs_le]
    constructor <;> linarith [ht.1, ht.2, hsI.1, hsI.2]
  unfold pulsed hamiltonian
  rw [hs.drift k hk, add_sub_add_left_eq_sub, ← Finset.sum_sub_distrib, Finset.mul_sum]
  refine (opNorm_sum _ _).trans (Finset.sum_le_sum fun j hj => ?_)
  have hj' := Finset.mem_range.1 hj
  rw [hs.ctrl k j hk hj', has j hj', ← sub_smul, opNorm_smul, ← Complex.ofReal_sub,
    Complex.norm_real, Real.norm_eq_abs, ← mul_assoc]
  refine mul_le_mul_of_nonneg_right ((hL j hj' t s).trans ?_) (opNorm_nonneg _)
  have hL0 : 0 ≤ L j := by
    have := hL j hj' 1 0
    simp only [sub_zero, abs_one, mul_one] at this
    exact (abs_nonneg _).trans this
  rw [mul_comm (c.tau k)]
  exact mul_le_mul_of_nonneg_left hst hL0

/-- The same task with another number of slots, of equal durations. -/
noncomputable def _root_.QTrl.Dyn.UnitaryCfg.refined (c : UnitaryCfg d m) (T : ℝ)
    (H0 : Matrix d d ℂ) (C : Nat → Matrix d d ℂ) (n : Nat) : UnitaryCfg d m :=
  { c with
    nTs := n
    tau := fun _ => T / n
    drift := fun _ => H0
    ctrl := fun _ j => C j }

theorem slotTime_const (x : ℝ) (k : Nat) : slotTime (fun _ => x) k = k * x := by
  simp [slotTime]

theorem continuous_of_bound {f : ℝ → ℝ} {L : ℝ} (h : ∀ s t, |f s - f t| ≤ L * |s - t|) :
    Continuous f := by
  have hL : 0 ≤ L := by
    have := h 1 0
    simp only [sub_zero, abs_one, mul_one] at this
    exact (abs_nonneg _).trans this
  exact (LipschitzWith.of_dist_le_mul (K := ⟨L, hL⟩) fun s t => h s t).continuous

theorem pulsed_continuous {H0 : Matrix d d ℂ} {C : Nat → Matrix d d ℂ} {n : Nat}
    {u : Nat → ℝ → ℝ} {L : Nat → ℝ} (hL : ∀ j, j < n → ∀ s t, |u j s - u j t| ≤ L j * |s - t|)
    (a b : d) : Continuous fun t => (-Complex.I • pulsed H0 C n u t) a b := by
  simp only [pulsed, Matrix.smul_apply, Matrix.add_apply, Matrix.sum_apply, smul_eq_mul]
  refine continuous_const.mul (continuous_const.add (continuous_finset_sum _ fun j hj => ?_))
  exact (Complex.continuous_ofReal.comp (continuous_of_bound (hL j (Finset.mem_range.1 hj)))).mul
    continuous_const

/-- **C75.** With more and more slots of equal durations the reported errors converge to the error of
the continuous pulse, which exists: with `n` slots they differ by no more than a constant over
`n`. -/
theorem C75_limit {c : UnitaryCfg d m} [Nonempty m] (hc : Closed c) (hi : Normalised c)
    (hq : c.fidKind = .unitary → c.phaseOpt = .SU → c.isQobj = true)
    {T : ℝ} (hT : 0 ≤ T) {H0 : Matrix d d ℂ} {C : Nat → Matrix d d ℂ} (h0 : H0.IsHermitian)
    (hC : ∀ j, j < c.nCtrls → (C j).IsHermitian) (u : Nat → ℝ → ℝ) (L : Nat → ℝ)
    (hL : ∀ j, j < c.nCtrls → ∀ s t, |u j s - u j t| ≤ L j * |s - t|) :
    (∃ X, Driven T (fun t => -Complex.I • pulsed H0 C c.nCtrls u t) c.initial X) ∧
    ∀ X, Driven T (fun t => -Complex.I • pulsed H0 C c.nCtrls u t) c.initial X →
      ∀ n, 0 < n → ∀ (junk s0 : State d m (Decomp d)) (a0 : Amps) (ops : List Op),
        Samples (c.refined T H0 C n) (lastAmps a0 ops) u →
        ∃ e, query (c.refined T H0 C n).sys junk s0 a0 ops .getFidErr = .real e ∧
          |closedErr c (X T) - e| ≤
            slack c * (T ^ 2 * ∑ j ∈ Finset.range c.nCtrls, L j * opNorm (C j)) / n := by
  refine ⟨driven_exists (pulsed_continuous hL) hT _, fun X hX n hn junk s0 a0 ops ha => ?_⟩
  have hn' : (n : ℝ) ≠ 0 := Nat.cast_ne_zero.2 hn.ne'
  have hc' : Closed (c.refined T H0 C n) :=
    ⟨hn, hc.ctrls, fun _ _ => h0, fun _ j _ hj => hC j hj, hc.eigh⟩
  have hend : slotTime (c.refined T H0 C n).tau (c.refined T H0 C n).nTs = T := by
    show slotTime (fun _ => T / n) n = T
    rw [slotTime_const]
    field_simp
  have hstd : Steady (c.refined T H0 C n) H0 C := ⟨fun _ _ => rfl, fun _ _ _ _ => rfl⟩
  obtain ⟨-, e, h1, h2⟩ := C75_sampled hc' (c := c.refined T H0 C n) ⟨hi.initial, hi.target⟩ hq
    (fun _ _ => by show 0 ≤ T / (n : ℝ); positivity) hstd u L hL junk s0 a0 ops ha X
    (by rw [hend]; exact hX)
  rw [hend] at h2
  refine ⟨e, h1, ?_⟩
  have e1 : closedErr (c.refined T H0 C n) (X T) = closedErr c (X T) := rfl
  have e2 : slack (c.refined T H0 C n) = slack c := rfl
  rw [e1, e2] at h2
  refine h2.trans (le_of_eq ?_)
  show slack c * ((∑ i ∈ Finset.range n, (T / (n : ℝ)) ^ 2) *
    ∑ j ∈ Finset.range c.nCtrls, L j * opNorm (C j)) = _
  rw [Finset.sum_const, Finset.card_range, nsmul_eq_mul]
  field_simp

/-- **C75.** The errors reported for the same pulse sampled with different numbers of slots. -/
theorem C75_grids {c : UnitaryCfg d m} [Nonempty m] (hc : Closed c) (hi : Normalised c)
    (hq : c.fidKind = .unitary → c.phaseOpt = .SU → c.isQobj = true)
    {T : ℝ} (hT : 0 ≤ T) {H0 : Matrix d d ℂ} {C : Nat → Matrix d d ℂ} (h0 : H0.IsHermitian)
    (hC : ∀ j, j < c.nCtrls → (C j).IsHermitian) (u : Nat → ℝ → ℝ) (L : Nat → ℝ)
    (hL : ∀ j, j < c.nCtrls → ∀ s t, |u j s - u j t| ≤ L j * |s - t|) {n n' : Nat} (hn : 0 < n)
    (hn' : 0 < n') (junk s0 junk' s0' : State d m (Decomp d)) (a0 a0' : Amps) (ops ops' : List Op)
    (ha : Samples (c.refined T H0 C n) (lastAmps a0 ops) u)
    (ha' : Samples (c.refined T H0 C n') (lastAmps a0' ops') u) :
    ∃ e e', query (c.refined T H0 C n).sys junk s0 a0 ops .getFidErr = .real e ∧
      query (c.refined T H0 C n').sys junk' s0' a0' ops' .getFidErr = .real e' ∧
      |e - e'| ≤ slack c * (T ^ 2 * ∑ j ∈ Finset.range c.nCtrls, L j * opNorm (C j)) *
        (1 / n + 1 / n') := by
  obtain ⟨⟨X, hX⟩, h⟩ := C75_limit hc hi hq hT h0 hC u L hL
  obtain ⟨e, h1, h2⟩ := h X hX n hn junk s0 a0 ops ha
  obtain ⟨e', h1', h2'⟩ := h X hX n' hn' junk' s0' a0' ops' ha'
  refine ⟨e, e', h1, h1', ?_⟩
  rw [mul_add, mul_one_div, mul_one_div]
  have := abs_sub_le e (closedErr c (X T)) e'
  rw [abs_sub_comm] at h2
  linarith

/-- The pulse of a periodic generator, continued to all times. -/
noncomputable def sineWave (scaling offset F phi t : ℝ) : ℝ :=
  scaling * Real.sin (2 * Real.pi * F * t + phi) + offset

theorem sineWave_bound (scaling offset F phi s t : ℝ) :
    |sineWave scaling offset F phi s - sineWave scaling offset F phi t| ≤
      |scaling * (2 * Real.pi * F)| * |s - t| := by
  unfold sineWave
  rw [add_sub_add_right_eq_sub, ← mul_sub, abs_mul, abs_mul scaling (2 * Real.pi * F), mul_assoc |scaling|,
    ← abs_mul (2 * Real.pi * F)]
  refine mul_le_mul_of_nonneg_left ?_ (abs_nonneg scaling)
  have h := Real.abs_sin_sub_sin_le (2 * Real.pi * F * s + phi) (2 * Real.pi * F * t + phi)
  rw [add_sub_add_right_eq_sub, ← mul_sub] at h
  exact h

theorem slotStart_eq {c : UnitaryCfg d m} {tau : List ℝ}
    (h : ∀ k, k < c.nTs → tau[k]? = some (c.tau k)) {k : Nat} (hk : k ≤ c.nTs) :
    Spec.slotStart tau k = slotTime c.tau k := by
  induction k with
  | zero => simp [Spec.slotStart, slotTime]
  | succ k ih =>
    have := h k (by omega)
    rw [slotTime_succ, ← ih (by omega)]
    unfold Spec.slotStart
    rw [List.take_add_one, this]
    simp

/-- **C75**, end to end: every control is driven by the pulse of a new sine generator without bounds,
whatever it was asked before.  The reported error is within an explicit distance of the one of the
continuous sine waves with the scalings, offsets, frequencies and start phases of the generators. -/
theorem C75_sine {c : UnitaryCfg d m} [Nonempty m] (hc : Closed c) (hi : Normalised c)
    (hq : c.fidKind = .unitary → c.phaseOpt = .SU → c.isQobj = true)
    (hτ : ∀ k, k < c.nTs → 0 ≤ c.tau k) {H0 : Matrix d d ℂ} {C : Nat → Matrix d d ℂ}
    (hs : Steady c H0 C) (b : Nat → Pulse.Base) (nw f wl : Nat → Option ℝ) (phi : Nat → ℝ)
    (cs : Nat → List Pulse.Args) (cl : Nat → Pulse.Args) (g' : Nat → Pulse.Periodic)
    (out : Nat → List Flt)
    (hb : ∀ j, j < c.nCtrls → (b j).initialised = false ∧ (b j).lbound = none ∧
      (b j).ubound = none ∧ (b j).numTslots = c.nTs ∧ c.nTs ≤ (b j).tauOrDefault.length ∧
      ∀ k, k < c.nTs → (b j).tauOrDefault[k]? = some (c.tau k))
    (hg : ∀ j, j < c.nCtrls →
      Pulse.genRun .sine ⟨b j, nw j, f j, wl j, phi j⟩ (cs j) (cl j) = .ok (g' j, out j))
    (junk s0 : State d m (Decomp d)) (a0 : Amps) (ops : List Op)
    (ha : ∀ k j, k < c.nTs → j < c.nCtrls → (out j)[k]? = some (.fin (lastAmps a0 ops k j))) :
    ∃ F : Nat → ℝ,
      (∀ j, j < c.nCtrls → (cs j ++ [cl j]).foldl (Pulse.freqAfter (b j).pulseTime)
        (Spec.effFreq (b j).pulseTime (nw j) (wl j) (f j)) = some (F j)) ∧
      let u := fun j => sineWave (b j).scaling (b j).offset (F j)
        ((cs j ++ [cl j]).foldl (fun p c => c.startPhase.getD p) (phi j))
      (∃ X, Driven (slotTime c.tau c.nTs) (fun t => -Complex.I • pulsed H0 C c.nCtrls u t)
        c.initial X) ∧
      ∀ X, Driven (slotTime c.tau c.nTs) (fun t => -Complex.I • pulsed H0 C c.nCtrls u t)
          c.initial X →
        ∃ e, query c.sys junk s0 a0 ops .getFidErr = .real e ∧
          |closedErr c (X (slotTime c.tau c.nTs)) - e| ≤ slack c * ((∑ i ∈ Finset.range c.nTs,
            c.tau i ^ 2) * ∑ j ∈ Finset.range c.nCtrls,
              |(b j).scaling * (2 * Real.pi * F j)| * opNorm (C j)) := by
  have hF : ∀ j, ∃ F, j < c.nCtrls →
      (cs j ++ [cl j]).foldl (Pulse.freqAfter (b j).pulseTime)
        (Spec.effFreq (b j).pulseTime (nw j) (wl j) (f j)) = some F ∧
      ∀ k, k < c.nTs → (out j)[k]? = some (.fin (sineWave (b j).scaling (b j).offset F
        ((cs j ++ [cl j]).foldl (fun p c => c.startPhase.getD p) (phi j)) (slotTime c.tau k))) := by
    intro j
    by_cases hj : j < c.nCtrls
    · obtain ⟨h1, h2, h3, h4, h5, h6⟩ := hb j hj
      obtain ⟨F, e1, -, e3⟩ := Pulse.C24_unbounded .sine (b j) (nw j) (f j) (wl j) (phi j) (cs j)
        (cl j) (g' j) (out j) h1 (by rw [h4]; exact h5) h2 h3 (hg j hj)
      refine ⟨F, fun _ => ⟨e1, fun k hk => ?_⟩⟩
      rw [e3 k (by rw [h4]; exact hk), slotStart_eq h6 hk.le]
      rfl
    · exact ⟨0, fun h => absurd h hj⟩
  choose F hF using hF
  refine ⟨F, fun j hj => (hF j hj).1, ?_⟩
  intro u
  have hL : ∀ j, j < c.nCtrls → ∀ s t, |u j s - u j t| ≤
      |(b j).scaling * (2 * Real.pi * F j)| * |s - t| := fun j _ s t => sineWave_bound _ _ _ _ s t
  have hT : 0 ≤ slotTime c.tau c.nTs := by
    have := slotTime_le hτ (Nat.zero_le c.nTs) le_rfl
    simpa [slotTime] using this
  refine ⟨driven_exists (pulsed_continuous hL) hT _, fun X hX => ?_⟩
  refine (C75_sampled hc hi hq hτ hs u _ hL junk s0 a0 ops ?_ X hX).2
  intro k hk
  refine ⟨slotTime c.tau k, ⟨le_rfl, slotTime_le hτ (Nat.le_succ k) hk⟩, fun j hj => ?_⟩
  have := (ha k j hk hj).symm.trans ((hF j hj).2 k hk)
  injection this with h1
  injection h1

/-- Non-vacuity: a qubit with four slots driven by a sine generator asked twice, the second time for
another wavelength and phase. -/
example (H C : Matrix (Fin 2) (Fin 2) ℂ) (hH : H.IsHermitian) (hC : C.IsHermitian)
    (junk s0 : State (Fin 2) (Fin 2) (Decomp (Fin 2))) :
    let c := qubit 4 H C 1 .unitary .PSU
    let b := Pulse.Base.ofDyn 4 2 1 0 [1 / 2, 1 / 2, 1 / 2, 1 / 2] false
    ∃ (g' : Pulse.Periodic) (out : List Flt) (a : Amps),
      Pulse.genRun .sine ⟨b, none, some 1, none, 0⟩ [⟨none, none, none, none⟩]
        ⟨none, some 8, none, some 1⟩ = .ok (g', out) ∧
      (∀ k, k < 4 → out[k]? = some (.fin (a k 0))) ∧
      ∃ e, query c.sys junk s0 a [] .getFidErr = .real e := by
  intro c b
  obtain ⟨g', out, hg⟩ : ∃ g' out, Pulse.genRun .sine ⟨b, none, some 1, none, 0⟩
      [⟨none, none, none, none⟩] ⟨none, some 8, none, some 1⟩ = .ok (g', out) := by
    refine ⟨_, _, by
      simp [b, Pulse.genRun, Pulse.Periodic.gen, Pulse.Base.ofDyn, Pulse.Periodic.init,
        Pulse.Base.init, Pulse.Base.tauOrDefault, Pulse.boundsInverted, Pulse.dropInf,
        Pulse.Periodic.derive, Pulse.pyDiv, Pulse.sampleLoop, Pulse.Base.finish,
        Pulse.applyBounds]
      exact ⟨rfl, rfl⟩⟩
  obtain ⟨F, -, -, h3⟩ := Pulse.C24_unbounded .sine b none (some 1) none 0 _ _ g' out rfl
    (by simp [b, Pulse.Base.ofDyn, Pulse.Base.tauOrDefault]) rfl rfl hg
  have hc : Closed c := qubit_closed (by norm_num) hH hC _ _
  let a : Amps := fun k _ => b.scaling * Pulse.waveAt .sine (2 * Real.pi * F *
    slotStart b.tauOrDefault k + [⟨none, none, none, none⟩, ⟨none, some 8, none, some 1⟩].foldl
      (fun p (c : Pulse.Args) => c.startPhase.getD p) 0) + b.offset
  refine ⟨g', out, a, hg, h3, ?_⟩
  obtain ⟨_, _, ⟨X, hX⟩, h⟩ := C75_sine hc (qubit_normalised (by simp) _ _)
    (fun _ h => by cases h) (fun k _ => by show (0 : ℝ) ≤ 1 / 2; norm_num)
    (H0 := H) (C := fun _ => C) ⟨fun _ _ => rfl, fun _ _ _ _ => rfl⟩ (fun _ => b) (fun _ => none)
    (fun _ => some 1) (fun _ => none) (fun _ => 0) (fun _ => [⟨none, none, none, none⟩])
    (fun _ => ⟨none, some 8, none, some 1⟩) (fun _ => g') (fun _ => out)
    (fun j _ => ⟨rfl, rfl, rfl, rfl, by
      show 4 ≤ _
      simp [b, Pulse.Base.ofDyn, Pulse.Base.tauOrDefault], fun k hk => by
      have hk' : k < 4 := hk
      interval_cases k <;> simp [b, Pulse.Base.ofDyn, Pulse.Base.tauOrDefault, c, qubit]⟩)
    (fun _ _ => hg) junk s0 a [] (fun k j hk _ => h3 k hk)
  obtain ⟨e, he, -⟩ := h X hX
  exact ⟨e, he⟩

end QTrl.Dyn
