import Verif.Props.Fidelity
import Verif.Proofs.Symmetry2

/-
C69: equivalent descriptions of one control problem give equivalent results.
-/

set_option linter.unusedSectionVars false

open Matrix Kronecker

namespace QTrl.Dyn

open QTrl.Spec QTrl.MatExp

variable {d m e p : Type} [Fintype d] [DecidableEq d] [Fintype m] [DecidableEq m]
  [Fintype e] [DecidableEq e] [Fintype p] [DecidableEq p]

/-- **C69.** The basis in which a closed system is written does not matter: with drift, controls,
initial and target object transformed by a unitary `W` (and the columns by a unitary `V`) the
evolved object is transformed likewise, and fidelity, error and (with exact propagator gradients)
gradient are the same, whatever the histories of the two objects. -/
theorem C69_basis {c c' : UnitaryCfg d m} (hc : Closed c) (hc' : Closed c') {W : Matrix d d ℂ}
    {V : Matrix m m ℂ} (h : Rebased W V c c') (hW : W ∈ Matrix.unitaryGroup d ℂ)
    (hV : V ∈ Matrix.unitaryGroup m ℂ) (junk s0 junk' s0' : State d m (Decomp d)) (a0 a0' : Amps)
    (ops ops' : List Op) (ha : AmpsAgree c (lastAmps a0 ops) (lastAmps a0' ops')) :
    finalObj c'.sys junk' s0' a0' ops' = W * finalObj c.sys junk s0 a0 ops * V ∧
    query c'.sys junk' s0' a0' ops' .getFidelity = query c.sys junk s0 a0 ops .getFidelity ∧
    query c'.sys junk' s0' a0' ops' .getFidErr = query c.sys junk s0 a0 ops .getFidErr ∧
    (ExactAt c (lastAmps a0 ops) → ExactAt c' (lastAmps a0' ops') →
      GradRel (fun g g' => g' = g) (query c.sys junk s0 a0 ops .getGradient)
        (query c'.sys junk' s0' a0' ops' .getGradient)) := by
  have ho := rebased_overlap hc hc' h hW hV ha
  have hd : c'.sys.dimNorm = c.sys.dimNorm := by
    rw [sys_dimNorm, sys_dimNorm]; exact rebased_norm h hW hV
  have hs : c'.sys.scale = c.sys.scale := by rw [sys_scale, sys_scale, h.scaleFactor]
  obtain ⟨h1, h2, h3⟩ := same_answers h.toSameSettings (fun _ => by rw [ho, hd])
    (fun _ => by rw [ho, hd]) fun _ => by
      rw [hs, rebased_final hc hc' h hW ha, h.target, ← Matrix.sub_mul, ← Matrix.mul_sub,
        ← frobSq_re, trace_rebase hW hV, frobSq_re]
  rw [finalObj_eq hc.valid, finalObj_eq hc'.valid]
  simp only [query_eq hc.valid, query_eq hc'.valid]
  refine ⟨rebased_final hc hc' h hW ha, h2, h3, fun hx hx' => ?_⟩
  refine grad_answers h.toSameSettings hx hx' h1 _ fun f => ?_
  ext k j
  rw [h.nTs, h.nCtrls]
  split
  · next hkj =>
    rw [gradEntry_sys, gradEntry_sys, rebased_finalGrad hc hc' h hW ha hx hx' hkj.1 hkj.2,
      rebased_gradOf hc hc' h hW hV ha]
  · rfl

/-- **C69.** Controls may be recombined: if the controls of one system are real combinations
`M` of those of the other (permuted, rescaled, merged, split, repeated or new ones) and its drift
contains them with fixed amplitudes `b`, then at amplitudes related by `a = b + M·a'` evolution,
fidelity and error are the same, and the gradients obey the chain rule `g' = Mᵀ·g`. -/
theorem C69_controls {c c' : UnitaryCfg d m} (hc : Closed c) (hc' : Closed c')
    {M : Nat → Nat → Nat → ℝ} {b : Nat → Nat → ℝ} (h : Recombined M b c c')
    (junk s0 junk' s0' : State d m (Decomp d)) (a0 a0' : Amps) (ops ops' : List Op)
    (ha : ∀ k j, k < c.nTs → j < c.nCtrls → lastAmps a0 ops k j =
      b k j + ∑ i ∈ Finset.range c'.nCtrls, M k j i * lastAmps a0' ops' k i) :
    finalObj c'.sys junk' s0' a0' ops' = finalObj c.sys junk s0 a0 ops ∧
    query c'.sys junk' s0' a0' ops' .getFidelity = query c.sys junk s0 a0 ops .getFidelity ∧
    query c'.sys junk' s0' a0' ops' .getFidErr = query c.sys junk s0 a0 ops .getFidErr ∧
    (ExactAt c (lastAmps a0 ops) → ExactAt c' (lastAmps a0' ops') →
      GradRel (fun g g' => ∀ k i, k < c.nTs → i < c'.nCtrls →
          g' k i = ∑ j ∈ Finset.range c.nCtrls, M k j i * g k j)
        (query c.sys junk s0 a0 ops .getGradient)
        (query c'.sys junk' s0' a0' ops' .getGradient)) := by
  have hf := sameProps_final h.nTs h.initial fun k hk => recombined_propagator hc hc' h ha hk
  obtain ⟨h1, h2, h3⟩ := sameFinal_answers h.toSameSettings h.target hf
  rw [finalObj_eq hc.valid, finalObj_eq hc'.valid]
  simp only [query_eq hc.valid, query_eq hc'.valid]
  refine ⟨hf, h2, h3, fun hx hx' => ?_⟩
  refine grad_answers h.toSameSettings hx hx' h1 _ fun f k i hk hi => ?_
  beta_reduce
  rw [if_pos ⟨h.nTs ▸ hk, hi⟩, gradEntry_sys, recombined_finalGrad hc hc' h ha hx hx' hk hi,
    sameFinal_gradOf h.toSameSettings h.target hf, gradOf_sum]
  refine Finset.sum_congr rfl fun j hj => ?_
  rw [if_pos ⟨hk, Finset.mem_range.1 hj⟩, gradEntry_sys]

/-- **C69.** Units do not matter: slots that last `s` times as long with energies divided by `s`
(possibly different in every slot) give the same evolution, fidelity, error and gradient. -/
theorem C69_units {c c' : UnitaryCfg d m} (hc : Closed c) (hc' : Closed c') {s : Nat → ℝ}
    (h : Rescaled s c c') (junk s0 junk' s0' : State d m (Decomp d)) (a0 a0' : Amps)
    (ops ops' : List Op) (ha : AmpsAgree c (lastAmps a0 ops) (lastAmps a0' ops')) :
    finalObj c'.sys junk' s0' a0' ops' = finalObj c.sys junk s0 a0 ops ∧
    query c'.sys junk' s0' a0' ops' .getFidelity = query c.sys junk s0 a0 ops .getFidelity ∧
    query c'.sys junk' s0' a0' ops' .getFidErr = query c.sys junk s0 a0 ops .getFidErr ∧
    (ExactAt c (lastAmps a0 ops) → ExactAt c' (lastAmps a0' ops') →
      GradRel (fun g g' => g' = g) (query c.sys junk s0 a0 ops .getGradient)
        (query c'.sys junk' s0' a0' ops' .getGradient)) := by
  have hf := sameProps_final h.nTs h.initial fun k hk => rescaled_propagator hc hc' h ha hk
  obtain ⟨h1, h2, h3⟩ := sameFinal_answers h.toSameSettings h.target hf
  rw [finalObj_eq hc.valid, finalObj_eq hc'.valid]
  simp only [query_eq hc.valid, query_eq hc'.valid]
  refine ⟨hf, h2, h3, fun hx hx' => ?_⟩
  refine grad_answers h.toSameSettings hx hx' h1 _ fun f => ?_
  ext k j
  rw [h.nTs, h.nCtrls]
  split
  · next hkj =>
    rw [gradEntry_sys, gradEntry_sys, rescaled_finalGrad hc hc' h ha hx hx' hkj.1 hkj.2,
      sameFinal_gradOf h.toSameSettings h.target hf]
  · rfl

/-- **C69.** The time grid may be refined: cutting a slot in two and repeating its amplitudes
changes neither evolution nor fidelity nor error; the gradient of the slot is the sum of the
gradients of its parts and the other gradients are unchanged. -/
theorem C69_refined_grid {c c' : UnitaryCfg d m} (hc : Closed c) (hc' : Closed c') {s : Nat} {x : ℝ}
    (h : Cut s x c c') (junk s0 junk' s0' : State d m (Decomp d)) (a0 a0' : Amps)
    (ops ops' : List Op) (ha : ∀ k j, k < c'.nTs → j < c.nCtrls →
      lastAmps a0' ops' k j = lastAmps a0 ops (uncut s k) j) :
    finalObj c'.sys junk' s0' a0' ops' = finalObj c.sys junk s0 a0 ops ∧
    query c'.sys junk' s0' a0' ops' .getFidelity = query c.sys junk s0 a0 ops .getFidelity ∧
    query c'.sys junk' s0' a0' ops' .getFidErr = query c.sys junk s0 a0 ops .getFidErr ∧
    (ExactAt c (lastAmps a0 ops) → ExactAt c' (lastAmps a0' ops') →
      GradRel (fun g g' => ∀ j, j < c.nCtrls → g s j = g' s j + g' (s + 1) j ∧
          (∀ k, k < s → g k j = g' k j) ∧ ∀ k, s < k → k < c.nTs → g k j = g' (k + 1) j)
        (query c.sys junk s0 a0 ops .getGradient)
        (query c'.sys junk' s0' a0' ops' .getGradient)) := by
  have hf := cut_final hc hc' h ha
  obtain ⟨h1, h2, h3⟩ := sameFinal_answers h.toSameSettings h.target hf
  have hs := h.slot
  have hn := h.nTs
  rw [finalObj_eq hc.valid, finalObj_eq hc'.valid]
  simp only [query_eq hc.valid, query_eq hc'.valid]
  refine ⟨hf, h2, h3, fun hx hx' => ?_⟩
  refine grad_answers h.toSameSettings hx hx' h1 _ fun f j hj => ?_
  have hj' : j < c'.nCtrls := h.nCtrls ▸ hj
  have hg := sameFinal_gradOf h.toSameSettings h.target hf f
  beta_reduce
  refine ⟨?_, fun k hk => ?_, fun k hk1 hk2 => ?_⟩
  · rw [if_pos ⟨hs, hj⟩, if_pos ⟨by omega, hj'⟩, if_pos ⟨by omega, hj'⟩, gradEntry_sys, gradEntry_sys,
      gradEntry_sys, hg, hg, ← gradOf_add, cut_finalGrad_at hc hc' h ha hx hx' hj]
  · rw [if_pos ⟨by omega, hj⟩, if_pos ⟨by omega, hj'⟩, gradEntry_sys, gradEntry_sys, hg,
      cut_finalGrad_before hc hc' h ha hx hx' hk hj]
  · rw [if_pos ⟨hk2, hj⟩, if_pos ⟨by omega, hj'⟩, gradEntry_sys, gradEntry_sys, hg,
      cut_finalGrad_after hc hc' h ha hx hx' hk1 hk2 hj]

/-- **C69.** A problem run backwards - slots in reverse order, opposite energies, initial and target
object exchanged - has the same fidelity and error, and the gradient with its rows reversed. -/
theorem C69_backwards {c c' : UnitaryCfg d m} (hc : Closed c) (hc' : Closed c') (hi : Normalised c)
    (h : Reversed c c') (junk s0 junk' s0' : State d m (Decomp d)) (a0 a0' : Amps)
    (ops ops' : List Op) (ha : ∀ k j, k < c.nTs → j < c.nCtrls →
      lastAmps a0' ops' k j = lastAmps a0 ops (c.nTs - 1 - k) j) :
    query c'.sys junk' s0' a0' ops' .getFidelity = query c.sys junk s0 a0 ops .getFidelity ∧
    query c'.sys junk' s0' a0' ops' .getFidErr = query c.sys junk s0 a0 ops .getFidErr ∧
    (ExactAt c (lastAmps a0 ops) → ExactAt c' (lastAmps a0' ops') →
      GradRel (fun g g' => ∀ k j, k < c.nTs → j < c.nCtrls → g' k j = g (c.nTs - 1 - k) j)
        (query c.sys junk s0 a0 ops .getGradient)
        (query c'.sys junk' s0' a0' ops' .getGradient)) := by
  have ho := reversed_overlap hc hc' h ha
  have hN : initNormalization c'.phaseOpt c'.target = initNormalization c.phaseOpt c.target := by
    unfold initNormalization
    rw [h.phaseOpt, h.target, hi.initial, hi.target]
  have hd : c'.sys.dimNorm = c.sys.dimNorm := by rw [sys_dimNorm, sys_dimNorm]; exact hN
  have hs : c'.sys.scale = c.sys.scale := by rw [sys_scale, sys_scale, h.scaleFactor]
  obtain ⟨h1, h2, h3⟩ := same_answers h.toSameSettings (fun _ => by rw [ho, hd, Complex.norm_conj])
    (fun _ => by rw [ho, hd, Complex.conj_re]) fun _ => by rw [hs, reversed_frob hc hc' h ha]
  simp only [query_eq hc.valid, query_eq hc'.valid]
  refine ⟨h2, h3, fun hx hx' => ?_⟩
  refine grad_answers h.toSameSettings hx hx' h1 _ fun f k j hk hj => ?_
  beta_reduce
  rw [if_pos ⟨h.nTs ▸ hk, h.nCtrls ▸ hj⟩, if_pos ⟨by omega, hj⟩,
    reversed_gradEntry hc hc' h hN ha hx hx' f hk hj]

/-- **C69.** PSU: the zero of energy does not matter, in the drift and in the controls, slot by
slot: multiples of the identity added to them change neither fidelity nor error nor, where the
fidelity is not zero, the gradient.  (For `SU` and the trace difference the phase counts.) -/
theorem C69_zero_of_energy {c c' : UnitaryCfg d m} (hc : Closed c) (hc' : Closed c')
    (hu : c.fidKind = .unitary) (hp : c.phaseOpt = .PSU) {u : Nat → ℝ} {v : Nat → Nat → ℝ}
    (h : Shifted u v c c') (junk s0 junk' s0' : State d m (Decomp d)) (a0 a0' : Amps)
    (ops ops' : List Op) (ha : AmpsAgree c (lastAmps a0 ops) (lastAmps a0' ops')) :
    query c'.sys junk' s0' a0' ops' .getFidelity = query c.sys junk s0 a0 ops .getFidelity ∧
    query c'.sys junk' s0' a0' ops' .getFidErr = query c.sys junk s0 a0 ops .getFidErr ∧
    (ExactAt c (lastAmps a0 ops) → ExactAt c' (lastAmps a0' ops') →
      query c.sys junk s0 a0 ops .getFidelity ≠ .real 0 →
      GradRel (fun g g' => g' = g) (query c.sys junk s0 a0 ops .getGradient)
        (query c'.sys junk' s0' a0' ops' .getGradient)) := by
  have ho := shifted_overlap hc hc' h ha
  have hd : c'.sys.dimNorm = c.sys.dimNorm := by
    rw [sys_dimNorm, sys_dimNorm, h.phaseOpt, h.target]
  obtain ⟨h1, h2, h3⟩ := same_answers h.toSameSettings
    (fun _ => by rw [ho, hd, norm_mul, totalPhase_norm, one_mul])
    (fun hs => absurd (hp.symm.trans hs) (by decide)) fun hs => absurd (hu.symm.trans hs) (by decide)
  simp only [query_eq hc.valid, query_eq hc'.valid]
  refine ⟨h2, h3, fun hx hx' h0 => ?_⟩
  have h0' : overlap c.sys (lastAmps a0 ops) ≠ 0 := by
    intro hz
    apply h0
    simp [answer, sys_fidKind, hu, fidelity, sys_phaseOpt, hp, hz, Out.ofReal]
  refine grad_answers h.toSameSettings hx hx' h1 _ fun f => ?_
  ext k j
  rw [h.nTs, h.nCtrls]
  split
  · next hkj => rw [shifted_gradEntry hc hc' h ha hx hx' hu hp h0' f hkj.1 hkj.2]
  · rfl

/-- **C69.** A spectator does not matter: beside a system that nothing acts on and that stays in
`X` the fidelity, the error and the gradient of the unitary measure are the same; for the trace
difference measure provided the scale factors absorb the size of `X`, as the default ones do when
`X` is a gate of the spectator. -/
theorem C69_spectator {c : UnitaryCfg d m} {c' : UnitaryCfg (d × e) (m × p)} (hc : Closed c)
    (hc' : Closed c') {X : Matrix e p ℂ} (hX : X ≠ 0) (h : Beside X c c')
    (hs : c.fidKind = .traceDiff → c'.sys.scale * frobSq X = c.sys.scale)
    (junk s0 : State d m (Decomp d)) (junk' s0' : State (d × e) (m × p) (Decomp (d × e)))
    (a0 a0' : Amps) (ops ops' : List Op)
    (ha : AmpsAgree c (lastAmps a0 ops) (lastAmps a0' ops')) :
    finalObj c'.sys junk' s0' a0' ops' = finalObj c.sys junk s0 a0 ops ⊗ₖ X ∧
    query c'.sys junk' s0' a0' ops' .getFidelity = query c.sys junk s0 a0 ops .getFidelity ∧
    query c'.sys junk' s0' a0' ops' .getFidErr = query c.sys junk s0 a0 ops .getFidErr ∧
    (ExactAt c (lastAmps a0 ops) → ExactAt c' (lastAmps a0' ops') →
      GradRel (fun g g' => g' = g) (query c.sys junk s0 a0 ops .getGradient)
        (query c'.sys junk' s0' a0' ops' .getGradient)) := by
  have hX' : frobSq X ≠ 0 := fun h0 => hX ((frobSq_eq_zero X).1 h0)
  have ho := beside_overlap hc hc' h ha
  have hd : c'.sys.dimNorm = c.sys.dimNorm * frobSq X := by
    rw [sys_dimNorm, sys_dimNorm]; exact beside_norm h
  obtain ⟨h1, h2, h3⟩ := same_answers h.toSameSettings
    (fun _ => by
      rw [ho, hd, norm_mul, Complex.norm_real, Real.norm_eq_abs, abs_of_nonneg (frobSq_nonneg X),
        mul_div_mul_right _ _ hX'])
    (fun _ => by rw [ho, hd, Complex.re_mul_ofReal, mul_div_mul_right _ _ hX']) fun hk => by
      rw [beside_final hc hc' h ha, h.target, sub_kron, ← frobSq_re (_ ⊗ₖ X), trace_beside,
        Complex.re_mul_ofReal, frobSq_re, ← hs hk]
      ring
  rw [finalObj_eq hc.valid, finalObj_eq hc'.valid]
  simp only [query_eq hc.valid, query_eq hc'.valid]
  refine ⟨beside_final hc hc' h ha, h2, h3, fun hx hx' => ?_⟩
  refine grad_answers h.toSameSettings hx hx' h1 _ fun f => ?_
  ext k j
  rw [h.nTs, h.nCtrls]
  split
  · next hkj => rw [beside_gradEntry hc hc' h hX' hs ha hx hx' f hkj.1 hkj.2]
  · rfl

/-- **C69.** With the default scale factor of the trace difference measure a spectator multiplies
the error by the squared norm of its object over its dimension: by one for a gate, but by one over
the dimension for a state.  A target on the error is therefore easier to meet beside a
spectator that is in a state. -/
theorem C69_spectator_default_scale {c : UnitaryCfg d m} {c' : UnitaryCfg (d × e) (m × p)}
    (hc : Closed c) (hc' : Closed c') {X : Matrix e p ℂ} (h : Beside X c c')
    (hk : c.fidKind = .traceDiff) (hs : c.scaleFactor = none)
    (junk s0 : State d m (Decomp d)) (junk' s0' : State (d × e) (m × p) (Decomp (d × e)))
    (a0 a0' : Amps) (ops ops' : List Op)
    (ha : AmpsAgree c (lastAmps a0 ops) (lastAmps a0' ops')) :
    ∃ err, query c.sys junk s0 a0 ops .getFidErr = .real err ∧
      query c'.sys junk' s0' a0' ops' .getFidErr =
        .real (err * (frobSq X / (Fintype.card e : ℝ))) := by
  simp only [query_eq hc.valid, query_eq hc'.valid]
  simp only [answer, fidErr, sys_fidKind, hk, h.fidKind, Out.ofReal]
  refine ⟨_, rfl, ?_⟩
  congr 1
  rw [sys_target, sys_target, beside_final hc hc' h ha, h.target, sub_kron,
    trace_beside, Complex.re_mul_ofReal, sys_scale, sys_scale, h.scaleFactor, hs]
  simp only [defaultScale, Fintype.card_prod]
  push_cast
  rw [one_div, one_div, mul_inv, mul_inv, mul_inv]
  ring

/-! ### Non-vacuity -/

section Examples

/-- A qubit with drift `σz`, control `σx`, identity as initial gate and target `diag(1, i)`. -/
noncomputable def sample (n : Nat) (fk : FidKind) (po : PhaseOpt) : UnitaryCfg (Fin 2) (Fin 2) :=
  qubit n (diagonal ![1, -1]) !![0, 1; 1, 0] (diagonal ![1, Complex.I]) fk po

theorem sample_drift : (diagonal ![1, -1] : Matrix (Fin 2) (Fin 2) ℂ).IsHermitian := by
  rw [Matrix.isHermitian_diagonal_iff]
  intro i
  fin_cases i <;> simp [isSelfAdjoint_iff]

theorem sample_ctrl : (!![0, 1; 1, 0] : Matrix (Fin 2) (Fin 2) ℂ).IsHermitian := by
  ext i j
  fin_cases i <;> fin_cases j <;> simp

theorem sample_closed {n : Nat} (hn : 0 < n) (fk : FidKind) (po : PhaseOpt) :
    Closed (sample n fk po) := qubit_closed hn sample_drift sample_ctrl fk po

theorem sample_normalised (n : Nat) (fk : FidKind) (po : PhaseOpt) :
    Normalised (sample n fk po) := by
  refine qubit_normalised ?_ fk po
  ext i j
  fin_cases i <;> fin_cases j <;> simp [Matrix.mul_apply, Fin.sum_univ_two]

theorem smul_hermitian {A : Matrix d d ℂ} (h : A.IsHermitian) (r : ℝ) :
    ((r : ℂ) • A).IsHermitian := by
  unfold Matrix.IsHermitian
  rw [conjTranspose_smul, h.eq]
  simp

theorem conj_hermitian {A W : Matrix d d ℂ} (h : A.IsHermitian) : (W * A * Wᴴ).IsHermitian := by
  unfold Matrix.IsHermitian
  simp only [conjTranspose_mul, conjTranspose_conjTranspose, h.eq, Matrix.mul_assoc]

/-- **C69_basis**: the sample with its two levels exchanged. -/
example (fk : FidKind) (po : PhaseOpt) (a : Amps) :
    ∃ (c c' : UnitaryCfg (Fin 2) (Fin 2)) (W V : Matrix (Fin 2) (Fin 2) ℂ), Closed c ∧ Closed c' ∧
      Rebased W V c c' ∧ W ∈ Matrix.unitaryGroup (Fin 2) ℂ ∧ V ∈ Matrix.unitaryGroup (Fin 2) ℂ ∧
      W ≠ 1 ∧ c.drift 0 ≠ c'.drift 0 ∧ ExactAt c a ∧ ExactAt c' a ∧ c.fidKind = fk ∧
      c.phaseOpt = po := by
  let W : Matrix (Fin 2) (Fin 2) ℂ := !![0, 1; 1, 0]
  have hW : W * Wᴴ = 1 := by
    ext i j
    fin_cases i <;> fin_cases j <;> simp [W, Matrix.mul_apply, Fin.sum_univ_two]
  have hW' : Wᴴ * W = 1 := by
    ext i j
    fin_cases i <;> fin_cases j <;> simp [W, Matrix.mul_apply, Fin.sum_univ_two]
  refine ⟨sample 3 fk po, qubit 3 (W * diagonal ![1, -1] * Wᴴ) (W * !![0, 1; 1, 0] * Wᴴ)
    (W * diagonal ![1, Complex.I] * Wᴴ) fk po, W, Wᴴ, sample_closed (by norm_num) fk po,
    qubit_closed (by norm_num) (conj_hermitian sample_drift) (conj_hermitian sample_ctrl) fk po,
    ?_, (Matrix.mem_unitaryGroup_iff).2 hW, ?_, ?_, ?_, Or.inl rfl, Or.inl rfl, rfl, rfl⟩
  · refine ⟨⟨rfl, rfl, rfl, rfl⟩, rfl, rfl, fun _ _ => rfl, fun _ _ => rfl, fun _ _ _ _ => rfl, ?_, rfl⟩
    change (1 : Matrix (Fin 2) (Fin 2) ℂ) = W * 1 * Wᴴ
    rw [Matrix.mul_one, hW]
  · rw [Matrix.mem_unitaryGroup_iff, star_eq_conjTranspose, conjTranspose_conjTranspose, hW']
  · intro h
    simpa [W] using congrFun (congrFun h 0) 0
  · intro h
    have := congrFun (congrFun h 0) 0
    change (diagonal ![1, -1] : Matrix (Fin 2) (Fin 2) ℂ) 0 0 =
      (W * diagonal ![1, -1] * Wᴴ : Matrix (Fin 2) (Fin 2) ℂ) 0 0 at this
    simp [W, Matrix.mul_apply, Fin.sum_univ_two, Matrix.vecMul_diagonal] at this
    norm_num at this

/-- The sample with its control offered twice, once doubled and once negative, and already
contained in the drift. -/
noncomputable def sampleTwice (n : Nat) (fk : FidKind) (po : PhaseOpt) :
    UnitaryCfg (Fin 2) (Fin 2) :=
  { sample n fk po with
    nCtrls := 2,
    drift := fun _ => diagonal ![1, -1] + ((1 : ℝ) : ℂ) • !![0, 1; 1, 0],
    ctrl := fun _ i => ((if i = 0 then 2 else -1 : ℝ) : ℂ) • !![0, 1; 1, 0] }

/-- **C69_controls**: one control against two combinations of it. -/
example (fk : FidKind) (po : PhaseOpt) (a : Amps) :
    ∃ (M : Nat → Nat → Nat → ℝ) (b : Nat → Nat → ℝ), Closed (sample 3 fk po) ∧
      Closed (sampleTwice 3 fk po) ∧ Recombined M b (sample 3 fk po) (sampleTwice 3 fk po) ∧
      (sample 3 fk po).nCtrls = 1 ∧ (sampleTwice 3 fk po).nCtrls = 2 ∧
      ExactAt (sample 3 fk po) a ∧ ExactAt (sampleTwice 3 fk po) a := by
  refine ⟨fun _ _ i => if i = 0 then 2 else -1, fun _ _ => 1, sample_closed (by norm_num) fk po, ?_,
    ?_, rfl, rfl, Or.inl rfl, Or.inl rfl⟩
  · exact ⟨by change 0 < 3; norm_num, by change 0 < 2; norm_num,
      fun _ _ => sample_drift.add (smul_hermitian sample_ctrl 1),
      fun _ i _ _ => smul_hermitian sample_ctrl _, (sample_closed (n := 3) (by norm_num) fk po).eigh⟩
  · refine ⟨⟨rfl, rfl, rfl, rfl⟩, rfl, fun _ _ => rfl, fun k _ => ?_, fun k i _ _ => ?_, rfl, rfl⟩
    · change _ = diagonal ![1, -1] + ∑ j ∈ Finset.range 1, ((1 : ℝ) : ℂ) • (!![0, 1; 1, 0] : Matrix _ _ ℂ)
      rw [Finset.sum_range_one]
      rfl
    · change _ = ∑ j ∈ Finset.range 1, (((if i = 0 then 2 else -1 : ℝ)) : ℂ) •
        (!![0, 1; 1, 0] : Matrix _ _ ℂ)
      rw [Finset.sum_range_one]
      rfl

/-- **C69_units**: half a unit of time against one and a half with a third of the energies. -/
example (fk : FidKind) (po : PhaseOpt) (a : Amps) :
    ∃ (c c' : UnitaryCfg (Fin 2) (Fin 2)), Closed c ∧ Closed c' ∧ Rescaled (fun _ => 3) c c' ∧
      c.tau 0 ≠ c'.tau 0 ∧ ExactAt c a ∧ ExactAt c' a := by
  refine ⟨sample 3 fk po, { sample 3 fk po with
    tau := fun _ => 3 * (1 / 2), drift := fun _ => ((1 / 3 : ℝ) : ℂ) • diagonal ![1, -1],
    ctrl := fun _ _ => ((1 / 3 : ℝ) : ℂ) • !![0, 1; 1, 0] }, sample_closed (by norm_num) fk po, ?_,
    ?_, ?_, Or.inl rfl, Or.inl rfl⟩
  · exact ⟨by change 0 < 3; norm_num, by change 0 < 1; norm_num,
      fun _ _ => smul_hermitian sample_drift _, fun _ _ _ _ => smul_hermitian sample_ctrl _,
      (sample_closed (n := 3) (by norm_num) fk po).eigh⟩
  · refine ⟨⟨rfl, rfl, rfl, rfl⟩, rfl, rfl, fun _ _ => rfl, fun k _ => ?_, fun k i _ _ => ?_, rfl, rfl⟩
    · change (diagonal ![1, -1] : Matrix (Fin 2) (Fin 2) ℂ) = ((3 : ℝ) : ℂ) • ((1 / 3 : ℝ) : ℂ) • _
      rw [smul_smul]
      norm_num
    · change (!![0, 1; 1, 0] : Matrix (Fin 2) (Fin 2) ℂ) = ((3 : ℝ) : ℂ) • ((1 / 3 : ℝ) : ℂ) • _
      rw [smul_smul]
      norm_num
  · change (1 / 2 : ℝ) ≠ 3 * (1 / 2)
    norm_num

/-- **C69_refined_grid**: the middle slot of three cut into a fifth and the rest. -/
example (fk : FidKind) (po : PhaseOpt) (a : Amps) :
    ∃ (c c' : UnitaryCfg (Fin 2) (Fin 2)), Closed c ∧ Closed c' ∧ Cut 1 (1 / 10) c c' ∧
      c.nTs = 3 ∧ ExactAt c a ∧ ExactAt c' a := by
  refine ⟨sample 3 fk po, { sample 4 fk po with
    tau := fun k => if k = 1 then 1 / 10 else if k = 2 then 1 / 2 - 1 / 10 else 1 / 2 },
    sample_closed (by norm_num) fk po, ?_, ?_, rfl, Or.inl rfl, Or.inl rfl⟩
  · exact ⟨by change 0 < 4; norm_num, by change 0 < 1; norm_num, fun _ _ => sample_drift,
      fun _ _ _ _ => sample_ctrl, (sample_closed (n := 3) (by norm_num) fk po).eigh⟩
  · exact ⟨⟨rfl, rfl, rfl, rfl⟩, by change 1 < 3; norm_num, rfl, rfl, fun _ _ => rfl, fun _ _ => rfl,
      fun _ _ _ _ => rfl, rfl, rfl⟩

/-- **C69_backwards**: from `diag(1, i)` back to the identity. -/
example (fk : FidKind) (po : PhaseOpt) (a : Amps) :
    ∃ (c c' : UnitaryCfg (Fin 2) (Fin 2)), Closed c ∧ Closed c' ∧ Normalised c ∧ Reversed c c' ∧
      ExactAt c a ∧ ExactAt c' a := by
  refine ⟨sample 3 fk po, { sample 3 fk po with
    drift := fun _ => -diagonal ![1, -1], ctrl := fun _ _ => -!![0, 1; 1, 0],
    initial := diagonal ![1, Complex.I], target := 1 },
    sample_closed (by norm_num) fk po, ?_, sample_normalised 3 fk po, ?_, Or.inl rfl, Or.inl rfl⟩
  · exact ⟨by change 0 < 3; norm_num, by change 0 < 1; norm_num, fun _ _ => sample_drift.neg,
      fun _ _ _ _ => sample_ctrl.neg, (sample_closed (n := 3) (by norm_num) fk po).eigh⟩
  · exact ⟨⟨rfl, rfl, rfl, rfl⟩, rfl, rfl, fun _ _ => rfl, fun _ _ => rfl, fun _ _ _ _ => rfl, rfl, rfl⟩

theorem one_hermitian (r : ℝ) : ((r : ℂ) • (1 : Matrix d d ℂ)).IsHermitian :=
  smul_hermitian Matrix.isHermitian_one r

/-- **C69_zero_of_energy**: `σz + 3` and `σx + 5`; the fidelity is not zero. -/
example (junk s0 : State (Fin 2) (Fin 2) (Decomp (Fin 2))) :
    ∃ (c c' : UnitaryCfg (Fin 2) (Fin 2)), Closed c ∧ Closed c' ∧ c.fidKind = .unitary ∧
      c.phaseOpt = .PSU ∧ Shifted (fun _ => 3) (fun _ _ => 5) c c' ∧
      ExactAt c (lastAmps (fun _ _ => 0) []) ∧ ExactAt c' (lastAmps (fun _ _ => 0) []) ∧
      query c.sys junk s0 (fun _ _ => 0) [] .getFidelity ≠ .real 0 := by
  obtain ⟨c, rfl, hc, -, -, hx, hu, hp, h0⟩ := qubit_nonzero junk s0
  refine ⟨_, { sample 2 .unitary .PSU with
    drift := fun _ => diagonal ![1, -1] + ((3 : ℝ) : ℂ) • 1,
    ctrl := fun _ _ => !![0, 1; 1, 0] + ((5 : ℝ) : ℂ) • 1 },
    hc, ?_, hu, hp, ?_, hx, Or.inl rfl, h0⟩
  · exact ⟨by change 0 < 2; norm_num, by change 0 < 1; norm_num,
      fun _ _ => sample_drift.add (one_hermitian 3), fun _ _ _ _ => sample_ctrl.add (one_hermitian 5),
      hc.eigh⟩
  · exact ⟨⟨rfl, rfl, rfl, rfl⟩, rfl, rfl, fun _ _ => rfl, fun _ _ => rfl, fun _ _ _ _ => rfl, rfl, rfl⟩

theorem kron_hermitian {A : Matrix d d ℂ} (h : A.IsHermitian) :
    (A ⊗ₖ (1 : Matrix e e ℂ)).IsHermitian := by
  unfold Matrix.IsHermitian
  rw [conjTranspose_kronecker, h.eq, conjTranspose_one]

/-- A configuration beside a spectator. -/
noncomputable def withSpectator (c : UnitaryCfg d m) (X : Matrix e p ℂ) :
    UnitaryCfg (d × e) (m × p) where
  nTs := c.nTs
  nCtrls := c.nCtrls
  drift := fun k => c.drift k ⊗ₖ (1 : Matrix e e ℂ)
  ctrl := fun k j => c.ctrl k j ⊗ₖ (1 : Matrix e e ℂ)
  tau := c.tau
  initial := c.initial ⊗ₖ X
  target := c.target ⊗ₖ X
  isQobj := c.isQobj
  cachePhased := c.cachePhased
  cachePropGrad := c.cachePropGrad
  propKind := .frechet
  fidKind := c.fidKind
  phaseOpt := c.phaseOpt
  scaleFactor := c.scaleFactor
  prec := c.prec
  eigh := (exists_eigh (d := d × e)).choose

theorem withSpectator_closed {c : UnitaryCfg d m} (hc : Closed c) (X : Matrix e p ℂ) :
    Closed (withSpectator c X) :=
  ⟨hc.slots, hc.ctrls, fun k hk => kron_hermitian (hc.drift k hk),
    fun k j hk hj => kron_hermitian (hc.ctrl k j hk hj), exists_eigh.choose_spec⟩

theorem withSpectator_beside (c : UnitaryCfg d m) (X : Matrix e p ℂ) :
    Beside X c (withSpectator c X) :=
  ⟨⟨rfl, rfl, rfl, rfl⟩, rfl, rfl, fun _ _ => rfl, fun _ _ => rfl, fun _ _ _ _ => rfl, rfl, rfl⟩

theorem frobSq_one : frobSq (1 : Matrix e e ℂ) = (Fintype.card e : ℝ) := by
  have h := frobSq_eq (1 : Matrix e e ℂ)
  rw [conjTranspose_one, Matrix.one_mul, trace_one] at h
  exact_mod_cast h.symm

/-- **C69_spectator** and **C69_spectator_default_scale**: every closed system beside a second
qubit with the identity gate, for both measures, with the default scale factor. -/
example (fk : FidKind) (po : PhaseOpt) (a : Amps) :
    ∃ (c : UnitaryCfg (Fin 2) (Fin 2)) (c' : UnitaryCfg (Fin 2 × Fin 2) (Fin 2 × Fin 2))
      (X : Matrix (Fin 2) (Fin 2) ℂ), Closed c ∧ Closed c' ∧ X ≠ 0 ∧ Beside X c c' ∧
      c'.sys.scale * frobSq X = c.sys.scale ∧ c.scaleFactor = none ∧ ExactAt c a ∧ ExactAt c' a := by
  refine ⟨sample 3 fk po, withSpectator (sample 3 fk po) 1, 1, sample_closed (by norm_num) fk po,
    withSpectator_closed (sample_closed (by norm_num) fk po) 1, one_ne_zero,
    withSpectator_beside _ _, ?_, rfl, Or.inl rfl, Or.inl rfl⟩
  rw [sys_scale, sys_scale, frobSq_one]
  change 1 / (2 * ((Fintype.card (Fin 2 × Fin 2) : ℕ) : ℝ)) * ((Fintype.card (Fin 2) : ℕ) : ℝ) =
    1 / (2 * ((Fintype.card (Fin 2) : ℕ) : ℝ))
  simp only [Fintype.card_prod, Fintype.card_fin]
  norm_num

end Examples

end QTrl.Dyn
