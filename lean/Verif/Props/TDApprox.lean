import Verif.Model.TDApprox
import Verif.Spec.TDApprox
import Verif.Proofs.Unitary
import Verif.Props.Evolution

/-
C14: the finite difference gradient of `FidCompTraceDiffApprox`.

The code multiplies the factors in the wrong order, so the property is violated:
`C14_violated` gives a system with two slots.  `C14_partial` proves it for operators
that commute.
-/

set_option linter.unusedSectionVars false

open Matrix

namespace QTrl.Dyn

open QTrl.Spec QTrl.MatExp

variable {d D : Type} [Fintype d] [DecidableEq d]

/-- `step` (see `Verif/Model/Dynamics.lean`) with the finite difference gradient. -/
noncomputable def stepA (S : Sys d d D) (eps : ℝ) (junk s : State d d D) : Op → State d d D × Out
  | .getGradient =>
    let r := getGradTDApprox S eps s
    (r.1, .ofArray r.2)
  | op => step S junk s op

/-- State after a history. -/
noncomputable def reachedA (S : Sys d d D) (eps : ℝ) (junk s0 : State d d D) (a0 : Amps)
    (ops : List Op) : State d d D :=
  ops.foldl (fun s op => (stepA S eps junk s op).1) (initControls S junk s0 a0)

/-- Output of an operation after a history. -/
noncomputable def queryA (S : Sys d d D) (eps : ℝ) (junk s0 : State d d D) (a0 : Amps)
    (ops : List Op) (op : Op) : Out :=
  (stepA S eps junk (reachedA S eps junk s0 a0 ops) op).2

/-- The evolution the code compares with the target. -/
def shiftedFinal (S : Sys d d D) (amps : Amps) (eps : ℝ) (k j : Nat) : Matrix d d ℂ :=
  evolution S amps 0 k * S.initial *
    S.expm ((S.tau k : ℂ) • (phased S (generator S amps k) + (eps : ℂ) • phased S (S.ctrl k j))) *
    evolution S amps (k + 1) S.nTs

/-- The gradient the code reports. -/
noncomputable def approxGrad (S : Sys d d D) (eps : ℝ) (amps : Amps) : Nat → Nat → ℝ :=
  fun k j => if k < S.nTs ∧ j < S.nCtrls then
    (S.scale * frobSq (S.target - shiftedFinal S amps eps k j) -
      S.scale * frobSq (S.target - final S amps)) / eps else 0

/-- The invariant: the cached gradient is `approxGrad`. -/
abbrev InvA (S : Sys d d D) (eps : ℝ) (s : State d d D) : Prop :=
  InvG (fun b g => g = approxGrad S eps b) S s

theorem approxGrad_congr {S : Sys d d D} {a b : Amps} (h : SameAmps S a b) (eps : ℝ) :
    approxGrad S eps a = approxGrad S eps b := by
  funext k j
  unfold approxGrad
  by_cases hk : k < S.nTs ∧ j < S.nCtrls
  · rw [if_pos hk, if_pos hk]
    unfold shiftedFinal
    rw [final_congr h, evolution_congr h (Nat.le_of_lt hk.1), evolution_congr h (Nat.le_refl _),
      generator_congr h hk.1]
  · rw [if_neg hk, if_neg hk]

theorem getFidErrTD_some {S : Sys d d D} {s : State d d D} {b : Amps} (hn : Valid S)
    {G : Amps → (Nat → Nat → ℝ) → Prop} (hu : S.fidKind = .traceDiff)
    (hi : InvG G S s) (ha : s.ctrlAmps = some b) :
    ∃ t, getFidErrTD S s = (t, .ok (S.scale * frobSq (S.target - final S b))) ∧ InvG G S t ∧
      t.ctrlAmps = some b := by
  obtain ⟨t, e, it, at'⟩ := getFidErr_some hn hi ha
  refine ⟨t, ?_, it, at'⟩
  unfold getFidErr fidErr at e
  rw [hu] at e
  simp only [frobSq_re] at e
  exact e

theorem getFidErrTD_evo (S : Sys d d D) (s : State d d D) (h : s.evoCurrent = true) :
    ∃ fe fc n, (getFidErrTD S s).1 =
      { s with fidErr := fe, fidelityCurrent := fc, numFidComputes := n } := by
  unfold getFidErrTD
  by_cases hc : s.fidelityCurrent = true
  · rw [if_pos hc]
    exact ⟨s.fidErr, s.fidelityCurrent, s.numFidComputes, rfl⟩
  · rw [if_neg hc]
    unfold computeEvolution
    rw [if_pos h]
    exact ⟨_, _, _, rfl⟩

theorem getGradTDApprox_some {S : Sys d d D} {eps : ℝ} {s : State d d D} {b : Amps} (hn : Valid S)
    (hu : S.fidKind = .traceDiff) (hi : InvA S eps s) (ha : s.ctrlAmps = some b) :
    ∃ t, getGradTDApprox S eps s = (t, .ok (approxGrad S eps b)) ∧ InvA S eps t ∧
      t.ctrlAmps = some b := by
  unfold getGradTDApprox
  by_cases hc : s.gradCurrent = true
  · rw [if_pos hc]
    obtain ⟨b', hb', ho⟩ := hi.grad hc
    rw [ha] at hb'; cases hb'
    exact ⟨s, by rw [ho], hi, ha⟩
  · rw [if_neg hc]
    unfold computeErrGradTDApprox
    obtain ⟨r, t, e, it, at', et, ot⟩ := computeEvolution_some hn hi ha
    simp only [e]
    obtain ⟨t2, e2, it2, at2⟩ := getFidErrTD_some hn hu it at'
    obtain ⟨fe, fc, n, h2⟩ := getFidErrTD_evo S t et
    simp only [e2] at h2 ⊢
    have ot2 : EvoOK S b t2 := by
      rw [h2]
      exact ⟨fun k hk hc => ot.decomp k hk hc, ot.gen.frame _ rfl rfl, ot.prop, ot.propGrad,
        ot.fwd, ot.onwd, ot.onto⟩
    have hloop := gradLoop_ok S
      (gradEntryTDApprox S eps (S.scale * frobSq (S.target - final S b))) (0 : ℝ) t2
      (fun k j => (S.scale * frobSq (S.target - shiftedFinal S b eps k j) -
        S.scale * frobSq (S.target - final S b)) / eps) ot2.decomp ?_
    · obtain ⟨t3, e3, o3⟩ := hloop
      obtain ⟨it3, at3⟩ := InvG.onlyDecomp it2 o3
      simp only [e3]
      refine ⟨_, rfl, ⟨⟨it3.ends.fwd0, it3.ends.ontoN⟩, ?_, it3.prenorm, it3.fid, ?_⟩,
        at3.trans at2⟩
      · intro hc
        obtain ⟨b', hb', o⟩ := it3.evo hc
        exact ⟨b', hb', ⟨fun k hk hc => o.decomp k hk hc, o.gen.frame _ rfl rfl, o.prop, o.propGrad,
          o.fwd, o.onwd, o.onto⟩⟩
      · intro _
        exact ⟨b, at3.trans at2, rfl⟩
    · intro t3 k j hk hj o3
      refine ⟨t3, ?_, o3⟩
      have ot3 := ot2.onlyDecomp o3
      unfold gradEntryTDApprox
      simp only [frobSq_re]
      have hev : (if k + 1 < S.nTs then t3.fwd k * computeDiffProp S eps t3 k j * t3.onwd (k + 1)
          else t3.fwd k * computeDiffProp S eps t3 k j) = shiftedFinal S b eps k j := by
        unfold shiftedFinal computeDiffProp
        rw [ot3.fwd k hk.le, ot3.gen.phased k hk, getPhasedCtrl_eq hn]
        by_cases hk1 : k + 1 < S.nTs
        · rw [if_pos hk1, ot3.onwd (by simp [usesOnwd, hu]) _ hk1]
        · rw [if_neg hk1]
          have : k + 1 = S.nTs := by omega
          rw [this]
          unfold evolution
          rw [timeOrdered_self, Matrix.mul_one]
      rw [hev]

theorem stepA_inv {S : Sys d d D} {eps : ℝ} (hn : Valid S) (hu : S.fidKind = .traceDiff)
    (junk : State d d D) {s : State d d D} {a : Amps} (hi : InvA S eps s)
    (ha : ∃ b, s.ctrlAmps = some b ∧ SameAmps S b a) (op : Op) :
    InvA S eps (stepA S eps junk s op).1 ∧
      ∃ b, (stepA S eps junk s op).1.ctrlAmps = some b ∧ SameAmps S b (lastAmps a [op]) := by
  obtain ⟨b, hb, hs⟩ := ha
  cases op with
  | updateAmps a' => exact compareAmps_amps hi a'
  | reinit a' => exact initControls_inv S junk s a'
  | computeEvolution =>
    obtain ⟨r, t, e, it, at', _⟩ := computeEvolution_some hn hi hb
    simp only [stepA, step, e]
    exact ⟨it, b, at', hs⟩
  | getFidelity =>
    simp only [stepA, step, hu]
    exact ⟨hi, b, hb, hs⟩
  | getFidErr =>
    obtain ⟨t, e, it, at'⟩ := getFidErr_some hn hi hb
    simp only [stepA, step, e]
    exact ⟨it, b, at', hs⟩
  | getGradient =>
    obtain ⟨t, e, it, at'⟩ := getGradTDApprox_some hn hu hi hb
    simp only [stepA, e]
    exact ⟨it, b, at', hs⟩

theorem reachedA_inv {S : Sys d d D} {eps : ℝ} (hn : Valid S) (hu : S.fidKind = .traceDiff)
    (junk s0 : State d d D) (a0 : Amps) (ops : List Op) :
    InvA S eps (reachedA S eps junk s0 a0 ops) ∧
      ∃ b, (reachedA S eps junk s0 a0 ops).ctrlAmps = some b ∧
        SameAmps S b (lastAmps a0 ops) := by
  unfold reachedA
  obtain ⟨h1, h2⟩ := initControls_inv (G := fun b g => g = approxGrad S eps b) S junk s0 a0
  generalize initControls S junk s0 a0 = s at h1 h2
  induction ops generalizing s a0 with
  | nil => exact ⟨h1, h2⟩
  | cons op ops ih =>
    obtain ⟨h3, h4⟩ := stepA_inv hn hu junk h1 h2 op
    have := ih (lastAmps a0 [op]) _ h3 h4
    cases op <;> exact this

theorem queryA_err {S : Sys d d D} {eps : ℝ} (hn : Valid S) (hu : S.fidKind = .traceDiff)
    (junk s0 : State d d D) (a0 : Amps) (ops : List Op) :
    queryA S eps junk s0 a0 ops .getFidErr =
      .real (S.scale * frobSq (S.target - final S (lastAmps a0 ops))) := by
  obtain ⟨hi, b, hb, hs⟩ := reachedA_inv hn hu junk s0 a0 ops (eps := eps)
  obtain ⟨t, e, _, _⟩ := getFidErrTD_some hn hu hi hb
  simp only [queryA, stepA, step, getFidErr, hu, e, Out.ofReal, final_congr hs]

theorem queryA_grad {S : Sys d d D} {eps : ℝ} (hn : Valid S) (hu : S.fidKind = .traceDiff)
    (junk s0 : State d d D) (a0 : Amps) (ops : List Op) :
    queryA S eps junk s0 a0 ops .getGradient = .array (approxGrad S eps (lastAmps a0 ops)) := by
  obtain ⟨hi, b, hb, hs⟩ := reachedA_inv hn hu junk s0 a0 ops (eps := eps)
  obtain ⟨t, e, _, _⟩ := getGradTDApprox_some hn hu hi hb
  simp only [queryA, stepA, e, Out.ofArray, approxGrad_congr hs]

theorem lastAmps_append_update (a0 : Amps) (ops : List Op) (a : Amps) :
    lastAmps a0 (ops ++ [.updateAmps a]) = a := by
  induction ops generalizing a0 with
  | nil => rfl
  | cons op ops ih => cases op <;> simp only [List.cons_append, lastAmps, ih]

/-- The full property: after any history the reported gradient is the difference
quotient of the reported error. -/
def C14_statement (S : Sys d d D) (eps : ℝ) (junk s0 : State d d D) (a0 : Amps) (ops : List Op) :
    Prop :=
  ∃ err g, (∀ a, queryA S eps junk s0 a0 (ops ++ [.updateAmps a]) .getFidErr = .real (err a)) ∧
    queryA S eps junk s0 a0 ops .getGradient = .array g ∧
    IsDiffQuotient S.nTs S.nCtrls err eps (lastAmps a0 ops) g

/-- **C14**, part: it holds when the propagators of the different slots and the initial
operator commute with the shifted propagator, e.g. for a single slot with the identity as
initial operator. -/
theorem C14_partial {S : Sys d d D} (hn : Valid S) (hu : S.fidKind = .traceDiff)
    (hp : S.propKind = .approx)
    (hlin : ∀ (A B : Matrix d d ℂ) (c : ℂ), phased S (A + c • B) = phased S A + c • phased S B)
    (eps : ℝ) (junk s0 : State d d D) (a0 : Amps) (ops : List Op)
    (hinit : ∀ A, Commute S.initial A)
    (hcomm : ∀ k k' j, k < S.nTs → k' < S.nTs → k ≠ k' → j < S.nCtrls →
      Commute (propagator S (setAmp (lastAmps a0 ops) k j (lastAmps a0 ops k j + eps)) k)
        (propagator S (lastAmps a0 ops) k') ∧
      Commute (propagator S (lastAmps a0 ops) k) (propagator S (lastAmps a0 ops) k')) :
    C14_statement S eps junk s0 a0 ops := by
  refine ⟨fun a => S.scale * frobSq (S.target - final S a), approxGrad S eps (lastAmps a0 ops),
    fun a => ?_, queryA_grad hn hu junk s0 a0 ops, ?_⟩
  · rw [queryA_err hn hu, lastAmps_append_update]
  · intro k j hk hj
    unfold approxGrad
    rw [if_pos ⟨hk, hj⟩]
    congr 5
    generalize lastAmps a0 ops = amps at hcomm ⊢
    have hP : propagator S (setAmp amps k j (amps k j + eps)) k =
        S.expm ((S.tau k : ℂ) •
          (phased S (generator S amps k) + (eps : ℂ) • phased S (S.ctrl k j))) := by
      unfold propagator
      rw [if_neg (by simp [hp]), generator_setAmp S amps hj]
      simp only [add_sub_cancel_left, hlin]
    rw [final_setAmp S amps j _ hk]
    unfold shiftedFinal
    rw [← hP]
    have hto : ∀ (P : Matrix d d ℂ) lo hi, lo ≤ hi → (∀ k', lo ≤ k' → k' < hi →
        Commute P (propagator S amps k')) → Commute P (evolution S amps lo hi) := by
      intro P lo hi hle hc
      induction hi with
      | zero =>
        have : lo = 0 := by omega
        subst this
        unfold evolution
        rw [timeOrdered_self]
        exact Commute.one_right _
      | succ hi ih =>
        unfold evolution
        rcases Nat.lt_or_ge hi lo with hlt | hge
        · have : lo = hi + 1 := by omega
          subst this
          rw [timeOrdered_self]
          exact Commute.one_right _
        · rw [timeOrdered_succ _ hge]
          exact (hc hi hge (Nat.lt_succ_self _)).mul_right
            (ih hge fun k' h1 h2 => hc k' h1 (by omega))
    have c1 : Commute (propagator S (setAmp amps k j (amps k j + eps)) k) (evolution S amps 0 k) :=
      hto _ 0 k (Nat.zero_le _) fun k' _ h => (hcomm k k' j hk (by omega) (by omega) hj).1
    have c2 : Commute (propagator S (setAmp amps k j (amps k j + eps)) k)
        (evolution S amps (k + 1) S.nTs) :=
      hto _ (k + 1) S.nTs hk fun k' h h' => (hcomm k k' j hk h' (by omega) hj).1
    have c3 : Commute (evolution S amps 0 k) (evolution S amps (k + 1) S.nTs) := by
      refine hto _ (k + 1) S.nTs hk fun k' h h' => (hto _ 0 k (Nat.zero_le _) fun k'' _ h'' => ?_).symm
      exact (hcomm k' k'' j h' (by omega) (by omega) hj).2
    generalize evolution S amps 0 k = A at c1 c3 ⊢
    generalize evolution S amps (k + 1) S.nTs = B at c2 c3 ⊢
    generalize propagator S (setAmp amps k j (amps k j + eps)) k = P at c1 c2 ⊢
    have i1 := (hinit (P * B)).eq
    calc A * S.initial * P * B = A * (S.initial * (P * B)) := by simp only [Matrix.mul_assoc]
      _ = A * (P * B) * S.initial := by rw [i1]; simp only [Matrix.mul_assoc]
      _ = B * P * A * S.initial := by
          rw [c2.eq, ← Matrix.mul_assoc, c3.eq, Matrix.mul_assoc B A P, ← c1.eq]
          simp only [Matrix.mul_assoc]
      _ = B * P * (A * S.initial) := by rw [Matrix.mul_assoc]

/-! ### The violation -/

/-- Two slots: no drift in the first, drift `x · N` with a nilpotent `N` in the second; one
diagonal control; identity as initial operator.  Blocks are `1 × 1`. -/
noncomputable def twoSlotsOf (x : ℂ) : Sys (Fin 1 ⊕ Fin 1) (Fin 1 ⊕ Fin 1) Unit where
  nTs := 2
  nCtrls := 1
  drift k := if k = 1 then x • fromBlocks 0 1 0 0 else 0
  ctrl _ _ := fromBlocks 1 0 0 0
  tau _ := 1
  phase := none
  initial := 1
  target := fromBlocks 0 1 0 0
  ontoTarget := 1
  isQobj := true
  cachePhased := false
  phasedCtrl _ _ := 0
  cachePropGrad := false
  propKind := .approx
  fidKind := .traceDiff
  phaseOpt := .PSU
  dimNorm := 1
  scale := 1 / 4
  expm := NormedSpace.exp
  frechet _ _ := 0
  decompose _ _ := ()
  diagProp _ := 1
  diagGrad _ _ _ := 0

/-- The system of the violation. -/
noncomputable abbrev twoSlots : Sys (Fin 1 ⊕ Fin 1) (Fin 1 ⊕ Fin 1) Unit := twoSlotsOf 1

theorem twoSlots_valid (x : ℂ) : Valid (twoSlotsOf x) :=
  ⟨by simp [twoSlotsOf], by simp [twoSlotsOf], fun ph h => by simp [twoSlotsOf] at h⟩

theorem exp_nilpotent :
    NormedSpace.exp (fromBlocks 0 1 0 0 : Matrix (Fin 1 ⊕ Fin 1) (Fin 1 ⊕ Fin 1) ℂ) =
      fromBlocks 1 1 0 1 := by
  rw [exp_tri_blocks, NormedSpace.exp_zero]
  congr 1
  have h := dexp_diagonal_eq (fun _ : Fin 1 => (0 : ℂ)) 1 (i := 0) (j := 0) rfl
  rw [show (diagonal (fun _ : Fin 1 => (0 : ℂ))) = 0 by simp] at h
  ext i j
  fin_cases i; fin_cases j
  rw [Complex.exp_zero, one_mul] at h
  exact h

theorem exp_corner (x : ℂ) :
    NormedSpace.exp (fromBlocks (x • 1) 0 0 0 : Matrix (Fin 1 ⊕ Fin 1) (Fin 1 ⊕ Fin 1) ℂ) =
      fromBlocks (Complex.exp x • 1) 0 0 1 := by
  rw [exp_fromBlocks_diag, NormedSpace.exp_zero, Matrix.smul_one_eq_diagonal, exp_diagonal',
    ← Matrix.smul_one_eq_diagonal]

/-- **C14 is violated**: with the two-slot system, at zero amplitudes and for every step,
the reported gradient is not the difference quotient of the reported error. -/
theorem C14_violated (eps : ℝ) (he : eps ≠ 0)
    (junk s0 : State (Fin 1 ⊕ Fin 1) (Fin 1 ⊕ Fin 1) Unit) :
    ¬ C14_statement twoSlots eps junk s0 (fun _ _ => 0) [] := by
  rintro ⟨err, g, h1, h2, h3⟩
  have hu : twoSlots.fidKind = .traceDiff := rfl
  have herr : err = fun a => twoSlots.scale * frobSq (twoSlots.target - final twoSlots a) := by
    funext a
    have := h1 a
    rw [queryA_err (twoSlots_valid 1) hu, lastAmps_append_update] at this
    injection this with this
    exact this.symm
  have hg : g = approxGrad twoSlots eps (fun _ _ => 0) := by
    rw [queryA_grad (twoSlots_valid 1) hu] at h2
    injection h2 with h2
    exact h2.symm
  have h4 := h3 0 0 (by simp [twoSlotsOf]) (by simp [twoSlotsOf])
  rw [hg, herr] at h4
  unfold approxGrad at h4
  rw [if_pos ⟨by simp [twoSlotsOf], by simp [twoSlotsOf]⟩] at h4
  have h5 := (div_left_inj' he).1 h4
  simp only [sub_left_inj, lastAmps] at h5
  have h6 := mul_left_cancel₀ (show twoSlots.scale ≠ 0 by simp [twoSlotsOf]) h5
  have hone : propagator twoSlots (fun _ _ => 0) 1 = fromBlocks 1 1 0 1 := by
    have : generator twoSlots (fun _ _ => 0) 1 = fromBlocks 0 1 0 0 := by
      simp [generator, twoSlotsOf]
    unfold propagator
    rw [if_neg (by simp [twoSlotsOf]), this]
    change NormedSpace.exp (((1 : ℝ) : ℂ) • fromBlocks 0 1 0 0) = _
    rw [Complex.ofReal_one, one_smul, exp_nilpotent]
  have hshift : NormedSpace.exp (((1 : ℝ) : ℂ) • ((0 : Matrix (Fin 1 ⊕ Fin 1) (Fin 1 ⊕ Fin 1) ℂ) +
      (eps : ℂ) • fromBlocks 1 0 0 0)) = fromBlocks (Complex.exp eps • 1) 0 0 1 := by
    rw [Complex.ofReal_one, one_smul, zero_add, Matrix.fromBlocks_smul]
    simpa using exp_corner eps
  have hgen0 : generator twoSlots (fun _ _ => 0) 0 = 0 := by simp [generator, twoSlotsOf]
  have hev : evolution twoSlots (fun _ _ => 0) 1 2 = fromBlocks 1 1 0 1 := by
    unfold evolution
    rw [timeOrdered_succ _ (Nat.le_refl 1), timeOrdered_self, hone, Matrix.mul_one]
  have hev0 : evolution twoSlots (fun _ _ => 0) 0 0 = 1 := timeOrdered_self _ _
  have hA : shiftedFinal twoSlots (fun _ _ => 0) eps 0 0 =
      fromBlocks (Complex.exp eps • 1) (Complex.exp eps • 1) 0 1 := by
    unfold shiftedFinal
    rw [hgen0, hev0]
    change 1 * 1 * NormedSpace.exp (((1 : ℝ) : ℂ) • (0 + (eps : ℂ) • fromBlocks 1 0 0 0)) *
      evolution twoSlots (fun _ _ => 0) 1 2 = _
    rw [hshift, hev, Matrix.one_mul, Matrix.one_mul, Matrix.fromBlocks_multiply]
    simp
  have hB : final twoSlots (setAmp (fun _ _ => 0) 0 0 (0 + eps)) =
      fromBlocks (Complex.exp eps • 1) 1 0 1 := by
    rw [final_setAmp twoSlots _ 0 _ (by simp [twoSlotsOf]), hev0]
    have hP : propagator twoSlots (setAmp (fun _ _ => 0) 0 0 (0 + eps)) 0 =
        fromBlocks (Complex.exp eps • 1) 0 0 1 := by
      unfold propagator
      rw [if_neg (by simp [twoSlotsOf]), generator_setAmp twoSlots _ (by simp [twoSlotsOf]), hgen0]
      simp only [zero_add, sub_zero]
      refine Eq.trans ?_ hshift
      rw [zero_add]
      rfl
    rw [hP]
    change evolution twoSlots (fun _ _ => 0) 1 2 * _ * (1 * 1) = _
    rw [hev, Matrix.mul_one, Matrix.mul_one, Matrix.fromBlocks_multiply]
    simp
  rw [hA, hB] at h6
  have hx : Complex.exp (eps : ℂ) = ((Real.exp eps : ℝ) : ℂ) := (Complex.ofReal_exp eps).symm
  have ht : twoSlots.target = fromBlocks 0 1 0 0 := rfl
  rw [ht, hx] at h6
  simp only [frobSq, Fintype.sum_sum_type, Finset.univ_unique, Finset.sum_singleton,
    Matrix.sub_apply, Matrix.fromBlocks_apply₁₁, Matrix.fromBlocks_apply₁₂,
    Matrix.fromBlocks_apply₂₁, Matrix.fromBlocks_apply₂₂, Matrix.smul_apply, Matrix.one_apply_eq,
    Matrix.zero_apply] at h6
  simp only [smul_eq_mul, mul_one, sub_self, norm_zero, zero_sub, norm_neg] at h6
  have h7 : ‖(1 : ℂ) - ((Real.exp eps : ℝ) : ℂ)‖ ^ 2 = 0 := by
    have : (0 : ℝ) ^ 2 = 0 := by norm_num
    linarith
  have h8 := norm_eq_zero.1 (pow_eq_zero_iff (by norm_num) |>.1 h7)
  have h9 : Real.exp eps = 1 := by
    exact_mod_cast (sub_eq_zero.1 h8).symm
  exact he (Real.exp_eq_one_iff eps |>.1 h9)

theorem twoSlotsOf_zero_propagator (amps : Amps) (k : Nat) :
    propagator (twoSlotsOf 0) amps k = fromBlocks (Complex.exp (amps k 0) • 1) 0 0 1 := by
  have : generator (twoSlotsOf 0) amps k = fromBlocks ((amps k 0 : ℂ) • 1) 0 0 0 := by
    simp [generator, twoSlotsOf, Matrix.fromBlocks_smul]
  unfold propagator
  rw [if_neg (by simp [twoSlotsOf]), this]
  change NormedSpace.exp (((1 : ℝ) : ℂ) • fromBlocks ((amps k 0 : ℂ) • 1) 0 0 0) = _
  rw [Complex.ofReal_one, one_smul, exp_corner]

/-- A case that meets the hypotheses of `C14_partial`: the same system without the
second drift, at any amplitudes and after any history. -/
theorem twoSlotsOf_zero_statement (eps : ℝ) (junk s0 : State (Fin 1 ⊕ Fin 1) (Fin 1 ⊕ Fin 1) Unit) (a0 : Amps)
    (ops : List Op) : C14_statement (twoSlotsOf 0) eps junk s0 a0 ops := by
  refine C14_partial (twoSlots_valid 0) rfl rfl ?_ eps junk s0 _ _ ?_ ?_
  · intro A B c
    rfl
  · intro A
    exact Commute.one_left A
  · have h : ∀ x y : ℂ, Commute (fromBlocks (x • 1) 0 0 1 : Matrix (Fin 1 ⊕ Fin 1) (Fin 1 ⊕ Fin 1) ℂ)
        (fromBlocks (y • 1) 0 0 1) := by
      intro x y
      unfold Commute SemiconjBy
      rw [Matrix.fromBlocks_multiply, Matrix.fromBlocks_multiply]
      simp [smul_smul, mul_comm]
    intro k k' j _ _ _ _
    simp only [twoSlotsOf_zero_propagator]
    exact ⟨h _ _, h _ _⟩

/-- **C14.** After any history, a gradient that was asked for is kept: asking again answers the same
from the stored array, and nothing is computed. -/
theorem C14_kept {S : Sys d d D} {eps : ℝ} (hn : Valid S) (hu : S.fidKind = .traceDiff)
    (junk s0 : State d d D) (a0 : Amps) (ops : List Op) :
    let r := stepA S eps junk (reachedA S eps junk s0 a0 ops) .getGradient
    stepA S eps junk r.1 .getGradient = r := by
  obtain ⟨hi, b, hb, hs⟩ := reachedA_inv hn hu junk s0 a0 ops (eps := eps)
  obtain ⟨t, e, -, -⟩ := getGradTDApprox_some hn hu hi hb
  have hc : t.gradCurrent = true ∧ t.grad = approxGrad S eps b := by
    unfold getGradTDApprox at e
    split at e
    · rename_i hc
      injection e with e1 e2
      injection e2 with e2
      subst e1
      exact ⟨hc, e2⟩
    · split at e
      · cases e
      · cases e
        exact ⟨rfl, rfl⟩
  simp only [stepA, e]
  simp only [getGradTDApprox, hc.1, hc.2, if_true]

end QTrl.Dyn
