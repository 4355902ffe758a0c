import Verif.Spec.Components
import Verif.Proofs.Flags
import Verif.Props.TDApprox

/-
C81: the computations with exceptions agree with those of Verif/Model/Dynamics.lean where the
components fit together, and fail in the first slot where they do not.
-/

set_option linter.unusedSectionVars false

namespace QTrl.Dyn

open QTrl.Spec
open QTrl.PO (DynCls PropCls FidCls)

variable {d D : Type} [Fintype d] [DecidableEq d]

/-! ### Agreement -/

theorem tryRange_ok {σ : Type} (n : Nat) (body : Nat → σ → Except PyErr σ) (f : Nat → σ → σ)
    (h : ∀ k s, body k s = .ok (f k s)) (s : σ) : tryRange n body s = .ok (forRange n f s) := by
  unfold tryRange forRange
  generalize List.range n = l
  induction l generalizing s with
  | nil => rfl
  | cons k l ih =>
    rw [List.foldlM_cons, h k s]
    exact ih (f k s)

theorem ensureDecomp_agrees {p : Parts} (h : p.dyn = .unitary) (S : Sys d d D) (s : State d d D)
    (k : Nat) : p.ensureDecomp S s k = .ok (ensureDecomp S s k) := by
  unfold Parts.ensureDecomp
  rw [h]
  by_cases hc : s.decompCurr k = true
  · simp only [if_pos hc, ensureDecomp]
  · simp only [if_neg hc]

theorem computeProp_agrees {p : Parts} {S : Sys d d D} (hc : Computes p) (hf : Fits p S)
    (s : State d d D) (k : Nat) : p.computeProp S s k = .ok (computeProp S s k) := by
  unfold Parts.computeProp computeProp
  rw [hf.1]
  unfold Parts.propKind
  cases hp : p.prop with
  | diag => simp only [ensureDecomp_agrees (hc hp), Except.map]
  | approx => rfl
  | augMat => rfl
  | frechet => rfl

theorem computeGrad_agrees {p : Parts} {S : Sys d d D} (hc : Computes p) (hf : Fits p S)
    (ha : p.prop ≠ .approx) (s : State d d D) (k j : Nat) :
    p.computeGrad S s k j = .ok (computeGrad S s k j) := by
  unfold Parts.computeGrad computeGrad
  rw [hf.1]
  unfold Parts.propKind
  cases hp : p.prop with
  | diag => simp only [ensureDecomp_agrees (hc hp), Except.map]
  | approx => exact absurd hp ha
  | augMat => rfl
  | frechet => rfl

theorem gradExact_agrees {p : Parts} {S : Sys d d D} (hf : Fits p S) :
    p.gradExact = gradExact S := by
  unfold Parts.gradExact gradExact
  rw [hf.1]
  unfold Parts.propKind
  cases p.prop <;> rfl

theorem gradExact_iff {p : Parts} : p.gradExact = true ↔ p.prop ≠ .approx := by
  unfold Parts.gradExact
  cases p.prop <;> simp

theorem propBody_agrees {p : Parts} {S : Sys d d D} (hc : Computes p) (hf : Fits p S)
    (k : Nat) (s : State d d D) : p.propBody S k s = .ok (propBody S k s) := by
  unfold Parts.propBody propBody
  rw [gradExact_agrees hf]
  by_cases hg : (gradExact S && S.cachePropGrad) = true
  · rw [if_pos hg, if_pos hg]
    have ha : p.prop ≠ .approx := by
      rw [← gradExact_iff, gradExact_agrees hf]
      exact (Bool.and_eq_true _ _ ▸ hg).1
    refine tryRange_ok _ _ _ ?_ s
    intro j s
    by_cases hj : j = 0
    · simp only [if_pos hj, computeProp_agrees hc hf, computeGrad_agrees hc hf ha, Except.map]
    · simp only [if_neg hj, computeGrad_agrees hc hf ha, Except.map]
  · rw [if_neg hg, if_neg hg, computeProp_agrees hc hf]
    rfl

theorem recompute_agrees {p : Parts} {S : Sys d d D} (hc : Computes p) (hf : Fits p S)
    (a : Amps) (s : State d d D) : p.recompute S a s = (recompute S a s, .ok ()) := by
  unfold Parts.recompute recompute
  simp only [tryRange_ok _ _ _ (propBody_agrees hc hf), usesOnwd, usesOnto, hf.2,
    decide_eq_true_eq]

theorem computeEvolution_agrees {p : Parts} {S : Sys d d D} (hc : Computes p) (hf : Fits p S)
    (s : State d d D) : p.computeEvolution S s = computeEvolution S s := by
  unfold Parts.computeEvolution computeEvolution
  cases s.ctrlAmps with
  | none => rfl
  | some a => simp only [recompute_agrees hc hf]

theorem getPrenorm_agrees {p : Parts} {S : Sys d d D} (hc : Computes p) (hf : Fits p S)
    (s : State d d D) : p.getPrenorm S s = getPrenorm S s := by
  unfold Parts.getPrenorm getPrenorm
  rw [computeEvolution_agrees hc hf]
  rcases computeEvolution S s with ⟨t, e | v⟩ <;> rfl

theorem getFidelity_agrees {p : Parts} {S : Sys d d D} (hc : Computes p) (hf : Fits p S)
    (s : State d d D) : p.getFidelity S s = getFidelity S s := by
  unfold Parts.getFidelity getFidelity
  rw [getPrenorm_agrees hc hf]
  rcases getPrenorm S s with ⟨t, e | v⟩
  · rfl
  · simp only
    cases fidNorm S v <;> rfl

theorem getFidErrTD_agrees {p : Parts} {S : Sys d d D} (hc : Computes p) (hf : Fits p S)
    (s : State d d D) : p.getFidErrTD S s = getFidErrTD S s := by
  unfold Parts.getFidErrTD getFidErrTD
  rw [computeEvolution_agrees hc hf]
  rcases computeEvolution S s with ⟨t, e | v⟩ <;> rfl

theorem getFidErr_agrees {p : Parts} {S : Sys d d D} (hc : Computes p) (hf : Fits p S)
    (s : State d d D) : p.getFidErr S s = getFidErr S s := by
  unfold Parts.getFidErr getFidErr
  rw [getFidelity_agrees hc hf, getFidErrTD_agrees hc hf, hf.2]
  cases p.fidKind with
  | unitary => rcases getFidelity S s with ⟨t, e | v⟩ <;> rfl
  | traceDiff => rfl

theorem getPropGrad_agrees {p : Parts} {S : Sys d d D} (hc : Computes p) (hf : Fits p S)
    (s : State d d D) (k j : Nat) : p.getPropGrad S s k j = getPropGrad S s k j := by
  unfold Parts.getPropGrad getPropGrad
  rw [gradExact_agrees hf]
  by_cases hca : S.cachePropGrad = true
  · rw [if_pos hca, if_pos hca]
  · rw [if_neg hca, if_neg hca]
    by_cases hg : gradExact S = true
    · have ha : p.prop ≠ .approx := by rw [← gradExact_iff, gradExact_agrees hf]; exact hg
      simp only [if_pos hg, computeGrad_agrees hc hf ha]
    · have ha : p.prop = .approx := by
        by_contra ha
        exact hg (gradExact_agrees hf ▸ gradExact_iff.2 ha)
      simp only [if_neg hg, Parts.computeGrad, ha]

theorem getGrad_agrees {p : Parts} {S : Sys d d D} (hc : Computes p) (hf : Fits p S)
    (hx : p.fid ≠ .traceDiffApprox) (eps : ℝ) (s : State d d D) :
    p.getGrad S eps s = getGrad S s := by
  have e1 : p.gradEntryUnitary S = gradEntryUnitary S := by
    funext s k j
    simp only [Parts.gradEntryUnitary, gradEntryUnitary, getPropGrad_agrees hc hf]
    rcases getPropGrad S s k j with ⟨t, e | v⟩ <;> rfl
  have e2 : p.gradEntryTD S = gradEntryTD S := by
    funext q s k j
    simp only [Parts.gradEntryTD, gradEntryTD, getPropGrad_agrees hc hf]
    rcases getPropGrad S s k j with ⟨t, e | v⟩ <;> rfl
  unfold Parts.getGrad getGrad
  rw [hf.2]
  cases hk : p.fidKind with
  | unitary =>
    simp only [getGradUnitary, computeFidGrad, e1, computeEvolution_agrees hc hf,
      getFidelity_agrees hc hf, getPrenorm_agrees hc hf]
    by_cases hg : s.gradCurrent = true
    · rw [if_pos hg, if_pos hg]
    · rw [if_neg hg, if_neg hg]
      rcases computeEvolution S s with ⟨t, e | v⟩
      · rfl
      simp only
      rcases gradLoop S (gradEntryUnitary S) (fun _ _ => 0) t with ⟨t, e | v⟩
      · rfl
      simp only
      rcases getFidelity S t with ⟨t, e | v⟩
      · rfl
      simp only
      rcases getPrenorm S t with ⟨t, e | v⟩ <;> rfl
  | traceDiff =>
    simp only [getGradTD, Parts.computeErrGrad, computeErrGradTD, e2, computeEvolution_agrees hc hf]
    by_cases hg : s.gradCurrent = true
    · rw [if_pos hg, if_pos hg]
    · rw [if_neg hg, if_neg hg]
      rcases computeEvolution S s with ⟨t, e | v⟩
      · rfl
      cases hfid : p.fid with
      | traceDiffApprox => exact absurd hfid hx
      | traceDiff =>
        simp only
        rcases gradLoop S (gradEntryTD S (S.target - t.fwd S.nTs)) (fun _ _ => 0) t with
          ⟨t, e | v⟩ <;> rfl
      | unitary =>
        simp only
        rcases gradLoop S (gradEntryTD S (S.target - t.fwd S.nTs)) (fun _ _ => 0) t with
          ⟨t, e | v⟩ <;> rfl

theorem getGrad_agrees_approx {p : Parts} {S : Sys d d D} (hf : Fits p S)
    (hx : p.fid = .traceDiffApprox) (ha : p.prop = .approx) (eps : ℝ) (s : State d d D) :
    p.getGrad S eps s = getGradTDApprox S eps s := by
  have hc : Computes p := fun h => by rw [ha] at h; cases h
  have e1 : p.gradEntryApprox S = gradEntryTDApprox S := by
    funext eps c s k j
    simp only [Parts.gradEntryApprox, gradEntryTDApprox, Parts.computeDiffProp, ha,
      computeDiffProp]
  have hk : p.fidKind = .traceDiff := by unfold Parts.fidKind; rw [hx]
  unfold Parts.getGrad getGradTDApprox
  rw [hk]
  simp only [Parts.computeErrGrad, computeErrGradTDApprox, hx, e1, computeEvolution_agrees hc hf,
    getFidErrTD_agrees hc hf]
  rcases computeEvolution S s with ⟨t, e | v⟩
  · rfl
  simp only
  rcases getFidErrTD S t with ⟨t, e | v⟩
  · rfl
  simp only
  rcases gradLoop S (gradEntryTDApprox S eps v) (fun _ _ => 0) t with ⟨t, e | v⟩ <;> rfl

/-! ### Failure -/

theorem tryRange_fails {σ : Type} {n : Nat} (hn : 0 < n) {body : Nat → σ → Except PyErr σ} {s : σ}
    {e : PyErr} (h : body 0 s = .error e) : tryRange n body s = .error e := by
  obtain ⟨m, rfl⟩ : ∃ m, n = m + 1 := ⟨n - 1, by omega⟩
  unfold tryRange
  rw [List.range_succ_eq_map, List.foldlM_cons, h]
  rfl

theorem genLoop_stale (S : Sys d d D) (a : Amps) (s : State d d D) (k : Nat) (hk : k < S.nTs) :
    (genLoop S a s).decompCurr k = false := by
  unfold genLoop
  refine forRange_inv (fun n (t : State d d D) => ∀ i, i < n → t.decompCurr i = false)
    (fun i hi => absurd hi (by omega)) ?_ k hk
  intro n t _ h i hi
  by_cases he : i = n
  · subst he; simp
  · simp only [Function.update_of_ne he]; exact h i (by omega)

theorem genLoop_amps (S : Sys d d D) (a : Amps) (s : State d d D) :
    (genLoop S a s).ctrlAmps = s.ctrlAmps := by
  unfold genLoop
  exact forRange_inv (fun _ (t : State d d D) => t.ctrlAmps = s.ctrlAmps) rfl
    fun _ _ _ h => h

/-- Nothing is current. -/
structure Idle (s : State d d D) : Prop where
  evo : s.evoCurrent = false
  fid : s.fidelityCurrent = false
  prenorm : s.prenormCurrent = false
  grad : s.gradCurrent = false
  amps : ∃ a, s.ctrlAmps = some a

theorem computeEvolution_fails {p : Parts} {S : Sys d d D} (hv : Valid S) (hc : ¬ Computes p)
    {s : State d d D} (h : Idle s) :
    ∃ t, p.computeEvolution S s = (t, .error .usageError) ∧ Idle t := by
  obtain ⟨a, ha⟩ := h.amps
  have hc' : p.prop = .diag ∧ p.dyn ≠ .unitary := by
    unfold Computes at hc
    push Not at hc
    exact hc
  set s' : State d d D := { s with numRecompute := s.numRecompute + 1, views := {} } with hs'
  have hst := genLoop_stale S a s' 0 hv.slots
  have hfl := genLoop_flags S a s'
  have hd : ∀ t : State d d D, t.decompCurr 0 = false →
      p.ensureDecomp S t 0 = .error .usageError := by
    intro t ht
    unfold Parts.ensureDecomp
    rw [ht]
    cases hdy : p.dyn with
    | unitary => exact absurd hdy hc'.2
    | genMat => rfl
    | symplectic => rfl
  have hp : ∀ t : State d d D, t.decompCurr 0 = false →
      p.computeProp S t 0 = .error .usageError := by
    intro t ht
    unfold Parts.computeProp
    rw [hc'.1]
    simp only [hd t ht, Except.map]
  have hb : p.propBody S 0 (genLoop S a s') = .error .usageError := by
    unfold Parts.propBody
    split
    · refine tryRange_fails hv.ctrls ?_
      simp only [if_true, hp _ hst]
    · rw [hp _ hst]; rfl
  refine ⟨genLoop S a s', ?_, ?_⟩
  · have hr : p.recompute S a s = (genLoop S a s', .error .usageError) := by
      unfold Parts.recompute
      simp only [← hs']
      rw [tryRange_fails hv.slots hb]
    unfold Parts.computeEvolution
    rw [if_neg (by simp [h.evo]), ha]
    simp only [hr]
  · obtain ⟨f1, f2, f3, f4, -⟩ := hfl
    exact ⟨f1.trans h.evo, f2.trans h.fid, f3.trans h.prenorm, f4.trans h.grad, a,
      (genLoop_amps S a s').trans ha⟩

theorem getFidErr_fails {p : Parts} {S : Sys d d D} (hv : Valid S) (hc : ¬ Computes p)
    {s : State d d D} (h : Idle s) :
    ∃ t, p.getFidErr S s = (t, .error .usageError) ∧ Idle t := by
  obtain ⟨t, e, ht⟩ := computeEvolution_fails hv hc h
  refine ⟨t, ?_, ht⟩
  unfold Parts.getFidErr
  cases p.fidKind with
  | unitary => simp [Parts.getFidelity, Parts.getPrenorm, h.fid, h.prenorm, e]
  | traceDiff => simp [Parts.getFidErrTD, h.fid, e]

theorem getGrad_fails {p : Parts} {S : Sys d d D} (hv : Valid S) (hc : ¬ Computes p) (eps : ℝ)
    {s : State d d D} (h : Idle s) :
    ∃ t, p.getGrad S eps s = (t, .error .usageError) ∧ Idle t := by
  obtain ⟨t, e, ht⟩ := computeEvolution_fails hv hc h
  refine ⟨t, ?_, ht⟩
  unfold Parts.getGrad
  cases p.fidKind with
  | unitary => simp [h.grad, e]
  | traceDiff => simp [h.grad, Parts.computeErrGrad, e]

theorem compareAmps_idle (S : Sys d d D) {s : State d d D} (h : Idle s) (a : Amps) :
    Idle (compareAmps S s a).1 := by
  obtain ⟨old, ho⟩ := h.amps
  by_cases hch : numChanged S old a = 0
  · rw [compareAmps_same ho hch]; exact h
  · rw [compareAmps_changed ho hch]; exact ⟨rfl, rfl, rfl, rfl, a, rfl⟩

theorem initControls_idle (S : Sys d d D) (junk s : State d d D) (a : Amps) :
    Idle (initControls S junk s a) := by
  unfold initControls
  rw [compareAmps_none (s := initEvo S junk s) rfl]
  exact ⟨rfl, rfl, rfl, rfl, a, rfl⟩

theorem getGrad_mismatch {p : Parts} {S : Sys d d D} (hv : Valid S) (hc : Computes p)
    (hf : Fits p S) (hx : p.fid = .traceDiffApprox) (ha : p.prop ≠ .approx) (eps : ℝ)
    {s : State d d D} {b : Amps} (hi : InvG (fun _ _ => False) S s) (hb : s.ctrlAmps = some b) :
    ∃ t, p.getGrad S eps s = (t, .error .usageError) ∧ InvG (fun _ _ => False) S t ∧
      t.ctrlAmps = some b := by
  have hk : p.fidKind = .traceDiff := by unfold Parts.fidKind; rw [hx]
  have hg : s.gradCurrent = false := by
    cases hg : s.gradCurrent with
    | false => rfl
    | true => obtain ⟨_, _, h⟩ := hi.grad hg; exact h.elim
  obtain ⟨r, t, e, it, at', -⟩ := computeEvolution_some hv hi hb
  obtain ⟨t2, e2, it2, at2⟩ := getFidErrTD_some hv (hf.2.trans hk) it at'
  refine ⟨t2, ?_, it2, at2⟩
  unfold Parts.getGrad
  rw [hk]
  have he : ∀ c t k j, p.gradEntryApprox S eps c t k j = (t, .error .usageError) := by
    intro c t k j
    unfold Parts.gradEntryApprox Parts.computeDiffProp
    cases hp : p.prop with
    | approx => exact absurd hp ha
    | diag => rfl
    | augMat => rfl
    | frechet => rfl
  simp only [hg, Parts.computeErrGrad, computeEvolution_agrees hc hf, getFidErrTD_agrees hc hf, hx,
    e, e2]
  rw [gradLoop_error S hv.slots hv.ctrls _ _ _ .usageError (he _ _)]
  simp

end QTrl.Dyn
