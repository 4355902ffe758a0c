import Verif.Proofs.Components
import Verif.Props.PulseOptim

/-
C81: which combinations of components can compute, and that the ones chosen by default can.
-/

set_option linter.unusedSectionVars false

namespace QTrl.Dyn

open QTrl.Spec
open QTrl.PO (DynCls PropCls FidCls Val createWith plainWorld slotArgs noDicts createDefaults
  AsksDefault)

variable {d D : Type} [Fintype d] [DecidableEq d]

/-- An invariant of requests holds after any list of them. -/
theorem after_inv {p : Parts} {S : Sys d d D} {eps : ℝ} (I : State d d D → Amps → Prop)
    (h : ∀ s a r, I s a → I (p.step S eps s r).1 (lastSet a [r])) {s : State d d D} {a : Amps}
    (h0 : I s a) (l : List Ask) : I (p.after S eps s l) (lastSet a l) := by
  unfold Parts.after
  induction l generalizing s a with
  | nil => exact h0
  | cons r l ih =>
    have := ih (h s a r h0)
    cases r <;> exact this

/-- The invariant when the components fit together. -/
def Tracks (G : Amps → (Nat → Nat → ℝ) → Prop) (S : Sys d d D) (s : State d d D) (a : Amps) :
    Prop :=
  InvG G S s ∧ ∃ b, s.ctrlAmps = some b ∧ SameAmps S b a

theorem tracks_after {p : Parts} {S : Sys d d D} {eps : ℝ} (hv : Valid S) (hc : Computes p)
    (hf : Fits p S) {G : Amps → (Nat → Nat → ℝ) → Prop}
    (hg : ∀ s b, InvG G S s → s.ctrlAmps = some b →
      ∃ t v, p.getGrad S eps s = (t, v) ∧ InvG G S t ∧ t.ctrlAmps = some b)
    (junk s0 : State d d D) (a0 : Amps) (l : List Ask) :
    Tracks G S (p.after S eps (initControls S junk s0 a0) l) (lastSet a0 l) := by
  refine after_inv (Tracks G S) ?_ (initControls_inv S junk s0 a0) l
  rintro s a r ⟨hi, b, hb, hs⟩
  cases r with
  | amps a' => exact compareAmps_amps hi a'
  | evolution =>
    obtain ⟨v, t, e, it, at', -⟩ := computeEvolution_some hv hi hb
    simp only [Parts.step, computeEvolution_agrees hc hf, e]
    exact ⟨it, b, at', hs⟩
  | error =>
    obtain ⟨t, e, it, at'⟩ := getFidErr_some hv hi hb
    simp only [Parts.step, getFidErr_agrees hc hf, e]
    exact ⟨it, b, at', hs⟩
  | gradient =>
    obtain ⟨t, v, e, it, at'⟩ := hg s b hi hb
    simp only [Parts.step, e]
    exact ⟨it, b, at', hs⟩

theorem error_of_tracks {p : Parts} {S : Sys d d D} {eps : ℝ} (hv : Valid S) (hc : Computes p)
    (hf : Fits p S) {G : Amps → (Nat → Nat → ℝ) → Prop} {s : State d d D} {a : Amps}
    (h : Tracks G S s a) : (p.step S eps s .error).2 = .ofReal (fidErr S a) := by
  obtain ⟨hi, b, hb, hs⟩ := h
  obtain ⟨t, e, -, -⟩ := getFidErr_some hv hi hb
  simp only [Parts.step, getFidErr_agrees hc hf, e, fidErr_congr hs]

/-- **C81**, exact form.  In any sequence of requests that an optimiser makes, on an object in any
earlier state: the error is the specified one if the components can compute and otherwise the
request raises `UsageError`; the same for the gradient, which is the exact one for the exact
fidelity computers and the finite difference one for the approximate pair.  (`gradient` is an
exception when exact gradients are asked from the approximate propagator computer.) -/
theorem C81_partial {p : Parts} {S : Sys d d D} (hv : Valid S) (hf : Fits p S) (eps : ℝ)
    (junk s0 : State d d D) (a0 : Amps) (l : List Ask) :
    let s := p.after S eps (initControls S junk s0 a0) l
    (p.step S eps s .error).2 =
      (if Computes p then .ofReal (fidErr S (lastSet a0 l)) else .error .usageError) ∧
    (p.step S eps s .gradient).2 =
      (if ¬ Computes p then .error .usageError
       else if p.fid ≠ .traceDiffApprox then .ofArray (gradient S (lastSet a0 l))
       else if p.prop = .approx then .array (approxGrad S eps (lastSet a0 l))
       else .error .usageError) := by
  intro s
  by_cases hc : Computes p
  · rw [if_pos hc, if_neg (by simp [hc])]
    by_cases hx : p.fid = .traceDiffApprox
    · have hk : S.fidKind = .traceDiff := hf.2.trans (by unfold Parts.fidKind; rw [hx])
      rw [if_neg (by simp [hx])]
      by_cases ha : p.prop = .approx
      · have hg : ∀ s b, InvA S eps s → s.ctrlAmps = some b →
            ∃ t v, p.getGrad S eps s = (t, v) ∧ InvA S eps t ∧ t.ctrlAmps = some b := by
          intro s b hi hb
          obtain ⟨t, e, it, at'⟩ := getGradTDApprox_some hv hk hi hb
          exact ⟨t, _, (getGrad_agrees_approx hf hx ha eps s).trans e, it, at'⟩
        have ht := tracks_after hv hc hf hg junk s0 a0 l
        refine ⟨error_of_tracks hv hc hf ht, ?_⟩
        obtain ⟨hi, b, hb, hs⟩ := ht
        obtain ⟨t, e, -, -⟩ := getGradTDApprox_some hv hk hi hb
        rw [if_pos ha]
        simp only [Parts.step, getGrad_agrees_approx hf hx ha]
        rw [e, approxGrad_congr hs]
        rfl
      · have hg : ∀ s b, InvG (fun _ _ => False) S s → s.ctrlAmps = some b →
            ∃ t v, p.getGrad S eps s = (t, v) ∧ InvG (fun _ _ => False) S t ∧
              t.ctrlAmps = some b := by
          intro s b hi hb
          obtain ⟨t, e, it, at'⟩ := getGrad_mismatch hv hc hf hx ha eps hi hb
          exact ⟨t, _, e, it, at'⟩
        have ht := tracks_after hv hc hf hg junk s0 a0 l
        refine ⟨error_of_tracks hv hc hf ht, ?_⟩
        obtain ⟨hi, b, hb, hs⟩ := ht
        obtain ⟨t, e, -, -⟩ := getGrad_mismatch hv hc hf hx ha eps hi hb
        rw [if_neg ha]
        simp only [Parts.step]
        rw [e]
        rfl
    · rw [if_pos hx]
      have hg : ∀ s b, Inv S s → s.ctrlAmps = some b →
          ∃ t v, p.getGrad S eps s = (t, v) ∧ Inv S t ∧ t.ctrlAmps = some b := by
        intro s b hi hb
        obtain ⟨t, e, it, at'⟩ := getGrad_some hv hi hb
        exact ⟨t, _, (getGrad_agrees hc hf hx eps s).trans e, it, at'⟩
      have ht := tracks_after hv hc hf hg junk s0 a0 l
      refine ⟨error_of_tracks hv hc hf ht, ?_⟩
      obtain ⟨hi, b, hb, hs⟩ := ht
      obtain ⟨t, e, -, -⟩ := getGrad_some hv hi hb
      simp only [Parts.step, getGrad_agrees hc hf hx]
      rw [e, gradient_congr hs]
  · rw [if_neg hc, if_pos hc]
    have hi : Idle s := by
      refine after_inv (a := a0) (fun s _ => Idle s) ?_ (initControls_idle S junk s0 a0) l
      intro s a r h
      cases r with
      | amps a' => exact compareAmps_idle S h a'
      | evolution =>
        obtain ⟨t, e, ht⟩ := computeEvolution_fails hv hc h
        simp only [Parts.step, e]; exact ht
      | error =>
        obtain ⟨t, e, ht⟩ := getFidErr_fails hv hc h
        simp only [Parts.step, e]; exact ht
      | gradient =>
        obtain ⟨t, e, ht⟩ := getGrad_fails hv hc eps h
        simp only [Parts.step, e]; exact ht
    obtain ⟨t, e, -⟩ := getFidErr_fails hv hc hi
    obtain ⟨t2, e2, -⟩ := getGrad_fails hv hc eps hi
    simp only [Parts.step, e, e2]
    exact ⟨rfl, rfl⟩

/-- A system for any combination. -/
noncomputable def sysFor (p : Parts) : Sys (Fin 1 ⊕ Fin 1) (Fin 1 ⊕ Fin 1) Unit :=
  { twoSlots with propKind := p.propKind, fidKind := p.fidKind }

theorem sysFor_valid (p : Parts) : Valid (sysFor p) :=
  ⟨(twoSlots_valid 1).slots, (twoSlots_valid 1).ctrls, (twoSlots_valid 1).phasedCtrl⟩

example (p : Parts) : Valid (sysFor p) ∧ Fits p (sysFor p) := ⟨sysFor_valid p, rfl, rfl⟩

/-- The normalisation succeeds: the code's "SU" normalisation needs `Qobj` operators (see C31). -/
def Normalises (S : Sys d d D) : Prop :=
  S.fidKind = .unitary → S.phaseOpt = .SU → S.isQobj = true

theorem fidelity_ok {S : Sys d d D} (h : S.phaseOpt = .SU → S.isQobj = true) (a : Amps) :
    ∃ f, fidelity S a = .ok f := by
  unfold fidelity
  cases hp : S.phaseOpt with
  | PSU => exact ⟨_, rfl⟩
  | SU => simp only [h hp]; exact ⟨_, rfl⟩

/-- **C81.** The error is a number after any sequence of requests exactly if the propagators are
not computed by diagonalisation under dynamics other than the unitary ones; the gradient is an
array exactly if, in addition, the finite difference fidelity computer is used with the
approximate propagator computer and only with it. -/
theorem C81_numbers {p : Parts} {S : Sys d d D} (hv : Valid S) (hf : Fits p S)
    (hn : Normalises S) (eps : ℝ) (junk s0 : State d d D) (a0 : Amps) (l : List Ask) :
    let s := p.after S eps (initControls S junk s0 a0) l
    ((∃ x, (p.step S eps s .error).2 = .real x) ↔ Computes p) ∧
    ((∃ g, (p.step S eps s .gradient).2 = .array g) ↔ Differentiates p) := by
  obtain ⟨h1, h2⟩ := C81_partial hv hf eps junk s0 a0 l
  intro s
  rw [h1, h2]
  constructor
  · by_cases hc : Computes p
    · rw [if_pos hc]
      refine ⟨fun _ => hc, fun _ => ?_⟩
      unfold fidErr
      cases hk : S.fidKind with
      | unitary =>
        obtain ⟨f, hfi⟩ := fidelity_ok (hn hk) (lastSet a0 l)
        simp only [hfi]
        exact ⟨_, rfl⟩
      | traceDiff => exact ⟨_, rfl⟩
    · rw [if_neg hc]
      refine ⟨?_, fun h => absurd h hc⟩
      rintro ⟨x, hx⟩; cases hx
  · unfold Differentiates
    by_cases hc : Computes p
    · rw [if_neg (by simp [hc])]
      by_cases hx : p.fid = .traceDiffApprox
      · rw [if_neg (by simp [hx])]
        by_cases ha : p.prop = .approx
        · rw [if_pos ha]
          exact ⟨fun _ => ⟨hc, by simp [hx, ha]⟩, fun _ => ⟨_, rfl⟩⟩
        · rw [if_neg ha]
          refine ⟨?_, fun h => absurd (h.2.1 hx) ha⟩
          rintro ⟨x, hx⟩; cases hx
      · rw [if_pos hx]
        have hiff : S.propKind = .approx ↔ p.prop = .approx := by
          rw [hf.1]; unfold Parts.propKind; cases p.prop <;> simp
        by_cases ha : p.prop = .approx
        · refine ⟨?_, fun h => absurd (h.2.2 ha) hx⟩
          rintro ⟨g, hg⟩
          unfold gradient at hg
          rw [if_pos (hiff.2 ha)] at hg
          cases hg
        · refine ⟨fun _ => ⟨hc, by simp [hx, ha]⟩, fun _ => ?_⟩
          unfold gradient
          rw [if_neg (fun h => ha (hiff.1 h))]
          cases hk : S.fidKind with
          | unitary =>
            obtain ⟨f, hfi⟩ := fidelity_ok (hn hk) (lastSet a0 l)
            simp only [hfi]
            exact ⟨_, rfl⟩
          | traceDiff => exact ⟨_, rfl⟩
    · rw [if_pos hc]
      refine ⟨?_, fun h => absurd h.1 hc⟩
      rintro ⟨x, hx⟩; cases hx

example : Differentiates ⟨.unitary, .diag, .unitary⟩ ∧ Differentiates ⟨.genMat, .frechet, .traceDiff⟩ ∧
    Differentiates ⟨.symplectic, .approx, .traceDiffApprox⟩ ∧
    ¬ Differentiates ⟨.genMat, .approx, .traceDiff⟩ ∧ ¬ Computes ⟨.symplectic, .diag, .unitary⟩ := by
  decide

example (p : Parts) : Normalises { sysFor p with phaseOpt := .PSU } := fun _ h => by cases h

/-- **C81.** What `create_pulse_optimizer` creates when propagator and fidelity computer are left
to their defaults works for the algorithm: with GRAPE errors and gradients can be computed for
every type of dynamics, with CRAB, which uses no gradients, errors can. -/
theorem C81_defaults (W : PO.World) (args : Opt.Dict Val) (h h' : PO.Heap) (o : PO.Optim)
    (hc : createWith W args h = (.ok o, h'))
    (hp : PO.bind createDefaults args "prop_type" = .none ∨
      PO.bind createDefaults args "prop_type" = .str "DEF")
    (hfid : AsksDefault (PO.bind createDefaults args "fid_type")) :
    Computes o.parts ∧
      (PO.Spells (PO.bind createDefaults args "alg") "GRAPE" → Differentiates o.parts) := by
  obtain ⟨a, n, -, -, hm⟩ := PO.C45_components_partial W args h h' o hc
  have hdef : PO.DefaultFid o.dyn o.fid := by
    rcases hm.fid with ⟨-, hd⟩ | ⟨t, ht, hin⟩
    · exact hd
    · exfalso
      rcases hfid with hfid | ⟨t', ht', hin'⟩
      · rw [hfid] at ht; cases ht
      · rw [ht'] at ht
        injection ht with ht
        subst ht
        rw [hin'] at hin
        simp [PO.docFid] at hin
  have hprop : (a = .crab ∧ o.prop = .approx) ∨ (a = .grape ∧ PO.DefaultProp o.dyn o.prop) := by
    rcases hm.prop with ⟨h1, -, h3⟩ | ⟨h1 | ⟨h1, -⟩, h2⟩ | ⟨t, ht, hin⟩
    · exact .inl ⟨h1, h3⟩
    · exfalso
      rcases hp with hp | hp
      · rw [hp] at h1; cases h1
      · rw [hp] at h1; injection h1 with h1; exact absurd h1 (by decide)
    · exact .inr ⟨h1, h2⟩
    · exfalso
      rcases hp with hp | hp
      · rw [hp] at ht; cases ht
      · rw [hp] at ht
        injection ht with ht
        subst ht
        simp [PO.docProp] at hin
  rcases hprop with ⟨ha, hpr⟩ | ⟨ha, hpr⟩
  · refine ⟨fun hd => ?_, fun hg => ?_⟩
    · simp only [PO.Optim.parts, hpr] at hd; cases hd
    · exfalso
      obtain ⟨t, ht, hu⟩ := hg
      obtain ⟨t', ht', hu'⟩ := hm.alg
      rw [ht] at ht'
      injection ht' with ht'
      subst ht'
      rw [hu, ha] at hu'
      exact absurd hu' (by decide)
  · unfold Differentiates Computes PO.Optim.parts
    cases hd : o.dyn <;> rw [hd] at hpr hdef <;> cases hpr' : o.prop <;> rw [hpr'] at hpr <;>
      cases hf' : o.fid <;> rw [hf'] at hdef <;> first | (cases hpr; done) | (cases hdef; done) | simp

example : ∃ o h', createWith (plainWorld 2) (("dyn_type", .str "SYMPL") :: slotArgs) noDicts =
    (.ok o, h') ∧ o.parts = ⟨.symplectic, .frechet, .traceDiff⟩ := ⟨_, _, rfl, rfl⟩

example : ∃ o h', createWith (plainWorld 2) (("alg", .str "CRAB") :: ("dyn_type", .str "UNIT") ::
    slotArgs) noDicts = (.ok o, h') ∧ o.parts = ⟨.unitary, .approx, .unitary⟩ := ⟨_, _, rfl, rfl⟩

/-- **C81 fails**: `create_pulse_optimizer` accepts propagators by diagonalisation for general and
symplectic dynamics; whatever the system, every request for the error or the gradient then raises
`UsageError`. -/
theorem C81_violated_diag (t : String) (ht : t = "GEN_MAT" ∨ t = "SYMPL") :
    ∃ o h', createWith (plainWorld 2) (("dyn_type", .str t) :: ("prop_type", .str "DIAG") :: slotArgs)
      noDicts = (.ok o, h') ∧
    ∀ (S : Sys d d D) (eps : ℝ) (junk s0 : State d d D) (a0 : Amps) (l : List Ask), Valid S →
      Fits o.parts S →
      let s := o.parts.after S eps (initControls S junk s0 a0) l
      (o.parts.step S eps s .error).2 = .error .usageError ∧
      (o.parts.step S eps s .gradient).2 = .error .usageError := by
  rcases ht with rfl | rfl
  all_goals
    refine ⟨_, _, rfl, ?_⟩
    intro S eps junk s0 a0 l hv hf
    obtain ⟨h1, h2⟩ := C81_partial hv hf eps junk s0 a0 l
    exact ⟨h1.trans (if_neg fun h => by cases h rfl), h2.trans (if_pos fun h => by cases h rfl)⟩

/-- **C81 fails**: `create_pulse_optimizer` accepts GRAPE with the approximate propagator computer
and the default fidelity computer, of any dynamics; the error can be computed but the gradient
that the optimiser needs raises `TypeError` (cached gradients) or `UsageError`. -/
theorem C81_violated_approx (t : String) (ht : t = "GEN_MAT" ∨ t = "UNIT" ∨ t = "SYMPL") :
    ∃ o h', createWith (plainWorld 2) (("dyn_type", .str t) :: ("prop_type", .str "APPROX") :: slotArgs)
      noDicts = (.ok o, h') ∧
    ∀ (S : Sys d d D) (eps : ℝ) (junk s0 : State d d D) (a0 : Amps) (l : List Ask), Valid S →
      Fits o.parts S →
      let s := o.parts.after S eps (initControls S junk s0 a0) l
      (o.parts.step S eps s .error).2 = .ofReal (fidErr S (lastSet a0 l)) ∧
      (o.parts.step S eps s .gradient).2 =
        .error (if S.cachePropGrad then .typeError else .usageError) := by
  rcases ht with rfl | rfl | rfl
  all_goals
    refine ⟨_, _, rfl, ?_⟩
    intro S eps junk s0 a0 l hv hf
    obtain ⟨h1, h2⟩ := C81_partial hv hf eps junk s0 a0 l
    refine ⟨h1.trans (if_pos fun h => by cases h), h2.trans ?_⟩
    rw [if_neg (fun h => h fun h => by cases h), if_pos (fun h => by cases h),
      gradient_approx hf.1]
    rfl

/-- **C81 fails**: `create_pulse_optimizer` accepts the finite difference fidelity computer with
propagator computers that cannot compute the propagators it needs, among them the default ones;
the gradient then raises `UsageError`. -/
theorem C81_violated_tdapprox (t : String) (ht : t = "GEN_MAT" ∨ t = "UNIT" ∨ t = "SYMPL") :
    ∃ o h', createWith (plainWorld 2) (("dyn_type", .str t) :: ("fid_type", .str "TDAPPROX") :: slotArgs)
      noDicts = (.ok o, h') ∧
    ∀ (S : Sys d d D) (eps : ℝ) (junk s0 : State d d D) (a0 : Amps) (l : List Ask), Valid S →
      Fits o.parts S →
      let s := o.parts.after S eps (initControls S junk s0 a0) l
      (o.parts.step S eps s .gradient).2 = .error .usageError := by
  rcases ht with rfl | rfl | rfl
  all_goals
    refine ⟨_, _, rfl, ?_⟩
    intro S eps junk s0 a0 l hv hf
    obtain ⟨-, h2⟩ := C81_partial hv hf eps junk s0 a0 l
    refine h2.trans ?_
    rw [if_neg (fun h => h fun h => by first | (cases h; done) | rfl), if_neg (fun h => h rfl),
      if_neg (fun h => by cases h)]

end QTrl.Dyn
