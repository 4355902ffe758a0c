import Verif.Proofs.Views
import Verif.Props.Reconfig

/-
C21 (operator views).  Violated for the onward evolution with the Qobj data type;
everything else is proved for every history of operations and view reads.
-/

set_option linter.unusedSectionVars false

namespace QTrl.Dyn

open QTrl.Spec

variable {d m D : Type} [Fintype d] [DecidableEq d] [Fintype m] [DecidableEq m]

/-- The amplitudes supplied last in a history of operations and reads. -/
def lastAmpsV (a0 : Amps) : List VOp → Amps
  | [] => a0
  | .op (.updateAmps a) :: ops => lastAmpsV a ops
  | .op (.reinit a) :: ops => lastAmpsV a ops
  | _ :: ops => lastAmpsV a0 ops

theorem foldl_nextAmpsV (a0 : Amps) (ops : List VOp) :
    ops.foldl nextAmpsV (some a0) = some (lastAmpsV a0 ops) := by
  induction ops generalizing a0 with
  | nil => rfl
  | cons op ops ih =>
    rcases op with (_ | _ | _ | _ | _ | _) | _ | _ | _ | _ | _ | _ <;>
      simp only [List.foldl, nextAmpsV, nextAmps, lastAmpsV, ih]

/-- The state of an initialised object after a history of operations and view
reads followed by `compute_evolution`. -/
noncomputable def reachedV (S : Sys d m D) (junk s0 : State d m D) (a0 : Amps)
    (ops : List VOp) : State d m D :=
  (computeEvolution S (vrun S junk (initControls S junk s0 a0) ops)).1

/-- What the views have to show: generators, propagators, propagator gradients and
the time-ordered products at the amplitudes supplied last, and what reading them
returns. The onward view is only covered for the ndarray data type. -/
structure ViewsRight (S : Sys d m D) (amps : Amps) (t : State d m D) : Prop where
  dynGen : ∃ v, (readDynGen t).2 = some v ∧ ∀ k, k < S.nTs → v k = generator S amps k
  prop : ∃ v, (readProp t).2 = some v ∧ ∀ k, k < S.nTs → v k = propagator S amps k
  propGrad : S.propKind ≠ .approx → S.cachePropGrad = true →
    ∃ v, (readPropGrad S t).2 = some v ∧
      ∀ k j, k < S.nTs → j < S.nCtrls → v k j = propagatorGrad S amps k j
  fwd : ∃ v, (readFwd S t).2 = some v ∧
    ∀ k, k ≤ S.nTs → v k = evolution S amps 0 k * S.initial
  full : (readFull S t).2 = some (final S amps)
  onto : S.fidKind = .unitary → ∃ v, (readOnto S t).2 = some v ∧
    ∀ k, k ≤ S.nTs → v k = S.ontoTarget * evolution S amps k S.nTs
  onwd : S.fidKind = .traceDiff → S.isQobj = false → ∃ v, (readOnwd S t).2 = some v ∧
    ∀ k, k < S.nTs → v k = Sum.inl (evolution S amps k S.nTs)

/-- **C21, partial** (missing: the onward evolution with the Qobj data type, which
is wrong, see `C21_violated`).  After every history of operations and view reads,
each public view shows the operators of the amplitudes supplied last. -/
theorem C21_views_partial {S : Sys d m D} (hS : Valid S) (junk s0 : State d m D) (a0 : Amps)
    (ops : List VOp) : ViewsRight S (lastAmpsV a0 ops) (reachedV S junk s0 a0 ops) := by
  obtain ⟨h1, h2⟩ := initControls_inv S junk s0 a0
  have hv : ViewInv S (initControls S junk s0 a0) := by
    unfold initControls
    rw [compareAmps_none (by rfl)]
    exact ViewInv.of_stale rfl
  obtain ⟨g1, g2, g3⟩ := vrun_inv hS junk ops h1 hv (A := some a0) h2
  rw [foldl_nextAmpsV] at g3
  obtain ⟨b, hb, hs⟩ := g3
  obtain ⟨r, t, e, it, at', et, ot⟩ := computeEvolution_some hS g1 hb
  have ht : reachedV S junk s0 a0 ops = t := by simp only [reachedV, e]
  have vt : ViewInv S t := by
    have := g2.evolves (computeEvolution_evolves S _)
    rwa [e] at this
  have hev : ∀ lo hi, hi ≤ S.nTs → evolution S b lo hi = evolution S (lastAmpsV a0 ops) lo hi :=
    fun lo hi h => timeOrdered_congr fun k _ hk => propagator_congr hs (by omega)
  rw [ht]
  refine ⟨⟨_, (readDynGen_spec vt).2.2 et, fun k hk => ?_⟩,
    ⟨_, (readProp_spec vt).2.2 et, fun k hk => ?_⟩, fun hx hc => ?_,
    ⟨_, (readFwd_spec vt it.ends).2.2 et, fun k hk => ?_⟩, ?_, fun hu => ?_, fun ht hq => ?_⟩
  · rw [ot.gen.dynGen k hk, generator_congr hs hk]
  · rw [ot.prop k hk, propagator_congr hs hk]
  · refine ⟨_, (readPropGrad_spec vt).2.2 et (by simp [gradExact, hx]) hc, fun k j hk hj => ?_⟩
    rw [ot.propGrad (by simp [gradExact, hx]) hc k j hk hj, propagatorGrad_congr hs hk]
  · rw [ot.fwd k hk, hev 0 k hk]
  · simp only [readFull, (readFwd_spec vt it.ends).2.2 et, Option.map, ot.fwd _ (Nat.le_refl _),
      hev 0 _ (Nat.le_refl _), final]
  · refine ⟨_, (readOnto_spec vt it.ends).2.2 et (by simp [usesOnto, hu]), fun k hk => ?_⟩
    rw [ot.onto (by simp [usesOnto, hu]) k hk, hev k _ (Nat.le_refl _)]
  · refine ⟨_, (readOnwd_spec vt).2.2 et (by simp [usesOnwd, ht]), fun k hk => ?_⟩
    simp only [hq]
    show Sum.inl (t.onwd k) = _
    rw [ot.onwd (by simp [usesOnwd, ht]) k hk, hev k _ (Nat.le_refl _)]

/-- With the Qobj data type the onward view shows the *forward* evolution. -/
theorem C21_onwd_shows_fwd {S : Sys d m D} (hS : Valid S) (ht : S.fidKind = .traceDiff)
    (hq : S.isQobj = true) (junk s0 : State d m D) (a0 : Amps) (ops : List VOp) :
    ∃ v, (readOnwd S (reachedV S junk s0 a0 ops)).2 = some v ∧
      ∀ k, k ≤ S.nTs → v k = Sum.inr (evolution S (lastAmpsV a0 ops) 0 k * S.initial) := by
  obtain ⟨h1, h2⟩ := initControls_inv S junk s0 a0
  have hv : ViewInv S (initControls S junk s0 a0) := by
    unfold initControls
    rw [compareAmps_none (by rfl)]
    exact ViewInv.of_stale rfl
  obtain ⟨g1, g2, g3⟩ := vrun_inv hS junk ops h1 hv (A := some a0) h2
  rw [foldl_nextAmpsV] at g3
  obtain ⟨b, hb, hs⟩ := g3
  obtain ⟨r, t, e, it, at', et, ot⟩ := computeEvolution_some hS g1 hb
  have hr : reachedV S junk s0 a0 ops = t := by simp only [reachedV, e]
  have vt : ViewInv S t := by
    have := g2.evolves (computeEvolution_evolves S _)
    rwa [e] at this
  have hev : ∀ lo hi, hi ≤ S.nTs → evolution S b lo hi = evolution S (lastAmpsV a0 ops) lo hi :=
    fun lo hi h => timeOrdered_congr fun k _ hk => propagator_congr hs (by omega)
  rw [hr]
  refine ⟨_, (readOnwd_spec vt).2.2 et (by simp [usesOnwd, ht]), fun k hk => ?_⟩
  simp only [hq, if_true]
  rw [ot.fwd k hk, hev 0 k hk]

/-- A one-level system with Qobj operators and the trace difference measure, whose
single propagator is `exp(-i u pi)`. -/
noncomputable def tinyTD : Sys (Fin 1) (Fin 1) Unit := { tinySys with fidKind := .traceDiff }

theorem tinyTD_valid : Valid tinyTD := by
  have := tinySys_valid
  exact ⟨this.slots, this.ctrls, this.phasedCtrl⟩

/-- **C21 is violated.** With the Qobj data type, entry 0 of the onward view is not
the evolution from slot 0 to the end (at amplitude 1 that is -1, the view shows
1). -/
theorem C21_violated (junk s0 : State (Fin 1) (Fin 1) Unit) :
    ∃ v, (readOnwd tinyTD (reachedV tinyTD junk s0 (fun _ _ => 1) [])).2 = some v ∧
      Sum.elim id id (v 0) ≠ evolution tinyTD (fun _ _ => 1) 0 tinyTD.nTs := by
  obtain ⟨v, h1, h2⟩ := C21_onwd_shows_fwd tinyTD_valid rfl rfl junk s0 (fun _ _ => 1) []
  refine ⟨v, h1, ?_⟩
  rw [h2 0 (Nat.zero_le _)]
  intro h
  have h0 := congrFun (congrFun h 0) 0
  simp [evolution, timeOrdered, propagator, tinyTD, tinySys, phased, generator, Complex.exp_neg,
    Complex.exp_pi_mul_I] at h0
  norm_num at h0

/-- Non-vacuity: a history with reads between updates on the two-slot qubit system. -/
example (junk s0 : State (Fin 2) (Fin 2) (Matrix (Fin 2) (Fin 2) ℂ)) :
    ViewsRight (demoSys .traceDiff .frechet) (fun _ _ => 3)
      (reachedV (demoSys .traceDiff .frechet) junk s0 (fun _ _ => 1)
        [.op .computeEvolution, .readFwd, .readOnwd, .op (.updateAmps fun _ _ => 3), .readProp]) :=
  C21_views_partial (demoSys_valid .traceDiff .frechet) junk s0 (fun _ _ => 1)
    [.op .computeEvolution, .readFwd, .readOnwd, .op (.updateAmps fun _ _ => 3), .readProp]

end QTrl.Dyn
