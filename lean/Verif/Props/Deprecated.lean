import Verif.Model.Deprecated
import Verif.Proofs.Deprecated
import Verif.Props.Evolution

/-
C63: deprecated names do what the present ones do.
-/

namespace QTrl.Dyn

open QTrl.Spec

variable {d m D : Type} [Fintype d] [DecidableEq d] [Fintype m] [DecidableEq m]

/-- **C63**, the part that holds.  After any history and a computation of the evolution, the old
names give the operators at the amplitudes set last: the evolution up to a slot, from a slot to
the end, and onto the target, the phased generators, and the propagators, whose computation
leaves these operators alone.  Missing: the names in the `violated` theorems below. -/
theorem C63_names_partial {S : Sys d m D} (hn : Valid S) (junk s0 : State d m D) (a0 : Amps)
    (ops : List Op) :
    let amps := lastAmps a0 ops
    let t := (computeEvolution S (reached S junk s0 a0 ops)).1
    let p := propagator S amps
    (∀ k, k ≤ S.nTs → evoInit2t t k = timeOrdered p 0 k * S.initial) ∧
    (S.fidKind = .traceDiff → ∀ k, k < S.nTs → evoT2end t k = timeOrdered p k S.nTs) ∧
    (S.fidKind = .unitary → ∀ k, k ≤ S.nTs →
      evoT2targ t k = S.ontoTarget * timeOrdered p k S.nTs) ∧
    (∀ k, k < S.nTs → getDynGen S t k = phased S
      (S.drift k + ∑ j ∈ Finset.range S.nCtrls, (amps k j : ℂ) • S.ctrl k j)) ∧
    (∀ k, k < S.nTs → (computePropagator S t k).2 = p k ∧
      (computePropagator S t k).1.prop = t.prop ∧ (computePropagator S t k).1.fwd = t.fwd) := by
  intro amps t p
  obtain ⟨hi, b, hb, hs⟩ := reached_inv hn junk s0 a0 ops
  obtain ⟨r, t', e, it, at', et, ot⟩ := computeEvolution_some hn hi hb
  have ht : t = t' := by simp only [t, e]
  rw [ht]
  have hev : ∀ lo hi, hi ≤ S.nTs → evolution S b lo hi = timeOrdered p lo hi :=
    fun lo hi h => timeOrdered_congr fun k _ hk => propagator_congr hs (by omega)
  refine ⟨fun k hk => ?_, fun h k hk => ?_, fun h k hk => ?_, fun k hk => ?_, fun k hk => ?_⟩
  · rw [evoInit2t, ot.fwd k hk, hev 0 k hk]
  · rw [evoT2end, ot.onwd (by simp [usesOnwd, h]) k hk, hev k _ (Nat.le_refl _)]
  · rw [evoT2targ, ot.onto (by simp [usesOnto, h]) k hk, hev k _ (Nat.le_refl _)]
  · rw [getDynGen, ot.gen.phased k hk, generator_congr hs hk]; rfl
  · obtain ⟨dc, dd, h1, _, h3⟩ := computeProp_form S b t' k hk ot.decomp ot.gen
    refine ⟨?_, ?_, ?_⟩
    · rw [computePropagator, h3, propagator_congr hs hk]
    · rw [computePropagator, h1]
    · rw [computePropagator, h1]

/-- Two computations with a change of the amplitudes between them. -/
example (junk s0 : State (Fin 2) (Fin 2) (Matrix (Fin 2) (Fin 2) ℂ)) (k : Nat) (hk : k ≤ 2) :
    let S := demoSys .unitary .frechet
    evoT2targ (computeEvolution S (reached S junk s0 (fun _ _ => 1)
      [.computeEvolution, .updateAmps fun _ _ => 2])).1 k =
    S.ontoTarget * timeOrdered (propagator S fun _ _ => 2) k 2 :=
  (C63_names_partial (demoSys_valid .unitary .frechet) junk s0 (fun _ _ => 1)
    [.computeEvolution, .updateAmps fun _ _ => 2]).2.2.1 rfl k hk

omit [Fintype d] [DecidableEq d] [Fintype m] [DecidableEq m] in
/-- The generator of a control by its old name is that of the first slot, phased, and so that of
every slot when the controls do not depend on time. -/
theorem C63_ctrl_partial {S : Sys d m D} (hn : Valid S) (j : Nat) :
    getCtrlDynGen S j = phased S (S.ctrl 0 j) ∧
    ((∀ k, S.ctrl k j = S.ctrl 0 j) → ∀ k, getCtrlDynGen S j = phased S (S.ctrl k j)) := by
  have h : getCtrlDynGen S j = phased S (S.ctrl 0 j) := by
    unfold getCtrlDynGen getPhasedCtrl phased
    cases hp : S.phase with
    | none => rfl
    | some ph =>
      by_cases hc : S.cachePhased = true
      · simp only [hc, if_true]; exact hn.phasedCtrl ph hp hc 0 j
      · simp only [hc]; rfl
  exact ⟨h, fun hk k => by rw [h, hk k]⟩

example (k : Nat) : getCtrlDynGen (demoSys .unitary .frechet) 0 =
    phased (demoSys .unitary .frechet) ((demoSys .unitary .frechet).ctrl k 0) :=
  (C63_ctrl_partial (demoSys_valid .unitary .frechet) 0).2 (fun _ => rfl) k

/-- The system of the example with controls that are different in the second slot. -/
noncomputable def driveSys : Sys (Fin 2) (Fin 2) (Matrix (Fin 2) (Fin 2) ℂ) :=
  initSys { demoSys .unitary .frechet with
    phase := none
    ctrl := fun k _ => if k = 0 then 0 else 1 }

/-- With controls that depend on time the old name gives the generator of another slot. -/
theorem C63_ctrl_violated :
    ∃ S : Sys (Fin 2) (Fin 2) (Matrix (Fin 2) (Fin 2) ℂ), Valid S ∧ ∃ k j, k < S.nTs ∧
      j < S.nCtrls ∧ getCtrlDynGen S j ≠ phased S (S.ctrl k j) := by
  refine ⟨driveSys, initSys_valid (by simp [demoSys]) (by simp [demoSys]), 1, 0, ?_, ?_, ?_⟩
  · simp [driveSys, demoSys, initSys]
  · simp [driveSys, demoSys, initSys]
  · simp only [driveSys, initSys, getCtrlDynGen, getPhasedCtrl, phased]
    simp

omit [Fintype d] [DecidableEq d] [Fintype m] [DecidableEq m] in
/-- **C63**, violated: combining a generator by its old name raises `TypeError` in every state. -/
theorem C63_combine_violated (S : Sys d m D) (s : State d m D) (k : Nat) :
    (oldCombine S s k).2 = .error .typeError := by
  unfold oldCombine; split <;> rfl

/-- The failing call is harmless: whatever happened before, the evolution computed after it is
the one of the amplitudes set last. -/
theorem C63_combine_harmless {S : Sys d m D} (hn : Valid S) (junk s0 : State d m D) (a0 : Amps)
    (ops : List Op) (k : Nat) :
    let p := propagator S (lastAmps a0 ops)
    let t := (computeEvolution S (oldCombine S (reached S junk s0 a0 ops) k).1).1
    (∀ i, i < S.nTs → t.prop i = p i) ∧
    (∀ i, i ≤ S.nTs → t.fwd i = timeOrdered p 0 i * S.initial) := by
  intro p t
  obtain ⟨hi, b, hb, hs⟩ := reached_inv hn junk s0 a0 ops
  have hu : (oldCombine S (reached S junk s0 a0 ops) k).1 =
      recombine S b (reached S junk s0 a0 ops) k := by rw [oldCombine, hb]
  have hi' := recombine_inv hi hb k
  obtain ⟨r, t', e, it, at', et, ot⟩ := computeEvolution_some (b := b) hn hi' (by
    rw [recombine]; exact hb)
  have ht : t = t' := by simp only [t, hu, e]
  rw [ht]
  have hev : ∀ lo hi, hi ≤ S.nTs → evolution S b lo hi = timeOrdered p lo hi :=
    fun lo hi h => timeOrdered_congr fun k _ hk => propagator_congr hs (by omega)
  exact ⟨fun i h => by rw [ot.prop i h, propagator_congr hs h],
    fun i h => by rw [ot.fwd i h, hev 0 i h]⟩

example (junk s0 : State (Fin 2) (Fin 2) (Matrix (Fin 2) (Fin 2) ℂ)) :
    let S := demoSys .unitary .frechet
    (computeEvolution S (oldCombine S (reached S junk s0 (fun _ _ => 1)
      [.computeEvolution, .updateAmps fun _ _ => 2]) 1).1).1.fwd 2 =
    timeOrdered (propagator S fun _ _ => 2) 0 2 * S.initial :=
  (C63_combine_harmless (demoSys_valid .unitary .frechet) junk s0 (fun _ _ => 1)
    [.computeEvolution, .updateAmps fun _ _ => 2] 1).2 2 le_rfl

/-- **C63**, violated: differentiating a propagator by its old name raises `TypeError` for all
arguments, whatever the method does, although the present name accepts them. -/
theorem C63_grad_violated {β : Type} (run : List (String × PArg) → Except PyErr β) (k j : Nat)
    (b : Bool) :
    oldPropGrad run k j b = .error .typeError ∧
    callPropGrad k j b = .ok [("self", .obj), ("k", .int k), ("j", .int j),
      ("compute_prop", .bool b)] := by
  constructor
  · simp [oldPropGrad, bindCall, gradParams]
  · simp [callPropGrad, bindCall, gradParams]

/-- **C63**, violated: the slot for the overlap by its old name is no number. -/
theorem C63_slot_violated (n k : Nat) :
    newSlotForFid n = .slot n ∧ oldSlotForFid n ≠ .slot k :=
  ⟨rfl, by simp [oldSlotForFid]⟩

/-- The old flags of a fidelity computer read and set the present ones, and only these. -/
theorem C63_flags (u : Uses) (b : Bool) :
    u.t2end = u.onwd ∧ u.t2targ = u.onto ∧
    ((u.setT2end b).onwd = b ∧ (u.setT2end b).onto = u.onto) ∧
    ((u.setT2targ b).onto = b ∧ (u.setT2targ b).onwd = u.onwd) :=
  ⟨rfl, rfl, ⟨rfl, rfl⟩, rfl, rfl⟩

end QTrl.Dyn
