import Verif.Proofs.DynUpdate
import Verif.Props.Evolution

/-
C34: the timeslot computer that recomputes only marked operators.

Proved: along every history of amplitude changes, markings, slot choices and
recomputations, an operator not marked as stale has the value that computing
everything from the last supplied amplitudes would give it; a recomputation brings
every operator marked "calculate now" up to date and touches none that is; the slot
chosen for the fidelity gives the overlap of the full evolution.

Refuted: `flag_all_calc_now` does not cover the full evolution; `compute_evolution`
skips marked operators once it has run; and with the present `Dynamics` class the
computer never computes anything.
-/

namespace QTrl.DynUpdate

open QTrl.Dyn

variable {d m D : Type} [Fintype d] [DecidableEq d] [Fintype m] [DecidableEq m]

set_option linter.unusedSectionVars false

/-- The last amplitudes supplied in a history. -/
def lastNew : List UOp → Option Amps
  | [] => none
  | .update a :: ops => (lastNew ops).or (some a)
  | _ :: ops => lastNew ops

/-- Amplitudes that agree on the slots and controls of the system. -/
def Agree (S : Sys d m D) (a b : Amps) : Prop := ∀ k < S.nTs, ∀ j < S.nCtrls, a k j = b k j

theorem step_amps {H : Host} {S : Sys d m D} {s : UState d m} (op : UOp)
    (hop : ∀ a, op ≠ .update a) : (step H S s op).ctrlAmps = s.ctrlAmps := by
  have hrec : (recompute H S s).1.ctrlAmps = s.ctrlAmps := by
    unfold recompute
    simp only
    split
    · rfl
    · split
      · rfl
      · have hg : ∀ (b : Nat → UState d m → UState d m) (t : UState d m) n,
            (∀ k u, (b k u).ctrlAmps = u.ctrlAmps) → (forRange n b t).ctrlAmps = t.ctrlAmps := by
          intro b t n hb
          exact forRange_inv (P := fun _ (u : UState d m) => u.ctrlAmps = t.ctrlAmps) rfl
            (fun k u _ h => by rw [hb, h])
        have hd : ∀ (b : Nat → UState d m → UState d m) (t : UState d m) n,
            (∀ k u, (b k u).ctrlAmps = u.ctrlAmps) → (forDown n b t).ctrlAmps = t.ctrlAmps := by
          intro b t n hb
          exact forDown_inv (P := fun _ (u : UState d m) => u.ctrlAmps = t.ctrlAmps) rfl
            (fun k u _ h => by rw [hb, h])
        show (ontoStep _ _ _).ctrlAmps = _
        unfold ontoStep
        rw [hd _ _ _ (fun k u => by split <;> rfl)]
        unfold fwdStep
        rw [hg _ _ _ (fun k u => by split <;> rfl)]
        unfold propStep
        rw [hg _ _ _ (fun k u => by split <;> rfl)]
        unfold genStep
        rw [hg _ _ _ (fun k u => by split <;> rfl)]
  cases op with
  | update new => exact absurd rfl (hop new)
  | flagAll => rfl
  | choose c => rfl
  | slot => simp only [step]; rw [fidSlot_frame]
  | recompute => exact hrec
  | compute =>
    simp only [step, computeEvolution]
    split
    · rfl
    · generalize recompute H S s = r at hrec
      obtain ⟨t, r⟩ := r
      cases r <;> exact hrec

theorem compareAmps_amps {S : Sys d m D} (hv : Valid S) (s : UState d m) (new : Amps) :
    ∃ a, (compareAmps S s new).1.ctrlAmps = some a ∧ Agree S a new := by
  unfold compareAmps
  simp only
  split
  case isTrue => exact ⟨new, rfl, fun _ _ _ _ => rfl⟩
  case isFalse h =>
    cases hca : s.ctrlAmps with
    | none =>
      exfalso
      apply h
      rw [List.any_eq_true]
      exact ⟨0, List.mem_range.mpr hv.slots, by simp [hca, changedMask, hv.ctrls]⟩
    | some a =>
      refine ⟨a, rfl, fun k hk j hj => ?_⟩
      refine changedMask_false ?_ j hj
      rw [← hca]
      by_contra hne
      exact h (List.any_eq_true.mpr ⟨k, List.mem_range.mpr hk, by simpa using hne⟩)

/-- The stored amplitudes are the last ones supplied. -/
theorem run_amps {H : Host} {S : Sys d m D} (hv : Valid S) (s : UState d m) (ops : List UOp)
    (b : Amps) (hb : lastNew ops = some b) :
    ∃ a, (run H S s ops).ctrlAmps = some a ∧ Agree S a b := by
  have gen : ∀ (ops : List UOp) (s : UState d m) (b : Amps),
      ((lastNew ops = some b) ∨ (lastNew ops = none ∧ ∃ a, s.ctrlAmps = some a ∧ Agree S a b)) →
      ∃ a, (run H S s ops).ctrlAmps = some a ∧ Agree S a b := by
    intro ops
    induction ops with
    | nil =>
      intro s b h
      rcases h with h | ⟨_, h⟩
      · cases h
      · exact h
    | cons op ops ih =>
      intro s b h
      refine ih (step H S s op) b ?_
      by_cases hop : ∃ a, op = .update a
      · obtain ⟨a, rfl⟩ := hop
        simp only [lastNew] at h
        cases hl : lastNew ops with
        | some c =>
          rw [hl] at h
          simpa using h
        | none =>
          rw [hl] at h
          right
          refine ⟨rfl, ?_⟩
          simp at h
          subst h
          exact compareAmps_amps hv s a
      · have hop' : ∀ a, op ≠ .update a := fun a h => hop ⟨a, h⟩
        have hl : lastNew (op :: ops) = lastNew ops := by
          cases op <;> first | rfl | exact absurd rfl (hop' _)
        rw [hl] at h
        rw [step_amps op hop']
        exact h
  exact gen ops s b (Or.inl hb)

theorem Current.congr {S : Sys d m D} {a b : Amps} {s : UState d m} (h : Agree S a b)
    (hs : Current S a s) : Current S b s where
  gen k hk hr := by rw [hs.gen k hk hr]; exact generator_congr S (h k hk)
  prop k hk hr := by rw [hs.prop k hk hr]; exact propagator_congr S (h k hk)
  fwd k hk hr := by
    rw [hs.fwd k hk hr, evolution_congr S (fun i _ hi => h i (by omega))]
  onto k hk hr := by
    rw [hs.onto k hk hr, evolution_congr S (fun i _ hi => h i hi)]

/-- **C34**: along every history of amplitude changes, markings, slot choices and
recomputations, every operator that is not marked as stale has the value that a
complete computation at the last supplied amplitudes gives (generator, propagator,
time-ordered products with the initial object and the target). -/
theorem C34_unmarked {S : Sys d m D} (hv : Valid S) (H : Host) (junk : UState d m)
    (ops : List UOp) (a : Amps) (ha : lastNew ops = some a) :
    let s := run H S (initComp S junk) ops
    (∀ k < S.nTs, s.recalc.gen k = false → s.dynGen k = Spec.generator S a k) ∧
    (∀ k < S.nTs, s.recalc.prop k = false → s.prop k = Spec.propagator S a k) ∧
    (∀ k ≤ S.nTs, s.recalc.fwd k = false →
      s.fwd k = Spec.evolution S a 0 k * S.initial) ∧
    (∀ k ≤ S.nTs, s.recalc.onto k = false →
      s.onto k = S.ontoTarget * Spec.evolution S a k S.nTs) := by
  intro s
  obtain ⟨b, hb, hag⟩ := run_amps (H := H) hv (initComp S junk) ops a ha
  have h := ((run_inv (initComp_inv S junk) ops).current b
    (fun c hc => by rw [hb] at hc; injection hc with hc; exact hc.symm)).congr hag
  exact ⟨h.gen, h.prop, h.fwd, h.onto⟩

/-- With a host that has the methods, a recomputation succeeds once amplitudes were
supplied. -/
theorem recompute_ok {S : Sys d m D} {s : UState d m} (h : s.ctrlAmps.isSome = true) :
    ∃ t, recompute Host.complete S s = (t, .ok ()) := by
  unfold recompute
  simp only [Host.complete, Bool.not_true, Bool.and_false, Bool.false_eq_true, if_false]
  rw [Option.isSome_iff_exists] at h
  obtain ⟨a, ha⟩ := h
  simp [ha]

/-- **C34** (what holds of the selective recomputation): after any history, a
recomputation gives every operator marked "calculate now" the value a complete
computation would give it, and leaves the operators that were not marked as stale
exactly as they were. -/
theorem C34_marked_partial {S : Sys d m D} (hv : Valid S) (junk : UState d m)
    (ops : List UOp) (a : Amps) (ha : lastNew ops = some a) :
    let s := run Host.complete S (initComp S junk) ops
    ∃ t, recompute Host.complete S s = (t, .ok ()) ∧
      (∀ k < S.nTs, s.now.gen k = true → t.dynGen k = Spec.generator S a k) ∧
      (∀ k < S.nTs, s.now.prop k = true → t.prop k = Spec.propagator S a k) ∧
      (∀ k ≤ S.nTs, s.now.fwd k = true → t.fwd k = Spec.evolution S a 0 k * S.initial) ∧
      (∀ k ≤ S.nTs, s.now.onto k = true →
        t.onto k = S.ontoTarget * Spec.evolution S a k S.nTs) ∧
      (∀ k, s.recalc.gen k = false → t.dynGen k = s.dynGen k) ∧
      (∀ k, s.recalc.prop k = false → t.prop k = s.prop k) ∧
      (∀ k, s.recalc.fwd k = false → t.fwd k = s.fwd k) ∧
      (∀ k, s.recalc.onto k = false → t.onto k = s.onto k) := by
  intro s
  obtain ⟨b, hb, hag⟩ := run_amps (H := Host.complete) hv (initComp S junk) ops a ha
  have hinv : Inv S s := run_inv (initComp_inv S junk) ops
  have hb' : s.ctrlAmps = some b := hb
  obtain ⟨t, ht⟩ := recompute_ok (S := S) (s := s) (by rw [hb']; rfl)
  obtain ⟨h1, h2, -, -, h3, h4, h5, h6, h7, h8, h9, h10⟩ := recompute_spec hinv ht
  have hc := (h1.current b
    (fun c hc => by rw [h2, hb'] at hc; injection hc with hc; exact hc.symm)).congr hag
  exact ⟨t, ht, fun k hk h => hc.gen k hk (h3 k hk h), fun k hk h => hc.prop k hk (h4 k hk h),
    fun k hk h => hc.fwd k hk (h5 k hk h), fun k hk h => hc.onto k hk (h6 k hk h),
    fun k h => (h7 k h).2, fun k h => (h8 k h).2, fun k h => (h9 k h).2,
    fun k h => (h10 k h).2⟩

/-- **C34**: marking everything and recomputing gives, after any history, all operators
of a complete computation. -/
theorem C34_all_marked {S : Sys d m D} (hv : Valid S) (junk : UState d m)
    (ops : List UOp) (a : Amps) (ha : lastNew ops = some a) :
    let t := run Host.complete S (initComp S junk)
      (ops ++ [.choose ⟨fun _ => true, fun _ => true, fun _ => true, fun _ => true⟩, .recompute])
    (∀ k < S.nTs, t.dynGen k = Spec.generator S a k ∧ t.prop k = Spec.propagator S a k) ∧
    (∀ k ≤ S.nTs, t.fwd k = Spec.evolution S a 0 k * S.initial ∧
      t.onto k = S.ontoTarget * Spec.evolution S a k S.nTs) := by
  intro t
  have hl : lastNew (ops ++ [.choose ⟨fun _ => true, fun _ => true, fun _ => true,
      fun _ => true⟩]) = some a := by
    have : ∀ o : List UOp, ∀ c, lastNew (o ++ [.choose c]) = lastNew o := by
      intro o c
      induction o with
      | nil => rfl
      | cons x o ih => cases x <;> simp [lastNew, ih]
    rw [this, ha]
  obtain ⟨u, hu, h1, h2, h3, h4, -⟩ := C34_marked_partial hv junk _ a hl
  have htu : t = u := by
    have e : t = (recompute Host.complete S (run Host.complete S (initComp S junk)
        (ops ++ [.choose ⟨fun _ => true, fun _ => true, fun _ => true, fun _ => true⟩]))).1 := by
      show run _ _ _ _ = _
      simp only [run, List.foldl_append, List.foldl_cons, List.foldl_nil, step]
    rw [e, hu]
  rw [htu]
  refine ⟨fun k hk => ⟨h1 k hk ?_, h2 k hk ?_⟩, fun k hk => ⟨h3 k hk ?_, h4 k hk ?_⟩⟩ <;>
    simp [run, step, choose]

/-- **C34 (partial).** `flag_all_calc_now` before a recomputation brings, after any history, every
generator, every propagator and every evolution operator up to date except the last forward and
the first onward one; `C34_violated_flag_all` shows the exception. -/
theorem C34_flag_all_partial {S : Sys d m D} (hv : Valid S) (junk : UState d m)
    (ops : List UOp) (a : Amps) (ha : lastNew ops = some a) :
    let t := run Host.complete S (initComp S junk) (ops ++ [.flagAll, .recompute])
    (∀ k < S.nTs, t.dynGen k = Spec.generator S a k ∧ t.prop k = Spec.propagator S a k) ∧
    (∀ k < S.nTs, t.fwd k = Spec.evolution S a 0 k * S.initial) ∧
    (∀ k, 1 ≤ k → k ≤ S.nTs → t.onto k = S.ontoTarget * Spec.evolution S a k S.nTs) := by
  intro t
  have hl : lastNew (ops ++ [.flagAll]) = some a := by
    have : ∀ o : List UOp, lastNew (o ++ [.flagAll]) = lastNew o := by
      intro o
      induction o with
      | nil => rfl
      | cons x o ih => cases x <;> simp [lastNew, ih]
    rw [this, ha]
  obtain ⟨u, hu, h1, h2, h3, h4, -⟩ := C34_marked_partial hv junk _ a hl
  have htu : t = u := by
    have e : t = (recompute Host.complete S (run Host.complete S (initComp S junk)
        (ops ++ [.flagAll]))).1 := by
      show run _ _ _ _ = _
      simp only [run, List.foldl_append, List.foldl_cons, List.foldl_nil, step]
    rw [e, hu]
  rw [htu]
  refine ⟨fun k hk => ⟨h1 k hk ?_, h2 k hk ?_⟩, fun k hk => h3 k hk.le ?_, fun k h1' hk => h4 k hk ?_⟩
  · simp [run, step, flagAll]
  · simp [run, step, flagAll]
  · simp [run, step, flagAll, hk]
  · simp [run, step, flagAll, h1']

example (a : Amps) : lastNew [.update a, .slot, .compute] = some a := rfl

/-- **C34**: the overlap computed at the chosen slot after any history whose last
operation changing anything was a change of amplitudes (`evo_current` is false) is the
overlap of the full evolution at the last supplied amplitudes; a slot is always found. -/
theorem C34_overlap_partial {S : Sys d m D} (hv : Valid S) (junk : UState d m)
    (ops : List UOp) (a : Amps) (ha : lastNew ops = some a)
    (hcur : (run Host.complete S (initComp S junk) ops).evoCurrent = false) :
    (prenorm Host.complete S (run Host.complete S (initComp S junk) ops)).2 =
      .ok (Spec.overlap S a) := by
  have hinv : Inv S (run Host.complete S (initComp S junk) ops) :=
    run_inv (initComp_inv S junk) ops
  obtain ⟨k, hk, hslot, -⟩ := fidSlot_spec hinv hv.slots
  obtain ⟨b, hb, hag⟩ := run_amps (H := Host.complete) hv (initComp S junk) ops a ha
  generalize run Host.complete S (initComp S junk) ops = s at *
  have hsk := step_inv (H := Host.complete) (S := S) hinv .slot
  simp only [step, hslot] at hsk
  obtain ⟨u, hu⟩ : ∃ u : UState d m, u = { s with now := { s.now with
      fwd := Function.update s.now.fwd k true
      onto := Function.update s.now.onto k true } } := ⟨_, rfl⟩
  have hsk' : Inv S u := by rw [hu]; exact hsk
  rw [← hu] at hslot
  have hub : u.ctrlAmps = some b := by rw [hu]; exact hb
  have huc : u.evoCurrent = false := by rw [hu]; exact hcur
  unfold prenorm
  rw [hslot]
  have hH : (!Host.complete.fidSlot) = false := rfl
  simp only [hH, Bool.false_eq_true, if_false]
  obtain ⟨t, ht⟩ := recompute_ok (S := S) (s := u) (by rw [hub]; rfl)
  obtain ⟨h1, h2, -, -, -, -, h5, h6, -⟩ := recompute_spec hsk' ht
  have hc := (h1.current b
    (fun c hc => by rw [h2, hub] at hc; injection hc with hc; exact hc.symm)).congr hag
  have hf := hc.fwd k hk.le (h5 k hk.le (by rw [hu]; simp))
  have ho := hc.onto k hk.le (h6 k hk.le (by rw [hu]; simp))
  simp only [computeEvolution, huc, Bool.false_eq_true, if_false, ht]
  rw [hf, ho, Spec.overlap, Spec.final, Matrix.mul_assoc, ← Matrix.mul_assoc (Spec.evolution S a k S.nTs)]
  congr 4
  exact timeOrdered_mul _ (Nat.zero_le k) hk.le

/-! ### what does not hold -/

/-- The first change of amplitudes marks everything but the end points. -/
theorem first_update {S : Sys d m D} (hv : Valid S) (junk : UState d m) (a : Amps) :
    (compareAmps S (initComp S junk) a).1 = { initComp S junk with
      ctrlAmps := some a
      recalc := ⟨fun _ => true, fun _ => true, fun k => decide (1 ≤ k),
        (compareAmps S (initComp S junk) a).1.recalc.onto⟩ } := by
  have hc : ∀ k, changedMask S (initComp S junk).ctrlAmps a k = true := fun k => by
    simp [initComp, changedMask, hv.ctrls]
  have hany : (List.range S.nTs).any (changedMask S (initComp S junk).ctrlAmps a) = true :=
    List.any_eq_true.mpr ⟨0, List.mem_range.mpr hv.slots, hc 0⟩
  obtain ⟨f, l, hfl, hf, hcf, hlt, -⟩ := firstLast_spec S.nTs _ hany
  have hf0 : f = 0 := by
    by_contra h
    have := hlt 0 (by omega)
    rw [hc] at this
    cases this
  subst hf0
  unfold compareAmps
  simp only [hany, if_true, hfl]
  congr 1
  congr 1
  · funext k
    rcases Nat.eq_zero_or_pos k with rfl | h
    · simp [initComp]
    · have : k ≠ 0 := by omega
      simp [initComp, Function.update_of_ne this]
      omega

/-- **C34 refuted for `flag_all_calc_now`**: after amplitudes are supplied, everything is
flagged and the evolution computed, the full evolution is still the placeholder it was
before — for every system and every placeholder — although the computer reports the
evolution as current. -/
theorem C34_violated_flag_all {S : Sys d m D} (hv : Valid S) (junk : UState d m) (a : Amps) :
    let s := run Host.complete S (initComp S junk) [.update a, .flagAll, .compute]
    s.evoCurrent = true ∧ s.fwd S.nTs = junk.fwd S.nTs := by
  intro s
  have hs : s = (computeEvolution Host.complete S
      (flagAll S (compareAmps S (initComp S junk) a).1)).1 := rfl
  have hu := first_update hv junk a
  generalize (compareAmps S (initComp S junk) a).1 = u at hs hu
  have hcur : (flagAll S u).evoCurrent = false := by rw [hu]; rfl
  obtain ⟨t, ht⟩ := recompute_ok (S := S) (s := flagAll S u) (by rw [hu]; rfl)
  have hfr := ((recompute_frame ht).1 S.nTs <| by
    rw [fwdNow_last]
    have : (flagAll S u).now.fwd S.nTs = false := by
      rw [hu]; simp [flagAll, initComp, Masks.empty]
    rw [this]; rfl).1
  have hst : s = { t with evoCurrent := true } := by
    rw [hs]
    simp only [computeEvolution, hcur, Bool.false_eq_true, if_false, ht]
  rw [hst]
  refine ⟨rfl, ?_⟩
  have hne : S.nTs ≠ 0 := by have := hv.slots; omega
  show t.fwd S.nTs = _
  rw [hfr, hu]
  simp [flagAll, initComp, Function.update_of_ne hne]

/-- **C34 refuted for the gradient after a fidelity**: asking for the fidelity first
(choose a slot, compute) and then flagging everything for the gradient and computing
leaves the forward operator of slot 1 a placeholder, since `compute_evolution` does
nothing once it has run, whatever is flagged. -/
theorem C34_violated_skipped {S : Sys d m D} (hv : Valid S) (h2 : 2 ≤ S.nTs)
    (junk : UState d m) (a : Amps) :
    let s := run Host.complete S (initComp S junk)
      [.update a, .slot, .compute, .flagAll, .compute]
    s.evoCurrent = true ∧ s.now.fwd 1 = true ∧ s.fwd 1 = junk.fwd 1 := by
  intro s
  have hu := first_update hv junk a
  have hinv : Inv S (compareAmps S (initComp S junk) a).1 :=
    compareAmps_inv (initComp_inv S junk) a
  have hs : s = (computeEvolution Host.complete S (flagAll S (computeEvolution Host.complete S
      (fidSlot S (compareAmps S (initComp S junk) a).1).1).1)).1 := rfl
  generalize (compareAmps S (initComp S junk) a).1 = u at hs hu hinv
  obtain ⟨k, hk, hslot, hrk⟩ := fidSlot_spec hinv hv.slots
  have hk0 : k = 0 := by
    rw [hu] at hrk
    simp at hrk
    exact hrk
  subst hk0
  rw [hslot] at hs
  simp only at hs
  obtain ⟨v, hv'⟩ : ∃ v : UState d m, v = { u with now := { u.now with
      fwd := Function.update u.now.fwd 0 true
      onto := Function.update u.now.onto 0 true } } := ⟨_, rfl⟩
  rw [← hv'] at hs
  have hcur : v.evoCurrent = false := by rw [hv', hu]; rfl
  obtain ⟨t, ht⟩ := recompute_ok (S := S) (s := v) (by rw [hv', hu]; rfl)
  have hnone : ∀ k, (v.now.fwd k && v.recalc.fwd k) = false := by
    intro k
    rcases Nat.eq_zero_or_pos k with rfl | h
    · rw [hv', hu]; simp
    · have : k ≠ 0 := by omega
      rw [hv', hu]; simp [initComp, Masks.empty, Function.update_of_ne this]
  have hfr := ((recompute_frame ht).1 1 (fwdNow_none _ _ hnone 1)).1
  have hc1 : (computeEvolution Host.complete S v).1 = { t with evoCurrent := true } := by
    simp only [computeEvolution, hcur, Bool.false_eq_true, if_false, ht]
  rw [hc1] at hs
  have hst : s = flagAll S { t with evoCurrent := true } := by
    rw [hs]
    simp [computeEvolution, flagAll]
  rw [hst]
  refine ⟨rfl, by simp [flagAll]; omega, ?_⟩
  show t.fwd 1 = _
  rw [hfr, hv', hu]
  simp [initComp]

/-- **C34 refuted for the fidelity after a computation**: when the evolution has been
asked for without marking anything, the overlap computed afterwards uses the placeholder
of the first onward operator. -/
theorem C34_violated_unmarked {S : Sys d m D} (hv : Valid S) (junk : UState d m) (a : Amps) :
    (prenorm Host.complete S (run Host.complete S (initComp S junk) [.update a, .compute])).2 =
      .ok (junk.onto 0 * S.initial).trace := by
  have hu := first_update hv junk a
  have hinv : Inv S (compareAmps S (initComp S junk) a).1 :=
    compareAmps_inv (initComp_inv S junk) a
  have hs : run Host.complete S (initComp S junk) [.update a, .compute] =
      (computeEvolution Host.complete S (compareAmps S (initComp S junk) a).1).1 := rfl
  rw [hs]
  generalize (compareAmps S (initComp S junk) a).1 = u at hs hu hinv
  have hcur : u.evoCurrent = false := by rw [hu]; rfl
  obtain ⟨t, ht⟩ := recompute_ok (S := S) (s := u) (by rw [hu]; rfl)
  have hnf : ∀ k, (u.now.fwd k && u.recalc.fwd k) = false := by
    intro k; rw [hu]; simp [initComp, Masks.empty]
  have hno : ∀ k, (u.now.onto k && u.recalc.onto k) = false := by
    intro k; rw [hu]; simp [initComp, Masks.empty]
  have hf := fun k => (recompute_frame ht).1 k (fwdNow_none _ _ hnf k)
  have ho := (recompute_frame ht).2 0 (ontoNow_none _ _ hno 0)
  have hc1 : (computeEvolution Host.complete S u).1 = { t with evoCurrent := true } := by
    simp only [computeEvolution, hcur, Bool.false_eq_true, if_false, ht]
  rw [hc1]
  obtain ⟨hti, -⟩ := recompute_spec hinv ht
  have hti' : Inv S { t with evoCurrent := true } := inv_of_eq hti rfl rfl rfl rfl rfl rfl
  obtain ⟨k, hk, hslot, hrk⟩ := fidSlot_spec hti' hv.slots
  have hk0 : k = 0 := by
    have : t.recalc.fwd k = false := hrk
    rw [(hf k).2, hu] at this
    simpa using this
  subst hk0
  unfold prenorm
  have hH : (!Host.complete.fidSlot) = false := rfl
  rw [hslot]
  simp only [hH, Bool.false_eq_true, if_false, computeEvolution, if_true]
  rw [ho, (hf 0).1, hu]
  have hne : (0 : Nat) ≠ S.nTs := by have := hv.slots; omega
  simp [initComp, Function.update_of_ne hne]

/-- **C34 refuted for the classes as they are**: `Dynamics` has no `compute_dyn_gen`, so
whatever is done, no operator is ever computed; and the overlap cannot be asked for,
since the method that chooses the slot has another name. -/
theorem C34_violated_present {S : Sys d m D} (junk : UState d m) (ops : List UOp) :
    let s := run Host.present S (initComp S junk) ops
    (s.dynGen = (initComp S junk).dynGen ∧ s.prop = (initComp S junk).prop ∧
      s.fwd = (initComp S junk).fwd ∧ s.onto = (initComp S junk).onto) ∧
    prenorm Host.present S s = (s, .error .attributeError) := by
  intro s
  refine ⟨?_, rfl⟩
  have key : ∀ (ops : List UOp) (s : UState d m),
      ((∀ k, s.recalc.gen k = true ∧ s.recalc.prop k = true) ∧
        s.dynGen = (initComp S junk).dynGen ∧ s.prop = (initComp S junk).prop ∧
        s.fwd = (initComp S junk).fwd ∧ s.onto = (initComp S junk).onto) →
      ((∀ k, (run Host.present S s ops).recalc.gen k = true ∧
          (run Host.present S s ops).recalc.prop k = true) ∧
        (run Host.present S s ops).dynGen = (initComp S junk).dynGen ∧
        (run Host.present S s ops).prop = (initComp S junk).prop ∧
        (run Host.present S s ops).fwd = (initComp S junk).fwd ∧
        (run Host.present S s ops).onto = (initComp S junk).onto) := by
    intro ops
    induction ops with
    | nil => exact fun s h => h
    | cons op ops ih =>
      rintro s ⟨h0, h1, h2, h3, h4⟩
      have hrec : ∀ t r, recompute Host.present S s = (t, r) →
          t = s ∨ t = { s with now := Masks.empty } := by
        intro t r h
        unfold recompute at h
        simp only at h
        split at h
        · injection h with h _; exact Or.inl h.symm
        case isFalse hn =>
        split at h
        · injection h with h _; exact Or.inl h.symm
        case isFalse =>
        injection h with h _
        right
        have hg : ∀ k < S.nTs, genNow s (propNow s (fwdNow S.nTs s) (ontoNow S.nTs s)) k =
            false := by
          intro k hk
          by_contra hne
          apply hn
          rw [Bool.and_eq_true]
          exact ⟨List.any_eq_true.mpr ⟨k, List.mem_range.mpr hk, by simpa using hne⟩, rfl⟩
        have hp : ∀ k < S.nTs, propNow s (fwdNow S.nTs s) (ontoNow S.nTs s) k = false := by
          intro k hk
          have := hg k hk
          rw [genNow, (h0 k).1, Bool.and_true, Bool.or_eq_false_iff] at this
          exact this.1
        have hfo : ∀ k < S.nTs, fwdNow S.nTs s (k + 1) = false ∧ ontoNow S.nTs s k = false := by
          intro k hk
          have := hp k hk
          rw [propNow, (h0 k).2, Bool.and_true, Bool.or_eq_false_iff, Bool.or_eq_false_iff] at this
          exact this.1
        have e1 : ∀ a, genStep S a
            (genNow s (propNow s (fwdNow S.nTs s) (ontoNow S.nTs s))) s = s := fun a =>
          forRange_inv (P := fun _ u => u = s) rfl (fun k u hk hu => by rw [hg k hk]; simpa using hu)
        have e2 : propStep S (propNow s (fwdNow S.nTs s) (ontoNow S.nTs s)) s = s :=
          forRange_inv (P := fun _ u => u = s) rfl (fun k u hk hu => by rw [hp k hk]; simpa using hu)
        have e3 : fwdStep S (fwdNow S.nTs s) s = s :=
          forRange_inv (P := fun _ u => u = s) rfl
            (fun k u hk hu => by rw [(hfo k hk).1]; simpa using hu)
        have e4 : ontoStep S (ontoNow S.nTs s) s = s :=
          forDown_inv (P := fun _ u => u = s) rfl
            (fun k u hk hu => by rw [(hfo k hk).2]; simpa using hu)
        rw [e1, e2, e3, e4] at h
        exact h.symm
      refine ih (step Host.present S s op) ?_
      cases op with
      | update new =>
        simp only [step, compareAmps]
        split
        · exact ⟨fun k => by simp [(h0 k).1, (h0 k).2], h1, h2, h3, h4⟩
        · exact ⟨h0, h1, h2, h3, h4⟩
      | flagAll => exact ⟨h0, h1, h2, h3, h4⟩
      | choose c => exact ⟨h0, h1, h2, h3, h4⟩
      | slot =>
        simp only [step]
        rw [fidSlot_frame]
        exact ⟨h0, h1, h2, h3, h4⟩
      | recompute =>
        simp only [step]
        cases hr : recompute Host.present S s with
        | mk t r => rcases hrec _ _ hr with h | h <;> rw [h] <;> exact ⟨h0, h1, h2, h3, h4⟩
      | compute =>
        simp only [step, computeEvolution]
        split
        · exact ⟨h0, h1, h2, h3, h4⟩
        · cases hr : recompute Host.present S s with
          | mk t r =>
            cases r with
            | error e => rcases hrec _ _ hr with h | h <;> rw [h] <;> exact ⟨h0, h1, h2, h3, h4⟩
            | ok u => rcases hrec _ _ hr with h | h <;> rw [h] <;> exact ⟨h0, h1, h2, h3, h4⟩
  exact (key ops (initComp S junk) ⟨fun _ => ⟨rfl, rfl⟩, rfl, rfl, rfl, rfl⟩).2

/-! ### the hypotheses are met -/

/-- A history with two changes, a slot choice and partial markings. -/
def demoOps : List UOp :=
  [.update fun _ _ => 1, .slot, .compute, .update fun k _ => if k = 1 then 2 else 1,
   .choose ⟨fun _ => false, fun _ => false, fun k => k == 2, fun _ => false⟩, .recompute]

example (junk : UState (Fin 2) (Fin 2)) :
    ∃ t, recompute Host.complete (demoSys .unitary .frechet)
      (run Host.complete (demoSys .unitary .frechet)
        (initComp (demoSys .unitary .frechet) junk) demoOps) = (t, .ok ()) :=
  let ⟨t, h, _⟩ := C34_marked_partial (demoSys_valid .unitary .frechet) junk demoOps
    (fun k _ => if k = 1 then 2 else 1) rfl
  ⟨t, h⟩

/-- After the history the full evolution is that of the last amplitudes. -/
example (junk : UState (Fin 2) (Fin 2)) :
    (run Host.complete (demoSys .unitary .frechet) (initComp (demoSys .unitary .frechet) junk)
      (demoOps ++ [.choose ⟨fun _ => true, fun _ => true, fun _ => true, fun _ => true⟩,
        .recompute])).fwd 2 =
    Spec.evolution (demoSys .unitary .frechet) (fun k _ => if k = 1 then 2 else 1) 0 2 * 1 :=
  ((C34_all_marked (demoSys_valid .unitary .frechet) junk demoOps
    (fun k _ => if k = 1 then 2 else 1) rfl).2 2 le_rfl).1

/-- Right after a change of amplitudes the evolution is not current, so the overlap
theorem applies. -/
example (junk : UState (Fin 2) (Fin 2)) :
    (prenorm Host.complete (demoSys .unitary .frechet)
      (run Host.complete (demoSys .unitary .frechet)
        (initComp (demoSys .unitary .frechet) junk) [.update fun _ _ => 1])).2 =
    .ok (Spec.overlap (demoSys .unitary .frechet) fun _ _ => 1) := by
  refine C34_overlap_partial (demoSys_valid .unitary .frechet) junk _ _ rfl ?_
  exact congrArg UState.evoCurrent
    (first_update (demoSys_valid .unitary .frechet) junk fun _ _ => 1)

end QTrl.DynUpdate
