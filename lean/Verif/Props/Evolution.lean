import Verif.Proofs.Counting

/-
C03 (time-ordered products), C04 (slot independence of the overlap), C05 (caching
is transparent) and C06 (no needless work, exact statistics) for the model in
`Verif/Model/Dynamics.lean`.

Every theorem is about an arbitrary history `ops` of operations after
`initialize_controls(a0)` on an object in an arbitrary earlier state `s0`, with
arbitrary placeholders `junk` in the freshly allocated containers.
-/

set_option linter.unusedSectionVars false

namespace QTrl.Dyn

open QTrl.Spec

variable {d m D : Type} [Fintype d] [DecidableEq d] [Fintype m] [DecidableEq m]

/-- The amplitudes supplied last in a history that starts with `a0`. -/
def lastAmps (a0 : Amps) : List Op → Amps
  | [] => a0
  | .updateAmps a :: ops => lastAmps a ops
  | .reinit a :: ops => lastAmps a ops
  | _ :: ops => lastAmps a0 ops

theorem foldl_nextAmps (a0 : Amps) (ops : List Op) :
    ops.foldl nextAmps (some a0) = some (lastAmps a0 ops) := by
  induction ops generalizing a0 with
  | nil => rfl
  | cons op ops ih => cases op <;> simp only [List.foldl, nextAmps, lastAmps, ih]

/-- The state after a history on an initialised object. -/
noncomputable def reached (S : Sys d m D) (junk s0 : State d m D) (a0 : Amps) (ops : List Op) :
    State d m D :=
  (run S junk (initControls S junk s0 a0) ops).1

/-- The outputs of a history on an initialised object. -/
noncomputable def outputs (S : Sys d m D) (junk s0 : State d m D) (a0 : Amps) (ops : List Op) :
    List Out :=
  (run S junk (initControls S junk s0 a0) ops).2

theorem reached_inv {S : Sys d m D} (hn : Valid S)
    (junk s0 : State d m D) (a0 : Amps) (ops : List Op) :
    Inv S (reached S junk s0 a0 ops) ∧ ∃ b, (reached S junk s0 a0 ops).ctrlAmps = some b ∧
      SameAmps S b (lastAmps a0 ops) := by
  obtain ⟨h1, h2⟩ := initControls_inv S junk s0 a0
  obtain ⟨_, h4, h5⟩ := run_spec hn junk ops h1 (A := some a0) h2
  rw [foldl_nextAmps] at h5
  exact ⟨h4, h5⟩

/-- **C03.** After any history followed by `compute_evolution`, the propagators
are those of the generators `drift + Σ amps·ctrl` at the amplitudes supplied
last; forward, onward and onto evolution are the time-ordered products of these
propagators (later slots to the left). -/
theorem C03_time_ordered {S : Sys d m D} (hn : Valid S)
    (junk s0 : State d m D) (a0 : Amps) (ops : List Op) :
    let amps := lastAmps a0 ops
    let t := (computeEvolution S (reached S junk s0 a0 ops)).1
    (∀ k, k < S.nTs → t.dynGen k =
      S.drift k + ∑ j ∈ Finset.range S.nCtrls, (amps k j : ℂ) • S.ctrl k j) ∧
    (∀ k, k < S.nTs → t.prop k = propagator S amps k) ∧
    (∀ k, k ≤ S.nTs → t.fwd k = timeOrdered t.prop 0 k * S.initial) ∧
    (S.fidKind = .traceDiff → ∀ k, k < S.nTs → t.onwd k = timeOrdered t.prop k S.nTs) ∧
    (S.fidKind = .unitary → ∀ k, k ≤ S.nTs →
      t.onto k = S.ontoTarget * timeOrdered t.prop k S.nTs) := by
  intro amps t
  obtain ⟨hi, b, hb, hs⟩ := reached_inv hn junk s0 a0 ops
  obtain ⟨r, t', e, it, at', et, ot⟩ := computeEvolution_some hn hi hb
  have ht : t = t' := by simp only [t, e]
  rw [ht]
  have hev : ∀ lo hi, hi ≤ S.nTs → evolution S b lo hi = timeOrdered t'.prop lo hi :=
    fun lo hi h => timeOrdered_congr fun k _ hk => (ot.prop k (by omega)).symm
  refine ⟨fun k hk => ?_, fun k hk => ?_, fun k hk => ?_, fun h k hk => ?_, fun h k hk => ?_⟩
  · rw [ot.gen.dynGen k hk, generator_congr hs hk]; rfl
  · rw [ot.prop k hk, propagator_congr hs hk]
  · rw [ot.fwd k hk, hev 0 k hk]
  · rw [ot.onwd (by simp [usesOnwd, h]) k hk, hev k _ (Nat.le_refl _)]
  · rw [ot.onto (by simp [usesOnto, h]) k hk, hev k _ (Nat.le_refl _)]

/-- What "time-ordered" means: the product over an empty interval is the
identity and each later slot multiplies from the left. -/
theorem C03_order (p : Nat → Matrix d d ℂ) (lo hi : Nat) (h : lo ≤ hi) :
    timeOrdered p lo lo = 1 ∧ timeOrdered p lo (hi + 1) = p hi * timeOrdered p lo hi :=
  ⟨timeOrdered_self p lo, timeOrdered_succ p h⟩

/-- **C04.** The operator `onto[k] · fwd[k]` is the same in every slot `k`:
target form times the full evolution of the initial object. -/
theorem C04_overlap_slot_independent {S : Sys d m D} (hn : Valid S)
    (hu : S.fidKind = .unitary) (junk s0 : State d m D) (a0 : Amps) (ops : List Op) :
    let t := (computeEvolution S (reached S junk s0 a0 ops)).1
    ∀ k, k ≤ S.nTs → t.onto k * t.fwd k = S.ontoTarget * t.fwd S.nTs := by
  intro t k hk
  obtain ⟨_, _, h3, _, h5⟩ := C03_time_ordered hn junk s0 a0 ops
  rw [h5 hu k hk, h3 k hk, h3 _ (Nat.le_refl _), ← timeOrdered_mul _ (Nat.zero_le k) hk]
  simp only [Matrix.mul_assoc]

/-- **C05.** In every history each query returns exactly what the stateless
specification says for the amplitudes supplied last. -/
theorem C05_caching_transparent {S : Sys d m D} (hn : Valid S)
    (junk s0 : State d m D) (a0 : Amps) (ops : List Op) :
    outputs S junk s0 a0 ops = answers S (some a0) ops := by
  obtain ⟨h1, h2⟩ := initControls_inv S junk s0 a0
  exact (run_spec hn junk ops h1 (A := some a0) h2).1

/-- **C05**, operational form: a query after any history returns what the same
query returns on an object freshly initialised with the amplitudes supplied last,
whatever the histories and placeholders of both objects. -/
theorem C05_as_fresh {S : Sys d m D} (hn : Valid S)
    (junk junk' s0 s1 : State d m D) (a0 : Amps) (ops : List Op) (op : Op) :
    (step S junk (reached S junk s0 a0 ops) op).2 =
      (step S junk' (initControls S junk' s1 (lastAmps a0 ops)) op).2 := by
  obtain ⟨hi, hb⟩ := reached_inv hn junk s0 a0 ops
  obtain ⟨hi', hb'⟩ := initControls_inv S junk' s1 (lastAmps a0 ops)
  rw [(step_spec hn junk hi (A := some (lastAmps a0 ops)) hb op).1,
    (step_spec hn junk' hi' (A := some (lastAmps a0 ops)) hb' op).1]

/-- **C06.** The statistics after any history are what the counting specification
predicts: work is done exactly when it is needed and has not been done since the
last real change of the amplitudes. -/
theorem C06_exact_statistics {S : Sys d m D} (hn : Valid S)
    (junk s0 : State d m D) (a0 : Amps) (ops : List Op) :
    tally (reached S junk s0 a0 ops) =
      (tally (initControls S junk s0 a0)).plus (expected S a0 {} ops) := by
  obtain ⟨h1, b, h2, h3⟩ := initControls_inv S junk s0 a0
  refine run_tally hn junk ops h1 h2 h3 ?_
  unfold initControls
  rw [compareAmps_none (by rfl)]
  exact KnownOK_fresh S _

/-- **C06.** Submitting amplitudes equal to the stored ones changes nothing at
all, from any reachable state. -/
theorem C06_unchanged_is_noop {S : Sys d m D} (hn : Valid S)
    (junk s0 : State d m D) (a0 : Amps) (ops : List Op) (a : Amps)
    (h : ∀ k j, k < S.nTs → j < S.nCtrls → a k j = lastAmps a0 ops k j) :
    (step S junk (reached S junk s0 a0 ops) (.updateAmps a)).1 = reached S junk s0 a0 ops := by
  obtain ⟨hi, b, hb, hs⟩ := reached_inv hn junk s0 a0 ops
  show (compareAmps S _ a).1 = _
  rw [compareAmps_same hb ((numChanged_eq_zero S b a).2
    fun k j hk hj => (hs k j hk hj).trans (h k j hk hj).symm)]

/-- **C06.** After a query that needs the evolution, further queries (any number)
never recompute it. -/
theorem C06_recompute_once {S : Sys d m D} (hn : Valid S)
    (junk s0 : State d m D) (a0 : Amps) (ops : List Op) (qs : List Op)
    (hq : ∀ op ∈ qs, op = .computeEvolution ∨ op = .getFidelity ∨ op = .getFidErr ∨
      op = .getGradient) :
    (reached S junk s0 a0 (ops ++ .computeEvolution :: qs)).numRecompute =
      (reached S junk s0 a0 (ops ++ [.computeEvolution])).numRecompute := by
  have happ : ∀ (l1 l2 : List Op) (s : State d m D),
      (run S junk s (l1 ++ l2)).1 = (run S junk (run S junk s l1).1 l2).1 := by
    intro l1 l2
    induction l1 with
    | nil => intro s; rfl
    | cons o l1 ih => intro s; exact ih _
  have hsplit : ops ++ .computeEvolution :: qs = (ops ++ [.computeEvolution]) ++ qs := by simp
  rw [hsplit]
  unfold reached
  rw [happ _ qs]
  have hcur : (reached S junk s0 a0 (ops ++ [.computeEvolution])).evoCurrent = true := by
    unfold reached
    rw [happ ops]
    obtain ⟨hi, b, hb, _⟩ := reached_inv hn junk s0 a0 ops
    obtain ⟨r, t, e, _, _, et, _⟩ := computeEvolution_some hn hi hb
    have : (run S junk (reached S junk s0 a0 ops) [.computeEvolution]).1 = t := by
      simp only [run, step, e]
    unfold reached at this
    rw [this]; exact et
  obtain ⟨hi, b, hb, hsame⟩ := reached_inv hn junk s0 a0 (ops ++ [.computeEvolution])
  clear hsame
  unfold reached at hi hb hcur
  generalize (run S junk (initControls S junk s0 a0) (ops ++ [.computeEvolution])).1 = s at *
  clear hsplit
  induction qs generalizing s b with
  | nil => rfl
  | cons q qs ih =>
    have hqq : IsQuery q := by
      rcases hq q (List.mem_cons_self ..) with h | h | h | h <;> subst h <;> trivial
    have hv := step_query_view hn junk hi hb q hqq
    obtain ⟨_, hi', hb'⟩ := step_spec hn junk hi (A := some b)
      ⟨b, hb, fun _ _ _ _ => rfl⟩ q
    have hnext : nextAmps (some b) q = some b := by
      rcases hq q (List.mem_cons_self ..) with h | h | h | h <;> subst h <;> rfl
    rw [hnext] at hb'
    obtain ⟨b', hb', _⟩ := hb'
    have key : ((view s).query S q).evo = true ∧
        ((view s).query S q).tally.recomputes = (view s).tally.recomputes := by
      have hc : (view s).evo = true := hcur
      generalize view s = v at hc ⊢
      obtain ⟨evo, pre, fid, grad, t⟩ := v
      simp only at hc
      subst hc
      rcases hq q (List.mem_cons_self ..) with h | h | h | h <;> subst h <;>
        cases hk : S.fidKind <;> by_cases hx : S.propKind = .approx <;> cases hno : normOK S <;>
        cases pre <;> cases fid <;> cases grad <;>
        simp [View.query, hk, View.addEvo, View.addPre, View.addFid, View.addGradU, View.addErrTD,
          View.addGradTD, hx, hno, charge]
    rw [← hv] at key
    have := ih (fun op h => hq op (List.mem_cons_of_mem _ h)) b' (step S junk s q).1 key.1 hi' hb'
    show (run S junk (step S junk s q).1 qs).1.numRecompute = _
    rw [this]
    exact key.2

/-! ### Non-vacuity -/

/-- A two-slot, one-control qubit system to which the theorems apply. -/
noncomputable def demoSys (f : FidKind) (p : PropKind) : Sys (Fin 2) (Fin 2) (Matrix (Fin 2) (Fin 2) ℂ) where
  nTs := 2
  nCtrls := 1
  drift _ := 1
  ctrl _ _ := !![0, 1; 1, 0]
  tau _ := 1 / 2
  phase := some fun A => -Complex.I • A
  initial := 1
  target := !![0, 1; 1, 0]
  ontoTarget := !![0, 1; 1, 0]
  isQobj := false
  cachePhased := true
  phasedCtrl _ _ := -Complex.I • !![0, 1; 1, 0]
  cachePropGrad := true
  propKind := p
  fidKind := f
  phaseOpt := .PSU
  dimNorm := 2
  scale := 1 / 4
  expm A := 1 + A
  frechet _ E := E
  decompose A t := (t : ℂ) • A
  diagProp A := 1 + A
  diagGrad _ E t := (t : ℂ) • E

theorem demoSys_valid (f : FidKind) (p : PropKind) : Valid (demoSys f p) := by
  refine ⟨by simp [demoSys], by simp [demoSys], ?_⟩
  intro ph hph _ k j
  simp only [demoSys, Option.some.injEq] at hph
  subst hph
  rfl

/-- In this history the evolution is recomputed twice (for `[1, 1]` and `[2, 2]`), although
there are five queries and three updates, one of which changes nothing. -/
example (junk s0 : State (Fin 2) (Fin 2) (Matrix (Fin 2) (Fin 2) ℂ)) :
    (reached (demoSys .unitary .frechet) junk s0 (fun _ _ => 1)
      [.getFidErr, .getGradient, .updateAmps fun _ _ => 1, .computeEvolution,
       .updateAmps fun _ _ => 2, .getGradient, .getFidelity]).numRecompute =
    s0.numRecompute + 2 := by
  have h := C06_exact_statistics (demoSys_valid .unitary .frechet) junk s0 (fun _ _ => 1)
      [.getFidErr, .getGradient, .updateAmps fun _ _ => 1, .computeEvolution,
       .updateAmps fun _ _ => 2, .getGradient, .getFidelity]
  have h' := congrArg Tally.recomputes h
  have e1 : changedAmps (demoSys .unitary .frechet) (fun _ _ => 1) (fun _ _ => 1) = 0 := by
    simp [changedAmps]
  have e2 : changedAmps (demoSys .unitary .frechet) (fun _ _ => 1) (fun _ _ => 2) = 2 := by
    simp [changedAmps, demoSys]
  simp only [tally, expected, e1, e2, Tally.plus, charge, needsEvo] at h'
  rw [h']
  unfold initControls
  rw [compareAmps_none (by rfl)]
  simp [flagSystemChanged, initEvo, demoSys]

end QTrl.Dyn
