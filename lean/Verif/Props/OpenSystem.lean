import Verif.Proofs.OpenBounds
import Verif.Props.Fidelity

/-
C71: the evolution of an open system maps states to states.

General dynamics (`GEN_MAT`) whose drift is a Lindblad generator: all propagators and
propagations are channels, an initial state stays a state, and the error lies in a known range.
-/

set_option linter.unusedSectionVars false

open Matrix
open scoped ComplexOrder

namespace QTrl.Dyn

open QTrl.Spec

variable {n m D : Type} [Fintype n] [DecidableEq n] [Fintype m] [DecidableEq m]

theorem openSystem_generator {S : Sys (n × n) m D} {amps : Amps} (h : OpenSystem S amps) {k : Nat}
    (hk : k < S.nTs) : ∃ H Cs, IsLindblad ((S.tau k : ℂ) • generator S amps k) H Cs := by
  obtain ⟨ht, ⟨H0, Cs0, hd⟩, hc⟩ := h k hk
  have hg : ∀ N, N ≤ S.nCtrls → ∃ H Cs, IsLindblad (S.drift k +
      ∑ j ∈ Finset.range N, (amps k j : ℂ) • S.ctrl k j) H Cs := by
    intro N hN
    induction N with
    | zero => exact ⟨H0, Cs0, by simpa using hd⟩
    | succ N ih =>
      obtain ⟨H, Cs, h1⟩ := ih (by omega)
      rw [Finset.sum_range_succ, ← add_assoc]
      rcases hc N (by omega) with ⟨H', h2⟩ | ⟨hp, H', Cs', h2⟩
      · exact ⟨_, _, h1.add (h2.hamiltonian _)⟩
      · exact ⟨_, _, h1.add (h2.smul hp)⟩
  obtain ⟨H, Cs, h1⟩ := hg S.nCtrls le_rfl
  exact ⟨_, _, h1.smul ht⟩

theorem openSystem_propagator {S : Sys (n × n) m D} {amps : Amps} (h : OpenSystem S amps)
    (hp : S.propKind ≠ .diag) (he : S.expm = NormedSpace.exp) (hph : S.phase = none) {k : Nat}
    (hk : k < S.nTs) : IsChannel (propagator S amps k) := by
  obtain ⟨H, Cs, h1⟩ := openSystem_generator h hk
  unfold propagator phased
  rw [if_neg hp, he, hph]
  exact h1.channel

theorem timeOrdered_channel {P : Nat → Matrix (n × n) (n × n) ℂ} {N : Nat}
    (h : ∀ k, k < N → IsChannel (P k)) {lo hi : Nat} (hle : lo ≤ hi) (hhi : hi ≤ N) :
    IsChannel (timeOrdered P lo hi) := by
  induction hi with
  | zero =>
    have : lo = 0 := by omega
    subst this
    rw [timeOrdered_self]
    exact IsChannel.one
  | succ hi ih =>
    rcases Nat.lt_or_ge hi lo with hlt | hge
    · have : lo = hi + 1 := by omega
      subst this
      rw [timeOrdered_self]
      exact IsChannel.one
    · rw [timeOrdered_succ _ hge]
      exact (h hi (by omega)).mul (ih hge (by omega))

/-- **C71.** After any history, with a Lindblad generator as drift, Hamiltonian controls (or
Lindblad controls with amplitudes that are not negative): every propagator is a channel, and so is
every onward propagation. -/
theorem C71_channels {S : Sys (n × n) m D} (hn : Valid S) (hp : S.propKind ≠ .diag)
    (he : S.expm = NormedSpace.exp) (hph : S.phase = none)
    (junk s0 : State (n × n) m D) (a0 : Amps) (ops : List Op)
    (ho : OpenSystem S (lastAmps a0 ops)) :
    let t := (computeEvolution S (reached S junk s0 a0 ops)).1
    (∀ k, k < S.nTs → IsChannel (t.prop k)) ∧
    (S.fidKind = .traceDiff → ∀ k, k < S.nTs → IsChannel (t.onwd k)) := by
  intro t
  obtain ⟨-, h2, -, h4, -⟩ := C03_time_ordered hn junk s0 a0 ops
  have hc : ∀ k, k < S.nTs → IsChannel (t.prop k) := fun k hk => by
    rw [h2 k hk]
    exact openSystem_propagator ho hp he hph hk
  refine ⟨hc, fun hu k hk => ?_⟩
  rw [h4 hu k hk]
  exact timeOrdered_channel hc (by omega) le_rfl

/-- **C71.** An initial state stays a state: every column of the initial object that is a
vectorised density matrix is one at every time. -/
theorem C71_states {S : Sys (n × n) m D} (hn : Valid S) (hp : S.propKind ≠ .diag)
    (he : S.expm = NormedSpace.exp) (hph : S.phase = none)
    (junk s0 : State (n × n) m D) (a0 : Amps) (ops : List Op)
    (ho : OpenSystem S (lastAmps a0 ops)) (x : m) (hi : IsState (unvec S.initial x)) :
    let t := (computeEvolution S (reached S junk s0 a0 ops)).1
    ∀ k, k ≤ S.nTs → IsState (unvec (t.fwd k) x) := by
  intro t k hk
  obtain ⟨-, -, h3, -, -⟩ := C03_time_ordered hn junk s0 a0 ops
  rw [h3 k hk, unvec_mul]
  exact (timeOrdered_channel (C71_channels hn hp he hph junk s0 a0 ops ho).1
    (Nat.zero_le _) hk).state hi

/-- **C71.** An initial channel stays a channel. -/
theorem C71_initial_channel {S : Sys (n × n) (n × n) D} (hn : Valid S) (hp : S.propKind ≠ .diag)
    (he : S.expm = NormedSpace.exp) (hph : S.phase = none)
    (junk s0 : State (n × n) (n × n) D) (a0 : Amps) (ops : List Op)
    (ho : OpenSystem S (lastAmps a0 ops)) (hi : IsChannel S.initial) :
    let t := (computeEvolution S (reached S junk s0 a0 ops)).1
    ∀ k, k ≤ S.nTs → IsChannel (t.fwd k) := by
  intro t k hk
  obtain ⟨-, -, h3, -, -⟩ := C03_time_ordered hn junk s0 a0 ops
  rw [h3 k hk]
  exact (timeOrdered_channel (C71_channels hn hp he hph junk s0 a0 ops ho).1
    (Nat.zero_le _) hk).mul hi

/-- **C71.** The reported error of a transfer between states lies between zero and twice the
scale factor; with the default scale factor between zero and the inverse of the number of entries
of a density matrix. -/
theorem C71_error_states {S : Sys (n × n) Unit D} (hn : Valid S) (hp : S.propKind ≠ .diag)
    (he : S.expm = NormedSpace.exp) (hph : S.phase = none) (hu : S.fidKind = .traceDiff)
    (hs : 0 ≤ S.scale) (junk s0 : State (n × n) Unit D) (a0 : Amps) (ops : List Op)
    (ho : OpenSystem S (lastAmps a0 ops)) (hi : IsState (unvec S.initial ()))
    (ht : IsState (unvec S.target ())) :
    ∃ e, query S junk s0 a0 ops .getFidErr = .real e ∧ 0 ≤ e ∧ e ≤ 2 * S.scale ∧
      (S.scale = 1 / (2 * (Fintype.card (n × n) : ℝ)) → e ≤ 1 / (Fintype.card n : ℝ) ^ 2) := by
  obtain ⟨e, h1, h2, h3, -⟩ := C11_distance hn hu junk s0 a0 ops
  have hd : frobSq (S.target - finalObj S junk s0 a0 ops) ≤ 2 := by
    have := states_distance (X := S.target) (Y := finalObj S junk s0 a0 ops)
      (fun x => ht) (fun x => C71_states hn hp he hph junk s0 a0 ops ho x hi S.nTs le_rfl)
    simpa using this
  have he' : e = S.scale * frobSq (S.target - finalObj S junk s0 a0 ops) := h2
  have hle : e ≤ 2 * S.scale := by
    rw [he']
    nlinarith
  refine ⟨e, h1, h3 hs, hle, fun hsc => hle.trans (le_of_eq ?_)⟩
  rw [hsc, Fintype.card_prod]
  push_cast
  rw [sq, one_div, one_div, mul_inv 2, ← mul_assoc]
  norm_num

/-- **C71.** The reported error of a gate on an open system, given as a channel, lies between zero
and twice the scale factor times the number of entries of a density matrix; with the default scale
factor between zero and one. -/
theorem C71_error_channels {S : Sys (n × n) (n × n) D} [Nonempty n] (hn : Valid S)
    (hp : S.propKind ≠ .diag) (he : S.expm = NormedSpace.exp) (hph : S.phase = none)
    (hu : S.fidKind = .traceDiff) (hs : 0 ≤ S.scale) (junk s0 : State (n × n) (n × n) D)
    (a0 : Amps) (ops : List Op) (ho : OpenSystem S (lastAmps a0 ops))
    (hi : IsChannel S.initial) (ht : IsChannel S.target) :
    ∃ e, query S junk s0 a0 ops .getFidErr = .real e ∧ 0 ≤ e ∧
      e ≤ 2 * S.scale * (Fintype.card n : ℝ) ^ 2 ∧
      (S.scale = 1 / (2 * (Fintype.card (n × n) : ℝ)) → e ≤ 1) := by
  obtain ⟨e, h1, h2, h3, -⟩ := C11_distance hn hu junk s0 a0 ops
  have hd : frobSq (S.target - finalObj S junk s0 a0 ops) ≤ 2 * (Fintype.card n : ℝ) ^ 2 :=
    ht.distance (C71_initial_channel hn hp he hph junk s0 a0 ops ho hi S.nTs le_rfl)
  have he' : e = S.scale * frobSq (S.target - finalObj S junk s0 a0 ops) := h2
  have hle : e ≤ 2 * S.scale * (Fintype.card n : ℝ) ^ 2 := by
    rw [he']
    calc _ ≤ S.scale * (2 * (Fintype.card n : ℝ) ^ 2) := mul_le_mul_of_nonneg_left hd hs
      _ = _ := by ring
  refine ⟨e, h1, h3 hs, hle, fun hsc => hle.trans (le_of_eq ?_)⟩
  have hpos : (Fintype.card n : ℝ) ≠ 0 := by
    exact_mod_cast Fintype.card_ne_zero
  rw [hsc, Fintype.card_prod]
  push_cast
  field_simp

/-! ### A case -/

/-- A two-level system that decays, driven by a real Hamiltonian, in two slots; the ground state is
wanted. -/
noncomputable def decaying : Sys (Fin 2 × Fin 2) Unit Unit where
  nTs := 2
  nCtrls := 1
  drift _ := lindbladian 0 [Matrix.single 0 1 1]
  ctrl _ _ := lindbladian (Matrix.single 0 1 1 + Matrix.single 1 0 1) []
  tau _ := 1
  phase := none
  initial := fun x _ => if x = (1, 1) then 1 else 0
  target := fun x _ => if x = (0, 0) then 1 else 0
  ontoTarget := 0
  isQobj := true
  cachePhased := false
  phasedCtrl _ _ := 0
  cachePropGrad := false
  propKind := .frechet
  fidKind := .traceDiff
  phaseOpt := .PSU
  dimNorm := 1
  scale := 1 / 8
  expm := NormedSpace.exp
  frechet _ _ := 0
  decompose _ _ := ()
  diagProp _ := 1
  diagGrad _ _ _ := 0

theorem decaying_valid : Valid decaying :=
  ⟨by simp [decaying], by simp [decaying], fun ph h => by simp [decaying] at h⟩

theorem basis_state (i : Fin 2) :
    IsState (fun p q => if (p, q) = (i, i) then 1 else 0 : Matrix (Fin 2) (Fin 2) ℂ) := by
  have e : (fun p q => if (p, q) = (i, i) then 1 else 0 : Matrix (Fin 2) (Fin 2) ℂ) =
      Matrix.diagonal fun p => if p = i then 1 else 0 := by
    ext p q
    fin_cases i <;> fin_cases p <;> fin_cases q <;> simp
  constructor
  · rw [e]
    refine Matrix.PosSemidef.diagonal fun p => ?_
    by_cases h : p = i <;> simp [h]
  · rw [e]
    simp [Matrix.trace]

theorem decaying_open (amps : Amps) : OpenSystem decaying amps := by
  intro k _
  refine ⟨by simp [decaying], ⟨0, _, lindbladian_isLindblad (by simp) _⟩, fun j _ => .inl
    ⟨_, lindbladian_isLindblad ?_ _⟩⟩
  unfold Matrix.IsHermitian
  rw [Matrix.conjTranspose_add, Matrix.conjTranspose_single, Matrix.conjTranspose_single, add_comm]
  simp

/-- A case that meets the hypotheses of the theorems: any amplitudes, of either sign. -/
example (junk s0 : State (Fin 2 × Fin 2) Unit Unit) (a0 : Amps) (ops : List Op) :
    ∃ e, query decaying junk s0 a0 ops .getFidErr = .real e ∧ 0 ≤ e ∧ e ≤ 1 / 4 := by
  obtain ⟨e, h1, h2, h3, -⟩ := C71_error_states decaying_valid (by simp [decaying]) rfl rfl rfl
    (by simp [decaying]) junk s0 a0 ops (decaying_open _) (basis_state 1) (basis_state 0)
  refine ⟨e, h1, h2, h3.trans (le_of_eq ?_)⟩
  simp only [decaying]
  norm_num

/-- The same for a gate: the identity as initial channel and as target. -/
noncomputable def decayingGate : Sys (Fin 2 × Fin 2) (Fin 2 × Fin 2) Unit :=
  { decaying with
    initial := 1
    target := 1
    ontoTarget := 0 }

example (junk s0 : State (Fin 2 × Fin 2) (Fin 2 × Fin 2) Unit) (a0 : Amps) (ops : List Op) :
    ∃ e, query decayingGate junk s0 a0 ops .getFidErr = .real e ∧ 0 ≤ e ∧ e ≤ 1 := by
  obtain ⟨e, h1, h2, -, h4⟩ := C71_error_channels (S := decayingGate)
    ⟨by simp [decayingGate, decaying], by simp [decayingGate, decaying], fun ph h => by
      simp [decayingGate, decaying] at h⟩ (by simp [decayingGate, decaying]) rfl rfl rfl
    (by simp [decayingGate, decaying]) junk s0 a0 ops (decaying_open _) IsChannel.one IsChannel.one
  refine ⟨e, h1, h2, h4 ?_⟩
  simp only [decayingGate, decaying, Fintype.card_prod, Fintype.card_fin]
  norm_num

end QTrl.Dyn
