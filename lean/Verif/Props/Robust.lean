import Verif.Proofs.Robust
import Verif.Props.Motion
import Verif.Spec.SaveAmps

/-
C74: small deviations of the pulse and of the system change the reported evolution and error by
little.
-/

set_option linter.unusedSectionVars false

open Matrix

namespace QTrl.Dyn

open QTrl.Spec QTrl.Opt

variable {d m : Type} [Fintype d] [DecidableEq d] [Fintype m] [DecidableEq m]

/-- The Hamiltonian in a slot under a pulse. -/
noncomputable def hamiltonian (c : UnitaryCfg d m) (amps : Amps) (k : Nat) : Matrix d d ℂ :=
  c.drift k + ∑ j ∈ Finset.range c.nCtrls, (amps k j : ℂ) • c.ctrl k j

/-- The same task: the same number of slots, initial and target objects and the same measure of
the error.  Drift, controls and durations may differ. -/
structure SameTask (c c' : UnitaryCfg d m) : Prop where
  slots : c'.nTs = c.nTs
  initial : c'.initial = c.initial
  target : c'.target = c.target
  fidKind : c'.fidKind = c.fidKind
  phaseOpt : c'.phaseOpt = c.phaseOpt
  scale : c'.scaleFactor = c.scaleFactor

/-- The factor by which the error may change faster than the evolution: one for the unitary
measure. -/
noncomputable def slack (c : UnitaryCfg d m) : ℝ :=
  match c.fidKind with
  | .unitary => 1
  | .traceDiff => |c.scaleFactor.getD (1 / (2 * Fintype.card d))| * (2 * Fintype.card m)

/-- The forward evolution after a history. -/
noncomputable def forward (c : UnitaryCfg d m) (junk s0 : State d m (Decomp d)) (a0 : Amps)
    (ops : List Op) (k : Nat) : Matrix d m ℂ :=
  (computeEvolution c.sys (reached c.sys junk s0 a0 ops)).1.fwd k

theorem skew_of_hermitian {H : Matrix d d ℂ} (h : H.IsHermitian) :
    (-Complex.I • H)ᴴ = -(-Complex.I • H) := by
  rw [Matrix.conjTranspose_smul, h.eq]
  simp

theorem hamiltonian_eq (c : UnitaryCfg d m) (amps : Amps) (k : Nat) :
    generator c.sys amps k = hamiltonian c amps k := by
  simp only [generator, sys_drift, sys_ctrl, sys_nCtrls]
  rfl

theorem hamiltonian_hermitian {c : UnitaryCfg d m} (hc : Closed c) (amps : Amps) {k : Nat}
    (hk : k < c.nTs) : (hamiltonian c amps k).IsHermitian := by
  rw [← hamiltonian_eq]
  exact generator_hermitian hc amps hk

theorem forward_eq {c : UnitaryCfg d m} (hc : Closed c) (junk s0 : State d m (Decomp d)) (a0 : Amps)
    (ops : List Op) {k : Nat} (hk : k ≤ c.nTs) : forward c junk s0 a0 ops k =
      timeOrdered (fun i => NormedSpace.exp
        ((c.tau i : ℂ) • (-Complex.I • hamiltonian c (lastAmps a0 ops) i))) 0 k * c.initial := by
  obtain ⟨-, h2, h3, -, -⟩ := C03_time_ordered hc.valid junk s0 a0 ops
  simp only [sys_nTs, sys_initial] at h2 h3
  unfold forward
  rw [h3 k hk]
  congr 1
  refine timeOrdered_congr fun i _ hi => ?_
  rw [h2 i (by omega), propagator_exp hc _ (by omega), hamiltonian_eq]

theorem forward_isometry {c : UnitaryCfg d m} (hc : Closed c) (hi : c.initialᴴ * c.initial = 1)
    (junk s0 : State d m (Decomp d)) (a0 : Amps) (ops : List Op) {k : Nat} (hk : k ≤ c.nTs) :
    (forward c junk s0 a0 ops k)ᴴ * forward c junk s0 a0 ops k = 1 := by
  rw [forward_eq hc junk s0 a0 ops hk, isometry_of_unitary, hi]
  exact timeOrdered_unitary (Nat.zero_le k) fun i _ h =>
    exp_skew_unitary (skew_real_smul (skew_of_hermitian (hamiltonian_hermitian hc _ (by omega))) _)

/-- The reported error is that of the final evolution. -/
theorem reports_closedErr {c : UnitaryCfg d m} [Nonempty m] (hc : Closed c) (hi : Normalised c)
    (hq : c.fidKind = .unitary → c.phaseOpt = .SU → c.isQobj = true)
    (junk s0 : State d m (Decomp d)) (a0 : Amps) (ops : List Op) :
    query c.sys junk s0 a0 ops .getFidErr =
      .real (closedErr c (forward c junk s0 a0 ops c.nTs)) := by
  have hF : forward c junk s0 a0 ops c.nTs = final c.sys (lastAmps a0 ops) := by
    rw [← finalObj_eq hc.valid junk s0 a0 ops]
    unfold finalObj forward
    simp
  rw [hF, query_eq hc.valid]
  simp only [answer, fidErr, closedErr, sys_fidKind]
  cases hk : c.fidKind with
  | traceDiff =>
    simp only [frobSq_re, sys_scale, sys_target, Out.ofReal]
    cases c.scaleFactor <;> rfl
  | unitary =>
    have hq' : c.sys.phaseOpt = .SU → c.sys.isQobj = true := by simpa using hq hk
    have hle := abs_le.1 (fidNum_le_one hc hi (lastAmps a0 ops))
    simp only [fidelity_eq_fidNum hq', Except.map, Out.ofReal]
    rw [abs_of_nonneg (by linarith [hle.2])]
    unfold fidNum
    rw [dimNorm_eq hi.target, overlap_sys]
    simp only [sys_phaseOpt]
    cases c.phaseOpt <;> rfl

/-- The error changes no faster than the evolution. -/
theorem closedErr_near {c : UnitaryCfg d m} [Nonempty m] (ht : c.targetᴴ * c.target = 1)
    {X Y : Matrix d m ℂ} (hX : Xᴴ * X = 1) (hY : Yᴴ * Y = 1) :
    |closedErr c X - closedErr c Y| ≤ slack c * opNorm (X - Y) := by
  have hpos : (0 : ℝ) < Fintype.card m := card_pos' (m := m)
  have ho : ‖(c.targetᴴ * X).trace - (c.targetᴴ * Y).trace‖ ≤ Fintype.card m * opNorm (X - Y) := by
    rw [← Matrix.trace_sub, ← Matrix.mul_sub]
    refine (norm_trace_le _).trans (mul_le_mul_of_nonneg_left ?_ hpos.le)
    refine (opNorm_mul _ _).trans ?_
    rw [opNorm_conjTranspose]
    have := opNorm_isometry ht
    nlinarith [opNorm_nonneg (X - Y)]
  have hre : |(c.targetᴴ * X).trace.re - (c.targetᴴ * Y).trace.re| ≤
      Fintype.card m * opNorm (X - Y) := by
    rw [← Complex.sub_re]
    exact (Complex.abs_re_le_norm _).trans ho
  unfold closedErr slack
  cases c.fidKind with
  | unitary =>
    cases c.phaseOpt with
    | PSU =>
      simp only [one_mul]
      rw [sub_sub_sub_cancel_left, ← sub_div, abs_div, abs_of_pos hpos, div_le_iff₀ hpos,
        abs_sub_comm]
      exact (abs_norm_sub_norm_le _ _).trans (ho.trans (le_of_eq (mul_comm _ _)))
    | SU =>
      simp only [one_mul]
      rw [sub_sub_sub_cancel_left, ← sub_div, abs_div, abs_of_pos hpos, div_le_iff₀ hpos,
        abs_sub_comm]
      exact hre.trans (le_of_eq (mul_comm _ _))
  | traceDiff =>
    have e : ∀ Z : Matrix d m ℂ, Zᴴ * Z = 1 → ∑ i, ∑ j, ‖c.target i j - Z i j‖ ^ 2 =
        2 * (Fintype.card m : ℝ) - 2 * (c.targetᴴ * Z).trace.re := by
      intro Z hZ
      have h := frobSq_sub hZ ht 1 (by simp)
      simp only [one_smul, map_one, one_mul] at h
      rw [← h]
      unfold frobSq
      exact Finset.sum_congr rfl fun i _ => Finset.sum_congr rfl fun j _ => by
        rw [Matrix.sub_apply, norm_sub_rev]
    simp only [e X hX, e Y hY]
    rw [← mul_sub, abs_mul, mul_assoc]
    refine mul_le_mul_of_nonneg_left ?_ (abs_nonneg _)
    rw [sub_sub_sub_cancel_left, ← mul_sub, abs_mul, abs_sub_comm, abs_two, mul_assoc]
    exact mul_le_mul_of_nonneg_left hre zero_le_two

theorem slack_nonneg (c : UnitaryCfg d m) : 0 ≤ slack c := by
  unfold slack
  cases c.fidKind <;> positivity

/-- The factor is one for gates also with the trace difference and the default scale factor. -/
theorem slack_gate (c : UnitaryCfg d d) [Nonempty d] (hs : c.scaleFactor = none) : slack c = 1 := by
  unfold slack
  cases c.fidKind with
  | unitary => rfl
  | traceDiff =>
    have hpos : (0 : ℝ) < Fintype.card d := card_pos' (m := d)
    simp only [hs, Option.getD_none]
    rw [abs_of_pos (by positivity)]
    field_simp

/-- **C74.** Two closed systems with the same number of slots and the same initial object, after any
two histories: at the beginning of each slot and at the end the forward evolutions are no further
apart than the Hamiltonians times durations of the slots before are together. -/
theorem C74_evolution {c c' : UnitaryCfg d m} (hc : Closed c) (hc' : Closed c')
    (hs : SameTask c c') (hi : c.initialᴴ * c.initial = 1)
    (junk s0 junk' s0' : State d m (Decomp d)) (a0 a0' : Amps) (ops ops' : List Op) :
    ∀ k, k ≤ c.nTs → opNorm (forward c junk s0 a0 ops k - forward c' junk' s0' a0' ops' k) ≤
      ∑ i ∈ Finset.range k, opNorm ((c.tau i : ℂ) • hamiltonian c (lastAmps a0 ops) i -
        (c'.tau i : ℂ) • hamiltonian c' (lastAmps a0' ops') i) := by
  intro k hk
  rw [forward_eq hc junk s0 a0 ops hk, forward_eq hc' junk' s0' a0' ops' (by rw [hs.slots]; exact hk),
    hs.initial, ← Matrix.sub_mul]
  have h1 : ∀ i, i < k → ((c.tau i : ℂ) • (-Complex.I • hamiltonian c (lastAmps a0 ops) i))ᴴ =
      -((c.tau i : ℂ) • (-Complex.I • hamiltonian c (lastAmps a0 ops) i)) := fun i hik =>
    skew_real_smul (skew_of_hermitian (hamiltonian_hermitian hc _ (by omega))) _
  have h2 : ∀ i, i < k → ((c'.tau i : ℂ) • (-Complex.I • hamiltonian c' (lastAmps a0' ops') i))ᴴ =
      -((c'.tau i : ℂ) • (-Complex.I • hamiltonian c' (lastAmps a0' ops') i)) := fun i hik =>
    skew_real_smul (skew_of_hermitian (hamiltonian_hermitian hc' _ (by have := hs.slots; omega))) _
  refine (opNorm_mul_isometry hi _).trans ((timeOrdered_near (fun i hik => exp_skew_unitary (h1 i hik))
    fun i hik => exp_skew_unitary (h2 i hik)).trans (Finset.sum_le_sum fun i hir => ?_))
  have hik := Finset.mem_range.1 hir
  refine (exp_sub_le (h1 i hik) (h2 i hik)).trans (le_of_eq ?_)
  rw [smul_comm (c.tau i : ℂ), smul_comm (c'.tau i : ℂ), ← smul_sub, opNorm_smul]
  simp

/-- **C74.** Both report an error, and the errors are no further apart than that, up to the factor of
the measure. -/
theorem C74_error {c c' : UnitaryCfg d m} [Nonempty m] (hc : Closed c) (hc' : Closed c')
    (hs : SameTask c c') (hi : Normalised c)
    (hq : c.fidKind = .unitary → c.phaseOpt = .SU → c.isQobj = true ∧ c'.isQobj = true)
    (junk s0 junk' s0' : State d m (Decomp d)) (a0 a0' : Amps) (ops ops' : List Op) :
    ∃ e e', query c.sys junk s0 a0 ops .getFidErr = .real e ∧
      query c'.sys junk' s0' a0' ops' .getFidErr = .real e' ∧
      |e - e'| ≤ slack c *
        ∑ i ∈ Finset.range c.nTs, opNorm ((c.tau i : ℂ) • hamiltonian c (lastAmps a0 ops) i -
          (c'.tau i : ℂ) • hamiltonian c' (lastAmps a0' ops') i) := by
  have hi' : Normalised c' := ⟨by rw [hs.initial]; exact hi.initial, by rw [hs.target]; exact hi.target⟩
  refine ⟨_, _, reports_closedErr hc hi (fun h1 h2 => (hq h1 h2).1) junk s0 a0 ops,
    reports_closedErr hc' hi' (fun h1 h2 => (hq (hs.fidKind ▸ h1) (hs.phaseOpt ▸ h2)).2) junk' s0' a0'
      ops', ?_⟩
  have e : ∀ X, closedErr c' X = closedErr c X := fun X => by
    unfold closedErr
    rw [hs.fidKind, hs.phaseOpt, hs.scale, hs.target]
  rw [e, hs.slots]
  refine (closedErr_near hi.target (forward_isometry hc hi.initial junk s0 a0 ops le_rfl)
    (forward_isometry hc' hi'.initial junk' s0' a0' ops' (le_of_eq hs.slots.symm))).trans ?_
  exact mul_le_mul_of_nonneg_left
    (C74_evolution hc hc' hs hi.initial junk s0 junk' s0' a0 a0' ops ops' c.nTs le_rfl) (slack_nonneg c)

theorem SameTask.refl (c : UnitaryCfg d m) : SameTask c c := ⟨rfl, rfl, rfl, rfl, rfl, rfl⟩

/-- What changes of amplitudes amount to. -/
theorem amps_budget (c : UnitaryCfg d m) (a a' : Amps) (i : Nat) :
    opNorm ((c.tau i : ℂ) • hamiltonian c a i - (c.tau i : ℂ) • hamiltonian c a' i) ≤
      |c.tau i| * ∑ j ∈ Finset.range c.nCtrls, |a i j - a' i j| * opNorm (c.ctrl i j) := by
  rw [← smul_sub, opNorm_smul, Complex.norm_real, Real.norm_eq_abs]
  refine mul_le_mul_of_nonneg_left ?_ (abs_nonneg _)
  unfold hamiltonian
  rw [add_sub_add_left_eq_sub, ← Finset.sum_sub_distrib]
  refine (opNorm_sum _ _).trans (Finset.sum_le_sum fun j _ => ?_)
  rw [← sub_smul, opNorm_smul, ← Complex.ofReal_sub, Complex.norm_real, Real.norm_eq_abs]

/-- **C74.** One system, two pulses: the reported errors differ by no more than the durations times
the differences of the amplitudes times the strengths of the controls, however strong the drift. -/
theorem C74_amps {c : UnitaryCfg d m} [Nonempty m] (hc : Closed c) (hi : Normalised c)
    (hq : c.fidKind = .unitary → c.phaseOpt = .SU → c.isQobj = true)
    (junk s0 junk' s0' : State d m (Decomp d)) (a0 a0' : Amps) (ops ops' : List Op) :
    ∃ e e', query c.sys junk s0 a0 ops .getFidErr = .real e ∧
      query c.sys junk' s0' a0' ops' .getFidErr = .real e' ∧
      |e - e'| ≤ slack c * ∑ i ∈ Finset.range c.nTs, |c.tau i| *
        ∑ j ∈ Finset.range c.nCtrls,
          |lastAmps a0 ops i j - lastAmps a0' ops' i j| * opNorm (c.ctrl i j) := by
  obtain ⟨e, e', h1, h2, h3⟩ := C74_error hc hc (SameTask.refl c) hi
    (fun x y => ⟨hq x y, hq x y⟩) junk s0 junk' s0' a0 a0' ops ops'
  exact ⟨e, e', h1, h2, h3.trans (mul_le_mul_of_nonneg_left
    (Finset.sum_le_sum fun i _ => amps_budget c _ _ i) (slack_nonneg c))⟩

/-- **C74.** Amplitudes read back from a file to which they were saved: the error reported for them
differs by no more than five millionths of the durations times the amplitudes times the strengths of
the controls. -/
theorem C74_saved {c : UnitaryCfg d m} [Nonempty m] (hc : Closed c) (hi : Normalised c)
    (hq : c.fidKind = .unitary → c.phaseOpt = .SU → c.isQobj = true)
    (junk s0 junk' s0' : State d m (Decomp d)) (a0 a0' : Amps) (ops ops' : List Op)
    (rows file : List (List ℝ)) (hf : Save.Holds file rows)
    (ha : ∀ k j, k < c.nTs → j < c.nCtrls → (rows[k]?.bind (·[j]?)) = some (lastAmps a0 ops k j))
    (hb : ∀ k j, k < c.nTs → j < c.nCtrls → (file[k]?.bind (·[j]?)) = some (lastAmps a0' ops' k j)) :
    ∃ e e', query c.sys junk s0 a0 ops .getFidErr = .real e ∧
      query c.sys junk' s0' a0' ops' .getFidErr = .real e' ∧
      |e - e'| ≤ slack c * (5 / 1000000 * ∑ i ∈ Finset.range c.nTs, |c.tau i| *
        ∑ j ∈ Finset.range c.nCtrls, |lastAmps a0 ops i j| * opNorm (c.ctrl i j)) := by
  obtain ⟨e, e', h1, h2, h3⟩ := C74_amps hc hi hq junk s0 junk' s0' a0 a0' ops ops'
  refine ⟨e, e', h1, h2, h3.trans (mul_le_mul_of_nonneg_left ?_ (slack_nonneg c))⟩
  rw [Finset.mul_sum]
  refine Finset.sum_le_sum fun i hir => ?_
  rw [mul_left_comm]
  refine mul_le_mul_of_nonneg_left ?_ (abs_nonneg (c.tau i))
  rw [Finset.mul_sum]
  refine Finset.sum_le_sum fun j hjr => ?_
  rw [← mul_assoc]
  refine mul_le_mul_of_nonneg_right ?_ (opNorm_nonneg _)
  have hik := Finset.mem_range.1 hir
  have hjk := Finset.mem_range.1 hjr
  have ea := ha i j hik hjk
  have eb := hb i j hik hjk
  obtain ⟨ra, hra, ea⟩ := Option.bind_eq_some_iff.1 ea
  obtain ⟨rb, hrb, eb⟩ := Option.bind_eq_some_iff.1 eb
  obtain ⟨la, hra⟩ := List.getElem?_eq_some_iff.1 hra
  obtain ⟨lb, hrb⟩ := List.getElem?_eq_some_iff.1 hrb
  have hn := hf.2 i lb la
  rw [hra, hrb] at hn
  obtain ⟨ja, ea⟩ := List.getElem?_eq_some_iff.1 ea
  obtain ⟨jb, eb⟩ := List.getElem?_eq_some_iff.1 eb
  have hnear : Save.Near (rb[j]) (ra[j]) := (List.forall₂_iff_get.1 hn).2 j jb ja
  rw [ea, eb] at hnear
  rw [abs_sub_comm]
  exact hnear

/-- **C74.** The apparatus: whatever Hamiltonian `H t` acts on it, if in each slot it differs from the
one of the slot by no more than `δ k`, then at the beginning of each slot and at the end the true
object is no further from the reported one than the sum of the durations times `δ`, and the reported
error is within that of the true one, up to the factor of the measure. -/
theorem C74_apparatus {c : UnitaryCfg d m} [Nonempty m] (hc : Closed c) (hi : Normalised c)
    (hq : c.fidKind = .unitary → c.phaseOpt = .SU → c.isQobj = true)
    (hτ : ∀ k, k < c.nTs → 0 ≤ c.tau k)
    (junk s0 : State d m (Decomp d)) (a0 : Amps) (ops : List Op)
    (H : ℝ → Matrix d d ℂ) (hH : ∀ t, (H t).IsHermitian) (δ : Nat → ℝ)
    (hδ : ∀ k, k < c.nTs → ∀ t ∈ Set.Icc (slotTime c.tau k) (slotTime c.tau (k + 1)),
      opNorm (H t - hamiltonian c (lastAmps a0 ops) k) ≤ δ k)
    (X : ℝ → Matrix d m ℂ)
    (hX : Driven (slotTime c.tau c.nTs) (fun t => -Complex.I • H t) c.initial X) :
    (∀ k, k ≤ c.nTs → opNorm (X (slotTime c.tau k) - forward c junk s0 a0 ops k) ≤
      ∑ i ∈ Finset.range k, c.tau i * δ i) ∧
    ∃ e, query c.sys junk s0 a0 ops .getFidErr = .real e ∧
      |closedErr c (X (slotTime c.tau c.nTs)) - e| ≤
        slack c * ∑ i ∈ Finset.range c.nTs, c.tau i * δ i := by
  have hev : ∀ k, k ≤ c.nTs → opNorm (X (slotTime c.tau k) - forward c junk s0 a0 ops k) ≤
      ∑ i ∈ Finset.range k, c.tau i * δ i := by
    intro k hk
    rw [forward_eq hc junk s0 a0 ops hk]
    refine driven_near hτ hX (fun t _ => skew_of_hermitian (hH t))
      (fun i hik => skew_of_hermitian (hamiltonian_hermitian hc _ hik)) hi.initial ?_ hk
    intro i hik t ht
    rw [← smul_sub, opNorm_smul]
    simpa using hδ i hik t ht
  refine ⟨hev, _, reports_closedErr hc hi hq junk s0 a0 ops, ?_⟩
  have hT : 0 ≤ slotTime c.tau c.nTs := by
    have := slotTime_le hτ (Nat.zero_le c.nTs) le_rfl
    simpa [slotTime] using this
  have hiso := isometry_of_motion (fun t _ => skew_of_hermitian (hH t)) hX.deriv
    (by rw [hX.start, hi.initial]) _ ⟨hT, le_rfl⟩
  exact (closedErr_near hi.target hiso (forward_isometry hc hi.initial junk s0 a0 ops le_rfl)).trans
    (mul_le_mul_of_nonneg_left (hev c.nTs le_rfl) (slack_nonneg c))

/-- Non-vacuity: two qubits of different level splitting, control strength and slot duration. -/
example (junk s0 junk' s0' : State (Fin 2) (Fin 2) (Decomp (Fin 2))) (a0 a0' : Amps)
    (ops ops' : List Op) :
    let c := qubit 3 !![1, 0; 0, -1] !![0, 1; 1, 0] 1 .unitary .PSU
    let c' := { qubit 3 !![2, 0; 0, -1] !![0, 3; 3, 0] 1 .unitary .PSU with tau := fun _ => 1 / 3 }
    ∃ e e', query c.sys junk s0 a0 ops .getFidErr = .real e ∧
      query c'.sys junk' s0' a0' ops' .getFidErr = .real e' ∧
      |e - e'| ≤ 1 *
        ∑ i ∈ Finset.range 3, opNorm ((c.tau i : ℂ) • hamiltonian c (lastAmps a0 ops) i -
          (c'.tau i : ℂ) • hamiltonian c' (lastAmps a0' ops') i) := by
  intro c c'
  have h1 : ∀ x y : ℝ, (!![(x : ℂ), 0; 0, (y : ℂ)] : Matrix (Fin 2) (Fin 2) ℂ).IsHermitian := by
    intro x y
    ext i j
    fin_cases i <;> fin_cases j <;> simp
  have h2 : ∀ x : ℝ, (!![0, (x : ℂ); (x : ℂ), 0] : Matrix (Fin 2) (Fin 2) ℂ).IsHermitian := by
    intro x
    ext i j
    fin_cases i <;> fin_cases j <;> simp
  have hc : Closed c := qubit_closed (by norm_num) (by simpa using h1 1 (-1)) (by simpa using h2 1) _ _
  have hb : Closed (qubit 3 !![2, 0; 0, -1] !![0, 3; 3, 0] 1 .unitary .PSU) :=
    qubit_closed (by norm_num) (by simpa using h1 2 (-1)) (by simpa using h2 3) _ _
  have hc' : Closed c' := ⟨hb.slots, hb.ctrls, hb.drift, hb.ctrl, hb.eigh⟩
  exact C74_error hc hc' ⟨rfl, rfl, rfl, rfl, rfl, rfl⟩ (qubit_normalised (by simp) _ _)
    (fun _ h => by cases h) junk s0 junk' s0' a0 a0' ops ops'

end QTrl.Dyn
