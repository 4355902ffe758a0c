import Verif.Proofs.Kinds
import Verif.Props.Symmetry
import Verif.Props.Symplectic
import Mathlib.Analysis.InnerProductSpace.Calculus
import Mathlib.LinearAlgebra.Matrix.NonsingularInverse

/-
C72: one control problem written for different kinds of dynamics.
-/

set_option linter.unusedSectionVars false

open Matrix

namespace QTrl.Dyn

open QTrl.Spec QTrl.MatExp

variable {d m n p : Type} [Fintype d] [DecidableEq d] [Fintype m] [DecidableEq m]
  [Fintype n] [DecidableEq n] [Fintype p] [DecidableEq p]

/-! ### Generators -/

theorem onto_eq {g : GeneralCfg d m} (hi : InvertsTarget g) (ht : g.targetᴴ * g.target = 1) :
    g.onto = g.targetᴴ := by
  unfold GeneralCfg.onto
  split
  · rename_i hcard
    have h1 := hi hcard
    have h2 : g.target * g.targetᴴ = 1 :=
      (Matrix.mul_eq_one_comm_of_card_eq _ _ _ hcard.symm).1 ht
    calc g.inv g.target = g.inv g.target * (g.target * g.targetᴴ) := by rw [h2, Matrix.mul_one]
      _ = g.targetᴴ := by rw [← Matrix.mul_assoc, h1, Matrix.one_mul]
  · rfl

section Generators
variable {c : UnitaryCfg d m} {g : GeneralCfg d m} {a a' : Amps}

theorem gens_generator (h : AsGenerators c g) (ha : AmpsAgree c a a') {k : Nat} (hk : k < c.nTs) :
    generator g.sys a' k = -Complex.I • generator c.sys a k := by
  show g.drift k + ∑ j ∈ Finset.range g.nCtrls, (a' k j : ℂ) • g.ctrl k j = _
  unfold generator
  simp only [sys_drift, sys_ctrl, sys_nCtrls]
  rw [smul_add, Finset.smul_sum, h.drift k hk, h.nCtrls]
  congr 1
  refine Finset.sum_congr rfl fun j hj => ?_
  have hj := Finset.mem_range.1 hj
  rw [h.ctrl k j hk hj, ha k j hk hj, smul_comm]

theorem gens_rest (h : AsGenerators c g) (hi : c.fidKind = .unitary → InvertsTarget g)
    (ht : c.fidKind = .unitary → c.targetᴴ * c.target = 1) : SameRest c.sys g.sys where
  nTs := h.nTs.trans (sys_nTs c).symm
  nCtrls := h.nCtrls.trans (sys_nCtrls c).symm
  initial := h.initial.trans (sys_initial c).symm
  target := h.target.trans (sys_target c).symm
  fidKind := h.fidKind.trans (sys_fidKind c).symm
  unitary hu := by
    rw [sys_fidKind] at hu
    refine ⟨?_, ?_, h.phaseOpt.trans (sys_phaseOpt c).symm, h.isQobj.trans (sys_isQobj c).symm⟩
    · rw [sys_onto, ← h.target]
      exact onto_eq (hi hu) (by rw [h.target]; exact ht hu)
    · rw [sys_dimNorm, ← h.target, ← h.phaseOpt]
      rfl
  traceDiff _ := by
    rw [sys_scale, ← h.scaleFactor]
    rfl

end Generators

/-- **C72.** A closed problem written with Hamiltonians for unitary dynamics and with the generators
`-iH` for general dynamics: whatever was done with the two objects before, with the same amplitudes
they report the same evolution, fidelity, error and gradient.  For the unitary measure the target
has to be normalised and the library has to invert it. -/
theorem C72_generators {c : UnitaryCfg d m} {g : GeneralCfg d m} (hc : Closed c)
    (h : AsGenerators c g) (hi : c.fidKind = .unitary → InvertsTarget g)
    (ht : c.fidKind = .unitary → c.targetᴴ * c.target = 1)
    (junk s0 : State d m (Decomp d)) (junk' s0' : State d m Unit) (a0 a0' : Amps)
    (ops ops' : List Op) (ha : AmpsAgree c (lastAmps a0 ops) (lastAmps a0' ops')) :
    finalObj g.sys junk' s0' a0' ops' = finalObj c.sys junk s0 a0 ops ∧
    query g.sys junk' s0' a0' ops' .getFidelity = query c.sys junk s0 a0 ops .getFidelity ∧
    query g.sys junk' s0' a0' ops' .getFidErr = query c.sys junk s0 a0 ops .getFidErr ∧
    (ExactAt c (lastAmps a0 ops) → g.approx = false →
      query g.sys junk' s0' a0' ops' .getGradient = query c.sys junk s0 a0 ops .getGradient) := by
  have hv : Valid g.sys := general_valid (h.nTs ▸ hc.slots) (h.nCtrls ▸ hc.ctrls)
  have hr := gens_rest h hi ht
  have hp : ∀ k, k < c.sys.nTs → propagator g.sys (lastAmps a0' ops') k =
      propagator c.sys (lastAmps a0 ops) k := by
    intro k hk
    rw [sys_nTs] at hk
    rw [general_propagator, gens_generator h ha hk, propagator_exp hc _ hk, h.tau k hk]
  rw [finalObj_eq hc.valid, finalObj_eq hv]
  simp only [query_eq hc.valid, query_eq hv]
  obtain ⟨h1, h2⟩ := hr.answers hp
  refine ⟨hr.final hp, h1, h2, fun hx hx' => hr.gradient hp ?_ hx.ne_approx ?_⟩
  · intro k j hk hj
    rw [sys_nTs] at hk
    rw [sys_nCtrls] at hj
    rw [general_propagatorGrad, gens_generator h ha hk, propagatorGrad_dexp hc hx hk, h.tau k hk,
      h.ctrl k j hk hj]
  · show (if g.approx then PropKind.approx else .frechet) ≠ .approx
    rw [hx']
    decide

/-! ### Superoperators -/

section Super
variable {e : p ≃ m × m} {c : UnitaryCfg n m} {g : GeneralCfg (n × n) p}

theorem super_err [Nonempty m] (hc : Closed c) (hi : Normalised c) (h : AsSuperoperators e c g)
    (hp : c.phaseOpt = .PSU) (hk : g.fidKind = .traceDiff) {a a' : Amps} (ha : AmpsAgree c a a') :
    answer g.sys (some a') .getFidErr = .real (2 * g.sys.scale * (Fintype.card m : ℝ) ^ 2 *
      (1 - fidNum c.sys a ^ 2)) := by
  have hk' : g.sys.fidKind = .traceDiff := hk
  have ht : g.sys.target = (dbl c.target).submatrix id e := (doubled_iff e _ _).1 h.target
  have hpos := card_pos' (m := m)
  simp only [answer, fidErr, hk', Out.ofReal, frobSq_re]
  rw [super_final hc h ha, ht, frobSq_dbl e (final_isometry hc a hi.initial) hi.target]
  unfold fidNum
  rw [sys_phaseOpt, hp, dimNorm_eq hi.target, overlap_sys]
  congr 1
  simp only
  field_simp

theorem super_scale (hs : g.scaleFactor = none) :
    g.sys.scale = 1 / (2 * (Fintype.card n : ℝ) ^ 2) := by
  show defaultScale g.scaleFactor (Fintype.card (n × n)) = _
  rw [hs]
  simp only [defaultScale, Fintype.card_prod]
  push_cast
  ring

/-- **C72.** A closed problem written with superoperators for general dynamics: the evolution is that
of the closed problem applied from both sides, and the trace difference error is
`2 s M² (1 - f²)` with the scale factor `s`, the number `M` of columns of the closed problem and its
fidelity `f` up to a phase. -/
theorem C72_superoperators [Nonempty m] (hc : Closed c) (hi : Normalised c)
    (h : AsSuperoperators e c g) (hu : c.fidKind = .unitary) (hp : c.phaseOpt = .PSU)
    (hk : g.fidKind = .traceDiff) (junk s0 : State n m (Decomp n))
    (junk' s0' : State (n × n) p Unit) (a0 a0' : Amps) (ops ops' : List Op)
    (ha : AmpsAgree c (lastAmps a0 ops) (lastAmps a0' ops')) :
    Doubled e (finalObj c.sys junk s0 a0 ops) (finalObj g.sys junk' s0' a0' ops') ∧
    ∃ f, query c.sys junk s0 a0 ops .getFidelity = .real f ∧
      query g.sys junk' s0' a0' ops' .getFidErr =
        .real (2 * g.sys.scale * (Fintype.card m : ℝ) ^ 2 * (1 - f ^ 2)) := by
  have hv : Valid g.sys := general_valid (h.nTs ▸ hc.slots) (h.nCtrls ▸ hc.ctrls)
  have hq : c.sys.phaseOpt = .SU → c.sys.isQobj = true := by simp [hp]
  rw [finalObj_eq hc.valid, finalObj_eq hv]
  simp only [query_eq hc.valid, query_eq hv]
  refine ⟨(doubled_iff e _ _).2 (super_final hc h ha), fidNum c.sys (lastAmps a0 ops), ?_,
    super_err hc hi h hp hk ha⟩
  simp only [answer, sys_fidKind, hu, fidelity_eq_fidNum hq, Out.ofReal]

/-- **C72.** The same for the gradients: that of the problem with superoperators is
`4 s M² f` times that of the closed problem, also where the fidelity is zero. -/
theorem C72_superoperators_gradient [Nonempty m] (hc : Closed c) (hi : Normalised c)
    (h : AsSuperoperators e c g) (hu : c.fidKind = .unitary) (hp : c.phaseOpt = .PSU)
    (hk : g.fidKind = .traceDiff) (hx' : g.approx = false) (junk s0 : State n m (Decomp n))
    (junk' s0' : State (n × n) p Unit) (a0 a0' : Amps) (ops ops' : List Op)
    (hx : ExactAt c (lastAmps a0 ops))
    (ha : AmpsAgree c (lastAmps a0 ops) (lastAmps a0' ops')) :
    ∃ f G G', query c.sys junk s0 a0 ops .getFidelity = .real f ∧
      query c.sys junk s0 a0 ops .getGradient = .array G ∧
      query g.sys junk' s0' a0' ops' .getGradient = .array G' ∧
      ∀ k j, k < c.nTs → j < c.nCtrls →
        G' k j = 4 * g.sys.scale * (Fintype.card m : ℝ) ^ 2 * f * G k j := by
  have hv : Valid g.sys := general_valid (h.nTs ▸ hc.slots) (h.nCtrls ▸ hc.ctrls)
  have hq : c.sys.phaseOpt = .SU → c.sys.isQobj = true := by simp [hp]
  have hu' : c.sys.fidKind = .unitary := by simpa using hu
  have hpos := card_pos' (m := m)
  set a := lastAmps a0 ops with hadef
  set a' := lastAmps a0' ops' with hadef'
  have hfid : query c.sys junk s0 a0 ops .getFidelity = .real (fidNum c.sys a) := by
    rw [query_eq hc.valid]
    simp only [answer, hu', fidelity_eq_fidNum hq, Out.ofReal, ← hadef]
  obtain ⟨err', G', hR', hG', hD'⟩ := C13_gradient_is_derivative hv hk
    (show (if g.approx then PropKind.approx else .frechet) ≠ .approx by rw [hx']; decide)
    junk' s0' a0' ops' (general_exact g _)
  have herr' : ∀ b b', AmpsAgree c b b' → err' b' = 2 * g.sys.scale * (Fintype.card m : ℝ) ^ 2 *
      (1 - fidNum c.sys b ^ 2) := by
    intro b b' hb
    have h1 := hR' b'
    rw [query_eq hv, lastAmps_update, super_err hc hi h hp hk hb] at h1
    exact (Out.real.inj h1).symm
  have hcurve : ∀ k j, k < c.nTs → j < c.nCtrls → HasDerivAt (fun u => 2 * g.sys.scale *
      (Fintype.card m : ℝ) ^ 2 * (1 - fidNum c.sys (setAmp a k j u) ^ 2)) (G' k j) (a k j) := by
    intro k j hk1 hj1
    have h1 := hD' k j (by rw [show g.sys.nTs = c.nTs from h.nTs]; exact hk1)
      (by rw [show g.sys.nCtrls = c.nCtrls from h.nCtrls]; exact hj1)
    rw [← hadef', ha k j hk1 hj1] at h1
    convert h1 using 1
    ext u
    refine (herr' _ _ fun k' j' hk' hj' => ?_).symm
    unfold setAmp
    split
    · rfl
    · exact ha k' j' hk' hj'
  by_cases h0 : overlap c.sys a = 0
  · have hf0 : fidNum c.sys a = 0 := by
      unfold fidNum
      rw [sys_phaseOpt, hp, h0]
      simp
    obtain ⟨G, hG⟩ : ∃ G, query c.sys junk s0 a0 ops .getGradient = .array G := by
      rw [query_eq hc.valid]
      simp only [answer, gradient, hu', fidelity_eq_fidNum hq, Except.map, if_neg hx.ne_approx,
        Out.ofArray]
      exact ⟨_, rfl⟩
    refine ⟨_, G, G', hfid, hG, hG', fun k j hk1 hj1 => ?_⟩
    rw [hf0, mul_zero, zero_mul]
    refine (hcurve k j hk1 hj1).unique ?_
    have h1 := (overlap_deriv (hc.exactPropGrad hx) (k := k) (j := j) (by simpa using hk1)
      (by simpa using hj1)).norm_sq
    rw [setAmp_self, h0, inner_zero_left, mul_zero] at h1
    have h2 := ((h1.div_const ((Fintype.card m : ℝ) ^ 2)).const_sub 1).const_mul
      (2 * g.sys.scale * (Fintype.card m : ℝ) ^ 2)
    rw [zero_div, neg_zero, mul_zero] at h2
    refine h2.congr_of_eventuallyEq (.of_forall fun u => ?_)
    simp only
    unfold fidNum
    rw [sys_phaseOpt, hp, dimNorm_eq hi.target]
    simp only [div_pow]
  · have hne : query c.sys junk s0 a0 ops .getFidelity ≠ .real 0 := by
      rw [hfid]
      intro hf
      have hf := Out.real.inj hf
      unfold fidNum at hf
      rw [sys_phaseOpt, hp, dimNorm_eq hi.target] at hf
      simp only at hf
      rcases div_eq_zero_iff.1 hf with hf | hf
      · exact h0 (norm_eq_zero.1 hf)
      · exact hpos.ne' hf
    obtain ⟨err, G, hR, hG, hD⟩ := C12_unitary hc hi hu (by simp [hp]) junk s0 a0 ops hx
      (fun _ => hne)
    have herr : ∀ b, err b = 1 - fidNum c.sys b := by
      intro b
      have h1 := hR b
      rw [query_eq hc.valid, lastAmps_update] at h1
      simp only [answer, fidErr, hu', fidelity_eq_fidNum hq, Except.map, Out.ofReal] at h1
      rw [← Out.real.inj h1, abs_of_nonneg (by linarith [(abs_le.1 (fidNum_le_one hc hi b)).2])]
    refine ⟨_, G, G', hfid, hG, hG', fun k j hk1 hj1 => ?_⟩
    refine (hcurve k j hk1 hj1).unique ?_
    have h1 := hD k j (by simpa using hk1) (by simpa using hj1)
    rw [← hadef] at h1
    have h2 : HasDerivAt (fun u => fidNum c.sys (setAmp a k j u)) (-G k j) (a k j) := by
      have h3 := h1.const_sub 1
      refine h3.congr_of_eventuallyEq (.of_forall fun u => ?_)
      simp only [herr]
      ring
    have h4 := ((h2.pow 2).const_sub 1).const_mul (2 * g.sys.scale * (Fintype.card m : ℝ) ^ 2)
    refine h4.congr_deriv ?_
    rw [setAmp_self]
    push_cast
    ring

end Super

/-- **C72.** Gates with the default scale factor: the error of the problem with superoperators is
`1 - (1 - e)²` for the error `e` of the closed problem, and its gradient is `2 (1 - e)` times the
other. -/
theorem C72_gates [Nonempty n] {c : UnitaryCfg n n} {g : GeneralCfg (n × n) (n × n)}
    (hc : Closed c) (hi : Normalised c) (h : AsSuperoperators (Equiv.refl _) c g)
    (hu : c.fidKind = .unitary) (hp : c.phaseOpt = .PSU) (hk : g.fidKind = .traceDiff)
    (hs : g.scaleFactor = none) (junk s0 : State n n (Decomp n))
    (junk' s0' : State (n × n) (n × n) Unit) (a0 a0' : Amps) (ops ops' : List Op)
    (ha : AmpsAgree c (lastAmps a0 ops) (lastAmps a0' ops')) :
    (∀ ρ, act (finalObj g.sys junk' s0' a0' ops') ρ = finalObj c.sys junk s0 a0 ops * ρ *
      (finalObj c.sys junk s0 a0 ops)ᴴ) ∧
    ∃ err, query c.sys junk s0 a0 ops .getFidErr = .real err ∧
      query g.sys junk' s0' a0' ops' .getFidErr = .real (1 - (1 - err) ^ 2) ∧
      (ExactAt c (lastAmps a0 ops) → g.approx = false → ∃ G G',
        query c.sys junk s0 a0 ops .getGradient = .array G ∧
        query g.sys junk' s0' a0' ops' .getGradient = .array G' ∧
        ∀ k j, k < c.nTs → j < c.nCtrls → G' k j = 2 * (1 - err) * G k j) := by
  obtain ⟨h1, f, h2, h3⟩ := C72_superoperators hc hi h hu hp hk junk s0 junk' s0' a0 a0' ops ops' ha
  obtain ⟨f', err, h4, h5, -, -, -, -, h6, -⟩ := C09_range hc hi hu (by simp [hp]) junk s0 a0 ops
  have hf : f' = f := Out.real.inj (h4.symm.trans h2)
  have hN : (Fintype.card n : ℝ) ≠ 0 := (card_pos' (m := n)).ne'
  have hf' : 1 - err = f := by rw [h6, hf]; ring
  refine ⟨fun ρ => ?_, err, h5, ?_, fun hx hx' => ?_⟩
  · rw [(doubled_iff _ _ _).1 h1]
    exact act_sandwich _ ρ
  · rw [h3, super_scale hs, hf']
    congr 1
    field_simp
  · obtain ⟨f'', G, G', k1, k2, k3, k4⟩ := C72_superoperators_gradient hc hi h hu hp hk hx' junk s0
      junk' s0' a0 a0' ops ops' hx ha
    have hf'' : f'' = f := Out.real.inj (k1.symm.trans h2)
    refine ⟨G, G', k2, k3, fun k j hk1 hj1 => ?_⟩
    rw [k4 k j hk1 hj1, super_scale hs, hf', hf'']
    field_simp
    ring

/-- **C72.** State transfer with the default scale factor: the density matrix is that of the state
vector, and the error is `1 - (1 - e)²` over the number of entries of the density matrix. -/
theorem C72_states [Nonempty n] {c : UnitaryCfg n Unit} {g : GeneralCfg (n × n) Unit}
    (hc : Closed c) (hi : Normalised c)
    (h : AsSuperoperators (Equiv.punitProd Unit).symm c g)
    (hu : c.fidKind = .unitary) (hp : c.phaseOpt = .PSU) (hk : g.fidKind = .traceDiff)
    (hs : g.scaleFactor = none) (junk s0 : State n Unit (Decomp n))
    (junk' s0' : State (n × n) Unit Unit) (a0 a0' : Amps) (ops ops' : List Op)
    (ha : AmpsAgree c (lastAmps a0 ops) (lastAmps a0' ops')) :
    unvec (finalObj g.sys junk' s0' a0' ops') () =
      finalObj c.sys junk s0 a0 ops * (finalObj c.sys junk s0 a0 ops)ᴴ ∧
    ∃ err, query c.sys junk s0 a0 ops .getFidErr = .real err ∧
      query g.sys junk' s0' a0' ops' .getFidErr =
        .real ((1 - (1 - err) ^ 2) / (Fintype.card n : ℝ) ^ 2) ∧
      (ExactAt c (lastAmps a0 ops) → g.approx = false → ∃ G G',
        query c.sys junk s0 a0 ops .getGradient = .array G ∧
        query g.sys junk' s0' a0' ops' .getGradient = .array G' ∧
        ∀ k j, k < c.nTs → j < c.nCtrls →
          G' k j = 2 * (1 - err) * G k j / (Fintype.card n : ℝ) ^ 2) := by
  obtain ⟨h1, f, h2, h3⟩ := C72_superoperators hc hi h hu hp hk junk s0 junk' s0' a0 a0' ops ops' ha
  obtain ⟨f', err, h4, h5, -, -, -, -, h6, -⟩ := C09_range hc hi hu (by simp [hp]) junk s0 a0 ops
  have hf : f' = f := Out.real.inj (h4.symm.trans h2)
  have hN : (Fintype.card n : ℝ) ≠ 0 := (card_pos' (m := n)).ne'
  have hf' : 1 - err = f := by rw [h6, hf]; ring
  refine ⟨?_, err, h5, ?_, fun hx hx' => ?_⟩
  · rw [h1 ()]
    ext i j
    simp [vecMulVec_apply, Matrix.mul_apply]
  · rw [h3, super_scale hs, hf']
    congr 1
    simp only [Fintype.card_unit, Nat.cast_one]
    field_simp
  · obtain ⟨f'', G, G', k1, k2, k3, k4⟩ := C72_superoperators_gradient hc hi h hu hp hk hx' junk s0
      junk' s0' a0 a0' ops ops' hx ha
    have hf'' : f'' = f := Out.real.inj (k1.symm.trans h2)
    refine ⟨G, G', k2, k3, fun k j hk1 hj1 => ?_⟩
    rw [k4 k j hk1 hj1, super_scale hs, hf', hf'']
    simp only [Fintype.card_unit, Nat.cast_one]
    field_simp
    ring

/-! ### Quadratic forms -/

theorem flow_add {n : Nat} (pre : Bool) (A B : Matrix (Fin (2 * n)) (Fin (2 * n)) ℂ) :
    flow pre (A + B) = flow pre A + flow pre B := by
  unfold flow
  split
  · rw [Matrix.mul_add]
  · rw [Matrix.add_mul]

theorem flow_smul {n : Nat} (pre : Bool) (z : ℂ) (A : Matrix (Fin (2 * n)) (Fin (2 * n)) ℂ) :
    flow pre (z • A) = z • flow pre A := by
  unfold flow
  split
  · rw [Matrix.mul_smul]
  · rw [Matrix.smul_mul]

theorem flow_sum {n : Nat} (pre : Bool) (s : Finset Nat)
    (f : Nat → Matrix (Fin (2 * n)) (Fin (2 * n)) ℂ) :
    flow pre (∑ i ∈ s, f i) = ∑ i ∈ s, flow pre (f i) := by
  induction s using Finset.induction_on with
  | empty => simp [flow]
  | insert a s ha ih => rw [Finset.sum_insert ha, Finset.sum_insert ha, flow_add, ih]

theorem sympl_phase {n : Nat} {c : Sympl.Cfg n m} (pre : Bool)
    (hph : c.phaseOps = if pre then [.setApp "preop"] else []) :
    c.sys.phase = some (flow pre) := by
  obtain ⟨pc, e⟩ := Sympl.sys_eq c
  rw [e, hph]
  have l1 : pyLower "preop" = "preop" := by decide
  have l2 : pyLower "postop" = "postop" := by decide
  cases pre <;>
    simp [Sympl.phaseRun, Sympl.phaseStep, Sympl.initPhase, Sympl.readPhase, Sympl.setPhaseApp,
      Sympl.getDynGenPhase, Sympl.configPhase, Sympl.PhaseState.fresh, Sympl.PhaseState.phase, l1,
      l2, Sympl.omega_eq_stdForm] <;>
    (funext A; simp [flow])

/-- **C72.** A symplectic problem written with quadratic forms `A` and with generators for general
dynamics, `-A Ω` for the phase application a new object has and `Ω A` for `"preop"`: whatever was
done with the two objects before, with the same amplitudes they report the same evolution, error
and gradient. -/
theorem C72_symplectic {n : Nat} {c : Sympl.Cfg n m} {g : GeneralCfg (Fin (2 * n)) m}
    (h1 : 0 < c.nTs) (h2 : 0 < c.nCtrls) (pre : Bool)
    (hph : c.phaseOps = if pre then [.setApp "preop"] else []) (h : AsFlow pre c g)
    (hx : g.approx = false) (junk s0 : State (Fin (2 * n)) m (Decomp (Fin (2 * n))))
    (junk' s0' : State (Fin (2 * n)) m Unit) (a0 a0' : Amps) (ops ops' : List Op)
    (ha : ∀ k j, k < c.nTs → j < c.nCtrls → lastAmps a0' ops' k j = lastAmps a0 ops k j) :
    finalObj g.sys junk' s0' a0' ops' = finalObj c.sys junk s0 a0 ops ∧
    query g.sys junk' s0' a0' ops' .getFidErr = query c.sys junk s0 a0 ops .getFidErr ∧
    query g.sys junk' s0' a0' ops' .getGradient = query c.sys junk s0 a0 ops .getGradient := by
  have hvg : Valid g.sys := general_valid (h.nTs ▸ h1) (h.nCtrls ▸ h2)
  have hvc : Valid c.sys := initSys_valid h1 h2
  obtain ⟨pc, e⟩ := Sympl.sys_eq c
  have hphase := sympl_phase pre hph
  have hnT : c.sys.nTs = c.nTs := by rw [e]
  have hnC : c.sys.nCtrls = c.nCtrls := by rw [e]
  have hgen : ∀ k, k < c.nTs → generator g.sys (lastAmps a0' ops') k =
      flow pre (generator c.sys (lastAmps a0 ops) k) := by
    intro k hk
    show g.drift k + ∑ j ∈ Finset.range g.nCtrls, (lastAmps a0' ops' k j : ℂ) • g.ctrl k j = _
    unfold generator
    rw [hnC, flow_add, flow_sum, h.drift k hk, h.nCtrls, e]
    congr 1
    refine Finset.sum_congr rfl fun j hj => ?_
    have hj := Finset.mem_range.1 hj
    rw [h.ctrl k j hk hj, ha k j hk hj, flow_smul]
  have hr : SameRest c.sys g.sys := by
    refine ⟨h.nTs.trans hnT.symm, h.nCtrls.trans hnC.symm, ?_, ?_, ?_, ?_, ?_⟩
    · rw [e]; exact h.initial
    · rw [e]; exact h.target
    · rw [e]; exact h.fidKind
    · intro hu; rw [e] at hu; simp at hu
    · intro _
      rw [e]
      show defaultScale g.scaleFactor (Fintype.card (Fin (2 * n))) = _
      rw [h.scaleFactor, Fintype.card_fin]
  have hp : ∀ k, k < c.sys.nTs → propagator g.sys (lastAmps a0' ops') k =
      propagator c.sys (lastAmps a0 ops) k := by
    intro k hk
    rw [hnT] at hk
    rw [general_propagator, hgen k hk, h.tau k hk]
    unfold propagator phased
    rw [hphase, e]
    rfl
  have hg : ∀ k j, k < c.sys.nTs → j < c.sys.nCtrls → propagatorGrad g.sys (lastAmps a0' ops') k j =
      propagatorGrad c.sys (lastAmps a0 ops) k j := by
    intro k j hk hj
    rw [hnT] at hk
    rw [hnC] at hj
    rw [general_propagatorGrad, hgen k hk, h.tau k hk, h.ctrl k j hk hj]
    unfold propagatorGrad phased
    rw [hphase, e]
    rfl
  rw [finalObj_eq hvc, finalObj_eq hvg]
  simp only [query_eq hvc, query_eq hvg]
  refine ⟨hr.final hp, (hr.answers hp).2, hr.gradient hp hg ?_ ?_⟩
  · rw [e]; simp
  · show (if g.approx then PropKind.approx else .frechet) ≠ .approx
    rw [hx]
    decide

theorem sympl_propagator {n : Nat} {c : Sympl.Cfg n m} (pre : Bool)
    (hph : c.phaseOps = if pre then [.setApp "preop"] else []) (amps : Amps) (k : Nat) :
    propagator c.sys amps k = NormedSpace.exp ((c.tau k : ℂ) • flow pre (generator c.sys amps k)) := by
  have hphase := sympl_phase pre hph
  obtain ⟨pc, e⟩ := Sympl.sys_eq c
  unfold propagator phased
  rw [hphase, e]
  rfl

theorem flow_transpose {n : Nat} {A : Matrix (Fin (2 * n)) (Fin (2 * n)) ℂ} (hA : Aᵀ = A) :
    flow false A = (flow true A)ᵀ := by
  simp only [flow, Bool.false_eq_true, if_false, if_true, Matrix.transpose_mul, hA,
    Sympl.stdForm_transpose]

theorem timeOrdered_transpose (q r : Nat → Matrix d d ℂ) (n : Nat)
    (h : ∀ k, k < n → r k = (q (n - 1 - k))ᵀ) {hi : Nat} (hh : hi ≤ n) :
    timeOrdered r 0 hi = (timeOrdered q (n - hi) n)ᵀ := by
  induction hi with
  | zero => rw [timeOrdered_self, Nat.sub_zero, timeOrdered_self, Matrix.transpose_one]
  | succ hi ih =>
    rw [timeOrdered_succ _ (Nat.zero_le _), ih (by omega), h hi (by omega),
      timeOrdered_pred q (lo := n - (hi + 1)) (by omega), Matrix.transpose_mul,
      show n - (hi + 1) + 1 = n - hi by omega, show n - 1 - hi = n - (hi + 1) by omega]

theorem frobSq_transpose (A : Matrix d m ℂ) : frobSq Aᵀ = frobSq A := by
  unfold frobSq
  rw [Finset.sum_comm]
  rfl

section Transposed
variable {n : Nat} {c c' : Sympl.Cfg n (Fin (2 * n))}

theorem transposed_final (hc : SymplecticCfg c) (hpre : c.phaseOps = [.setApp "preop"])
    (hpost : c'.phaseOps = []) (h : AsTransposed c c') {a a' : Amps}
    (ha : ∀ k j, k < c.nTs → j < c.nCtrls → a' k j = a (c.nTs - 1 - k) j) :
    final c'.sys a' = (final c.sys a)ᵀ := by
  obtain ⟨pc, e⟩ := Sympl.sys_eq c
  obtain ⟨pc', e'⟩ := Sympl.sys_eq c'
  have hnT : c.sys.nTs = c.nTs := by rw [e]
  have hnT' : c'.sys.nTs = c.nTs := by rw [e']; exact h.nTs
  have hi : c.sys.initial = 1 := by rw [e]; exact h.initial.1
  have hi' : c'.sys.initial = 1 := by rw [e']; exact h.initial.2
  have hgen : ∀ k, k < c.nTs → generator c'.sys a' k = generator c.sys a (c.nTs - 1 - k) := by
    intro k hk
    unfold generator
    rw [e, e']
    simp only
    rw [h.drift k hk, h.nCtrls]
    congr 1
    refine Finset.sum_congr rfl fun j hj => ?_
    have hj := Finset.mem_range.1 hj
    rw [h.ctrl k j hk hj, ha k j hk hj]
  have hp : ∀ k, k < c.nTs → propagator c'.sys a' k = (propagator c.sys a (c.nTs - 1 - k))ᵀ := by
    intro k hk
    rw [sympl_propagator false (by simpa using hpost), sympl_propagator true (by simpa using hpre),
      hgen k hk, h.tau k hk, flow_transpose (Sympl.generator_symm hc a (by omega)),
      ← Matrix.exp_transpose, Matrix.transpose_smul]
  unfold QTrl.Spec.final evolution
  rw [hnT, hnT', hi, hi', Matrix.mul_one, Matrix.mul_one, timeOrdered_transpose _ _ c.nTs hp le_rfl,
    Nat.sub_self]

/-- **C72.** What the two phase applications of symplectic dynamics have to do with each other: the
gate problem with `"preop"` is, with the slots in reverse order and the target transposed, the
problem with the `"postop"` of a new object.  The evolutions are transposed to each other, the errors
are equal and the gradients are in reverse order. -/
theorem C72_applications (hc : SymplecticCfg c) (hc' : SymplecticCfg c')
    (hpre : c.phaseOps = [.setApp "preop"]) (hpost : c'.phaseOps = []) (h : AsTransposed c c')
    (junk s0 junk' s0' : State _ _ _) (a0 a0' : Amps) (ops ops' : List Op)
    (ha : ∀ k j, k < c.nTs → j < c.nCtrls →
      lastAmps a0' ops' k j = lastAmps a0 ops (c.nTs - 1 - k) j) :
    finalObj c'.sys junk' s0' a0' ops' = (finalObj c.sys junk s0 a0 ops)ᵀ ∧
    query c'.sys junk' s0' a0' ops' .getFidErr = query c.sys junk s0 a0 ops .getFidErr ∧
    ∃ G G', query c.sys junk s0 a0 ops .getGradient = .array G ∧
      query c'.sys junk' s0' a0' ops' .getGradient = .array G' ∧
      ∀ k j, k < c.nTs → j < c.nCtrls → G' k j = G (c.nTs - 1 - k) j := by
  have hv := Sympl.sys_valid hc
  have hv' := Sympl.sys_valid hc'
  obtain ⟨pc, e⟩ := Sympl.sys_eq c
  obtain ⟨pc', e'⟩ := Sympl.sys_eq c'
  have hk : c.sys.fidKind = .traceDiff := by rw [e]
  have hk' : c'.sys.fidKind = .traceDiff := by rw [e']
  have ht : c'.sys.target = c.sys.targetᵀ := by rw [e, e']; exact h.target
  have hs : c'.sys.scale = c.sys.scale := by
    rw [e, e']
    simp only
    rw [h.scaleFactor]
  have hans : ∀ b b' : Amps, (∀ k j, k < c.nTs → j < c.nCtrls → b' k j = b (c.nTs - 1 - k) j) →
      answer c'.sys (some b') .getFidErr = answer c.sys (some b) .getFidErr := by
    intro b b' hb
    simp only [answer, fidErr, hk, hk', frobSq_re]
    rw [transposed_final hc hpre hpost h hb, ht, hs, ← Matrix.transpose_sub, frobSq_transpose]
  obtain ⟨err, G, hR, hG, hD⟩ := Sympl.C13_symplectic hc junk s0 a0 ops
  obtain ⟨err', G', hR', hG', hD'⟩ := Sympl.C13_symplectic hc' junk' s0' a0' ops'
  refine ⟨?_, ?_, G, G', hG, hG', fun k j hk1 hj1 => ?_⟩
  · rw [finalObj_eq hv, finalObj_eq hv']
    exact transposed_final hc hpre hpost h ha
  · rw [query_eq hv, query_eq hv']
    exact hans _ _ ha
  · have herr : ∀ b b' : Amps, (∀ k j, k < c.nTs → j < c.nCtrls → b' k j = b (c.nTs - 1 - k) j) →
        err' b' = err b := by
      intro b b' hb
      have h1 := hR b
      have h2 := hR' b'
      rw [query_eq hv, lastAmps_update] at h1
      rw [query_eq hv', lastAmps_update, hans b b' hb, h1] at h2
      exact (Out.real.inj h2).symm
    have h1 := hD (c.nTs - 1 - k) j (by rw [e]; simp only; omega) (by rw [e]; exact hj1)
    have h2 := hD' k j (by rw [e']; simp only; rw [h.nTs]; exact hk1)
      (by rw [e']; simp only; rw [h.nCtrls]; exact hj1)
    rw [ha k j hk1 hj1] at h2
    refine h2.unique (h1.congr_of_eventuallyEq (.of_forall fun u => ?_))
    refine herr _ _ fun k' j' hk' hj' => ?_
    unfold setAmp
    by_cases hkj : k' = k ∧ j' = j
    · rw [if_pos hkj, if_pos ⟨by rw [hkj.1], hkj.2⟩]
    · rw [if_neg hkj, if_neg (by rintro ⟨h3, h4⟩; exact hkj ⟨by omega, h4⟩)]
      exact ha k' j' hk' hj'

end Transposed

/-! ### Non-vacuity -/

section Examples

/-- Any closed problem written with generators, with a library that inverts what can be inverted. -/
noncomputable def generators (c : UnitaryCfg d d) : GeneralCfg d d where
  nTs := c.nTs
  nCtrls := c.nCtrls
  drift k := -Complex.I • c.drift k
  ctrl k j := -Complex.I • c.ctrl k j
  tau := c.tau
  initial := c.initial
  target := c.target
  isQobj := c.isQobj
  cachePhased := false
  cachePropGrad := false
  approx := false
  fidKind := c.fidKind
  phaseOpt := c.phaseOpt
  scaleFactor := c.scaleFactor
  inv X := X⁻¹

/-- **C72_generators**: a qubit with three slots and any measure. -/
example (fk : FidKind) (po : PhaseOpt) (a : Amps) :
    Closed (sample 3 fk po) ∧ AsGenerators (sample 3 fk po) (generators (sample 3 fk po)) ∧
      InvertsTarget (generators (sample 3 fk po)) ∧
      (sample 3 fk po).targetᴴ * (sample 3 fk po).target = 1 ∧ ExactAt (sample 3 fk po) a ∧
      (generators (sample 3 fk po)).drift 0 ≠ (sample 3 fk po).drift 0 := by
  have ht := (sample_normalised 3 fk po).target
  refine ⟨sample_closed (by norm_num) fk po, ⟨rfl, rfl, fun _ _ => rfl, fun _ _ => rfl,
    fun _ _ _ _ => rfl, rfl, rfl, rfl, rfl, rfl, rfl⟩, fun _ => ?_, ht, Or.inl rfl, ?_⟩
  · have h1 : (sample 3 fk po).target⁻¹ = (sample 3 fk po).targetᴴ :=
      Matrix.inv_eq_left_inv ht
    change (sample 3 fk po).target⁻¹ * (sample 3 fk po).target = 1
    rw [h1, ht]
  · intro h
    have := congrArg Complex.re (congrFun (congrFun h 0) 0)
    change (-Complex.I * (1 : ℂ)).re = (1 : ℂ).re at this
    simp at this

/-- Any closed problem written with superoperators. -/
noncomputable def superoperators (e : p ≃ m × m) (c : UnitaryCfg n m) :
    GeneralCfg (n × n) p where
  nTs := c.nTs
  nCtrls := c.nCtrls
  drift k := lindbladian (c.drift k) []
  ctrl k j := lindbladian (c.ctrl k j) []
  tau := c.tau
  initial := fun x q => c.initial x.1 (e q).1 * star (c.initial x.2 (e q).2)
  target := fun x q => c.target x.1 (e q).1 * star (c.target x.2 (e q).2)
  isQobj := c.isQobj
  cachePhased := false
  cachePropGrad := false
  approx := false
  fidKind := .traceDiff
  phaseOpt := .PSU
  scaleFactor := none
  inv _ := 0

theorem superoperators_as (e : p ≃ m × m) {c : UnitaryCfg n m} (hc : Closed c) :
    AsSuperoperators e c (superoperators e c) where
  nTs := rfl
  nCtrls := rfl
  tau _ _ := rfl
  drift k hk := lindbladian_isLindblad (hc.drift k hk) []
  ctrl k j hk hj := lindbladian_isLindblad (hc.ctrl k j hk hj) []
  initial _ := rfl
  target _ := rfl

/-- **C72_superoperators**, **C72_superoperators_gradient**, **C72_gates**: the same qubit. -/
example (a : Amps) : Closed (sample 3 .unitary .PSU) ∧ Normalised (sample 3 .unitary .PSU) ∧
    AsSuperoperators (Equiv.refl _) (sample 3 .unitary .PSU)
      (superoperators (Equiv.refl _) (sample 3 .unitary .PSU)) ∧
    ExactAt (sample 3 .unitary .PSU) a :=
  ⟨sample_closed (by norm_num) _ _, sample_normalised 3 _ _,
    superoperators_as _ (sample_closed (by norm_num) _ _), Or.inl rfl⟩

/-- The qubit with the first level as initial state and the second as target. -/
noncomputable def transfer : UnitaryCfg (Fin 2) Unit :=
  { sample 3 .unitary .PSU with
    initial := Matrix.of fun i _ => if i = 0 then 1 else 0
    target := Matrix.of fun i _ => if i = 0 then 0 else 1 }

/-- **C72_states**: a transfer between the levels. -/
example (a : Amps) : Closed transfer ∧ Normalised transfer ∧
    AsSuperoperators (Equiv.punitProd Unit).symm transfer
      (superoperators (Equiv.punitProd Unit).symm transfer) ∧ ExactAt transfer a := by
  have hc : Closed transfer := ⟨by change 0 < 3; norm_num, by change 0 < 1; norm_num,
    fun _ _ => sample_drift, fun _ _ _ _ => sample_ctrl,
    (sample_closed (n := 3) (by norm_num) .unitary .PSU).eigh⟩
  refine ⟨hc, ⟨?_, ?_⟩, superoperators_as _ hc, Or.inl rfl⟩ <;>
  · ext i j
    simp [transfer, Matrix.mul_apply, Fin.sum_univ_two]

/-- The coupled oscillators written with generators. -/
noncomputable def oscillatorFlow : GeneralCfg (Fin (2 * 2)) (Fin 4) where
  nTs := 2
  nCtrls := 1
  drift k := flow true (Sympl.oscillators.drift k)
  ctrl k j := flow true (Sympl.oscillators.ctrl k j)
  tau := Sympl.oscillators.tau
  initial := 1
  target := 1
  isQobj := false
  cachePhased := true
  cachePropGrad := true
  approx := false
  fidKind := .traceDiff
  phaseOpt := .PSU
  scaleFactor := none
  inv _ := 0

/-- **C72_symplectic**: coupled oscillators. -/
example : Sympl.oscillators.phaseOps = (if true then [.setApp "preop"] else []) ∧
    AsFlow true Sympl.oscillators oscillatorFlow :=
  ⟨rfl, rfl, rfl, fun _ _ => rfl, fun _ _ => rfl, fun _ _ _ _ => rfl, rfl, rfl, rfl, rfl⟩

/-- The oscillators with the slots, which differ in duration, in reverse order and the default
phase application. -/
noncomputable def oscillatorsBack : Sympl.Cfg 2 (Fin 4) :=
  { Sympl.oscillators with
    tau := fun k => Sympl.oscillators.tau (1 - k)
    phaseOps := [] }

/-- **C72_applications**: coupled oscillators. -/
example : SymplecticCfg oscillatorsBack ∧ AsTransposed Sympl.oscillators oscillatorsBack := by
  refine ⟨⟨by decide, by decide, fun k _ => ?_, fun k j _ _ => ?_, fun v hv => ?_, ?_⟩,
    rfl, rfl, fun _ _ => rfl, fun _ _ => rfl, fun _ _ _ _ => rfl, ⟨rfl, rfl⟩, ?_, rfl⟩
  · simp [oscillatorsBack, Sympl.oscillators]
  · ext a b
    simp only [oscillatorsBack, Sympl.oscillators, Matrix.transpose_apply, Matrix.of_apply,
      Nat.add_comm]
  · simp [oscillatorsBack] at hv
  · exact (Sympl.C51_phase_partial 2 [] (by simp)).1
  · change (1 : Matrix (Fin 4) (Fin 4) ℂ) = 1ᵀ
    rw [Matrix.transpose_one]

end Examples

end QTrl.Dyn
