import Verif.Proofs.GenPhase
import Verif.Props.UnitCheck

/-
C61: the phase assigned to `dyn_gen_phase` of unitary dynamics, with `phase_application`
`'preop'` (the default): `P = expm(phase·dyn_gen·τ)`.
-/

set_option linter.unusedSectionVars false

open Matrix

namespace QTrl.Dyn

open QTrl.Spec QTrl.MatExp

variable {d m : Type} [Fintype d] [DecidableEq d] [Fintype m] [DecidableEq m]

/-- **C61**, the part that holds.  With every propagator computer but the diagonalising one,
after any history the propagators are the exponentials with the assigned phase, and the cached
gradients of the exact computers are their derivatives with respect to the amplitudes.
Missing: the diagonalising computer, see `C61_diag_violated`. -/
theorem C61_phase_partial {c : UnitaryCfg d m} (h1 : 0 < c.nTs) (h2 : 0 < c.nCtrls)
    (hp : c.propKind ≠ .diag) (z : ℂ) (junk s0 : State d m (Decomp d)) (a0 : Amps)
    (ops : List Op) :
    let S := c.sysPhase z
    let amps := lastAmps a0 ops
    let t := (computeEvolution S (reached S junk s0 a0 ops)).1
    let H := fun k => c.drift k + ∑ j ∈ Finset.range c.nCtrls, (amps k j : ℂ) • c.ctrl k j
    (∀ k, k < c.nTs → t.prop k = NormedSpace.exp ((c.tau k : ℂ) • z • H k)) ∧
    (c.propKind = .frechet → c.cachePropGrad = true → ∀ k j, k < c.nTs → j < c.nCtrls →
      MatDeriv (fun u : ℝ => NormedSpace.exp ((c.tau k : ℂ) • z • (H k + (u : ℂ) • c.ctrl k j)))
        (t.propGrad k j) 0) := by
  intro S amps t H
  have hv : Valid S := sysPhase_valid h1 h2 z
  have e : ∀ k, generator c.sys amps k = H k := fun k => by
    unfold generator
    rw [sys_drift, sys_nCtrls, sys_ctrl]
  have hn : S.nTs = c.nTs := by
    obtain ⟨pc, e⟩ := sysPhase_fields c z
    simp only [S, e, sys_nTs]
  have hm : S.nCtrls = c.nCtrls := by
    obtain ⟨pc, e⟩ := sysPhase_fields c z
    simp only [S, e, sys_nCtrls]
  refine ⟨fun k hk => ?_, fun hf hc k j hk hj => ?_⟩
  · rw [(C03_time_ordered hv junk s0 a0 ops).2.1 k (hn ▸ hk), sysPhase_prop c z hp, e]
  · have hg : gradExact S = true := by
      obtain ⟨pc, e⟩ := sysPhase_fields c z
      simp [S, e, gradExact, hf]
    have hc' : S.cachePropGrad = true := by
      obtain ⟨pc, e⟩ := sysPhase_fields c z
      simp [S, e, hc]
    have := evolved_grad hv hg hc' junk s0 a0 ops (hn ▸ hk) (hm ▸ hj)
    rw [this, sysPhase_grad c z hp, e]
    have := C17_aug_mat_grad ((c.tau k : ℂ) • z • H k) ((c.tau k : ℂ) • z • c.ctrl k j)
    refine Eq.subst (motive := fun F => MatDeriv F _ 0) ?_ this
    ext u : 1
    congr 1
    simp only [smul_add, smul_smul]
    congr 2
    ring

/-- **C61 violated.** With the diagonalising computer, the default of unitary dynamics, a closed
system evolves with `exp(-i·H·τ)` whatever phase is assigned; the gradients are multiplied by
`i·phase`. -/
theorem C61_diag_violated {c : UnitaryCfg d m} (hc : Closed c) (hp : c.propKind = .diag) (z : ℂ)
    (junk s0 : State d m (Decomp d)) (a0 : Amps) (ops : List Op) :
    let S := c.sysPhase z
    let amps := lastAmps a0 ops
    let t := (computeEvolution S (reached S junk s0 a0 ops)).1
    let H := fun k => c.drift k + ∑ j ∈ Finset.range c.nCtrls, (amps k j : ℂ) • c.ctrl k j
    (∀ k, k < c.nTs → t.prop k = NormedSpace.exp ((c.tau k : ℂ) • -Complex.I • H k)) ∧
    (c.cachePropGrad = true → ExactAt c amps → ∀ k j X, k < c.nTs → j < c.nCtrls →
      MatDeriv (fun u : ℝ => NormedSpace.exp ((c.tau k : ℂ) • -Complex.I •
        (H k + (u : ℂ) • c.ctrl k j))) X 0 →
      t.propGrad k j = (Complex.I * z) • X) := by
  intro S amps t H
  have hv : Valid S := sysPhase_valid hc.slots hc.ctrls z
  have e : ∀ k, generator c.sys amps k = H k := fun k => by
    unfold generator
    rw [sys_drift, sys_nCtrls, sys_ctrl]
  have hn : S.nTs = c.nTs := by
    obtain ⟨pc, e⟩ := sysPhase_fields c z
    simp only [S, e, sys_nTs]
  have hm : S.nCtrls = c.nCtrls := by
    obtain ⟨pc, e⟩ := sysPhase_fields c z
    simp only [S, e, sys_nCtrls]
  refine ⟨fun k hk => ?_, fun hcg he k j X hk hj hX => ?_⟩
  · rw [(C03_time_ordered hv junk s0 a0 ops).2.1 k (hn ▸ hk), sysPhase_prop_diag c z hp,
      propagator_exp hc _ hk, e]
  · have hg : gradExact S = true := by
      obtain ⟨pc, e⟩ := sysPhase_fields c z
      simp [S, e, gradExact, hp]
    have hc' : S.cachePropGrad = true := by
      obtain ⟨pc, e⟩ := sysPhase_fields c z
      simp [S, e, hcg]
    have h := evolved_grad hv hg hc' junk s0 a0 ops (hn ▸ hk) (hm ▸ hj)
    rw [h, sysPhase_grad_diag c z hp]
    congr 1
    rcases he with hf | ⟨_, hpr, hs⟩
    · rw [hp] at hf; cases hf
    · have := C16_diag_grad c.eigh (generator c.sys amps k) (c.ctrl k j)
        (hc.eigh _ (generator_hermitian hc amps hk)) c.prec (c.tau k) hpr (hs k hk)
      rw [e] at this
      have hu := MatDeriv.unique hX this
      rw [hu]
      unfold propagatorGrad
      rw [if_pos (by simp [hp])]
      simp only [sys_diagGrad, sys_decompose, sys_tau, phased, sys_phase, sys_ctrl]
      rw [e]

theorem checkedQubit_generator (k : Nat) :
    generator checkedQubit.sys (fun _ _ => 0) k = diagonal ![1, -1] := by
  unfold generator
  rw [sys_drift, sys_nCtrls, sys_ctrl]
  ext i j
  fin_cases i <;> fin_cases j <;> simp [checkedQubit, qubit]

/-- **C61 violated**, concretely: a qubit with `σz` drift, computed at once after the assignment
`dyn_gen_phase = 1j`, evolves forwards instead of backwards. -/
theorem C61_violated (junk s0 : State (Fin 2) (Fin 2) (Decomp (Fin 2))) :
    let S := checkedQubit.sysPhase Complex.I
    let t := (computeEvolution S (reached S junk s0 (fun _ _ => 0) [])).1
    t.prop 0 = NormedSpace.exp ((checkedQubit.tau 0 : ℂ) • -Complex.I • diagonal ![1, -1]) ∧
    t.prop 0 ≠ NormedSpace.exp ((checkedQubit.tau 0 : ℂ) • Complex.I • diagonal ![1, -1]) := by
  intro S t
  have h : t.prop 0 = NormedSpace.exp
      ((checkedQubit.tau 0 : ℂ) • -Complex.I • diagonal ![1, -1]) := by
    have h := (C61_diag_violated checkedQubit_closed rfl Complex.I junk s0 (fun _ _ => 0) []).1 0
      checkedQubit_closed.slots
    have e := checkedQubit_generator 0
    unfold generator at e
    rw [sys_drift, sys_nCtrls, sys_ctrl] at e
    simp only [lastAmps] at h
    rw [e] at h
    exact h
  refine ⟨h, fun h' => ?_⟩
  rw [h] at h'
  have e : ∀ z : ℂ, NormedSpace.exp ((checkedQubit.tau 0 : ℂ) • z • (diagonal ![1, -1] :
      Matrix (Fin 2) (Fin 2) ℂ)) 0 0 = Complex.exp (2⁻¹ * z) := by
    intro z
    rw [← diagonal_smul, ← diagonal_smul, MatExp.exp_diagonal']
    simp [checkedQubit, qubit]
  have h0 := congrFun (congrFun h' 0) 0
  rw [e, e] at h0
  have hi := congrArg Complex.im h0
  rw [Complex.exp_im, Complex.exp_im] at hi
  simp at hi
  have := Real.sin_pos_of_pos_of_lt_pi (x := 2⁻¹) (by norm_num) (by linarith [Real.pi_gt_three])
  linarith

/-! ### Non-vacuity -/

/-- The hypotheses of `C61_phase_partial` are met by a qubit with another computer. -/
example : ({ checkedQubit with propKind := .frechet } : UnitaryCfg (Fin 2) (Fin 2)).propKind ≠ .diag ∧
    0 < ({ checkedQubit with propKind := .frechet } : UnitaryCfg (Fin 2) (Fin 2)).nTs ∧
    0 < ({ checkedQubit with propKind := .frechet } : UnitaryCfg (Fin 2) (Fin 2)).nCtrls := by
  refine ⟨by simp, by simp [checkedQubit, qubit], by simp [checkedQubit, qubit]⟩

end QTrl.Dyn
