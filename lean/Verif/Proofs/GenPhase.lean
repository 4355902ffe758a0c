import Verif.Proofs.Unitary
import Verif.Props.Evolution

/-
Unitary dynamics with an assigned generator phase.
-/

set_option linter.unusedSectionVars false

open Matrix

namespace QTrl.Dyn

open QTrl.Spec QTrl.MatExp

variable {d m : Type} [Fintype d] [DecidableEq d] [Fintype m] [DecidableEq m]

/-- The initialised system after the assignment `dyn_gen_phase = z` (dynamics.py 846-848): the
phase is applied from the left (916-926); everything else as before. -/
noncomputable def UnitaryCfg.sysPhase (c : UnitaryCfg d m) (z : ℂ) : Sys d m (Decomp d) :=
  initSys { c.sys with phase := some fun A => z • A }

theorem sysPhase_fields (c : UnitaryCfg d m) (z : ℂ) : ∃ pc,
    c.sysPhase z = { c.sys with phase := some fun A => z • A, phasedCtrl := pc } := by
  unfold UnitaryCfg.sysPhase initSys
  dsimp only
  split
  · exact ⟨_, rfl⟩
  · exact ⟨_, rfl⟩

theorem sysPhase_valid {c : UnitaryCfg d m} (h1 : 0 < c.nTs) (h2 : 0 < c.nCtrls) (z : ℂ) :
    Valid (c.sysPhase z) := initSys_valid (by simpa using h1) (by simpa using h2)

theorem sysPhase_generator (c : UnitaryCfg d m) (z : ℂ) (amps : Amps) (k : Nat) :
    generator (c.sysPhase z) amps k = generator c.sys amps k := by
  obtain ⟨pc, e⟩ := sysPhase_fields c z
  rw [e]
  rfl

theorem sysPhase_prop (c : UnitaryCfg d m) (z : ℂ) (hp : c.propKind ≠ .diag) (amps : Amps)
    (k : Nat) : propagator (c.sysPhase z) amps k =
      NormedSpace.exp ((c.tau k : ℂ) • z • generator c.sys amps k) := by
  unfold propagator
  rw [sysPhase_generator]
  obtain ⟨pc, e⟩ := sysPhase_fields c z
  rw [e]
  simp [hp, phased]

theorem sysPhase_prop_diag (c : UnitaryCfg d m) (z : ℂ) (hp : c.propKind = .diag) (amps : Amps)
    (k : Nat) : propagator (c.sysPhase z) amps k = propagator c.sys amps k := by
  unfold propagator
  rw [sysPhase_generator]
  obtain ⟨pc, e⟩ := sysPhase_fields c z
  rw [e]
  simp [hp]

theorem sysPhase_grad (c : UnitaryCfg d m) (z : ℂ) (hp : c.propKind ≠ .diag) (amps : Amps)
    (k j : Nat) : propagatorGrad (c.sysPhase z) amps k j =
      augMatGrad ((c.tau k : ℂ) • z • generator c.sys amps k)
        ((c.tau k : ℂ) • z • c.ctrl k j) := by
  unfold propagatorGrad
  rw [sysPhase_generator]
  obtain ⟨pc, e⟩ := sysPhase_fields c z
  rw [e]
  simp [hp, phased]

theorem diagGrad_smul (D : Decomp d) (z : ℂ) (E : Matrix d d ℂ) (tau : ℝ) :
    diagGrad D (z • E) tau = (Complex.I * z) • diagGrad D (-Complex.I • E) tau := by
  have h : z • E = (Complex.I * z) • (-Complex.I • E) := by
    rw [smul_smul, mul_neg, mul_right_comm, Complex.I_mul_I]
    simp
  rw [h]
  generalize -Complex.I • E = E'
  simp only [diagGrad, Matrix.mul_smul, Matrix.smul_mul, Matrix.smul_hadamard]
  rw [smul_comm (tau : ℂ)]

theorem sysPhase_grad_diag (c : UnitaryCfg d m) (z : ℂ) (hp : c.propKind = .diag) (amps : Amps)
    (k j : Nat) : propagatorGrad (c.sysPhase z) amps k j =
      (Complex.I * z) • propagatorGrad c.sys amps k j := by
  unfold propagatorGrad
  rw [sysPhase_generator]
  obtain ⟨pc, e⟩ := sysPhase_fields c z
  rw [e]
  simp only [hp, phased, sys_propKind, if_true, sys_diagGrad, sys_decompose, sys_tau, sys_ctrl,
    sys_phase]
  exact diagGrad_smul _ _ _ _

/-- The cached gradients after any history. -/
theorem evolved_grad {D : Type} {S : Sys d m D} (hn : Valid S) (hg : gradExact S = true)
    (hc : S.cachePropGrad = true) (junk s0 : State d m D) (a0 : Amps) (ops : List Op) {k j : Nat}
    (hk : k < S.nTs) (hj : j < S.nCtrls) :
    (computeEvolution S (reached S junk s0 a0 ops)).1.propGrad k j =
      propagatorGrad S (lastAmps a0 ops) k j := by
  obtain ⟨hi, b, hb, hs⟩ := reached_inv hn junk s0 a0 ops
  obtain ⟨r, t', e, it, at', et, ot⟩ := computeEvolution_some hn hi hb
  rw [e]
  dsimp only
  rw [ot.propGrad hg hc k j hk hj]
  unfold propagatorGrad
  rw [generator_congr hs hk]

end QTrl.Dyn
