import Verif.Proofs.Unitary

/-
Exact propagator gradients for any system whose phase operation is linear and whose
gradients are those of the exponential: in particular the general matrix dynamics
without phase and symplectic dynamics.
-/

set_option linter.unusedSectionVars false

open Matrix

namespace QTrl.Dyn

open QTrl.Spec QTrl.MatExp

variable {d m D : Type} [Fintype d] [DecidableEq d] [Fintype m] [DecidableEq m]

/-- The phase operation is linear. -/
def LinearPhase (S : Sys d m D) : Prop :=
  ∀ (A B : Matrix d d ℂ) (z : ℂ), phased S (A + z • B) = phased S A + z • phased S B

theorem exactPropGrad_linear {S : Sys d m D} (hl : LinearPhase S) (hp : S.propKind ≠ .diag)
    (he : S.expm = NormedSpace.exp) (hf : S.frechet = augMatGrad) (amps : Amps) :
    ExactPropGrad S amps := by
  intro k j hk hj
  have hcurve : (fun u => propagator S (setAmp amps k j u) k) = fun u : ℝ =>
      NormedSpace.exp ((S.tau k : ℂ) • phased S (generator S amps k) +
        ((u - amps k j : ℝ) : ℂ) • ((S.tau k : ℂ) • phased S (S.ctrl k j))) := by
    ext u : 1
    unfold propagator
    rw [if_neg hp, he, generator_setAmp S amps hj, hl, smul_add, smul_comm (S.tau k : ℂ)]
  have hg : propagatorGrad S amps k j = augMatGrad ((S.tau k : ℂ) • phased S (generator S amps k))
      ((S.tau k : ℂ) • phased S (S.ctrl k j)) := by
    unfold propagatorGrad
    rw [if_neg hp, hf]
  rw [hcurve, hg]
  intro a b
  have := matDeriv_exp ((S.tau k : ℂ) • phased S (generator S amps k))
      ((S.tau k : ℂ) • phased S (S.ctrl k j)) a b
  rw [show (0 : ℝ) = amps k j - amps k j by ring] at this
  exact HasDerivAt.comp_sub_const (amps k j) (amps k j) this

end QTrl.Dyn
