import Verif.Model.Unitary
import Verif.Spec.Gradient

/-
Admissible configurations of unitary dynamics.
-/

open Matrix

namespace QTrl.Spec

open QTrl.Dyn

variable {d m : Type} [Fintype d] [DecidableEq d] [Fintype m] [DecidableEq m]

/-- Hermitian drift and controls, at least one slot and one control, and an eigen-solver
that is right about Hermitian matrices. -/
structure Closed (c : UnitaryCfg d m) : Prop where
  slots : 0 < c.nTs
  ctrls : 0 < c.nCtrls
  drift : ∀ k, k < c.nTs → (c.drift k).IsHermitian
  ctrl : ∀ k j, k < c.nTs → j < c.nCtrls → (c.ctrl k j).IsHermitian
  eigh : ∀ H : Matrix d d ℂ, H.IsHermitian → EighCorrect c.eigh H

/-- Initial and target objects have orthonormal columns: unitary gates (`m = d`) or
normalised states (`m` a one-element type). -/
structure Normalised (c : UnitaryCfg d m) : Prop where
  initial : c.initialᴴ * c.initial = 1
  target : c.targetᴴ * c.target = 1

/-- The gradients of the configured propagator computer are exact: either it is not the
diagonalising one, or its rounding precision is positive and, at the given
amplitudes, below the distance of any two different eigenvalue phases. -/
def ExactAt (c : UnitaryCfg d m) (amps : Amps) : Prop :=
  c.propKind = .frechet ∨ (c.propKind = .diag ∧ 0 < c.prec ∧
    ∀ k, k < c.nTs → WellSeparated (c.eigh (generator c.sys amps k)).1 (c.tau k) c.prec)

end QTrl.Spec
