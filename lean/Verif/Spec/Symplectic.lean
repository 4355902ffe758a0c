import Mathlib.Data.Matrix.Basic
import Mathlib.LinearAlgebra.Matrix.ConjTranspose
import Mathlib.Data.Complex.Basic
import Verif.Model.Symplectic

/-
The standard symplectic form and symplectic matrices.
-/

open Matrix

namespace QTrl.Spec

/-- The standard form for modes ordered `x₁ p₁ x₂ p₂ …`: row `2i` couples to column
`2i+1` with `+1`, row `2i+1` to column `2i` with `-1`, all else vanishes. -/
def stdForm (n : Nat) : Matrix (Fin (2 * n)) (Fin (2 * n)) ℂ :=
  Matrix.of fun j k =>
    if j.val / 2 = k.val / 2 then
      if j.val < k.val then 1 else if k.val < j.val then -1 else 0
    else 0

/-- Symplectic matrices. -/
def IsSymplectic {d : Type} [Fintype d] (om P : Matrix d d ℂ) : Prop := Pᵀ * om * P = om

/-- Symmetric drift and controls, at least one slot and one control. -/
structure SymplecticCfg {n : Nat} {m : Type} (c : Sympl.Cfg n m) : Prop where
  slots : 0 < c.nTs
  ctrls : 0 < c.nCtrls
  drift : ∀ k, k < c.nTs → (c.drift k)ᵀ = c.drift k
  ctrl : ∀ k j, k < c.nTs → j < c.nCtrls → (c.ctrl k j)ᵀ = c.ctrl k j
  /-- no customised phase application -/
  noCustom : ∀ v, Sympl.PhaseOp.setApp v ∈ c.phaseOps → pyLower v ≠ "custom"
  /-- the initialisation succeeds -/
  initOk : (Sympl.initPhase (Sympl.omega n) (Sympl.phaseRun (Sympl.omega n) c.phaseOps)).2 = .ok ()

end QTrl.Spec
