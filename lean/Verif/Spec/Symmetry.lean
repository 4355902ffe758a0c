import Verif.Spec.Unitary
import Mathlib.LinearAlgebra.Matrix.Kronecker

/-
Two descriptions of the same control problem: what it means for one configuration of a closed
system to be another one in a different basis, with recombined controls, in other units of time,
with one time slot cut in two, run backwards, with another zero of energy, or with a spectator
system beside it.
-/

open Matrix Kronecker

namespace QTrl.Spec

open QTrl.Dyn

variable {d m e p : Type} [Fintype d] [DecidableEq d] [Fintype m] [DecidableEq m]
  [Fintype e] [DecidableEq e] [Fintype p] [DecidableEq p]

/-- The settings that decide what is reported.  The caches, the propagator computer, its rounding
and the eigen-solver may differ. -/
structure SameSettings {d' m' : Type} (c : UnitaryCfg d m) (c' : UnitaryCfg d' m') : Prop where
  isQobj : c'.isQobj = c.isQobj
  fidKind : c'.fidKind = c.fidKind
  phaseOpt : c'.phaseOpt = c.phaseOpt
  scaleFactor : c'.scaleFactor = c.scaleFactor

/-- `c'` is `c` in another orthonormal basis (`W`), with another basis (`V`) for the columns of the
initial and target objects. -/
structure Rebased (W : Matrix d d ℂ) (V : Matrix m m ℂ) (c c' : UnitaryCfg d m) : Prop
    extends SameSettings c c' where
  nTs : c'.nTs = c.nTs
  nCtrls : c'.nCtrls = c.nCtrls
  tau : ∀ k, k < c.nTs → c'.tau k = c.tau k
  drift : ∀ k, k < c.nTs → c'.drift k = W * c.drift k * Wᴴ
  ctrl : ∀ k j, k < c.nTs → j < c.nCtrls → c'.ctrl k j = W * c.ctrl k j * Wᴴ
  initial : c'.initial = W * c.initial * V
  target : c'.target = W * c.target * V

/-- The controls of `c'` are combinations of those of `c`, with coefficients `M`, and the drift of
`c'` contains the controls of `c` with the fixed amplitudes `b`. -/
structure Recombined (M : Nat → Nat → Nat → ℝ) (b : Nat → Nat → ℝ) (c c' : UnitaryCfg d m) : Prop
    extends SameSettings c c' where
  nTs : c'.nTs = c.nTs
  tau : ∀ k, k < c.nTs → c'.tau k = c.tau k
  drift : ∀ k, k < c.nTs → c'.drift k =
    c.drift k + ∑ j ∈ Finset.range c.nCtrls, (b k j : ℂ) • c.ctrl k j
  ctrl : ∀ k i, k < c.nTs → i < c'.nCtrls → c'.ctrl k i =
    ∑ j ∈ Finset.range c.nCtrls, (M k j i : ℂ) • c.ctrl k j
  initial : c'.initial = c.initial
  target : c'.target = c.target

/-- `c'` is `c` in other units: slot `k` lasts `s k` times as long, with energies divided by
`s k`. -/
structure Rescaled (s : Nat → ℝ) (c c' : UnitaryCfg d m) : Prop extends SameSettings c c' where
  nTs : c'.nTs = c.nTs
  nCtrls : c'.nCtrls = c.nCtrls
  tau : ∀ k, k < c.nTs → c'.tau k = s k * c.tau k
  drift : ∀ k, k < c.nTs → c.drift k = (s k : ℂ) • c'.drift k
  ctrl : ∀ k j, k < c.nTs → j < c.nCtrls → c.ctrl k j = (s k : ℂ) • c'.ctrl k j
  initial : c'.initial = c.initial
  target : c'.target = c.target

/-- The slot of the old grid in which slot `k` of the grid with slot `s` cut in two lies. -/
def uncut (s k : Nat) : Nat := if k ≤ s then k else k - 1

/-- `c'` is `c` with slot `s` cut into two parts, lasting `x` and the rest. -/
structure Cut (s : Nat) (x : ℝ) (c c' : UnitaryCfg d m) : Prop extends SameSettings c c' where
  slot : s < c.nTs
  nTs : c'.nTs = c.nTs + 1
  nCtrls : c'.nCtrls = c.nCtrls
  tau : ∀ k, k < c'.nTs → c'.tau k =
    if k = s then x else if k = s + 1 then c.tau s - x else c.tau (uncut s k)
  drift : ∀ k, k < c'.nTs → c'.drift k = c.drift (uncut s k)
  ctrl : ∀ k j, k < c'.nTs → j < c.nCtrls → c'.ctrl k j = c.ctrl (uncut s k) j
  initial : c'.initial = c.initial
  target : c'.target = c.target

/-- `c'` is `c` run backwards: slots in reverse order, opposite energies, initial and target
object exchanged. -/
structure Reversed (c c' : UnitaryCfg d m) : Prop extends SameSettings c c' where
  nTs : c'.nTs = c.nTs
  nCtrls : c'.nCtrls = c.nCtrls
  tau : ∀ k, k < c.nTs → c'.tau k = c.tau (c.nTs - 1 - k)
  drift : ∀ k, k < c.nTs → c'.drift k = -c.drift (c.nTs - 1 - k)
  ctrl : ∀ k j, k < c.nTs → j < c.nCtrls → c'.ctrl k j = -c.ctrl (c.nTs - 1 - k) j
  initial : c'.initial = c.target
  target : c'.target = c.initial

/-- `c'` is `c` with another zero of energy in the drift (`u`) and in the controls (`v`). -/
structure Shifted (u : Nat → ℝ) (v : Nat → Nat → ℝ) (c c' : UnitaryCfg d m) : Prop
    extends SameSettings c c' where
  nTs : c'.nTs = c.nTs
  nCtrls : c'.nCtrls = c.nCtrls
  tau : ∀ k, k < c.nTs → c'.tau k = c.tau k
  drift : ∀ k, k < c.nTs → c'.drift k = c.drift k + (u k : ℂ) • (1 : Matrix d d ℂ)
  ctrl : ∀ k j, k < c.nTs → j < c.nCtrls → c'.ctrl k j = c.ctrl k j + (v k j : ℂ) • (1 : Matrix d d ℂ)
  initial : c'.initial = c.initial
  target : c'.target = c.target

/-- `c'` is `c` beside a system that nothing acts on and that stays in `X`. -/
structure Beside (X : Matrix e p ℂ) (c : UnitaryCfg d m) (c' : UnitaryCfg (d × e) (m × p)) : Prop
    extends SameSettings c c' where
  nTs : c'.nTs = c.nTs
  nCtrls : c'.nCtrls = c.nCtrls
  tau : ∀ k, k < c.nTs → c'.tau k = c.tau k
  drift : ∀ k, k < c.nTs → c'.drift k = c.drift k ⊗ₖ (1 : Matrix e e ℂ)
  ctrl : ∀ k j, k < c.nTs → j < c.nCtrls → c'.ctrl k j = c.ctrl k j ⊗ₖ (1 : Matrix e e ℂ)
  initial : c'.initial = c.initial ⊗ₖ X
  target : c'.target = c.target ⊗ₖ X

/-- Two gradient requests end alike: with gradients in the relation `R`, or with the same
exception. -/
def GradRel (R : (Nat → Nat → ℝ) → (Nat → Nat → ℝ) → Prop) : Out → Out → Prop
  | .array g, .array g' => R g g'
  | .error e, .error e' => e = e'
  | _, _ => False

/-- Two tables of amplitudes agree where a configuration reads them. -/
def AmpsAgree (c : UnitaryCfg d m) (a a' : Amps) : Prop :=
  ∀ k j, k < c.nTs → j < c.nCtrls → a' k j = a k j

end QTrl.Spec
