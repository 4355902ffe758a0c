import Verif.Spec.Symmetry
import Mathlib.Analysis.Normed.Algebra.MatrixExponential
import Mathlib.Algebra.Module.LinearMap.Defs

/-
Two descriptions of one control problem for systems of any dynamics whose propagators are
exponentials: with recombined controls, in other units of time, with one time slot cut in two, or in
another orthonormal basis.
-/

open Matrix

namespace QTrl.Spec

open QTrl.Dyn

variable {d m D D' : Type} [Fintype d] [DecidableEq d] [Fintype m] [DecidableEq m]

/-- The propagator of every slot is the exponential of its duration times `φ` of its generator. -/
def Exponential (φ : Matrix d d ℂ →ₗ[ℂ] Matrix d d ℂ) (S : Sys d m D) : Prop :=
  ∀ a k, k < S.nTs → propagator S a k = NormedSpace.exp ((S.tau k : ℂ) • φ (generator S a k))

/-- The settings that decide what is reported, and the objects. -/
structure Alike (S : Sys d m D) (S' : Sys d m D') : Prop where
  isQobj : S'.isQobj = S.isQobj
  fidKind : S'.fidKind = S.fidKind
  phaseOpt : S'.phaseOpt = S.phaseOpt
  scale : S'.scale = S.scale
  dimNorm : S'.dimNorm = S.dimNorm

/-- Initial and target objects are the same. -/
structure SameEnds (S : Sys d m D) (S' : Sys d m D') : Prop extends Alike S S' where
  initial : S'.initial = S.initial
  target : S'.target = S.target
  ontoTarget : S'.ontoTarget = S.ontoTarget

/-- The controls of `S'` are combinations of those of `S`, with coefficients `M`, and the drift of
`S'` contains the controls of `S` with the fixed amplitudes `b`. -/
structure Mixed (M : Nat → Nat → Nat → ℝ) (b : Nat → Nat → ℝ) (S : Sys d m D) (S' : Sys d m D') :
    Prop extends SameEnds S S' where
  nTs : S'.nTs = S.nTs
  tau : ∀ k, k < S.nTs → S'.tau k = S.tau k
  drift : ∀ k, k < S.nTs → S'.drift k =
    S.drift k + ∑ j ∈ Finset.range S.nCtrls, (b k j : ℂ) • S.ctrl k j
  ctrl : ∀ k i, k < S.nTs → i < S'.nCtrls → S'.ctrl k i =
    ∑ j ∈ Finset.range S.nCtrls, (M k j i : ℂ) • S.ctrl k j

/-- `S'` is `S` in other units: slot `k` lasts `s k` times as long, with generators divided by
`s k`. -/
structure Slowed (s : Nat → ℝ) (S : Sys d m D) (S' : Sys d m D') : Prop extends SameEnds S S' where
  nTs : S'.nTs = S.nTs
  nCtrls : S'.nCtrls = S.nCtrls
  tau : ∀ k, k < S.nTs → S'.tau k = s k * S.tau k
  drift : ∀ k, k < S.nTs → S.drift k = (s k : ℂ) • S'.drift k
  ctrl : ∀ k j, k < S.nTs → j < S.nCtrls → S.ctrl k j = (s k : ℂ) • S'.ctrl k j

/-- `S'` is `S` with slot `s` cut into two parts, lasting `x` and the rest. -/
structure Halved (s : Nat) (x : ℝ) (S : Sys d m D) (S' : Sys d m D') : Prop
    extends SameEnds S S' where
  slot : s < S.nTs
  nTs : S'.nTs = S.nTs + 1
  nCtrls : S'.nCtrls = S.nCtrls
  tau : ∀ k, k < S'.nTs → S'.tau k =
    if k = s then x else if k = s + 1 then S.tau s - x else S.tau (uncut s k)
  drift : ∀ k, k < S'.nTs → S'.drift k = S.drift (uncut s k)
  ctrl : ∀ k j, k < S'.nTs → j < S.nCtrls → S'.ctrl k j = S.ctrl (uncut s k) j

/-- `S'` is `S` in another orthonormal basis (`W`), with another basis (`V`) for the columns of the
initial and target objects. -/
structure Turned (W : Matrix d d ℂ) (V : Matrix m m ℂ) (S : Sys d m D) (S' : Sys d m D') : Prop
    extends Alike S S' where
  nTs : S'.nTs = S.nTs
  nCtrls : S'.nCtrls = S.nCtrls
  tau : ∀ k, k < S.nTs → S'.tau k = S.tau k
  drift : ∀ k, k < S.nTs → S'.drift k = W * S.drift k * Wᴴ
  ctrl : ∀ k j, k < S.nTs → j < S.nCtrls → S'.ctrl k j = W * S.ctrl k j * Wᴴ
  initial : S'.initial = W * S.initial * V
  target : S'.target = W * S.target * V
  ontoTarget : S'.ontoTarget = Vᴴ * S.ontoTarget * Wᴴ

end QTrl.Spec
