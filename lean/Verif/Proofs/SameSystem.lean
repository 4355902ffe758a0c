import Verif.Proofs.Machine

/-
Two systems with the same physics, possibly with different caches and decomposition
data, have the same specification.
-/

set_option linter.unusedSectionVars false

open Matrix

namespace QTrl.Dyn

open QTrl.Spec

variable {d m D D' : Type} [Fintype d] [DecidableEq d] [Fintype m] [DecidableEq m]

/-- Same system, options and propagators; caches, decompositions and, where they do not
matter, data types may differ. -/
structure SameSystem (S : Sys d m D) (T : Sys d m D') : Prop where
  nTs : S.nTs = T.nTs
  nCtrls : S.nCtrls = T.nCtrls
  initial : S.initial = T.initial
  target : S.target = T.target
  onto : S.ontoTarget = T.ontoTarget
  propKind : S.propKind = T.propKind
  fidKind : S.fidKind = T.fidKind
  phaseOpt : S.phaseOpt = T.phaseOpt
  dimNorm : S.dimNorm = T.dimNorm
  scale : S.scale = T.scale
  prop : ∀ amps, propagator S amps = propagator T amps
  grad : ∀ amps, propagatorGrad S amps = propagatorGrad T amps
  /-- the data type matters for `SU` -/
  dtype : S.phaseOpt = .SU → S.isQobj = T.isQobj
  /-- the kind of error raised by the approximate computer depends on the caching -/
  cache : S.propKind = .approx → S.cachePropGrad = T.cachePropGrad

namespace SameSystem

variable {S : Sys d m D} {T : Sys d m D'}

theorem evolution (h : SameSystem S T) (amps : Amps) (lo hi : Nat) :
    Spec.evolution S amps lo hi = Spec.evolution T amps lo hi := by
  unfold Spec.evolution
  rw [h.prop]

theorem final (h : SameSystem S T) (amps : Amps) : Spec.final S amps = Spec.final T amps := by
  unfold Spec.final
  rw [h.evolution, h.nTs, h.initial]

theorem overlap (h : SameSystem S T) (amps : Amps) :
    Spec.overlap S amps = Spec.overlap T amps := by
  unfold Spec.overlap
  rw [h.final, h.onto]

theorem fidelity (h : SameSystem S T) (amps : Amps) :
    Spec.fidelity S amps = Spec.fidelity T amps := by
  unfold Spec.fidelity
  rw [← h.phaseOpt, h.overlap, h.dimNorm]
  cases hp : S.phaseOpt with
  | PSU => rfl
  | SU => rw [h.dtype hp]

theorem fidErr (h : SameSystem S T) (amps : Amps) :
    Spec.fidErr S amps = Spec.fidErr T amps := by
  unfold Spec.fidErr
  rw [← h.fidKind, h.fidelity, h.final, h.scale, h.target]

theorem gradEntry (h : SameSystem S T) (amps : Amps) (f : ℝ) (k j : Nat) :
    Spec.gradEntry S amps f k j = Spec.gradEntry T amps f k j := by
  unfold Spec.gradEntry Spec.finalGrad
  rw [← h.fidKind, ← h.phaseOpt, h.overlap, h.evolution, h.evolution, h.grad, h.final, h.onto,
    h.dimNorm, h.scale, h.target, h.nTs, h.initial]

theorem gradient (h : SameSystem S T) (amps : Amps) :
    Spec.gradient S amps = Spec.gradient T amps := by
  unfold Spec.gradient
  rw [← h.propKind, ← h.fidKind, h.fidelity, h.nTs, h.nCtrls]
  simp only [h.gradEntry]
  by_cases hp : S.propKind = .approx
  · rw [if_pos hp, if_pos hp, h.cache hp]
  · rw [if_neg hp, if_neg hp]

theorem answer (h : SameSystem S T) (amps : Option Amps) (op : Op) :
    Spec.answer S amps op = Spec.answer T amps op := by
  cases op <;> simp only [Spec.answer, h.fidKind, h.fidelity, h.fidErr, h.gradient]

theorem answers (h : SameSystem S T) (amps : Option Amps) (ops : List Op) :
    Spec.answers S amps ops = Spec.answers T amps ops := by
  induction ops generalizing amps with
  | nil => rfl
  | cons op ops ih => simp only [Spec.answers, h.answer, ih]

end SameSystem

end QTrl.Dyn
