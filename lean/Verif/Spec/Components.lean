import Verif.Model.Components
import Verif.Spec.Evolution
import Verif.Spec.PulseOptim

/-
C81: what a combination of dynamics, propagator computer and fidelity computer can do, in terms of
the classes only.
-/

namespace QTrl.Dyn

open QTrl.PO (DynCls PropCls FidCls)

variable {d D : Type} [Fintype d] [DecidableEq d]

/-- The system is computed by these components. -/
def Fits (p : Parts) (S : Sys d d D) : Prop :=
  S.propKind = p.propKind ∧ S.fidKind = p.fidKind

/-- The evolution and the error can be computed: diagonalisation is for unitary dynamics. -/
def Computes (p : Parts) : Prop := p.prop = .diag → p.dyn = .unitary

/-- The gradient can be computed too: finite differences and the approximate propagator computer
go together. -/
def Differentiates (p : Parts) : Prop :=
  Computes p ∧ (p.fid = .traceDiffApprox ↔ p.prop = .approx)

instance (p : Parts) : Decidable (Computes p) := by unfold Computes; infer_instance
instance (p : Parts) : Decidable (Differentiates p) := by unfold Differentiates; infer_instance

/-- The amplitudes set last. -/
def lastSet (a0 : Amps) : List Ask → Amps
  | [] => a0
  | .amps a :: l => lastSet a l
  | .evolution :: l => lastSet a0 l
  | .error :: l => lastSet a0 l
  | .gradient :: l => lastSet a0 l

/-- The components of an optimiser. -/
def _root_.QTrl.PO.Optim.parts (o : PO.Optim) : Parts := ⟨o.dyn, o.prop, o.fid⟩

end QTrl.Dyn
