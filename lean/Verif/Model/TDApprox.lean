import Verif.Model.Dynamics

/-
`FidCompTraceDiffApprox` (fidcomp.py 720-798) with `PropCompApproxGrad`
(propcomp.py 173-207): trace difference error with a finite difference gradient.

Operators only (`m = d`): for state vectors the product `fwd_evo * prop_eps` has
mismatching shapes and raises.
-/

namespace QTrl.Dyn

variable {d D : Type} [Fintype d] [DecidableEq d]

/-- `_compute_diff_prop` (propcomp.py 189-207). -/
def computeDiffProp (S : Sys d d D) (eps : ℝ) (s : State d d D) (k j : Nat) : Matrix d d ℂ :=
  S.expm ((S.tau k : ℂ) • (getPhasedDynGen S s k + (eps : ℂ) • getPhasedCtrl S k j))

/-- One element of the finite difference gradient (fidcomp.py 763-789).  The factors
are multiplied in the order of the code: `fwd[k] * prop_eps * onwd[k+1]`. -/
noncomputable def gradEntryTDApprox (S : Sys d d D) (eps curr : ℝ) (s : State d d D) (k j : Nat) :
    State d d D × Except PyErr ℝ :=
  let evo := s.fwd k * computeDiffProp S eps s k j
  let evo := if k + 1 < S.nTs then evo * s.onwd (k + 1) else evo
  let diff := S.target - evo
  let errEps := S.scale * (diff.conjTranspose * diff).trace.re
  (s, .ok ((errEps - curr) / eps))

/-- `compute_fid_err_grad` (fidcomp.py 740-798).  `get_fid_err` is inherited. -/
noncomputable def computeErrGradTDApprox (S : Sys d d D) (eps : ℝ) (s : State d d D) :
    State d d D × Except PyErr (Nat → Nat → ℝ) :=
  match computeEvolution S s with
  | (s, .error e) => (s, .error e)
  | (s, .ok _) =>
    match getFidErrTD S s with
    | (s, .error e) => (s, .error e)
    | (s, .ok curr) => gradLoop S (gradEntryTDApprox S eps curr) (fun _ _ => 0) s

/-- `get_fid_err_gradient`, inherited from the trace difference computer
(fidcomp.py 636-662). -/
noncomputable def getGradTDApprox (S : Sys d d D) (eps : ℝ) (s : State d d D) :
    State d d D × Except PyErr (Nat → Nat → ℝ) :=
  if s.gradCurrent then (s, .ok s.grad)
  else match computeErrGradTDApprox S eps s with
    | (s, .error e) => (s, .error e)
    | (s, .ok g) =>
      ({ s with grad := g, gradCurrent := true,
                numGradComputes := s.numGradComputes + 1 }, .ok g)

end QTrl.Dyn
