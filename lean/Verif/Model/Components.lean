import Verif.Model.TDApprox
import Verif.Model.PulseOptim

/-
The computations of `Dynamics`, propagator computer and fidelity computer together, with the
exceptions that the base classes raise where a subclass does not implement a method.  In
Verif/Model/Dynamics.lean these methods are total; here each is written again with its class.

Operators only (`m = d`), timeslot computer `TSlotCompUpdateAll`.  Simplification: an object keeps
what was computed before an exception, except that the propagators of the slots before the one
that fails are not kept (nothing reads them before they are computed again).
-/

namespace QTrl.Dyn

open QTrl.PO (DynCls PropCls FidCls)

/-- The classes of the objects that compute. -/
structure Parts where
  dyn : DynCls
  prop : PropCls
  fid : FidCls
  deriving DecidableEq

/-- The class of the propagator computer as far as Verif/Model/Dynamics.lean distinguishes. -/
def Parts.propKind (p : Parts) : PropKind :=
  match p.prop with
  | .approx => .approx
  | .diag => .diag
  | .augMat => .frechet
  | .frechet => .frechet

/-- The class of the fidelity computer; `FidCompTraceDiffApprox` inherits from
`FidCompTraceDiff`. -/
def Parts.fidKind (p : Parts) : FidKind :=
  match p.fid with
  | .unitary => .unitary
  | .traceDiff => .traceDiff
  | .traceDiffApprox => .traceDiff

variable {d D : Type} [Fintype d] [DecidableEq d]

/-- `_ensure_decomp_curr` (dynamics.py 1438-1448) with `_spectral_decomp` of the class: only
`DynamicsUnitary` has one (1600-1682), the base class raises `UsageError` (1450-1462).  The lists
exist, since `_init_evo` creates them for `PropCompDiag` (814-815). -/
def Parts.ensureDecomp (p : Parts) (S : Sys d d D) (s : State d d D) (k : Nat) :
    Except PyErr (State d d D) :=
  if s.decompCurr k then .ok s
  else match p.dyn with
    | .unitary => .ok (Dyn.ensureDecomp S s k)
    | .genMat => .error .usageError
    | .symplectic => .error .usageError

/-- `_compute_propagator` (propcomp.py 124-138, 225-247). -/
def Parts.computeProp (p : Parts) (S : Sys d d D) (s : State d d D) (k : Nat) :
    Except PyErr (State d d D × Matrix d d ℂ) :=
  match p.prop with
  | .diag => (p.ensureDecomp S s k).map fun s => (s, S.diagProp (s.decomp k))
  | _ => .ok (s, S.expm ((S.tau k : ℂ) • getPhasedDynGen S s k))

/-- `_compute_prop_grad` without the propagator (propcomp.py 163-170, 249-302, 350-382, 399-430):
not implemented by `PropCompApproxGrad`. -/
def Parts.computeGrad (p : Parts) (S : Sys d d D) (s : State d d D) (k j : Nat) :
    Except PyErr (State d d D × Matrix d d ℂ) :=
  match p.prop with
  | .approx => .error .usageError
  | .diag => (p.ensureDecomp S s k).map fun s =>
      (s, S.diagGrad (s.decomp k) (getPhasedCtrl S k j) (S.tau k))
  | _ => .ok (s, S.frechet ((S.tau k : ℂ) • getPhasedDynGen S s k)
            ((S.tau k : ℂ) • getPhasedCtrl S k j))

/-- `_compute_diff_prop` (propcomp.py 146-155, 189-208): implemented by `PropCompApproxGrad`
only. -/
def Parts.computeDiffProp (p : Parts) (S : Sys d d D) (eps : ℝ) (s : State d d D) (k j : Nat) :
    Except PyErr (Matrix d d ℂ) :=
  match p.prop with
  | .approx => .ok (S.expm ((S.tau k : ℂ) • (getPhasedDynGen S s k + (eps : ℂ) • getPhasedCtrl S k j)))
  | _ => .error .usageError

/-- `prop_comp.grad_exact` (propcomp.py 180-187, 216-223, 321-325, 393-397). -/
def Parts.gradExact (p : Parts) : Bool :=
  match p.prop with
  | .approx => false
  | _ => true

/-- A loop whose body can raise. -/
def tryRange {σ : Type} (n : Nat) (body : Nat → σ → Except PyErr σ) (s : σ) : Except PyErr σ :=
  (List.range n).foldlM (fun s k => body k s) s

/-- The propagators of one slot (tslotcomp.py 272-294). -/
def Parts.propBody (p : Parts) (S : Sys d d D) (k : Nat) (s : State d d D) :
    Except PyErr (State d d D) :=
  if p.gradExact && S.cachePropGrad then
    tryRange S.nCtrls (fun j s =>
      if j = 0 then
        match p.computeProp S s k with
        | .error e => .error e
        | .ok (s, q) =>
          (p.computeGrad S s k j).map fun r =>
            { r.1 with prop := Function.update r.1.prop k q, propGrad := update2 r.1.propGrad k j r.2 }
      else
        (p.computeGrad S s k j).map fun r =>
          { r.1 with propGrad := update2 r.1.propGrad k j r.2 }) s
  else
    (p.computeProp S s k).map fun r => { r.1 with prop := Function.update r.1.prop k r.2 }

/-- `recompute_evolution` (tslotcomp.py 225-352). -/
def Parts.recompute (p : Parts) (S : Sys d d D) (amps : Amps) (s : State d d D) :
    State d d D × Except PyErr Unit :=
  let s := { s with numRecompute := s.numRecompute + 1, views := {} }
  let s := genLoop S amps s
  match tryRange S.nTs (p.propBody S) s with
  | .error e => (s, .error e)
  | .ok s =>
    let s := { s with fwd := fwdLoop S.nTs s.prop s.fwd }
    let s := if p.fidKind = .traceDiff then { s with onwd := onwdLoop S.nTs s.prop s.onwd } else s
    (if p.fidKind = .unitary then { s with onto := ontoLoop S.nTs s.prop s.onto } else s, .ok ())

/-- `compute_evolution` (dynamics.py 1420-1436). -/
def Parts.computeEvolution (p : Parts) (S : Sys d d D) (s : State d d D) :
    State d d D × Except PyErr Bool :=
  if s.evoCurrent then (s, .ok false)
  else match s.ctrlAmps with
    | none => ({ s with numRecompute := s.numRecompute + 1, views := {} }, .error .typeError)
    | some amps =>
      match p.recompute S amps s with
      | (s, .error e) => (s, .error e)
      | (s, .ok _) => ({ s with evoCurrent := true }, .ok true)

/-- `get_fidelity_prenorm` (fidcomp.py 436-462). -/
def Parts.getPrenorm (p : Parts) (S : Sys d d D) (s : State d d D) :
    State d d D × Except PyErr ℂ :=
  if s.prenormCurrent then (s, .ok s.prenorm)
  else
    match p.computeEvolution S s with
    | (s, .error e) => (s, .error e)
    | (s, .ok _) =>
      let f := (s.onto S.nTs * s.fwd S.nTs).trace
      ({ s with prenorm := f, prenormCurrent := true,
                numFidComputes := s.numFidComputes + 1 }, .ok f)

/-- `get_fidelity` (fidcomp.py 423-434). -/
noncomputable def Parts.getFidelity (p : Parts) (S : Sys d d D) (s : State d d D) :
    State d d D × Except PyErr ℝ :=
  if s.fidelityCurrent then (s, .ok s.fidelity)
  else match p.getPrenorm S s with
    | (s, .error e) => (s, .error e)
    | (s, .ok f) =>
      match fidNorm S f with
      | .error e => (s, .error e)
      | .ok v => ({ s with fidelity := v, fidelityCurrent := true }, .ok v)

/-- `get_fid_err` of the trace difference computers (fidcomp.py 592-634). -/
noncomputable def Parts.getFidErrTD (p : Parts) (S : Sys d d D) (s : State d d D) :
    State d d D × Except PyErr ℝ :=
  if s.fidelityCurrent then (s, .ok s.fidErr)
  else match p.computeEvolution S s with
    | (s, .error e) => (s, .error e)
    | (s, .ok _) =>
      let diff := S.target - s.fwd S.nTs
      let e := S.scale * (diff.conjTranspose * diff).trace.re
      ({ s with fidErr := e, fidelityCurrent := true,
                numFidComputes := s.numFidComputes + 1 }, .ok e)

/-- `get_fid_err` (fidcomp.py 417-421, 592-634). -/
noncomputable def Parts.getFidErr (p : Parts) (S : Sys d d D) (s : State d d D) :
    State d d D × Except PyErr ℝ :=
  match p.fidKind with
  | .unitary =>
    match p.getFidelity S s with
    | (s, .error e) => (s, .error e)
    | (s, .ok f) => (s, .ok |1 - f|)
  | .traceDiff => p.getFidErrTD S s

/-- `_get_prop_grad` (dynamics.py 1334-1341).  The array exists if the gradients are exact and
cached (799-802). -/
def Parts.getPropGrad (p : Parts) (S : Sys d d D) (s : State d d D) (k j : Nat) :
    State d d D × Except PyErr (Matrix d d ℂ) :=
  if S.cachePropGrad then
    if p.gradExact then (s, .ok (s.propGrad k j)) else (s, .error .typeError)
  else
    match p.computeGrad S s k j with
    | .error e => (s, .error e)
    | .ok (s, g) => (s, .ok g)

/-- One element of the overlap gradient (fidcomp.py 526-541). -/
def Parts.gradEntryUnitary (p : Parts) (S : Sys d d D) (s : State d d D) (k j : Nat) :
    State d d D × Except PyErr ℂ :=
  match p.getPropGrad S s k j with
  | (s, .error e) => (s, .error e)
  | (s, .ok pg) => (s, .ok (s.onto (k + 1) * pg * s.fwd k).trace)

/-- One element of the exact gradient of the trace difference (fidcomp.py 686-711). -/
noncomputable def Parts.gradEntryTD (p : Parts) (S : Sys d d D) (diff : Matrix d d ℂ)
    (s : State d d D) (k j : Nat) : State d d D × Except PyErr ℝ :=
  match p.getPropGrad S s k j with
  | (s, .error e) => (s, .error e)
  | (s, .ok pg) =>
    let evoGrad := pg * s.fwd k
    let evoGrad := if k + 1 < S.nTs then s.onwd (k + 1) * evoGrad else evoGrad
    (s, .ok (-2 * S.scale * (diff.conjTranspose * evoGrad).trace.re))

/-- One element of the finite difference gradient (fidcomp.py 763-789). -/
noncomputable def Parts.gradEntryApprox (p : Parts) (S : Sys d d D) (eps curr : ℝ) (s : State d d D)
    (k j : Nat) : State d d D × Except PyErr ℝ :=
  match p.computeDiffProp S eps s k j with
  | .error e => (s, .error e)
  | .ok q =>
    let evo := s.fwd k * q
    let evo := if k + 1 < S.nTs then evo * s.onwd (k + 1) else evo
    let diff := S.target - evo
    let errEps := S.scale * (diff.conjTranspose * diff).trace.re
    (s, .ok ((errEps - curr) / eps))

/-- `compute_fid_err_grad` of the trace difference computers (fidcomp.py 664-717, 740-798). -/
noncomputable def Parts.computeErrGrad (p : Parts) (S : Sys d d D) (eps : ℝ) (s : State d d D) :
    State d d D × Except PyErr (Nat → Nat → ℝ) :=
  match p.computeEvolution S s with
  | (s, .error e) => (s, .error e)
  | (s, .ok _) =>
    match p.fid with
    | .traceDiffApprox =>
      match p.getFidErrTD S s with
      | (s, .error e) => (s, .error e)
      | (s, .ok curr) => gradLoop S (p.gradEntryApprox S eps curr) (fun _ _ => 0) s
    | _ => gradLoop S (p.gradEntryTD S (S.target - s.fwd S.nTs)) (fun _ _ => 0) s

/-- `get_fid_err_gradient` (fidcomp.py 464-506, 636-662). -/
noncomputable def Parts.getGrad (p : Parts) (S : Sys d d D) (eps : ℝ) (s : State d d D) :
    State d d D × Except PyErr (Nat → Nat → ℝ) :=
  match p.fidKind with
  | .unitary =>
    if s.gradCurrent then (s, .ok s.grad)
    else
      match p.computeEvolution S s with
      | (s, .error e) => (s, .error e)
      | (s, .ok _) =>
      match gradLoop S (p.gradEntryUnitary S) (fun _ _ => 0) s with
      | (s, .error e) => (s, .error e)
      | (s, .ok gpre) =>
        match p.getFidelity S s with
        | (s, .error e) => (s, .error e)
        | (s, .ok f) =>
          match p.getPrenorm S s with
          | (s, .error e) => (s, .error e)
          | (s, .ok fpn) =>
            let g : Nat → Nat → ℝ := fun k j =>
              if 1 ≤ f then gradNorm S fpn (gpre k j) else -gradNorm S fpn (gpre k j)
            ({ s with grad := g, gradCurrent := true,
                      numGradComputes := s.numGradComputes + 1 }, .ok g)
  | .traceDiff =>
    if s.gradCurrent then (s, .ok s.grad)
    else match p.computeErrGrad S eps s with
      | (s, .error e) => (s, .error e)
      | (s, .ok g) =>
        ({ s with grad := g, gradCurrent := true,
                  numGradComputes := s.numGradComputes + 1 }, .ok g)

/-- What an optimiser does with the dynamics: set amplitudes, ask for the error, ask for the
gradient (optimizer.py 368, 667, 714, 784); and the evolution, as a user can. -/
inductive Ask where
  | amps (a : Amps)
  | evolution
  | error
  | gradient

/-- One request. -/
noncomputable def Parts.step (p : Parts) (S : Sys d d D) (eps : ℝ) (s : State d d D) :
    Ask → State d d D × Out
  | .amps a => ((compareAmps S s a).1, .none)
  | .evolution =>
    let r := p.computeEvolution S s
    (r.1, .ofUnit r.2)
  | .error =>
    let r := p.getFidErr S s
    (r.1, .ofReal r.2)
  | .gradient =>
    let r := p.getGrad S eps s
    (r.1, .ofArray r.2)

/-- State after a list of requests. -/
noncomputable def Parts.after (p : Parts) (S : Sys d d D) (eps : ℝ) (s : State d d D)
    (l : List Ask) : State d d D :=
  l.foldl (fun s r => (p.step S eps s r).1) s

end QTrl.Dyn
