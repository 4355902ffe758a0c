import Verif.Model.Basic
import Mathlib.Data.Matrix.Basic
import Mathlib.LinearAlgebra.Matrix.Trace
import Mathlib.LinearAlgebra.Matrix.ConjTranspose
import Mathlib.Analysis.SpecialFunctions.Complex.Arg

/-
Model of the evolution and fidelity machinery of an initialised `Dynamics`
object with its `TSlotCompUpdateAll`, propagator computer and fidelity computer
(dynamics.py, tslotcomp.py, propcomp.py, fidcomp.py).

Conventions
* `d` indexes the rows of the operators, `m` the columns of the evolving object
  (`m = d` for gate synthesis, a one-element type for state-to-state transfer).
* Python lists / object arrays indexed by slot are total functions on `Nat`
  updated with `Function.update`; entries that Python has not computed yet are
  arbitrary ("junk") and the theorems hold for every junk.
* numbers are exact; logging, wall-clock times and dumps are left out (dumps are
  modelled in `Verif/Model/Dump*.lean`), statistics are assumed to be switched on.
* `expm`, `expm_frechet` and the eigen-decomposition are parameters.
-/

namespace QTrl.Dyn

variable (d m D : Type) [Fintype d] [DecidableEq d] [Fintype m] [DecidableEq m]

/-- Control amplitudes `amps[k, j]`. -/
abbrev Amps := Nat → Nat → ℝ

/-- Kind of propagator computer (propcomp.py): `approx` = `PropCompApproxGrad`
(171-206), `diag` = `PropCompDiag` (209-302), `frechet` = `PropCompFrechet`
(385-430) or `PropCompAugMat` (305-382), which differ only in how the external
gradient function computes the same derivative (see C17). -/
inductive PropKind where
  | approx
  | diag
  | frechet
  deriving DecidableEq

/-- Fidelity computer (fidcomp.py): `FidCompUnitary` (262-543) or
`FidCompTraceDiff` (546-717). -/
inductive FidKind where
  | unitary
  | traceDiff
  deriving DecidableEq

/-- `phase_option` of `FidCompUnitary` (fidcomp.py 320-336). -/
inductive PhaseOpt where
  | PSU
  | SU
  deriving DecidableEq

/-- Everything that is fixed by `initialize_controls` (dynamics.py 954-987,
716-833): the system, its options and the external numerical routines. -/
structure Sys where
  /-- `num_tslots` -/
  nTs : Nat
  /-- `num_ctrls` -/
  nCtrls : Nat
  /-- `_drift_dyn_gen[k]`; constant when `time_depend_drift` is false -/
  drift : Nat → Matrix d d ℂ
  /-- `_ctrl_dyn_gen[k, j]`; independent of `k` when not time dependent -/
  ctrl : Nat → Nat → Matrix d d ℂ
  /-- `tau[k]` -/
  tau : Nat → ℝ
  /-- `_apply_phase`, `none` when `dyn_gen_phase` is `None` -/
  phase : Option (Matrix d d ℂ → Matrix d d ℂ)
  /-- `_initial` -/
  initial : Matrix d m ℂ
  /-- `_target` -/
  target : Matrix d m ℂ
  /-- `_get_onto_evo_target()` (dynamics.py 1175-1203, 1589-1598) -/
  ontoTarget : Matrix m d ℂ
  /-- `oper_dtype == Qobj` (otherwise `np.ndarray`) -/
  isQobj : Bool
  cachePhased : Bool
  /-- `_phased_ctrl_dyn_gen[k, j]`, filled by `_init_evo` when phased generators are
  cached (dynamics.py 780-793), see `initSys` -/
  phasedCtrl : Nat → Nat → Matrix d d ℂ
  cachePropGrad : Bool
  propKind : PropKind
  fidKind : FidKind
  phaseOpt : PhaseOpt
  /-- `dimensional_norm` set by `init_normalization` (fidcomp.py 356-372) -/
  dimNorm : ℝ
  /-- `scale_factor` of the trace difference computer -/
  scale : ℝ
  /-- `scipy.linalg.expm` -/
  expm : Matrix d d ℂ → Matrix d d ℂ
  /-- gradient part of `scipy.linalg.expm_frechet(A, E)` -/
  frechet : Matrix d d ℂ → Matrix d d ℂ → Matrix d d ℂ
  /-- `_spectral_decomp` as a function of generator and duration
  (dynamics.py 1600-1682); concrete in `Verif/Model/Spectral.lean` -/
  decompose : Matrix d d ℂ → ℝ → D
  /-- `PropCompDiag._compute_propagator` from the decomposition -/
  diagProp : D → Matrix d d ℂ
  /-- `PropCompDiag._compute_prop_grad` from decomposition, phased control, duration -/
  diagGrad : D → Matrix d d ℂ → ℝ → Matrix d d ℂ

/-- The public operator views `_dyn_gen_qobj`, `_prop_qobj`, ... (dynamics.py
402-407): `none` until a user reads them.  The onward view can hold onward or (by
mistake) forward operators, see `Verif/Model/Views.lean`. -/
structure Views where
  dynGen : Option (Nat → Matrix d d ℂ) := none
  prop : Option (Nat → Matrix d d ℂ) := none
  propGrad : Option (Nat → Nat → Matrix d d ℂ) := none
  fwd : Option (Nat → Matrix d m ℂ) := none
  onwd : Option (Nat → Matrix d d ℂ ⊕ Matrix d m ℂ) := none
  onto : Option (Nat → Matrix m d ℂ) := none

/-- The mutable state: caches of `Dynamics`, of the fidelity computer, and the
statistics counters. -/
structure State where
  ctrlAmps : Option Amps
  evoCurrent : Bool
  dynGen : Nat → Matrix d d ℂ
  phasedDynGen : Nat → Matrix d d ℂ
  decompCurr : Nat → Bool
  decomp : Nat → D
  prop : Nat → Matrix d d ℂ
  propGrad : Nat → Nat → Matrix d d ℂ
  fwd : Nat → Matrix d m ℂ
  onwd : Nat → Matrix d d ℂ
  onto : Nat → Matrix m d ℂ
  fidelityCurrent : Bool
  fidelity : ℝ
  fidErr : ℝ
  prenormCurrent : Bool
  prenorm : ℂ
  gradCurrent : Bool
  grad : Nat → Nat → ℝ
  numAmpUpdates : Nat
  numAmpChanges : Nat
  numTslotChanges : Nat
  numRecompute : Nat
  numFidComputes : Nat
  numGradComputes : Nat
  views : Views d m

variable {d m D}

/-- `_combine_dyn_gen` (dynamics.py 1216-1234):
`dg = drift; for j in range(num_ctrls): dg = dg + amps[k,j]*ctrl[j]`. -/
def combineDynGen (S : Sys d m D) (amps : Amps) (k : Nat) : Matrix d d ℂ :=
  forRange S.nCtrls (fun j dg => dg + (amps k j : ℂ) • S.ctrl k j) (S.drift k)

/-- `_get_phased_dyn_gen` (dynamics.py 1246-1253).  `_phased_dyn_gen` is a list
exactly when phased generators are cached. -/
def getPhasedDynGen (S : Sys d m D) (s : State d m D) (k : Nat) : Matrix d d ℂ :=
  match S.phase with
  | none => s.dynGen k
  | some ph => if S.cachePhased then s.phasedDynGen k else ph (s.dynGen k)

/-- `_get_phased_ctrl_dyn_gen` (dynamics.py 1266-1282): from the cache when there
is one. -/
def getPhasedCtrl (S : Sys d m D) (k j : Nat) : Matrix d d ℂ :=
  match S.phase with
  | none => S.ctrl k j
  | some ph => if S.cachePhased then S.phasedCtrl k j else ph (S.ctrl k j)

/-- The part of `_init_evo` (dynamics.py 780-793) that fills the cache of phased
controls from the current phase. -/
def initSys (S : Sys d m D) : Sys d m D :=
  match S.phase with
  | none => S
  | some ph =>
    if S.cachePhased then { S with phasedCtrl := fun k j => ph (S.ctrl k j) } else S

/-- A system as `initialize_controls` leaves it: at least one slot and control,
and cached phased controls belonging to the phase. -/
structure Valid (S : Sys d m D) : Prop where
  slots : 0 < S.nTs
  ctrls : 0 < S.nCtrls
  phasedCtrl : ∀ ph, S.phase = some ph → S.cachePhased = true →
    ∀ k j, S.phasedCtrl k j = ph (S.ctrl k j)

/-- `_ensure_decomp_curr` (dynamics.py 1438-1448). -/
def ensureDecomp (S : Sys d m D) (s : State d m D) (k : Nat) : State d m D :=
  if s.decompCurr k then s
  else { s with
    decomp := Function.update s.decomp k (S.decompose (s.dynGen k) (S.tau k))
    decompCurr := Function.update s.decompCurr k true }

/-- `_compute_propagator` (propcomp.py 124-138 and 225-247). -/
def computeProp (S : Sys d m D) (s : State d m D) (k : Nat) :
    State d m D × Matrix d d ℂ :=
  match S.propKind with
  | .diag =>
    let s := ensureDecomp S s k
    (s, S.diagProp (s.decomp k))
  | _ => (s, S.expm ((S.tau k : ℂ) • getPhasedDynGen S s k))

/-- `_compute_prop_grad` with `compute_prop=False` (propcomp.py 249-302,
354-382, 399-430).  Never reached for the approximate computer (there the base
class raises `UsageError`; see `getPropGrad`). -/
def computeGrad (S : Sys d m D) (s : State d m D) (k j : Nat) :
    State d m D × Matrix d d ℂ :=
  match S.propKind with
  | .diag =>
    let s := ensureDecomp S s k
    (s, S.diagGrad (s.decomp k) (getPhasedCtrl S k j) (S.tau k))
  | _ => (s, S.frechet ((S.tau k : ℂ) • getPhasedDynGen S s k)
            ((S.tau k : ℂ) • getPhasedCtrl S k j))

/-- `prop_comp.grad_exact` (set in the `reset` methods of propcomp.py). -/
def gradExact (S : Sys d m D) : Bool := S.propKind ≠ .approx

/-- Update of the two-index array `a[k, j] = v`. -/
def update2 {α : Type} (a : Nat → Nat → α) (k j : Nat) (v : α) : Nat → Nat → α :=
  Function.update a k (Function.update (a k) j v)

/-- First loop of `recompute_evolution` (tslotcomp.py 261-264): combine the
generators (and phase them when cached) and mark the decompositions as stale. -/
def genLoop (S : Sys d m D) (amps : Amps) (s : State d m D) : State d m D :=
  forRange S.nTs (fun k s => { s with
    dynGen := Function.update s.dynGen k (combineDynGen S amps k)
    phasedDynGen :=
      match S.phase with
      | some ph =>
        if S.cachePhased then Function.update s.phasedDynGen k (ph (combineDynGen S amps k))
        else s.phasedDynGen
      | none => s.phasedDynGen
    decompCurr := Function.update s.decompCurr k false }) s

/-- Body of the propagator loop for one slot (tslotcomp.py 272-294).  With exact,
cached gradients the propagator is computed together with the gradient of
control 0 (propcomp.py 249-302, 354-430: `compute_prop=True`). -/
def propBody (S : Sys d m D) (k : Nat) (s : State d m D) : State d m D :=
  if gradExact S && S.cachePropGrad then
    forRange S.nCtrls (fun j s =>
      if j = 0 then
        let (s, p) := computeProp S s k
        let (s, g) := computeGrad S s k j
        { s with prop := Function.update s.prop k p, propGrad := update2 s.propGrad k j g }
      else
        let (s, g) := computeGrad S s k j
        { s with propGrad := update2 s.propGrad k j g }) s
  else
    let (s, p) := computeProp S s k
    { s with prop := Function.update s.prop k p }

/-- Forward propagation (tslotcomp.py 301-308). -/
def fwdLoop (n : Nat) (prop : Nat → Matrix d d ℂ) (fwd : Nat → Matrix d m ℂ) :
    Nat → Matrix d m ℂ :=
  forRange n (fun k fwd => Function.update fwd (k + 1) (prop k * fwd k)) fwd

/-- Onward propagation (tslotcomp.py 316-323): `onwd[n-1] = prop[n-1]`, then
`for k in range(n-2, -1, -1): onwd[k] = onwd[k+1] * prop[k]`. -/
def onwdLoop (n : Nat) (prop : Nat → Matrix d d ℂ) (onwd : Nat → Matrix d d ℂ) :
    Nat → Matrix d d ℂ :=
  forDown (n - 1) (fun k onwd => Function.update onwd k (onwd (k + 1) * prop k))
    (Function.update onwd (n - 1) (prop (n - 1)))

/-- Propagation onto the target (tslotcomp.py 325-331). -/
def ontoLoop (n : Nat) (prop : Nat → Matrix d d ℂ) (onto : Nat → Matrix m d ℂ) :
    Nat → Matrix m d ℂ :=
  forDown n (fun k onto => Function.update onto k (onto (k + 1) * prop k)) onto

/-- `uses_onwd_evo` / `uses_onto_evo` (fidcomp.py 287, 571). -/
def usesOnwd (S : Sys d m D) : Bool := S.fidKind = .traceDiff
def usesOnto (S : Sys d m D) : Bool := S.fidKind = .unitary

/-- `recompute_evolution` (tslotcomp.py 225-352) at given amplitudes.  The public
views are cleared first (239-244). -/
def recompute (S : Sys d m D) (amps : Amps) (s : State d m D) : State d m D :=
  let s := { s with numRecompute := s.numRecompute + 1, views := {} }
  let s := genLoop S amps s
  let s := forRange S.nTs (propBody S) s
  let s := { s with fwd := fwdLoop S.nTs s.prop s.fwd }
  let s := if usesOnwd S then { s with onwd := onwdLoop S.nTs s.prop s.onwd } else s
  if usesOnto S then { s with onto := ontoLoop S.nTs s.prop s.onto } else s

/-- `compute_evolution` (dynamics.py 1420-1436).  Without amplitudes
(`ctrl_amps is None`) the first generator cannot be combined: `TypeError`. -/
def computeEvolution (S : Sys d m D) (s : State d m D) :
    State d m D × Except PyErr Bool :=
  if s.evoCurrent then (s, .ok false)
  else match s.ctrlAmps with
    | none => ({ s with numRecompute := s.numRecompute + 1, views := {} }, .error .typeError)
    | some amps => ({ recompute S amps s with evoCurrent := true }, .ok true)

/-- `flag_system_changed` (dynamics.py 1083-1088, fidcomp.py 223-229, 348-354). -/
def flagSystemChanged (s : State d m D) : State d m D :=
  { s with evoCurrent := false, fidelityCurrent := false, gradCurrent := false,
           prenormCurrent := false }

open Classical in
/-- The number of differing amplitudes, `(ctrl_amps != new_amps).sum()`
(tslotcomp.py 193-206). -/
noncomputable def numChanged (S : Sys d m D) (old new : Amps) : Nat :=
  ((List.range S.nTs).map fun k =>
    ((List.range S.nCtrls).filter fun j => old k j ≠ new k j).length).sum

open Classical in
/-- The number of slots with a differing amplitude, `np.any(changed_amps, 1).sum()`. -/
noncomputable def numTslotsChanged (S : Sys d m D) (old new : Amps) : Nat :=
  ((List.range S.nTs).filter fun k =>
    (List.range S.nCtrls).any fun j => old k j ≠ new k j).length

/-- `compare_amps` (tslotcomp.py 170-223), the work of `update_ctrl_amps`
(dynamics.py 1063-1081).  Returns `True` iff the amplitudes are unchanged.
`np.any(changed)` is the number of changes being non-zero. -/
noncomputable def compareAmps (S : Sys d m D) (s : State d m D) (new : Amps) :
    State d m D × Bool :=
  let (changed, nAmps, nTslots) :=
    match s.ctrlAmps with
    | none => (true, S.nTs * S.nCtrls, S.nTs)
    | some old =>
      if numChanged S old new ≠ 0 then
        (true, numChanged S old new, numTslotsChanged S old new)
      else (false, 0, 0)
  let s := { s with
    numAmpUpdates := s.numAmpUpdates + (if nAmps ≠ 0 then 1 else 0)
    numAmpChanges := s.numAmpChanges + nAmps
    numTslotChanges := s.numTslotChanges + nTslots }
  if changed then (flagSystemChanged { s with ctrlAmps := some new }, false)
  else (s, true)

/-- `get_fidelity_prenorm` (fidcomp.py 436-462); the slot used is `num_tslots`
(tslotcomp.py 366-372). -/
def getPrenorm (S : Sys d m D) (s : State d m D) : State d m D × Except PyErr ℂ :=
  if s.prenormCurrent then (s, .ok s.prenorm)
  else
    let k := S.nTs
    match computeEvolution S s with
    | (s, .error e) => (s, .error e)
    | (s, .ok _) =>
      let f := (s.onto k * s.fwd k).trace
      ({ s with prenorm := f, prenormCurrent := true,
                numFidComputes := s.numFidComputes + 1 }, .ok f)

/-- `fid_norm_func` applied to a pre-normalised scalar: `normalize_PSU`
(fidcomp.py 394-405) or `normalize_SU` (374-385).  With `oper_dtype` ndarray the
scalar is a numpy scalar, whose `.shape` is `()`: `A.shape[0]` raises
`IndexError`, which `normalize_PSU` catches and `normalize_SU` does not. -/
noncomputable def fidNorm (S : Sys d m D) (f : ℂ) : Except PyErr ℝ :=
  match S.phaseOpt with
  | .PSU => .ok (‖f‖ / S.dimNorm)
  | .SU => if S.isQobj then .ok (f.re / S.dimNorm) else .error .indexError

/-- `get_fidelity` of the unitary computer (fidcomp.py 423-434). -/
noncomputable def getFidelity (S : Sys d m D) (s : State d m D) :
    State d m D × Except PyErr ℝ :=
  if s.fidelityCurrent then (s, .ok s.fidelity)
  else match getPrenorm S s with
    | (s, .error e) => (s, .error e)
    | (s, .ok f) =>
      match fidNorm S f with
      | .error e => (s, .error e)
      | .ok v => ({ s with fidelity := v, fidelityCurrent := true }, .ok v)

/-- `get_fid_err` of the trace difference computer (fidcomp.py 592-634).
The `isnan` branch cannot occur with exact numbers. -/
noncomputable def getFidErrTD (S : Sys d m D) (s : State d m D) :
    State d m D × Except PyErr ℝ :=
  if s.fidelityCurrent then (s, .ok s.fidErr)
  else match computeEvolution S s with
    | (s, .error e) => (s, .error e)
    | (s, .ok _) =>
      let diff := S.target - s.fwd S.nTs
      let e := S.scale * (diff.conjTranspose * diff).trace.re
      ({ s with fidErr := e, fidelityCurrent := true,
                numFidComputes := s.numFidComputes + 1 }, .ok e)

/-- `get_fid_err` (fidcomp.py 417-421 and 592-634). -/
noncomputable def getFidErr (S : Sys d m D) (s : State d m D) :
    State d m D × Except PyErr ℝ :=
  match S.fidKind with
  | .unitary =>
    match getFidelity S s with
    | (s, .error e) => (s, .error e)
    | (s, .ok f) => (s, .ok |1 - f|)
  | .traceDiff => getFidErrTD S s

/-- `_get_prop_grad` (dynamics.py 1334-1341).  With the approximate propagator
computer `_prop_grad` is `None` (`TypeError`) or the base class raises
`UsageError`. -/
def getPropGrad (S : Sys d m D) (s : State d m D) (k j : Nat) :
    State d m D × Except PyErr (Matrix d d ℂ) :=
  if S.cachePropGrad then
    if gradExact S then (s, .ok (s.propGrad k j)) else (s, .error .typeError)
  else
    if gradExact S then
      let (s, g) := computeGrad S s k j
      (s, .ok g)
    else (s, .error .usageError)

/-- One step of the gradient loops: compute an element unless an exception is
already being raised. -/
def gradStep {R : Type} (entry : State d m D → Nat → Nat → State d m D × Except PyErr R)
    (j k : Nat) (acc : State d m D × Except PyErr (Nat → Nat → R)) :
    State d m D × Except PyErr (Nat → Nat → R) :=
  match acc with
  | (s, .error e) => (s, .error e)
  | (s, .ok g) =>
    match entry s k j with
    | (s, .error e) => (s, .error e)
    | (s, .ok v) => (s, .ok (update2 g k j v))

/-- The double loop `for j in range(n_ctrls): for k in range(n_ts)` filling the
gradient array, with `entry` computing one element (fidcomp.py 526-541, 686-711). -/
def gradLoop {R : Type} (S : Sys d m D)
    (entry : State d m D → Nat → Nat → State d m D × Except PyErr R)
    (g0 : Nat → Nat → R) (s : State d m D) :
    State d m D × Except PyErr (Nat → Nat → R) :=
  forRange S.nCtrls (fun j acc => forRange S.nTs (gradStep entry j) acc) (s, .ok g0)

/-- One element of the overlap gradient (fidcomp.py 526-541):
`tr(onto[k+1] · prop_grad[k,j] · fwd[k])`. -/
def gradEntryUnitary (S : Sys d m D) (s : State d m D) (k j : Nat) :
    State d m D × Except PyErr ℂ :=
  match getPropGrad S s k j with
  | (s, .error e) => (s, .error e)
  | (s, .ok pg) => (s, .ok (s.onto (k + 1) * pg * s.fwd k).trace)

/-- `compute_fid_grad` of the unitary computer (fidcomp.py 508-543). -/
def computeFidGrad (S : Sys d m D) (s : State d m D) :
    State d m D × Except PyErr (Nat → Nat → ℂ) :=
  match computeEvolution S s with
  | (s, .error e) => (s, .error e)
  | (s, .ok _) => gradLoop S (gradEntryUnitary S) (fun _ _ => 0) s

/-- `grad_norm_func`: `normalize_gradient_PSU` (fidcomp.py 407-415) or
`normalize_gradient_SU` (387-392), elementwise.  `np.angle` is `Complex.arg`. -/
noncomputable def gradNorm (S : Sys d m D) (fidPn : ℂ) (g : ℂ) : ℝ :=
  match S.phaseOpt with
  | .PSU => (g * Complex.exp (-Complex.I * (Complex.arg fidPn : ℂ)) / (S.dimNorm : ℂ)).re
  | .SU => g.re / S.dimNorm

/-- `get_fid_err_gradient` of the unitary computer (fidcomp.py 464-506). -/
noncomputable def getGradUnitary (S : Sys d m D) (s : State d m D) :
    State d m D × Except PyErr (Nat → Nat → ℝ) :=
  if s.gradCurrent then (s, .ok s.grad)
  else match computeFidGrad S s with
    | (s, .error e) => (s, .error e)
    | (s, .ok gpre) =>
      match getFidelity S s with
      | (s, .error e) => (s, .error e)
      | (s, .ok f) =>
        match getPrenorm S s with
        | (s, .error e) => (s, .error e)
        | (s, .ok fpn) =>
          let g : Nat → Nat → ℝ := fun k j =>
            if 1 ≤ f then gradNorm S fpn (gpre k j) else -gradNorm S fpn (gpre k j)
          ({ s with grad := g, gradCurrent := true,
                    numGradComputes := s.numGradComputes + 1 }, .ok g)

/-- One element of the trace difference gradient (fidcomp.py 686-711). -/
noncomputable def gradEntryTD (S : Sys d m D) (diff : Matrix d m ℂ) (s : State d m D)
    (k j : Nat) : State d m D × Except PyErr ℝ :=
  match getPropGrad S s k j with
  | (s, .error e) => (s, .error e)
  | (s, .ok pg) =>
    let evoGrad := pg * s.fwd k
    let evoGrad := if k + 1 < S.nTs then s.onwd (k + 1) * evoGrad else evoGrad
    (s, .ok (-2 * S.scale * (diff.conjTranspose * evoGrad).trace.re))

/-- `compute_fid_err_grad` of the trace difference computer (fidcomp.py 664-717). -/
noncomputable def computeErrGradTD (S : Sys d m D) (s : State d m D) :
    State d m D × Except PyErr (Nat → Nat → ℝ) :=
  match computeEvolution S s with
  | (s, .error e) => (s, .error e)
  | (s, .ok _) =>
    let diff := S.target - s.fwd S.nTs
    gradLoop S (gradEntryTD S diff) (fun _ _ => 0) s

/-- `get_fid_err_gradient` of the trace difference computer (fidcomp.py 636-662). -/
noncomputable def getGradTD (S : Sys d m D) (s : State d m D) :
    State d m D × Except PyErr (Nat → Nat → ℝ) :=
  if s.gradCurrent then (s, .ok s.grad)
  else match computeErrGradTD S s with
    | (s, .error e) => (s, .error e)
    | (s, .ok g) =>
      ({ s with grad := g, gradCurrent := true,
                numGradComputes := s.numGradComputes + 1 }, .ok g)

/-- `get_fid_err_gradient` for either computer. -/
noncomputable def getGrad (S : Sys d m D) (s : State d m D) :
    State d m D × Except PyErr (Nat → Nat → ℝ) :=
  match S.fidKind with
  | .unitary => getGradUnitary S s
  | .traceDiff => getGradTD S s

/-- `_init_evo` and `ctrl_amps = None` of `initialize_controls` (dynamics.py
795-815, 940-952, 978): fresh containers whose entries are placeholders (here
taken from an arbitrary `junk` state), `fwd[0] = initial`,
`onto[n] = onto target`, no decomposition current. The counters are kept. -/
def initEvo (S : Sys d m D) (junk s : State d m D) : State d m D :=
  { s with
    ctrlAmps := none
    dynGen := junk.dynGen
    phasedDynGen := junk.phasedDynGen
    decompCurr := fun _ => false
    decomp := junk.decomp
    prop := junk.prop
    propGrad := junk.propGrad
    fwd := Function.update junk.fwd 0 S.initial
    onwd := junk.onwd
    onto := Function.update junk.onto S.nTs S.ontoTarget }

/-- `initialize_controls(amps)` (dynamics.py 954-987). -/
noncomputable def initControls (S : Sys d m D) (junk s : State d m D) (amps : Amps) :
    State d m D :=
  (compareAmps S (initEvo S junk s) amps).1

/-- What a user can do with an initialised system. -/
inductive Op where
  | updateAmps (amps : Amps)
  | computeEvolution
  | getFidelity
  | getFidErr
  | getGradient
  | reinit (amps : Amps)

/-- What an operation returns. -/
inductive Out where
  | none
  | real (r : ℝ)
  | array (g : Nat → Nat → ℝ)
  | error (e : PyErr)

/-- Wrap a Python result. -/
def Out.ofUnit : Except PyErr Bool → Out
  | .ok _ => .none
  | .error e => .error e
def Out.ofReal : Except PyErr ℝ → Out
  | .ok r => .real r
  | .error e => .error e
def Out.ofArray : Except PyErr (Nat → Nat → ℝ) → Out
  | .ok r => .array r
  | .error e => .error e

/-- One operation.  The `True`/`False` returned by `compute_evolution` ("was
anything recomputed") is left to C06 and not part of the output here.
`get_fidelity` does not exist on the trace difference
computer (`AttributeError`). -/
noncomputable def step (S : Sys d m D) (junk s : State d m D) : Op → State d m D × Out
  | .updateAmps a => ((compareAmps S s a).1, .none)
  | .computeEvolution =>
    let r := computeEvolution S s
    (r.1, .ofUnit r.2)
  | .getFidelity =>
    match S.fidKind with
    | .unitary =>
      let r := getFidelity S s
      (r.1, .ofReal r.2)
    | .traceDiff => (s, .error .attributeError)
  | .getFidErr =>
    let r := getFidErr S s
    (r.1, .ofReal r.2)
  | .getGradient =>
    let r := getGrad S s
    (r.1, .ofArray r.2)
  | .reinit a => (initControls S junk s a, .none)

/-- State and outputs of a history. -/
noncomputable def run (S : Sys d m D) (junk : State d m D) :
    State d m D → List Op → State d m D × List Out
  | s, [] => (s, [])
  | s, op :: ops =>
    let (s, o) := step S junk s op
    let (s, os) := run S junk s ops
    (s, o :: os)

end QTrl.Dyn
