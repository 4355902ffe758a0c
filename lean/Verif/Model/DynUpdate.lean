import Verif.Model.Dynamics

/-
Model of `TSlotCompDynUpdate` (tslotcomp.py 375-648), the timeslot computer that
recomputes only what is marked, together with the parts of `Dynamics` it works on.

`Host` says whether the surrounding objects provide the two methods the class and
its clients call:
* `computeDynGen`: `dyn.compute_dyn_gen(k)` (tslotcomp.py 555).  The present
  `Dynamics` has no such method.
* `fidSlot`: `tslot_computer._get_timeslot_for_fidelity_calc()` (called at
  fidcomp.py 444).  The class only has the method without the underscore.
The theorems for histories are about a host providing both; `Host.present` is the
code as it stands.

Simplifications: `dyn.dyn_gen[k] = …` and `dyn.prop[k] = …` are taken to write the
stored operators; `compute_dyn_gen(k)` is taken to combine drift and controls at the
present amplitudes (as `_combine_dyn_gen`, dynamics.py 1216-1234) and to mark the
decomposition of the slot as stale, so that the propagator is computed from the stored
generator.  The tests `np.any(mask)` around the loops only skip loops that would do
nothing and are left out.  Masks are total functions; entries outside the arrays are
never consulted.
-/

namespace QTrl.DynUpdate

open QTrl.Dyn

/-- Which methods the surrounding objects provide. -/
structure Host where
  computeDynGen : Bool
  fidSlot : Bool

/-- The classes as they are in the repository: dynamics.py has no `compute_dyn_gen`,
tslotcomp.py 375-648 no `_get_timeslot_for_fidelity_calc`. -/
def Host.present : Host := ⟨false, false⟩

/-- A surrounding that offers what the class calls. -/
def Host.complete : Host := ⟨true, true⟩

variable (d m : Type) [Fintype d] [DecidableEq d] [Fintype m] [DecidableEq m]

/-- A set of masks, one for each kind of operator: generators, propagators, evolution
from the initial object (`evo_init2t`) and onto the target (`evo_t2targ`). -/
structure Masks where
  gen : Nat → Bool
  prop : Nat → Bool
  fwd : Nat → Bool
  onto : Nat → Bool

/-- The stored operators, the marks "needs recalculation" and "calculate now"
(tslotcomp.py 390-398), the amplitudes and the `evo_current` flag of `Dynamics`. -/
structure UState where
  ctrlAmps : Option Amps
  evoCurrent : Bool
  dynGen : Nat → Matrix d d ℂ
  prop : Nat → Matrix d d ℂ
  fwd : Nat → Matrix d m ℂ
  onto : Nat → Matrix m d ℂ
  recalc : Masks
  now : Masks

variable {d m} {D : Type}

/-- No mark at all. -/
def Masks.empty : Masks :=
  ⟨fun _ => false, fun _ => false, fun _ => false, fun _ => false⟩

/-- `init_comp` (tslotcomp.py 403-428) on the operator lists that `_init_evo`
(dynamics.py 720-833) has just created: only the first forward and the last onward
operator are set, `junk` stands for the placeholders. -/
def initComp (S : Sys d m D) (junk : UState d m) : UState d m :=
  { junk with
    ctrlAmps := none
    evoCurrent := false
    fwd := Function.update junk.fwd 0 S.initial
    onto := Function.update junk.onto S.nTs S.ontoTarget
    recalc := ⟨fun _ => true, fun _ => true,
      Function.update (fun _ => true) 0 false,
      Function.update (fun _ => true) S.nTs false⟩
    now := Masks.empty }

open Classical in
/-- `changed_ts_mask` (tslotcomp.py 441-454): the slots with a changed amplitude. -/
noncomputable def changedMask (S : Sys d m D) (old : Option Amps) (new : Amps) (k : Nat) :
    Bool :=
  match old with
  | none => decide (0 < S.nCtrls)
  | some a => (List.range S.nCtrls).any fun j => a k j ≠ new k j

/-- The loop that finds the first and last changed slot (tslotcomp.py 462-468). -/
def firstLast (n : Nat) (changed : Nat → Bool) : Option Nat × Nat :=
  forRange n (fun i (fl : Option Nat × Nat) =>
    if changed i then
      (match fl.1 with
        | none => some i
        | some f => some f, i)
    else fl) (none, 0)

/-- `compare_amps` (tslotcomp.py 430-486). -/
noncomputable def compareAmps (S : Sys d m D) (s : UState d m) (new : Amps) :
    UState d m × Bool :=
  let changed := changedMask S s.ctrlAmps new
  if (List.range S.nTs).any changed then
    let fl := firstLast S.nTs changed
    let first := fl.1.getD 0
    let last := fl.2
    ({ s with
        ctrlAmps := some new
        evoCurrent := false
        recalc :=
          { gen := fun k => s.recalc.gen k || changed k
            prop := fun k => s.recalc.prop k || changed k
            fwd := fun k => s.recalc.fwd k || decide (first + 1 ≤ k)
            onto := fun k => s.recalc.onto k || decide (k < last + 1) } }, false)
  else (s, true)

/-- `flag_all_calc_now` (tslotcomp.py 488-497): of the evolution operators all but the
last forward and all but the first onward one. -/
def flagAll (S : Sys d m D) (s : UState d m) : UState d m :=
  { s with now :=
      { gen := fun _ => true
        prop := fun _ => true
        fwd := fun k => s.now.fwd k || decide (k < S.nTs)
        onto := fun k => s.now.onto k || decide (1 ≤ k) } }

/-- Setting further "calculate now" marks by hand: the masks are public attributes of
the class (tslotcomp.py 390-398, 423-428). -/
def choose (s : UState d m) (c : Masks) : UState d m :=
  { s with now :=
      { gen := fun k => s.now.gen k || c.gen k
        prop := fun k => s.now.prop k || c.prop k
        fwd := fun k => s.now.fwd k || c.fwd k
        onto := fun k => s.now.onto k || c.onto k } }

/-- The marks of the forward operators to be computed, extended back to an operator
that is up to date (tslotcomp.py 518-531). -/
def fwdNow (n : Nat) (s : UState d m) : Nat → Bool :=
  forDown n (fun k now =>
      if now (k + 1) && s.recalc.fwd k then Function.update now k true else now)
    (fun k => s.now.fwd k && s.recalc.fwd k)

/-- The marks of the onward operators (tslotcomp.py 521-523, 533-538). -/
def ontoNow (n : Nat) (s : UState d m) : Nat → Bool :=
  forRange n (fun k now =>
      if now k && s.recalc.onto (k + 1) then Function.update now (k + 1) true else now)
    (fun k => s.now.onto k && s.recalc.onto k)

/-- `prop_recomp_now` (tslotcomp.py 542-546). -/
def propNow (s : UState d m) (f o : Nat → Bool) (k : Nat) : Bool :=
  (f (k + 1) || o k || s.now.prop k) && s.recalc.prop k

/-- `dyn_gen_recomp_now` (tslotcomp.py 547-549). -/
def genNow (s : UState d m) (p : Nat → Bool) (k : Nat) : Bool :=
  (p k || s.now.gen k) && s.recalc.gen k

/-- The propagator of slot `k` from a generator (propcomp.py 124-140, 225-247). -/
def propOf (S : Sys d m D) (k : Nat) (G : Matrix d d ℂ) : Matrix d d ℂ :=
  match S.propKind with
  | .diag => S.diagProp (S.decompose G (S.tau k))
  | _ => S.expm ((S.tau k : ℂ) •
      match S.phase with
      | none => G
      | some ph => ph G)

/-- Generator loop (tslotcomp.py 551-557). -/
def genStep (S : Sys d m D) (a : Amps) (now : Nat → Bool) (s : UState d m) : UState d m :=
  forRange S.nTs (fun k s =>
    if now k then { s with
      dynGen := Function.update s.dynGen k (combineDynGen S a k)
      recalc := { s.recalc with gen := Function.update s.recalc.gen k false } }
    else s) s

/-- Propagator loop (tslotcomp.py 564-571). -/
def propStep (S : Sys d m D) (now : Nat → Bool) (s : UState d m) : UState d m :=
  forRange S.nTs (fun k s =>
    if now k then { s with
      prop := Function.update s.prop k (propOf S k (s.dynGen k))
      recalc := { s.recalc with prop := Function.update s.recalc.prop k false } }
    else s) s

/-- Forward loop (tslotcomp.py 578-587), `k` of the code is `k + 1` here. -/
def fwdStep (S : Sys d m D) (now : Nat → Bool) (s : UState d m) : UState d m :=
  forRange S.nTs (fun k s =>
    if now (k + 1) then { s with
      fwd := Function.update s.fwd (k + 1) (s.prop k * s.fwd k)
      recalc := { s.recalc with fwd := Function.update s.recalc.fwd (k + 1) false } }
    else s) s

/-- Onward loop (tslotcomp.py 596-603). -/
def ontoStep (S : Sys d m D) (now : Nat → Bool) (s : UState d m) : UState d m :=
  forDown S.nTs (fun k s =>
    if now k then { s with
      onto := Function.update s.onto k (s.onto (k + 1) * s.prop k)
      recalc := { s.recalc with onto := Function.update s.recalc.onto k false } }
    else s) s

/-- `recompute_evolution` (tslotcomp.py 499-612).  If a generator has to be computed,
a host without `compute_dyn_gen` raises `AttributeError` and amplitudes never supplied
raise `TypeError` (`None[k, j]`), in both cases before anything is stored. -/
def recompute (H : Host) (S : Sys d m D) (s : UState d m) : UState d m × Except PyErr Unit :=
  let f := fwdNow S.nTs s
  let o := ontoNow S.nTs s
  let p := propNow s f o
  let g := genNow s p
  if (List.range S.nTs).any g && !H.computeDynGen then (s, .error .attributeError)
  else if (List.range S.nTs).any g && s.ctrlAmps.isNone then (s, .error .typeError)
  else
    let s := genStep S (s.ctrlAmps.getD fun _ _ => 0) g s
    let s := propStep S p s
    let s := fwdStep S f s
    let s := ontoStep S o s
    ({ s with now := Masks.empty }, .ok ())

/-- `compute_evolution` (dynamics.py 1420-1436). -/
def computeEvolution (H : Host) (S : Sys d m D) (s : UState d m) :
    UState d m × Except PyErr Bool :=
  if s.evoCurrent then (s, .ok false)
  else
    match recompute H S s with
    | (s, .error e) => (s, .error e)
    | (s, .ok ()) => ({ s with evoCurrent := true }, .ok true)

/-- The loop of `get_timeslot_for_fidelity_calc` (tslotcomp.py 625-633), the pair
being `(kFwdEvoCurrent, kBothEvoCurrent)` with `none` for `-1`; `break` is modelled by
leaving the pair alone once the second part is set. -/
def slotLoop (n : Nat) (r : Masks) : Option Nat × Option Nat :=
  forRange n (fun k (p : Option Nat × Option Nat) =>
    if p.2.isSome then p
    else if !r.fwd k then (some k, if !r.onto k then some k else none)
    else p) (none, none)

/-- `get_timeslot_for_fidelity_calc` (tslotcomp.py 614-648).  The `FunctionalError`
raised when no slot is found is `usageError` here (errors.py 10-43: both are
subclasses of the package's `Error`). -/
def fidSlot (S : Sys d m D) (s : UState d m) : UState d m × Except PyErr Nat :=
  let mark (k : Nat) : UState d m := { s with now := { s.now with
    fwd := Function.update s.now.fwd k true
    onto := Function.update s.now.onto k true } }
  match slotLoop S.nTs s.recalc with
  | (_, some k) => (mark k, .ok k)
  | (some k, none) => (mark k, .ok k)
  | (none, none) => (s, .error .usageError)

/-- `get_fidelity_prenorm` of the unitary fidelity computer (fidcomp.py 436-462) on a
host: choose a slot, bring the evolution up to date, and take the trace.  The cached
value (`fidelity_prenorm_current`) is left out: here every call computes. -/
noncomputable def prenorm (H : Host) (S : Sys d m D) (s : UState d m) :
    UState d m × Except PyErr ℂ :=
  if !H.fidSlot then (s, .error .attributeError)
  else
    match fidSlot S s with
    | (s, .error e) => (s, .error e)
    | (s, .ok k) =>
      match computeEvolution H S s with
      | (s, .error e) => (s, .error e)
      | (s, .ok _) => (s, .ok (s.onto k * s.fwd k).trace)

/-- What can be asked of the computer between initialisations. -/
inductive UOp where
  /-- `update_ctrl_amps(new)` (dynamics.py 1063-1081) -/
  | update (new : Amps)
  /-- `flag_all_calc_now()` -/
  | flagAll
  /-- marking operators for immediate calculation -/
  | choose (c : Masks)
  /-- `get_timeslot_for_fidelity_calc()` -/
  | slot
  /-- `recompute_evolution()` -/
  | recompute
  /-- `compute_evolution()` -/
  | compute

/-- One operation; errors leave the state as the operation left it. -/
noncomputable def step (H : Host) (S : Sys d m D) (s : UState d m) : UOp → UState d m
  | .update new => (compareAmps S s new).1
  | .flagAll => flagAll S s
  | .choose c => choose s c
  | .slot => (fidSlot S s).1
  | .recompute => (recompute H S s).1
  | .compute => (computeEvolution H S s).1

/-- A history. -/
noncomputable def run (H : Host) (S : Sys d m D) (s : UState d m) (ops : List UOp) :
    UState d m :=
  ops.foldl (step H S) s

end QTrl.DynUpdate
