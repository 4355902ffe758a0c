import Verif.Model.Basic
import Mathlib.Data.Matrix.Basic
import Mathlib.LinearAlgebra.Matrix.Trace
import Mathlib.LinearAlgebra.Matrix.ConjTranspose
import Mathlib.Analysis.Complex.Basic
import Mathlib.Analysis.SpecialFunctions.Trigonometric.Basic
import Mathlib.Algebra.Order.Floor.Ring

/-
Model of the stand-alone GRAPE functions `grape_unitary`, `cy_grape_unitary` and
`grape_unitary_adaptive` (grape.py) and of `cy_grape_inner` (cy_grape.py).

Conventions
* The array `u` is a total function of its indices; the shape is kept apart.
* Numbers are exact, so there is no NaN.
* `expm` and the interpolation are parameters; interpolation is only evaluated at the given
  times.
* Progress bars, warnings, log messages and the interpolating form of the returned
  Hamiltonian are left out.
-/

namespace QTrl.Grape

variable {d : Type} [Fintype d] [DecidableEq d]

/-- `u[r, j, m]` -/
abbrev Arr := Nat → Nat → Nat → ℝ

/-- `u[r, j, m] = x` -/
def Arr.set (u : Arr) (r j m : Nat) (x : ℝ) : Arr :=
  fun r' j' m' => if r' = r ∧ j' = j ∧ m' = m then x else u r' j' m'

/-- A row of the start pulse: a number, which numpy spreads over the times, or an array. -/
inductive Row where
  | scalar (x : ℝ)
  | vec (l : List ℝ)

/-- The start pulse: a Python list or a numpy array of rows. -/
inductive UStart where
  | list (rows : List Row)
  | array (rows : List Row)

/-- The arguments shared by the three functions. -/
structure Args (d : Type) where
  target : Matrix d d ℂ
  h0 : Matrix d d ℂ
  hOps : List (Matrix d d ℂ)
  nIter : Nat
  times : List ℝ
  eps : Option ℝ
  uStart : Option UStart
  /-- whether `np.array(u_start)` is an array of integers -/
  startInt : Bool
  uLimits : Option (List ℝ)
  useInterp : Bool
  alpha : Option ℝ
  beta : Option ℝ
  phaseSensitive : Bool
  /-- `Qobj.expm` -/
  expm : Matrix d d ℂ → Matrix d d ℂ
  /-- the interpolating function through the times and values at a time -/
  interp : List ℝ → (Nat → ℝ) → ℝ → ℝ

/-- `M`, `J` and `dt`. -/
def Args.M (a : Args d) : Nat := a.times.length
def Args.J (a : Args d) : Nat := a.hOps.length
def Args.dt (a : Args d) : ℝ := a.times.getD 1 0 - a.times.getD 0 0

/-- `if alpha:` for `None` or a number. -/
def truthy (x : Option ℝ) : Prop := ∃ v, x = some v ∧ v ≠ 0

/-- `eps`, by default `0.1 * (2 * np.pi) / times[-1]` (grape.py 144-145). -/
noncomputable def Args.epsVal (a : Args d) : Except PyErr ℝ :=
  match a.eps with
  | some e => .ok e
  | none =>
      match a.times.getLast? with
      | none => .error .indexError
      | some t => .ok (0.1 * (2 * Real.pi) / t)

/-- The number of entries of an array of rows. -/
def rowSize : Row → Nat
  | .scalar _ => 1
  | .vec l => l.length

/-- `bool(u_start)`: a list is true if it is not empty; an array with other than one entry
raises ValueError (the empty array, for which numpy warns or raises, is taken to raise). -/
noncomputable def UStart.truth : UStart → Except PyErr Bool
  | .list rows => .ok (!rows.isEmpty)
  | .array [.scalar x] => .ok (if x = 0 then false else true)
  | .array [.vec [x]] => .ok (if x = 0 then false else true)
  | .array _ => .error .valueError

/-- Whether `np.array(rows)` is a proper array: only numbers, or arrays of one length. -/
def homogeneous : List Row → Bool
  | [] => true
  | .scalar _ :: rs => rs.all fun | .scalar _ => true | .vec _ => false
  | .vec l :: rs => rs.all fun | .scalar _ => false | .vec l' => l'.length == l.length

/-- A number assigned to an entry of an array: numpy cuts off the fraction if the entries are
integers. -/
noncomputable def stored (int : Bool) (x : ℝ) : ℝ :=
  if int then (if 0 ≤ x then (⌊x⌋ : ℝ) else (⌈x⌉ : ℝ)) else x

/-- `u_start[u_start < lo] = lo; u_start[u_start > hi] = hi`, entry by entry (grape.py
158-162). -/
noncomputable def clipSeq (int : Bool) (lo hi x : ℝ) : ℝ :=
  let y := if x < lo then stored int lo else x
  if y > hi then stored int hi else y

noncomputable def Row.clip (int : Bool) (lo hi : ℝ) : Row → Row
  | .scalar x => .scalar (clipSeq int lo hi x)
  | .vec l => .vec (l.map (clipSeq int lo hi))

def UStart.rows : UStart → List Row
  | .list rows => rows
  | .array rows => rows

/-- `u[0, idx, :] = u0` for all rows from number `idx` on (grape.py 164-166): numpy accepts a
number, an array of length `M` or one of length 1. -/
def fillRows (nIter J M : Nat) : List Row → Nat → Arr → Except PyErr Arr
  | [], _, u => .ok u
  | row :: rows, idx, u =>
      if nIter = 0 ∨ J ≤ idx then .error .indexError
      else
        match row with
        | .scalar x =>
            fillRows nIter J M rows (idx + 1)
              (fun r j m => if r = 0 ∧ j = idx then x else u r j m)
        | .vec l =>
            if l.length = M then
              fillRows nIter J M rows (idx + 1)
                (fun r j m => if r = 0 ∧ j = idx then l.getD m 0 else u r j m)
            else if l.length = 1 then
              fillRows nIter J M rows (idx + 1)
                (fun r j m => if r = 0 ∧ j = idx then l.getD 0 0 else u r j m)
            else .error .valueError

/-- The limits in use: `None` and `[]` are false (grape.py 152-153). -/
def Args.limits (a : Args d) : Except PyErr (Option (ℝ × ℝ)) :=
  match a.uLimits with
  | none => .ok none
  | some [] => .ok none
  | some [lo, hi] => .ok (some (lo, hi))
  | some _ => .error .valueError

/-- The start pulse after clipping (grape.py 158-162). -/
noncomputable def Args.start (a : Args d) (lim : Option (ℝ × ℝ)) :
    Except PyErr (Option (List Row)) :=
  match a.uStart, lim with
  | none, _ => .ok none
  | some s, none => .ok (some s.rows)
  | some s, some (lo, hi) =>
      match s.truth with
      | .error e => .error e
      | .ok false => .ok (some s.rows)
      | .ok true =>
          if homogeneous s.rows then .ok (some (s.rows.map (Row.clip a.startInt lo hi)))
          else .error .valueError

/-- The array `u` before the first iteration (grape.py 147-166). -/
noncomputable def Args.init (a : Args d) (lim : Option (ℝ × ℝ)) : Except PyErr Arr :=
  match a.start lim with
  | .error e => .error e
  | .ok none => .ok fun _ _ _ => 0
  | .ok (some rows) => fillRows a.nIter a.J a.M rows 0 fun _ _ _ => 0

/-- `_overlap` and `cy_overlap` (grape.py 92-93, cy_grape.py 6-22). -/
noncomputable def overlap (A B : Matrix d d ℂ) : ℂ :=
  (A.conjTranspose * B).trace / (Fintype.card d : ℂ)

/-- The amplitude that goes into the Hamiltonian of slot `idx`, for a pulse `v[j][m]`
(grape.py 176-202). -/
def Args.amp (a : Args d) (v : Nat → Nat → ℝ) (j idx : Nat) : ℝ :=
  if a.useInterp then a.interp a.times (v j) (a.times.getD idx 0) else v j idx

/-- `_H_idx(idx)` and `_H_t(times[idx])` (grape.py 188-200). -/
noncomputable def Args.ham (a : Args d) (v : Nat → Nat → ℝ) (idx : Nat) : Matrix d d ℂ :=
  a.h0 + ((List.range a.J).map fun j => ((a.amp v j idx : ℝ) : ℂ) • a.hOps.getD j 0).sum

/-- `(-1j * H * dt).expm()` -/
noncomputable def Args.slot (a : Args d) (v : Nat → Nat → ℝ) (idx : Nat) : Matrix d d ℂ :=
  a.expm ((-Complex.I * (a.dt : ℂ)) • a.ham v idx)

/-- `U_list` (grape.py 193-202). -/
noncomputable def Args.uList (a : Args d) (v : Nat → Nat → ℝ) : List (Matrix d d ℂ) :=
  (List.range (a.M - 1)).map (a.slot v)

/-- The variables of the loop over the slots (grape.py 204-213). -/
structure Props (d : Type) where
  uf : Matrix d d ℂ
  ub : Matrix d d ℂ
  fList : List (Matrix d d ℂ)
  bList : List (Matrix d d ℂ)

/-- The forward and backward propagators (grape.py 204-213). -/
noncomputable def Args.propagators (a : Args d) (ul : List (Matrix d d ℂ)) : Props d :=
  forRange (a.M - 1) (fun n p =>
    let uf := ul.getD n 0 * p.uf
    { uf := uf
      fList := p.fList ++ [uf]
      bList := p.ub :: p.bList
      ub := (ul.getD (a.M - 2 - n) 0).conjTranspose * p.ub }) ⟨1, 1, [], []⟩

/-- The increment of amplitude `j` at slot `m` before penalties (grape.py 217-223). -/
noncomputable def Args.du0 (a : Args d) (p : Props d) (j m : Nat) : ℂ :=
  let P := p.bList.getD m 0 * a.target
  let Q := (Complex.I * (a.dt : ℂ)) • (a.hOps.getD j 0 * p.fList.getD m 0)
  if a.phaseSensitive then -overlap P Q
  else -2 * overlap P Q * overlap (p.fList.getD m 0) P

/-- `x` limited as the loops do it (grape.py 235-239). -/
noncomputable def clipElif (lim : Option (ℝ × ℝ)) (x : ℝ) : ℝ :=
  match lim with
  | none => x
  | some (lo, hi) => if x < lo then lo else if x > hi then hi else x

open Classical in
/-- The increment in `grape_unitary` (grape.py 217-231). -/
noncomputable def Args.du (a : Args d) (p : Props d) (u : Arr) (r j m : Nat) : ℂ :=
  let du := a.du0 p j m
  let du := if truthy a.alpha then
      du + ((-2 * a.alpha.getD 0 * u r j m * a.dt : ℝ) : ℂ) else du
  if truthy a.beta then du + ((-2 * a.beta.getD 0 * (m : ℝ) * u r j m * a.dt : ℝ) : ℂ) else du

/-- The updates of one iteration in `grape_unitary` (grape.py 215-241). -/
noncomputable def Args.update (a : Args d) (eps : ℝ) (lim : Option (ℝ × ℝ)) (p : Props d)
    (r : Nat) (u : Arr) : Arr :=
  forRange a.J (fun j u =>
    let u := forRange (a.M - 1) (fun m u =>
      let u := u.set (r + 1) j m (u r j m + eps * (a.du p u r j m).re)
      u.set (r + 1) j m (clipElif lim (u (r + 1) j m))) u
    u.set (r + 1) j (a.M - 1) (u (r + 1) j (a.M - 2))) u

/-- `alpha_val` and `beta_val` (grape.py 364-365). -/
def orZero (x : Option ℝ) : ℝ := x.getD 0

open Classical in
/-- The increment in `cy_grape_inner` (cy_grape.py 107-122). -/
noncomputable def Args.cyDu (a : Args d) (p : Props d) (u : Arr) (r j m : Nat) : ℂ :=
  let alpha := orZero a.alpha
  let beta := orZero a.beta
  let du := a.du0 p j m
  let du := if alpha > 0 then du + ((-2 * alpha * u r j m * a.dt : ℝ) : ℂ) else du
  if beta ≠ 0 then du + ((-2 * beta * (m : ℝ) ^ 2 * u r j m * a.dt : ℝ) : ℂ) else du

/-- `cy_grape_inner` (cy_grape.py 104-135). -/
noncomputable def Args.cyUpdate (a : Args d) (eps : ℝ) (lim : Option (ℝ × ℝ)) (p : Props d)
    (r : Nat) (u : Arr) : Arr :=
  let u := forRange (a.M - 1) (fun m u =>
    forRange a.J (fun j u =>
      let u := u.set (r + 1) j m (u r j m + eps * (a.cyDu p u r j m).re)
      u.set (r + 1) j m (clipElif lim (u (r + 1) j m))) u) u
  forRange a.J (fun j u => u.set (r + 1) j (a.M - 1) (u (r + 1) j (a.M - 2))) u

/-- Which of the two functions. -/
inductive Impl where
  | py
  | cy
  deriving DecidableEq

noncomputable def Args.step (a : Args d) (i : Impl) (eps : ℝ) (lim : Option (ℝ × ℝ))
    (p : Props d) (r : Nat) (u : Arr) : Arr :=
  match i with
  | .py => a.update eps lim p r u
  | .cy => a.cyUpdate eps lim p r u

/-- The loop variables that outlive the iterations: `u` and `U_f_list`, which does not exist
before the first. -/
structure Loop (d : Type) where
  u : Arr
  fList : Option (List (Matrix d d ℂ))

/-- One iteration (grape.py 171-241, 367-428). -/
noncomputable def Args.iter (a : Args d) (i : Impl) (eps : ℝ) (lim : Option (ℝ × ℝ)) (r : Nat)
    (s : Loop d) : Loop d :=
  let p := a.propagators (a.uList (s.u r))
  { u := a.step i eps lim p r s.u, fList := some p.fList }

/-- `GRAPEResult`; the Hamiltonian is represented by its amplitudes. -/
structure Result (d : Type) where
  u : Arr
  uf : Matrix d d ℂ
  ht : Nat → Nat → ℝ

/-- `grape_unitary` (grape.py 96-266) and `cy_grape_unitary` (269-448). -/
noncomputable def Args.run (a : Args d) (i : Impl) : Except PyErr (Result d) :=
  match a.epsVal with
  | .error e => .error e
  | .ok eps =>
  match a.limits with
  | .error e => .error e
  | .ok lim =>
  match a.init lim with
  | .error e => .error e
  | .ok u =>
  -- `times[1] - times[0]` in the first iteration
  if 2 ≤ a.nIter ∧ a.M < 2 then .error .indexError
  else
    let s := forRange (a.nIter - 1) (a.iter i eps lim) ⟨u, none⟩
    -- `u[-1, j, :]` of an array without rows
    if a.nIter = 0 ∧ 0 < a.J then .error .indexError
    else
      match s.fList with
      | none => .error .unboundLocalError
      | some l =>
          match l.getLast? with
          | none => .error .indexError
          | some uf => .ok ⟨s.u, uf, s.u (a.nIter - 1)⟩

/-! ### The adaptive function -/

/-- `u[r, j, m, k]` -/
abbrev Arr4 := Nat → Nat → Nat → Nat → ℝ

def Arr4.set (u : Arr4) (r j m k : Nat) (x : ℝ) : Arr4 :=
  fun r' j' m' k' => if r' = r ∧ j' = j ∧ m' = m ∧ k' = k then x else u r' j' m' k'

/-- The variables of the loop over the iterations. -/
structure AState (d : Type) where
  u : Arr4
  /-- `eps_vec` -/
  eps : Nat → ℝ
  epsLog : Nat → ℝ
  overlapLog : Nat → ℝ
  bestK : Nat
  prev : ℝ
  /-- `Uf` -/
  uf : Nat → Option (Matrix d d ℂ)
  /-- `_r` -/
  last : Nat

/-- `np.argmax` of three numbers: the first largest. -/
noncomputable def argmax3 (f : Nat → ℝ) : Nat :=
  if f 1 ≤ f 0 ∧ f 2 ≤ f 0 then 0 else if f 2 ≤ f 1 then 1 else 2

/-- `_fidelity_function(x).real` (grape.py 557-565, 663-665). -/
noncomputable def fidelity (phaseSensitive : Bool) (x : ℂ) : ℝ :=
  if phaseSensitive then x.re else ‖x‖ ^ 2

open Classical in
/-- The increment (grape.py 623-641), without the penalty for late amplitudes. -/
noncomputable def Args.aDu (a : Args d) (p : Props d) (u : Arr4) (best r j m : Nat) : ℂ :=
  let du := a.du0 p j m
  if truthy a.alpha then du + ((-2 * a.alpha.getD 0 * u r j m best * a.dt : ℝ) : ℂ) else du

/-- The updates of the three trials (grape.py 621-651). -/
noncomputable def Args.aUpdate (a : Args d) (lim : Option (ℝ × ℝ)) (p : Props d) (eps : Nat → ℝ)
    (best r : Nat) (u : Arr4) : Arr4 :=
  forRange a.J (fun j u =>
    let u := forRange (a.M - 1) (fun m u =>
      let du := a.aDu p u best r j m
      forRange 3 (fun k u =>
        let u := u.set (r + 1) j m k (u r j m k + eps k * du.re)
        u.set (r + 1) j m k (clipElif lim (u (r + 1) j m k))) u) u
    forRange 3 (fun k u => u.set (r + 1) j (a.M - 1) k (u (r + 1) j (a.M - 2) k)) u) u

/-- `_H_idx(r, idx, k)` never interpolates (grape.py 583-584). -/
noncomputable def Args.plainSlot (a : Args d) (v : Nat → Nat → ℝ) (idx : Nat) : Matrix d d ℂ :=
  { a with useInterp := false }.slot v idx

/-- The propagator of a trial (grape.py 656-662). -/
noncomputable def Args.trial (a : Args d) (v : Nat → Nat → ℝ) : Matrix d d ℂ :=
  forRange (a.M - 1) (fun m U => a.plainSlot v m * U) 1

/-- The pulse of trial `k` at iteration `r`. -/
def pulse (u : Arr4) (r k : Nat) : Nat → Nat → ℝ := fun j m => u r j m k

/-- One iteration up to the test for termination (grape.py 571-691). -/
noncomputable def Args.aStep (a : Args d) (lim : Option (ℝ × ℝ)) (r : Nat) (s : AState d) :
    AState d :=
  let epsLog := Function.update s.epsLog r (s.eps s.bestK)
  let p := a.propagators (a.uList (pulse s.u r s.bestK))
  let u := a.aUpdate lim p s.eps s.bestK r s.u
  let uf := fun k => if k < 3 then some (a.trial (pulse u (r + 1) k)) else none
  let kOverlap := fun k =>
    fidelity a.phaseSensitive (overlap (a.trial (pulse u (r + 1) k)) a.target)
  let best := argmax3 kOverlap
  let overlapLog := Function.update s.overlapLog r (kOverlap best)
  if s.prev > kOverlap best then
    { s with
      u := fun r' => if r' = r + 1 then u r else u r'
      eps := fun k => s.eps k / 2
      epsLog := epsLog, overlapLog := overlapLog, bestK := best, uf := uf, last := r }
  else
    { s with
      u := u
      eps := fun k => if best = 0 then s.eps k / 2 else if best = 2 then s.eps k * 2 else s.eps k
      epsLog := epsLog, overlapLog := overlapLog, bestK := best, uf := uf, last := r
      prev := kOverlap best }

open Classical in
/-- The loop: `n` more iterations from number `r` on, unless the goal is reached
(grape.py 571-698). -/
noncomputable def Args.aLoop (a : Args d) (lim : Option (ℝ × ℝ)) (goal : ℝ) :
    Nat → Nat → AState d → AState d
  | 0, _, s => s
  | n + 1, r, s =>
      let s := a.aStep lim r s
      if goal < 1 ∧ s.overlapLog r > goal then s else a.aLoop lim goal n (r + 1) s

/-- The state before the first iteration (grape.py 508-569). -/
noncomputable def aInit (u : Arr) (eps : ℝ) : AState d :=
  { u := fun r j m k => if k < 3 then u r j m else 0
    eps := fun k => if k = 0 then eps / 2 else if k = 1 then eps else 2 * eps
    epsLog := fun _ => 0, overlapLog := fun _ => 0, bestK := 1, prev := 0
    uf := fun _ => none, last := 0 }

/-- What the function returns: `u[:_r, :, :, best_k]` as the number of rows and the rows. -/
structure AResult (d : Type) where
  rows : Nat
  u : Arr
  uf : Option (Matrix d d ℂ)
  ht : Nat → Nat → ℝ
  epsLog : Nat → ℝ
  overlapLog : Nat → ℝ

open Classical in
/-- `grape_unitary_adaptive` (grape.py 451-716) without interpolation of the result.  With a
penalty for late amplitudes it raises at the first update (grape.py 639-641): `k` is not bound
unless a start pulse was given, when `u[r, j, k]` is a list of three. -/
noncomputable def Args.runAdaptive (a : Args d) (goal : ℝ) : Except PyErr (AResult d) :=
  match a.epsVal with
  | .error e => .error e
  | .ok eps =>
  match a.limits with
  | .error e => .error e
  | .ok lim =>
  match a.init lim with
  | .error e => .error e
  | .ok u =>
  if 2 ≤ a.nIter ∧ a.M < 2 then .error .indexError
  else if 2 ≤ a.nIter ∧ 0 < a.J ∧ truthy a.beta then
    if (a.uStart.map fun s => s.rows.isEmpty).getD true then .error .unboundLocalError
    else if a.M = 2 then .error .indexError
    else .error .valueError
  else
    let s := a.aLoop lim goal (a.nIter - 1) 0 (aInit u eps)
    if a.nIter = 0 ∧ 0 < a.J then .error .indexError
    else .ok
      { rows := s.last, u := fun r j m => s.u r j m s.bestK, uf := s.uf s.bestK
        ht := fun j m => s.u s.last j m s.bestK
        epsLog := s.epsLog, overlapLog := s.overlapLog }

end QTrl.Grape
