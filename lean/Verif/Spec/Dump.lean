import Verif.Model.Dump

/-
What the dump properties say, apart from how the code does it.
-/

namespace QTrl.Dump

variable {R G A X : Type}

/-! ### Histories of the optimiser dump -/

/-- The flags in force after an operation. -/
def OOp.flags (f : OptFlags) : OOp R G → OptFlags
  | .setFlags g => g
  | _ => f

/-- Each operation of a history with the flags in force when it happens. -/
def annotate (f : OptFlags) : List (OOp R G) → List (OptFlags × OOp R G)
  | [] => []
  | op :: ops => (f, op) :: annotate (op.flags f) ops

/-- Whether an operation is `clear()`. -/
def OOp.isClear : OOp R G → Bool
  | .clear => true
  | _ => false

/-- What happened after the last `clear()`. -/
def afterClear (l : List (OptFlags × OOp R G)) : List (OptFlags × OOp R G) :=
  (l.reverse.takeWhile fun e => !e.2.isClear).reverse

/-- The enabled events of each category in a history. -/
def fidErrs (l : List (OptFlags × OOp R G)) : List R :=
  l.filterMap fun
    | (f, .fidErr x) => if f.fidErr then some x else none
    | _ => none

def gradNorms (l : List (OptFlags × OOp R G)) : List R :=
  l.filterMap fun
    | (f, .grad n _) => if f.gradNorm then some n else none
    | _ => none

def grads (l : List (OptFlags × OOp R G)) : List G :=
  l.filterMap fun
    | (f, .grad _ g) => if f.grad then some g else none
    | _ => none

def iters (l : List (OptFlags × OOp R G)) : List (IterSum R) :=
  l.filterMap fun
    | (f, .iter s) => if f.summary then some s else none
    | _ => none

/-! ### Histories of the dynamics dump -/

/-- A recomputation of the evolution as the dump sees it. -/
structure Event (R A X : Type) where
  flags : DynFlags
  snap : Snapshot A X
  cur : EvoSum R
  stats : Option (Nat × Nat × Nat)

/-- The recomputations since the last `clear()`, with the flags in force at each. -/
def events (f : DynFlags) : List (Event R A X) → List (DOp R A X) → List (Event R A X)
  | acc, [] => acc
  | acc, .dump s c st :: ops => events f (acc ++ [⟨f, s, c, st⟩]) ops
  | acc, .setFlags g :: ops => events g acc ops
  | _, .clear :: ops => events f [] ops

/-- Whether any operators are to be dumped. -/
def wantsItem (f : DynFlags) : Bool :=
  f.amps || f.dynGen || f.prop || f.propGrad || f.fwd || f.onwd || f.onto

/-- An item records exactly the enabled categories of a snapshot. -/
def Records (f : DynFlags) (s : Snapshot A X) (it : EvoItem A X) : Prop :=
  it.ctrlAmps = (if f.amps then some s.ctrlAmps else none) ∧
  it.dynGen = (if f.dynGen then some s.dynGen else none) ∧
  it.prop = (if f.prop then some s.prop else none) ∧
  it.propGrad = (if f.propGrad then s.propGrad else none) ∧
  it.fwdEvo = (if f.fwd then some s.fwdEvo else none) ∧
  it.onwdEvo = (if f.onwd then s.onwdEvo else none) ∧
  it.ontoEvo = (if f.onto then s.ontoEvo else none)

/-- Summary `r` is the one computed at the event, with the numbers of the calls. -/
def Reports (e : Event R A X) (r : EvoSum R) : Prop :=
  r.ampsChanged = e.cur.ampsChanged ∧ r.tslotsChanged = e.cur.tslotsChanged ∧
  r.wallDynGen = e.cur.wallDynGen ∧ r.wallProp = e.cur.wallProp ∧
  r.wallFwd = e.cur.wallFwd ∧ r.wallOnwd = e.cur.wallOnwd ∧
  ∀ i f g, e.stats = some (i, f, g) →
    r.iterNum = some i ∧ r.fidCall = some f ∧ r.gradCall = some g

/-- The lists of a snapshot have the lengths that go with `n` slots and `m` controls. -/
def Snapshot.Sized (s : Snapshot A X) (n m : Nat) : Prop :=
  s.dynGen.length = n ∧ s.prop.length = n ∧ s.fwdEvo.length = n + 1 ∧
  (∀ pg, s.propGrad = some pg → pg.length = n ∧ ∀ r ∈ pg, r.length = m) ∧
  (∀ l, s.onwdEvo = some l → l.length = n) ∧
  (∀ l, s.ontoEvo = some l → l.length = n + 1)

/-- Flags with which writing an item out succeeds. -/
def Writable (f : DynFlags) : Prop :=
  (f.prop ∨ f.fwd ∨ f.onwd ∨ f.onto → f.dynGen) ∧ (f.onwd ∨ f.onto → f.fwd)

instance (f : DynFlags) : Decidable (Writable f) := by unfold Writable; infer_instance

/-- The records are complete and in order: one item for each event that wants one and one
summary for each event that wants one, at the positions given by the number of earlier such
events; the summary refers to the item of its own event. -/
def Complete (l : List (Event R A X)) (d : DDump R A X) : Prop :=
  let items := List.countP fun e : Event R A X => wantsItem e.flags
  let sums := List.countP fun e : Event R A X => e.flags.summary
  d.evoDumps.length = items l ∧ d.evoSummary.length = sums l ∧
  ∀ pre e post, l = pre ++ e :: post →
    (wantsItem e.flags = true →
      ∃ it, d.evoDumps[items pre]? = some it ∧ it.idx = items pre ∧ Records e.flags e.snap it) ∧
    (e.flags.summary = true →
      ∃ r, d.evoSummary[sums pre]? = some r ∧ r.idx = sums pre ∧
        r.evoDumpIdx = (if wantsItem e.flags then some (items pre) else none) ∧ Reports e r)

/-! ### Contents of evolution files -/

/-- The blocks are the first `n` operators of the list, labelled with their slots in order. -/
def Lists (s : Section) (l : List X) (n : Nat) (b : List (Block A X)) : Prop :=
  b.length = n ∧ ∀ k, k < n → b[k]? = l[k]?.map (.oper (.slot s k))

/-- The blocks are the gradients of `n` slots and `m` controls, slot by slot. -/
def ListsGrads (pg : List (List X)) (n m : Nat) (b : List (Block A X)) : Prop :=
  b.length = n * m ∧
  ∀ k j, k < n → j < m → b[k * m + j]? = (pg[k]?.bind (·[j]?)).map (.oper (.ctrl k j))

/-- The sections a dump with the flags has, in the order of the file. -/
def sectionsOf (f : DynFlags) (s : Snapshot A X) : List Section :=
  (if f.amps then [.ctrlAmps] else []) ++ (if f.dynGen then [.dynGen] else []) ++
  (if f.prop then [.prop] else []) ++
  (if f.propGrad && s.propGrad.isSome then [.propGrad] else []) ++
  (if f.fwd then [.fwdEvo] else []) ++
  (if f.onwd && s.onwdEvo.isSome then [.onwdEvo] else []) ++
  (if f.onto && s.ontoEvo.isSome then [.ontoEvo] else [])

end QTrl.Dump
