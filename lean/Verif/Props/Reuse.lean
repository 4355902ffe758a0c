import Verif.Proofs.Reuse
import Mathlib.Data.Rat.Defs
import Mathlib.Algebra.Field.Rat
import Mathlib.Algebra.Module.Basic
import Mathlib.Tactic.NormNum

/-
C68: an object initialised for a system does not depend on the systems it was used for before.
-/

namespace QTrl.Reuse

open QTrl.Mem (MemOpts Dtype)

variable {K V : Type} [Field K] [AddCommGroup V] [Module K V]

/-- Numbers as operators: below 10 they have two rows, from there on four. -/
def exW : World Rat where
  rows A := if A < 10 then 2 else 4
  nnz _ := 4
  addRow _ _ := .error .typeError
  phaseRow := .error .typeError

/-- The options: `Qobj` chosen by the user. -/
def exMem : MemOpts :=
  { level := 0, operDtype := some .qobj, cachePhased := none, cachePropGrad := none,
    cacheAdj := none, sparse := none }

/-- A system with two controls. -/
def exA : System Rat := { drift := .single 1, ctrls := .list [2, 3], initial := 1, target := 2 }

/-- Another one with two controls. -/
def exB : System Rat := { drift := .perSlot [4, 5, 6], ctrls := .list [7, 8], initial := 3, target := 4 }

/-- One with three controls. -/
def exC : System Rat := { drift := .single 1, ctrls := .list [2, 3, 4], initial := 1, target := 2 }

/-- One with operators of four rows. -/
def exD : System Rat :=
  { drift := .single 10, ctrls := .list [20, 30], initial := 10, target := 20 }

/-- One with controls for each slot. -/
def exE : System Rat :=
  { drift := .single 1, ctrls := .array [[2, 3], [4, 5], [6, 7]], initial := 1, target := 2 }

/-- The same in a list of lists. -/
def exF : System Rat :=
  { drift := .single 1, ctrls := .nested [[2, 3], [4, 5], [6, 7]], initial := 1, target := 2 }

/-- What the two systems have in common. -/
def exSig : Sig := ⟨2, false, 2, .qobj⟩

theorem exA_fits : Fits exW exMem exSig exA :=
  ⟨⟨rfl, rfl⟩, by simp only [DriftFit, exA, exW, exSig]; norm_num, fun h => by cases h⟩

theorem exB_fits : Fits exW exMem exSig exB :=
  ⟨⟨rfl, rfl⟩, ⟨4, [5, 6], rfl, by simp only [exW, exSig]; norm_num⟩, fun h => by cases h⟩

/-- A new object. -/
def exNew (mem : MemOpts) (sympl : Bool) (S : System Rat) : Obj Rat Rat :=
  new mem 3 sympl false none S

/-- **C68**: whatever an object was used for before, as long as the systems had the same number
of controls, dimension, kind of controls and suitable data type: preparing it for a system has the
same outcome as preparing a new object for it, and the same object results, the one in which
everything comes from the options and this system.  Failed initialisations on the way do not
matter.  Missing: systems that differ in any of these. -/
theorem C68_reuse_partial (W : World V) (m : MemOpts) (nTs : Nat) (sympl hasPhase : Bool)
    (scale : Option K) (s : Sig) (S₀ S S' : System V) (h₀ : Fits W m s S₀) (h' : Fits W m s S')
    (hS : Fits W m s S) (ops : List (Op V)) (ho : ∀ op ∈ ops, OpFits W m s op) :
    let used := prepare W (run W (new (K := K) m nTs sympl hasPhase scale S₀) ops) S
    let fresh := prepare W (new (K := K) m nTs sympl hasPhase scale S') S
    used.2 = fresh.2 ∧
      (used.2 = .ok () → used.1 = ready m nTs sympl hasPhase scale s S ∧ used.1 = fresh.1) := by
  have i1 := inv_run (inv_new (K := K) (nTs := nTs) (sympl := sympl) (hasPhase := hasPhase)
    (scale := scale) h₀) ops ho
  have i2 := inv_new (K := K) (nTs := nTs) (sympl := sympl) (hasPhase := hasPhase)
    (scale := scale) h'
  obtain ⟨a1, a2⟩ := prepare_known i1 hS
  obtain ⟨b1, b2⟩ := prepare_known i2 hS
  have e : (prepare W (run W (new (K := K) m nTs sympl hasPhase scale S₀) ops) S).2 =
      (prepare W (new (K := K) m nTs sympl hasPhase scale S') S).2 := by
    rw [a1, b1]
    exact outcome_congr _ rfl
  refine ⟨e, fun hx => ?_⟩
  rw [a2 hx]
  exact ⟨rfl, (b2 (e ▸ hx)).symm⟩

/-- An object used twice. -/
def exOps : List (Op Rat) := [.readDim, .init, .assign exA, .readNum, .init, .readOmega]

theorem exOps_fit : ∀ op ∈ exOps, OpFits exW exMem exSig op := by
  intro op h
  simp only [exOps, List.mem_cons, List.not_mem_nil, or_false] at h
  rcases h with rfl | rfl | rfl | rfl | rfl | rfl
  · trivial
  · trivial
  · exact exA_fits
  · trivial
  · trivial
  · trivial

example : (prepare exW (run exW (exNew exMem true exA) exOps) exB).1 =
    ready exMem 3 true false none exSig exB :=
  ((C68_reuse_partial (K := Rat) exW exMem 3 true false none exSig exA exB exB exA_fits exB_fits
    exB_fits exOps exOps_fit).2 (by decide +kernel)).1

/-- **C68**: an initialisation without an exception uses the drift, the initial and the target
operator assigned last, the controls assigned last or the array made of them, and takes the
dimension and whether the drift depends on time from this drift, for every object. -/
theorem C68_current (W : World V) (o : Obj K V) (h : (init W o).2 = .ok ()) :
    (∃ c, (c = o.sys.ctrls ∨ c = convert o.sys.ctrls) ∧
      (init W o).1.used = some { o.sys with ctrls := c }) ∧
    (init W o).1.tdDrift = o.sys.drift.perSlot? ∧
    ∃ A, (o.sys.drift = .single A ∨ ∃ r, o.sys.drift = .perSlot (A :: r)) ∧
      (init W o).1.dim = some (W.rows A) := by
  obtain ⟨h1, h2⟩ := init_current o h
  have hk := keeps_init (W := W) o
  refine ⟨⟨(init W o).1.sys.ctrls, hk.ctrls, ?_⟩, h2⟩
  rw [h1]
  have e1 := hk.drift
  have e2 := hk.initial
  have e3 := hk.target
  cases hs : (init W o).1.sys
  rw [hs] at e1 e2 e3
  simp only at e1 e2 e3
  rw [e1, e2, e3]

example : (init exW (run exW (exNew exMem false exA) [.init, .assign exD])).1.dim = some 4 := by
  obtain ⟨-, -, A, hA, hd⟩ := C68_current exW
    (run exW (exNew exMem false exA) [.init, .assign exD]) (by decide +kernel)
  have hs : (run exW (exNew exMem false exA) [.init, .assign exD]).sys.drift = .single 10 := rfl
  rw [hs] at hA
  rcases hA with hA | ⟨r, hA⟩
  · cases hA; rw [hd]; decide +kernel
  · cases hA

/-- **C68**: the generator of a slot is the drift assigned last plus each of the controls assigned
last times its amplitude, after such a history.  Missing: systems that differ as in
`C68_violated_more`. -/
theorem C68_generator_partial (W : World V) (m : MemOpts) (nTs : Nat) (sympl hasPhase : Bool)
    (scale : Option K) (s : Sig) (S₀ S : System V) (h₀ : Fits W m s S₀) (hS : Fits W m s S)
    (ops : List (Op V)) (ho : ∀ op ∈ ops, OpFits W m s op)
    (hok : (prepare W (run W (new (K := K) m nTs sympl hasPhase scale S₀) ops) S).2 = .ok ())
    (amps : Nat → Nat → K) (k : Nat) (hd : ∀ l, S.drift = .perSlot l → k < l.length)
    (hc : ∀ rows, S.ctrls = .array rows → k < rows.length) :
    let o := (prepare W (run W (new (K := K) m nTs sympl hasPhase scale S₀) ops) S).1
    o.used = some S ∧ generator W o S amps k = .ok (docGen S s.n amps k) := by
  have i1 := inv_run (inv_new (K := K) (nTs := nTs) (sympl := sympl) (hasPhase := hasPhase)
    (scale := scale) h₀) ops ho
  have e := (prepare_known i1 hS).2 hok
  have hf := hS.ctrls
  simp only
  rw [e]
  refine ⟨rfl, gen_ready rfl rfl hd ?_ ?_ ?_⟩
  · intro l hl
    rw [hl] at hf
    exact ⟨hf.1, hf.2.ge⟩
  · intro rows hr
    rw [hr] at hf
    exact ⟨hf.1, hc rows hr, fun r h => (hf.2.2 r h).ge⟩
  · intro rows hr
    rw [hr] at hf
    exact hf

example : (generator exW (prepare exW (run exW (exNew exMem true exA) exOps) exB).1 exB
    (fun k j => k + 10 * j) 2) = .ok (6 + (2 * 7 + 12 * 8)) := by
  refine (C68_generator_partial (K := Rat) exW exMem 3 true false none exSig exA exB exA_fits
    exB_fits exOps exOps_fit (by decide +kernel) (fun k j => k + 10 * j) 2 ?_ ?_).2.trans ?_
  · intro l h; cases h; decide
  · intro l h; cases h
  · decide +kernel

/-- **C68**: what an object has worked out once stays, whatever it is prepared for and whether or
not that succeeds: the number of controls and whether they depend on time, the scale factor, the
matrix of symplectic dynamics and the phase, the data type. -/
theorem C68_kept (W : World V) (o : Obj K V) (S : System V) :
    let p := (prepare W o S).1
    (∀ n, o.num = some n → p.num = some n ∧ p.tdCtrl = o.tdCtrl) ∧
    (∀ x, o.scale = some x → p.scale = some x) ∧
    (∀ n, o.omega = some n → p.omega = some n) ∧
    (∀ n, o.phase = some n → p.phase = some n) ∧
    (∀ d, o.mem.operDtype = some d → p.mem.operDtype = some d) := by
  have hk := (keeps_num { o with sys := S }).trans (keeps_init (W := W) _)
  exact ⟨hk.num, hk.scale, hk.omega, hk.phase, hk.dtype⟩

example : (prepare exW (prepare exW (exNew exMem true exA) exA).1 exD).1.phase = some 1 :=
  (C68_kept exW _ exD).2.2.2.1 1 (by decide +kernel)

/-- **C68, violated**: an object used for operators of two rows keeps the scale factor 1/4 of the
trace difference when it is initialised for operators of four rows, where a new object has 1/8
(fidcomp.py 585-586): the fidelity error is twice what it should be. -/
theorem C68_violated_scale :
    (prepare exW (prepare exW (exNew exMem false exA) exA).1 exD).2 = .ok () ∧
    (prepare exW (prepare exW (exNew exMem false exA) exA).1 exD).1.scale = some (1 / 4) ∧
    (prepare exW (exNew exMem false exD) exD).1.scale = some (1 / 8) := by
  decide +kernel

/-- **C68, violated**: an object used for two controls and then initialised for three ignores the
third without a word (`_num_ctrls` is worked out once, dynamics.py 1129-1150): the generator lacks
it. -/
theorem C68_violated_more :
    let o := (prepare exW (prepare exW (exNew exMem false exA) exA).1 exC).1
    (prepare exW (prepare exW (exNew exMem false exA) exA).1 exC).2 = .ok () ∧
    generator exW o exC (fun _ _ => 1) 0 = .ok (1 + (2 + 3)) ∧
    docGen exC 3 (fun _ _ => (1 : Rat)) 0 = 1 + (2 + (3 + 4)) := by
  decide +kernel

/-- **C68, violated**: an object used for three controls and then initialised for two raises
`IndexError` when the generator is combined. -/
theorem C68_violated_fewer :
    let o := (prepare exW (prepare exW (exNew exMem false exC) exC).1 exA).1
    (prepare exW (prepare exW (exNew exMem false exC) exC).1 exA).2 = .ok () ∧
    generator exW o exA (fun _ _ => 1) 0 = .error .indexError := by
  decide +kernel

/-- **C68, violated**: an object used for controls given for each slot and then initialised for a
plain list raises `TypeError` when the generator is combined: `time_depend_ctrl_dyn_gen` is never
set back (dynamics.py 1133-1139). -/
theorem C68_violated_list :
    let o := (prepare exW (prepare exW (exNew exMem false exE) exE).1 exA).1
    (prepare exW (prepare exW (exNew exMem false exE) exE).1 exA).2 = .ok () ∧
    generator exW o exA (fun _ _ => 1) 0 = .error .typeError := by
  decide +kernel

/-- The options with arrays as the data type. -/
def exMemNd : MemOpts :=
  { level := 0, operDtype := some .ndarray, cachePhased := none, cachePropGrad := none,
    cacheAdj := none, sparse := none }

/-- **C68, violated**: a new object accepts a list of lists of controls, one used before does not:
`_ctrl_dyn_gen_checked` is never set back, so the list of lists is not made an array
(dynamics.py 720-722) and, with arrays as the data type, `c.full()` of a list raises
`AttributeError`. -/
theorem C68_violated_nested :
    (prepare exW (exNew exMemNd false exF) exF).2 = .ok () ∧
    (prepare exW (prepare exW (exNew exMemNd false exA) exA).1 exF).2 =
      .error .attributeError := by
  decide +kernel

/-- **C68, violated**: symplectic dynamics keep the matrix `omega` and the phase made of it with
the dimension of the first system (dynamics.py 1781-1826). -/
theorem C68_violated_omega :
    (prepare exW (prepare exW (exNew exMem true exA) exA).1 exD).2 = .ok () ∧
    (prepare exW (prepare exW (exNew exMem true exA) exA).1 exD).1.omega = some 1 ∧
    (prepare exW (exNew exMem true exD) exD).1.omega = some 2 := by
  decide +kernel

/-- The options left to the level. -/
def exMemFree (level : Int) : MemOpts :=
  { level := level, operDtype := none, cachePhased := none, cachePropGrad := none,
    cacheAdj := none, sparse := none }

/-- **C68, violated**: raising `memory_optimization` after the first initialisation changes
nothing: the caches that a new object would do without stay (dynamics.py 625-673). -/
theorem C68_violated_level :
    let o := (prepare exW (exNew (exMemFree 0) false exA) exA).1
    let p := (init exW { o with mem := { o.mem with level := 1 } }).1
    p.mem.level = 1 ∧ p.mem.cachePropGrad = some true ∧ p.mem.cacheAdj = some true ∧
    (prepare exW (exNew (exMemFree 1) false exA) exA).1.mem.cachePropGrad = some false ∧
    (prepare exW (exNew (exMemFree 1) false exA) exA).1.mem.cacheAdj = some false := by
  decide +kernel

/-- **C68, violated**: whether controls given for each slot can be initialised depends on whether
`num_ctrls` was read before, if an operator and an array of operators cannot be added: the kind of
the controls is only found out there, after the data type was chosen by adding rows as if they were
operators (dynamics.py 684-694, 724-726, 1133-1139).  The optimiser objects read it first. -/
theorem C68_violated_unread :
    (init exW (exNew (exMemFree 0) false exE)).2 = .error .typeError ∧
    (init exW (readNum (exNew (exMemFree 0) false exE)).1).2 = .ok () := by
  decide +kernel

end QTrl.Reuse
