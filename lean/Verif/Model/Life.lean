import Verif.Model.Dynamics

/-
Amplitude arrays with their shapes, and initialisations that fail (C82).

`Verif/Model/Dynamics.lean` takes amplitudes to be given for every slot and control and
`initialize_controls` to succeed.  Here `update_ctrl_amps` takes a two-dimensional array of any
shape (arrays of other dimensions are left out), as numpy compares and indexes it, and
`initialize_controls` may stop with an exception at the places where it raises one.
-/

namespace QTrl.Dyn

variable {d m D : Type} [Fintype d] [DecidableEq d] [Fintype m] [DecidableEq m]

/-- A two-dimensional numpy array of amplitudes. -/
structure Arr where
  rows : Nat
  cols : Nat
  val : Amps

/-- The shapes can be broadcast together (numpy, for `ctrl_amps != new_amps`, tslotcomp.py 193). -/
def Arr.broadcasts (a b : Arr) : Bool :=
  (a.rows == b.rows || a.rows == 1 || b.rows == 1) &&
    (a.cols == b.cols || a.cols == 1 || b.cols == 1)

/-- An entry of the broadcast array: axes of length one are repeated. -/
def Arr.stretched (a : Arr) : Amps := fun k j =>
  a.val (if a.rows == 1 then 0 else k) (if a.cols == 1 then 0 else j)

/-- A system with the shape of the comparison `ctrl_amps != new_amps`, for counting. -/
def Arr.common (S : Sys d m D) (a b : Arr) : Sys d m D :=
  { S with nTs := if a.rows == 1 then b.rows else a.rows
           nCtrls := if a.cols == 1 then b.cols else a.cols }

/-- A dynamics object: the system of its containers, its caches and counters, the shape of
`ctrl_amps` (meaningless while that is `None`), and `_ctrls_initialized` (dynamics.py 426, 986). -/
structure Obj (d m D : Type) [Fintype d] [DecidableEq d] [Fintype m] [DecidableEq m] where
  sys : Sys d m D
  st : State d m D
  rows : Nat
  cols : Nat
  ready : Bool

/-- `update_ctrl_amps` (dynamics.py 1063-1081) by `compare_amps` (tslotcomp.py 170-223).  Without
amplitudes any array is taken; otherwise it is compared with the present one, which raises
`ValueError` if the shapes cannot be broadcast (numpy 1.25 or later; earlier versions warn and fail
with `AttributeError` at line 205), and taken only if an entry differs. -/
noncomputable def Obj.update (o : Obj d m D) (new : Arr) : Obj d m D × Except PyErr Bool :=
  match o.st.ctrlAmps with
  | none =>
    ({ o with
        st := flagSystemChanged { o.st with
          numAmpUpdates := o.st.numAmpUpdates + (if new.rows * new.cols ≠ 0 then 1 else 0)
          numAmpChanges := o.st.numAmpChanges + new.rows * new.cols
          numTslotChanges := o.st.numTslotChanges + new.rows
          ctrlAmps := some new.val }
        rows := new.rows
        cols := new.cols }, .ok false)
  | some v =>
    let old : Arr := ⟨o.rows, o.cols, v⟩
    if old.broadcasts new then
      let C := old.common o.sys new
      if numChanged C old.stretched new.stretched ≠ 0 then
        ({ o with
            st := flagSystemChanged { o.st with
              numAmpUpdates := o.st.numAmpUpdates + 1
              numAmpChanges := o.st.numAmpChanges + numChanged C old.stretched new.stretched
              numTslotChanges := o.st.numTslotChanges +
                numTslotsChanged C old.stretched new.stretched
              ctrlAmps := some new.val }
            rows := new.rows
            cols := new.cols }, .ok false)
      else (o, .ok true)
    else (o, .error .valueError)

/-- `compute_evolution` (dynamics.py 1420-1436).  `_combine_dyn_gen(k)` (1216-1234) reads
`ctrl_amps[k, j]` for every control, in the loop of tslotcomp.py 261-264: the first entry outside
the array raises `IndexError`, when the generators of the slots before it have been replaced. -/
def Obj.evolve (o : Obj d m D) : Obj d m D × Except PyErr Bool :=
  match o.st.evoCurrent, o.st.ctrlAmps with
  | false, some a =>
    if o.sys.nTs ≤ o.rows ∧ o.sys.nCtrls ≤ o.cols then
      let r := computeEvolution o.sys o.st
      ({ o with st := r.1 }, r.2)
    else
      let good := if o.sys.nCtrls ≤ o.cols then o.rows else 0
      let s := { o.st with numRecompute := o.st.numRecompute + 1, views := {} }
      ({ o with st := genLoop { o.sys with nTs := good } a s }, .error .indexError)
  | _, _ =>
    let r := computeEvolution o.sys o.st
    ({ o with st := r.1 }, r.2)

/-- A request to the fidelity computer: the value if it is current, otherwise
`compute_evolution` first (fidcomp.py 445, 522, 598, 679) and then the rest of the method,
which finds the evolution current. -/
def Obj.ask {R : Type} (o : Obj d m D) (cached : Bool)
    (f : Sys d m D → State d m D → State d m D × Except PyErr R) : Obj d m D × Except PyErr R :=
  if cached then
    let r := f o.sys o.st
    ({ o with st := r.1 }, r.2)
  else
    match o.evolve with
    | (o, .error e) => (o, .error e)
    | (o, .ok _) =>
      let r := f o.sys o.st
      ({ o with st := r.1 }, r.2)

/-- `get_fid_err` (fidcomp.py 417-462, 592-634). -/
noncomputable def Obj.error (o : Obj d m D) : Obj d m D × Except PyErr ℝ :=
  o.ask (match o.sys.fidKind with
    | .unitary => o.st.fidelityCurrent || o.st.prenormCurrent
    | .traceDiff => o.st.fidelityCurrent) getFidErr

/-- `get_fid_err_gradient` (fidcomp.py 464-543, 636-717). -/
noncomputable def Obj.gradient (o : Obj d m D) :
    Obj d m D × Except PyErr (Nat → Nat → ℝ) :=
  o.ask o.st.gradCurrent getGrad

/-- Where `initialize_controls` (dynamics.py 954-987) stops: it succeeds; a computer is missing
(960-976); the initial or target operator is no `Qobj`, or the drift is unsuitable (the checks at
the beginning of `_init_evo`, 722-732; the later checks of `_init_evo` come when some attributes
have been replaced and are left out); the dump directory cannot be created (the end of `_init_evo`,
823-827). -/
inductive Stop where
  | nowhere
  | computers
  | operators (e : PyErr)
  | directory (e : PyErr)

/-- `initialize_controls` (dynamics.py 954-987) of an object that has been initialised before, for
the system `S'` the attributes now describe.  The amplitudes are forgotten first (978); neither
`_ctrls_initialized` nor the flags of the caches are reset.  The normalisation belongs to the
initialisation of the fidelity computer (985), so it is the old one when the dump directory fails.
The time slots are taken to be the same where the initialisation stops after them. -/
noncomputable def Obj.initialize (o : Obj d m D) (S' : Sys d m D) (junk : State d m D) (a : Arr) :
    Stop → Obj d m D × Except PyErr Bool
  | .nowhere => Obj.update { o with sys := S', st := initEvo S' junk o.st, ready := true } a
  | .computers => (o, .error .usageError)
  | .operators e => ({ o with st := { o.st with ctrlAmps := none } }, .error e)
  | .directory e =>
    ({ o with sys := { S' with dimNorm := o.sys.dimNorm, scale := o.sys.scale }
              st := initEvo S' junk o.st }, .error e)

/-- `check_ctrls_initialized` (dynamics.py 989-995), as called by `run_optimization` and
`save_amps` (optimizer.py 393, dynamics.py 1024). -/
def Obj.check (o : Obj d m D) : Except PyErr Unit :=
  if o.ready then .ok () else .error .usageError

/-- A call of the user. -/
inductive Call (d m D : Type) [Fintype d] [DecidableEq d] [Fintype m] [DecidableEq m] where
  | update (a : Arr)
  | evolution
  | error
  | gradient
  | init (S : Sys d m D) (junk : State d m D) (a : Arr) (stop : Stop)

/-- The effect and outcome of a call (the booleans of `update` and `evolution` are left out). -/
noncomputable def Obj.call (o : Obj d m D) : Call d m D → Obj d m D × Out
  | .update a => let r := o.update a; (r.1, .ofUnit r.2)
  | .evolution => let r := o.evolve; (r.1, .ofUnit r.2)
  | .error => let r := o.error; (r.1, .ofReal r.2)
  | .gradient => let r := o.gradient; (r.1, .ofArray r.2)
  | .init S junk a stop => let r := o.initialize S junk a stop; (r.1, .ofUnit r.2)

/-- The object after calls. -/
noncomputable def Obj.after (o : Obj d m D) : List (Call d m D) → Obj d m D
  | [] => o
  | c :: l => (o.call c).1.after l

/-- The outcomes of calls. -/
noncomputable def Obj.outcomes (o : Obj d m D) : List (Call d m D) → List Out
  | [] => []
  | c :: l => (o.call c).2 :: (o.call c).1.outcomes l

end QTrl.Dyn
