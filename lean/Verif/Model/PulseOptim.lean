import Verif.Model.OptimSetup

/-
Model of the entry points of pulseoptim.py: `create_pulse_optimizer`, `optimize_pulse`,
`optimize_pulse_unitary`, `opt_pulse_crab` and `opt_pulse_crab_unitary`.

Arguments are Python values `Val`; dictionaries are references into a heap, so that writing to
a caller's dictionary is visible.  A call binds keyword arguments to the callee's parameters,
with the callee's defaults.  What the entry points do not decide themselves is a parameter
`World`: the outcome of the checks of the operators, the attributes of newly created objects
and the pulses that generators produce.  Simplifications: messages and the level of the logger
are left out, a dictionary holding another dictionary is not needed except for
`crab_pulse_params`, numpy arrays of bounds are not considered, and parameters that replace the
computers of a dynamics object through `dyn_params` are treated as ordinary attributes.
Attributes of the dynamics that are Python properties (the number of time slots) are kept as they
were assigned; the rounding and the checks of their setters are in `Model/DynReset.lean`.
-/

namespace QTrl.PO

open QTrl.Opt (Dict Attrs setattr setAll Cls Conf)

/-- Python values.  `list` is a list of numbers, `dict` a reference, `obj` anything else. -/
inductive Val where
  | none
  | bool (b : Bool)
  | num (q : ℚ)
  | str (s : String)
  | list (l : List ℚ)
  | dict (r : ℕ)
  | obj (i : ℕ)
  deriving DecidableEq

/-- Parameters and local variables of a function. -/
abbrev Env := String → Val

/-- Assignment to a variable. -/
def Env.set (e : Env) (n : String) (v : Val) : Env := fun m => if m = n then v else e m

/-- The dictionaries that exist. -/
structure Heap where
  dicts : ℕ → Dict Val
  next : ℕ

/-- `d[k] = v`. -/
def Heap.put (h : Heap) (r : ℕ) (k : String) (v : Val) : Heap where
  dicts := fun i => if i = r then (h.dicts r).set k v else h.dicts i
  next := h.next

/-- A new dictionary; its reference is `h.next`. -/
def Heap.alloc (h : Heap) (d : Dict Val) : Heap where
  dicts := fun i => if i = h.next then d else h.dicts i
  next := h.next + 1

/-- The state of a call. -/
structure St where
  vars : Env
  heap : Heap

/-- `bool(v)`. -/
def truthy (h : Heap) : Val → Bool
  | .none => false
  | .bool b => b
  | .num q => q ≠ 0
  | .str s => s ≠ ""
  | .list l => l ≠ []
  | .dict r => h.dicts r ≠ []
  | .obj _ => true

/-- `_upper_safe` (pulseoptim.py 88-93). -/
def upperSafe : Val → Val
  | .str s => .str (pyUpper s)
  | v => v

/-- `v is None or v.upper() == "DEF"`. -/
def isDef : Val → Except PyErr Bool
  | .none => .ok true
  | .str s => .ok (pyUpper s = "DEF")
  | _ => .error .attributeError

/-! ### Deprecated parameters -/

/-- `if <kw> is not None: if isinstance(<target>, dict): if <check> not in <target>:
<target>[<store>] = <kw>  else: <target> = {<store>: <kw>}` (pulseoptim.py 373-417,
1774-1818). -/
def foldKw (kw target check store : String) (s : St) : St :=
  match s.vars kw with
  | .none => s
  | v =>
      match s.vars target with
      | .dict r =>
          if (s.heap.dicts r).has check then s
          else { s with heap := s.heap.put r store v }
      | _ =>
          { vars := s.vars.set target (.dict s.heap.next)
            heap := s.heap.alloc [(store, v)] }

/-- `if optim_alg is not None: optim_method = optim_alg` (pulseoptim.py 366-371, 1767-1772). -/
def foldAlg (s : St) : St :=
  match s.vars "optim_alg" with
  | .none => s
  | v => { s with vars := s.vars.set "optim_method" v }

/-- The deprecated `amp_update_mode` (pulseoptim.py 419-429, 1820-1830). -/
def foldAmpMode (s : St) : St :=
  match s.vars "amp_update_mode" with
  | .none => s
  | v =>
      let t := if upperSafe v = .str "ALL" then .str "UPDATE_ALL" else v
      { s with vars := s.vars.set "tslot_type" t }

/-- The method parameters (pulseoptim.py 373-395, 767-789, 1774-1796). -/
def foldMethod (s : St) : St :=
  foldKw "accuracy_factor" "method_params" "accuracy_factor" "accuracy_factor"
    (foldKw "max_metric_corr" "method_params" "max_metric_corr" "max_metric_corr" s)

/-- Management of the deprecated parameters (pulseoptim.py 366-429, 1767-1830).  The entry
looked for and the entry written differ for `fid_err_scale_factor`. -/
def foldDeprecated (s : St) : St :=
  foldAmpMode
    (foldKw "fid_err_scale_factor" "fid_params" "fid_err_scale_factor" "scale_factor"
      (foldKw "phase_option" "fid_params" "phase_option" "phase_option"
        (foldMethod (foldAlg s))))

/-! ### Components -/

inductive DynCls where
  | genMat
  | unitary
  | symplectic
  deriving DecidableEq

inductive PropCls where
  | approx
  | diag
  | augMat
  | frechet
  deriving DecidableEq

inductive FidCls where
  | traceDiff
  | traceDiffApprox
  | unitary
  deriving DecidableEq

inductive TslotCls where
  | updateAll
  | dynUpdate
  deriving DecidableEq

inductive StatsCls where
  | stats
  | dynTsUpdate
  deriving DecidableEq

inductive PGCls where
  | random | rndFourier | rndWaves | rndWalk1 | rndWalk2 | linear | zero | sine | square | saw
  | triangle | gaussian | crabFourier | gaussianEdge
  deriving DecidableEq

/-- A pulse generator. -/
structure PG where
  cls : PGCls
  attrs : Attrs Val

/-- `optim.pulse_generator`. -/
inductive Gens where
  | one (g : PG)
  | many (gs : List PG)

/-- What `create_pulse_optimizer` returns. -/
structure Optim where
  cls : Cls
  conf : Conf Val
  dyn : DynCls
  dynAttrs : Attrs Val
  prop : PropCls
  propAttrs : Attrs Val
  fid : FidCls
  fidAttrs : Attrs Val
  tslot : TslotCls
  tslotAttrs : Attrs Val
  stats : Option StatsCls
  gens : Gens
  /-- `dyn.num_ctrls` -/
  numCtrls : ℕ

/-- What the entry points do not decide. -/
structure World where
  /-- the checks of drift, controls, initial and target; the number of controls -/
  check : Val → Val → Val → Val → Except PyErr ℕ
  dynNew : DynCls → Attrs Val
  propNew : PropCls → Attrs Val
  fidNew : FidCls → Attrs Val
  tslotNew : TslotCls → Attrs Val
  optNew : Cls → Attrs Val
  tcNew : Attrs Val
  /-- a generator created with these parameters -/
  pgNew : PGCls → Dict Val → Attrs Val
  /-- `gen_pulse()`: role of the generator, number of the call, generator -/
  gen : String → ℕ → PG → Except PyErr Val

/-- `o.apply_params(params)` on an object created without parameters. -/
def applyParams (h : Heap) (o : Attrs Val) : Val → Attrs Val
  | .dict r => setAll o (h.dicts r)
  | _ => o

/-- The contents of a value that should be a dictionary. -/
def dictOf (h : Heap) : Val → Option (Dict Val)
  | .dict r => some (h.dicts r)
  | _ => none

/-- Choice of the dynamics (pulseoptim.py 1870-1877).  The message of the error is built with
`+`, which fails for a value that is no string. -/
def pickDyn : Val → Except PyErr DynCls
  | .none => .ok .genMat
  | .str s =>
      if s = "GEN_MAT" ∨ s = "" then .ok .genMat
      else if s = "UNIT" then .ok .unitary
      else if s = "SYMPL" then .ok .symplectic
      else .error .usageError
  | _ => .error .typeError

/-- `_create_computers` (dynamics.py 523-536, 1548-1562, 1758-1771). -/
def defaultProp : DynCls → PropCls
  | .genMat => .frechet
  | .symplectic => .frechet
  | .unitary => .diag

/-- `_create_computers` (dynamics.py 523-536, 1548-1562, 1758-1771). -/
def defaultFid : DynCls → FidCls
  | .genMat => .traceDiff
  | .symplectic => .traceDiff
  | .unitary => .unitary

/-- `_create_computers`, given `config.tslot_type` (dynamics.py 530-533, 1555-1558,
1765-1768). -/
def configTslot (v : Val) : TslotCls := if v = .str "DYNAMIC" then .dynUpdate else .updateAll

/-- Choice of the propagator computer (pulseoptim.py 1884-1900); no class of propagator
computer is a subclass of another of these. -/
def pickProp (d : DynCls) : Val → Except PyErr PropCls
  | .none => .ok (defaultProp d)
  | .str s =>
      if s = "DEF" ∨ s = "" then .ok (defaultProp d)
      else if s = "APPROX" then .ok .approx
      else if s = "DIAG" then .ok .diag
      else if s = "AUG_MAT" then .ok .augMat
      else if s = "FRECHET" then .ok .frechet
      else .error .usageError
  | _ => .error .typeError

/-- `isinstance(current, c)`: `FidCompTraceDiffApprox` is a subclass of `FidCompTraceDiff`. -/
def FidCls.isA (current c : FidCls) : Bool :=
  current = c || (current = .traceDiffApprox && c = .traceDiff)

/-- `c(dyn)`: the trace difference computer requires a propagator computer with exact gradients
when it is created (fidcomp.py 568-578); its subclass does not (fidcomp.py 732-738).  That
`prop_params` can overwrite `grad_exact` is left out. -/
def FidCls.new (p : PropCls) : FidCls → Except PyErr FidCls
  | .traceDiff => if p = .approx then .error .usageError else .ok .traceDiff
  | .traceDiffApprox => .ok .traceDiffApprox
  | .unitary => .ok .unitary

/-- `if not isinstance(dyn.fid_computer, c): dyn.fid_computer = c(dyn)`. -/
def FidCls.replace (p : PropCls) (current c : FidCls) : Except PyErr FidCls :=
  if current.isA c then .ok current else c.new p

/-- Choice of the fidelity computer (pulseoptim.py 1907-1921). -/
def pickFid (d : DynCls) (p : PropCls) : Val → Except PyErr FidCls
  | .none => .ok (defaultFid d)
  | .str s =>
      if pyUpper s = "DEF" ∨ pyUpper s = "" then .ok (defaultFid d)
      else if pyUpper s = "TDAPPROX" then (defaultFid d).replace p .traceDiffApprox
      else if pyUpper s = "TRACEDIFF" then (defaultFid d).replace p .traceDiff
      else if pyUpper s = "UNIT" then (defaultFid d).replace p .unitary
      else .error .usageError
  | _ => .error .typeError

/-- The algorithm. -/
inductive Alg where
  | grape
  | crab
  deriving DecidableEq

/-- `alg_up` (pulseoptim.py 1833-1853). -/
def pickAlg (v : Val) : Except PyErr Alg :=
  match upperSafe v with
  | .str s =>
      if s = "GRAPE" then .ok .grape
      else if s = "CRAB" then .ok .crab
      else .error .usageError
  | _ => .error .usageError

/-- `if <name> is None or <name>.upper() == "DEF": <name> = v`. -/
def defaultTo (name : String) (v : Val) (s : St) : Except PyErr St :=
  match isDef (s.vars name) with
  | .error e => .error e
  | .ok true => .ok { s with vars := s.vars.set name v }
  | .ok false => .ok s

/-- The defaults of the algorithms (pulseoptim.py 1833-1853). -/
def algDefaults (a : Alg) (s : St) : Except PyErr St :=
  match a with
  | .grape =>
      match defaultTo "optim_method" (.str "FMIN_L_BFGS_B") s with
      | .error e => .error e
      | .ok s => defaultTo "init_pulse_type" (.str "RND") s
  | .crab =>
      match defaultTo "optim_method" (.str "FMIN") s with
      | .error e => .error e
      | .ok s =>
          match defaultTo "prop_type" (.str "APPROX") s with
          | .error e => .error e
          | .ok s => defaultTo "init_pulse_type" .none s

/-- Choice of the optimiser (pulseoptim.py 1930-1958).  A method that is no string reaches
the last branch; `None` has been replaced before. -/
def pickOptim (a : Alg) (m : Val) : Except PyErr Cls :=
  match upperSafe m with
  | .none => .error .usageError
  | .str s =>
      if s = "" then .error .usageError
      else if s = "FMIN_BFGS" then .ok .bfgs
      else if s = "LBFGSB" ∨ s = "FMIN_L_BFGS_B" then .ok .lbfgsb
      else if s = "FMIN" then
        match a with
        | .crab => .ok .crabFmin
        | .grape => .error .usageError
      else
        match a with
        | .crab => .ok .crab
        | .grape => .ok .base
  | _ =>
      match a with
      | .crab => .ok .crab
      | .grape => .ok .base

/-- `create_pulse_gen` (pulsegen.py 54-84). -/
def pickPG : Val → Except PyErr PGCls
  | .str s =>
      if s = "RND" then .ok .random
      else if s = "RNDFOURIER" then .ok .rndFourier
      else if s = "RNDWAVES" then .ok .rndWaves
      else if s = "RNDWALK1" then .ok .rndWalk1
      else if s = "RNDWALK2" then .ok .rndWalk2
      else if s = "LIN" then .ok .linear
      else if s = "ZERO" then .ok .zero
      else if s = "SINE" then .ok .sine
      else if s = "SQUARE" then .ok .square
      else if s = "SAW" then .ok .saw
      else if s = "TRIANGLE" then .ok .triangle
      else if s = "GAUSSIAN" then .ok .gaussian
      else if s = "CRAB_FOURIER" then .ok .crabFourier
      else if s = "GAUSSIAN_EDGE" then .ok .gaussianEdge
      else .error .valueError
  | _ => .error .valueError

/-- `create_pulse_gen(pulse_type, dyn, pulse_params)`. -/
def createGen (W : World) (h : Heap) (ty params : Val) : Except PyErr PG :=
  (pickPG ty).map fun c => ⟨c, W.pgNew c ((dictOf h params).getD [])⟩

/-- `evo_time / num_tslots` succeeds: numbers (`bool` counts as a number) and a divisor that is
not zero. -/
def divides : Val → Val → Bool
  | .num _, .num n => n ≠ 0
  | .num _, .bool b => b
  | .bool _, .num n => n ≠ 0
  | .bool _, .bool b => b
  | _, _ => false

/-- The bound of the generator of control `j` (pulseoptim.py 2058-2076). -/
def genBound (h : Heap) (b : Val) (j : ℕ) : Val :=
  if truthy h b then
    match b with
    | .list l =>
        match l[j]? with
        | some q => .num q
        | none =>
            match l.getLast? with
            | some q => .num q
            | none => .none
    | v => v
  else .none

/-- The settings read from `alg_params` (pulseoptim.py 2022-2031). -/
structure CrabSettings where
  numCoeffs : Val
  fixFreqs : Val
  coeffScaling : Val
  pulseParams : Val

/-- Reading `alg_params` (pulseoptim.py 2020-2031). -/
def crabSettings (h : Heap) (v : Val) : CrabSettings :=
  match dictOf h v with
  | some d =>
      { numCoeffs := (d.get "num_coeffs").getD .none
        fixFreqs := (d.get "fix_frequency").getD (.bool true)
        coeffScaling := (d.get "init_coeff_scaling").getD .none
        pulseParams := (d.get "crab_pulse_params").getD .none }
  | none =>
      { numCoeffs := .none, fixFreqs := .bool true, coeffScaling := .none, pulseParams := .none }

/-- The guess pulse generator and the action (pulseoptim.py 2033-2045). -/
def guessGen (W : World) (s : St) : Except PyErr (Option (PG × Val)) :=
  if truthy s.heap (s.vars "init_pulse_type") then
    match createGen W s.heap (s.vars "init_pulse_type") .none with
    | .error e => .error e
    | .ok g =>
        let a := setattr (setattr g.attrs "scaling" (s.vars "pulse_scaling")) "offset"
          (s.vars "pulse_offset")
        match s.vars "init_pulse_params" with
        | .none => .ok (some (⟨g.cls, a⟩, .none))
        | .dict r =>
            .ok (some (⟨g.cls, setAll a (s.heap.dicts r)⟩,
              ((s.heap.dicts r).get "pulse_action").getD .none))
        | _ => .error .attributeError
  else .ok none

/-- One CRAB generator (pulseoptim.py 2049-2056, 2077-2078). -/
def crabBase (W : World) (h : Heap) (c : CrabSettings) (lb ub : Val) : Attrs Val :=
  let a := setattr (setattr (W.pgNew .crabFourier []) "num_coeffs" c.numCoeffs) "fix_freqs"
    c.fixFreqs
  let a := match c.coeffScaling with
    | .none => a
    | v => setattr a "scaling" v
  let a := applyParams h a c.pulseParams
  setattr (setattr a "lbound" lb) "ubound" ub

/-- The generator of control `j` (pulseoptim.py 2048-2089). -/
def crabGen (W : World) (h : Heap) (c : CrabSettings) (guess : Option (PG × Val))
    (ramp : Option PG) (lbound ubound : Val) (j : ℕ) : Except PyErr PG :=
  let lb := genBound h lbound j
  let ub := genBound h ubound j
  let a := crabBase W h c lb ub
  let withGuess : Except PyErr (Attrs Val) :=
    match guess with
    | none => .ok a
    | some (g, act) =>
        match W.gen "guess" j ⟨g.cls, setattr (setattr g.attrs "lbound" lb) "ubound" ub⟩ with
        | .error e => .error e
        | .ok p =>
            let a := setattr a "guess_pulse" p
            .ok (if truthy h act then setattr a "guess_pulse_action" act else a)
  match withGuess with
  | .error e => .error e
  | .ok a =>
      match ramp with
      | none => .ok ⟨.crabFourier, a⟩
      | some g =>
          match W.gen "ramp" j g with
          | .error e => .error e
          | .ok p => .ok ⟨.crabFourier, setattr a "ramping_pulse" p⟩

/-- The loop over the controls: generators `j, j + 1, …`, `n` of them. -/
def crabGens (W : World) (h : Heap) (c : CrabSettings) (guess : Option (PG × Val))
    (ramp : Option PG) (lbound ubound : Val) : ℕ → ℕ → Except PyErr (List PG)
  | _, 0 => .ok []
  | j, n + 1 =>
      match crabGen W h c guess ramp lbound ubound j with
      | .error e => .error e
      | .ok g => (crabGens W h c guess ramp lbound ubound (j + 1) n).map (g :: ·)

/-- The pulse generators (pulseoptim.py 2012-2101). -/
def makeGens (W : World) (a : Alg) (n : ℕ) (s : St) : Except PyErr Gens :=
  let ramp : Except PyErr (Option PG) :=
    if truthy s.heap (s.vars "ramping_pulse_type") then
      (createGen W s.heap (s.vars "ramping_pulse_type") (s.vars "ramping_pulse_params")).map some
    else .ok none
  match ramp with
  | .error e => .error e
  | .ok ramp =>
      match a with
      | .crab =>
          match guessGen W s with
          | .error e => .error e
          | .ok guess =>
              match crabGens W s.heap (crabSettings s.heap (s.vars "alg_params")) guess ramp
                  (s.vars "amp_lbound") (s.vars "amp_ubound") 0 n with
              | .error e => .error e
              | .ok [] => .error .indexError
              | .ok gs => .ok (.many gs)
      | .grape =>
          match createGen W s.heap (s.vars "init_pulse_type") (s.vars "init_pulse_params") with
          | .error e => .error e
          | .ok g =>
              .ok (.one ⟨g.cls,
                setattr (setattr (setattr (setattr g.attrs "scaling" (s.vars "pulse_scaling"))
                  "offset" (s.vars "pulse_offset")) "lbound" (s.vars "amp_lbound"))
                  "ubound" (s.vars "amp_ubound")⟩)

/-- The configuration of the optimiser (pulseoptim.py 1959-1972). -/
def makeConf (W : World) (c : Cls) (s : St) : Conf Val :=
  let a := setattr (setattr (setattr (setattr (W.optNew c) "alg" (s.vars "alg")) "method"
    (s.vars "optim_method")) "amp_lbound" (s.vars "amp_lbound")) "amp_ubound"
    (s.vars "amp_ubound")
  let a := applyParams s.heap a (s.vars "optim_params")
  let tc := setattr (setattr (setattr (setattr W.tcNew "fid_err_targ" (s.vars "fid_err_targ"))
    "min_gradient_norm" (s.vars "min_grad")) "max_iterations" (s.vars "max_iter"))
    "max_wall_time" (s.vars "max_wall_time")
  Opt.applyMethodParams { attrs := a, tc := tc, params := none, options := none }
    (dictOf s.heap (s.vars "method_params"))

/-- The attributes of the dynamics (pulseoptim.py 1878-1880, 1990-2007); `none` if no timeslots
can be made. -/
def makeDyn (W : World) (d : DynCls) (s : St) : Option (Attrs Val) :=
  let a := applyParams s.heap (W.dynNew d) (s.vars "dyn_params")
  let a := setattr (setattr (setattr (setattr a "drift_dyn_gen" (s.vars "drift"))
    "ctrl_dyn_gen" (s.vars "ctrls")) "initial" (s.vars "initial")) "target" (s.vars "target")
  match s.vars "tau" with
  | .none =>
      if divides (s.vars "evo_time") (s.vars "num_tslots") then
        some (setattr (setattr a "num_tslots" (s.vars "num_tslots")) "evo_time"
          (s.vars "evo_time"))
      else none
  | v => some (setattr a "tau" v)

/-- The statistics object (pulseoptim.py 1974-1987). -/
def makeStats (s : St) : Option StatsCls :=
  if truthy s.heap (s.vars "gen_stats") then
    some (if s.vars "amp_update_mode" = .str "DYNAMIC" then .dynTsUpdate else .stats)
  else none

/-- `create_pulse_optimizer` after the deprecated parameters (pulseoptim.py 1832-2120).
`tslot_type` is not put into the configuration, whose value is "DEF" (optimconfig.py 66). -/
def build (W : World) (n : ℕ) (s : St) : Except PyErr Optim :=
  match pickAlg (s.vars "alg") with
  | .error e => .error e
  | .ok a =>
  match algDefaults a s with
  | .error e => .error e
  | .ok s =>
  match pickDyn (s.vars "dyn_type") with
  | .error e => .error e
  | .ok d =>
  match pickProp d (s.vars "prop_type") with
  | .error e => .error e
  | .ok p =>
  match pickFid d p (s.vars "fid_type") with
  | .error e => .error e
  | .ok f =>
  match pickOptim a (s.vars "optim_method") with
  | .error e => .error e
  | .ok c =>
  match makeDyn W d s with
  | none => .error .usageError
  | some da =>
  match makeGens W a n s with
  | .error e => .error e
  | .ok gens =>
      .ok
        { cls := c
          conf := makeConf W c s
          dyn := d
          dynAttrs := da
          prop := p
          propAttrs := applyParams s.heap (W.propNew p) (s.vars "prop_params")
          fid := f
          fidAttrs := applyParams s.heap (W.fidNew f) (s.vars "fid_params")
          tslot := configTslot (.str "DEF")
          tslotAttrs := applyParams s.heap (W.tslotNew (configTslot (.str "DEF")))
            (s.vars "tslot_params")
          stats := makeStats s
          gens := gens
          numCtrls := n }

/-- `create_pulse_optimizer` (pulseoptim.py 1756-2120) with all parameters bound: the outcome
and the dictionaries afterwards. -/
def create (W : World) (s : St) : Except PyErr Optim × Heap :=
  match W.check (s.vars "drift") (s.vars "ctrls") (s.vars "initial") (s.vars "target") with
  | .error e => (.error e, s.heap)
  | .ok n => (build W n (foldDeprecated s), (foldDeprecated s).heap)

/-! ### The entry points -/

/-- Binding of a call's keyword arguments to parameters with defaults. -/
def bind (defaults args : Dict Val) : Env := fun n =>
  match args.get n with
  | some v => v
  | none => (defaults.get n).getD .none

/-- Keyword arguments `kw=var` of a call, in terms of the caller's variables. -/
def kwargs (e : Env) (l : List (String × String)) : Dict Val := l.map fun p => (p.1, e p.2)

/-- Keyword arguments `n=n`. -/
def same (l : List String) : List (String × String) := l.map fun n => (n, n)

/-- Default values of `create_pulse_optimizer` (pulseoptim.py 1489-1530); parameters with
default `None` are left out. -/
def createDefaults : Dict Val :=
  [("fid_err_targ", .num (1 / 10 ^ 10)), ("min_grad", .num (1 / 10 ^ 10)), ("max_iter", .num 500),
   ("max_wall_time", .num 180), ("alg", .str "GRAPE"), ("optim_method", .str "DEF"),
   ("dyn_type", .str "GEN_MAT"), ("prop_type", .str "DEF"), ("fid_type", .str "DEF"),
   ("tslot_type", .str "DEF"), ("init_pulse_type", .str "DEF"), ("pulse_scaling", .num 1),
   ("pulse_offset", .num 0), ("log_level", .num 0), ("gen_stats", .bool false)]

/-- Default values of `optimize_pulse` (pulseoptim.py 96-138). -/
def optimizeDefaults : Dict Val := createDefaults

/-- Default values of `optimize_pulse_unitary` (pulseoptim.py 525-563). -/
def unitaryDefaults : Dict Val :=
  [("fid_err_targ", .num (1 / 10 ^ 10)), ("min_grad", .num (1 / 10 ^ 10)), ("max_iter", .num 500),
   ("max_wall_time", .num 180), ("alg", .str "GRAPE"), ("optim_method", .str "DEF"),
   ("phase_option", .str "PSU"), ("tslot_type", .str "DEF"), ("init_pulse_type", .str "DEF"),
   ("pulse_scaling", .num 1), ("pulse_offset", .num 0), ("log_level", .num 0),
   ("gen_stats", .bool false)]

/-- The arguments `optimize_pulse` passes on (pulseoptim.py 431-464). -/
def optimizeArgs : List (String × String) :=
  same ["drift", "ctrls", "initial", "target", "num_tslots", "evo_time", "tau", "amp_lbound",
    "amp_ubound", "fid_err_targ", "min_grad", "max_iter", "max_wall_time", "alg", "alg_params",
    "optim_params", "optim_method", "method_params", "dyn_type", "dyn_params", "prop_type",
    "prop_params", "fid_type", "fid_params", "init_pulse_type", "init_pulse_params",
    "pulse_scaling", "pulse_offset", "ramping_pulse_type", "ramping_pulse_params", "log_level",
    "gen_stats"]

/-- The state in which `optimize_pulse` calls `create_pulse_optimizer`. -/
def optimizeCall (s : St) : St where
  vars := bind createDefaults (kwargs (foldDeprecated s).vars optimizeArgs)
  heap := (foldDeprecated s).heap

/-- A run that is ready to start: the optimiser and its initial amplitudes. -/
structure Run where
  optim : Optim
  init : List Val
  /-- `out_file_ext` -/
  ext : Val

/-- Initial pulses from one generator for all controls. -/
def genAll (W : World) (role : String) (g : PG) : ℕ → ℕ → Except PyErr (List Val)
  | _, 0 => .ok []
  | j, n + 1 =>
      match W.gen role j g with
      | .error e => .error e
      | .ok v => (genAll W role g (j + 1) n).map (v :: ·)

/-- Initial pulses from a list of generators. -/
def genEach (W : World) : ℕ → List PG → Except PyErr (List Val)
  | _, [] => .ok []
  | j, g :: gs =>
      match W.gen "init" j g with
      | .error e => .error e
      | .ok v => (genEach W (j + 1) gs).map (v :: ·)

/-- The initial pulses (pulseoptim.py 471-481): the spelling of `alg` is compared exactly.  A
list of generators has no `gen_pulse`. -/
def initAmps (W : World) (alg : Val) (n : ℕ) (g : Gens) : Except PyErr (List Val) :=
  if alg = .str "CRAB" then
    match g with
    | .many gs => genEach W 0 (gs.take n)
    | .one _ => .error .typeError
  else
    match g with
    | .one g => genAll W "init" g 0 n
    | .many _ => if n = 0 then .ok [] else .error .attributeError

/-- `optimize_pulse` after `create_pulse_optimizer` up to the start of the optimisation
(pulseoptim.py 466-508). -/
def start (W : World) (s : St) (o : Optim) : Except PyErr Run :=
  (initAmps W ((foldDeprecated s).vars "alg") o.numCtrls o.gens).map fun l =>
    ⟨o, l, s.vars "out_file_ext"⟩

/-- `optimize_pulse` up to the start of the optimisation (pulseoptim.py 357-508). -/
def optimize (W : World) (s : St) : Except PyErr Run × Heap :=
  match create W (optimizeCall s) with
  | (.error e, h) => (.error e, h)
  | (.ok o, h) => (start W s o, h)

/-- `if phase_option is not None: if fid_params is None: … else: if "phase_option" not in
fid_params: …` (pulseoptim.py 812-820).  Looking for an entry in something that is no
dictionary fails; lists and strings are not considered. -/
def foldPhase (s : St) : Except PyErr St :=
  match s.vars "phase_option" with
  | .none => .ok s
  | v =>
      match s.vars "fid_params" with
      | .none =>
          .ok { vars := s.vars.set "fid_params" (.dict s.heap.next)
                heap := s.heap.alloc [("phase_option", v)] }
      | .dict r =>
          .ok (if (s.heap.dicts r).has "phase_option" then s
            else { s with heap := s.heap.put r "phase_option" v })
      | _ => .error .typeError

/-- The arguments `optimize_pulse_unitary` passes on (pulseoptim.py 822-853). -/
def unitaryArgs : List (String × String) :=
  [("drift", "H_d"), ("ctrls", "H_c"), ("initial", "U_0"), ("target", "U_targ")] ++
  same ["num_tslots", "evo_time", "tau", "amp_lbound", "amp_ubound", "fid_err_targ", "min_grad",
    "max_iter", "max_wall_time", "alg", "alg_params", "optim_params", "optim_method",
    "method_params", "dyn_params", "prop_params", "fid_params", "init_pulse_type",
    "init_pulse_params", "pulse_scaling", "pulse_offset", "ramping_pulse_type",
    "ramping_pulse_params", "log_level", "out_file_ext", "gen_stats"]

/-- The deprecated parameters of `optimize_pulse_unitary` (pulseoptim.py 760-820). -/
def unitaryFold (s : St) : Except PyErr St := foldPhase (foldAmpMode (foldMethod (foldAlg s)))

/-- The state in which `optimize_pulse_unitary` calls `optimize_pulse`. -/
def unitaryCall (s : St) : Except PyErr St :=
  (unitaryFold s).map fun s =>
    { vars := bind optimizeDefaults (("dyn_type", .str "UNIT") :: kwargs s.vars unitaryArgs)
      heap := s.heap }

/-- `optimize_pulse_unitary` (pulseoptim.py 756-853). -/
def optimizeUnitary (W : World) (s : St) : Except PyErr Run × Heap :=
  match unitaryCall s with
  | .error e => (.error e, (foldAmpMode (foldMethod (foldAlg s))).heap)
  | .ok c => optimize W c

/-- `if <var> is not None and <key> not in <target>: <target>[<key>] = <var>`. -/
def fillKey (var key : String) (r : ℕ) (s : St) : St :=
  match s.vars var with
  | .none => s
  | v => if (s.heap.dicts r).has key then s else { s with heap := s.heap.put r key v }

/-- The algorithm options of CRAB (pulseoptim.py 1104-1117, 1415-1428). -/
def crabAlgParams (s : St) : St :=
  match s.vars "alg_params" with
  | .dict r =>
      fillKey "init_coeff_scaling" "init_coeff_scaling" r (fillKey "num_coeffs" "num_coeffs" r s)
  | _ =>
      { vars := s.vars.set "alg_params" (.dict s.heap.next)
        heap := s.heap.alloc [("num_coeffs", s.vars "num_coeffs"),
          ("init_coeff_scaling", s.vars "init_coeff_scaling")] }

/-- The options of the guess pulse for the dictionary `r` (pulseoptim.py 1125-1139). -/
def fillGuess (r : ℕ) (s : St) : St :=
  fillKey "guess_pulse_action" "pulse_action" r
    (fillKey "guess_pulse_offset" "offset" r (fillKey "guess_pulse_scaling" "scaling" r s))

/-- The guess pulse options of CRAB (pulseoptim.py 1119-1139, 1430-1450). -/
def crabGuessParams (s : St) : St :=
  if truthy s.heap (s.vars "guess_pulse_type") then
    match s.vars "guess_pulse_params" with
    | .dict r => fillGuess r s
    | _ =>
        fillGuess s.heap.next
          { vars := s.vars.set "guess_pulse_params" (.dict s.heap.next)
            heap := s.heap.alloc [] }
  else s

/-- What `opt_pulse_crab` and `opt_pulse_crab_unitary` do to their variables. -/
def crabFold (s : St) : St := crabGuessParams (crabAlgParams s)

/-- Default values of `opt_pulse_crab` (pulseoptim.py 856-894). -/
def crabDefaults : Dict Val :=
  [("fid_err_targ", .num (1 / 10 ^ 5)), ("max_iter", .num 500), ("max_wall_time", .num 180),
   ("init_coeff_scaling", .num 1), ("optim_method", .str "fmin"), ("dyn_type", .str "GEN_MAT"),
   ("prop_type", .str "DEF"), ("fid_type", .str "DEF"), ("tslot_type", .str "DEF"),
   ("guess_pulse_scaling", .num 1), ("guess_pulse_offset", .num 0),
   ("guess_pulse_action", .str "MODULATE"), ("log_level", .num 0), ("gen_stats", .bool false)]

/-- Default values of `opt_pulse_crab_unitary` (pulseoptim.py 1178-1214). -/
def crabUnitaryDefaults : Dict Val :=
  [("fid_err_targ", .num (1 / 10 ^ 5)), ("max_iter", .num 500), ("max_wall_time", .num 180),
   ("init_coeff_scaling", .num 1), ("optim_method", .str "fmin"), ("phase_option", .str "PSU"),
   ("tslot_type", .str "DEF"), ("guess_pulse_scaling", .num 1), ("guess_pulse_offset", .num 0),
   ("guess_pulse_action", .str "MODULATE"), ("log_level", .num 0), ("gen_stats", .bool false)]

/-- The arguments `opt_pulse_crab` passes on (pulseoptim.py 1141-1175), apart from
`min_grad=0.0` and `alg="CRAB"`. -/
def crabArgs : List (String × String) :=
  same ["drift", "ctrls", "initial", "target", "num_tslots", "evo_time", "tau", "amp_lbound",
    "amp_ubound", "fid_err_targ", "max_iter", "max_wall_time", "alg_params", "optim_params",
    "optim_method", "method_params", "dyn_type", "dyn_params", "prop_type", "prop_params",
    "fid_type", "fid_params", "tslot_type", "tslot_params"] ++
  [("init_pulse_type", "guess_pulse_type"), ("init_pulse_params", "guess_pulse_params")] ++
  same ["ramping_pulse_type", "ramping_pulse_params", "log_level", "out_file_ext", "gen_stats"]

/-- The constant arguments of the CRAB entry points. -/
def crabConsts : Dict Val := [("min_grad", .num 0), ("alg", .str "CRAB")]

/-- The state in which `opt_pulse_crab` calls `optimize_pulse`. -/
def crabCall (s : St) : St where
  vars := bind optimizeDefaults (crabConsts ++ kwargs (crabFold s).vars crabArgs)
  heap := (crabFold s).heap

/-- `opt_pulse_crab` (pulseoptim.py 1094-1175). -/
def optCrab (W : World) (s : St) : Except PyErr Run × Heap := optimize W (crabCall s)

/-- The arguments `opt_pulse_crab_unitary` passes on (pulseoptim.py 1452-1486), apart from
`min_grad=0.0` and `alg="CRAB"`. -/
def crabUnitaryArgs : List (String × String) :=
  same ["H_d", "H_c", "U_0", "U_targ", "num_tslots", "evo_time", "tau", "amp_lbound",
    "amp_ubound", "fid_err_targ", "max_iter", "max_wall_time", "alg_params", "optim_params",
    "optim_method", "method_params", "phase_option", "dyn_params", "prop_params", "fid_params",
    "tslot_type", "tslot_params"] ++
  [("init_pulse_type", "guess_pulse_type"), ("init_pulse_params", "guess_pulse_params")] ++
  same ["ramping_pulse_type", "ramping_pulse_params", "log_level", "out_file_ext", "gen_stats"]

/-- The state in which `opt_pulse_crab_unitary` calls `optimize_pulse_unitary`. -/
def crabUnitaryCall (s : St) : St where
  vars := bind unitaryDefaults (crabConsts ++ kwargs (crabFold s).vars crabUnitaryArgs)
  heap := (crabFold s).heap

/-- `opt_pulse_crab_unitary` (pulseoptim.py 1404-1486). -/
def optCrabUnitary (W : World) (s : St) : Except PyErr Run × Heap :=
  optimizeUnitary W (crabUnitaryCall s)

/-- A call of each entry point with keyword arguments `args`. -/
inductive Entry where
  | optimize
  | unitary
  | crab
  | crabUnitary
  deriving DecidableEq

/-- The defaults of an entry point. -/
def Entry.defaults : Entry → Dict Val
  | .optimize => optimizeDefaults
  | .unitary => unitaryDefaults
  | .crab => crabDefaults
  | .crabUnitary => crabUnitaryDefaults

/-- Running an entry point with keyword arguments. -/
def Entry.call (e : Entry) (W : World) (args : Dict Val) (h : Heap) : Except PyErr Run × Heap :=
  let s : St := { vars := bind e.defaults args, heap := h }
  match e with
  | .optimize => PO.optimize W s
  | .unitary => optimizeUnitary W s
  | .crab => optCrab W s
  | .crabUnitary => optCrabUnitary W s

/-- Calling `create_pulse_optimizer` with keyword arguments. -/
def createWith (W : World) (args : Dict Val) (h : Heap) : Except PyErr Optim × Heap :=
  create W { vars := bind createDefaults args, heap := h }

end QTrl.PO
