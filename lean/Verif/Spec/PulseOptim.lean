import Verif.Model.PulseOptim

/-
What the documentation of pulseoptim.py promises about the classes that are created
(docstring of `create_pulse_optimizer`, pulseoptim.py 1533-1753, and of `create_pulse_gen`,
pulsegen.py 25-53), as tables and a relation that does not mention how they are chosen.
-/

namespace QTrl.PO

open QTrl.Opt (Cls Dict)

/-- `dyn_type` (pulseoptim.py 1644-1647). -/
def docDyn : List (String × DynCls) :=
  [("UNIT", .unitary), ("GEN_MAT", .genMat), ("SYMPL", .symplectic)]

/-- `prop_type` (pulseoptim.py 1654-1660). -/
def docProp : List (String × PropCls) :=
  [("APPROX", .approx), ("DIAG", .diag), ("FRECHET", .frechet), ("AUG_MAT", .augMat)]

/-- `fid_type` (pulseoptim.py 1667-1671), with the spelling that the code knows for the third
one; the documented spelling is in `docFidName`. -/
def docFid : List (String × FidCls) :=
  [("UNIT", .unitary), ("TRACEDIFF", .traceDiff), ("TDAPPROX", .traceDiffApprox)]

/-- The documented name of the approximate gradient fidelity computer. -/
def docFidName : String := "TD_APPROX"

/-- Pulse types (pulsegen.py 25-53, pulseoptim.py 1697-1730). -/
def docPG : List (String × PGCls) :=
  [("RND", .random), ("RNDFOURIER", .rndFourier), ("RNDWAVES", .rndWaves),
   ("RNDWALK1", .rndWalk1), ("RNDWALK2", .rndWalk2), ("LIN", .linear), ("ZERO", .zero),
   ("SINE", .sine), ("SQUARE", .square), ("SAW", .saw), ("TRIANGLE", .triangle),
   ("GAUSSIAN", .gaussian), ("GAUSSIAN_EDGE", .gaussianEdge), ("CRAB_FOURIER", .crabFourier)]

/-- The value is a name in the table for this class. -/
def Names {α : Type} (l : List (String × α)) (v : Val) (a : α) : Prop :=
  ∃ s, v = .str s ∧ (s, a) ∈ l

/-- The same in any letter case. -/
def NamesUpper {α : Type} (l : List (String × α)) (v : Val) (a : α) : Prop :=
  ∃ s, v = .str s ∧ (pyUpper s, a) ∈ l

/-- The value asks for the default: `None` or "DEF" in any letter case. -/
def AsksDefault (v : Val) : Prop := v = .none ∨ ∃ s, v = .str s ∧ pyUpper s = "DEF"

/-- The value is a spelling of this name. -/
def Spells (v : Val) (name : String) : Prop := ∃ s, v = .str s ∧ pyUpper s = name

/-- The method asked for: the deprecated `optim_alg` replaces `optim_method`. -/
def methodAsked (g : Env) : Val := if g "optim_alg" = .none then g "optim_method" else g "optim_alg"

/-- The name of an algorithm. -/
def Alg.name : Alg → String
  | .grape => "GRAPE"
  | .crab => "CRAB"

/-- The optimiser class a method stands for (pulseoptim.py 1608-1621): the scipy functions have
classes of their own, all other names are methods of `scipy.optimize.minimize`. -/
inductive MethodFor : Alg → Val → Cls → Prop
  | defaultGrape {v} : AsksDefault v → MethodFor .grape v .lbfgsb
  | defaultCrab {v} : AsksDefault v → MethodFor .crab v .crabFmin
  | bfgs {a v} : Spells v "FMIN_BFGS" → MethodFor a v .bfgs
  | lbfgsb {a v} : Spells v "FMIN_L_BFGS_B" ∨ Spells v "LBFGSB" → MethodFor a v .lbfgsb
  | fmin {v} : Spells v "FMIN" → MethodFor .crab v .crabFmin
  | scipyGrape {v} : (∀ m ∈ ["", "DEF", "FMIN_BFGS", "FMIN_L_BFGS_B", "LBFGSB", "FMIN"], ¬ Spells v m) →
      v ≠ .none → MethodFor .grape v .base
  | scipyCrab {v} : (∀ m ∈ ["", "DEF", "FMIN_BFGS", "FMIN_L_BFGS_B", "LBFGSB", "FMIN"], ¬ Spells v m) →
      v ≠ .none → MethodFor .crab v .crab

/-- The default propagator computer of a dynamics class. -/
inductive DefaultProp : DynCls → PropCls → Prop
  | genMat : DefaultProp .genMat .frechet
  | symplectic : DefaultProp .symplectic .frechet
  | unitary : DefaultProp .unitary .diag

/-- The default fidelity computer of a dynamics class. -/
inductive DefaultFid : DynCls → FidCls → Prop
  | genMat : DefaultFid .genMat .traceDiff
  | symplectic : DefaultFid .symplectic .traceDiff
  | unitary : DefaultFid .unitary .unitary

/-- The components of an optimiser are the ones that were asked for. -/
structure Matches (g : Env) (a : Alg) (n : ℕ) (o : Optim) : Prop where
  alg : Spells (g "alg") a.name
  dyn : ((g "dyn_type" = .none ∨ g "dyn_type" = .str "") ∧ o.dyn = .genMat) ∨
    Names docDyn (g "dyn_type") o.dyn
  prop : (a = .crab ∧ AsksDefault (g "prop_type") ∧ o.prop = .approx) ∨
    ((g "prop_type" = .str "" ∨
        (a = .grape ∧ (g "prop_type" = .none ∨ g "prop_type" = .str "DEF"))) ∧
      DefaultProp o.dyn o.prop) ∨
    Names docProp (g "prop_type") o.prop
  fid : ((AsksDefault (g "fid_type") ∨ g "fid_type" = .str "") ∧ DefaultFid o.dyn o.fid) ∨
    NamesUpper docFid (g "fid_type") o.fid
  exact : o.dyn = .unitary → o.fid = .traceDiff → o.prop ≠ .approx
  method : MethodFor a (methodAsked g) o.cls
  tslot : o.tslot = .updateAll
  grape : a = .grape → ∃ p, o.gens = .one p ∧
    ((AsksDefault (g "init_pulse_type") ∧ p.cls = .random) ∨
      Names docPG (g "init_pulse_type") p.cls)
  crab : a = .crab → ∃ gs, o.gens = .many gs ∧ gs.length = n ∧ ∀ p ∈ gs, p.cls = .crabFourier
  noStats : g "gen_stats" = .bool false → o.stats = none
  stats : g "gen_stats" = .bool true → g "amp_update_mode" = .none → o.stats = some .stats

/-! ### Forwarding -/

/-- Parameters that every entry point has under the same name, and passes on unchanged. -/
def commonPlain : List (String × String) :=
  [("num_tslots", "num_tslots"), ("evo_time", "evo_time"), ("tau", "tau"),
   ("amp_lbound", "amp_lbound"), ("amp_ubound", "amp_ubound"), ("fid_err_targ", "fid_err_targ"),
   ("max_iter", "max_iter"), ("max_wall_time", "max_wall_time"), ("optim_params", "optim_params"),
   ("dyn_params", "dyn_params"), ("prop_params", "prop_params"),
   ("ramping_pulse_type", "ramping_pulse_type"), ("ramping_pulse_params", "ramping_pulse_params"),
   ("log_level", "log_level"), ("gen_stats", "gen_stats")]

/-- The operators, under their names in the general and in the unitary entry points. -/
def opsGeneral : List (String × String) :=
  [("drift", "drift"), ("ctrls", "ctrls"), ("initial", "initial"), ("target", "target")]

/-- The operators of the unitary entry points. -/
def opsUnitary : List (String × String) :=
  [("H_d", "drift"), ("H_c", "ctrls"), ("U_0", "initial"), ("U_targ", "target")]

/-- Parameters for GRAPE. -/
def grapePlain : List (String × String) :=
  [("min_grad", "min_grad"), ("alg", "alg"), ("alg_params", "alg_params"),
   ("init_pulse_type", "init_pulse_type"), ("init_pulse_params", "init_pulse_params"),
   ("pulse_scaling", "pulse_scaling"), ("pulse_offset", "pulse_offset")]

/-- The types of the components. -/
def typesPlain : List (String × String) :=
  [("dyn_type", "dyn_type"), ("prop_type", "prop_type"), ("fid_type", "fid_type")]

/-- The documented parameters of an entry point that mean a parameter of
`create_pulse_optimizer` (docstrings at pulseoptim.py 139-356, 564-755, 895-1093, 1215-1403);
the dictionaries that are completed on the way and the deprecated parameters are treated
separately, and the timeslot computer's parameters are left out. -/
def Entry.plain : Entry → List (String × String)
  | .optimize => opsGeneral ++ commonPlain ++ grapePlain ++ typesPlain
  | .unitary => opsUnitary ++ commonPlain ++ grapePlain
  | .crab => opsGeneral ++ commonPlain ++ typesPlain ++ [("guess_pulse_type", "init_pulse_type")]
  | .crabUnitary => opsUnitary ++ commonPlain ++ [("guess_pulse_type", "init_pulse_type")]

/-- What the documentation fixes instead of leaving it to the caller: unitary dynamics for the
unitary entry points, the algorithm for CRAB. -/
def Entry.fixed : Entry → List (String × Val)
  | .optimize => []
  | .unitary => [("dyn_type", .str "UNIT")]
  | .crab => [("alg", .str "CRAB")]
  | .crabUnitary => [("dyn_type", .str "UNIT"), ("alg", .str "CRAB")]

/-- The entry points with the deprecated parameters. -/
def Entry.methodAsked : Entry → Env → Val
  | .optimize, g => PO.methodAsked g
  | .unitary, g => PO.methodAsked g
  | .crab, g => g "optim_method"
  | .crabUnitary, g => g "optim_method"

/-- An entry of a dictionary that a keyword argument completes: the dictionary's own entry if
it has one, otherwise the keyword's value unless that is `None`. -/
def completed (d : Dict Val) (k : String) (v : Val) : Option Val :=
  (d.get k).or (if v = .none then none else some v)

/-- The entries a dictionary argument brings along; none if it is no dictionary. -/
def entries (h : Heap) (v : Val) : Dict Val := (dictOf h v).getD []

/-- The dictionary parameters of an entry point, and their names in `create_pulse_optimizer`. -/
def Entry.dicts : Entry → List (String × String)
  | .optimize => [("alg_params", "alg_params"), ("optim_params", "optim_params"),
      ("method_params", "method_params"), ("dyn_params", "dyn_params"),
      ("prop_params", "prop_params"), ("fid_params", "fid_params"),
      ("init_pulse_params", "init_pulse_params"), ("ramping_pulse_params", "ramping_pulse_params")]
  | .unitary => [("alg_params", "alg_params"), ("optim_params", "optim_params"),
      ("method_params", "method_params"), ("dyn_params", "dyn_params"),
      ("prop_params", "prop_params"), ("fid_params", "fid_params"),
      ("init_pulse_params", "init_pulse_params"), ("ramping_pulse_params", "ramping_pulse_params")]
  | .crab => [("alg_params", "alg_params"), ("optim_params", "optim_params"),
      ("method_params", "method_params"), ("dyn_params", "dyn_params"),
      ("prop_params", "prop_params"), ("fid_params", "fid_params"),
      ("guess_pulse_params", "init_pulse_params"), ("ramping_pulse_params", "ramping_pulse_params")]
  | .crabUnitary => [("alg_params", "alg_params"), ("optim_params", "optim_params"),
      ("method_params", "method_params"), ("dyn_params", "dyn_params"),
      ("prop_params", "prop_params"), ("fid_params", "fid_params"),
      ("guess_pulse_params", "init_pulse_params"), ("ramping_pulse_params", "ramping_pulse_params")]

/-- A keyword argument that stands for an entry of a dictionary argument. -/
structure Fill where
  keyword : String
  dict : String
  key : String
  /-- the name of the dictionary in `create_pulse_optimizer` -/
  target : String

/-- Method parameters with keywords of their own. -/
def methodFills : List Fill :=
  [⟨"max_metric_corr", "method_params", "max_metric_corr", "method_params"⟩,
   ⟨"accuracy_factor", "method_params", "accuracy_factor", "method_params"⟩]

/-- The phase option. -/
def phaseFill : Fill := ⟨"phase_option", "fid_params", "phase_option", "fid_params"⟩

/-- Algorithm parameters with keywords of their own. -/
def crabFills : List Fill :=
  [⟨"num_coeffs", "alg_params", "num_coeffs", "alg_params"⟩,
   ⟨"init_coeff_scaling", "alg_params", "init_coeff_scaling", "alg_params"⟩]

/-- The keywords of an entry point that stand for entries of dictionaries;
`fid_err_scale_factor` is treated separately. -/
def Entry.fills : Entry → List Fill
  | .optimize => methodFills ++ [phaseFill]
  | .unitary => methodFills ++ [phaseFill]
  | .crab => crabFills
  | .crabUnitary => crabFills ++ [phaseFill]

/-- The same for the guess pulse. -/
def guessFills : List Fill :=
  [⟨"guess_pulse_scaling", "guess_pulse_params", "scaling", "init_pulse_params"⟩,
   ⟨"guess_pulse_offset", "guess_pulse_params", "offset", "init_pulse_params"⟩,
   ⟨"guess_pulse_action", "guess_pulse_params", "pulse_action", "init_pulse_params"⟩]

/-- The entry points with a guess pulse. -/
def Entry.guess : Entry → List Fill
  | .optimize => []
  | .unitary => []
  | .crab => guessFills
  | .crabUnitary => guessFills

/-- `s'` is a call of `create_pulse_optimizer` with the arguments `g` of an entry point. -/
structure Forwarded (e : Entry) (g : Env) (h : Heap) (s' : St) : Prop where
  plain : ∀ p ∈ e.plain, s'.vars p.2 = g p.1
  fixed : ∀ p ∈ e.fixed, s'.vars p.1 = p.2
  method : s'.vars "optim_method" = e.methodAsked g
  /-- the caller's entries arrive -/
  kept : ∀ p ∈ e.dicts, ∀ k v, k ≠ "scale_factor" → (entries h (g p.1)).get k = some v →
    (entries s'.heap (s'.vars p.2)).get k = some v
  /-- keywords fill in entries that are missing -/
  filled : ∀ f ∈ e.fills, g f.keyword ≠ .none → (entries h (g f.dict)).get f.key = none →
    (entries s'.heap (s'.vars f.target)).get f.key = some (g f.keyword)
  guess : (∃ t, g "guess_pulse_type" = .str t ∧ t ≠ "") → ∀ f ∈ e.guess, g f.keyword ≠ .none →
    (entries h (g f.dict)).get f.key = none →
    (entries s'.heap (s'.vars f.target)).get f.key = some (g f.keyword)

/-- The bound of control `j`: a number is the bound of every control, from a list each control
has its own, the last one standing for all that are missing. -/
inductive BoundFor : Val → ℕ → Val → Prop
  | none {j} : BoundFor .none j .none
  | number {q j} : BoundFor (.num q) j (.num q)
  | own {l : List ℚ} {j q} : l[j]? = some q → BoundFor (.list l) j (.num q)
  | last {l : List ℚ} {j q} : l.length ≤ j → l.getLast? = some q → BoundFor (.list l) j (.num q)
  | empty {j} : BoundFor (.list []) j .none

/-- Bounds given as `None`, as a number that is not zero, or as a list of numbers. -/
def GoodBound (b : Val) : Prop := b = .none ∨ (∃ q, q ≠ 0 ∧ b = .num q) ∨ ∃ l, b = .list l

/-- The generator has the attributes of the guess pulse: its options override the scaling and
the offset. -/
structure GuessPulse (W : World) (s : St) (j : ℕ) (b1 b2 : Val) (p : PG) : Prop where
  pulse : ∃ g v, Names docPG (s.vars "init_pulse_type") g.cls ∧ W.gen "guess" j g = .ok v ∧
    p.attrs "guess_pulse" = some v ∧ g.attrs "lbound" = some b1 ∧ g.attrs "ubound" = some b2 ∧
    (∀ k x, k ≠ "lbound" → k ≠ "ubound" →
      (entries s.heap (s.vars "init_pulse_params")).get k = some x → g.attrs k = some x) ∧
    ((entries s.heap (s.vars "init_pulse_params")).get "scaling" = none →
      g.attrs "scaling" = some (s.vars "pulse_scaling")) ∧
    ((entries s.heap (s.vars "init_pulse_params")).get "offset" = none →
      g.attrs "offset" = some (s.vars "pulse_offset"))
  action : ∀ t, t ≠ "" → (entries s.heap (s.vars "init_pulse_params")).get "pulse_action" =
    some (.str t) → p.attrs "guess_pulse_action" = some (.str t)

/-- The parameters in `s` show in the optimiser `o`. -/
structure Effective (W : World) (s : St) (a : Alg) (o : Optim) : Prop where
  ops : ∀ p ∈ [("drift_dyn_gen", "drift"), ("ctrl_dyn_gen", "ctrls"), ("initial", "initial"),
    ("target", "target")], o.dynAttrs p.1 = some (s.vars p.2)
  tau : s.vars "tau" ≠ .none → o.dynAttrs "tau" = some (s.vars "tau")
  slots : s.vars "tau" = .none → o.dynAttrs "num_tslots" = some (s.vars "num_tslots") ∧
    o.dynAttrs "evo_time" = some (s.vars "evo_time")
  dynParams : ∀ k v, k ∉ ["drift_dyn_gen", "ctrl_dyn_gen", "initial", "target", "tau", "num_tslots",
    "evo_time"] → (entries s.heap (s.vars "dyn_params")).get k = some v → o.dynAttrs k = some v
  propParams : ∀ k v, (entries s.heap (s.vars "prop_params")).get k = some v → o.propAttrs k = some v
  fidParams : ∀ k v, (entries s.heap (s.vars "fid_params")).get k = some v → o.fidAttrs k = some v
  attrs : ∀ p ∈ [("alg", "alg"), ("amp_lbound", "amp_lbound"), ("amp_ubound", "amp_ubound")],
    (entries s.heap (s.vars "optim_params")).get p.1 = none →
    (entries s.heap (s.vars "method_params")).get p.1 = none → o.conf.attrs p.1 = some (s.vars p.2)
  method : ¬ AsksDefault (s.vars "optim_method") →
    (entries s.heap (s.vars "optim_params")).get "method" = none →
    (entries s.heap (s.vars "method_params")).get "method" = none →
    o.conf.attrs "method" = some (s.vars "optim_method")
  optimParams : ∀ k v, (entries s.heap (s.vars "optim_params")).get k = some v →
    (entries s.heap (s.vars "method_params")).get k = none → o.conf.attrs k = some v
  limits : ∀ p ∈ [("fid_err_targ", "fid_err_targ"), ("min_gradient_norm", "min_grad"),
    ("max_iterations", "max_iter"), ("max_wall_time", "max_wall_time")],
    (entries s.heap (s.vars "method_params")).get p.1 = none → o.conf.tc p.1 = some (s.vars p.2)
  methodParams : ∀ k v, (entries s.heap (s.vars "method_params")).get k = some v →
    o.conf.attrs k = some v ∨ o.conf.tc k = some v ∨ (o.conf.options.getD []).get k = some v
  grape : a = .grape → ∃ p, o.gens = .one p ∧
    (∀ q ∈ [("scaling", "pulse_scaling"), ("offset", "pulse_offset"), ("lbound", "amp_lbound"),
      ("ubound", "amp_ubound")], p.attrs q.1 = some (s.vars q.2)) ∧
    ∀ k, k ∉ ["scaling", "offset", "lbound", "ubound"] →
      p.attrs k = W.pgNew p.cls (entries s.heap (s.vars "init_pulse_params")) k
  crab : a = .crab → ∃ gs, o.gens = .many gs ∧ gs.length = o.numCtrls ∧ ∀ j p, gs[j]? = some p →
    (let d := entries s.heap (s.vars "alg_params")
     (d.get "crab_pulse_params" = none →
      p.attrs "num_coeffs" = some ((d.get "num_coeffs").getD .none) ∧
      p.attrs "fix_freqs" = some ((d.get "fix_frequency").getD (.bool true)) ∧
      ∀ x, x ≠ .none → d.get "init_coeff_scaling" = some x → p.attrs "scaling" = some x) ∧
     (∀ r k x, d.get "crab_pulse_params" = some (.dict r) →
      k ∉ ["lbound", "ubound", "guess_pulse", "guess_pulse_action", "ramping_pulse"] →
      (s.heap.dicts r).get k = some x → p.attrs k = some x)) ∧
    ∃ b1 b2, p.attrs "lbound" = some b1 ∧ p.attrs "ubound" = some b2 ∧
      (GoodBound (s.vars "amp_lbound") → BoundFor (s.vars "amp_lbound") j b1) ∧
      (GoodBound (s.vars "amp_ubound") → BoundFor (s.vars "amp_ubound") j b2) ∧
      (∀ t, s.vars "init_pulse_type" = .str t → t ≠ "" → ¬ AsksDefault (.str t) →
        GuessPulse W s j b1 b2 p) ∧
      ∀ t, s.vars "ramping_pulse_type" = .str t → t ≠ "" → ∃ c v,
        Names docPG (.str t) c ∧
        W.gen "ramp" j ⟨c, W.pgNew c (entries s.heap (s.vars "ramping_pulse_params"))⟩ = .ok v ∧
        p.attrs "ramping_pulse" = some v

/-- Two numbers that can be divided to give the length of a timeslot. -/
def Divisible (t n : Val) : Prop := ∃ a b : ℚ, b ≠ 0 ∧ t = .num a ∧ n = .num b

/-- The names in a request are known, and there are timeslots. -/
structure Valid (g : Env) (a : Alg) : Prop where
  alg : Spells (g "alg") a.name
  dyn : g "dyn_type" = .none ∨ g "dyn_type" = .str "" ∨ ∃ d, Names docDyn (g "dyn_type") d
  prop : g "prop_type" = .none ∨ g "prop_type" = .str "" ∨ g "prop_type" = .str "DEF" ∨
    (a = .crab ∧ AsksDefault (g "prop_type")) ∨ ∃ p, Names docProp (g "prop_type") p
  fid : AsksDefault (g "fid_type") ∨ g "fid_type" = .str "" ∨
    ∃ f, NamesUpper docFid (g "fid_type") f
  exact : g "dyn_type" = .str "UNIT" → Spells (g "fid_type") "TRACEDIFF" →
    g "prop_type" ≠ .str "APPROX" ∧ (a = .crab → ¬ AsksDefault (g "prop_type"))
  method : ∃ c, MethodFor a (methodAsked g) c
  slots : g "tau" ≠ .none ∨ Divisible (g "evo_time") (g "num_tslots")

/-- Arguments of the right kinds: names are strings or `None`, numbers are numbers, and the
pulse types, of which the property does not say how a wrong one is reported, are known. -/
structure Typed (g : Env) (n : ℕ) : Prop where
  dyn : g "dyn_type" = .none ∨ ∃ s, g "dyn_type" = .str s
  prop : g "prop_type" = .none ∨ ∃ s, g "prop_type" = .str s
  fid : g "fid_type" = .none ∨ ∃ s, g "fid_type" = .str s
  method : methodAsked g = .none ∨ ∃ s, methodAsked g = .str s
  slots : ∀ b, g "evo_time" ≠ .bool b ∧ g "num_tslots" ≠ .bool b
  ctrls : 0 < n
  pulse : AsksDefault (g "init_pulse_type") ∨ ∃ c, Names docPG (g "init_pulse_type") c
  ramp : g "ramping_pulse_type" = .none ∨ ∃ c, Names docPG (g "ramping_pulse_type") c
  params : g "init_pulse_params" = .none ∨ ∃ r, g "init_pulse_params" = .dict r

end QTrl.PO
