import Mathlib.Data.List.Basic

/-
Loggers and the `log_level` of objects (logging_utils.py; the property `log_level` of dump.py
101-111, dynamics.py 460-470, fidcomp.py 182-192, optimconfig.py 69-79, optimizer.py 284-294,
propcomp.py 102-112, pulsegen.py 202-212, tslotcomp.py 122-132).

Simplifications: Python's `logging` is modelled as far as it is used here.  The loggers between
a module's logger and the root logger have no level and no handlers of their own; a level is a
natural number.  Of a handler only its kind is kept.
-/

namespace QTrl.Log

/-- The modules with a logger. -/
inductive Mod where
  | dump | dynamics | fidcomp | grape | loadparams | optimconfig | optimizer | propcomp
  | pulsegen | pulseoptim | tslotcomp
  deriving DecidableEq

/-- Their names in the order of a possible import: the name given (dump.py 21, grape.py 25,
optimconfig.py 17) or the name of the calling module (dynamics.py 49, fidcomp.py 41,
loadparams.py 24, optimizer.py 79, propcomp.py 32, pulsegen.py 22, pulseoptim.py 76,
tslotcomp.py 49). -/
def Mod.name : Mod → String
  | .dump => "qutip.control.dump"
  | .dynamics => "qutip_qtrl.dynamics"
  | .fidcomp => "qutip_qtrl.fidcomp"
  | .grape => "qutip.control.grape"
  | .loadparams => "qutip_qtrl.loadparams"
  | .optimconfig => "qutip.control.optimconfig"
  | .optimizer => "qutip_qtrl.optimizer"
  | .propcomp => "qutip_qtrl.propcomp"
  | .pulsegen => "qutip_qtrl.pulsegen"
  | .pulseoptim => "qutip_qtrl.pulseoptim"
  | .tslotcomp => "qutip_qtrl.tslotcomp"

inductive Handler where
  | stream
  | null
  deriving DecidableEq

/-- `NOTSET`, `DEBUG`, `WARN` (logging_utils.py 14-21). -/
def NOTSET : ℕ := 0
def DEBUG : ℕ := 10
def WARN : ℕ := 30

/-- The loggers: level, handlers and `propagate` by name, and the root logger. -/
structure Loggers where
  level : String → ℕ
  handlers : String → List Handler
  propagate : String → Bool
  rootLevel : ℕ
  rootHandlers : List Handler

/-- `logging` at the start of a Python process. -/
def Loggers.fresh : Loggers where
  level := fun _ => 0
  handlers := fun _ => []
  propagate := fun _ => true
  rootLevel := 30
  rootHandlers := []

/-- `qutip.settings`: `_log_handler`, `ipython`, `_debug`. -/
structure Settings where
  logHandler : String
  ipython : Bool
  debug : Bool

/-- `logger.setLevel(lvl)`. -/
def Loggers.setLevel (g : Loggers) (n : String) (lvl : ℕ) : Loggers :=
  { g with level := fun m => if m = n then lvl else g.level m }

/-- `logger.addHandler(h)`. -/
def Loggers.addHandler (g : Loggers) (n : String) (h : Handler) : Loggers :=
  { g with handlers := fun m => if m = n then g.handlers m ++ [h] else g.handlers m }

/-- `logging.basicConfig(level=lvl)`: nothing if the root logger has handlers. -/
def Loggers.basicConfig (g : Loggers) (lvl : Option ℕ) : Loggers :=
  match g.rootHandlers with
  | [] => { g with rootHandlers := [.stream], rootLevel := lvl.getD g.rootLevel }
  | _ :: _ => g

/-- `logger.getEffectiveLevel()`. -/
def Loggers.effective (g : Loggers) (n : String) : ℕ :=
  if g.level n = 0 then g.rootLevel else g.level n

/-- The policy (logging_utils.py 70-74). -/
def Settings.policy (s : Settings) : String :=
  if s.logHandler = "default" then (if s.ipython then "basic" else "stream") else s.logHandler

/-- The handlers (logging_utils.py 80-107). -/
def Loggers.attach (g : Loggers) (s : Settings) (n : String) : Loggers :=
  if s.policy = "basic" then g.basicConfig (if s.debug then some DEBUG else none)
  else if s.policy = "stream" then
    { g.addHandler n .stream with propagate := fun m => if m = n then false else g.propagate m }
  else if s.policy = "null" then g.addHandler n .null
  else g

/-- `get_logger(name)` (logging_utils.py 34-114). -/
def Loggers.getLogger (g : Loggers) (s : Settings) (n : String) : Loggers :=
  (g.attach s n).setLevel n (if s.debug then DEBUG else WARN)

/-- Importing modules, each of which calls `get_logger` once. -/
def Loggers.imports (g : Loggers) (s : Settings) : List Mod → Loggers
  | [] => g
  | m :: r => (g.getLogger s m.name).imports s r

/-- How many times a message of a severity appears on the terminal. -/
def Loggers.printed (g : Loggers) (n : String) (severity : ℕ) : ℕ :=
  if g.effective n ≤ severity then
    (g.handlers n).count .stream + (if g.propagate n then g.rootHandlers.count .stream else 0)
  else 0

/-! ### The level of objects -/

/-- `obj.log_level` for an object of a class defined in the module. -/
def logLevel (g : Loggers) (m : Mod) : ℕ := g.level m.name

/-- `obj.log_level = lvl`. -/
def setLogLevel (g : Loggers) (m : Mod) (lvl : ℕ) : Loggers := g.setLevel m.name lvl

/-- `o.apply_params(params)` as far as the entry `log_level` goes. -/
def applyLevel (g : Loggers) (m : Mod) : Option ℕ → Loggers
  | none => g
  | some l => setLogLevel g m l

/-- `self.log_level = other.log_level` for an object of module `m` and another of module `src`. -/
def copyLevel (g : Loggers) (m src : Mod) : Loggers := setLogLevel g m (logLevel g src)

/-- The arguments of `create_pulse_optimizer` that matter here: `log_level`, the entries
`log_level` of the dictionaries, whether the propagator and fidelity computers are replaced by
ones of another class, and the dictionaries of the pulse generators in the order of creation. -/
structure Args where
  level : ℕ
  dyn : Option ℕ := none
  prop : Option ℕ := none
  fid : Option ℕ := none
  tslot : Option ℕ := none
  optim : Option ℕ := none
  newProp : Bool := false
  newFid : Bool := false
  gens : List (Option ℕ) := [none]

/-- The local variable `log_level` (pulseoptim.py 1862-1865). -/
def Args.lvl (a : Args) (g : Loggers) : ℕ :=
  if a.level = NOTSET then g.effective Mod.pulseoptim.name else a.level

/-- The level of the module's logger (pulseoptim.py 1862-1865). -/
def ownLevel (a : Args) (g : Loggers) : Loggers :=
  if a.level = NOTSET then g else g.setLevel Mod.pulseoptim.name a.level

/-- `cfg = OptimConfig(); ...; cfg.log_level = log_level` (pulseoptim.py 1855-1867, optimconfig.py
59-60). -/
def makeConfig (a : Args) (g : Loggers) : Loggers :=
  let g1 := setLogLevel g .optimconfig (g.effective Mod.optimconfig.name)
  setLogLevel (ownLevel a g1) .optimconfig (a.lvl g1)

/-- `dyn = Dynamics(cfg)` with its computers, `dyn.apply_params(dyn_params)` (pulseoptim.py
1870-1878, dynamics.py 421, 439, 523-536, tslotcomp.py 95, propcomp.py 82, fidcomp.py 143). -/
def makeDynamics (a : Args) (g : Loggers) : Loggers :=
  let g1 := copyLevel g .dynamics .optimconfig
  let g2 := copyLevel g1 .tslotcomp .dynamics
  let g3 := copyLevel g2 .propcomp .dynamics
  let g4 := copyLevel g3 .fidcomp .dynamics
  applyLevel g4 .dynamics a.dyn

/-- The computers asked for (pulseoptim.py 1882-1927). -/
def makeComputers (a : Args) (g : Loggers) : Loggers :=
  let g1 := if a.newProp then copyLevel g .propcomp .dynamics else g
  let g2 := applyLevel g1 .propcomp a.prop
  let g3 := if a.newFid then copyLevel g2 .fidcomp .dynamics else g2
  let g4 := applyLevel g3 .fidcomp a.fid
  applyLevel g4 .tslotcomp a.tslot

/-- `optim = Optimizer(cfg, dyn)`, `optim.apply_params(optim_params)` (pulseoptim.py 1930-1965,
optimizer.py 247). -/
def makeOptimizer (a : Args) (g : Loggers) : Loggers :=
  applyLevel (copyLevel g .optimizer .optimconfig) .optimizer a.optim

/-- The pulse generators (pulsegen.py 168, 185). -/
def makeGens (g : Loggers) : List (Option ℕ) → Loggers
  | [] => g
  | p :: r => makeGens (applyLevel (copyLevel g .pulsegen .dynamics) .pulsegen p) r

/-- `create_pulse_optimizer` as far as the level of logging goes (pulseoptim.py 1855-2100). -/
def create (a : Args) (g : Loggers) : Loggers :=
  makeGens (makeOptimizer a (makeComputers a (makeDynamics a (makeConfig a g)))) a.gens

/-- What happens to levels: an assignment to an object, given by a number and its module, and the
creation of an optimiser with new objects. -/
inductive Ev where
  | set (obj : ℕ) (m : Mod) (lvl : ℕ)
  | create (a : Args)

def Ev.run (g : Loggers) : Ev → Loggers
  | .set _ m l => setLogLevel g m l
  | .create a => QTrl.Log.create a g

def runEvs (g : Loggers) : List Ev → Loggers
  | [] => g
  | e :: r => runEvs (e.run g) r

end QTrl.Log
