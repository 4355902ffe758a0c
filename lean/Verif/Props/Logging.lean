import Verif.Proofs.Logging

/-
C56: log levels and messages.
-/

namespace QTrl.Log

/-- The modules whose objects make up an optimiser. -/
def components : List Mod :=
  [.optimconfig, .dynamics, .propcomp, .fidcomp, .tslotcomp, .optimizer, .pulsegen]

/-- **C56**: after creating an optimiser, with no log level in the dictionaries of parameters, all
its components have the level asked for, or the level of the module if none is asked for. -/
theorem C56_create (a : Args) (g : Loggers) (h1 : a.dyn = none) (h2 : a.prop = none)
    (h3 : a.fid = none) (h4 : a.tslot = none) (h5 : a.optim = none) (hg : a.gens ≠ [])
    (h6 : ∀ p ∈ a.gens, p = none) : ∀ m ∈ components,
    logLevel (create a g) m =
      if a.level = NOTSET then g.effective "qutip_qtrl.pulseoptim" else a.level := by
  have hL : logLevel (makeConfig a g) .optimconfig =
      if a.level = NOTSET then g.effective "qutip_qtrl.pulseoptim" else a.level := by
    rw [level_config, if_pos rfl]
    rfl
  rw [← hL]
  have hd : logLevel (makeOptimizer a (makeComputers a (makeDynamics a (makeConfig a g)))) .dynamics
      = logLevel (makeConfig a g) .optimconfig := by
    simp [level_optimizer, level_computers, level_dynamics, h1]
  intro m hm
  by_cases hp : m = .pulsegen
  · subst hp
    obtain ⟨l, p, e⟩ : ∃ l p, a.gens = l ++ [p] :=
      ⟨_, _, (List.dropLast_append_getLast hg).symm⟩
    rw [create, e, level_gens_last, hd, h6 p (by simp [e])]
    rfl
  · rw [create, level_gens _ _ _ hp, level_optimizer, level_computers]
    simp only [level_computers, level_dynamics, h1, h2, h3, h4, h5]
    simp only [components, List.mem_cons, List.not_mem_nil, or_false] at hm
    rcases hm with rfl | rfl | rfl | rfl | rfl | rfl | rfl <;>
      first | exact absurd rfl hp | simp

/-- **C56**: a level in the dictionary of a component is the level of that component. -/
theorem C56_dictionaries (a : Args) (g : Loggers) (l : ℕ) :
    (a.dyn = some l → logLevel (create a g) .dynamics = l) ∧
    (a.prop = some l → logLevel (create a g) .propcomp = l) ∧
    (a.fid = some l → logLevel (create a g) .fidcomp = l) ∧
    (a.tslot = some l → logLevel (create a g) .tslotcomp = l) ∧
    (a.optim = some l → logLevel (create a g) .optimizer = l) := by
  refine ⟨?_, ?_, ?_, ?_, ?_⟩ <;> intro h <;>
    rw [create, level_gens _ _ _ (by decide)] <;>
    simp [level_optimizer, level_computers, level_dynamics, h]

/-- The modules in one order of import. -/
def allMods : List Mod :=
  [.dump, .dynamics, .fidcomp, .grape, .loadparams, .optimconfig, .optimizer, .propcomp,
   .pulsegen, .pulseoptim, .tslotcomp]

/-- The settings of QuTiP by default. -/
def defaultSettings : Settings where
  logHandler := "default"
  ipython := false
  debug := false

example : ∀ m ∈ components,
    logLevel (create { level := 10, newProp := true } (Loggers.fresh.imports defaultSettings allMods))
      m = 10 :=
  C56_create _ _ rfl rfl rfl rfl rfl (by decide) (by simp)

/-- **C56**: in a fresh process, whatever the order of the imports, a message of a module is shown
exactly once if it is a warning or worse (with debugging on, a debug message or worse), and not
at all otherwise; both in IPython and elsewhere. -/
theorem C56_once (s : Settings) (hs : s.policy = "stream" ∨ s.policy = "basic") (l : List Mod)
    (hl : l.Nodup) (m : Mod) (hm : m ∈ l) (severity : ℕ) :
    (Loggers.fresh.imports s l).printed m.name severity =
      if (if s.debug then DEBUG else WARN) ≤ severity then 1 else 0 := by
  have he : (Loggers.fresh.imports s l).effective m.name = if s.debug then DEBUG else WARN := by
    unfold Loggers.effective
    rw [imports_level, if_pos hm]
    cases s.debug <;> rfl
  rw [Loggers.printed, he]
  rcases hs with hs | hs
  · obtain ⟨e1, e2⟩ := imports_stream s hs l Loggers.fresh m hl
    rw [e1, e2, if_pos hm, if_pos hm]
    rfl
  · obtain ⟨e1, e2, e3⟩ := imports_basic s hs l Loggers.fresh (.inl rfl)
    have hne : l ≠ [] := List.ne_nil_of_mem hm
    rw [e1, e2, e3, if_neg hne]
    rfl

example : defaultSettings.policy = "stream" ∧ allMods.Nodup ∧ Mod.dynamics ∈ allMods := by decide

/-- **C56, partial**: the level set on an object holds as long as no other object of the same module
has its level set and no optimiser is created.  Missing: independence of such objects, see
`C56_violated_shared`. -/
theorem C56_own_partial (g : Loggers) (i : ℕ) (m : Mod) (l : ℕ) (evs : List Ev)
    (h : ∀ e ∈ evs, ∃ j n k, e = .set j n k ∧ n ≠ m) :
    logLevel (runEvs g (.set i m l :: evs)) m = l := by
  have key : ∀ evs : List Ev, (∀ e ∈ evs, ∃ j n k, e = .set j n k ∧ n ≠ m) → ∀ g,
      logLevel (runEvs g evs) m = logLevel g m := by
    intro evs
    induction evs with
    | nil => intro _ g; rfl
    | cons e r ih =>
      intro h g
      obtain ⟨j, n, k, rfl, hn⟩ := h _ (List.mem_cons_self ..)
      rw [runEvs, ih (fun e he => h e (List.mem_cons_of_mem _ he)), Ev.run, level_set,
        if_neg (Ne.symm hn)]
  rw [runEvs, key evs h, Ev.run, level_set, if_pos rfl]

example : logLevel (runEvs Loggers.fresh [.set 0 .dynamics 10, .set 1 .fidcomp 20]) .dynamics = 10 :=
  C56_own_partial _ _ _ _ _ (fun e he => by
    rw [List.mem_singleton] at he
    exact ⟨1, .fidcomp, 20, he, by decide⟩)

/-- **C56 is violated**: setting the level of one object sets that of every other object of its
module. -/
theorem C56_violated_shared (g : Loggers) (m : Mod) (i j l l' : ℕ) :
    logLevel (runEvs g [.set i m l, .set j m l']) m = l' := by
  simp [runEvs, Ev.run, level_set]

/-- **C56 is violated**: creating a second optimiser changes the level of the components of the
first. -/
theorem C56_violated_second :
    logLevel (runEvs (Loggers.fresh.imports defaultSettings allMods)
      [.create { level := 10 }]) .dynamics = 10 ∧
    logLevel (runEvs (Loggers.fresh.imports defaultSettings allMods)
      [.create { level := 10 }, .create { level := 20 }]) .dynamics = 20 := by decide

/-- **C56 is violated**: without a level the documentation promises the level of the settings, by
default `WARN`; it is the level of the call before. -/
theorem C56_violated_notset :
    logLevel (runEvs (Loggers.fresh.imports defaultSettings allMods)
      [.create { level := NOTSET }]) .dynamics = WARN ∧
    logLevel (runEvs (Loggers.fresh.imports defaultSettings allMods)
      [.create { level := 10 }, .create { level := NOTSET }]) .dynamics = 10 := by decide

/-- **C56 is violated**: the level of the dynamics in `dyn_params` does not reach the timeslot
computer, although this takes its level from the dynamics. -/
theorem C56_violated_dyn_params :
    logLevel (create { level := 30, dyn := some 10 }
      (Loggers.fresh.imports defaultSettings allMods)) .tslotcomp = 30 := by decide

/-- **C56 is violated**: asking twice for the logger of a name shows every message twice. -/
theorem C56_violated_twice (n : String) (severity : ℕ) (h : WARN ≤ severity) :
    ((Loggers.fresh.getLogger defaultSettings n).getLogger defaultSettings n).printed n severity
      = 2 := by
  have hp : defaultSettings.policy = "stream" := by decide
  have hd : defaultSettings.debug = false := rfl
  have h' : 30 ≤ severity := h
  simp [Loggers.printed, Loggers.effective, Loggers.getLogger, Loggers.attach, hp,
    Loggers.setLevel, Loggers.addHandler, Loggers.fresh, hd, WARN, h']

end QTrl.Log
