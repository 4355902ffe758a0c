import Verif.Model.Logging

/-
Levels of loggers after the steps of `create_pulse_optimizer` and after imports.
-/

namespace QTrl.Log

theorem name_inj {m n : Mod} (h : m.name = n.name) : m = n := by
  cases m <;> cases n <;> first | rfl | (exact absurd h (by decide))

theorem level_set (g : Loggers) (m n : Mod) (l : ℕ) :
    logLevel (setLogLevel g m l) n = if n = m then l else logLevel g n := by
  unfold logLevel setLogLevel Loggers.setLevel
  by_cases h : n = m
  · simp [h]
  · have : n.name ≠ m.name := fun e => h (name_inj e)
    simp [h, this]

theorem level_apply (g : Loggers) (m n : Mod) (o : Option ℕ) :
    logLevel (applyLevel g m o) n = if n = m then o.getD (logLevel g n) else logLevel g n := by
  cases o with
  | none => simp [applyLevel]
  | some l => simp [applyLevel, level_set]

theorem level_own (a : Args) (g : Loggers) (n : Mod) :
    logLevel (ownLevel a g) n =
      if n = .pulseoptim ∧ a.level ≠ NOTSET then a.level else logLevel g n := by
  unfold ownLevel
  by_cases h : a.level = NOTSET
  · simp [h]
  · have e := level_set g .pulseoptim n a.level
    unfold setLogLevel at e
    simp [h, e]

theorem level_gens (l : List (Option ℕ)) (g : Loggers) (n : Mod) (h : n ≠ .pulsegen) :
    logLevel (makeGens g l) n = logLevel g n := by
  induction l generalizing g with
  | nil => rfl
  | cons p r ih => rw [makeGens, ih, level_apply, if_neg h, copyLevel, level_set, if_neg h]

/-- The level asked for. -/
theorem level_config (a : Args) (g : Loggers) (n : Mod) :
    logLevel (makeConfig a g) n =
      if n = .optimconfig then a.lvl g
      else if n = .pulseoptim ∧ a.level ≠ NOTSET then a.level else logLevel g n := by
  have e : a.lvl (setLogLevel g .optimconfig (g.effective Mod.optimconfig.name)) = a.lvl g := by
    have h := level_set g .optimconfig .pulseoptim (g.effective Mod.optimconfig.name)
    have hl : (setLogLevel g .optimconfig (g.effective Mod.optimconfig.name)).level
        Mod.pulseoptim.name = g.level Mod.pulseoptim.name := by
      simpa [logLevel] using h
    unfold Args.lvl Loggers.effective at *
    rw [hl]
    rfl
  simp only [makeConfig, level_set, level_own, e]
  split
  · rfl
  · split
    · rfl
    · simp_all

theorem level_dynamics (a : Args) (g : Loggers) (n : Mod) :
    logLevel (makeDynamics a g) n =
      if n = .dynamics then a.dyn.getD (logLevel g .optimconfig)
      else if n = .tslotcomp ∨ n = .propcomp ∨ n = .fidcomp then logLevel g .optimconfig
      else logLevel g n := by
  simp only [makeDynamics, copyLevel, level_apply, level_set]
  cases n <;> simp

theorem level_computers (a : Args) (g : Loggers) (n : Mod) :
    logLevel (makeComputers a g) n =
      if n = .propcomp then
        a.prop.getD (if a.newProp then logLevel g .dynamics else logLevel g .propcomp)
      else if n = .fidcomp then
        a.fid.getD (if a.newFid then logLevel g .dynamics else logLevel g .fidcomp)
      else if n = .tslotcomp then a.tslot.getD (logLevel g .tslotcomp)
      else logLevel g n := by
  unfold makeComputers copyLevel
  cases h1 : a.newProp <;> cases h2 : a.newFid <;>
    simp only [level_apply, level_set, Bool.false_eq_true, if_false, if_true] <;>
    cases n <;> simp

theorem level_optimizer (a : Args) (g : Loggers) (n : Mod) :
    logLevel (makeOptimizer a g) n =
      if n = .optimizer then a.optim.getD (logLevel g .optimconfig) else logLevel g n := by
  simp only [makeOptimizer, copyLevel, level_apply, level_set]
  cases n <;> simp

theorem level_gens_last (l : List (Option ℕ)) (p : Option ℕ) (g : Loggers) :
    logLevel (makeGens g (l ++ [p])) .pulsegen = p.getD (logLevel g .dynamics) := by
  induction l generalizing g with
  | nil => simp [makeGens, level_apply, copyLevel, level_set]
  | cons q r ih =>
    rw [List.cons_append, makeGens, ih]
    simp [level_apply, copyLevel, level_set]

theorem getLogger_level (g : Loggers) (s : Settings) (m n : String) :
    (g.getLogger s m).level n = if n = m then (if s.debug then DEBUG else WARN) else g.level n := by
  have : (g.attach s m).level = g.level := by
    unfold Loggers.attach Loggers.basicConfig Loggers.addHandler
    repeat' split
    all_goals rfl
  simp [Loggers.getLogger, Loggers.setLevel, this]

theorem imports_level (s : Settings) (l : List Mod) (g : Loggers) (m : Mod) :
    (g.imports s l).level m.name =
      if m ∈ l then (if s.debug then DEBUG else WARN) else g.level m.name := by
  induction l generalizing g with
  | nil => simp [Loggers.imports]
  | cons x r ih =>
    rw [Loggers.imports, ih, getLogger_level]
    by_cases h : m = x
    · simp [h]
    · have : m.name ≠ x.name := fun e => h (name_inj e)
      simp [h, this]

/-- Under the policy `stream`. -/
theorem imports_stream (s : Settings) (hs : s.policy = "stream") (l : List Mod) (g : Loggers)
    (m : Mod) (hl : l.Nodup) :
    (g.imports s l).handlers m.name =
        g.handlers m.name ++ (if m ∈ l then [Handler.stream] else []) ∧
      ((g.imports s l).propagate m.name = if m ∈ l then false else g.propagate m.name) := by
  induction l generalizing g with
  | nil => simp [Loggers.imports]
  | cons x r ih =>
    obtain ⟨hx, hr⟩ := List.nodup_cons.1 hl
    have e1 : (g.getLogger s x.name).handlers m.name =
        if m.name = x.name then g.handlers m.name ++ [Handler.stream] else g.handlers m.name := by
      simp [Loggers.getLogger, Loggers.attach, hs, Loggers.setLevel, Loggers.addHandler]
    have e2 : (g.getLogger s x.name).propagate m.name =
        if m.name = x.name then false else g.propagate m.name := by
      simp [Loggers.getLogger, Loggers.attach, hs, Loggers.setLevel, Loggers.addHandler]
    rw [Loggers.imports, (ih _ hr).1, (ih _ hr).2, e1, e2]
    by_cases h : m = x
    · subst h
      simp [hx]
    · have : m.name ≠ x.name := fun e => h (name_inj e)
      simp [h, this]

/-- Under the policy `basic`. -/
theorem imports_basic (s : Settings) (hs : s.policy = "basic") (l : List Mod) (g : Loggers)
    (hg : g.rootHandlers = [] ∨ g.rootHandlers = [.stream]) :
    (g.imports s l).handlers = g.handlers ∧ (g.imports s l).propagate = g.propagate ∧
      ((g.imports s l).rootHandlers = if l = [] then g.rootHandlers else [.stream]) := by
  induction l generalizing g with
  | nil => simp [Loggers.imports]
  | cons x r ih =>
    have e : (g.getLogger s x.name).handlers = g.handlers ∧
        (g.getLogger s x.name).propagate = g.propagate ∧
        (g.getLogger s x.name).rootHandlers = [.stream] := by
      rcases hg with h | h <;>
        simp [Loggers.getLogger, Loggers.attach, hs, Loggers.setLevel, Loggers.basicConfig, h]
    obtain ⟨i1, i2, i3⟩ := ih (g.getLogger s x.name) (.inr e.2.2)
    rw [Loggers.imports, i1, i2, i3]
    refine ⟨e.1, e.2.1, ?_⟩
    rw [e.2.2]
    simp

end QTrl.Log
