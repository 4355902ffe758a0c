import Verif.Model.Errors

/-
C57: exceptions can be shown and say why they were raised.
-/

namespace QTrl.Errs

/-- **C57, partial**: the text of a usage or functional error is the message it was raised with (as
a Python literal).  Missing: the exceptions that end an optimisation, see `C57_violated_text`. -/
theorem C57_text_partial (pyRepr : String → String) (c : ErrCls) (msg : String)
    (h : c = .usage ∨ c = .functional) : (c.new msg).str pyRepr = some (pyRepr msg) := by
  rcases h with rfl | rfl <;> rfl

/-- **C57 is violated**: asking for the text of any exception that ends an optimisation raises an
AttributeError. -/
theorem C57_violated_text (pyRepr : String → String) (c : ErrCls) (arg : String)
    (h : c.isA .terminate = true) : (c.new arg).str pyRepr = none := by
  cases c <;> first | rfl | exact absurd h (by decide)

example : ErrCls.goal.isA .terminate = true ∧ ErrCls.gradMin.isA .terminate = true := by decide

/-- The conditions that end an optimisation. -/
def conditions : List ErrCls := [.goal, .wallTime, .fidCalls, .gradMin]

/-- The flag that should tell of each of them. -/
def flagOf (f : Flags) : ErrCls → Bool
  | .goal => f.goalAchieved
  | .wallTime => f.wallTimeLimit
  | .fidCalls => f.maxFidFunc
  | .gradMin => f.gradNormMin
  | _ => false

/-- **C57**: an exception that ends an optimisation is handled; the result then has the flag of the
condition and no flag of another condition, and a reason that belongs to no other condition. -/
theorem C57_result (c : ErrCls) (hc : c ∈ conditions) (arg : String) :
    ∃ f, handle {} (c.new arg) = some f ∧ (∀ d ∈ conditions, flagOf f d = true ↔ d = c) ∧
      f.reason ≠ none ∧ ∀ d ∈ conditions, ∀ arg' f', handle {} (d.new arg') = some f' →
        f'.reason = f.reason → d = c := by
  simp only [conditions, List.mem_cons, List.not_mem_nil, or_false] at hc
  rcases hc with rfl | rfl | rfl | rfl
  all_goals
    refine ⟨_, rfl, by decide, by decide, ?_⟩
    intro d hd arg' f' hf hr
    simp only [conditions, List.mem_cons, List.not_mem_nil, or_false] at hd
    rcases hd with rfl | rfl | rfl | rfl
    all_goals
      injection hf with hf
      subst hf
      first | rfl | exact absurd hr (by decide)

/-- **C57**: an exception that does not end an optimisation is not taken for one that does, whatever
its attributes are. -/
theorem C57_not_swallowed (e : Exc) (h : e.cls = .usage ∨ e.cls = .functional ∨ e.cls = .error)
    (f : Flags) : handle f e = none := by
  obtain ⟨c, a⟩ := e
  rcases h with h | h | h <;> cases h <;> rfl

example : (ErrCls.usage.new "bad").cls = .usage := rfl

/-- **C57**: every exception of the package can be caught as `errors.Error`; those that end an
optimisation, and no others, as `errors.OptimizationTerminate`; and no other class catches an
exception of a class that is not its own. -/
theorem C57_family (c d : ErrCls) :
    c.isA .error = true ∧
    (c.isA .terminate = true ↔ c = .terminate ∨ c ∈ conditions) ∧
    (d ≠ .error → d ≠ .terminate → (c.isA d = true ↔ c = d)) := by
  cases c <;> cases d <;> decide

end QTrl.Errs
