import Verif.Model.PhaseSettings

/-
C60: the settings for phases of general and unitary dynamics and of the unitary fidelity.
(Symplectic dynamics are the subject of C51.)
-/

namespace QTrl.PhaseSet

open QTrl.Dyn (PhaseOpt)

/-- What an option asks for, whatever its case: `some none` is `custom`. -/
def meaning : Val → Option (Option ApplyFn)
  | .str t =>
    if pyLower t = "preop" then some (some .preop)
    else if pyLower t = "postop" then some (some .postop)
    else if pyLower t = "custom" then some none
    else none
  | _ => none

theorem config_spec (s : DynPhase) (v : Val) :
    config s v = match meaning (if v = .none then s.appl else v) with
      | none => (s, .error .valueError)
      | some none => (s, .ok ())
      | some (some f) => ({ s with apply := f }, .ok ()) := by
  unfold config meaning
  dsimp only
  generalize (if v = Val.none then s.appl else v) = w
  cases w with
  | none => rfl
  | other => rfl
  | str t =>
    dsimp only
    by_cases h1 : pyLower t = "preop"
    · simp [h1]
    · by_cases h2 : pyLower t = "postop"
      · simp [h2]
      · by_cases h3 : pyLower t = "custom"
        · simp [h3]
        · simp [h1, h2, h3]

/-- **C60.** A value other than `None` is accepted exactly if it is one of the three options in
any case; an accepted value is reported as it was given and in effect at once (`custom` leaves
the function alone); a rejected one raises `ValueError` and changes nothing.  For every state
that assignments and initialisations can lead to. -/
theorem C60_application (unitary : Bool) (ops : List Op) (v : Val) (hv : v ≠ .none) :
    let s := run (reset unitary) ops
    ((step s (.setAppl v)).2 = .ok () ↔ (meaning v).isSome = true) ∧
    (∀ m, meaning v = some m →
      (step s (.setAppl v)).1 = { s with appl := v, apply := m.getD s.apply }) ∧
    (meaning v = none → step s (.setAppl v) = (s, .error .valueError)) := by
  intro s
  simp only [step, setAppl, config_spec, if_neg hv]
  cases h : meaning v with
  | none => simp
  | some m => cases m <;> simp

/-- **C60.** Initialisation with a generator phase succeeds exactly if the option reported is
one of the three, and then this option is in effect. -/
theorem C60_initialise (unitary : Bool) (ops : List Op) :
    let s := run (reset unitary) ops
    s.phase = true →
      ((step s .init).2 = .ok () ↔ (meaning s.appl).isSome = true) ∧
      (∀ m, meaning s.appl = some m → (step s .init).1 = { s with apply := m.getD s.apply }) := by
  intro s hp
  have e : step s .init = config s .none := by simp [step, initialise, hp]
  rw [e, config_spec, if_pos rfl]
  cases h : meaning s.appl with
  | none => simp
  | some m => cases m <;> simp

/-- The operations that leave no unusable option behind. -/
def Op.given : Op → Bool
  | .setAppl .none => false
  | _ => true

theorem usable_step {s : DynPhase} (h : (meaning s.appl).isSome = true) {o : Op}
    (ho : o.given = true) : (meaning (step s o).1.appl).isSome = true := by
  cases o with
  | setPhase b => exact h
  | setApply => exact h
  | init =>
    simp only [step, initialise]
    split
    · rw [config_spec, if_pos rfl]
      cases hm : meaning s.appl with
      | none => rw [hm] at h; cases h
      | some m => cases m <;> simp [hm]
    · exact h
  | setAppl v =>
    have hv : v ≠ .none := by
      rintro rfl
      cases ho
    simp only [step, setAppl, config_spec, if_neg hv]
    cases hm : meaning v with
    | none => simpa using h
    | some m => cases m <;> simp [hm]

theorem usable_run (ops : List Op) {s : DynPhase} (h : (meaning s.appl).isSome = true)
    (ho : ∀ o ∈ ops, o.given = true) : (meaning (run s ops).appl).isSome = true := by
  induction ops generalizing s with
  | nil => exact h
  | cons o ops ih =>
    exact ih (usable_step h (ho o (by simp))) fun o' h' => ho o' (by simp [h'])

/-- **C60.** On unitary dynamics every initialisation succeeds, whatever was assigned before
(accepted or rejected), as long as `None` was not assigned.  Missing for the full property:
`None`, see `C60_none_violated`. -/
theorem C60_initialises_partial (ops : List Op) (ho : ∀ o ∈ ops, o.given = true) :
    (step (run (reset true) ops) .init).2 = .ok () := by
  have h := usable_run ops (s := reset true) (by decide) ho
  simp only [step, initialise]
  split
  · rw [config_spec, if_pos rfl]
    cases hm : meaning (run (reset true) ops).appl with
    | none => rw [hm] at h; cases h
    | some m => cases m <;> rfl
  · rfl

/-- **C60 violated.** On unitary dynamics `None` is accepted by the setter in every state
reached by other assignments, and the next initialisation then raises `ValueError`. -/
theorem C60_none_violated (ops : List Op) (ho : ∀ o ∈ ops, o.given = true)
    (hp : (run (reset true) ops).phase = true) :
    let r := step (run (reset true) ops) (.setAppl .none)
    r.2 = .ok () ∧ (step r.1 .init).2 = .error .valueError := by
  have h := usable_run ops (s := reset true) (by decide) ho
  intro r
  simp only [r, step, setAppl, initialise, config_spec, if_true]
  cases hm : meaning (run (reset true) ops).appl with
  | none => rw [hm] at h; cases h
  | some m => cases m <;> simp [hp, meaning]

/-! ### The phase option -/

/-- The measure an assigned option names. -/
def optMeaning (v : Val) : Option PhaseOpt :=
  if v = .str "PSU" then some .PSU else if v = .str "SU" then some .SU else none

theorem setOption_spec (s : FidPhase) (v : Val) :
    setOption s v = match optMeaning v with
      | some p => (⟨v, some p⟩, .ok ())
      | none => (⟨v, s.norm⟩, .error .usageError) := by
  unfold setOption optMeaning
  by_cases h1 : v = .str "PSU"
  · simp [h1]
  · by_cases h2 : v = .str "SU"
    · simp [h2]
    · simp [h1, h2]

theorem runFid_norm (vs : List Val) {s : FidPhase} {p : PhaseOpt} (h : s.norm = some p) :
    (runFid s vs).norm = some (((vs.filterMap optMeaning).getLast?).getD p) := by
  induction vs generalizing s p with
  | nil => exact h
  | cons v vs ih =>
    have e : runFid s (v :: vs) = runFid (setOption s v).1 vs := rfl
    rw [e, setOption_spec]
    cases hv : optMeaning v with
    | none => simpa [hv] using ih (s := ⟨v, s.norm⟩) h
    | some q =>
      rw [ih (s := ⟨v, some q⟩) rfl, List.filterMap_cons_some hv, List.getLast?_cons]
      cases List.getLast? (List.filterMap optMeaning vs) <;> simp

/-- **C60.** After any assignments, accepted or not, the fidelity is measured with the option
accepted last (`PSU` before any), and initialisation succeeds with it; an assignment is accepted
exactly if it is `"PSU"` or `"SU"`. -/
theorem C60_option (vs : List Val) (v : Val) :
    initComp (runFid resetFid vs) = .ok (((vs.filterMap optMeaning).getLast?).getD .PSU) ∧
    ((setOption (runFid resetFid vs) v).2 = .ok () ↔ v = .str "PSU" ∨ v = .str "SU") ∧
    ((setOption (runFid resetFid vs) v).2 ≠ .ok () →
      (setOption (runFid resetFid vs) v).2 = .error .usageError ∧
      (setOption (runFid resetFid vs) v).1.norm = (runFid resetFid vs).norm) := by
  refine ⟨?_, ?_, ?_⟩
  · unfold initComp
    rw [runFid_norm vs (s := resetFid) (p := .PSU) (by decide)]
  · rw [setOption_spec]
    unfold optMeaning
    by_cases h1 : v = .str "PSU"
    · simp [h1]
    · by_cases h2 : v = .str "SU" <;> simp [h1, h2]
  · rw [setOption_spec]
    cases optMeaning v <;> simp

/-- **C60.** Without rejected assignments the option reported is the measure used.  Missing for
the full property: rejected assignments, see `C60_option_violated`. -/
theorem C60_reported_partial (vs : List Val) (h : ∀ v ∈ vs, (optMeaning v).isSome = true) :
    optMeaning (runFid resetFid vs).option = (runFid resetFid vs).norm := by
  have key : ∀ (vs : List Val) (s : FidPhase), (∀ v ∈ vs, (optMeaning v).isSome = true) →
      optMeaning s.option = s.norm → optMeaning (runFid s vs).option = (runFid s vs).norm := by
    intro vs
    induction vs with
    | nil => exact fun s _ h => h
    | cons v vs ih =>
      intro s hs he
      have e : runFid s (v :: vs) = runFid (setOption s v).1 vs := rfl
      rw [e]
      apply ih _ fun w hw => hs w (by simp [hw])
      rw [setOption_spec]
      cases hv : optMeaning v with
      | none => have := hs v (by simp); rw [hv] at this; cases this
      | some p => exact hv
  exact key vs resetFid h (by decide)

/-- **C60 violated.** A rejected option is nevertheless what `phase_option` reports afterwards,
while the fidelity goes on being measured with the previous one; also through the old name
`set_phase_option`, which rejects its own default. -/
theorem C60_option_violated (vs : List Val) (v : Val) (hv : optMeaning v = none) :
    (setOption (runFid resetFid vs) v).2 = .error .usageError ∧
    (setOption (runFid resetFid vs) v).1.option = v ∧
    (setOption (runFid resetFid vs) v).1.norm = (runFid resetFid vs).norm ∧
    (setOptionOld (runFid resetFid vs) none).2 = .error .usageError ∧
    (setOptionOld (runFid resetFid vs) none).1.option = .none := by
  refine ⟨?_, ?_, ?_, ?_, ?_⟩
  · rw [setOption_spec, hv]
  · rw [setOption_spec, hv]
  · rw [setOption_spec, hv]
  · rw [setOptionOld, setOption_spec]; rfl
  · rw [setOptionOld, setOption_spec]; rfl

/-! ### Non-vacuity -/

/-- Assignments of all kinds, one of them rejected, then an initialisation. -/
example : (∀ o ∈ [Op.setAppl (.str "PostOp"), .setAppl (.str "both"), .init, .setApply,
      .setAppl (.str "custom"), .init], o.given = true) ∧
    (run (reset true) [.setAppl (.str "PostOp"), .setAppl (.str "both"), .init]).apply = .postop ∧
    (run (reset true) [.setAppl (.str "PostOp"), .setAppl (.str "both"), .init, .setApply,
      .setAppl (.str "custom"), .init]).apply = .user ∧
    (run (reset true) [.setAppl (.str "PostOp"), .setAppl (.str "both"), .init]).phase = true := by
  decide

example : runFid resetFid [.str "SU", .str "su", .none] = ⟨.none, some .SU⟩ := by decide

end QTrl.PhaseSet
