import Verif.Spec.ViewLists

/-
Lemmas on the public lists.
-/

namespace QTrl.ViewList

variable {V : Type}

theorem appendLoop_ok {shape : Nat × Nat} (l : List (Arr V)) (h : ∀ a ∈ l, a.shape = shape)
    (acc : List (Option (Arr V))) :
    appendLoop shape acc (l.map some) = (acc ++ l.map some, .ok ()) := by
  induction l generalizing acc with
  | nil => simp [appendLoop]
  | cons a l ih =>
    have ha : (a.rows, a.cols) = shape := h a (by simp)
    simp only [List.map_cons, appendLoop, wrap, if_pos ha]
    rw [ih fun b hb => h b (by simp [hb])]
    simp

theorem comprehension_ok {shape : Nat × Nat} (l : List (Arr V)) (h : ∀ a ∈ l, a.shape = shape) :
    comprehension shape (l.map some) = .ok (l.map some) := by
  simp [comprehension, appendLoop_ok l h]

theorem appendLoop_bad {shape : Nat × Nat} {l : List (Arr V)} (hl : l ≠ [])
    (h : ∀ a ∈ l, a.shape ≠ shape) (acc : List (Option (Arr V))) :
    appendLoop shape acc (l.map some) = (acc, .error .valueError) := by
  cases l with
  | nil => exact absurd rfl hl
  | cons a l =>
    have ha : (a.rows, a.cols) ≠ shape := h a (by simp)
    simp [appendLoop, wrap, ha]

theorem comprehension_bad {shape : Nat × Nat} {l : List (Arr V)} (hl : l ≠ [])
    (h : ∀ a ∈ l, a.shape ≠ shape) :
    comprehension shape (l.map some) = .error .valueError := by
  simp [comprehension, appendLoop_bad hl h]

/-- A public list is unset, or right for its data type. -/
def Right (c : Cfg V) (l : List (Option (Arr V))) (v : View V) : Prop :=
  v = .unset ∨ (c.isQobj = true ∧ v = .alias) ∨ (c.isQobj = false ∧ v = .list l)

/-- The state since a computation with result `x`, in so far as the views of generators,
propagators and forward evolution are concerned, and the onward and onto evolution if their
shape is that of the initial operator. -/
structure Since (c : Cfg V) (i : Arr V) (last : List (Option (Arr V))) (x : Computed V)
    (s : State V) : Prop where
  initial : s.initial = i
  priv : s.privTarget.isSome = true
  ops : ∃ o, s.ops = some o ∧ o.dynGen = x.dynGen.map some ∧ o.prop = x.prop.map some ∧
    o.fwd = some i :: x.fwd.map some ∧ (c.usesOnwd = true → o.onwd = x.onwd.map some) ∧
    (c.usesOnto = true → o.onto = x.onto.map some ++ last)
  dynGenQ : Right c (x.dynGen.map some) s.dynGenQ
  propQ : Right c (x.prop.map some) s.propQ
  fwdQ : Right c (some i :: x.fwd.map some) s.fwdQ
  onwdQ : c.isQobj = false → c.sysShape = c.dynShape → Right c (x.onwd.map some) s.onwdQ
  ontoQ : c.sysShape = c.sysShape.swap ∨ c.isQobj = true → s.ontoQ = .unset ∨
    (c.isQobj = true ∧ s.ontoQ = .alias) ∨
    (c.isQobj = false ∧ ∃ t, s.ontoTargetQ = some t ∧ s.ontoTarget.isSome = true ∧
      s.ontoQ = .list (x.onto.map some ++ [some t]))

/-- After an initialisation. -/
structure Ready (i : Arr V) (s : State V) : Prop where
  initial : s.initial = i
  priv : s.ops.isSome = true → s.privTarget.isSome = true
  fwd : ∀ o, s.ops = some o → o.fwd.take 1 = [some i]

theorem readOntoTarget_form (c : Cfg V) (s : State V) :
    ∃ a b r, readOntoTarget c s = ({ s with ontoTarget := a, ontoTargetQ := b }, r) := by
  unfold readOntoTarget
  cases s.ontoTarget with
  | some t => cases h : s.ontoTargetQ <;> simp only [] <;> exact ⟨_, _, _, rfl⟩
  | none =>
    cases getOntoTarget c s with
    | none => exact ⟨s.ontoTarget, s.ontoTargetQ, _, rfl⟩
    | some t => cases h : s.ontoTargetQ <;> simp only [] <;> exact ⟨_, _, _, rfl⟩

section Reads

variable {c : Cfg V} {i : Arr V} {last : List (Option (Arr V))} {x : Computed V} {s : State V}

theorem readDynGen_since (hx : Fits c x) (h : Since c i last x s) :
    ∃ v, Right c (x.dynGen.map some) v ∧
      readDynGen c s = ({ s with dynGenQ := v }, .ok (some (x.dynGen.map some))) := by
  obtain ⟨o, ho, hd, -⟩ := h.ops
  have hi := h.initial
  have hv := h.dynGenQ
  obtain ⟨si, st, sp, sa, sb, so, sd, spr, sf, sw, sn⟩ := s
  dsimp only at ho hi hv
  subst ho hi
  unfold readDynGen
  dsimp only
  rcases hv with rfl | ⟨hq, rfl⟩ | ⟨hq, rfl⟩
  · dsimp only
    by_cases hq : c.isQobj = true
    · rw [if_pos hq, hd]
      exact ⟨_, .inr (.inl ⟨hq, rfl⟩), rfl⟩
    · have hq : c.isQobj = false := by simpa using hq
      rw [if_neg (by simp [hq]), hd, comprehension_ok _ hx.dynGen]
      exact ⟨_, .inr (.inr ⟨hq, rfl⟩), rfl⟩
  · dsimp only
    exact ⟨_, .inr (.inl ⟨hq, rfl⟩), by simp [shown, hd]⟩
  · dsimp only
    exact ⟨_, .inr (.inr ⟨hq, rfl⟩), by simp [shown]⟩

theorem readProp_since (hx : Fits c x) (h : Since c i last x s) :
    ∃ v, Right c (x.prop.map some) v ∧
      readProp c s = ({ s with propQ := v }, .ok (some (x.prop.map some))) := by
  obtain ⟨o, ho, -, hd, -⟩ := h.ops
  have hi := h.initial
  have hv := h.propQ
  obtain ⟨si, st, sp, sa, sb, so, sd, spr, sf, sw, sn⟩ := s
  dsimp only at ho hi hv
  subst ho hi
  unfold readProp
  dsimp only
  rcases hv with rfl | ⟨hq, rfl⟩ | ⟨hq, rfl⟩
  · dsimp only
    by_cases hq : c.isQobj = true
    · rw [if_pos hq, hd]
      exact ⟨_, .inr (.inl ⟨hq, rfl⟩), rfl⟩
    · have hq : c.isQobj = false := by simpa using hq
      rw [if_neg (by simp [hq]), hd, comprehension_ok _ hx.prop]
      exact ⟨_, .inr (.inr ⟨hq, rfl⟩), rfl⟩
  · dsimp only
    exact ⟨_, .inr (.inl ⟨hq, rfl⟩), by simp [shown, hd]⟩
  · dsimp only
    exact ⟨_, .inr (.inr ⟨hq, rfl⟩), by simp [shown]⟩

theorem readFwd_since (hx : Fits c x) (h : Since c i last x s) :
    ∃ v, Right c (some i :: x.fwd.map some) v ∧
      readFwd c s = ({ s with fwdQ := v }, .ok (some (some i :: x.fwd.map some))) := by
  obtain ⟨o, ho, -, -, hd, -⟩ := h.ops
  have hi := h.initial
  have hv := h.fwdQ
  obtain ⟨si, st, sp, sa, sb, so, sd, spr, sf, sw, sn⟩ := s
  dsimp only at ho hi hv
  subst ho hi
  unfold readFwd
  dsimp only
  rcases hv with rfl | ⟨hq, rfl⟩ | ⟨hq, rfl⟩
  · dsimp only
    by_cases hq : c.isQobj = true
    · rw [if_pos hq, hd]
      exact ⟨_, .inr (.inl ⟨hq, rfl⟩), rfl⟩
    · have hq : c.isQobj = false := by simpa using hq
      rw [if_neg (by simp [hq]), hd, List.drop_one, List.tail_cons, appendLoop_ok _ hx.fwd]
      exact ⟨_, .inr (.inr ⟨hq, rfl⟩), rfl⟩
  · dsimp only
    exact ⟨_, .inr (.inl ⟨hq, rfl⟩), by simp [shown, hd]⟩
  · dsimp only
    exact ⟨_, .inr (.inr ⟨hq, rfl⟩), by simp [shown]⟩

theorem readOnwd_form (c : Cfg V) (s : State V) :
    ∃ v r, readOnwd c s = ({ s with onwdQ := v }, r) := by
  obtain ⟨si, st, sp, sa, sb, so, sd, spr, sf, sw, sn⟩ := s
  unfold readOnwd
  cases so with
  | none => exact ⟨sw, _, rfl⟩
  | some o =>
    dsimp only
    split
    · cases sw with
      | unset =>
        dsimp only
        split
        · exact ⟨_, _, rfl⟩
        · cases comprehension c.sysShape o.onwd with
          | error e => exact ⟨.unset, _, rfl⟩
          | ok l => exact ⟨_, _, rfl⟩
      | alias => exact ⟨.alias, _, rfl⟩
      | list l => exact ⟨.list l, _, rfl⟩
    · exact ⟨sw, _, rfl⟩

theorem readOnwd_since (hx : Fits c x) (h : Since c i last x s) (hq : c.isQobj = false)
    (hs : c.sysShape = c.dynShape) :
    ∃ v, Right c (x.onwd.map some) v ∧ (readOnwd c s).1 = { s with onwdQ := v } ∧
      (c.usesOnwd = true → (readOnwd c s).2 = .ok (some (x.onwd.map some))) := by
  obtain ⟨o, ho, -, -, -, hd, -⟩ := h.ops
  have hv := h.onwdQ hq hs
  obtain ⟨si, st, sp, sa, sb, so, sd, spr, sf, sw, sn⟩ := s
  dsimp only at ho hv
  subst ho
  unfold readOnwd
  dsimp only
  by_cases hu : c.usesOnwd = true
  · rw [if_pos hu]
    have hd := hd hu
    rcases hv with rfl | ⟨hq', rfl⟩ | ⟨-, rfl⟩
    · dsimp only
      rw [if_neg (by simp [hq]), hd, comprehension_ok _ (hs ▸ hx.onwd)]
      exact ⟨_, .inr (.inr ⟨hq, rfl⟩), rfl, fun _ => rfl⟩
    · rw [hq] at hq'; cases hq'
    · exact ⟨_, .inr (.inr ⟨hq, rfl⟩), rfl, fun _ => rfl⟩
  · rw [if_neg hu]
    exact ⟨sw, hv, rfl, fun hu' => absurd hu' hu⟩

/-- What reading the inverse target leaves behind: the value read. -/
theorem readOntoTarget_ready (c : Cfg V) (s : State V) (hp : s.privTarget.isSome = true) :
    ∃ a t, readOntoTarget c s = ({ s with ontoTarget := some a, ontoTargetQ := some t }, .ok t) ∧
      (∀ q, s.ontoTargetQ = some q → t = q) ∧
      (s.ontoTargetQ = none → t = a) ∧ (∀ b, s.ontoTarget = some b → a = b) ∧
      (s.ontoTarget = none → getOntoTarget c s = some a) := by
  obtain ⟨si, st, sp, sa, sb, so, sd, spr, sf, sw, sn⟩ := s
  unfold readOntoTarget
  cases sa with
  | some b =>
    cases sb with
    | some q => exact ⟨b, q, rfl, by simp, by simp, by simp, by simp⟩
    | none => exact ⟨b, b, rfl, by simp, by simp, by simp, by simp⟩
  | none =>
    have hg : ∃ g, getOntoTarget c ⟨si, st, sp, none, sb, so, sd, spr, sf, sw, sn⟩ = some g := by
      unfold getOntoTarget
      obtain ⟨p, hp⟩ := Option.isSome_iff_exists.1 hp
      dsimp only at hp
      rw [hp]
      split <;> exact ⟨_, rfl⟩
    obtain ⟨g, hg⟩ := hg
    dsimp only
    rw [hg]
    cases sb with
    | some q => exact ⟨g, q, rfl, by simp, by simp, by simp, by simp⟩
    | none => exact ⟨g, g, rfl, by simp, by simp, by simp, by simp⟩

theorem readOnto_form (c : Cfg V) (s : State V) :
    ∃ a b v r, readOnto c s = ({ s with ontoTarget := a, ontoTargetQ := b, ontoQ := v }, r) := by
  unfold readOnto
  cases ho : s.ops with
  | none => exact ⟨s.ontoTarget, s.ontoTargetQ, s.ontoQ, _, by simp only [← ho]; rfl⟩
  | some o =>
    dsimp only
    split
    · cases e : s.ontoQ with
      | unset =>
        dsimp only
        split
        · exact ⟨s.ontoTarget, s.ontoTargetQ, _, _, by rw [← ho]⟩
        · cases he : appendLoop c.sysShape [] (o.onto.take c.n) with
          | mk l r =>
            cases r with
            | error e' => exact ⟨s.ontoTarget, s.ontoTargetQ, _, _, by rw [← ho]⟩
            | ok u =>
              obtain ⟨a, b, r, h⟩ := readOntoTarget_form c s
              rw [h]
              cases r with
              | error e' => exact ⟨a, b, _, _, by rw [← ho]⟩
              | ok t => exact ⟨a, b, _, _, by rw [← ho]⟩
      | alias => exact ⟨s.ontoTarget, s.ontoTargetQ, s.ontoQ, _, by simp only [← ho]; rfl⟩
      | list l => exact ⟨s.ontoTarget, s.ontoTargetQ, s.ontoQ, _, by simp only [← ho]; rfl⟩
    · exact ⟨s.ontoTarget, s.ontoTargetQ, s.ontoQ, _, by simp only [← ho]; rfl⟩

/-- The condition on the public onto list. -/
def RightOnto (c : Cfg V) (x : Computed V) (s : State V) : Prop :=
  s.ontoQ = .unset ∨ (c.isQobj = true ∧ s.ontoQ = .alias) ∨
    (c.isQobj = false ∧ ∃ t, s.ontoTargetQ = some t ∧ s.ontoTarget.isSome = true ∧
      s.ontoQ = .list (x.onto.map some ++ [some t]))

theorem readOnto_since (hx : Fits c x) (h : Since c i last x s)
    (hs : c.sysShape = c.sysShape.swap ∨ c.isQobj = true) :
    RightOnto c x (readOnto c s).1 ∧
    (c.usesOnto = true → c.isQobj = true →
      (readOnto c s).2 = .ok (some (x.onto.map some ++ last))) ∧
    (c.usesOnto = true → c.isQobj = false → ∃ t, (readOntoTarget c s).2 = .ok t ∧
      (readOnto c s).2 = .ok (some (x.onto.map some ++ [some t]))) := by
  obtain ⟨o, ho, -, -, -, -, hd⟩ := h.ops
  have hv : RightOnto c x s := h.ontoQ hs
  obtain ⟨a, t, er, h1, h2, h3, h4⟩ := readOntoTarget_ready c s h.priv
  obtain ⟨si, st, sp, sa, sb, so, sd, spr, sf, sw, sn⟩ := s
  unfold RightOnto at hv
  dsimp only at ho hv h1 h2 h3 h4
  subst ho
  rw [er]
  unfold readOnto
  dsimp only
  by_cases hu : c.usesOnto = true
  · rw [if_pos hu]
    have hd := hd hu
    rcases hv with rfl | ⟨hq, rfl⟩ | ⟨hq, t', rfl, ha, rfl⟩
    · dsimp only
      by_cases hq : c.isQobj = true
      · rw [if_pos hq, hd]
        exact ⟨.inr (.inl ⟨hq, rfl⟩), fun _ _ => rfl, fun _ hq' => by rw [hq] at hq'; cases hq'⟩
      · have hs' : c.sysShape = c.sysShape.swap := hs.resolve_right hq
        have hq : c.isQobj = false := by simpa using hq
        rw [if_neg (by simp [hq]), hd, List.take_left' (by simp [hx.nOnto]),
          appendLoop_ok _ (fun b hb => by rw [hs']; exact hx.onto b hb), er]
        exact ⟨.inr (.inr ⟨hq, t, rfl, rfl, rfl⟩), fun _ hq' => (by rw [hq] at hq'; cases hq'),
          fun _ _ => ⟨t, rfl, rfl⟩⟩
    · refine ⟨.inr (.inl ⟨hq, rfl⟩), fun _ _ => ?_, fun _ hq' => by rw [hq] at hq'; cases hq'⟩
      simp [shown, hd]
    · refine ⟨.inr (.inr ⟨hq, t', rfl, ha, rfl⟩), fun _ hq' => (by rw [hq] at hq'; cases hq'),
        fun _ _ => ⟨t, rfl, ?_⟩⟩
      simp [shown, h1 t' rfl]
  · rw [if_neg hu]
    exact ⟨hv, fun hu' => absurd hu' hu, fun hu' => absurd hu' hu⟩

theorem since_step (hx : Fits c x) (h : Since c i last x s) {op : Op V}
    (ho : op.looks = true) : Since c i last x (step c s op) := by
  cases op with
  | init => cases ho
  | compute y => cases ho
  | setTarget t =>
    exact ⟨h.initial, h.priv, h.ops, h.dynGenQ, h.propQ, h.fwdQ, h.onwdQ, h.ontoQ⟩
  | readDynGen =>
    obtain ⟨v, hv, e⟩ := readDynGen_since hx h
    simp only [step, e]
    exact ⟨h.initial, h.priv, h.ops, hv, h.propQ, h.fwdQ, h.onwdQ, h.ontoQ⟩
  | readProp =>
    obtain ⟨v, hv, e⟩ := readProp_since hx h
    simp only [step, e]
    exact ⟨h.initial, h.priv, h.ops, h.dynGenQ, hv, h.fwdQ, h.onwdQ, h.ontoQ⟩
  | readFwd =>
    obtain ⟨v, hv, e⟩ := readFwd_since hx h
    simp only [step, e]
    exact ⟨h.initial, h.priv, h.ops, h.dynGenQ, h.propQ, hv, h.onwdQ, h.ontoQ⟩
  | readOnwd =>
    obtain ⟨v, r, e⟩ := readOnwd_form c s
    simp only [step, e]
    refine ⟨h.initial, h.priv, h.ops, h.dynGenQ, h.propQ, h.fwdQ, fun hq hs => ?_, h.ontoQ⟩
    obtain ⟨v', hv', e', -⟩ := readOnwd_since hx h hq hs
    rw [e] at e'
    have : v = v' := congrArg State.onwdQ e'
    exact this ▸ hv'
  | readOnto =>
    obtain ⟨a, b, v, r, e⟩ := readOnto_form c s
    have hr := fun hs => (readOnto_since hx h hs).1
    simp only [step]
    rw [e] at hr ⊢
    exact ⟨h.initial, h.priv, h.ops, h.dynGenQ, h.propQ, h.fwdQ, h.onwdQ, hr⟩
  | readOntoTarget =>
    simp only [step]
    split
    · obtain ⟨a, t, e, h1, -⟩ := readOntoTarget_ready c s h.priv
      rw [e]
      refine ⟨h.initial, h.priv, h.ops, h.dynGenQ, h.propQ, h.fwdQ, h.onwdQ, fun hs => ?_⟩
      rcases h.ontoQ hs with e | e | ⟨hq, t', e1, e2, e3⟩
      · exact .inl e
      · exact .inr (.inl e)
      · exact .inr (.inr ⟨hq, t, rfl, rfl, by rw [h1 t' e1]; exact e3⟩)
    · exact h

theorem since_run (hx : Fits c x) (ops : List (Op V)) (ho : ∀ o ∈ ops, o.looks = true)
    (h : Since c i last x s) : Since c i last x (run c s ops) := by
  induction ops generalizing s with
  | nil => exact h
  | cons o ops ih =>
    exact ih (fun o' h' => ho o' (by simp [h'])) (since_step hx h (ho o (by simp)))

end Reads

/-! ### Reachable states -/

theorem ready_step {c : Cfg V} {i : Arr V} {s : State V} (h : Ready i s) (op : Op V) :
    Ready i (step c s op) := by
  have key : ∀ s' : State V, s'.initial = s.initial → s'.privTarget = s.privTarget →
      s'.ops = s.ops → Ready i s' := fun s' h1 h2 h3 =>
    ⟨by rw [h1]; exact h.initial, by rw [h2, h3]; exact h.priv, by rw [h3]; exact h.fwd⟩
  cases op with
  | setTarget t => exact key _ rfl rfl rfl
  | init =>
    simp only [step, initEvo]
    cases s.ops with
    | none => exact ⟨h.initial, fun _ => rfl, fun o ho => by cases ho; simp [h.initial]⟩
    | some o => exact ⟨h.initial, fun _ => rfl, fun o ho => by cases ho; simp [h.initial]⟩
  | compute x =>
    simp only [step, recompute]
    cases ho : s.ops with
    | none => exact ⟨h.initial, fun h' => by simp at h', fun o h' => by simp at h'⟩
    | some o =>
      refine ⟨h.initial, fun _ => h.priv (by simp [ho]), fun o' h' => ?_⟩
      cases h'
      have := h.fwd o ho
      simp [this]
  | readDynGen =>
    simp only [step, readDynGen]
    cases ho : s.ops with
    | none => exact h
    | some o =>
      dsimp only
      split
      · split
        · exact key _ rfl rfl ho.symm
        · split
          · exact h
          · exact key _ rfl rfl ho.symm
      · exact h
  | readProp =>
    simp only [step, readProp]
    cases ho : s.ops with
    | none => exact h
    | some o =>
      dsimp only
      split
      · split
        · exact key _ rfl rfl ho.symm
        · split
          · exact h
          · exact key _ rfl rfl ho.symm
      · exact h
  | readFwd =>
    simp only [step, readFwd]
    cases ho : s.ops with
    | none => exact h
    | some o =>
      dsimp only
      split
      · split
        · exact key _ rfl rfl ho.symm
        · split <;> exact key _ rfl rfl ho.symm
      · exact h
  | readOnwd =>
    obtain ⟨v, r, e⟩ := readOnwd_form c s
    simp only [step, e]
    exact key _ rfl rfl rfl
  | readOnto =>
    obtain ⟨a, b, v, r, e⟩ := readOnto_form c s
    simp only [step, e]
    exact key _ rfl rfl rfl
  | readOntoTarget =>
    simp only [step]
    split
    · obtain ⟨a, b, r, e⟩ := readOntoTarget_form c s
      rw [e]
      exact key _ rfl rfl rfl
    · exact h

theorem ready_run {c : Cfg V} {i : Arr V} (ops : List (Op V)) {s : State V} (h : Ready i s) :
    Ready i (run c s ops) := by
  induction ops generalizing s with
  | nil => exact h
  | cons o ops ih => exact ih (ready_step h o)

theorem ready_start (i t : Arr V) : Ready i (start i t) :=
  ⟨rfl, fun h => by simp [start] at h, fun o h => by simp [start] at h⟩

theorem since_compute {c : Cfg V} {i : Arr V} {s : State V} (h : Ready i s) {o : Ops V}
    (ho : s.ops = some o) (x : Computed V) :
    Since c i (o.onto.drop c.n) x (step c s (.compute x)) := by
  have e := h.fwd o ho
  simp only [step, recompute, ho]
  refine ⟨h.initial, h.priv (by simp [ho]), ⟨_, rfl, rfl, rfl, ?_, fun hu => if_pos hu,
    fun hu => if_pos hu⟩, .inl rfl, .inl rfl, .inl rfl, fun _ _ => .inl rfl, fun _ => .inl rfl⟩
  simp [e]

/-! ### Histories with one target -/

/-- The state belongs to one target. -/
structure OneTarget (c : Cfg V) (t : Arr V) (s : State V) : Prop where
  target : s.target = t
  priv : ∀ p, s.privTarget = some p → p = t
  onto : ∀ p, s.ontoTarget = some p → p = c.inv t
  ontoQ : ∀ p, s.ontoTargetQ = some p → p = c.inv t
  last : ∀ o, s.ops = some o → c.usesOnto = true → o.onto.drop c.n = [some (c.inv t)]

theorem getOntoTarget_one {c : Cfg V} {t g : Arr V} {s : State V} (h : OneTarget c t s)
    (e : getOntoTarget c s = some g) : g = c.inv t := by
  unfold getOntoTarget at e
  split at e
  · cases hp : s.privTarget with
    | none => rw [hp] at e; cases e
    | some p => rw [hp, h.priv p hp] at e; cases e; rfl
  · cases e; rw [h.target]

theorem readOntoTarget_one {c : Cfg V} {t : Arr V} {s : State V} (h : OneTarget c t s) :
    OneTarget c t (readOntoTarget c s).1 ∧
      ∀ g, (readOntoTarget c s).2 = .ok g → g = c.inv t := by
  unfold readOntoTarget
  cases ha : s.ontoTarget with
  | some a =>
    cases hb : s.ontoTargetQ with
    | some q => exact ⟨h, fun g e => by cases e; exact h.ontoQ _ hb⟩
    | none =>
      refine ⟨⟨h.target, h.priv, ?_, fun p e => ?_, h.last⟩, fun g e => ?_⟩
      · exact fun p e => h.onto p (by rw [ha]; exact e)
      · cases e; exact h.onto _ ha
      · cases e; exact h.onto _ ha
  | none =>
    cases hg : getOntoTarget c s with
    | none => exact ⟨h, fun g e => by cases e⟩
    | some a =>
      have ea := getOntoTarget_one h hg
      cases hb : s.ontoTargetQ with
      | some q =>
        refine ⟨⟨h.target, h.priv, fun p e => by cases e; exact ea, ?_, h.last⟩,
          fun g e => by cases e; exact h.ontoQ _ hb⟩
        exact fun p e => h.ontoQ p (by rw [hb]; exact e)
      | none =>
        exact ⟨⟨h.target, h.priv, fun p e => by cases e; exact ea,
          fun p e => by cases e; exact ea, h.last⟩, fun g e => by cases e; exact ea⟩

theorem one_frame {c : Cfg V} {t : Arr V} {s s' : State V} (h : OneTarget c t s)
    (h1 : s'.target = s.target) (h2 : s'.privTarget = s.privTarget)
    (h3 : s'.ontoTarget = s.ontoTarget) (h4 : s'.ontoTargetQ = s.ontoTargetQ)
    (h5 : s'.ops = s.ops) : OneTarget c t s' :=
  ⟨by rw [h1]; exact h.target, by rw [h2]; exact h.priv, by rw [h3]; exact h.onto,
    by rw [h4]; exact h.ontoQ, by rw [h5]; exact h.last⟩

theorem readOnto_one {c : Cfg V} {t : Arr V} {s : State V} (h : OneTarget c t s) :
    OneTarget c t (readOnto c s).1 := by
  unfold readOnto
  cases ho : s.ops with
  | none => exact h
  | some o =>
    dsimp only
    split
    · split
      · split
        · exact one_frame h rfl rfl rfl rfl ho.symm
        · split
          · exact one_frame h rfl rfl rfl rfl ho.symm
          · have := readOntoTarget_one h
            split
            · rename_i e
              rw [e] at this
              exact one_frame this.1 rfl rfl rfl rfl rfl
            · rename_i e
              rw [e] at this
              exact one_frame this.1 rfl rfl rfl rfl rfl
      · exact h
    · exact h

theorem one_step {c : Cfg V} {t : Arr V} {s : State V} (h : OneTarget c t s) {op : Op V}
    (hk : op.keepsTarget = true) (hf : op.Fills c) : OneTarget c t (step c s op) := by
  cases op with
  | setTarget t' => cases hk
  | init =>
    have hg : ∀ g, getOntoTarget c { s with privTarget := some s.target } = some g →
        g = c.inv t := fun g e => by
      unfold getOntoTarget at e
      split at e <;> (cases e; rw [h.target])
    have hl : ∀ u : Option (Arr V), (List.replicate c.n (none : Option (Arr V)) ++ [u]).drop c.n = [u] :=
      fun u => by rw [List.drop_left' (by simp)]
    have hs : ∃ g, getOntoTarget c { s with privTarget := some s.target } = some g := by
      unfold getOntoTarget
      split <;> exact ⟨_, rfl⟩
    obtain ⟨g, e⟩ := hs
    have eg := hg g e
    have key : ∀ p, (if c.usesOnto then getOntoTarget c { s with privTarget := some s.target }
        else s.ontoTarget) = some p → p = c.inv t := by
      intro p hp
      split at hp
      · exact hg p hp
      · exact h.onto p hp
    simp only [step, initEvo]
    cases ho : s.ops with
    | none =>
      exact ⟨h.target, fun p hp => by cases hp; exact h.target, key, h.ontoQ,
        fun o' ho' hu => by cases ho'; rw [ho] at e; simp only [hl, hu, if_true, e, eg]⟩
    | some o =>
      exact ⟨h.target, fun p hp => by cases hp; exact h.target, key, h.ontoQ,
        fun o' ho' hu => by cases ho'; rw [ho] at e; simp only [hl, hu, if_true, e, eg]⟩
  | compute x =>
    simp only [step, recompute]
    cases ho : s.ops with
    | none => exact one_frame h rfl rfl rfl rfl ho.symm
    | some o =>
      refine ⟨h.target, h.priv, h.onto, h.ontoQ, fun o' ho' hu => ?_⟩
      cases ho'
      simp only [hu, if_true]
      rw [List.drop_left' (by simpa [Op.Fills] using hf)]
      exact h.last o ho hu
  | readDynGen =>
    simp only [step, readDynGen]
    cases ho : s.ops with
    | none => exact h
    | some o =>
      dsimp only
      split
      · split
        · exact one_frame h rfl rfl rfl rfl ho.symm
        · split
          · exact h
          · exact one_frame h rfl rfl rfl rfl ho.symm
      · exact h
  | readProp =>
    simp only [step, readProp]
    cases ho : s.ops with
    | none => exact h
    | some o =>
      dsimp only
      split
      · split
        · exact one_frame h rfl rfl rfl rfl ho.symm
        · split
          · exact h
          · exact one_frame h rfl rfl rfl rfl ho.symm
      · exact h
  | readFwd =>
    simp only [step, readFwd]
    cases ho : s.ops with
    | none => exact h
    | some o =>
      dsimp only
      split
      · split
        · exact one_frame h rfl rfl rfl rfl ho.symm
        · split <;> exact one_frame h rfl rfl rfl rfl ho.symm
      · exact h
  | readOnwd =>
    obtain ⟨v, r, e⟩ := readOnwd_form c s
    simp only [step, e]
    exact one_frame h rfl rfl rfl rfl rfl
  | readOnto => exact readOnto_one h
  | readOntoTarget =>
    simp only [step]
    split
    · exact (readOntoTarget_one h).1
    · exact h

theorem one_run {c : Cfg V} {t : Arr V} (ops : List (Op V)) {s : State V} (h : OneTarget c t s)
    (hk : ∀ o ∈ ops, o.keepsTarget = true ∧ o.Fills c) : OneTarget c t (run c s ops) := by
  induction ops generalizing s with
  | nil => exact h
  | cons o ops ih =>
    exact ih (one_step h (hk o (by simp)).1 (hk o (by simp)).2) fun o' h' => hk o' (by simp [h'])

end QTrl.ViewList
