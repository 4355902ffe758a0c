import Verif.Spec.LoadParams
import Mathlib.Data.List.Nodup
import Mathlib.Data.List.Lookmap

/-
Loading parameter files: what the loops do.
-/

namespace QTrl.LoadParams

open Spec.LoadParams

variable {V : Type}

theorem convert_iff (py : Py V) (k : Kind) (t : String) (v : V) :
    convert py k t = .ok v ↔ Reads py k t v := by
  cases k with
  | qobj =>
    unfold convert; simp only
    cases h : py.qobj t with
    | none => exact ⟨fun h => (by cases h), fun h' => by cases h' with | qobj e => rw [h] at e; cases e⟩
    | some w => exact ⟨fun e => by cases e; exact .qobj h,
        fun h' => by cases h' with | qobj e => rw [h] at e; cases e; rfl⟩
  | ndarray dt =>
    unfold convert; simp only
    cases h : py.ndarray dt t with
    | none =>
      exact ⟨fun h => (by cases h), fun h' => by cases h' with | ndarray e => rw [h] at e; cases e⟩
    | some w => exact ⟨fun e => by cases e; exact .ndarray h,
        fun h' => by cases h' with | ndarray e => rw [h] at e; cases e; rfl⟩
  | list =>
    unfold convert; simp only
    cases h : py.list t with
    | none => exact ⟨fun h => (by cases h), fun h' => by cases h' with | list e => rw [h] at e; cases e⟩
    | some w => exact ⟨fun e => by cases e; exact .list h,
        fun h' => by cases h' with | list e => rw [h] at e; cases e; rfl⟩
  | complex =>
    unfold convert; simp only
    cases h : py.complex t with
    | none =>
      exact ⟨fun h => (by cases h), fun h' => by cases h' with | complex e => rw [h] at e; cases e⟩
    | some w => exact ⟨fun e => by cases e; exact .complex h,
        fun h' => by cases h' with | complex e => rw [h] at e; cases e; rfl⟩
  | int =>
    unfold convert; simp only
    cases h : py.getint t with
    | none => exact ⟨fun h => (by cases h), fun h' => by cases h' with | int e => rw [h] at e; cases e⟩
    | some w => exact ⟨fun e => by cases e; exact .int h,
        fun h' => by cases h' with | int e => rw [h] at e; cases e; rfl⟩
  | bool =>
    unfold convert; simp only
    cases h : py.getboolean t with
    | none => exact ⟨fun h => (by cases h), fun h' => by cases h' with | bool e => rw [h] at e; cases e⟩
    | some w => exact ⟨fun e => by cases e; exact .bool h,
        fun h' => by cases h' with | bool e => rw [h] at e; cases e; rfl⟩
  | float =>
    unfold convert; simp only
    cases h : py.getfloat t with
    | some w =>
      refine ⟨fun e => by cases e; exact .float h, fun h' => ?_⟩
      cases h' with
      | float e => rw [h] at e; cases e; rfl
      | floatExpr e _ => rw [h] at e; cases e
    | none =>
      simp only
      cases h2 : py.eval t with
      | some w =>
        refine ⟨fun e => by cases e; exact .floatExpr h h2, fun h' => ?_⟩
        cases h' with
        | float e => rw [h] at e; cases e
        | floatExpr _ e => rw [h2] at e; cases e; rfl
      | none =>
        refine ⟨fun e => (by cases e), fun h' => ?_⟩
        cases h' with
        | float e => rw [h] at e; cases e
        | floatExpr _ e => rw [h2] at e; cases e
  | other =>
    unfold convert; simp only
    cases h : py.getfloat t with
    | some w =>
      refine ⟨fun e => by cases e; exact .otherFloat h, fun h' => ?_⟩
      cases h' with
      | otherFloat e => rw [h] at e; cases e; rfl
      | otherBool e _ => rw [h] at e; cases e
      | text e _ => rw [h] at e; cases e
    | none =>
      simp only
      cases h2 : py.getboolean t with
      | some w =>
        refine ⟨fun e => by cases e; exact .otherBool h h2, fun h' => ?_⟩
        cases h' with
        | otherFloat e => rw [h] at e; cases e
        | otherBool _ e => rw [h2] at e; cases e; rfl
        | text _ e => rw [h2] at e; cases e
      | none =>
        refine ⟨fun e => by cases e; exact .text h h2, fun h' => ?_⟩
        cases h' with
        | otherFloat e => rw [h] at e; cases e
        | otherBool _ e => rw [h2] at e; cases e
        | text _ _ => rfl

theorem get_iff (p : Parser) (s n t : String) : p.get s n = .ok t ↔ HasText p s n t := by
  unfold Parser.get
  constructor
  · intro h
    cases h1 : p.sections.lookup s with
    | none => rw [h1] at h; cases h
    | some l =>
      rw [h1] at h
      simp only at h
      cases h2 : l.lookup n with
      | some raw =>
        rw [h2, Option.some_or] at h
        simp only at h
        cases h3 : p.interp s raw with
        | none => rw [h3] at h; cases h
        | some t' =>
          rw [h3] at h
          cases h
          exact ⟨l, raw, h1, Or.inl h2, h3⟩
      | none =>
        rw [h2, Option.none_or] at h
        cases h4 : p.defaults.lookup n with
        | none => rw [h4] at h; cases h
        | some raw =>
          rw [h4] at h
          simp only at h
          cases h3 : p.interp s raw with
          | none => rw [h3] at h; cases h
          | some t' =>
            rw [h3] at h
            cases h
            exact ⟨l, raw, h1, Or.inr ⟨h2, h4⟩, h3⟩
  · rintro ⟨l, raw, h1, h2 | ⟨h2, h4⟩, h3⟩
    · rw [h1]
      simp only
      rw [h2, Option.some_or]
      simp only
      rw [h3]
    · rw [h1]
      simp only
      rw [h2, Option.none_or, h4]
      simp only
      rw [h3]

/-- One option: applied, or an exception and the option cannot be applied. -/
theorem setParam_spec (py : Py V) (p : Parser) (s n : String) (o : Obj V) :
    (∃ o' w, setParam py p s n o = .ok (o', w) ∧ Applicable py p s o n ∧
      AppliedTo py p s o o' n ∧ (∀ m, m ≠ n → o'.attr m = o.attr m) ∧ o'.readOnly = o.readOnly ∧
      w = (if (o.attr n).isNone then [.missing s n] else [])) ∨
    (∃ e, setParam py p s n o = .error e ∧ ¬ Applicable py p s o n) := by
  unfold setParam
  cases h1 : p.get s n with
  | error e =>
    right
    refine ⟨e, rfl, ?_⟩
    rintro ⟨t, ht, -⟩
    rw [← get_iff, h1] at ht
    cases ht
  | ok t =>
    have ht := (get_iff p s n t).1 h1
    have huniq : ∀ t', HasText p s n t' → t' = t := by
      intro t' h'
      rw [← get_iff, h1] at h'
      cases h'
      rfl
    simp only
    cases h2 : o.attr n with
    | none =>
      left
      refine ⟨o, _, rfl, ⟨t, ht, fun a ha => by rw [h2] at ha; cases ha⟩, ?_, fun _ _ => rfl, rfl,
        by simp⟩
      unfold AppliedTo
      rw [h2]
    | some a =>
      simp only
      cases h3 : convert py (py.kind a) t with
      | error e =>
        right
        refine ⟨e, rfl, ?_⟩
        rintro ⟨t', ht', h'⟩
        rw [huniq t' ht'] at h'
        obtain ⟨⟨v, hv⟩, -⟩ := h' a h2
        rw [← convert_iff, h3] at hv
        cases hv
      | ok v =>
        have hv := (convert_iff _ _ _ _).1 h3
        simp only [Obj.set]
        by_cases h4 : o.readOnly n = true
        · right
          rw [if_pos h4]
          refine ⟨_, rfl, ?_⟩
          rintro ⟨t', -, h'⟩
          have := (h' a h2).2
          rw [h4] at this
          cases this
        · left
          rw [if_neg h4]
          refine ⟨_, _, rfl, ⟨t, ht, fun a' ha' => ?_⟩, ?_, ?_, rfl, by simp⟩
          · rw [h2] at ha'
            cases ha'
            exact ⟨⟨v, hv⟩, by simpa using h4⟩
          · unfold AppliedTo
            rw [h2]
            exact ⟨t, v, ht, hv, Function.update_self _ _ _⟩
          · intro m hm
            exact Function.update_of_ne hm _ _

theorem applicable_congr (py : Py V) (p : Parser) (s : String) (o o' : Obj V) (n : String)
    (h1 : o'.attr n = o.attr n) (h2 : o'.readOnly = o.readOnly) :
    Applicable py p s o' n ↔ Applicable py p s o n := by
  unfold Applicable
  rw [h1, h2]

theorem appliedTo_congr (py : Py V) (p : Parser) (s : String) (o o' q q' : Obj V) (n : String)
    (h1 : o'.attr n = o.attr n) (h2 : q'.attr n = q.attr n) :
    AppliedTo py p s o' q' n ↔ AppliedTo py p s o q n := by
  unfold AppliedTo
  rw [h1, h2]

theorem missing_congr (s : String) (o o' : Obj V) (ns : List String)
    (h : ∀ n ∈ ns, o'.attr n = o.attr n) : missing s o' ns = missing s o ns := by
  unfold missing
  congr 1
  exact List.filter_congr fun n hn => by rw [h n hn]

/-- All options: those before the first that cannot be applied are applied. -/
theorem setAll_spec (py : Py V) (p : Parser) (s : String) (ns : List String) (hd : ns.Nodup)
    (o : Obj V) :
    ∃ done rest, ns = done ++ rest ∧
      (∀ n ∈ done, Applicable py p s o n ∧ AppliedTo py p s o (setAll py p s ns o).1 n) ∧
      (∀ n, n ∉ done → (setAll py p s ns o).1.attr n = o.attr n) ∧
      (setAll py p s ns o).1.readOnly = o.readOnly ∧
      (setAll py p s ns o).2.1 = missing s o done ∧
      ((rest = [] ∧ (setAll py p s ns o).2.2 = none) ∨
        ∃ n t e, rest = n :: t ∧ ¬ Applicable py p s o n ∧
          (setAll py p s ns o).2.2 = some e) := by
  induction ns generalizing o with
  | nil =>
    exact ⟨[], [], rfl, fun n hn => (by cases hn), fun _ _ => rfl, rfl, rfl, Or.inl ⟨rfl, rfl⟩⟩
  | cons n ns ih =>
    rw [List.nodup_cons] at hd
    rcases setParam_spec py p s n o with ⟨o', w, h1, h2, h3, h4, h5, h6⟩ | ⟨e, h1, h2⟩
    · obtain ⟨done, rest, i1, i2, i3, i4, i5, i6⟩ := ih hd.2 o'
      have hn : n ∉ done := fun h => hd.1 (by rw [i1]; exact List.mem_append_left _ h)
      have hne : ∀ m ∈ done, m ≠ n := fun m hm e => hn (e ▸ hm)
      have e1 : setAll py p s (n :: ns) o = ((setAll py p s ns o').1,
          w ++ (setAll py p s ns o').2.1, (setAll py p s ns o').2.2) := by
        rw [setAll, h1]
      rw [e1]
      refine ⟨n :: done, rest, by rw [i1]; rfl, ?_, ?_, ?_, ?_, ?_⟩
      · intro m hm
        rcases List.mem_cons.1 hm with rfl | hm
        · refine ⟨h2, ?_⟩
          refine (appliedTo_congr py p s o o o' _ m rfl ?_).2 h3
          exact i3 m hn
        · obtain ⟨a1, a2⟩ := i2 m hm
          refine ⟨(applicable_congr py p s o o' m (h4 m (hne m hm)) h5).1 a1, ?_⟩
          exact (appliedTo_congr py p s o' o _ _ m (h4 m (hne m hm)).symm rfl).2 a2
      · intro m hm
        simp only [List.mem_cons, not_or] at hm
        rw [i3 m hm.2, h4 m hm.1]
      · rw [i4, h5]
      · rw [i5, h6, missing_congr s o o' done fun m hm => h4 m (hne m hm)]
        unfold missing
        by_cases c : (o.attr n).isNone = true
        · rw [if_pos c, List.filter_cons, if_pos c]; rfl
        · rw [if_neg c, List.filter_cons, if_neg c]; rfl
      · rcases i6 with i6 | ⟨m, t, e, j1, j2, j3⟩
        · exact Or.inl i6
        · right
          refine ⟨m, t, e, j1, ?_, j3⟩
          have hm : m ≠ n := by
            rintro rfl
            exact hd.1 (by rw [i1, j1]; simp)
          rwa [applicable_congr py p s o o' m (h4 m hm) h5] at j2
    · have e1 : setAll py p s (n :: ns) o = (o, [], some e) := by
        rw [setAll, h1]
      rw [e1]
      exact ⟨[], n :: ns, rfl, fun m hm => (by cases hm), fun _ _ => rfl, rfl, rfl,
        Or.inr ⟨n, ns, e, rfl, h2, rfl⟩⟩

theorem options_nodup (p : Parser) (hw : WellFormed p) (s : String) (ns : List String)
    (h : p.options s = .ok ns) : ns.Nodup := by
  unfold Parser.options at h
  cases h1 : p.sections.lookup s with
  | none => rw [h1] at h; cases h
  | some l =>
    rw [h1] at h
    cases h
    rw [List.nodup_append]
    refine ⟨hw.1 s l h1, hw.2.filter _, ?_⟩
    intro a ha b hb e
    subst e
    rw [List.mem_filter] at hb
    have := hb.2
    simp only [Bool.not_eq_true', List.contains_eq_mem, decide_eq_false_iff_not] at this
    exact this ha

theorem loadSection_setAll (py : Py V) (p : Parser) (s : String) (o : Obj V) (ns : List String)
    (h : p.options s = .ok ns) :
    loadSection py p s o = ((setAll py p s ns o).1, (setAll py p s ns o).2.1 ++
      ((setAll py p s ns o).2.2.map (Warn.failed s)).toList) := by
  unfold loadSection
  rw [h]
  simp only
  generalize setAll py p s ns o = r
  obtain ⟨o', w, e⟩ := r
  cases e with
  | none => simp
  | some e => simp

/-- Every attribute a section leaves is the old one or one read for it. -/
theorem setAll_attr (py : Py V) (p : Parser) (s : String) (ns : List String) (o : Obj V)
    (R : Option V → Option V → Prop) (hr : ∀ a, R a a) (ht : ∀ a b c, R a b → R b c → R a c)
    (hs : ∀ a t v, Reads py (py.kind a) t v → R (some a) (some v)) (n : String) :
    R (o.attr n) ((setAll py p s ns o).1.attr n) := by
  induction ns generalizing o with
  | nil => exact hr _
  | cons m ns ih =>
    rcases setParam_spec py p s m o with ⟨o', w, h1, h2, h3, h4, h5, h6⟩ | ⟨e, h1, h2⟩
    · have e1 : setAll py p s (m :: ns) o = ((setAll py p s ns o').1,
          w ++ (setAll py p s ns o').2.1, (setAll py p s ns o').2.2) := by
        rw [setAll, h1]
      rw [e1]
      refine ht _ _ _ ?_ (ih o')
      by_cases hm : n = m
      · subst hm
        unfold AppliedTo at h3
        cases h7 : o.attr n with
        | none =>
          rw [h7] at h3
          simp only at h3
          rw [h3]
          exact hr _
        | some a =>
          rw [h7] at h3
          obtain ⟨t, v, -, h8, h9⟩ := h3
          rw [h9]
          exact hs a t v h8
      · rw [h4 n hm]
        exact hr _
    · have e1 : setAll py p s (m :: ns) o = (o, [], some e) := by
        rw [setAll, h1]
      rw [e1]
      exact hr _

theorem loadSection_attr (py : Py V) (p : Parser) (s : String) (o : Obj V)
    (R : Option V → Option V → Prop) (hr : ∀ a, R a a) (ht : ∀ a b c, R a b → R b c → R a c)
    (hs : ∀ a t v, Reads py (py.kind a) t v → R (some a) (some v)) (n : String) :
    R (o.attr n) ((loadSection py p s o).1.attr n) := by
  cases h : p.options s with
  | error e =>
    have : loadSection py p s o = (o, [.failed s e]) := by unfold loadSection; rw [h]
    rw [this]
    exact hr _
  | ok ns =>
    rw [loadSection_setAll py p s o ns h]
    exact setAll_attr py p s ns o R hr ht hs n

theorem loadInto_attr (py : Py V) (p : Parser) (x : Option Nat) (s : String)
    (h : Heap V × List Warn)
    (R : Option V → Option V → Prop) (hr : ∀ a, R a a) (ht : ∀ a b c, R a b → R b c → R a c)
    (hs : ∀ a t v, Reads py (py.kind a) t v → R (some a) (some v)) (i : Nat) (n : String) :
    R ((h.1 i).attr n) (((loadInto py p x s h).1 i).attr n) := by
  cases x with
  | none => exact hr _
  | some id =>
    show R _ ((Function.update h.1 id (loadSection py p s (h.1 id)).1 i).attr n)
    by_cases e : i = id
    · subst e
      rw [Function.update_self]
      exact loadSection_attr py p s (h.1 i) R hr ht hs n
    · rw [Function.update_of_ne e]
      exact hr _

/-- Any relation between old and new values that reading respects holds after a call. -/
theorem load_attr (py : Py V) (file : Except Err (Option Parser)) (a : Args) (h : Heap V)
    (R : Option V → Option V → Prop) (hr : ∀ a, R a a) (ht : ∀ a b c, R a b → R b c → R a c)
    (hs : ∀ a t v, Reads py (py.kind a) t v → R (some a) (some v)) (i : Nat) (n : String) :
    R ((h i).attr n) (((load py file a h).1.1 i).attr n) := by
  match file with
  | .error e => exact hr _
  | .ok none => exact hr _
  | .ok (some p) =>
    have key : ∀ x s (r : Heap V × List Warn), R ((h i).attr n) ((r.1 i).attr n) →
        R ((h i).attr n) (((loadInto py p x s r).1 i).attr n) := fun x s r hh =>
      ht _ _ _ hh (loadInto_attr py p x s r R hr ht hs i n)
    have k0 := key a.pulsegen "pulsegen" _ (key a.optim "optimizer" _ (key a.dynamics "dynamics" _
      (key a.termConds "termconds" _ (key a.config "optimconfig" (h, []) (hr _)))))
    unfold load
    simp only
    cases a.obj with
    | none => exact k0
    | some id =>
      cases a.sect with
      | none => exact k0
      | some s => exact key (some id) s _ k0

/-- One object. -/
def job (py : Py V) (p : Parser) (r : Heap V × List Warn) (j : Nat × String) :
    Heap V × List Warn :=
  (Function.update r.1 j.1 (loadSection py p j.2 (r.1 j.1)).1,
    r.2 ++ (loadSection py p j.2 (r.1 j.1)).2)

theorem loadInto_job (py : Py V) (p : Parser) (x : Option Nat) (s : String)
    (r : Heap V × List Warn) :
    loadInto py p x s r = (x.map (·, s)).toList.foldl (job py p) r := by
  cases x <;> rfl

theorem load_jobs (py : Py V) (p : Parser) (a : Args) (h : Heap V) :
    load py (.ok (some p)) a h = ((jobs a).foldl (job py p) (h, []),
      if a.obj.isSome = true ∧ a.sect = none then some .valueError else none) := by
  unfold load jobs
  simp only [List.foldl_append, ← loadInto_job]
  cases a.obj with
  | none => simp
  | some id =>
    cases a.sect with
    | none => simp
    | some s => simp [loadInto, job]

theorem foldl_job (py : Py V) (p : Parser) (js : List (Nat × String))
    (hd : (js.map Prod.fst).Nodup) (r : Heap V × List Warn) :
    (∀ i s, (i, s) ∈ js →
      (js.foldl (job py p) r).1 i = (loadSection py p s (r.1 i)).1) ∧
    (∀ i, i ∉ js.map Prod.fst → (js.foldl (job py p) r).1 i = r.1 i) ∧
    (js.foldl (job py p) r).2 =
      r.2 ++ js.flatMap fun j => (loadSection py p j.2 (r.1 j.1)).2 := by
  induction js generalizing r with
  | nil => exact ⟨fun i s h => (by cases h), fun _ _ => rfl, by simp⟩
  | cons j js ih =>
    rw [List.map_cons, List.nodup_cons] at hd
    obtain ⟨h1, h2, h3⟩ := ih hd.2 (job py p r j)
    have hj : ∀ i, i ≠ j.1 → (job py p r j).1 i = r.1 i := fun i hi =>
      Function.update_of_ne hi _ _
    refine ⟨?_, ?_, ?_⟩
    · intro i s hi
      rw [List.foldl_cons]
      rcases List.mem_cons.1 hi with e | hi
      · have e1 : i = j.1 := congrArg Prod.fst e
        have e2 : s = j.2 := congrArg Prod.snd e
        subst e1 e2
        rw [h2 _ hd.1]
        exact Function.update_self _ _ _
      · rw [h1 i s hi, hj]
        rintro rfl
        exact hd.1 (List.mem_map.2 ⟨_, hi, rfl⟩)
    · intro i hi
      rw [List.map_cons, List.mem_cons, not_or] at hi
      rw [List.foldl_cons, h2 i hi.2, hj i hi.1]
    · rw [List.foldl_cons, h3, List.flatMap_cons]
      show (r.2 ++ _) ++ _ = _
      rw [List.append_assoc]
      congr 2
      refine List.flatMap_congr fun k hk => ?_
      rw [hj]
      intro e
      exact hd.1 (e ▸ List.mem_map_of_mem hk)

/-- Any objects not given are as before. -/
theorem foldl_job_other (py : Py V) (p : Parser) (js : List (Nat × String))
    (r : Heap V × List Warn) (i : Nat) (hi : i ∉ js.map Prod.fst) :
    (js.foldl (job py p) r).1 i = r.1 i := by
  induction js generalizing r with
  | nil => rfl
  | cons j js ih =>
    rw [List.map_cons, List.mem_cons, not_or] at hi
    rw [List.foldl_cons, ih _ hi.2]
    exact Function.update_of_ne hi.1 _ _

end QTrl.LoadParams
