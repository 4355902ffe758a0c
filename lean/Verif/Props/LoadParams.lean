import Verif.Proofs.LoadParams

/-
C43: loading parameter files.
-/

namespace QTrl.Props.LoadParams

open QTrl.LoadParams Spec.LoadParams

variable {V : Type}

/-! A small world for the examples: texts that are numbers, truth values or expressions. -/

/-- Values of the examples. -/
inductive Val where
  | float (n : Int)
  | int (n : Int)
  | bool (b : Bool)
  | list (l : List Int)
  | str (s : String)
  deriving DecidableEq

/-- Python on a few texts. -/
def exPy : Py Val where
  kind
    | .float _ => .float
    | .int _ => .int
    | .bool _ => .bool
    | .list _ => .list
    | .str _ => .other
  qobj _ := none
  ndarray _ _ := none
  list t := if t = "[1, 2]" then some (.list [1, 2]) else none
  getfloat t := if t = "1" then some (.float 1) else if t = "20" then some (.float 20) else none
  eval t := if t = "60*60" then some (.int 3600) else if t = "1" then some (.int 1)
    else if t = "20" then some (.int 20) else none
  complex _ := none
  getint t := if t = "1" then some (.int 1) else if t = "20" then some (.int 20) else none
  getboolean t := if t = "yes" then some (.bool true) else if t = "1" then some (.bool true)
    else none
  str := .str

/-- The converters of the examples return values of their types. -/
theorem exPy_typed : Typed exPy where
  qobj t v h := by cases h
  ndarray dt t v h := by cases h
  list t v h := by
    simp only [exPy] at h
    split at h
    · cases h; rfl
    · cases h
  getfloat t v h := by
    simp only [exPy] at h
    split at h
    · cases h; rfl
    · split at h
      · cases h; rfl
      · cases h
  complex t v h := by cases h
  getint t v h := by
    simp only [exPy] at h
    split at h
    · cases h; rfl
    · split at h
      · cases h; rfl
      · cases h
  getboolean t v h := by
    simp only [exPy] at h
    split at h
    · cases h; rfl
    · split at h
      · cases h; rfl
      · cases h
  str t := rfl

/-- A file without interpolation. -/
def exFile (sections : List (String × List (String × String)))
    (defaults : List (String × String)) : Parser :=
  { sections := sections, defaults := defaults, interp := fun _ t => some t }

/-- An object with the given attributes, none read-only. -/
def exObj (l : List (String × Val)) : Obj Val :=
  { attr := fun n => l.lookup n, readOnly := fun _ => false }

/-- Two sections. -/
def file1 : Parser := exFile
  [("dynamics", [("num_tslots", "20"), ("evo_time", "1"), ("colour", "red")]),
   ("termconds", [("max_iterations", "20")])] []

/-- Timing attributes. -/
def dyn1 : Obj Val := exObj [("num_tslots", .int 10), ("evo_time", .float 5), ("name", .str "d")]

/-! ### One section -/

/-- Every section.  Without the section nothing changes and that is reported.  Otherwise the
options are treated in the order of the file up to the first that cannot be applied: those before
it that the object has are set to the value read for the type of the present value, those it
does not have are not created and are reported, and every other attribute is as before; the
option that stopped the treatment is reported, if there is one. -/
theorem C43_section_partial (py : Py V) (p : Parser) (hw : WellFormed p) (s : String) (o : Obj V) :
    (p.sections.lookup s = none ∧ loadSection py p s o = (o, [.failed s .noSection])) ∨
    ∃ done rest, Named p s (done ++ rest) ∧
      (∀ n ∈ done, Applicable py p s o n ∧ AppliedTo py p s o (loadSection py p s o).1 n) ∧
      (∀ n, n ∉ done → (loadSection py p s o).1.attr n = o.attr n) ∧
      ((rest = [] ∧ (loadSection py p s o).2 = missing s o done) ∨
        ∃ n t e, rest = n :: t ∧ ¬ Applicable py p s o n ∧
          (loadSection py p s o).2 = missing s o done ++ [.failed s e]) := by
  cases h : p.sections.lookup s with
  | none =>
    left
    refine ⟨rfl, ?_⟩
    have : p.options s = .error .noSection := by unfold Parser.options; rw [h]
    unfold loadSection
    rw [this]
  | some l =>
    right
    obtain ⟨ns, hns⟩ : ∃ ns, p.options s = .ok ns := by
      unfold Parser.options; rw [h]; exact ⟨_, rfl⟩
    have hn : Named p s ns := by
      unfold Parser.options at hns
      rw [h] at hns
      cases hns
      refine ⟨l, h, ?_⟩
      congr 1
      refine List.filter_congr fun n _ => ?_
      simp
    obtain ⟨done, rest, h1, h2, h3, h4, h5, h6⟩ :=
      setAll_spec py p s ns (options_nodup p hw s ns hns) o
    rw [loadSection_setAll py p s o ns hns]
    refine ⟨done, rest, h1 ▸ hn, h2, h3, ?_⟩
    rcases h6 with ⟨h6, h7⟩ | ⟨n, t, e, h6, h7, h8⟩
    · left
      exact ⟨h6, by rw [h7, h5]; simp⟩
    · right
      exact ⟨n, t, e, h6, h7, by rw [h8, h5]; simp⟩

/-- If every option of the section can be applied, exactly the named attributes the object has
are set, each to the value read, and exactly the others named are reported. -/
theorem C43_complete (py : Py V) (p : Parser) (hw : WellFormed p) (s : String) (o : Obj V)
    (ns : List String) (hn : Named p s ns) (ha : ∀ n ∈ ns, Applicable py p s o n) :
    (∀ n ∈ ns, AppliedTo py p s o (loadSection py p s o).1 n) ∧
    (∀ n, n ∉ ns → (loadSection py p s o).1.attr n = o.attr n) ∧
    (loadSection py p s o).2 = missing s o ns := by
  rcases C43_section_partial py p hw s o with ⟨h, -⟩ | ⟨done, rest, h1, h2, h3, h4⟩
  · obtain ⟨l, hl, -⟩ := hn
    rw [h] at hl
    cases hl
  · have e : ns = done ++ rest := by
      obtain ⟨l, hl, e⟩ := hn
      obtain ⟨l', hl', e'⟩ := h1
      rw [hl] at hl'
      cases hl'
      rw [e, e']
    rcases h4 with ⟨h4, h5⟩ | ⟨n, t, er, h4, h5, -⟩
    · rw [h4, List.append_nil] at e
      subst e
      exact ⟨fun n hn => (h2 n hn).2, h3, h5⟩
    · exact absurd (ha n (by rw [e, h4]; simp)) h5

/-- A section with two attributes the object has and one it does not. -/
example :
    loadSection exPy file1 "dynamics" dyn1 = ((loadSection exPy file1 "dynamics" dyn1).1,
      [.missing "dynamics" "colour"]) ∧
    (loadSection exPy file1 "dynamics" dyn1).1.attr "num_tslots" = some (.int 20) ∧
    (loadSection exPy file1 "dynamics" dyn1).1.attr "evo_time" = some (.float 1) ∧
    (loadSection exPy file1 "dynamics" dyn1).1.attr "name" = some (.str "d") ∧
    (loadSection exPy file1 "dynamics" dyn1).1.attr "colour" = none ∧
    Named file1 "dynamics" ["num_tslots", "evo_time", "colour"] :=
  ⟨by rfl, by decide, by decide, by decide, by decide, _, rfl, by decide⟩

/-! ### The whole call -/

/-- No call creates or removes attributes of any object, whatever it raises. -/
theorem C43_no_create (py : Py V) (file : Except Err (Option Parser)) (a : Args) (h : Heap V)
    (i : Nat) (n : String) :
    (((load py file a h).1.1 i).attr n).isSome = ((h i).attr n).isSome :=
  (load_attr py file a h (fun a b => b.isSome = a.isSome) (fun _ => rfl)
    (fun _ _ _ h1 h2 => h2.trans h1) (fun _ _ _ _ => rfl) i n)

/-- Quantum objects, arrays (with their element type), lists, complex numbers, integers and
truth values stay of their type in every call. -/
theorem C43_types (py : Py V) (ht : Typed py) (file : Except Err (Option Parser)) (a : Args)
    (h : Heap V) (i : Nat) (n : String) (v : V) (hv : (h i).attr n = some v)
    (hf : py.kind v ≠ .float) (ho : py.kind v ≠ .other) :
    ∃ v', ((load py file a h).1.1 i).attr n = some v' ∧ py.kind v' = py.kind v := by
  have key := load_attr py file a h
    (fun x y => ∀ v, x = some v → py.kind v ≠ .float → py.kind v ≠ .other →
      ∃ v', y = some v' ∧ py.kind v' = py.kind v)
    (fun _ v e _ _ => ⟨v, e, rfl⟩)
    (fun x y z h1 h2 v e f g => by
      obtain ⟨v', e', k⟩ := h1 v e f g
      obtain ⟨v'', e'', k'⟩ := h2 v' e' (k ▸ f) (k ▸ g)
      exact ⟨v'', e'', k'.trans k⟩)
    (fun w t v' hr v e f g => by
      cases e
      refine ⟨v', rfl, ?_⟩
      generalize hk : py.kind w = k at hr f g ⊢
      cases hr with
      | qobj e => exact ht.qobj _ _ e
      | ndarray e => exact ht.ndarray _ _ _ e
      | list e => exact ht.list _ _ e
      | float e => exact absurd rfl f
      | floatExpr _ e => exact absurd rfl f
      | complex e => exact ht.complex _ _ e
      | int e => exact ht.getint _ _ e
      | bool e => exact ht.getboolean _ _ e
      | otherFloat e => exact absurd rfl g
      | otherBool _ e => exact absurd rfl g
      | text _ _ => exact absurd rfl g) i n
  exact key v hv hf ho

/-- Every object given gets its section exactly as if it were the only one, whatever goes wrong
in the sections of the others; no other object is touched; the reports are those of the sections
in order.  The call raises only if an object was given without the name of its section. -/
theorem C43_sections (py : Py V) (p : Parser) (a : Args) (h : Heap V)
    (hd : ((jobs a).map Prod.fst).Nodup) :
    (∀ i s, (i, s) ∈ jobs a →
      (load py (.ok (some p)) a h).1.1 i = (loadSection py p s (h i)).1) ∧
    (∀ i, i ∉ (jobs a).map Prod.fst → (load py (.ok (some p)) a h).1.1 i = h i) ∧
    (load py (.ok (some p)) a h).1.2 =
      (jobs a).flatMap (fun j => (loadSection py p j.2 (h j.1)).2) ∧
    ((load py (.ok (some p)) a h).2 = none ↔ (a.obj.isSome = true → a.sect.isSome = true)) := by
  rw [load_jobs]
  obtain ⟨h1, h2, h3⟩ := foldl_job py p (jobs a) hd (h, [])
  refine ⟨h1, h2, by rw [h3]; simp, ?_⟩
  cases a.obj <;> cases a.sect <;> simp

/-- Without a file, or if it cannot be parsed, nothing changes and the call raises. -/
theorem C43_no_file (py : Py V) (a : Args) (h : Heap V) :
    load py (.ok none) a h = ((h, []), some .valueError) ∧
    ∀ e, load py (.error e) a h = ((h, []), some e) :=
  ⟨rfl, fun _ => rfl⟩

/-- The arguments of the example. -/
def args1 : Args :=
  { config := none, termConds := some 1, dynamics := some 0, optim := some 2, pulsegen := none,
    obj := none, sect := none }

/-- The section of the optimizer is not in the file: the others are applied. -/
example (h : Heap Val) (h0 : h 0 = dyn1) (h1 : h 1 = exObj [("max_iterations", .int 500)]) :
    ((jobs args1).map Prod.fst).Nodup ∧
    ((load exPy (.ok (some file1)) args1 h).1.1 0).attr "num_tslots" = some (.int 20) ∧
    ((load exPy (.ok (some file1)) args1 h).1.1 1).attr "max_iterations" = some (.int 20) ∧
    (load exPy (.ok (some file1)) args1 h).1.1 2 = h 2 ∧
    (.failed "optimizer" .noSection) ∈ (load exPy (.ok (some file1)) args1 h).1.2 := by
  have hd : ((jobs args1).map Prod.fst).Nodup := by decide
  obtain ⟨k1, -, k3, -⟩ := C43_sections exPy file1 args1 h hd
  refine ⟨hd, ?_, ?_, ?_, ?_⟩
  · rw [k1 0 "dynamics" (by decide), h0]; decide
  · rw [k1 1 "termconds" (by decide), h1]; decide
  · rw [k1 2 "optimizer" (by decide)]; rfl
  · rw [k3]
    exact List.mem_flatMap.2 ⟨(2, "optimizer"), by decide, List.mem_singleton.2 rfl⟩

example (h : Heap Val) (h0 : h 0 = dyn1) :
    ∃ v', ((load exPy (.ok (some file1)) args1 h).1.1 0).attr "num_tslots" = some v' ∧
      exPy.kind v' = .int :=
  C43_types exPy exPy_typed _ args1 h 0 "num_tslots" (.int 10) (by rw [h0]; decide) (by decide)
    (by decide)

/-! ### What the claim says and the code does not do -/

/-- Texts do not stay texts: a text that reads as a number or a truth value becomes one. -/
theorem C43_violated_text :
    ∃ (p : Parser) (o : Obj Val), WellFormed p ∧ o.attr "log_file" = some (.str "a") ∧
      (loadSection exPy p "s" o).1.attr "log_file" = some (.float 1) ∧
      (loadSection exPy p "s" o).2 = [] := by
  refine ⟨exFile [("s", [("log_file", "1")])] [], exObj [("log_file", .str "a")],
    ⟨?_, by decide⟩, by decide, by decide, by decide⟩
  intro s l h
  simp only [exFile, List.lookup] at h
  split at h
  · cases h; decide
  · cases h

/-- Floats do not stay floats: an expression gives whatever it evaluates to. -/
theorem C43_violated_float :
    ∃ (p : Parser) (o : Obj Val), WellFormed p ∧ o.attr "max_wall_time" = some (.float 1) ∧
      (loadSection exPy p "s" o).1.attr "max_wall_time" = some (.int 3600) ∧
      (loadSection exPy p "s" o).2 = [] := by
  refine ⟨exFile [("s", [("max_wall_time", "60*60")])] [], exObj [("max_wall_time", .float 1)],
    ⟨?_, by decide⟩, by decide, by decide, by decide⟩
  intro s l h
  simp only [exFile, List.lookup] at h
  split at h
  · cases h; decide
  · cases h

/-- An option that cannot be applied keeps the later ones of its section, all in order, from
being applied; which ones depends on the order in the file. -/
theorem C43_violated_rest :
    ∃ (p q : Parser) (o : Obj Val), WellFormed p ∧ WellFormed q ∧
      (∀ s l, p.sections.lookup s = some l → ∃ l', q.sections.lookup s = some l' ∧ l.Perm l') ∧
      p.defaults = q.defaults ∧
      (loadSection exPy p "s" o).1.attr "b" = some (.int 20) ∧
      (loadSection exPy q "s" o).1.attr "b" = some (.int 1) ∧
      Applicable exPy q "s" o "b" := by
  refine ⟨exFile [("s", [("b", "20"), ("a", "x")])] [], exFile [("s", [("a", "x"), ("b", "20")])] [],
    exObj [("a", .int 1), ("b", .int 1)], ⟨?_, by decide⟩, ⟨?_, by decide⟩, ?_, rfl, by decide,
    by decide, "20", ⟨_, _, rfl, Or.inl rfl, rfl⟩, ?_⟩
  · intro s l h
    simp only [exFile, List.lookup] at h
    split at h
    · cases h; decide
    · cases h
  · intro s l h
    simp only [exFile, List.lookup] at h
    split at h
    · cases h; decide
    · cases h
  · intro s l h
    simp only [exFile, List.lookup] at h ⊢
    split at h
    · cases h
      exact ⟨_, rfl, List.Perm.swap _ _ _⟩
    · cases h
  · intro a ha
    have : a = .int 1 := by
      have h : (exObj [("a", .int 1), ("b", .int 1)]).attr "b" = some (.int 1) := by decide
      rw [h] at ha
      exact (Option.some.inj ha).symm
    subst this
    exact ⟨⟨.int 20, .int (by decide)⟩, rfl⟩

/-- Attributes not named in the section are set if the default section of the file names them. -/
theorem C43_violated_defaults :
    ∃ (p : Parser) (o : Obj Val) (l : List (String × String)), WellFormed p ∧
      p.sections.lookup "s" = some l ∧ "b" ∉ l.map Prod.fst ∧ o.attr "b" = some (.int 1) ∧
      (loadSection exPy p "s" o).1.attr "b" = some (.int 20) := by
  refine ⟨exFile [("s", [("a", "1")])] [("b", "20")], exObj [("a", .int 1), ("b", .int 1)],
    [("a", "1")], ⟨?_, by decide⟩, by decide, by decide, by decide, by decide⟩
  intro s l h
  simp only [exFile, List.lookup] at h
  split at h
  · cases h; decide
  · cases h

end QTrl.Props.LoadParams
