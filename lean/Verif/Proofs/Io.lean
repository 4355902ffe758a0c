import Verif.Spec.Io
import Mathlib.Data.List.Infix

/-
What `mkdir` and `makedirs` do to a file system.
-/

namespace QTrl.Io

open Spec.Io

theorem onlyAdds_refl (fs : FS) (l : Loc) : OnlyAdds fs fs l := fun _ => Or.inl rfl

theorem onlyAdds_trans {a b c : FS} {l : Loc} (h1 : OnlyAdds a b l) (h2 : OnlyAdds b c l) :
    OnlyAdds a c l := by
  intro q
  rcases h1 q with e1 | ⟨e1, e1', e1''⟩
  · rcases h2 q with e2 | ⟨e2, e2', e2''⟩
    · exact Or.inl (e2.trans e1)
    · exact Or.inr ⟨e1 ▸ e2, e2', e2''⟩
  · rcases h2 q with e2 | ⟨e2, -, -⟩
    · exact Or.inr ⟨e1, e2.trans e1', e1''⟩
    · rw [e1'] at e2; cases e2

theorem onlyAdds_mono {a b : FS} {l m : Loc} (h : OnlyAdds a b l) (hs : l <:+ m) :
    OnlyAdds a b m := by
  intro q
  rcases h q with e | ⟨e, e', e''⟩
  · exact Or.inl e
  · exact Or.inr ⟨e, e', e''.trans hs⟩

/-- The outcomes of `mkdir`. -/
theorem mkdir_spec (fault : Loc → Bool) (fs : FS) (hw : WellFormed fs) (l : Loc) :
    OnlyAdds fs (mkdir fault fs l).1 l ∧ WellFormed (mkdir fault fs l).1 ∧
    ((mkdir fault fs l).2 = none → (mkdir fault fs l).1 l = some .dir) ∧
    (∀ e, (mkdir fault fs l).2 = some e → (mkdir fault fs l).1 = fs) ∧
    ((mkdir fault fs l).2 = some .eexist ↔ fs l ≠ none) := by
  cases l with
  | nil =>
    refine ⟨onlyAdds_refl _ _, hw, fun h => (by cases h), fun _ _ => rfl, ?_⟩
    exact ⟨fun _ => by rw [hw.1]; exact Option.some_ne_none _, fun _ => rfl⟩
  | cons c q =>
    have hp : fs q ≠ some .dir → fs (c :: q) = none := fun h => by
      by_contra h'
      exact h (hw.2 c q h')
    have stay : ∀ e, e ≠ Errno.eexist → fs q ≠ some .dir → mkdir fault fs (c :: q) = (fs, some e) →
        OnlyAdds fs (mkdir fault fs (c :: q)).1 (c :: q) ∧
        WellFormed (mkdir fault fs (c :: q)).1 ∧
        ((mkdir fault fs (c :: q)).2 = none → (mkdir fault fs (c :: q)).1 (c :: q) = some .dir) ∧
        (∀ e, (mkdir fault fs (c :: q)).2 = some e → (mkdir fault fs (c :: q)).1 = fs) ∧
        ((mkdir fault fs (c :: q)).2 = some .eexist ↔ fs (c :: q) ≠ none) := by
      intro e he hq h
      rw [h]
      refine ⟨onlyAdds_refl _ _, hw, fun h => (by cases h), fun _ _ => rfl, ?_⟩
      exact ⟨fun h => absurd (Option.some.inj h) he, fun h => absurd (hp hq) h⟩
    cases hq : fs q with
    | none =>
      exact stay .enoent (by decide) (by rw [hq]; decide) (by rw [mkdir, hq])
    | some n =>
      cases n with
      | broken => exact stay .enoent (by decide) (by rw [hq]; decide) (by rw [mkdir, hq])
      | file => exact stay .enotdir (by decide) (by rw [hq]; decide) (by rw [mkdir, hq])
      | special => exact stay .enotdir (by decide) (by rw [hq]; decide) (by rw [mkdir, hq])
      | dir =>
        have e : mkdir fault fs (c :: q) = if (fs (c :: q)).isSome then (fs, some .eexist)
            else if fault (c :: q) then (fs, some .other)
            else (Function.update fs (c :: q) (some .dir), none) := by
          rw [mkdir, hq]
        cases h1 : fs (c :: q) with
        | some n =>
          rw [h1] at e
          rw [e]
          refine ⟨onlyAdds_refl _ _, hw, fun h => (by cases h), fun _ _ => rfl, ?_⟩
          exact ⟨fun _ => Option.some_ne_none _, fun _ => rfl⟩
        | none =>
          rw [h1] at e
          rw [e]
          simp only [Option.isSome_none, Bool.false_eq_true, if_false]
          by_cases hf : fault (c :: q) = true
          · rw [if_pos hf]
            refine ⟨onlyAdds_refl _ _, hw, fun h => (by cases h), fun _ _ => rfl, ?_⟩
            exact ⟨fun h => (by cases h), fun h => absurd rfl h⟩
          · rw [if_neg hf]
            refine ⟨?_, ⟨?_, ?_⟩, fun _ => Function.update_self _ _ _, fun _ h => (by cases h), ?_⟩
            · intro r
              by_cases hr : r = c :: q
              · subst hr
                exact Or.inr ⟨h1, Function.update_self _ _ _, List.suffix_rfl⟩
              · exact Or.inl (Function.update_of_ne hr _ _)
            · show Function.update fs (c :: q) (some .dir) [] = _
              rw [Function.update_of_ne (by simp), hw.1]
            · intro d r hr
              show Function.update fs (c :: q) (some .dir) r = _
              by_cases h2 : r = c :: q
              · subst h2
                exact Function.update_self _ _ _
              · rw [Function.update_of_ne h2]
                by_cases h3 : d :: r = c :: q
                · cases h3
                  exact hq
                · have h4 : Function.update fs (c :: q) (some .dir) (d :: r) ≠ none := hr
                  rw [Function.update_of_ne h3] at h4
                  exact hw.2 d r h4
            · exact ⟨fun h => (by cases h), fun h => absurd rfl h⟩

theorem exists_iff (fs : FS) (l : Loc) :
    fs.exists l = true ↔ fs l ≠ none ∧ fs l ≠ some .broken := by
  unfold FS.exists
  cases h : fs l with
  | none => simp
  | some n => cases n <;> simp

/-- The outcomes of `makedirs`. -/
theorem makedirs_spec (fault : Loc → Bool) (fs : FS) (hw : WellFormed fs) (l : Loc) :
    OnlyAdds fs (makedirs fault fs l).1 l ∧ WellFormed (makedirs fault fs l).1 ∧
    ((makedirs fault fs l).2 = none → (makedirs fault fs l).1 l = some .dir) ∧
    ((makedirs fault fs l).2 ≠ none → (makedirs fault fs l).1 l = fs l) ∧
    ((makedirs fault fs l).2 = some .eexist ↔ fs l ≠ none) := by
  induction l generalizing fs with
  | nil =>
    obtain ⟨h1, h2, h3, h4, h5⟩ := mkdir_spec fault fs hw []
    refine ⟨h1, h2, h3, ?_, h5⟩
    intro _
    rfl
  | cons c q ih =>
    by_cases he : fs.exists q = true
    · have e : makedirs fault fs (c :: q) = mkdir fault fs (c :: q) := by
        rw [makedirs, if_pos he]
      rw [e]
      obtain ⟨h1, h2, h3, h4, h5⟩ := mkdir_spec fault fs hw (c :: q)
      refine ⟨h1, h2, h3, ?_, h5⟩
      intro hn
      obtain ⟨x, hx⟩ := Option.ne_none_iff_exists'.1 hn
      rw [h4 x hx]
    · have hq : fs q ≠ some .dir := fun h => he ((exists_iff fs q).2 (by rw [h]; decide))
      have hc : fs (c :: q) = none := by
        by_contra h
        exact hq (hw.2 c q h)
      obtain ⟨i1, i2, i3, i4, i5⟩ := ih fs hw
      have hsuf : q <:+ c :: q := List.suffix_cons c q
      have hnot : ¬ (c :: q <:+ q) := fun h => by
        have := h.length_le
        simp only [List.length_cons] at this
        omega
      have hcn : (makedirs fault fs q).1 (c :: q) = none := by
        rcases i1 (c :: q) with h | ⟨-, -, h⟩
        · rw [h, hc]
        · exact absurd h hnot
      have go : makedirs fault fs (c :: q) = mkdir fault (makedirs fault fs q).1 (c :: q) →
          OnlyAdds fs (makedirs fault fs (c :: q)).1 (c :: q) ∧
          WellFormed (makedirs fault fs (c :: q)).1 ∧
          ((makedirs fault fs (c :: q)).2 = none →
            (makedirs fault fs (c :: q)).1 (c :: q) = some .dir) ∧
          ((makedirs fault fs (c :: q)).2 ≠ none →
            (makedirs fault fs (c :: q)).1 (c :: q) = fs (c :: q)) ∧
          ((makedirs fault fs (c :: q)).2 = some .eexist ↔ fs (c :: q) ≠ none) := by
        intro e
        rw [e]
        obtain ⟨h1, h2, h3, h4, h5⟩ := mkdir_spec fault (makedirs fault fs q).1 i2 (c :: q)
        refine ⟨onlyAdds_trans (onlyAdds_mono i1 hsuf) h1, h2, h3, ?_, ?_⟩
        · intro hn
          obtain ⟨x, hx⟩ := Option.ne_none_iff_exists'.1 hn
          rw [h4 x hx, hcn, hc]
        · rw [h5, hcn, hc]
      cases h6 : (makedirs fault fs q).2 with
      | none =>
        refine go ?_
        rw [makedirs, if_neg he]
        generalize makedirs fault fs q = r at h6
        obtain ⟨r1, r2⟩ := r
        cases h6
        rfl
      | some x =>
        by_cases hx : x = .eexist
        · refine go ?_
          rw [makedirs, if_neg he]
          generalize makedirs fault fs q = r at h6
          obtain ⟨r1, r2⟩ := r
          cases h6
          subst hx
          rfl
        · have e : makedirs fault fs (c :: q) = ((makedirs fault fs q).1, some x) := by
            rw [makedirs, if_neg he]
            generalize makedirs fault fs q = r at h6
            obtain ⟨r1, r2⟩ := r
            cases h6
            cases x
            · exact absurd rfl hx
            all_goals rfl
          rw [e]
          refine ⟨onlyAdds_mono i1 hsuf, i2, fun h => (by cases h), fun _ => hcn.trans hc.symm, ?_⟩
          constructor
          · intro h
            exact absurd (Option.some.inj h) hx
          · intro h
            exact absurd hc h

/-- Nothing in the way and nothing refused: `makedirs` creates the place. -/
theorem makedirs_creates (fault : Loc → Bool) (fs : FS) (hw : WellFormed fs) (l : Loc)
    (hl : fs l = none) (hway : ∀ q, q <:+ l → fs q = none ∨ fs q = some .dir)
    (hf : ∀ q, q <:+ l → fs q = none → fault q = false) :
    (makedirs fault fs l).2 = none := by
  induction l with
  | nil => rw [hw.1] at hl; cases hl
  | cons c q ih =>
    have hsuf : q <:+ c :: q := List.suffix_cons c q
    have fin : ∀ fs' : FS, fs' q = some .dir → fs' (c :: q) = none →
        (mkdir fault fs' (c :: q)).2 = none := by
      intro fs' h1 h2
      rw [mkdir, h1]
      simp only
      rw [h2, hf (c :: q) List.suffix_rfl hl]
      rfl
    rcases hway q hsuf with h | h
    · have i := ih h (fun r hr => hway r (hr.trans hsuf)) (fun r hr => hf r (hr.trans hsuf))
      have he : ¬ fs.exists q = true := fun h' => ((exists_iff fs q).1 h').1 h
      obtain ⟨j1, j2, j3, -, -⟩ := makedirs_spec fault fs hw q
      have e : makedirs fault fs (c :: q) = mkdir fault (makedirs fault fs q).1 (c :: q) := by
        rw [makedirs, if_neg he]
        generalize makedirs fault fs q = r at i
        obtain ⟨r1, r2⟩ := r
        cases i
        rfl
      rw [e]
      refine fin _ (j3 i) ?_
      rcases j1 (c :: q) with h' | ⟨-, -, h'⟩
      · rw [h', hl]
      · have := h'.length_le
        simp only [List.length_cons] at this
        omega
    · have he : fs.exists q = true := (exists_iff fs q).2 (by rw [h]; decide)
      rw [makedirs, if_pos he]
      exact fin fs h hl

theorem createDir_exists (os : OS) (fs : FS) (n : String)
    (h : fs.exists (os.loc (resolve os n)) = true) :
    createDir os fs n = if (os.env fs).isfile (os.loc (resolve os n)) then
      ((false, resolve os n, .fileExists), os.env fs)
      else ((true, resolve os n, .ready), os.env fs) := by
  unfold createDir
  simp only
  rw [if_pos h]

theorem createDir_absent (os : OS) (fs : FS) (n : String)
    (h : ¬ fs.exists (os.loc (resolve os n)) = true) :
    (createDir os fs n).2 = (makedirs os.fault (os.env fs) (os.loc (resolve os n))).1 ∧
    (createDir os fs n).1.2.1 = resolve os n ∧
    ((createDir os fs n).1.1 = true ↔
      (makedirs os.fault (os.env fs) (os.loc (resolve os n))).2 = none ∨
      (makedirs os.fault (os.env fs) (os.loc (resolve os n))).2 = some .eexist) := by
  unfold createDir
  simp only
  rw [if_neg h]
  generalize makedirs os.fault (os.env fs) (os.loc (resolve os n)) = r
  obtain ⟨fs', e⟩ := r
  rcases e with _ | e
  · simp
  · cases e <;> simp

theorem dumpName_eq (v : Option String) : dumpName v = tried v := by
  cases v with
  | none => rfl
  | some n =>
    unfold dumpName tried
    simp only
    by_cases h : n = ""
    · subst h; rfl
    · rw [if_neg h, if_neg]
      intro h'
      exact h (String.length_eq_zero_iff.1 h')

end QTrl.Io
