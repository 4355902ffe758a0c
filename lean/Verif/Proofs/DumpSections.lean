import Verif.Spec.Dump
import Mathlib.Data.List.Basic
import Mathlib.Tactic.Ring

/-
The sections of a written evolution dump.
-/

namespace QTrl.Dump

variable {R G A X : Type}

theorem slotLoop_ok (s : Section) (l : List X) (m k : Nat) (h : k + m ≤ l.length) :
    (slotLoop (A := A) s (some l) m k).2 = none ∧
    (slotLoop (A := A) s (some l) m k).1.length = m ∧
    ∀ i, i < m → (slotLoop (A := A) s (some l) m k).1[i]?
      = l[k + i]?.map (.oper (.slot s (k + i))) := by
  induction m generalizing k with
  | zero => exact ⟨rfl, rfl, fun i hi => absurd hi (Nat.not_lt_zero i)⟩
  | succ m ih =>
    have hk : k < l.length := by omega
    obtain ⟨h1, h2, h3⟩ := ih (k + 1) (by omega)
    have e : slotLoop (A := A) s (some l) (m + 1) k
        = (.oper (.slot s k) l[k] :: (slotLoop (A := A) s (some l) m (k + 1)).1,
          (slotLoop (A := A) s (some l) m (k + 1)).2) := by
      simp only [slotLoop, List.getElem?_eq_getElem hk]
    rw [e]
    refine ⟨h1, by simp [h2], ?_⟩
    intro i hi
    cases i with
    | zero => simp [List.getElem?_eq_getElem hk]
    | succ i =>
      simp only [List.getElem?_cons_succ]
      rw [h3 i (by omega), show k + 1 + i = k + (i + 1) by omega]

theorem overGens_ok (it : EvoItem A X) (dg : List X) (h : it.dynGen = some dg) (s : Section)
    (l : List X) (hl : dg.length ≤ l.length) :
    (overGens it s (some l)).2 = none ∧ Lists s l dg.length (overGens it s (some l)).1 := by
  unfold overGens
  rw [h]
  obtain ⟨h1, h2, h3⟩ := slotLoop_ok (A := A) s l dg.length 0 (by omega)
  refine ⟨h1, h2, ?_⟩
  intro k hk
  have := h3 k hk
  simpa using this

theorem gradBlocks_ok (pg : List (List X)) (m o : Nat) (h : ∀ r ∈ pg, r.length = m) :
    ((pg.zipIdx o).flatMap fun (row, k) =>
      (row.zipIdx).map fun (x, j) => (Block.oper (A := A) (.ctrl k j) x)).length = pg.length * m ∧
    ∀ k j, k < pg.length → j < m →
      ((pg.zipIdx o).flatMap fun (row, k) =>
        (row.zipIdx).map fun (x, j) => (Block.oper (A := A) (.ctrl k j) x))[k * m + j]?
        = (pg[k]?.bind (·[j]?)).map (.oper (.ctrl (o + k) j)) := by
  induction pg generalizing o with
  | nil => simp
  | cons r pg ih =>
    have hr : r.length = m := h r (by simp)
    obtain ⟨h1, h2⟩ := ih (o + 1) (fun r' hr' => h r' (by simp [hr']))
    simp only [List.zipIdx_cons, List.flatMap_cons]
    refine ⟨?_, ?_⟩
    · rw [List.length_append, h1]
      simp [hr]
      ring
    · intro k j hk hj
      cases k with
      | zero =>
        rw [List.getElem?_append_left (by simp [hr]; omega)]
        simp
        rfl
      | succ k =>
        rw [List.getElem?_append_right (by
          have : (k + 1) * m = k * m + m := by ring
          simp [hr]
          omega)]
        have := h2 k j (by simpa using hk) hj
        have e : (k + 1) * m + j
            - (List.map (fun x => Block.oper (A := A) (Label.ctrl o x.2) x.1) r.zipIdx).length
            = k * m + j := by
          simp [hr]
          have : (k + 1) * m = k * m + m := by ring
          omega
        rw [e, this]
        simp [Nat.add_assoc, Nat.add_comm 1 k]

theorem addSection_ok (p : Bool) (s : Section) (w : Written (Block A X))
    (rest : Written (Section × List (Block A X))) (h : p = true → w.2 = none) :
    addSection p s w rest = ((if p then [(s, w.1)] else []) ++ rest.1, rest.2) := by
  cases p with
  | false => simp [addSection]
  | true => simp [addSection, h rfl]

/-- The sections written for a snapshot of the right lengths, when the flags allow it. -/
theorem sections_ok (f : DynFlags) (s : Snapshot A X) (n m : Nat) (hs : s.Sized n m)
    (hw : Writable f) (it : EvoItem A X) (hi : Records f s it) :
    it.sections.2 = none ∧ it.sections.1.map Prod.fst = sectionsOf f s ∧
    ∀ sb ∈ it.sections.1,
      match sb.1 with
      | .ctrlAmps => sb.2 = [.amps s.ctrlAmps]
      | .dynGen => Lists .dynGen s.dynGen n sb.2
      | .prop => Lists .prop s.prop n sb.2
      | .propGrad => ∃ pg, s.propGrad = some pg ∧ ListsGrads pg n m sb.2
      | .fwdEvo => Lists .fwdEvo s.fwdEvo n sb.2
      | .onwdEvo => Lists .onwdEvo s.fwdEvo n sb.2
      | .ontoEvo => Lists .ontoEvo s.fwdEvo n sb.2 := by
  obtain ⟨i1, i2, i3, i4, i5, i6, i7⟩ := hi
  obtain ⟨s1, s2, s3, s4, -, -⟩ := hs
  obtain ⟨w1, w2⟩ := hw
  have hdg : f.dynGen = true → it.dynGen = some s.dynGen := by
    intro h; rw [i2, h]; rfl
  have over : ∀ (b : Bool) (sec : Section) (l : List X), b = true → (b = true → f.dynGen = true) →
      n ≤ l.length → (overGens it sec (some l)).2 = none ∧
        Lists sec l n (overGens it sec (some l)).1 := by
    intro b sec l hb hd hl
    have := overGens_ok it s.dynGen (hdg (hd hb)) sec l (by omega)
    rwa [s1] at this
  unfold EvoItem.sections
  have e1 : it.ctrlAmps.isSome = f.amps := by rw [i1]; cases f.amps <;> rfl
  have e2 : it.dynGen.isSome = f.dynGen := by rw [i2]; cases f.dynGen <;> rfl
  have e3 : it.prop.isSome = f.prop := by rw [i3]; cases f.prop <;> rfl
  have e4 : it.propGrad.isSome = (f.propGrad && s.propGrad.isSome) := by
    rw [i4]; cases f.propGrad <;> rfl
  have e5 : it.fwdEvo.isSome = f.fwd := by rw [i5]; cases f.fwd <;> rfl
  have e6 : it.onwdEvo.isSome = (f.onwd && s.onwdEvo.isSome) := by
    rw [i6]; cases f.onwd <;> rfl
  have e7 : it.ontoEvo.isSome = (f.onto && s.ontoEvo.isSome) := by
    rw [i7]; cases f.onto <;> rfl
  rw [e1, e2, e3, e4, e5, e6, e7]
  have o2 : f.dynGen = true → (overGens it .dynGen it.dynGen).2 = none ∧
      Lists .dynGen s.dynGen n (overGens it .dynGen it.dynGen).1 := by
    intro h
    rw [hdg h]
    exact over f.dynGen _ _ h id (by omega)
  have o3 : f.prop = true → (overGens it .prop it.prop).2 = none ∧
      Lists .prop s.prop n (overGens it .prop it.prop).1 := by
    intro h
    rw [i3, h]
    exact over f.prop _ _ h (fun h => w1 (Or.inl h)) (by omega)
  have o5 : ∀ sec, f.fwd = true → (overGens it sec it.fwdEvo).2 = none ∧
      Lists sec s.fwdEvo n (overGens it sec it.fwdEvo).1 := by
    intro sec h
    rw [i5, h]
    exact over f.fwd _ _ h (fun h => w1 (Or.inr (Or.inl h))) (by omega)
  have o6 : (f.onwd && s.onwdEvo.isSome) = true → (overGens it .onwdEvo it.fwdEvo).2 = none ∧
      Lists .onwdEvo s.fwdEvo n (overGens it .onwdEvo it.fwdEvo).1 := by
    intro h
    rw [Bool.and_eq_true] at h
    exact o5 _ (w2 (Or.inl h.1))
  have o7 : (f.onto && s.ontoEvo.isSome) = true → (overGens it .ontoEvo it.fwdEvo).2 = none ∧
      Lists .ontoEvo s.fwdEvo n (overGens it .ontoEvo it.fwdEvo).1 := by
    intro h
    rw [Bool.and_eq_true] at h
    exact o5 _ (w2 (Or.inr h.1))
  rw [addSection_ok _ _ _ _ (fun _ => rfl), addSection_ok _ _ _ _ (fun h => (o2 h).1),
    addSection_ok _ _ _ _ (fun h => (o3 h).1), addSection_ok _ _ _ _ (fun _ => rfl),
    addSection_ok _ _ _ _ (fun h => (o5 _ h).1), addSection_ok _ _ _ _ (fun h => (o6 h).1),
    addSection_ok _ _ _ _ (fun h => (o7 h).1)]
  refine ⟨rfl, ?_, ?_⟩
  · simp only [List.map_append, List.append_nil, sectionsOf, apply_ite (List.map Prod.fst),
      List.map_cons, List.map_nil, List.append_assoc]
  · intro sb hsb
    simp only [List.mem_append, List.mem_ite_nil_right, List.mem_singleton, List.append_nil]
      at hsb
    rcases hsb with ⟨h, rfl⟩ | ⟨h, rfl⟩ | ⟨h, rfl⟩ | ⟨h, rfl⟩ | ⟨h, rfl⟩ | ⟨h, rfl⟩ | ⟨h, rfl⟩
    · simp [i1, h]
    · exact (o2 h).2
    · exact (o3 h).2
    · rw [Bool.and_eq_true] at h
      obtain ⟨pg, hpg⟩ := Option.isSome_iff_exists.mp h.2
      refine ⟨pg, hpg, ?_⟩
      obtain ⟨hl, hr⟩ := s4 pg hpg
      have := gradBlocks_ok (A := A) pg m 0 hr
      rw [hl] at this
      rw [i4, h.1]
      simp only [if_true, hpg, Option.getD_some]
      refine ⟨this.1, ?_⟩
      intro k j hk hj
      have := this.2 k j hk hj
      rw [Nat.zero_add] at this
      exact this
    · exact (o5 _ h).2
    · exact (o6 h).2
    · exact (o7 h).2

end QTrl.Dump
