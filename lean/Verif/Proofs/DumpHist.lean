import Mathlib.Data.List.Induction
import Verif.Proofs.Dump
import Verif.Proofs.DumpSections

/-
Histories of the dump objects.
-/

namespace QTrl.Dump

variable {R G A X : Type}

/-! ### OptimDump -/

theorem afterClear_snoc (l : List (OptFlags × OOp R G)) (e : OptFlags × OOp R G) :
    afterClear (l ++ [e]) = if e.2.isClear then [] else afterClear l ++ [e] := by
  simp only [afterClear, List.reverse_append, List.reverse_cons, List.reverse_nil,
    List.nil_append, List.singleton_append, List.takeWhile_cons]
  cases e.2.isClear <;> simp

theorem annotate_snoc (f : OptFlags) (ops : List (OOp R G)) (op : OOp R G) :
    annotate f (ops ++ [op]) = annotate f ops ++ [(ops.foldl OOp.flags f, op)] := by
  induction ops generalizing f with
  | nil => rfl
  | cons o ops ih => simp [annotate, ih]

theorem run_snoc (F : Fmt R G) (x : ODump R G × Files) (ops : List (OOp R G)) (op : OOp R G) :
    ODump.run F x (ops ++ [op]) = ODump.step F (ODump.run F x ops) op := by
  simp [ODump.run]

theorem step_flags (F : Fmt R G) (x : ODump R G × Files) (op : OOp R G) :
    (ODump.step F x op).1.flags = op.flags x.1.flags := by
  obtain ⟨d, fs⟩ := x
  cases op with
  | fidErr e => simp only [ODump.step, ODump.addFidErr, OOp.flags]; split <;> (try split) <;> rfl
  | grad n g =>
    simp only [ODump.step, ODump.addGradNorm, ODump.addGrad, OOp.flags]
    split <;> (try split) <;> (try split) <;> (try split) <;> rfl
  | iter s => simp only [ODump.step, ODump.addIter, OOp.flags]; split <;> (try split) <;> rfl
  | setFlags f => rfl
  | clear => rfl
  | setBase b => rfl

theorem run_flags (F : Fmt R G) (x : ODump R G × Files) (ops : List (OOp R G)) :
    (ODump.run F x ops).1.flags = ops.foldl OOp.flags x.1.flags := by
  induction ops using List.reverseRecOn with
  | nil => rfl
  | append_singleton ops op ih => rw [run_snoc, step_flags, ih, List.foldl_append]; rfl

/-! ### DynamicsDump -/

theorem drun_cons (F : Fmt R G) (render : Render A X) (x : DDump R A X × Files)
    (op : DOp R A X) (ops : List (DOp R A X)) :
    DDump.run F render x (op :: ops) = DDump.run F render (DDump.step F render x op) ops := rfl

theorem any_eq (f : DynFlags) : (dynKind false false).any f = wantsItem f := by
  simp only [dynKind, wantsItem, List.any_cons, List.any_nil, Bool.or_false, id, Bool.or_assoc]

theorem newItem_records (d : DDump R A X) (s : Snapshot A X) :
    Records d.flags s (d.newItem s) ∧ (d.newItem s).idx = d.evoDumps.length :=
  ⟨⟨rfl, rfl, rfl, rfl, rfl, rfl, rfl⟩, rfl⟩

/-- What one dump adds, unless writing raises. -/
theorem dumpCurrent_adds (F : Fmt R G) (render : Render A X) (d : DDump R A X) (fs : Files)
    (s : Snapshot A X) (cur : EvoSum R) (st : Option (Nat × Nat × Nat))
    (h : d.write = true → wantsItem d.flags = true → (d.newItem s).sections.2 = none) :
    let r := d.dumpCurrent F render fs s (some cur) st
    let d' := r.1
    r.2.2 = .ok () ∧ d'.flags = d.flags ∧ d'.write = d.write ∧
    d'.evoDumps = d.evoDumps ++ (if wantsItem d.flags then [d.newItem s] else []) ∧
    d'.evoSummary = d.evoSummary ++ (if d.flags.summary then
      [newSummary d.evoSummary.length cur st
        (if wantsItem d.flags then some d.evoDumps.length else none)] else []) := by
  simp only [DDump.dumpCurrent, DDump.dumpItem, any_eq]
  cases hw : d.write <;> cases ha : wantsItem d.flags <;> cases hs : d.flags.summary <;>
    simp [DDump.addEvo, DDump.addSummary, DDump.writeItem, hw, hs, newItem_records]
  · have := h hw ha
    simp [this, hs]
  · have := h hw ha
    simp [this, hs]

theorem newSummary_reports (n : Nat) (e : Event R A X) (i : Option Nat) :
    (newSummary n e.cur e.stats i).idx = n ∧ (newSummary n e.cur e.stats i).evoDumpIdx = i ∧
    Reports e (newSummary n e.cur e.stats i) := by
  unfold newSummary Reports
  cases hs : e.stats with
  | none => simp
  | some t =>
    obtain ⟨a, b, c⟩ := t
    refine ⟨rfl, rfl, rfl, rfl, rfl, rfl, rfl, rfl, ?_⟩
    intro i f g h
    simp only [Option.some.injEq, Prod.mk.injEq] at h
    obtain ⟨rfl, rfl, rfl⟩ := h
    exact ⟨rfl, rfl, rfl⟩

theorem getElem?_snoc {α : Type} (l : List α) (b : Bool) (x : α) (i : Nat) (y : α)
    (h : l[i]? = some y) : (l ++ (if b then [x] else []))[i]? = some y := by
  rw [List.getElem?_append_left (List.getElem?_eq_some_iff.mp h).1, h]

/-- A dump extends complete records by its event. -/
theorem complete_snoc (l : List (Event R A X)) (d d' : DDump R A X) (e : Event R A X)
    (hf : d.flags = e.flags) (hc : Complete l d)
    (h1 : d'.evoDumps = d.evoDumps ++ (if wantsItem d.flags then [d.newItem e.snap] else []))
    (h2 : d'.evoSummary = d.evoSummary ++ (if d.flags.summary then
      [newSummary d.evoSummary.length e.cur e.stats
        (if wantsItem d.flags then some d.evoDumps.length else none)] else [])) :
    Complete (l ++ [e]) d' := by
  obtain ⟨c1, c2, c3⟩ := hc
  refine ⟨?_, ?_, ?_⟩
  · rw [h1, hf, List.length_append, c1, List.countP_append]
    cases hw : wantsItem e.flags <;> simp [hw]
  · rw [h2, hf, List.length_append, c2, List.countP_append]
    cases hw : e.flags.summary <;> simp [hw]
  · intro pre e' post heq
    rw [h1, h2]
    rcases List.eq_nil_or_concat post with rfl | ⟨post', z, rfl⟩
    · obtain ⟨rfl, h⟩ := List.append_inj' heq rfl
      obtain rfl : e = e' := by simpa using h
      refine ⟨?_, ?_⟩
      · intro hw
        refine ⟨d.newItem e.snap, ?_, ?_, ?_⟩
        · rw [hf, hw, if_pos rfl, List.getElem?_append_right (by omega), c1]
          simp
        · rw [(newItem_records d e.snap).2, c1]
        · rw [← hf]; exact (newItem_records d e.snap).1
      · intro hs
        obtain ⟨r1, r2, r3⟩ := newSummary_reports d.evoSummary.length e
          (if wantsItem d.flags then some d.evoDumps.length else none)
        refine ⟨_, ?_, r1.trans c2, ?_, r3⟩
        · rw [hf, hs, if_pos rfl, List.getElem?_append_right (by omega), c2]
          simp
        · rw [r2, hf, c1]
    · rw [show pre ++ e' :: post'.concat z = (pre ++ e' :: post') ++ [z] by simp] at heq
      obtain ⟨h, -⟩ := List.append_inj' heq rfl
      obtain ⟨k1, k2⟩ := c3 pre e' post' h
      refine ⟨?_, ?_⟩
      · intro hw
        obtain ⟨it, g1, g2⟩ := k1 hw
        exact ⟨it, getElem?_snoc _ _ _ _ _ g1, g2⟩
      · intro hs
        obtain ⟨r, g1, g2⟩ := k2 hs
        exact ⟨r, getElem?_snoc _ _ _ _ _ g1, g2⟩

/-- Records of a history in progress. -/
theorem records_complete (F : Fmt R G) (render : Render A X) (ops : List (DOp R A X)) :
    ∀ (d : DDump R A X) (fs : Files) (acc : List (Event R A X)),
      (d.write = true → ∀ s c st, .dump s c st ∈ ops → ∃ n m, s.Sized n m) →
      (d.write = true → Writable d.flags ∧ ∀ f, .setFlags f ∈ ops → Writable f) →
      Complete acc d →
      Complete (events d.flags acc ops) (DDump.run F render (d, fs) ops).1 := by
  induction ops with
  | nil => intro d fs acc _ _ h; exact h
  | cons op ops ih =>
    intro d fs acc hs hf hc
    rw [drun_cons]
    cases op with
    | dump s c st =>
      have hok : d.write = true → wantsItem d.flags = true → (d.newItem s).sections.2 = none := by
        intro hw _
        obtain ⟨n, m, hsz⟩ := hs hw s c st (by simp)
        exact (sections_ok d.flags s n m hsz (hf hw).1 _ (newItem_records d s).1).1
      obtain ⟨-, a2, a3, a4, a5⟩ := dumpCurrent_adds F render d fs s c st hok
      have hc' := complete_snoc acc d _ ⟨d.flags, s, c, st⟩ rfl hc a4 a5
      rw [events, ← a2]
      rw [← a2] at hc'
      refine ih _ _ _ ?_ ?_ hc'
      · intro hw s' c' st' h
        exact hs (a3 ▸ hw) s' c' st' (by simp [h])
      · intro hw
        obtain ⟨w1, w2⟩ := hf (a3 ▸ hw)
        exact ⟨a2.symm ▸ w1, fun f h => w2 f (by simp [h])⟩
    | setFlags f =>
      refine ih { d with flags := f } fs acc ?_ ?_ hc
      · intro hw s' c' st' h
        exact hs hw s' c' st' (by simp [h])
      · intro hw
        exact ⟨(hf hw).2 f (by simp), fun f h => (hf hw).2 f (by simp [h])⟩
    | clear =>
      refine ih { d with evoDumps := [], evoSummary := [] } fs [] ?_ ?_ ?_
      · intro hw s' c' st' h
        exact hs hw s' c' st' (by simp [h])
      · intro hw
        exact ⟨(hf hw).1, fun f h => (hf hw).2 f (by simp [h])⟩
      · refine ⟨rfl, rfl, ?_⟩
        intro pre e post h
        simp at h

end QTrl.Dump
