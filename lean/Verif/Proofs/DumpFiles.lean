import Verif.Proofs.DumpHist

/-
The files that write-through dumping leaves behind.
-/

namespace QTrl.Dump

variable {R G A X : Type}

/-! ### Writing -/

theorem writeFile_noop (fs : Files) (p : Path) (ls : List Text) (h : fs p = some ls) :
    writeFile fs p ls = fs := by
  funext q
  by_cases hq : q = p
  · rw [hq, writeFile_same, h]
  · rw [writeFile_other _ _ _ _ hq]

theorem ne_of_name {p q : Path} (h : p.name ≠ q.name) : p ≠ q := by
  rintro rfl
  exact h rfl

/-- The lines of numbered summaries: one header and a line each. -/
theorem lines_eq {S : Type} (idx : S → Nat) (hdr : Text) (line : S → Text) (l : List S)
    (h : ∀ i s, l[i]? = some s → idx s = i) (hne : l ≠ []) :
    l.flatMap (fun s => if idx s = 0 then [hdr, line s] else [line s]) = hdr :: l.map line := by
  have tail : ∀ (l : List S) (o : Nat), (∀ i s, l[i]? = some s → idx s = i + o + 1) →
      l.flatMap (fun s => if idx s = 0 then [hdr, line s] else [line s]) = l.map line := by
    intro l
    induction l with
    | nil => intro o _; rfl
    | cons a l ih =>
      intro o h
      have ha : idx a ≠ 0 := by
        have := h 0 a rfl
        omega
      rw [List.flatMap_cons, ih (o + 1) (by
        intro i s hs
        have := h (i + 1) s (by simpa using hs)
        omega), if_neg ha]
      rfl
  cases l with
  | nil => exact absurd rfl hne
  | cons a l =>
    have ha : idx a = 0 := h 0 a rfl
    rw [List.flatMap_cons, tail l 0 (by
      intro i s hs
      exact h (i + 1) s (by simpa using hs)), if_pos ha]
    rfl

/-! ### OptimDump -/

/-- What the files of a write-through dump contain. -/
structure OInv (F : Fmt R G) (d : ODump R G) (fs : Files) : Prop where
  write : d.write = true
  sumName : d.sumFile.name = .summary
  idx : ∀ (i : Nat) (s : IterSum R), d.iterSummary[i]? = some s → s.idx = i
  sum : d.iterSummary ≠ [] → fs d.sumFile
    = some (headerLine d.sep iterCols :: d.iterSummary.map fun s => valueLine F d.sep iterCols s.vals)
  fidName : d.fidFile.name = .fidErr
  fid : d.fidErrLog ≠ [] → d.fidPath.isSome ∧ fs d.fidFile = some (d.fidErrLog.map F.str)
  normName : d.normFile.name = .gradNorm
  norm : d.gradNormLog ≠ [] → d.normPath.isSome ∧ fs d.normFile = some (d.gradNormLog.map F.str)
  grad : ∀ (i : Nat) (g : G), d.gradLog[i]? = some g →
    fs ⟨d.dir, d.base, .gradients (i + 1)⟩ = some (F.savetxt d.dataSep g)

theorem oinv_iter (F : Fmt R G) (d : ODump R G) (fs : Files) (s : IterSum R) (h : OInv F d fs) :
    OInv F (d.addIter F fs (some s)).1 (d.addIter F fs (some s)).2.1 := by
  obtain ⟨d', hd'⟩ : ∃ d', d' = { d with
      iterSummary := d.iterSummary ++ [{ s with idx := d.iterSummary.length }]
      sumPath := some d.sumFile } := ⟨_, rfl⟩
  obtain ⟨fs', hfs'⟩ : ∃ fs', fs' = (if d.iterSummary.length = 0
      then writeFile fs d.sumFile (iterLines F d.sep { s with idx := d.iterSummary.length })
      else appendFile fs d.sumFile (iterLines F d.sep { s with idx := d.iterSummary.length })) :=
    ⟨_, rfl⟩
  have e : d.addIter F fs (some s) = (d', fs', .ok ()) := by
    simp only [ODump.addIter, h.write, if_true, hd', hfs']
    rfl
  rw [e]
  show OInv F d' fs'
  have hsum : d'.sumFile = d.sumFile := by rw [hd']; rfl
  have other : ∀ q, q.name ≠ FName.summary → fs' q = fs q := by
    intro q hq
    have hne : q ≠ d.sumFile := ne_of_name (by rw [h.sumName]; exact hq)
    rw [hfs']
    split
    · exact writeFile_other _ _ _ _ hne
    · exact appendFile_other _ _ _ _ hne
  have hfid : d'.fidFile = d.fidFile := by rw [hd']; rfl
  have hnorm : d'.normFile = d.normFile := by rw [hd']; rfl
  have hidx : ∀ (i : Nat) (t : IterSum R), d'.iterSummary[i]? = some t → t.idx = i := by
    intro i t ht
    rw [hd'] at ht
    simp only at ht
    rcases Nat.lt_or_ge i d.iterSummary.length with hi | hi
    · rw [List.getElem?_append_left hi] at ht
      exact h.idx i t ht
    · rw [List.getElem?_append_right hi] at ht
      rcases Nat.eq_or_lt_of_le hi with he | hl
      · subst he
        simp only [Nat.sub_self, List.getElem?_cons_zero, Option.some.injEq] at ht
        rw [← ht]
      · rw [List.getElem?_eq_none (by simp; omega)] at ht
        exact absurd ht (by simp)
  refine ⟨?_, ?_, hidx, ?_, ?_, ?_, ?_, ?_, ?_⟩
  · rw [hd']; exact h.write
  · rw [hsum]; exact h.sumName
  · intro _
    rw [hsum, hfs']
    have hs1 : d'.sep = d.sep := by rw [hd']
    have hs2 : d'.iterSummary = d.iterSummary ++ [{ s with idx := d.iterSummary.length }] := by
      rw [hd']
    rw [hs1, hs2]
    by_cases hne : d.iterSummary = []
    · rw [hne]
      simp [writeFile_same, iterLines]
    · have hlen : d.iterSummary.length ≠ 0 := by simpa using hne
      rw [if_neg hlen, appendFile_same, h.sum hne]
      simp [iterLines, hne]
  · rw [hfid]; exact h.fidName
  · intro hne
    rw [hfid, other _ (by rw [h.fidName]; simp)]
    rw [hd'] at hne ⊢
    exact h.fid hne
  · rw [hnorm]; exact h.normName
  · intro hne
    rw [hnorm, other _ (by rw [h.normName]; simp)]
    rw [hd'] at hne ⊢
    exact h.norm hne
  · intro i g hg
    rw [other _ (by simp)]
    rw [hd'] at hg ⊢
    exact h.grad i g hg

theorem oinv_fid (F : Fmt R G) (d : ODump R G) (fs : Files) (x : R) (h : OInv F d fs) :
    OInv F (d.addFidErr F fs x).1 (d.addFidErr F fs x).2 := by
  obtain ⟨d', hd'⟩ : ∃ d', d' = { d with
      fidErrLog := d.fidErrLog ++ [x], fidPath := some d.fidFile } := ⟨_, rfl⟩
  obtain ⟨fs', hfs'⟩ : ∃ fs', fs' = (if d.fidErrLog.length = 0
      then writeFile fs d.fidFile [F.str x] else appendFile fs d.fidFile [F.str x]) := ⟨_, rfl⟩
  have e : d.addFidErr F fs x = (d', fs') := by
    simp only [ODump.addFidErr, h.write, if_true, hd', hfs', List.length_append,
      List.length_singleton, Nat.add_eq_right]
    rfl
  rw [e]
  show OInv F d' fs'
  have hfid : d'.fidFile = d.fidFile := by rw [hd']; rfl
  have hsum : d'.sumFile = d.sumFile := by rw [hd']; rfl
  have hnorm : d'.normFile = d.normFile := by rw [hd']; rfl
  have other : ∀ q, q.name ≠ FName.fidErr → fs' q = fs q := by
    intro q hq
    have hne : q ≠ d.fidFile := ne_of_name (by rw [h.fidName]; exact hq)
    rw [hfs']
    split
    · exact writeFile_other _ _ _ _ hne
    · exact appendFile_other _ _ _ _ hne
  refine ⟨?_, ?_, ?_, ?_, ?_, ?_, ?_, ?_, ?_⟩
  · rw [hd']; exact h.write
  · rw [hsum]; exact h.sumName
  · rw [hd']; exact h.idx
  · intro hne
    rw [hsum, other _ (by rw [h.sumName]; simp)]
    rw [hd'] at hne ⊢
    exact h.sum hne
  · rw [hfid]; exact h.fidName
  · intro _
    refine ⟨by rw [hd']; rfl, ?_⟩
    rw [hfid, hfs']
    have hs2 : d'.fidErrLog = d.fidErrLog ++ [x] := by rw [hd']
    rw [hs2]
    by_cases hne : d.fidErrLog = []
    · simp [hne, writeFile_same]
    · have hlen : d.fidErrLog.length ≠ 0 := by simpa using hne
      rw [if_neg hlen, appendFile_same, (h.fid hne).2]
      simp
  · rw [hnorm]; exact h.normName
  · intro hne
    rw [hnorm, other _ (by rw [h.normName]; simp)]
    rw [hd'] at hne ⊢
    exact h.norm hne
  · intro i g hg
    rw [other _ (by simp)]
    rw [hd'] at hg ⊢
    exact h.grad i g hg

theorem oinv_norm (F : Fmt R G) (d : ODump R G) (fs : Files) (x : R) (h : OInv F d fs) :
    OInv F (d.addGradNorm F fs x).1 (d.addGradNorm F fs x).2 := by
  obtain ⟨d', hd'⟩ : ∃ d', d' = { d with
      gradNormLog := d.gradNormLog ++ [x], normPath := some d.normFile } := ⟨_, rfl⟩
  obtain ⟨fs', hfs'⟩ : ∃ fs', fs' = (if d.gradNormLog.length = 0
      then writeFile fs d.normFile [F.str x] else appendFile fs d.normFile [F.str x]) := ⟨_, rfl⟩
  have e : d.addGradNorm F fs x = (d', fs') := by
    simp only [ODump.addGradNorm, h.write, if_true, hd', hfs', List.length_append,
      List.length_singleton, Nat.add_eq_right]
    rfl
  rw [e]
  show OInv F d' fs'
  have hfid : d'.fidFile = d.fidFile := by rw [hd']; rfl
  have hsum : d'.sumFile = d.sumFile := by rw [hd']; rfl
  have hnorm : d'.normFile = d.normFile := by rw [hd']; rfl
  have other : ∀ q, q.name ≠ FName.gradNorm → fs' q = fs q := by
    intro q hq
    have hne : q ≠ d.normFile := ne_of_name (by rw [h.normName]; exact hq)
    rw [hfs']
    split
    · exact writeFile_other _ _ _ _ hne
    · exact appendFile_other _ _ _ _ hne
  refine ⟨?_, ?_, ?_, ?_, ?_, ?_, ?_, ?_, ?_⟩
  · rw [hd']; exact h.write
  · rw [hsum]; exact h.sumName
  · rw [hd']; exact h.idx
  · intro hne
    rw [hsum, other _ (by rw [h.sumName]; simp)]
    rw [hd'] at hne ⊢
    exact h.sum hne
  · rw [hfid]; exact h.fidName
  · intro hne
    rw [hfid, other _ (by rw [h.fidName]; simp)]
    rw [hd'] at hne ⊢
    exact h.fid hne
  · rw [hnorm]; exact h.normName
  · intro _
    refine ⟨by rw [hd']; rfl, ?_⟩
    rw [hnorm, hfs']
    have hs2 : d'.gradNormLog = d.gradNormLog ++ [x] := by rw [hd']
    rw [hs2]
    by_cases hne : d.gradNormLog = []
    · simp [hne, writeFile_same]
    · have hlen : d.gradNormLog.length ≠ 0 := by simpa using hne
      rw [if_neg hlen, appendFile_same, (h.norm hne).2]
      simp
  · intro i g hg
    rw [other _ (by simp)]
    rw [hd'] at hg ⊢
    exact h.grad i g hg

theorem oinv_grad (F : Fmt R G) (d : ODump R G) (fs : Files) (g : G) (h : OInv F d fs) :
    OInv F (d.addGrad F fs g).1 (d.addGrad F fs g).2 := by
  obtain ⟨d', hd'⟩ : ∃ d', d' = { d with gradLog := d.gradLog ++ [g] } := ⟨_, rfl⟩
  obtain ⟨fs', hfs'⟩ : ∃ fs', fs' = writeFile fs
      ⟨d.dir, d.base, .gradients (d.gradLog.length + 1)⟩ (F.savetxt d.dataSep g) := ⟨_, rfl⟩
  have e : d.addGrad F fs g = (d', fs') := by
    simp only [ODump.addGrad, h.write, if_true, hd', hfs', List.length_append,
      List.length_singleton]
  rw [e]
  show OInv F d' fs'
  have other : ∀ q, q.name ≠ FName.gradients (d.gradLog.length + 1) → fs' q = fs q := by
    intro q hq
    rw [hfs']
    exact writeFile_other _ _ _ _ (ne_of_name hq)
  have hfid : d'.fidFile = d.fidFile := by rw [hd']; rfl
  have hsum : d'.sumFile = d.sumFile := by rw [hd']; rfl
  have hnorm : d'.normFile = d.normFile := by rw [hd']; rfl
  refine ⟨?_, ?_, ?_, ?_, ?_, ?_, ?_, ?_, ?_⟩
  · rw [hd']; exact h.write
  · rw [hsum]; exact h.sumName
  · rw [hd']; exact h.idx
  · intro hne
    rw [hsum, other _ (by rw [h.sumName]; simp)]
    rw [hd'] at hne ⊢
    exact h.sum hne
  · rw [hfid]; exact h.fidName
  · intro hne
    rw [hfid, other _ (by rw [h.fidName]; simp)]
    rw [hd'] at hne ⊢
    exact h.fid hne
  · rw [hnorm]; exact h.normName
  · intro hne
    rw [hnorm, other _ (by rw [h.normName]; simp)]
    rw [hd'] at hne ⊢
    exact h.norm hne
  · intro i g' hg
    rw [hd'] at hg ⊢
    simp only at hg ⊢
    rcases Nat.lt_or_ge i d.gradLog.length with hi | hi
    · rw [List.getElem?_append_left hi] at hg
      rw [other _ (by simp; omega)]
      exact h.grad i g' hg
    · rw [List.getElem?_append_right hi] at hg
      rcases Nat.eq_or_lt_of_le hi with he | hl
      · subst he
        simp only [Nat.sub_self, List.getElem?_cons_zero, Option.some.injEq] at hg
        subst hg
        rw [hfs', writeFile_same]
      · rw [List.getElem?_eq_none (by simp; omega)] at hg
        exact absurd hg (by simp)

/-- `fname_base` is assigned only while no summaries and gradients are held. -/
def BaseSettled (d : ODump R G) : OOp R G → Prop
  | .setBase _ => d.iterSummary = [] ∧ d.gradLog = []
  | _ => True

theorem oinv_step (F : Fmt R G) (x : ODump R G × Files) (op : OOp R G)
    (hb : BaseSettled x.1 op) (h : OInv F x.1 x.2) :
    OInv F (ODump.step F x op).1 (ODump.step F x op).2 := by
  obtain ⟨d, fs⟩ := x
  cases op with
  | fidErr e =>
    simp only [ODump.step]
    split
    · exact oinv_fid F d fs e h
    · exact h
  | grad n g =>
    simp only [ODump.step]
    have h1 : OInv F (if d.flags.gradNorm then d.addGradNorm F fs n else (d, fs)).1
        (if d.flags.gradNorm then d.addGradNorm F fs n else (d, fs)).2 := by
      split
      · exact oinv_norm F d fs n h
      · exact h
    generalize (if d.flags.gradNorm then d.addGradNorm F fs n else (d, fs)) = y at h1 ⊢
    split
    · exact oinv_grad F y.1 y.2 g h1
    · exact h1
  | iter s =>
    simp only [ODump.step]
    split
    · exact oinv_iter F d fs s h
    · exact h
  | setFlags f => exact ⟨h.write, h.sumName, h.idx, h.sum, h.fidName, h.fid, h.normName, h.norm, h.grad⟩
  | clear =>
    refine ⟨h.write, h.sumName, ?_, ?_, h.fidName, ?_, h.normName, ?_, ?_⟩ <;> simp [ODump.step]
  | setBase b =>
    obtain ⟨hb1, hb2⟩ := hb
    refine ⟨h.write, rfl, h.idx, fun hne => absurd hb1 hne, ?_, ?_, ?_, ?_, ?_⟩
    · have := h.fidName
      simp only [ODump.step, ODump.fidFile] at this ⊢
      cases hp : d.fidPath with
      | none => rfl
      | some p => simpa [hp] using this
    · intro hne
      obtain ⟨a, b'⟩ := h.fid hne
      refine ⟨a, ?_⟩
      obtain ⟨p, hp⟩ := Option.isSome_iff_exists.mp a
      have hp' : d.fidPath = some p := hp
      simpa [ODump.step, ODump.fidFile, hp'] using b'
    · have := h.normName
      simp only [ODump.step, ODump.normFile] at this ⊢
      cases hp : d.normPath with
      | none => rfl
      | some p => simpa [hp] using this
    · intro hne
      obtain ⟨a, b'⟩ := h.norm hne
      refine ⟨a, ?_⟩
      obtain ⟨p, hp⟩ := Option.isSome_iff_exists.mp a
      have hp' : d.normPath = some p := hp
      simpa [ODump.step, ODump.normFile, hp'] using b'
    · intro i g hg
      simp only [ODump.step] at hg
      rw [show d.gradLog = [] from hb2] at hg
      simp at hg

theorem oinv_run (F : Fmt R G) (x : ODump R G × Files) (ops : List (OOp R G))
    (hb : ∀ pre op post, ops = pre ++ op :: post → BaseSettled (ODump.run F x pre).1 op)
    (h : OInv F x.1 x.2) : OInv F (ODump.run F x ops).1 (ODump.run F x ops).2 := by
  induction ops using List.reverseRecOn with
  | nil => exact h
  | append_singleton ops op ih =>
    rw [run_snoc]
    refine oinv_step F _ op (hb ops op [] rfl) (ih ?_)
    intro pre op' post he
    exact hb pre op' (post ++ [op]) (by rw [he]; simp)

theorem writeGrads_noop (F : Fmt R G) (dir base : String) (sep : Text) (gs : List G) (n : Nat)
    (fs : Files) (h : ∀ i g, gs[i]? = some g →
      fs ⟨dir, base, .gradients (n + i + 1)⟩ = some (F.savetxt sep g)) :
    writeGrads F dir base sep n gs fs = fs := by
  induction gs generalizing n with
  | nil => rfl
  | cons g gs ih =>
    rw [writeGrads, writeFile_noop _ _ _ (h 0 g rfl)]
    refine ih (n + 1) ?_
    intro i g' hg
    have := h (i + 1) g' (by simpa using hg)
    rw [show n + 1 + i + 1 = n + (i + 1) + 1 by omega]
    exact this

theorem writeGrads_other (F : Fmt R G) (dir base : String) (sep : Text) (gs : List G) (n : Nat)
    (fs : Files) (q : Path) (h : ∀ i, q.name ≠ .gradients i) :
    writeGrads F dir base sep n gs fs q = fs q := by
  induction gs generalizing n fs with
  | nil => rfl
  | cons g gs ih =>
    rw [writeGrads, ih]
    exact writeFile_other _ _ _ _ (ne_of_name (h _))

theorem writeGrads_earlier (F : Fmt R G) (dir base : String) (sep : Text) (gs : List G) (n : Nat)
    (fs : Files) (m : Nat) (h : m ≤ n) :
    writeGrads F dir base sep n gs fs ⟨dir, base, .gradients m⟩ = fs ⟨dir, base, .gradients m⟩ := by
  induction gs generalizing n fs with
  | nil => rfl
  | cons g gs ih =>
    rw [writeGrads, ih (n + 1) _ (by omega)]
    exact writeFile_other _ _ _ _ (ne_of_name (by simp; omega))

theorem writeGrads_at (F : Fmt R G) (dir base : String) (sep : Text) (gs : List G) (n : Nat)
    (fs : Files) (i : Nat) (g : G) (h : gs[i]? = some g) :
    writeGrads F dir base sep n gs fs ⟨dir, base, .gradients (n + i + 1)⟩
      = some (F.savetxt sep g) := by
  induction gs generalizing n fs i with
  | nil => simp at h
  | cons g' gs ih =>
    rw [writeGrads]
    cases i with
    | zero =>
      simp only [List.getElem?_cons_zero, Option.some.injEq] at h
      subst h
      rw [writeGrads_earlier _ _ _ _ _ _ _ _ (by omega)]
      exact writeFile_same _ _ _
    | succ i =>
      rw [show n + (i + 1) + 1 = n + 1 + i + 1 by omega]
      exact ih (n + 1) _ i (by simpa using h)

/-- Names and numbers, whether or not the dump writes through. -/
structure OShape (d : ODump R G) : Prop where
  sumName : d.sumFile.name = .summary
  fidName : d.fidFile.name = .fidErr
  normName : d.normFile.name = .gradNorm
  idx : ∀ (i : Nat) (s : IterSum R), d.iterSummary[i]? = some s → s.idx = i

theorem numbered_snoc {S : Type} (idx : S → Nat) (l : List S) (a : S) (ha : idx a = l.length)
    (h : ∀ (i : Nat) (s : S), l[i]? = some s → idx s = i) :
    ∀ (i : Nat) (s : S), (l ++ [a])[i]? = some s → idx s = i := by
  intro i t ht
  rcases Nat.lt_or_ge i l.length with hi | hi
  · rw [List.getElem?_append_left hi] at ht
    exact h i t ht
  · rw [List.getElem?_append_right hi] at ht
    rcases Nat.eq_or_lt_of_le hi with he | hl
    · subst he
      simp only [Nat.sub_self, List.getElem?_cons_zero, Option.some.injEq] at ht
      rw [← ht, ha]
    · rw [List.getElem?_eq_none (by simp; omega)] at ht
      exact absurd ht (by simp)

theorem oshape_step (F : Fmt R G) (x : ODump R G × Files) (op : OOp R G) (h : OShape x.1) :
    OShape (ODump.step F x op).1 := by
  obtain ⟨d, fs⟩ := x
  cases op with
  | fidErr e =>
    simp only [ODump.step, ODump.addFidErr]
    split
    · split
      · exact ⟨h.sumName, h.fidName, h.normName, h.idx⟩
      · exact ⟨h.sumName, h.fidName, h.normName, h.idx⟩
    · exact h
  | grad n g =>
    simp only [ODump.step]
    have h1 : OShape (if d.flags.gradNorm then d.addGradNorm F fs n else (d, fs)).1 := by
      simp only [ODump.addGradNorm]
      split
      · split
        · exact ⟨h.sumName, h.fidName, h.normName, h.idx⟩
        · exact ⟨h.sumName, h.fidName, h.normName, h.idx⟩
      · exact h
    generalize (if d.flags.gradNorm then d.addGradNorm F fs n else (d, fs)) = y at h1 ⊢
    simp only [ODump.addGrad]
    split
    · split
      · exact ⟨h1.sumName, h1.fidName, h1.normName, h1.idx⟩
      · exact ⟨h1.sumName, h1.fidName, h1.normName, h1.idx⟩
    · exact h1
  | iter s =>
    simp only [ODump.step, ODump.addIter]
    have hn := numbered_snoc IterSum.idx d.iterSummary
      { s with idx := d.iterSummary.length } rfl h.idx
    split
    · split
      · exact ⟨h.sumName, h.fidName, h.normName, hn⟩
      · exact ⟨h.sumName, h.fidName, h.normName, hn⟩
    · exact h
  | setFlags f => exact ⟨h.sumName, h.fidName, h.normName, h.idx⟩
  | clear => exact ⟨h.sumName, h.fidName, h.normName, by simp [ODump.step]⟩
  | setBase b =>
    refine ⟨rfl, ?_, ?_, h.idx⟩
    · have := h.fidName
      simp only [ODump.step, ODump.fidFile] at this ⊢
      cases hp : d.fidPath with
      | none => rfl
      | some p => simpa [hp] using this
    · have := h.normName
      simp only [ODump.step, ODump.normFile] at this ⊢
      cases hp : d.normPath with
      | none => rfl
      | some p => simpa [hp] using this

theorem oshape_run (F : Fmt R G) (x : ODump R G × Files) (ops : List (OOp R G))
    (h : OShape x.1) : OShape (ODump.run F x ops).1 := by
  induction ops using List.reverseRecOn with
  | nil => exact h
  | append_singleton ops op ih =>
    rw [run_snoc]
    exact oshape_step F _ op ih

/-! ### DynamicsDump -/

theorem addSection_keys (p : Bool) (s : Section) (w : Written (Block A X))
    (rest : Written (Section × List (Block A X))) (l : List Section)
    (h : (rest.1.map Prod.fst).Sublist l) :
    ((addSection p s w rest).1.map Prod.fst).Sublist (s :: l) := by
  unfold addSection
  split
  · split
    · simp
    · exact h.cons_cons s
  · exact h.cons s

/-- Each section is written once. -/
theorem sections_nodup (it : EvoItem A X) : (it.sections.1.map Prod.fst).Nodup := by
  have h : (it.sections.1.map Prod.fst).Sublist
      [.ctrlAmps, .dynGen, .prop, .propGrad, .fwdEvo, .onwdEvo, .ontoEvo] := by
    unfold EvoItem.sections
    refine addSection_keys _ _ _ _ _ ?_
    refine addSection_keys _ _ _ _ _ ?_
    refine addSection_keys _ _ _ _ _ ?_
    refine addSection_keys _ _ _ _ _ ?_
    refine addSection_keys _ _ _ _ _ ?_
    refine addSection_keys _ _ _ _ _ ?_
    refine addSection_keys _ _ _ _ _ ?_
    exact List.Sublist.refl _
  exact List.Nodup.sublist h (by decide)

theorem writeSections_other (render : Render A X) (dir base : String) (sep : Text) (idx : Nat)
    (l : List (Section × List (Block A X))) (fs : Files) (q : Path)
    (h : ∀ s, s ∈ l.map Prod.fst → q.name ≠ .evo idx s) :
    writeSections render dir base sep idx l fs q = fs q := by
  induction l generalizing fs with
  | nil => rfl
  | cons a l ih =>
    obtain ⟨s, b⟩ := a
    rw [writeSections, ih _ (fun s' hs' => h s' (by simp only [List.map_cons, List.mem_cons]; exact Or.inr hs'))]
    exact writeFile_other _ _ _ _ (ne_of_name (h s (by simp)))

theorem writeSections_at (render : Render A X) (dir base : String) (sep : Text) (idx : Nat)
    (l : List (Section × List (Block A X))) (fs : Files) (hn : (l.map Prod.fst).Nodup)
    (s : Section) (b : List (Block A X)) (h : (s, b) ∈ l) :
    writeSections render dir base sep idx l fs ⟨dir, base, .evo idx s⟩
      = some (render sep b) := by
  induction l generalizing fs with
  | nil => simp at h
  | cons a l ih =>
    obtain ⟨s', b'⟩ := a
    simp only [List.map_cons, List.nodup_cons] at hn
    rw [writeSections]
    rcases List.mem_cons.mp h with he | hm
    · obtain ⟨rfl, rfl⟩ := Prod.mk.injEq _ _ _ _ ▸ he
      rw [writeSections_other]
      · exact writeFile_same _ _ _
      · intro t ht he
        have : s = t := by simpa using he
        exact hn.1 (this ▸ ht)
    · exact ih _ hn.2 hm

theorem writeSections_noop (render : Render A X) (dir base : String) (sep : Text) (idx : Nat)
    (l : List (Section × List (Block A X))) (fs : Files)
    (h : ∀ s b, (s, b) ∈ l → fs ⟨dir, base, .evo idx s⟩ = some (render sep b)) :
    writeSections render dir base sep idx l fs = fs := by
  induction l with
  | nil => rfl
  | cons a l ih =>
    obtain ⟨s, b⟩ := a
    rw [writeSections, writeFile_noop _ _ _ (h s b (by simp))]
    exact ih (fun s' b' hm => h s' b' (by simp [hm]))

/-- The files of a dynamics dump that writes through. -/
structure DInv (F : Fmt R G) (render : Render A X) (d : DDump R A X) (fs : Files) : Prop where
  write : d.write = true
  sumName : d.sumFile.name = .summary
  idx : ∀ (i : Nat) (s : EvoSum R), d.evoSummary[i]? = some s → s.idx = i
  sum : d.evoSummary ≠ [] → fs d.sumFile
    = some (headerLine d.sep evoCols :: d.evoSummary.map fun s => valueLine F d.sep evoCols s.vals)
  items : ∀ (i : Nat) (it : EvoItem A X), d.evoDumps[i]? = some it → it.idx = i ∧
    ∀ s b, (s, b) ∈ it.sections.1 →
      fs ⟨d.dir, d.base, .evo i s⟩ = some (render d.dataSep b)

theorem dinv_item (F : Fmt R G) (render : Render A X) (d : DDump R A X) (fs : Files)
    (s : Snapshot A X) (h : DInv F render d fs) :
    DInv F render (d.dumpItem render fs s).1 (d.dumpItem render fs s).2.1 := by
  obtain ⟨d', hd'⟩ : ∃ d', d' = { d with evoDumps := d.evoDumps ++ [d.newItem s] } := ⟨_, rfl⟩
  obtain ⟨fs', hfs'⟩ : ∃ fs', fs' = writeSections render d.dir d.base d.dataSep
      d.evoDumps.length (d.newItem s).sections.1 fs := ⟨_, rfl⟩
  have key : DInv F render d' fs' := by
    have other : ∀ q : Path, (∀ t, q.name ≠ .evo d.evoDumps.length t) → fs' q = fs q := by
      intro q hq
      rw [hfs']
      exact writeSections_other _ _ _ _ _ _ _ _ (fun t _ => hq t)
    refine ⟨by rw [hd']; exact h.write, by rw [hd']; exact h.sumName, by rw [hd']; exact h.idx,
      ?_, ?_⟩
    · intro hne
      have e : d'.sumFile = d.sumFile := by rw [hd']; rfl
      rw [e, other _ (by rw [h.sumName]; simp)]
      rw [hd'] at hne ⊢
      exact h.sum hne
    · intro i it hi
      rw [hd'] at hi ⊢
      simp only at hi ⊢
      rcases Nat.lt_or_ge i d.evoDumps.length with hl | hl
      · rw [List.getElem?_append_left hl] at hi
        obtain ⟨a, b⟩ := h.items i it hi
        refine ⟨a, ?_⟩
        intro t c hc
        rw [other _ (by intro t'; simp; omega)]
        exact b t c hc
      · rw [List.getElem?_append_right hl] at hi
        rcases Nat.eq_or_lt_of_le hl with he | hlt
        · subst he
          simp only [Nat.sub_self, List.getElem?_cons_zero, Option.some.injEq] at hi
          subst hi
          refine ⟨rfl, ?_⟩
          intro t c hc
          rw [hfs']
          exact writeSections_at _ _ _ _ _ _ _ (sections_nodup _) t c hc
        · rw [List.getElem?_eq_none (by simp; omega)] at hi
          exact absurd hi (by simp)
  simp only [DDump.dumpItem, DDump.addEvo, DDump.writeItem, h.write, if_true]
  split
  · cases hs : (d.newItem s).sections.2 with
    | none =>
      have := key
      rw [hd', hfs'] at this
      simp only [h.write] at this
      exact this
    | some e =>
      have := key
      rw [hd', hfs'] at this
      simp only [h.write] at this
      exact this
  · exact h

theorem dinv_summary (F : Fmt R G) (render : Render A X) (d : DDump R A X) (fs : Files)
    (c : EvoSum R) (st : Option (Nat × Nat × Nat)) (item : Option Nat) (h : DInv F render d fs) :
    DInv F render (d.addSummary F fs (some c) st item).1
      (d.addSummary F fs (some c) st item).2.1 := by
  obtain ⟨r, hr⟩ : ∃ r, r = newSummary d.evoSummary.length c st item := ⟨_, rfl⟩
  have hridx : r.idx = d.evoSummary.length := by
    rw [hr]; unfold newSummary; cases st <;> rfl
  obtain ⟨d', hd'⟩ : ∃ d', d' = { d with
      evoSummary := d.evoSummary ++ [r], sumPath := some d.sumFile } := ⟨_, rfl⟩
  obtain ⟨fs', hfs'⟩ : ∃ fs', fs' = (if r.idx = 0
      then writeFile fs d.sumFile (evoLines F d.sep r)
      else appendFile fs d.sumFile (evoLines F d.sep r)) := ⟨_, rfl⟩
  have e : d.addSummary F fs (some c) st item = (d', fs', .ok ()) := by
    simp only [DDump.addSummary, h.write, if_true, hd', hfs', ← hr]
    rfl
  rw [e]
  show DInv F render d' fs'
  have hsum : d'.sumFile = d.sumFile := by rw [hd']; rfl
  refine ⟨by rw [hd']; exact h.write, by rw [hsum]; exact h.sumName, ?_, ?_, ?_⟩
  · rw [hd']
    exact numbered_snoc EvoSum.idx d.evoSummary r hridx h.idx
  · intro _
    have hs1 : d'.sep = d.sep := by rw [hd']
    have hs2 : d'.evoSummary = d.evoSummary ++ [r] := by rw [hd']
    rw [hsum, hfs', hs1, hs2, hridx]
    by_cases hne : d.evoSummary = []
    · rw [hne] at hridx ⊢
      have : r.idx = 0 := hridx
      simp [writeFile_same, evoLines, this]
    · have hlen : d.evoSummary.length ≠ 0 := by simpa using hne
      rw [if_neg hlen, appendFile_same, h.sum hne]
      simp [evoLines, hridx, hne]
  · intro i it hi
    rw [hd'] at hi ⊢
    obtain ⟨a, b⟩ := h.items i it hi
    refine ⟨a, ?_⟩
    intro t c hc
    have hne : (⟨d.dir, d.base, .evo i t⟩ : Path) ≠ d.sumFile :=
      ne_of_name (by rw [h.sumName]; simp)
    rw [hfs']
    split
    · rw [writeFile_other _ _ _ _ hne]; exact b t c hc
    · rw [appendFile_other _ _ _ _ hne]; exact b t c hc

theorem dinv_step (F : Fmt R G) (render : Render A X) (x : DDump R A X × Files) (op : DOp R A X)
    (h : DInv F render x.1 x.2) :
    DInv F render (DDump.step F render x op).1 (DDump.step F render x op).2 := by
  obtain ⟨d, fs⟩ := x
  cases op with
  | dump s c st =>
    have h1 := dinv_item F render d fs s h
    simp only [DDump.step, DDump.dumpCurrent]
    cases hr : d.dumpItem render fs s with
    | mk d1 r =>
      obtain ⟨fs1, r⟩ := r
      rw [hr] at h1
      cases r with
      | error e => exact h1
      | ok item =>
        simp only
        split
        · exact dinv_summary F render d1 fs1 c st item h1
        · exact h1
  | setFlags f => exact ⟨h.write, h.sumName, h.idx, h.sum, h.items⟩
  | clear => refine ⟨h.write, h.sumName, ?_, ?_, ?_⟩ <;> simp [DDump.step]

theorem dinv_run (F : Fmt R G) (render : Render A X) (x : DDump R A X × Files)
    (ops : List (DOp R A X)) (h : DInv F render x.1 x.2) :
    DInv F render (DDump.run F render x ops).1 (DDump.run F render x ops).2 := by
  induction ops generalizing x with
  | nil => exact h
  | cons op ops ih => exact ih _ (dinv_step F render x op h)

theorem writeItems_noop (render : Render A X) (d : DDump R A X) (its : List (EvoItem A X))
    (fs : Files) (h : ∀ it ∈ its, ∀ s b, (s, b) ∈ it.sections.1 →
      fs ⟨d.dir, d.base, .evo it.idx s⟩ = some (render d.dataSep b)) :
    (d.writeItems render its fs).1 = fs := by
  induction its with
  | nil => rfl
  | cons it its ih =>
    have e : (d.writeItem render fs it).1 = fs :=
      writeSections_noop _ _ _ _ _ _ _ (h it (by simp))
    unfold DDump.writeItems
    cases hr : d.writeItem render fs it with
    | mk fs1 r =>
      rw [hr] at e
      simp only at e
      subst e
      cases r with
      | error e => rfl
      | ok u => exact ih (fun it' hm => h it' (by simp [hm]))

theorem writeItems_other (render : Render A X) (d : DDump R A X) (its : List (EvoItem A X))
    (fs : Files) (q : Path) (h : ∀ it ∈ its, ∀ s, q.name ≠ .evo it.idx s) :
    (d.writeItems render its fs).1 q = fs q := by
  induction its generalizing fs with
  | nil => rfl
  | cons it its ih =>
    have e : (d.writeItem render fs it).1 q = fs q :=
      writeSections_other _ _ _ _ _ _ _ _ (fun s _ => h it (by simp) s)
    unfold DDump.writeItems
    cases hr : d.writeItem render fs it with
    | mk fs1 r =>
      rw [hr] at e
      cases r with
      | error e' => exact e
      | ok u => exact (ih fs1 (fun it' hm => h it' (by simp [hm]))).trans e

theorem writeItems_at (render : Render A X) (d : DDump R A X) (its : List (EvoItem A X))
    (fs : Files) (o : Nat) (hi : ∀ (i : Nat) (it : EvoItem A X), its[i]? = some it → it.idx = o + i)
    (hok : ∀ it ∈ its, it.sections.2 = none) (i : Nat) (it : EvoItem A X)
    (h : its[i]? = some it) (s : Section) (b : List (Block A X)) (hb : (s, b) ∈ it.sections.1) :
    (d.writeItems render its fs).1 ⟨d.dir, d.base, .evo (o + i) s⟩
      = some (render d.dataSep b) := by
  induction its generalizing fs o i with
  | nil => simp at h
  | cons a its ih =>
    have ha : (d.writeItem render fs a)
        = (writeSections render d.dir d.base d.dataSep a.idx a.sections.1 fs, .ok ()) := by
      simp only [DDump.writeItem, hok a (by simp)]
    unfold DDump.writeItems
    rw [ha]
    simp only
    cases i with
    | zero =>
      simp only [List.getElem?_cons_zero, Option.some.injEq] at h
      subst h
      rw [writeItems_other]
      · have := hi 0 a rfl
        rw [← this]
        exact writeSections_at _ _ _ _ _ _ _ (sections_nodup _) s b hb
      · intro it' hm t
        obtain ⟨j, hj⟩ := List.getElem?_of_mem hm
        have := hi (j + 1) it' (by simpa using hj)
        simp
        intro h0
        omega
    | succ i =>
      rw [show o + (i + 1) = o + 1 + i by omega]
      refine ih _ (o + 1) ?_ (fun it' hm => hok it' (by simp [hm])) i (by simpa using h)
      intro j it' hj
      have := hi (j + 1) it' (by simpa using hj)
      omega

end QTrl.Dump
