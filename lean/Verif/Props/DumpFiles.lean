import Verif.Proofs.DumpFiles

/-
C38: write-through dumping yields the same files as writing out at the end.
-/

namespace QTrl.Dump

variable {R G A X : Type}

/-! ### Columns -/

/-- Where column `i` of a blank-separated line starts. -/
def colStart (cols : List Col) (i : Nat) : Nat :=
  ((cols.take i).map fun c => colWidth c.name).sum + i

/-- The text shown for a value. -/
def shown (F : Fmt R G) (c : Col) (v : Option (Val R)) : Text :=
  match v with
  | some v => F.num v c.fmtType c.fmtPrec
  | none => "None".toList

theorem valueCell_length (F : Fmt R G) (c : Col) (v : Option (Val R))
    (h : (shown F c v).length ≤ colWidth c.name) :
    (valueCell F [' '] c v).length = colWidth c.name := by
  cases v with
  | none => exact padRight_length _ _ h
  | some v => exact padLeft_length _ _ h

theorem cellStart_eq (cols : List Col) (cells : List Text) (i : Nat)
    (h : cells.map List.length = cols.map fun c => colWidth c.name) :
    cellStart [' '] cells i = colStart cols i := by
  unfold cellStart colStart
  rw [List.map_take, h, ← List.map_take]
  simp

/-- **C38, columns.**  With the blank as separator and texts that fit the columns, header and
value line have the same length, and each column's name and value stand at the same place, the
name filled up on the right, the value on the left. -/
theorem C38_columns (F : Fmt R G) (cols : List Col) (vals : List (Option (Val R)))
    (hl : vals.length = cols.length)
    (hfit : ∀ cv ∈ cols.zip vals, (shown F cv.1 cv.2).length ≤ colWidth cv.1.name) :
    (headerLine [' '] cols).length = (valueLine F [' '] cols vals).length ∧
    ∀ i c v, cols[i]? = some c → vals[i]? = some v →
      ((headerLine [' '] cols).drop (colStart cols i)).take (colWidth c.name)
        = c.name ++ List.replicate (colWidth c.name - c.name.length) ' ' ∧
      ∃ a b, ((valueLine F [' '] cols vals).drop (colStart cols i)).take (colWidth c.name)
        = List.replicate a ' ' ++ shown F c v ++ List.replicate b ' ' := by
  have hh : (cols.map fun c => padRight (colWidth c.name) c.name).map List.length
      = cols.map fun c => colWidth c.name := by
    rw [List.map_map]
    refine List.map_congr_left ?_
    intro c _
    exact padRight_length _ _ (Nat.le_max_left _ _)
  have hv : (List.zipWith (valueCell F [' ']) cols vals).map List.length
      = cols.map fun c => colWidth c.name := by
    induction cols generalizing vals with
    | nil => simp
    | cons c cols ih =>
      cases vals with
      | nil => simp at hl
      | cons v vals =>
        simp only [List.zipWith_cons_cons, List.map_cons]
        rw [ih vals (by simpa using hl) (fun cv h => hfit cv (by simp [h])) (by
          rw [List.map_map]
          exact List.map_congr_left fun c _ => padRight_length _ _ (Nat.le_max_left _ _)),
          valueCell_length F c v (hfit (c, v) (by simp))]
  have eh : headerLine [' '] cols
      = joinText [' '] (cols.map fun c => padRight (colWidth c.name) c.name) := by
    rw [headerLine, if_pos rfl, joinLoop_eq]
  have ev : valueLine F [' '] cols vals
      = joinText [' '] (List.zipWith (valueCell F [' ']) cols vals) := by
    rw [valueLine, joinLoop_eq]
  refine ⟨?_, ?_⟩
  · rw [eh, ev]
    cases cols with
    | nil => rfl
    | cons c cols =>
      cases vals with
      | nil => simp at hl
      | cons v vals =>
        rw [joinText_length _ _ (by simp), joinText_length _ _ (by simp), hh, hv]
        simp only [List.length_map, List.length_zipWith, hl, Nat.min_self]
  · intro i c v hc hv'
    refine ⟨?_, ?_⟩
    · have h1 : (cols.map fun c => padRight (colWidth c.name) c.name)[i]?
          = some (padRight (colWidth c.name) c.name) := by simp [hc]
      have := cell_at [' '] _ i _ h1
      rw [padRight_length (colWidth c.name) c.name (Nat.le_max_left _ _),
        cellStart_eq cols _ i hh] at this
      rw [eh]
      exact this
    · have h1 : (List.zipWith (valueCell F [' ']) cols vals)[i]?
          = some (valueCell F [' '] c v) := by simp [List.getElem?_zipWith, hc, hv']
      have hmem : (c, v) ∈ cols.zip vals := by
        refine List.mem_of_getElem? (i := i) ?_
        simp [List.getElem?_zip_eq_some, hc, hv']
      have := cell_at [' '] _ i _ h1
      rw [valueCell_length F c v (hfit _ hmem), cellStart_eq cols _ i hv] at this
      rw [ev, this]
      cases v with
      | none => exact ⟨0, colWidth c.name - 4, rfl⟩
      | some v =>
        exact ⟨colWidth c.name - (shown F c (some v)).length, 0,
          by rw [List.replicate_zero, List.append_nil]; rfl⟩

/-- **C38, columns.**  Summaries have a value for each column. -/
theorem C38_column_counts (s : IterSum R) (t : EvoSum R) :
    s.vals.length = iterCols.length ∧ t.vals.length = evoCols.length := ⟨rfl, rfl⟩

/-- The value a list of values has under a name. -/
def under (cols : List Col) (vals : List (Option (Val R))) (name : String) :
    Option (Option (Val R)) :=
  ((cols.zip vals).find? fun cv => cv.1.name = name.toList).map Prod.snd

/-- **C38, columns.**  Each attribute of a summary stands under its own name. -/
theorem C38_headings (s : IterSum R) (t : EvoSum R) :
    (under iterCols s.vals "idx" = some (some (.int s.idx)) ∧
     under iterCols s.vals "iter_num" = some (s.iterNum.map .int) ∧
     under iterCols s.vals "fid_func_call_num" = some (s.fidCall.map .int) ∧
     under iterCols s.vals "grad_func_call_num" = some (s.gradCall.map .int) ∧
     under iterCols s.vals "fid_err" = some (s.fidErr.map .real) ∧
     under iterCols s.vals "grad_norm" = some (s.gradNorm.map .real) ∧
     under iterCols s.vals "wall_time" = some (some (.real s.wallTime))) ∧
    (under evoCols t.vals "idx" = some (some (.int t.idx)) ∧
     under evoCols t.vals "evo_dump_idx" = some (t.evoDumpIdx.map .int) ∧
     under evoCols t.vals "iter_num" = some (t.iterNum.map .int) ∧
     under evoCols t.vals "fid_func_call_num" = some (t.fidCall.map .int) ∧
     under evoCols t.vals "grad_func_call_num" = some (t.gradCall.map .int) ∧
     under evoCols t.vals "num_amps_changed" = some (some (.int t.ampsChanged)) ∧
     under evoCols t.vals "num_timeslots_changed" = some (some (.int t.tslotsChanged)) ∧
     under evoCols t.vals "wall_time_dyn_gen_compute" = some (some (.real t.wallDynGen)) ∧
     under evoCols t.vals "wall_time_prop_compute" = some (some (.real t.wallProp)) ∧
     under evoCols t.vals "wall_time_fwd_prop_compute" = some (some (.real t.wallFwd)) ∧
     under evoCols t.vals "wall_time_onwd_prop_compute" = some (some (.real t.wallOnwd))) ∧
    (iterCols.map Col.name).Nodup ∧ (evoCols.map Col.name).Nodup := by
  refine ⟨⟨?_, ?_, ?_, ?_, ?_, ?_, ?_⟩, ⟨?_, ?_, ?_, ?_, ?_, ?_, ?_, ?_, ?_, ?_, ?_⟩, by decide,
    by decide⟩ <;> rfl

/-! ### The optimiser's files -/

/-- The file contents that belong to the records, with a way of printing the entries of the
two logs of numbers. -/
def OFiles (F : Fmt R G) (fmt : R → Text) (d : ODump R G) (fs : Files) : Prop :=
  (d.iterSummary ≠ [] → fs d.sumFile = some (headerLine d.sep iterCols ::
    d.iterSummary.map fun s => valueLine F d.sep iterCols s.vals)) ∧
  (d.fidErrLog ≠ [] → fs d.fidFile = some (d.fidErrLog.map fmt)) ∧
  (d.gradNormLog ≠ [] → fs d.normFile = some (d.gradNormLog.map fmt)) ∧
  (∀ i g, d.gradLog[i]? = some g →
    fs ⟨d.dir, d.base, .gradients (i + 1)⟩ = some (F.savetxt d.dataSep g))

/-- **C38, optimiser dump, partial.**  After any history of records, flag changes and clearing,
in which the base name is assigned only while nothing is held: the files written along the way
have the contents that belong to the records, and a final `writeout` changes at most the files
of the two logs of numbers (and creates empty files for logs without records). -/
theorem C38_write_through_partial (F : Fmt R G) (flags : OptFlags) (dir : String) (fs : Files)
    (ops : List (OOp R G))
    (hb : ∀ pre op post, ops = pre ++ op :: post →
      BaseSettled (ODump.run F (ODump.fresh flags true dir, fs) pre).1 op) :
    let x := ODump.run F (ODump.fresh flags true dir, fs) ops
    OFiles F F.str x.1 x.2 ∧
    ∀ q, (q ≠ x.1.sumFile ∨ x.1.iterSummary ≠ []) → q ≠ x.1.fidFile → q ≠ x.1.normFile →
      x.1.writeout F x.2 q = x.2 q := by
  have h0 : OInv F (ODump.fresh flags true dir : ODump R G) fs :=
    ⟨rfl, rfl, by simp [ODump.fresh], by simp [ODump.fresh], rfl, by simp [ODump.fresh], rfl,
      by simp [ODump.fresh], by simp [ODump.fresh]⟩
  have h := oinv_run F (ODump.fresh flags true dir, fs) ops hb h0
  intro x
  refine ⟨⟨h.sum, fun hn => (h.fid hn).2, fun hn => (h.norm hn).2, h.grad⟩, ?_⟩
  intro q hq1 hq2 hq3
  unfold ODump.writeout
  obtain ⟨fs1, hfs1⟩ : ∃ fs1, fs1 = (if x.1.flags.summary = true then
      writeFile x.2 x.1.sumFile (x.1.iterSummary.flatMap (iterLines F x.1.sep)) else x.2) :=
    ⟨_, rfl⟩
  have e1 : fs1 q = x.2 q ∧ ∀ p, p ≠ x.1.sumFile → fs1 p = x.2 p := by
    refine ⟨?_, ?_⟩
    · rw [hfs1]
      split
      · rcases hq1 with hq1 | hne
        · exact writeFile_other _ _ _ _ hq1
        · rw [show x.1.iterSummary.flatMap (iterLines F x.1.sep) = _ from
            lines_eq IterSum.idx _ _ _ h.idx hne, writeFile_noop _ _ _ (h.sum hne)]
      · rfl
    · intro p hp
      rw [hfs1]
      split
      · exact writeFile_other _ _ _ _ hp
      · rfl
  rw [← hfs1]
  obtain ⟨fs2, hfs2⟩ : ∃ fs2, fs2 = (if x.1.flags.fidErr = true then
      writeFile fs1 x.1.fidFile (x.1.fidErrLog.map F.sci) else fs1) := ⟨_, rfl⟩
  have e2 : ∀ p, p ≠ x.1.fidFile → fs2 p = fs1 p := by
    intro p hp
    rw [hfs2]
    split
    · exact writeFile_other _ _ _ _ hp
    · rfl
  rw [← hfs2]
  obtain ⟨fs3, hfs3⟩ : ∃ fs3, fs3 = (if x.1.flags.gradNorm = true then
      writeFile fs2 x.1.normFile (x.1.gradNormLog.map F.sci) else fs2) := ⟨_, rfl⟩
  have e3 : ∀ p, p ≠ x.1.normFile → fs3 p = fs2 p := by
    intro p hp
    rw [hfs3]
    split
    · exact writeFile_other _ _ _ _ hp
    · rfl
  rw [← hfs3]
  have e : fs3 q = x.2 q := by rw [e3 q hq3, e2 q hq2, e1.1]
  split
  · rw [writeGrads_noop, e]
    intro i g hg
    have n : ∀ k : FName, k ≠ .gradients (0 + i + 1) → ∀ p : Path, p.name = k →
        (⟨x.1.dir, x.1.base, .gradients (0 + i + 1)⟩ : Path) ≠ p := by
      intro k hk p hp
      exact ne_of_name (by rw [hp]; exact hk.symm)
    rw [e3 _ (n _ (by simp) _ h.normName), e2 _ (n _ (by simp) _ h.fidName),
      e1.2 _ (n _ (by simp) _ h.sumName), Nat.zero_add]
    exact h.grad i g hg
  · exact e

/-- **C38, optimiser dump.**  After any history whatsoever, with or without writing through, a
`writeout` with all categories on gives, whatever files there were before, the contents that
belong to the records, the two logs of numbers in scientific notation. -/
theorem C38_writeout (F : Fmt R G) (flags : OptFlags) (write : Bool) (dir : String) (fs : Files)
    (ops : List (OOp R G)) (g : Files) :
    let d := (ODump.run F (ODump.fresh flags write dir, fs) ops).1
    d.flags = ⟨true, true, true, true⟩ → OFiles F F.sci d (d.writeout F g) := by
  have h := oshape_run F ((ODump.fresh flags write dir : ODump R G), fs) ops
    ⟨rfl, rfl, rfl, by simp [ODump.fresh]⟩
  intro d hf
  have hd : (ODump.run F (ODump.fresh flags write dir, fs) ops).1 = d := rfl
  rw [hd] at h
  unfold ODump.writeout
  simp only [hf, if_true]
  have w : ∀ (f : Files) (q : Path), (∀ i, q.name ≠ .gradients i) →
      writeGrads F d.dir d.base d.dataSep 0 d.gradLog f q = f q :=
    fun f q hq => writeGrads_other _ _ _ _ _ _ _ _ hq
  refine ⟨?_, ?_, ?_, ?_⟩
  · intro hne
    rw [w _ _ (by rw [h.sumName]; simp),
      writeFile_other _ _ _ _ (ne_of_name (by rw [h.sumName, h.normName]; simp)),
      writeFile_other _ _ _ _ (ne_of_name (by rw [h.sumName, h.fidName]; simp)),
      writeFile_same]
    exact congrArg some (lines_eq IterSum.idx _ _ _ h.idx hne)
  · intro _
    rw [w _ _ (by rw [h.fidName]; simp),
      writeFile_other _ _ _ _ (ne_of_name (by rw [h.fidName, h.normName]; simp)),
      writeFile_same]
  · intro _
    rw [w _ _ (by rw [h.normName]; simp), writeFile_same]
  · intro i g' hg
    have := writeGrads_at F d.dir d.base d.dataSep d.gradLog 0
      (writeFile (writeFile (writeFile g d.sumFile
        (d.iterSummary.flatMap (iterLines F d.sep))) d.fidFile (d.fidErrLog.map F.sci))
        d.normFile (d.gradNormLog.map F.sci)) i g' hg
    rw [Nat.zero_add] at this
    exact this

/-- Printing for the examples: numbers in unary, scientific notation with an `e`. -/
def toyFmt : Fmt Nat Nat where
  str n := List.replicate n '1'
  sci n := List.replicate n '1' ++ ['e']
  num v _ _ := match v with
    | .int n => List.replicate n '1'
    | .real r => List.replicate r '1'
  savetxt _ g := [List.replicate g '1']

def allOn : OptFlags := ⟨true, true, true, true⟩

/-- **C38, violated.**  The log of errors written along the way is not what `writeout` writes:
the numbers are printed differently. -/
theorem C38_violated_number_format :
    let x := ODump.run toyFmt (ODump.fresh allOn true "d", fun _ => none) [.fidErr 2]
    x.2 x.1.fidFile = some [['1', '1']] ∧
    x.1.writeout toyFmt x.2 x.1.fidFile = some [['1', '1', 'e']] := by
  refine ⟨by decide, by decide⟩

/-- In general: the two differ exactly as the two ways of printing. -/
theorem C38_violated_numbers (F : Fmt R G) (dir : String) (fs : Files) (x : R)
    (h : F.str x ≠ F.sci x) :
    let y := ODump.run F (ODump.fresh allOn true dir, fs) [.fidErr x]
    y.2 y.1.fidFile ≠ y.1.writeout F y.2 y.1.fidFile := by
  have h1 := (C38_write_through_partial F allOn dir fs [.fidErr x] (by
    intro pre op post he
    rcases pre with _ | ⟨a, pre⟩
    · obtain ⟨rfl, -⟩ := List.cons_eq_cons.mp he
      trivial
    · simp at he)).1.2.1 (by simp [ODump.run, ODump.step, ODump.fresh, allOn, ODump.addFidErr])
  have h2 := (C38_writeout F allOn true dir fs [.fidErr x]
    (ODump.run F (ODump.fresh allOn true dir, fs) [.fidErr x]).2 rfl).2.1
    (by simp [ODump.run, ODump.step, ODump.fresh, allOn, ODump.addFidErr])
  intro y hy
  have : some ((ODump.run F (ODump.fresh allOn true dir, fs) [.fidErr x]).1.fidErrLog.map F.str)
      = some ((ODump.run F (ODump.fresh allOn true dir, fs) [.fidErr x]).1.fidErrLog.map F.sci) :=
    h1.symm.trans (hy.trans h2)
  simp [ODump.run, ODump.step, ODump.fresh, allOn, ODump.addFidErr] at this
  exact h this

def sampleIter : IterSum Nat :=
  { idx := 0, iterNum := some 1, fidCall := some 1, gradCall := some 1, fidErr := some 2
    gradNorm := some 3, wallTime := 4 }

/-- **C38, violated.**  If the base name is changed after the first record, the new summary
file begins without a header, and the records before it are missing from it. -/
theorem C38_violated_base :
    let x := ODump.run toyFmt (ODump.fresh allOn true "d", fun _ => none)
      [.iter sampleIter, .setBase "b", .iter sampleIter]
    x.2 x.1.sumFile
      = some [valueLine toyFmt [' '] iterCols { sampleIter with idx := 1 }.vals] ∧
    (x.1.writeout toyFmt x.2 x.1.sumFile).map List.length = some 3 := by
  refine ⟨by decide, by decide⟩

/-- **C38, violated.**  The logs of numbers keep going to the file of the old base name, also
in `writeout`, while summaries and gradients follow the new one. -/
theorem C38_violated_old_name :
    let x := ODump.run toyFmt (ODump.fresh allOn true "d", fun _ => none)
      [.fidErr 2, .clear, .setBase "b", .fidErr 3, .iter sampleIter]
    x.1.fidFile = ⟨"d", "optimdump", .fidErr⟩ ∧ x.1.sumFile = ⟨"d", "b", .summary⟩ ∧
    x.1.writeout toyFmt x.2 ⟨"d", "b", .fidErr⟩ = none := by
  decide

/-- The hypotheses of `C38_write_through_partial` are met by a history with a base name set in
advance, records of all kinds and a clearing. -/
example : let ops : List (OOp Nat Nat) :=
      [.setBase "b", .iter sampleIter, .fidErr 2, .grad 3 4, .clear, .iter sampleIter]
    ∀ pre op post, ops = pre ++ op :: post →
      BaseSettled (ODump.run toyFmt (ODump.fresh allOn true "d", fun _ => none) pre).1 op := by
  intro ops pre op post he
  rcases pre with _ | ⟨a, pre⟩
  · obtain ⟨rfl, -⟩ := List.cons_eq_cons.mp he
    exact ⟨rfl, rfl⟩
  · have hmem : op ∈ ([.iter sampleIter, .fidErr 2, .grad 3 4, .clear, .iter sampleIter] :
        List (OOp Nat Nat)) := by
      have := (List.cons_eq_cons.mp he).2
      rw [this]
      simp
    simp only [List.mem_cons, List.not_mem_nil, or_false] at hmem
    rcases hmem with rfl | rfl | rfl | rfl | rfl <;> trivial

/-! ### The files of the dynamics dump -/

/-- The file contents that belong to the records of a dynamics dump. -/
def DFiles (F : Fmt R G) (render : Render A X) (d : DDump R A X) (fs : Files) : Prop :=
  (d.evoSummary ≠ [] → fs d.sumFile = some (headerLine d.sep evoCols ::
    d.evoSummary.map fun s => valueLine F d.sep evoCols s.vals)) ∧
  ∀ i it, d.evoDumps[i]? = some it → ∀ s b, (s, b) ∈ it.sections.1 →
    fs ⟨d.dir, d.base, .evo i s⟩ = some (render d.dataSep b)

/-- **C38, dynamics dump.**  After any history of dumps, flag changes and clearing, the files
written along the way have the contents that belong to the records, and a final `writeout`
changes nothing; if all items can be written, `writeout` alone gives the same contents,
whatever files there were before. -/
theorem C38_dynamics (F : Fmt R G) (render : Render A X) (flags : DynFlags) (dir : String)
    (fs : Files) (ops : List (DOp R A X)) :
    let x := DDump.run F render (DDump.fresh flags true dir, fs) ops
    DFiles F render x.1 x.2 ∧
    ((x.1.flags.summary = true → x.1.evoSummary ≠ []) →
      (x.1.writeout F render x.2).1 = x.2) ∧
    ∀ g, x.1.flags.summary = true → (∀ it ∈ x.1.evoDumps, it.sections.2 = none) →
      DFiles F render x.1 (x.1.writeout F render g).1 := by
  have h0 : DInv F render (DDump.fresh flags true dir : DDump R A X) fs :=
    ⟨rfl, rfl, by simp [DDump.fresh], by simp [DDump.fresh], by simp [DDump.fresh]⟩
  have h := dinv_run F render (DDump.fresh flags true dir, fs) ops h0
  intro x
  have hx : DDump.run F render (DDump.fresh flags true dir, fs) ops = x := rfl
  rw [hx] at h
  refine ⟨⟨h.sum, fun i it hi => (h.items i it hi).2⟩, ?_, ?_⟩
  · intro hne
    have e : (if x.1.flags.summary = true then writeFile x.2 x.1.sumFile
        (x.1.evoSummary.flatMap (evoLines F x.1.sep)) else x.2) = x.2 := by
      split
      · rename_i hs
        rw [show x.1.evoSummary.flatMap (evoLines F x.1.sep) = _ from
          lines_eq EvoSum.idx _ _ _ h.idx (hne hs), writeFile_noop _ _ _ (h.sum (hne hs))]
      · rfl
    unfold DDump.writeout
    rw [e]
    refine writeItems_noop render x.1 x.1.evoDumps x.2 ?_
    intro it hm s b hb
    obtain ⟨i, hi⟩ := List.getElem?_of_mem hm
    rw [(h.items i it hi).1]
    exact (h.items i it hi).2 s b hb
  · intro g hs hok
    unfold DDump.writeout
    simp only [hs, if_true]
    refine ⟨?_, ?_⟩
    · intro hne
      rw [writeItems_other _ _ _ _ _ (by intro it _ s; rw [h.sumName]; simp), writeFile_same]
      exact congrArg some (lines_eq EvoSum.idx _ _ _ h.idx hne)
    · intro i it hi s b hb
      have := writeItems_at render x.1 x.1.evoDumps
        (writeFile g x.1.sumFile (x.1.evoSummary.flatMap (evoLines F x.1.sep))) 0
        (fun i it hi => by rw [(h.items i it hi).1, Nat.zero_add]) hok i it hi s b hb
      rw [Nat.zero_add] at this
      exact this

/-- Two dumps of a sample, with all operators and a summary each. -/
def sampleDumps : List (DOp Nat Nat Nat) :=
  [.dump ⟨0, [1], [2], none, [3, 4], none, none⟩ ⟨0, none, none, none, none, 1, 1, 0, 0, 0, 0⟩ none,
   .dump ⟨5, [6], [7], none, [3, 8], none, none⟩ ⟨0, none, none, none, none, 1, 1, 0, 0, 0, 0⟩ none]

def sampleRun : DDump Nat Nat Nat × Files :=
  DDump.run toyFmt (fun _ _ => [])
    (DDump.fresh ⟨true, true, true, true, true, true, false, false⟩ true "d", fun _ => none)
    sampleDumps

example : sampleRun.1.evoSummary.length = 2 ∧ sampleRun.1.evoDumps.length = 2 ∧
    (sampleRun.2 ⟨"d", "dyndump", .evo 1 .fwdEvo⟩).isSome ∧
    sampleRun.1.flags.summary = true := by
  decide

end QTrl.Dump
