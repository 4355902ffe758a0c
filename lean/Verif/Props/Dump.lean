import Verif.Proofs.DumpHist

/-
C35: dump records are complete and in order.
C36: dumped evolution files contain the operators they are labelled with.
-/

namespace QTrl.Dump

variable {R G A X : Type}

/-- **C35, optimiser dump.**  After any history of callbacks, flag changes and clearing, each
log contains exactly the values reported since the last clearing while its category was
enabled, in order, and the summaries are numbered consecutively from zero; nothing else is
recorded. -/
theorem C35_optim (F : Fmt R G) (flags : OptFlags) (write : Bool) (dir : String) (fs : Files)
    (ops : List (OOp R G)) :
    let d := (ODump.run F (ODump.fresh flags write dir, fs) ops).1
    let l := afterClear (annotate flags ops)
    d.fidErrLog = fidErrs l ∧ d.gradNormLog = gradNorms l ∧ d.gradLog = grads l ∧
    d.iterSummary = (iters l).mapIdx (fun i s => { s with idx := i }) := by
  induction ops using List.reverseRecOn with
  | nil => exact ⟨rfl, rfl, rfl, rfl⟩
  | append_singleton ops op ih =>
    obtain ⟨h1, h2, h3, h4⟩ := ih
    have hf := run_flags F (ODump.fresh flags write dir, fs) ops
    simp only [run_snoc, annotate_snoc, afterClear_snoc]
    rw [show (ODump.fresh flags write dir, fs).1.flags = flags from rfl] at hf
    rw [← hf]
    generalize afterClear (annotate flags ops) = l at h1 h2 h3 h4 ⊢
    generalize ODump.run F (ODump.fresh flags write dir, fs) ops = x at h1 h2 h3 h4 ⊢
    obtain ⟨d, fs'⟩ := x
    simp only at h1 h2 h3 h4
    cases op with
    | fidErr e =>
      simp only [ODump.step, ODump.addFidErr, OOp.isClear, Bool.false_eq_true, if_false]
      cases hq : d.flags.fidErr <;> cases hw : d.write <;>
        simp [fidErrs, gradNorms, grads, iters, hq, hw] at * <;> simp [h1, h2, h3, h4]
    | grad n g =>
      simp only [ODump.step, ODump.addGradNorm, ODump.addGrad, OOp.isClear, Bool.false_eq_true,
        if_false]
      cases hq : d.flags.gradNorm <;> cases hq' : d.flags.grad <;> cases hw : d.write <;>
        simp [fidErrs, gradNorms, grads, iters, hq, hq', hw] at * <;> simp [h1, h2, h3, h4]
    | iter s =>
      simp only [ODump.step, ODump.addIter, OOp.isClear, Bool.false_eq_true, if_false]
      cases hq : d.flags.summary <;> cases hw : d.write <;>
        simp [fidErrs, gradNorms, grads, iters, hq, hw, List.mapIdx_append] at * <;>
        simp [h1, h2, h3, h4]
    | setFlags f =>
      simp [ODump.step, OOp.isClear, fidErrs, gradNorms, grads, iters] at *
      simp [h1, h2, h3, h4]
    | clear => simp [ODump.step, OOp.isClear, fidErrs, gradNorms, grads, iters]
    | setBase b =>
      simp [ODump.step, OOp.isClear, fidErrs, gradNorms, grads, iters] at *
      simp [h1, h2, h3, h4]

example : fidErrs (G := Unit) (afterClear (annotate
      { summary := true, fidErr := true, gradNorm := false, grad := false }
      [.fidErr 5, .clear, .fidErr 7, .grad 3 (), .fidErr 8])) = [7, 8] := by decide

/-- **C35, dynamics dump, partial.**  After any history of recomputations, flag changes and
clearing, the items and summaries are complete and in order (`Complete`).  When the dump also
writes to files this needs flags with which writing succeeds, see `C35_violated`. -/
theorem C35_dynamics_partial (F : Fmt R G) (render : Render A X) (flags : DynFlags)
    (write : Bool) (dir : String) (fs : Files) (ops : List (DOp R A X))
    (hs : write = true → ∀ s c st, .dump s c st ∈ ops → ∃ n m, s.Sized n m)
    (hf : write = true → Writable flags ∧ ∀ f, .setFlags f ∈ ops → Writable f) :
    Complete (events flags [] ops)
      (DDump.run F render (DDump.fresh flags write dir, fs) ops).1 := by
  refine records_complete F render ops (DDump.fresh flags write dir) fs [] hs hf ⟨rfl, rfl, ?_⟩
  intro pre e post h
  simp at h

/-- The flags of both levels are writable. -/
example (a b : Bool) (f : DynFlags) :
    Writable ((dynKind a b).setFull f) ∧ Writable ((dynKind a b).setSummary f) := by
  constructor <;> simp [Writable, dynKind]

def sampleSnap : Snapshot Nat Nat :=
  { ctrlAmps := 0, dynGen := [1, 2], prop := [11, 12], propGrad := none, fwdEvo := [20, 21, 22]
    onwdEvo := some [31, 32], ontoEvo := none }

example : sampleSnap.Sized 2 1 := by
  refine ⟨rfl, rfl, rfl, ?_, ?_, ?_⟩ <;> intro l h <;> simp [sampleSnap] at h
  simp [← h]

def sampleSum : EvoSum Nat :=
  { idx := 0, evoDumpIdx := none, iterNum := none, fidCall := none, gradCall := none
    ampsChanged := 4, tslotsChanged := 2, wallDynGen := 0, wallProp := 0, wallFwd := 0
    wallOnwd := 0 }

/-- Only the propagators and the summary. -/
def propOnly : DynFlags :=
  { summary := true, amps := false, dynGen := false, prop := true, propGrad := false
    fwd := false, onwd := false, onto := false }

/-- **C35, violated.**  With file writing on and only the propagators chosen, the dump raises:
the item is recorded but its summary is not. -/
theorem C35_violated (F : Fmt Nat Unit) (render : Render Nat Nat) (fs : Files) :
    let r := DDump.dumpCurrent F render (DDump.fresh propOnly true "d") fs sampleSnap
      (some sampleSum) none
    r.2.2 = .error .typeError ∧ r.1.evoDumps.length = 1 ∧ r.1.evoSummary.length = 0 ∧
    ¬ Complete (events propOnly [] [.dump sampleSnap sampleSum none]) r.1 := by
  refine ⟨rfl, rfl, rfl, ?_⟩
  intro h
  have h2 : (0 : Nat) = 1 := h.2.1
  exact absurd h2 (by decide)

/-! ### C36 -/

/-- **C36, partial.**  For any chosen categories with which writing succeeds, the item has
exactly the chosen sections, in order; amplitudes, generators, propagators and their gradients
are all there, labelled with their slots and controls in order, and of the forward evolution
the operators of all slots but the last point in time. -/
theorem C36_sections_partial (f : DynFlags) (s : Snapshot A X) (n m : Nat) (hs : s.Sized n m)
    (hw : Writable f) (it : EvoItem A X) (hi : Records f s it) :
    it.sections.2 = none ∧ it.sections.1.map Prod.fst = sectionsOf f s ∧
    (∀ b, (.ctrlAmps, b) ∈ it.sections.1 → b = [.amps s.ctrlAmps]) ∧
    (∀ b, (.dynGen, b) ∈ it.sections.1 → Lists .dynGen s.dynGen s.dynGen.length b) ∧
    (∀ b, (.prop, b) ∈ it.sections.1 → Lists .prop s.prop s.prop.length b) ∧
    (∀ b, (.propGrad, b) ∈ it.sections.1 →
      ∃ pg, s.propGrad = some pg ∧ ListsGrads pg pg.length m b) ∧
    (∀ b, (.fwdEvo, b) ∈ it.sections.1 → Lists .fwdEvo s.fwdEvo (s.fwdEvo.length - 1) b) := by
  obtain ⟨h1, h2, h3⟩ := sections_ok f s n m hs hw it hi
  obtain ⟨s1, s2, s3, s4, -, -⟩ := hs
  refine ⟨h1, h2, fun b hb => h3 _ hb, fun b hb => s1.symm ▸ h3 _ hb,
    fun b hb => s2.symm ▸ h3 _ hb, ?_, fun b hb => ?_⟩
  · intro b hb
    obtain ⟨pg, hpg, hl⟩ := h3 _ hb
    exact ⟨pg, hpg, (s4 pg hpg).1.symm ▸ hl⟩
  · rw [s3]; exact h3 _ hb

/-- **C36, violated.**  The sections for the onward and onto evolutions contain the forward
evolution, whatever the operators are. -/
theorem C36_violated_content (f : DynFlags) (s : Snapshot A X) (n m : Nat) (hs : s.Sized n m)
    (hw : Writable f) (it : EvoItem A X) (hi : Records f s it) :
    (∀ b, (.onwdEvo, b) ∈ it.sections.1 → Lists .onwdEvo s.fwdEvo n b) ∧
    (∀ b, (.ontoEvo, b) ∈ it.sections.1 → Lists .ontoEvo s.fwdEvo n b) := by
  obtain ⟨-, -, h3⟩ := sections_ok f s n m hs hw it hi
  exact ⟨fun b hb => h3 _ hb, fun b hb => h3 _ hb⟩

def sampleFull : DynFlags :=
  { summary := true, amps := true, dynGen := true, prop := true, propGrad := true
    fwd := true, onwd := true, onto := false }

def sampleItem : EvoItem Nat Nat := (DDump.fresh (R := Nat) sampleFull false "d").newItem sampleSnap

example : Records sampleFull sampleSnap sampleItem ∧ Writable sampleFull :=
  ⟨(newItem_records _ _).1, by decide⟩

/-- **C36, violated.**  A section for the onward evolution that is not the onward evolution. -/
theorem C36_violated_onwd :
    sampleSnap.onwdEvo = some [31, 32] ∧
    (.onwdEvo, [.oper (.slot .onwdEvo 0) 20, .oper (.slot .onwdEvo 1) 21])
      ∈ sampleItem.sections.1 := by
  refine ⟨rfl, ?_⟩
  simp [sampleItem, DDump.newItem, DDump.fresh, sampleFull, sampleSnap, EvoItem.sections,
    addSection, overGens, slotLoop]

/-- **C36, violated.**  The final forward operator, the evolution over the whole time, is never
written. -/
theorem C36_violated_last (f : DynFlags) (s : Snapshot A X) (n m : Nat) (hs : s.Sized n m)
    (hw : Writable f) (it : EvoItem A X) (hi : Records f s it) (b : List (Block A X))
    (hb : (.fwdEvo, b) ∈ it.sections.1) : b.length + 1 = s.fwdEvo.length := by
  have h := (C36_sections_partial f s n m hs hw it hi).2.2.2.2.2.2 b hb
  have h3 := hs.2.2.1
  have := h.1
  omega

/-- **C36, violated.**  Without the generators nothing after them can be written: with only the
propagators chosen the file stays empty and TypeError is raised. -/
theorem C36_violated_no_generators (it : EvoItem A X) (p : List X) (hd : it.dynGen = none)
    (hp : it.prop = some p) :
    it.sections.2 = some .typeError ∧ ∀ b, (.prop, b) ∈ it.sections.1 → b = [] := by
  cases ha : it.ctrlAmps <;>
    simp [EvoItem.sections, addSection, overGens, hd, hp, ha]

example : ((DDump.fresh (R := Nat) propOnly true "d").newItem sampleSnap).dynGen = none ∧
    ((DDump.fresh (R := Nat) propOnly true "d").newItem sampleSnap).prop = some [11, 12] :=
  ⟨rfl, rfl⟩

end QTrl.Dump
