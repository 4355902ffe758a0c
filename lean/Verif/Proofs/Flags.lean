import Verif.Proofs.Views

/-
The flags of the caches: fidelity values are only current while the evolution is, and only
`get_fid_err_gradient` touches the gradient.
-/

set_option linter.unusedSectionVars false

namespace QTrl.Dyn

open QTrl.Spec

variable {d m D : Type} [Fintype d] [DecidableEq d] [Fintype m] [DecidableEq m]

/-- Values derived from the evolution are current only if the evolution is. -/
def FlagInv (s : State d m D) : Prop :=
  (s.fidelityCurrent = true → s.evoCurrent = true) ∧ (s.prenormCurrent = true → s.evoCurrent = true)

/-- Flags and gradient untouched. -/
def SameFlags (s t : State d m D) : Prop :=
  t.evoCurrent = s.evoCurrent ∧ t.fidelityCurrent = s.fidelityCurrent ∧
    t.prenormCurrent = s.prenormCurrent ∧ t.gradCurrent = s.gradCurrent ∧ t.grad = s.grad

theorem SameFlags.refl (s : State d m D) : SameFlags s s := ⟨rfl, rfl, rfl, rfl, rfl⟩

theorem SameFlags.trans {s t u : State d m D} (h : SameFlags s t) (h' : SameFlags t u) :
    SameFlags s u :=
  ⟨h'.1.trans h.1, h'.2.1.trans h.2.1, h'.2.2.1.trans h.2.2.1, h'.2.2.2.1.trans h.2.2.2.1,
    h'.2.2.2.2.trans h.2.2.2.2⟩

/-- The gradient untouched and the flags still consistent. -/
structure Keeps (s t : State d m D) : Prop where
  gradCurrent : t.gradCurrent = s.gradCurrent
  grad : t.grad = s.grad
  flags : FlagInv s → FlagInv t

theorem Keeps.refl (s : State d m D) : Keeps s s := ⟨rfl, rfl, id⟩

theorem Keeps.trans {s t u : State d m D} (h : Keeps s t) (h' : Keeps t u) : Keeps s u :=
  ⟨h'.gradCurrent.trans h.gradCurrent, h'.grad.trans h.grad, h'.flags ∘ h.flags⟩

theorem SameFlags.keeps {s t : State d m D} (h : SameFlags s t) : Keeps s t := by
  obtain ⟨h1, h2, h3, h4, h5⟩ := h
  refine ⟨h4, h5, fun hf => ?_⟩
  unfold FlagInv
  rw [h1, h2, h3]
  exact hf

theorem ensureDecomp_flags (S : Sys d m D) (s : State d m D) (k : Nat) :
    SameFlags s (ensureDecomp S s k) := by
  unfold ensureDecomp
  split
  · exact SameFlags.refl s
  · exact ⟨rfl, rfl, rfl, rfl, rfl⟩

theorem computeProp_flags (S : Sys d m D) (s : State d m D) (k : Nat) :
    SameFlags s (computeProp S s k).1 := by
  unfold computeProp
  cases S.propKind with
  | diag => exact ensureDecomp_flags S s k
  | _ => exact SameFlags.refl s

theorem computeGrad_flags (S : Sys d m D) (s : State d m D) (k j : Nat) :
    SameFlags s (computeGrad S s k j).1 := by
  unfold computeGrad
  cases S.propKind with
  | diag => exact ensureDecomp_flags S s k
  | _ => exact SameFlags.refl s

theorem propBody_flags (S : Sys d m D) (k : Nat) (s : State d m D) :
    SameFlags s (propBody S k s) := by
  unfold propBody
  split
  · refine forRange_inv (fun _ (t : State d m D) => SameFlags s t) (SameFlags.refl s) ?_
    intro j t _ ht
    dsimp only
    split
    · exact ht.trans ((computeProp_flags S t k).trans (computeGrad_flags S _ k j))
    · exact ht.trans (computeGrad_flags S t k j)
  · exact computeProp_flags S s k

theorem genLoop_flags (S : Sys d m D) (amps : Amps) (s : State d m D) :
    SameFlags s (genLoop S amps s) := by
  unfold genLoop
  refine forRange_inv (fun _ (t : State d m D) => SameFlags s t) (SameFlags.refl s) ?_
  intro k t _ ht
  exact ht

theorem recompute_flags (S : Sys d m D) (amps : Amps) (s : State d m D) :
    SameFlags s (recompute S amps s) := by
  have h : SameFlags s (forRange S.nTs (propBody S) (genLoop S amps
      { s with numRecompute := s.numRecompute + 1, views := {} })) := by
    refine forRange_inv (fun _ (t : State d m D) => SameFlags s t) ?_ ?_
    · exact genLoop_flags S amps { s with numRecompute := s.numRecompute + 1, views := {} }
    · intro k t _ ht
      exact ht.trans (propBody_flags S k t)
  unfold recompute
  by_cases h1 : usesOnwd S <;> by_cases h2 : usesOnto S <;> simp only [h1, h2] <;> exact h

theorem computeEvolution_keeps (S : Sys d m D) (s : State d m D) :
    Keeps s (computeEvolution S s).1 := by
  unfold computeEvolution
  split
  · exact Keeps.refl s
  · cases s.ctrlAmps with
    | none => exact SameFlags.keeps ⟨rfl, rfl, rfl, rfl, rfl⟩
    | some a =>
      obtain ⟨_, _, _, h4, h5⟩ := recompute_flags S a s
      exact ⟨h4, h5, fun _ => ⟨fun _ => rfl, fun _ => rfl⟩⟩

theorem computeEvolution_current (S : Sys d m D) (s : State d m D) {r : Bool} {t : State d m D}
    (h : computeEvolution S s = (t, .ok r)) : t.evoCurrent = true := by
  unfold computeEvolution at h
  split at h
  · rename_i hc
    cases h
    exact hc
  · generalize s.ctrlAmps = a at h
    cases a with
    | none => cases h
    | some a => cases h; rfl

theorem getPrenorm_keeps (S : Sys d m D) (s : State d m D) : Keeps s (getPrenorm S s).1 := by
  unfold getPrenorm
  split
  · exact Keeps.refl s
  · have h := computeEvolution_keeps S s
    have hc := @computeEvolution_current d m D _ _ _ _ S s
    generalize computeEvolution S s = x at h hc ⊢
    rcases x with ⟨t, _ | r⟩
    · exact h
    · have hc' : t.evoCurrent = true := hc rfl
      exact ⟨h.gradCurrent, h.grad, fun hf => ⟨(h.flags hf).1, fun _ => hc'⟩⟩

theorem getPrenorm_current (S : Sys d m D) (s : State d m D) {r : ℂ} {t : State d m D}
    (hf : FlagInv s) (h : getPrenorm S s = (t, .ok r)) : t.evoCurrent = true := by
  unfold getPrenorm at h
  split at h
  · rename_i hc
    cases h
    exact hf.2 hc
  · have hc := @computeEvolution_current d m D _ _ _ _ S s
    generalize computeEvolution S s = x at h hc
    rcases x with ⟨t, _ | r⟩
    · cases h
    · have hc' : t.evoCurrent = true := hc rfl
      cases h
      exact hc'

theorem getFidelity_keeps (S : Sys d m D) (s : State d m D) : Keeps s (getFidelity S s).1 := by
  unfold getFidelity
  split
  · exact Keeps.refl s
  · have h := getPrenorm_keeps S s
    have hc := @getPrenorm_current d m D _ _ _ _ S s
    generalize getPrenorm S s = x at h hc ⊢
    rcases x with ⟨t, _ | f⟩
    · exact h
    · dsimp only
      generalize fidNorm S f = y
      cases y with
      | error e => exact h
      | ok v =>
        have hc' : FlagInv s → t.evoCurrent = true := fun hf => hc hf rfl
        exact ⟨h.gradCurrent, h.grad, fun hf => ⟨fun _ => hc' hf, (h.flags hf).2⟩⟩

theorem getFidErr_keeps (S : Sys d m D) (s : State d m D) : Keeps s (getFidErr S s).1 := by
  unfold getFidErr
  cases S.fidKind with
  | unitary =>
    have h := getFidelity_keeps S s
    simp only
    generalize getFidelity S s = x at h ⊢
    rcases x with ⟨t, _ | f⟩ <;> exact h
  | traceDiff =>
    simp only
    unfold getFidErrTD
    split
    · exact Keeps.refl s
    · have h := computeEvolution_keeps S s
      have hc := @computeEvolution_current d m D _ _ _ _ S s
      generalize computeEvolution S s = x at h hc ⊢
      rcases x with ⟨t, _ | r⟩
      · exact h
      · have hc' : t.evoCurrent = true := hc rfl
        exact ⟨h.gradCurrent, h.grad, fun hf => ⟨fun _ => hc', (h.flags hf).2⟩⟩

/-- When the error could be computed the evolution is current. -/
theorem getFidErr_current (S : Sys d m D) (s : State d m D) {r : ℝ} {t : State d m D}
    (hf : FlagInv s) (h : getFidErr S s = (t, .ok r)) : t.evoCurrent = true := by
  have hk := (getFidErr_keeps S s).flags hf
  rw [h] at hk
  refine hk.1 ?_
  unfold getFidErr at h
  cases hk : S.fidKind with
  | unitary =>
    rw [hk] at h
    simp only at h
    have : ∀ {f : ℝ} {t}, getFidelity S s = (t, .ok f) → t.fidelityCurrent = true := by
      intro f t hg
      unfold getFidelity at hg
      split at hg
      · rename_i hc
        cases hg
        exact hc
      · generalize getPrenorm S s = x at hg
        rcases x with ⟨u, _ | f⟩
        · cases hg
        · dsimp only at hg
          generalize fidNorm S f = y at hg
          cases y <;> cases hg
          rfl
    generalize getFidelity S s = x at h this
    rcases x with ⟨u, _ | f⟩
    · cases h
    · cases h
      exact this rfl
  | traceDiff =>
    rw [hk] at h
    simp only at h
    unfold getFidErrTD at h
    split at h
    · rename_i hc
      cases h
      exact hc
    · generalize computeEvolution S s = x at h
      rcases x with ⟨u, _ | r⟩ <;> cases h
      rfl

theorem getPropGrad_flags (S : Sys d m D) (s : State d m D) (k j : Nat) :
    SameFlags s (getPropGrad S s k j).1 := by
  unfold getPropGrad
  split
  · split <;> exact SameFlags.refl s
  · split
    · exact computeGrad_flags S s k j
    · exact SameFlags.refl s

theorem gradLoop_flags {R : Type} (S : Sys d m D)
    (entry : State d m D → Nat → Nat → State d m D × Except PyErr R)
    (h : ∀ s k j, SameFlags s (entry s k j).1) (g0 : Nat → Nat → R) (s : State d m D) :
    SameFlags s (gradLoop S entry g0 s).1 := by
  unfold gradLoop
  refine forRange_inv (fun _ (acc : State d m D × _) => SameFlags s acc.1) (SameFlags.refl s) ?_
  intro j acc _ hacc
  refine forRange_inv (fun _ (acc : State d m D × _) => SameFlags s acc.1) hacc ?_
  intro k acc _ hacc
  unfold gradStep
  rcases acc with ⟨t, e | g⟩
  · exact hacc
  · have := h t k j
    dsimp only at hacc ⊢
    generalize entry t k j = x at this ⊢
    rcases x with ⟨u, e | v⟩ <;> exact hacc.trans this

theorem computeFidGrad_keeps (S : Sys d m D) (s : State d m D) :
    Keeps s (computeFidGrad S s).1 := by
  unfold computeFidGrad
  have h := computeEvolution_keeps S s
  generalize computeEvolution S s = x at h ⊢
  rcases x with ⟨t, _ | r⟩
  · exact h
  · refine h.trans (gradLoop_flags S _ ?_ _ t).keeps
    intro s k j
    unfold gradEntryUnitary
    have := getPropGrad_flags S s k j
    generalize getPropGrad S s k j = x at this ⊢
    rcases x with ⟨u, _ | v⟩ <;> exact this

theorem computeErrGradTD_keeps (S : Sys d m D) (s : State d m D) :
    Keeps s (computeErrGradTD S s).1 := by
  unfold computeErrGradTD
  have h := computeEvolution_keeps S s
  generalize computeEvolution S s = x at h ⊢
  rcases x with ⟨t, _ | r⟩
  · exact h
  · refine h.trans (gradLoop_flags S _ ?_ _ t).keeps
    intro s k j
    unfold gradEntryTD
    have := getPropGrad_flags S s k j
    generalize getPropGrad S s k j = x at this ⊢
    rcases x with ⟨u, _ | v⟩ <;> exact this

/-- What `get_fid_err_gradient` does to the flags and the stored gradient. -/
theorem getGrad_flags (S : Sys d m D) (s : State d m D) :
    (FlagInv s → FlagInv (getGrad S s).1) ∧
    (∀ t g, getGrad S s = (t, .ok g) → t.gradCurrent = true ∧ t.grad = g) ∧
    (∀ t e, getGrad S s = (t, .error e) → s.gradCurrent = false ∧ t.gradCurrent = false) ∧
    (s.gradCurrent = true → getGrad S s = (s, .ok s.grad)) := by
  unfold getGrad
  cases S.fidKind with
  | unitary =>
    simp only
    unfold getGradUnitary
    split
    · rename_i hc
      refine ⟨id, ?_, ?_, fun _ => rfl⟩
      · intro t g h; cases h; exact ⟨hc, rfl⟩
      · intro t e h; cases h
    · rename_i hc
      have hcf : s.gradCurrent = false := by simpa using hc
      have h1 := computeFidGrad_keeps S s
      generalize computeFidGrad S s = x at h1 ⊢
      rcases x with ⟨t, _ | g⟩
      · refine ⟨h1.flags, ?_, ?_, fun h => absurd h hc⟩
        · intro t g h; cases h
        · intro t e h; cases h; exact ⟨hcf, h1.gradCurrent.trans hcf⟩
      · have h2 := getFidelity_keeps S t
        dsimp only
        generalize getFidelity S t = x at h2 ⊢
        rcases x with ⟨u, _ | f⟩
        · have h12 := h1.trans h2
          refine ⟨h12.flags, ?_, ?_, fun h => absurd h hc⟩
          · intro t g h; cases h
          · intro t e h; cases h; exact ⟨hcf, h12.gradCurrent.trans hcf⟩
        · have h3 := getPrenorm_keeps S u
          dsimp only
          generalize getPrenorm S u = x at h3 ⊢
          rcases x with ⟨w, _ | p⟩
          · have h13 := (h1.trans h2).trans h3
            refine ⟨h13.flags, ?_, ?_, fun h => absurd h hc⟩
            · intro t g h; cases h
            · intro t e h; cases h; exact ⟨hcf, h13.gradCurrent.trans hcf⟩
          · have h13 := (h1.trans h2).trans h3
            refine ⟨fun hf => h13.flags hf, ?_, ?_, fun h => absurd h hc⟩
            · intro t g h; cases h; exact ⟨rfl, rfl⟩
            · intro t e h; cases h
  | traceDiff =>
    simp only
    unfold getGradTD
    split
    · rename_i hc
      refine ⟨id, ?_, ?_, fun _ => rfl⟩
      · intro t g h; cases h; exact ⟨hc, rfl⟩
      · intro t e h; cases h
    · rename_i hc
      have hcf : s.gradCurrent = false := by simpa using hc
      have h1 := computeErrGradTD_keeps S s
      generalize computeErrGradTD S s = x at h1 ⊢
      rcases x with ⟨t, _ | g⟩
      · refine ⟨h1.flags, ?_, ?_, fun h => absurd h hc⟩
        · intro t g h; cases h
        · intro t e h; cases h; exact ⟨hcf, h1.gradCurrent.trans hcf⟩
      · refine ⟨fun hf => h1.flags hf, ?_, ?_, fun h => absurd h hc⟩
        · intro t g h; cases h; exact ⟨rfl, rfl⟩
        · intro t e h; cases h

theorem compareAmps_flags (S : Sys d m D) (s : State d m D) (a : Amps) :
    (FlagInv s → FlagInv (compareAmps S s a).1) ∧
      ((compareAmps S s a).1 = s ∨ (compareAmps S s a).1.gradCurrent = false) := by
  cases ha : s.ctrlAmps with
  | none =>
    rw [compareAmps_none ha]
    exact ⟨fun _ => ⟨fun h => by simp [flagSystemChanged] at h,
      fun h => by simp [flagSystemChanged] at h⟩, Or.inr rfl⟩
  | some old =>
    by_cases hch : numChanged S old a = 0
    · rw [compareAmps_same ha hch]; exact ⟨id, Or.inl rfl⟩
    · rw [compareAmps_changed ha hch]
      exact ⟨fun _ => ⟨fun h => by simp [flagSystemChanged] at h,
        fun h => by simp [flagSystemChanged] at h⟩, Or.inr rfl⟩

/-- Reading views touches no flag. -/
theorem OnlyViews.sameFlags {s t : State d m D} (h : OnlyViews s t) : SameFlags s t := by
  obtain ⟨v, rfl⟩ := h
  exact ⟨rfl, rfl, rfl, rfl, rfl⟩

end QTrl.Dyn
