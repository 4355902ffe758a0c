import Verif.Proofs.Machine
import Verif.Model.Views

/-
Cached views agree with the internal containers while the evolution is current.
-/

set_option linter.unusedSectionVars false

namespace QTrl.Dyn

open QTrl.Spec

variable {d m D : Type} [Fintype d] [DecidableEq d] [Fintype m] [DecidableEq m]

/-- Cached views show the internal containers whenever the evolution is current. -/
structure ViewInv (S : Sys d m D) (s : State d m D) : Prop where
  dynGen : s.evoCurrent = true → ∀ v, s.views.dynGen = some v → v = s.dynGen
  prop : s.evoCurrent = true → ∀ v, s.views.prop = some v → v = s.prop
  propGrad : s.evoCurrent = true → ∀ v, s.views.propGrad = some v → v = s.propGrad
  fwd : s.evoCurrent = true → ∀ v, s.views.fwd = some v → v = s.fwd
  onwd : s.evoCurrent = true → ∀ v, s.views.onwd = some v →
    v = if S.isQobj then fun k => Sum.inr (s.fwd k) else fun k => Sum.inl (s.onwd k)
  onto : s.evoCurrent = true → ∀ v, s.views.onto = some v → v = s.onto

theorem ViewInv.of_empty {S : Sys d m D} {s : State d m D} (h : s.views = {}) : ViewInv S s := by
  refine ⟨?_, ?_, ?_, ?_, ?_, ?_⟩ <;> intro _ v hv <;> simp [h] at hv

theorem ViewInv.of_stale {S : Sys d m D} {s : State d m D} (h : s.evoCurrent = false) :
    ViewInv S s := by
  refine ⟨?_, ?_, ?_, ?_, ?_, ?_⟩ <;> intro hc <;> simp [h] at hc

/-- What queries can do to the views: nothing, or drop them all. -/
def Evolves (s t : State d m D) : Prop :=
  t.views = {} ∨ (t.views = s.views ∧ t.evoCurrent = s.evoCurrent ∧ t.dynGen = s.dynGen ∧
    t.prop = s.prop ∧ t.propGrad = s.propGrad ∧ t.fwd = s.fwd ∧ t.onwd = s.onwd ∧ t.onto = s.onto)

theorem Evolves.refl (s : State d m D) : Evolves s s :=
  Or.inr ⟨rfl, rfl, rfl, rfl, rfl, rfl, rfl, rfl⟩

theorem Evolves.trans {s t u : State d m D} (h1 : Evolves s t) (h2 : Evolves t u) :
    Evolves s u := by
  rcases h2 with h2 | ⟨a1, a2, a3, a4, a5, a6, a7, a8⟩
  · exact Or.inl h2
  · rcases h1 with h1 | ⟨b1, b2, b3, b4, b5, b6, b7, b8⟩
    · exact Or.inl (a1.trans h1)
    · exact Or.inr ⟨a1.trans b1, a2.trans b2, a3.trans b3, a4.trans b4, a5.trans b5, a6.trans b6,
        a7.trans b7, a8.trans b8⟩

theorem ViewInv.evolves {S : Sys d m D} {s t : State d m D} (h : ViewInv S s)
    (he : Evolves s t) : ViewInv S t := by
  rcases he with he | ⟨a1, a2, a3, a4, a5, a6, a7, a8⟩
  · exact ViewInv.of_empty he
  · refine ⟨?_, ?_, ?_, ?_, ?_, ?_⟩ <;> rw [a1, a2]
    · rw [a3]; exact h.dynGen
    · rw [a4]; exact h.prop
    · rw [a5]; exact h.propGrad
    · rw [a6]; exact h.fwd
    · rw [a6, a7]; exact h.onwd
    · rw [a8]; exact h.onto

theorem genLoop_views (S : Sys d m D) (amps : Amps) (s : State d m D) :
    (genLoop S amps s).views = s.views := by
  unfold genLoop
  refine forRange_inv (fun _ (t : State d m D) => t.views = s.views) rfl ?_
  intro k t _ ht
  exact ht

theorem ensureDecomp_views (S : Sys d m D) (s : State d m D) (k : Nat) :
    (ensureDecomp S s k).views = s.views ∧ Evolves s (ensureDecomp S s k) := by
  unfold ensureDecomp
  split
  · exact ⟨rfl, Evolves.refl s⟩
  · exact ⟨rfl, Or.inr ⟨rfl, rfl, rfl, rfl, rfl, rfl, rfl, rfl⟩⟩

theorem computeProp_views (S : Sys d m D) (s : State d m D) (k : Nat) :
    (computeProp S s k).1.views = s.views := by
  unfold computeProp
  cases S.propKind with
  | diag => exact (ensureDecomp_views S s k).1
  | _ => rfl

theorem computeGrad_views (S : Sys d m D) (s : State d m D) (k j : Nat) :
    (computeGrad S s k j).1.views = s.views ∧ Evolves s (computeGrad S s k j).1 := by
  unfold computeGrad
  cases S.propKind with
  | diag => exact ensureDecomp_views S s k
  | _ => exact ⟨rfl, Evolves.refl s⟩

theorem propBody_views (S : Sys d m D) (k : Nat) (s : State d m D) :
    (propBody S k s).views = s.views := by
  unfold propBody
  split
  · refine forRange_inv (fun _ (t : State d m D) => t.views = s.views) rfl ?_
    intro j t _ ht
    dsimp only
    split
    · exact (computeGrad_views S _ k j).1.trans ((computeProp_views S t k).trans ht)
    · exact (computeGrad_views S t k j).1.trans ht
  · exact computeProp_views S s k

theorem recompute_views (S : Sys d m D) (amps : Amps) (s : State d m D) :
    (recompute S amps s).views = {} := by
  have h : (forRange S.nTs (propBody S) (genLoop S amps
      { s with numRecompute := s.numRecompute + 1, views := {} })).views = {} := by
    refine forRange_inv (fun _ (t : State d m D) => t.views = {}) ?_ ?_
    · rw [genLoop_views]
    · intro k t _ ht
      rw [propBody_views, ht]
  unfold recompute
  by_cases h1 : usesOnwd S <;> by_cases h2 : usesOnto S <;> simp [h1, h2, h]

theorem computeEvolution_evolves (S : Sys d m D) (s : State d m D) :
    Evolves s (computeEvolution S s).1 := by
  unfold computeEvolution
  split
  · exact Evolves.refl s
  · cases s.ctrlAmps with
    | none => exact Or.inl rfl
    | some a => exact Or.inl (recompute_views S a s)

theorem getPrenorm_evolves (S : Sys d m D) (s : State d m D) : Evolves s (getPrenorm S s).1 := by
  unfold getPrenorm
  split
  · exact Evolves.refl s
  · have h := computeEvolution_evolves S s
    generalize computeEvolution S s = x at h ⊢
    rcases x with ⟨t, _ | r⟩
    · exact h
    · exact h.trans (Or.inr ⟨rfl, rfl, rfl, rfl, rfl, rfl, rfl, rfl⟩)

theorem getFidelity_evolves (S : Sys d m D) (s : State d m D) : Evolves s (getFidelity S s).1 := by
  unfold getFidelity
  split
  · exact Evolves.refl s
  · have h := getPrenorm_evolves S s
    generalize getPrenorm S s = x at h ⊢
    rcases x with ⟨t, _ | f⟩
    · exact h
    · dsimp only
      generalize fidNorm S f = y
      cases y with
      | error e => exact h
      | ok v => exact h.trans (Or.inr ⟨rfl, rfl, rfl, rfl, rfl, rfl, rfl, rfl⟩)

theorem getFidErr_evolves (S : Sys d m D) (s : State d m D) : Evolves s (getFidErr S s).1 := by
  unfold getFidErr
  cases S.fidKind with
  | unitary =>
    have h := getFidelity_evolves S s
    simp only
    generalize getFidelity S s = x at h ⊢
    rcases x with ⟨t, _ | f⟩ <;> exact h
  | traceDiff =>
    simp only
    unfold getFidErrTD
    split
    · exact Evolves.refl s
    · have h := computeEvolution_evolves S s
      generalize computeEvolution S s = x at h ⊢
      rcases x with ⟨t, _ | r⟩
      · exact h
      · exact h.trans (Or.inr ⟨rfl, rfl, rfl, rfl, rfl, rfl, rfl, rfl⟩)

theorem getPropGrad_evolves (S : Sys d m D) (s : State d m D) (k j : Nat) :
    Evolves s (getPropGrad S s k j).1 := by
  unfold getPropGrad
  split
  · split <;> exact Evolves.refl s
  · split
    · exact (computeGrad_views S s k j).2
    · exact Evolves.refl s

theorem gradLoop_evolves {R : Type} (S : Sys d m D)
    (entry : State d m D → Nat → Nat → State d m D × Except PyErr R)
    (h : ∀ s k j, Evolves s (entry s k j).1) (g0 : Nat → Nat → R) (s : State d m D) :
    Evolves s (gradLoop S entry g0 s).1 := by
  unfold gradLoop
  refine forRange_inv (fun _ (acc : State d m D × _) => Evolves s acc.1) (Evolves.refl s) ?_
  intro j acc _ hacc
  refine forRange_inv (fun _ (acc : State d m D × _) => Evolves s acc.1) hacc ?_
  intro k acc _ hacc
  unfold gradStep
  rcases acc with ⟨t, e | g⟩
  · exact hacc
  · have := h t k j
    dsimp only at hacc ⊢
    generalize entry t k j = x at this ⊢
    rcases x with ⟨u, e | v⟩ <;> exact hacc.trans this

theorem getGrad_evolves (S : Sys d m D) (s : State d m D) : Evolves s (getGrad S s).1 := by
  unfold getGrad
  cases S.fidKind with
  | unitary =>
    simp only
    unfold getGradUnitary
    split
    · exact Evolves.refl s
    · have h1 : Evolves s (computeFidGrad S s).1 := by
        unfold computeFidGrad
        have h := computeEvolution_evolves S s
        generalize computeEvolution S s = x at h ⊢
        rcases x with ⟨t, _ | r⟩
        · exact h
        · refine h.trans (gradLoop_evolves S _ ?_ _ t)
          intro s k j
          unfold gradEntryUnitary
          have := getPropGrad_evolves S s k j
          generalize getPropGrad S s k j = x at this ⊢
          rcases x with ⟨u, _ | v⟩ <;> exact this
      generalize computeFidGrad S s = x at h1 ⊢
      rcases x with ⟨t, _ | g⟩
      · exact h1
      · have h2 := getFidelity_evolves S t
        dsimp only
        generalize getFidelity S t = x at h2 ⊢
        rcases x with ⟨u, _ | f⟩
        · exact h1.trans h2
        · have h3 := getPrenorm_evolves S u
          dsimp only
          generalize getPrenorm S u = x at h3 ⊢
          rcases x with ⟨w, _ | p⟩
          · exact (h1.trans h2).trans h3
          · exact ((h1.trans h2).trans h3).trans
              (Or.inr ⟨rfl, rfl, rfl, rfl, rfl, rfl, rfl, rfl⟩)
  | traceDiff =>
    simp only
    unfold getGradTD
    split
    · exact Evolves.refl s
    · have h1 : Evolves s (computeErrGradTD S s).1 := by
        unfold computeErrGradTD
        have h := computeEvolution_evolves S s
        generalize computeEvolution S s = x at h ⊢
        rcases x with ⟨t, _ | r⟩
        · exact h
        · refine h.trans (gradLoop_evolves S _ ?_ _ t)
          intro s k j
          unfold gradEntryTD
          have := getPropGrad_evolves S s k j
          generalize getPropGrad S s k j = x at this ⊢
          rcases x with ⟨u, _ | v⟩ <;> exact this
      generalize computeErrGradTD S s = x at h1 ⊢
      rcases x with ⟨t, _ | g⟩
      · exact h1
      · exact h1.trans (Or.inr ⟨rfl, rfl, rfl, rfl, rfl, rfl, rfl, rfl⟩)

theorem step_viewInv {S : Sys d m D} (junk : State d m D) {s : State d m D} (h : ViewInv S s)
    (o : Op) : ViewInv S (step S junk s o).1 := by
  cases o with
  | updateAmps a =>
    show ViewInv S (compareAmps S s a).1
    cases ha : s.ctrlAmps with
    | none => rw [compareAmps_none ha]; exact ViewInv.of_stale rfl
    | some old =>
      by_cases hch : numChanged S old a = 0
      · rw [compareAmps_same ha hch]; exact h
      · rw [compareAmps_changed ha hch]; exact ViewInv.of_stale rfl
  | reinit a =>
    show ViewInv S (initControls S junk s a)
    unfold initControls
    rw [compareAmps_none (by rfl)]
    exact ViewInv.of_stale rfl
  | computeEvolution => exact h.evolves (computeEvolution_evolves S s)
  | getFidelity =>
    unfold step
    cases S.fidKind with
    | unitary => exact h.evolves (getFidelity_evolves S s)
    | traceDiff => exact h
  | getFidErr => exact h.evolves (getFidErr_evolves S s)
  | getGradient => exact h.evolves (getGrad_evolves S s)

/-- Reading a view changes nothing but the views. -/
def OnlyViews (s t : State d m D) : Prop := ∃ v, t = { s with views := v }

theorem Inv.onlyViews {S : Sys d m D} {s t : State d m D} (h : Inv S s) (ho : OnlyViews s t) :
    Inv S t ∧ t.ctrlAmps = s.ctrlAmps := by
  obtain ⟨v, rfl⟩ := ho
  refine ⟨⟨⟨h.ends.fwd0, h.ends.ontoN⟩, ?_, h.prenorm, h.fid, h.grad⟩, rfl⟩
  intro hc
  obtain ⟨b, hb, o⟩ := h.evo hc
  exact ⟨b, hb, ⟨fun k hk hc => o.decomp k hk hc, o.gen.frame _ rfl rfl, o.prop, o.propGrad, o.fwd,
    o.onwd, o.onto⟩⟩

theorem readDynGen_spec {S : Sys d m D} {s : State d m D} (h : ViewInv S s) :
    OnlyViews s (readDynGen s).1 ∧ ViewInv S (readDynGen s).1 ∧
      (s.evoCurrent = true → (readDynGen s).2 = some s.dynGen) := by
  unfold readDynGen
  cases hv : s.views.dynGen with
  | some v => exact ⟨⟨_, rfl⟩, h, fun hc => by rw [h.dynGen hc v hv]⟩
  | none =>
    refine ⟨⟨_, rfl⟩, ⟨?_, h.prop, h.propGrad, h.fwd, h.onwd, h.onto⟩, fun _ => rfl⟩
    intro _ v hv; cases hv; rfl

theorem readProp_spec {S : Sys d m D} {s : State d m D} (h : ViewInv S s) :
    OnlyViews s (readProp s).1 ∧ ViewInv S (readProp s).1 ∧
      (s.evoCurrent = true → (readProp s).2 = some s.prop) := by
  unfold readProp
  cases hv : s.views.prop with
  | some v => exact ⟨⟨_, rfl⟩, h, fun hc => by rw [h.prop hc v hv]⟩
  | none =>
    refine ⟨⟨_, rfl⟩, ⟨h.dynGen, ?_, h.propGrad, h.fwd, h.onwd, h.onto⟩, fun _ => rfl⟩
    intro _ v hv; cases hv; rfl

theorem readPropGrad_spec {S : Sys d m D} {s : State d m D} (h : ViewInv S s) :
    OnlyViews s (readPropGrad S s).1 ∧ ViewInv S (readPropGrad S s).1 ∧
      (s.evoCurrent = true → gradExact S = true → S.cachePropGrad = true →
        (readPropGrad S s).2 = some s.propGrad) := by
  unfold readPropGrad
  split
  · cases hv : s.views.propGrad with
    | some v => exact ⟨⟨_, rfl⟩, h, fun hc _ _ => by rw [h.propGrad hc v hv]⟩
    | none =>
      refine ⟨⟨_, rfl⟩, ⟨h.dynGen, h.prop, ?_, h.fwd, h.onwd, h.onto⟩, fun _ _ _ => rfl⟩
      intro _ v hv; cases hv; rfl
  · next hc => exact ⟨⟨_, rfl⟩, h, fun _ h1 h2 => by simp [h1, h2] at hc⟩

theorem readFwd_spec {S : Sys d m D} {s : State d m D} (h : ViewInv S s) (he : EndsOK S s) :
    OnlyViews s (readFwd S s).1 ∧ ViewInv S (readFwd S s).1 ∧
      (s.evoCurrent = true → (readFwd S s).2 = some s.fwd) := by
  have hu : (if S.isQobj then s.fwd else Function.update s.fwd 0 S.initial) = s.fwd := by
    split
    · rfl
    · rw [← he.fwd0, Function.update_eq_self]
  unfold readFwd
  cases hv : s.views.fwd with
  | some v => exact ⟨⟨_, rfl⟩, h, fun hc => by rw [h.fwd hc v hv]⟩
  | none =>
    simp only [hu]
    refine ⟨⟨_, rfl⟩, ⟨h.dynGen, h.prop, h.propGrad, ?_, h.onwd, h.onto⟩, fun _ => by trivial⟩
    intro _ v hv; cases hv; rfl

theorem readOnwd_spec {S : Sys d m D} {s : State d m D} (h : ViewInv S s) :
    OnlyViews s (readOnwd S s).1 ∧ ViewInv S (readOnwd S s).1 ∧
      (s.evoCurrent = true → usesOnwd S = true → (readOnwd S s).2 =
        some (if S.isQobj then fun k => Sum.inr (s.fwd k) else fun k => Sum.inl (s.onwd k))) := by
  unfold readOnwd
  split
  · cases hv : s.views.onwd with
    | some v => exact ⟨⟨_, rfl⟩, h, fun hc _ => by rw [h.onwd hc v hv]⟩
    | none =>
      refine ⟨⟨_, rfl⟩, ⟨h.dynGen, h.prop, h.propGrad, h.fwd, ?_, h.onto⟩, fun _ _ => rfl⟩
      intro _ v hv; cases hv; rfl
  · next hc => exact ⟨⟨_, rfl⟩, h, fun _ h1 => absurd h1 hc⟩

theorem readOnto_spec {S : Sys d m D} {s : State d m D} (h : ViewInv S s) (he : EndsOK S s) :
    OnlyViews s (readOnto S s).1 ∧ ViewInv S (readOnto S s).1 ∧
      (s.evoCurrent = true → usesOnto S = true → (readOnto S s).2 = some s.onto) := by
  have hu : (if S.isQobj then s.onto else Function.update s.onto S.nTs S.ontoTarget) = s.onto := by
    split
    · rfl
    · rw [← he.ontoN, Function.update_eq_self]
  unfold readOnto
  split
  · cases hv : s.views.onto with
    | some v => exact ⟨⟨_, rfl⟩, h, fun hc _ => by rw [h.onto hc v hv]⟩
    | none =>
      simp only [hu]
      refine ⟨⟨_, rfl⟩, ⟨h.dynGen, h.prop, h.propGrad, h.fwd, h.onwd, ?_⟩, fun _ _ => by trivial⟩
      intro _ v hv; cases hv; rfl
  · next hc => exact ⟨⟨_, rfl⟩, h, fun _ h1 => absurd h1 hc⟩

/-- The amplitudes after a mixed history. -/
def nextAmpsV (A : Option Amps) : VOp → Option Amps
  | .op o => nextAmps A o
  | _ => A

theorem vstep_inv {S : Sys d m D} (hS : Valid S) (junk : State d m D) {s : State d m D}
    {A : Option Amps} (hi : Inv S s) (hv : ViewInv S s) (hA : AmpsRel S s A) (o : VOp) :
    Inv S (vstep S junk s o) ∧ ViewInv S (vstep S junk s o) ∧
      AmpsRel S (vstep S junk s o) (nextAmpsV A o) := by
  have views : ∀ t, OnlyViews s t → ViewInv S t → Inv S t ∧ ViewInv S t ∧ AmpsRel S t A := by
    intro t ho ht
    obtain ⟨h1, h2⟩ := hi.onlyViews ho
    refine ⟨h1, ht, ?_⟩
    cases A with
    | none => exact h2.trans hA
    | some a => obtain ⟨b, hb, hs⟩ := hA; exact ⟨b, h2.trans hb, hs⟩
  cases o with
  | op o =>
    obtain ⟨_, h2, h3⟩ := step_spec hS junk hi hA o
    exact ⟨h2, step_viewInv junk hv o, h3⟩
  | readDynGen => obtain ⟨h1, h2, _⟩ := readDynGen_spec hv; exact views _ h1 h2
  | readProp => obtain ⟨h1, h2, _⟩ := readProp_spec hv; exact views _ h1 h2
  | readPropGrad => obtain ⟨h1, h2, _⟩ := readPropGrad_spec hv; exact views _ h1 h2
  | readFwd => obtain ⟨h1, h2, _⟩ := readFwd_spec hv hi.ends; exact views _ h1 h2
  | readOnwd => obtain ⟨h1, h2, _⟩ := readOnwd_spec hv; exact views _ h1 h2
  | readOnto => obtain ⟨h1, h2, _⟩ := readOnto_spec hv hi.ends; exact views _ h1 h2

theorem vrun_inv {S : Sys d m D} (hS : Valid S) (junk : State d m D) (ops : List VOp) :
    ∀ {s : State d m D} {A : Option Amps}, Inv S s → ViewInv S s → AmpsRel S s A →
    Inv S (vrun S junk s ops) ∧ ViewInv S (vrun S junk s ops) ∧
      AmpsRel S (vrun S junk s ops) (ops.foldl nextAmpsV A) := by
  induction ops with
  | nil => intro s A h1 h2 h3; exact ⟨h1, h2, h3⟩
  | cons o os ih =>
    intro s A h1 h2 h3
    obtain ⟨g1, g2, g3⟩ := vstep_inv hS junk h1 h2 h3 o
    exact ih g1 g2 g3

end QTrl.Dyn
