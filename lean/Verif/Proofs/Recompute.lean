import Verif.Proofs.Evolution

/-
`recompute_evolution` fills every container with the value prescribed by the
specification, and touches nothing else.
-/

set_option linter.unusedSectionVars false

namespace QTrl.Dyn

open QTrl.Spec

variable {d m D : Type} [Fintype d] [DecidableEq d] [Fintype m] [DecidableEq m]

/-- The decompositions flagged as current belong to the present generators. -/
def DecompOK (S : Sys d m D) (s : State d m D) : Prop :=
  ∀ k, k < S.nTs → s.decompCurr k = true → s.decomp k = S.decompose (s.dynGen k) (S.tau k)

/-- The generators are those of the amplitudes. -/
structure GenOK (S : Sys d m D) (amps : Amps) (s : State d m D) : Prop where
  dynGen : ∀ k, k < S.nTs → s.dynGen k = generator S amps k
  phased : ∀ k, k < S.nTs → getPhasedDynGen S s k = phased S (generator S amps k)

/-- Fixed end points of the evolution containers. -/
structure EndsOK (S : Sys d m D) (s : State d m D) : Prop where
  fwd0 : s.fwd 0 = S.initial
  ontoN : s.onto S.nTs = S.ontoTarget

/-- All containers hold the evolution of the amplitudes. -/
structure EvoOK (S : Sys d m D) (amps : Amps) (s : State d m D) : Prop where
  decomp : DecompOK S s
  gen : GenOK S amps s
  prop : ∀ k, k < S.nTs → s.prop k = propagator S amps k
  propGrad : gradExact S = true → S.cachePropGrad = true →
    ∀ k j, k < S.nTs → j < S.nCtrls → s.propGrad k j = propagatorGrad S amps k j
  fwd : ∀ k, k ≤ S.nTs → s.fwd k = evolution S amps 0 k * S.initial
  onwd : usesOnwd S = true → ∀ k, k < S.nTs → s.onwd k = evolution S amps k S.nTs
  onto : usesOnto S = true → ∀ k, k ≤ S.nTs → s.onto k = S.ontoTarget * evolution S amps k S.nTs

theorem ensureDecomp_form (S : Sys d m D) (s : State d m D) (k : Nat) (hk : k < S.nTs) (h : DecompOK S s) :
    ∃ dc dd, ensureDecomp S s k = { s with decompCurr := dc, decomp := dd } ∧
      DecompOK S (ensureDecomp S s k) ∧ dd k = S.decompose (s.dynGen k) (S.tau k) := by
  unfold ensureDecomp
  split
  · next hc => exact ⟨s.decompCurr, s.decomp, rfl, h, h k hk hc⟩
  · refine ⟨_, _, rfl, ?_, by simp⟩
    intro i hin hi
    by_cases hik : i = k
    · subst hik; simp
    · simp only [Function.update_of_ne hik] at hi ⊢
      exact h i hin hi

theorem computeProp_form (S : Sys d m D) (amps : Amps) (s : State d m D) (k : Nat)
    (hk : k < S.nTs) (hd : DecompOK S s) (hg : GenOK S amps s) :
    ∃ dc dd, (computeProp S s k).1 = { s with decompCurr := dc, decomp := dd } ∧
      DecompOK S (computeProp S s k).1 ∧ (computeProp S s k).2 = propagator S amps k := by
  unfold computeProp propagator
  cases hp : S.propKind with
  | diag =>
    obtain ⟨dc, dd, h1, h2, h3⟩ := ensureDecomp_form S s k hk hd
    refine ⟨dc, dd, h1, h2, ?_⟩
    simp [h1, h3, hg.dynGen k hk]
  | approx => exact ⟨_, _, rfl, hd, by simp [hg.phased k hk]⟩
  | frechet => exact ⟨_, _, rfl, hd, by simp [hg.phased k hk]⟩

theorem getPhasedCtrl_eq {S : Sys d m D} (hS : Valid S) (k j : Nat) :
    getPhasedCtrl S k j = phased S (S.ctrl k j) := by
  unfold getPhasedCtrl phased
  cases hp : S.phase with
  | none => rfl
  | some ph =>
    by_cases hc : S.cachePhased = true
    · simp only [hc, if_true]; exact hS.phasedCtrl ph hp hc k j
    · simp only [hc]; rfl

theorem computeGrad_form (S : Sys d m D) (hS : Valid S) (amps : Amps) (s : State d m D) (k j : Nat)
    (hk : k < S.nTs) (hd : DecompOK S s) (hg : GenOK S amps s) :
    ∃ dc dd, (computeGrad S s k j).1 = { s with decompCurr := dc, decomp := dd } ∧
      DecompOK S (computeGrad S s k j).1 ∧
      (computeGrad S s k j).2 = propagatorGrad S amps k j := by
  unfold computeGrad propagatorGrad
  cases hp : S.propKind with
  | diag =>
    obtain ⟨dc, dd, h1, h2, h3⟩ := ensureDecomp_form S s k hk hd
    refine ⟨dc, dd, h1, h2, ?_⟩
    simp [h1, h3, hg.dynGen k hk, getPhasedCtrl_eq hS]
  | approx => exact ⟨_, _, rfl, hd, by simp [hg.phased k hk, getPhasedCtrl_eq hS]⟩
  | frechet => exact ⟨_, _, rfl, hd, by simp [hg.phased k hk, getPhasedCtrl_eq hS]⟩

theorem GenOK.frame {S : Sys d m D} {amps : Amps} {s : State d m D} (h : GenOK S amps s)
    (t : State d m D) (h1 : t.dynGen = s.dynGen) (h2 : t.phasedDynGen = s.phasedDynGen) :
    GenOK S amps t := by
  refine ⟨fun k hk => by rw [h1]; exact h.dynGen k hk, fun k hk => ?_⟩
  have := h.phased k hk
  unfold getPhasedDynGen at this ⊢
  rw [h1, h2]; exact this

/-- The state after the generator loop. -/
theorem genLoop_form (S : Sys d m D) (amps : Amps) (s : State d m D) :
    ∃ dg pdg dc, genLoop S amps s = { s with dynGen := dg, phasedDynGen := pdg, decompCurr := dc } ∧
      GenOK S amps (genLoop S amps s) ∧ DecompOK S (genLoop S amps s) := by
  have := forRange_inv (n := S.nTs) (s := s) (b := fun k s => { s with
      dynGen := Function.update s.dynGen k (combineDynGen S amps k)
      phasedDynGen :=
        match S.phase with
        | some ph =>
          if S.cachePhased then Function.update s.phasedDynGen k (ph (combineDynGen S amps k))
          else s.phasedDynGen
        | none => s.phasedDynGen
      decompCurr := Function.update s.decompCurr k false })
    (fun i t => ∃ dg pdg dc, t = { s with dynGen := dg, phasedDynGen := pdg, decompCurr := dc } ∧
      (∀ k, k < i → dg k = generator S amps k) ∧
      (∀ k, k < i → getPhasedDynGen S t k = phased S (generator S amps k)) ∧
      (∀ k, k < i → dc k = false))
    ⟨_, _, _, rfl, by simp, by simp, by simp⟩ ?_
  · obtain ⟨dg, pdg, dc, h1, h2, h3, h4⟩ := this
    have h5 : DecompOK S (genLoop S amps s) := by
      intro k hk hc
      have : (genLoop S amps s).decompCurr k = dc k :=
        congrFun (congrArg State.decompCurr h1) k
      rw [this, h4 k hk] at hc
      cases hc
    refine ⟨dg, pdg, dc, h1, ⟨?_, h3⟩, h5⟩
    intro k hk
    have := h2 k hk
    rw [← this]
    exact congrFun (congrArg State.dynGen h1) k
  · rintro i t hi ⟨dg, pdg, dc, rfl, h2, h3, h4⟩
    refine ⟨_, _, _, rfl, ?_, ?_, ?_⟩
    · intro k hk
      by_cases hki : k = i
      · subst hki; simp [combineDynGen_spec]
      · rw [Function.update_of_ne hki]; exact h2 k (by omega)
    · intro k hk
      unfold getPhasedDynGen phased at *
      by_cases hki : k = i
      · subst hki
        cases hp : S.phase with
        | none => simp [combineDynGen_spec]
        | some ph =>
          by_cases hc : S.cachePhased <;> simp [hc, combineDynGen_spec]
      · have h3k := h3 k (by omega)
        cases hp : S.phase with
        | none => simp only [hp] at h3k ⊢; rw [Function.update_of_ne hki]; exact h3k
        | some ph =>
          by_cases hc : S.cachePhased
          · simp only [hp, hc, if_true] at h3k ⊢; rw [Function.update_of_ne hki]; exact h3k
          · simp only [hp, hc] at h3k ⊢; rw [Function.update_of_ne hki]; exact h3k
    · intro k hk
      by_cases hki : k = i
      · subst hki; simp
      · rw [Function.update_of_ne hki]
        exact h4 k (by omega)

theorem update2_self {α : Type} (a : Nat → Nat → α) (k j : Nat) (v : α) :
    update2 a k j v k j = v := by simp [update2]

theorem update2_ne {α : Type} (a : Nat → Nat → α) {k j k' j' : Nat} (v : α)
    (h : ¬ (k' = k ∧ j' = j)) : update2 a k j v k' j' = a k' j' := by
  unfold update2
  by_cases hk : k' = k
  · subst hk
    rw [Function.update_self, Function.update_of_ne (fun h' => h ⟨rfl, h'⟩)]
  · rw [Function.update_of_ne hk]

/-- One slot of the propagator loop. -/
theorem propBody_form (S : Sys d m D) (amps : Amps) (s : State d m D) (k : Nat)
    (hk : k < S.nTs) (hn : Valid S) (hd : DecompOK S s) (hg : GenOK S amps s) :
    ∃ dc dd p pg, propBody S k s =
        { s with decompCurr := dc, decomp := dd, prop := p, propGrad := pg } ∧
      DecompOK S (propBody S k s) ∧ p k = propagator S amps k ∧
      (∀ k', k' ≠ k → p k' = s.prop k') ∧
      (∀ k', k' ≠ k → pg k' = s.propGrad k') ∧
      (gradExact S = true → S.cachePropGrad = true →
        ∀ j, j < S.nCtrls → pg k j = propagatorGrad S amps k j) := by
  unfold propBody
  by_cases hc : (gradExact S && S.cachePropGrad) = true
  · rw [if_pos hc]
    have := forRange_inv (n := S.nCtrls) (s := s) (b := fun j s =>
        if j = 0 then
          let (s, p) := computeProp S s k
          let (s, g) := computeGrad S s k j
          { s with prop := Function.update s.prop k p, propGrad := update2 s.propGrad k j g }
        else
          let (s, g) := computeGrad S s k j
          { s with propGrad := update2 s.propGrad k j g })
      (fun i t => ∃ dc dd p pg,
        t = { s with decompCurr := dc, decomp := dd, prop := p, propGrad := pg } ∧
        DecompOK S t ∧ (0 < i → p k = propagator S amps k) ∧
        (∀ k', k' ≠ k → p k' = s.prop k') ∧
        (∀ k', k' ≠ k → pg k' = s.propGrad k') ∧
        (∀ j, j < i → pg k j = propagatorGrad S amps k j))
      ⟨_, _, _, _, rfl, hd, by simp, by simp, by simp, by simp⟩ ?_
    · obtain ⟨dc, dd, p, pg, h1, h2, h3, h4, h5, h6⟩ := this
      exact ⟨dc, dd, p, pg, h1, h2, h3 hn.ctrls, h4, h5, fun _ _ => h6⟩
    · rintro i t hi ⟨dc, dd, p, pg, rfl, h2, h3, h4, h5, h6⟩
      have hg' : GenOK S amps { s with decompCurr := dc, decomp := dd, prop := p, propGrad := pg } :=
        hg.frame _ rfl rfl
      have hpg : ∀ (v : Matrix d d ℂ) j, v = propagatorGrad S amps k i → j < i + 1 →
          update2 pg k i v k j = propagatorGrad S amps k j := by
        intro v j hv hj
        by_cases hji : j = i
        · subst hji; rw [update2_self, hv]
        · rw [update2_ne _ _ (by omega)]; exact h6 j (by omega)
      have hpg' : ∀ (v : Matrix d d ℂ) k', k' ≠ k → update2 pg k i v k' = s.propGrad k' := by
        intro v k' hk'
        rw [update2, Function.update_of_ne hk']; exact h5 k' hk'
      by_cases hi0 : i = 0
      · rw [if_pos hi0]
        obtain ⟨dc1, dd1, e1, o1, v1⟩ := computeProp_form S amps _ k hk h2 hg'
        have hg1 := hg'.frame (computeProp S
          { s with decompCurr := dc, decomp := dd, prop := p, propGrad := pg } k).1
          (by rw [e1]) (by rw [e1])
        obtain ⟨dc2, dd2, e2, o2, v2⟩ := computeGrad_form S hn amps _ k i hk o1 hg1
        generalize hA : computeProp S
          { s with decompCurr := dc, decomp := dd, prop := p, propGrad := pg } k = A at *
        obtain ⟨A1, A2⟩ := A
        simp only at *
        generalize hB : computeGrad S A1 k i = B at *
        obtain ⟨B1, B2⟩ := B
        simp only at *
        subst v1 v2
        rw [e1] at e2
        simp only at e2
        refine ⟨dc2, dd2, Function.update p k (propagator S amps k),
          update2 pg k i (propagatorGrad S amps k i), ?_, ?_, ?_, ?_, ?_, ?_⟩
        · rw [e2]
        · intro k' hn' h'; exact o2 k' hn' h'
        · intro _; simp
        · intro k' hk'; rw [Function.update_of_ne hk']; exact h4 k' hk'
        · exact hpg' _
        · intro j hj; exact hpg _ j rfl hj
      · rw [if_neg hi0]
        obtain ⟨dc2, dd2, e2, o2, v2⟩ := computeGrad_form S hn amps _ k i hk h2 hg'
        generalize hB : computeGrad S
          { s with decompCurr := dc, decomp := dd, prop := p, propGrad := pg } k i = B at *
        obtain ⟨B1, B2⟩ := B
        simp only at *
        subst v2
        refine ⟨dc2, dd2, p, update2 pg k i (propagatorGrad S amps k i), ?_, ?_, ?_, ?_, ?_, ?_⟩
        · rw [e2]
        · intro k' hn' h'; exact o2 k' hn' h'
        · intro _; exact h3 (by omega)
        · exact h4
        · exact hpg' _
        · intro j hj; exact hpg _ j rfl hj
  · rw [if_neg hc]
    obtain ⟨dc1, dd1, e1, o1, v1⟩ := computeProp_form S amps _ k hk hd hg
    generalize hA : computeProp S s k = A at *
    obtain ⟨A1, A2⟩ := A
    simp only at *
    subst v1
    refine ⟨dc1, dd1, Function.update s.prop k (propagator S amps k), s.propGrad, ?_, ?_, ?_, ?_,
      ?_, ?_⟩
    · rw [e1]
    · intro k' hn' h'; exact o1 k' hn' h'
    · simp
    · intro k' hk'; rw [Function.update_of_ne hk']
    · intro k' _; rfl
    · intro h1 h2; simp [h1, h2] at hc

/-- The propagator loop. -/
theorem propLoop_form (S : Sys d m D) (amps : Amps) (s : State d m D)
    (hn : Valid S) (hd : DecompOK S s) (hg : GenOK S amps s) :
    ∃ dc dd p pg, forRange S.nTs (propBody S) s =
        { s with decompCurr := dc, decomp := dd, prop := p, propGrad := pg } ∧
      DecompOK S (forRange S.nTs (propBody S) s) ∧
      (∀ k, k < S.nTs → p k = propagator S amps k) ∧
      (gradExact S = true → S.cachePropGrad = true →
        ∀ k j, k < S.nTs → j < S.nCtrls → pg k j = propagatorGrad S amps k j) := by
  have := forRange_inv (n := S.nTs) (b := propBody S) (s := s) (fun i t => ∃ dc dd p pg,
      t = { s with decompCurr := dc, decomp := dd, prop := p, propGrad := pg } ∧
      DecompOK S t ∧ (∀ k, k < i → p k = propagator S amps k) ∧
      (gradExact S = true → S.cachePropGrad = true →
        ∀ k j, k < i → j < S.nCtrls → pg k j = propagatorGrad S amps k j))
    ⟨_, _, _, _, rfl, hd, by simp, by simp⟩ ?_
  · exact this
  · rintro i t hi ⟨dc, dd, p, pg, rfl, h2, h3, h4⟩
    obtain ⟨dc', dd', p', pg', e, o, e1, e2, e3, e4⟩ :=
      propBody_form S amps _ i hi hn h2 (hg.frame _ rfl rfl)
    refine ⟨dc', dd', p', pg', e, o, ?_, ?_⟩
    · intro k hk
      by_cases hki : k = i
      · subst hki; exact e1
      · rw [e2 k hki]; exact h3 k (by omega)
    · intro g1 g2 k j hk hj
      by_cases hki : k = i
      · subst hki; exact e4 g1 g2 j hj
      · rw [e3 k hki]; exact h4 g1 g2 k j (by omega) hj

/-- `recompute_evolution` from any state. -/
theorem recompute_form (S : Sys d m D) (amps : Amps) (s : State d m D)
    (hn : Valid S) (he : EndsOK S s) :
    ∃ dg pdg dc dd p pg f ow ot, recompute S amps s =
        { s with numRecompute := s.numRecompute + 1, views := {}, dynGen := dg, phasedDynGen := pdg,
                 decompCurr := dc, decomp := dd, prop := p, propGrad := pg, fwd := f,
                 onwd := ow, onto := ot } ∧
      EndsOK S (recompute S amps s) ∧
      EvoOK S amps (recompute S amps s) := by
  obtain ⟨dg, pdg, dc, e1, g1, d1⟩ :=
    genLoop_form S amps { s with numRecompute := s.numRecompute + 1, views := {} }
  obtain ⟨dc', dd, p, pg, e2, d2, v1, v2⟩ := propLoop_form S amps _ hn d1 g1
  have hfwd := fwdLoop_spec S.nTs p s.fwd
  have honwd := onwdLoop_spec S.nTs p s.onwd
  have honto := ontoLoop_spec S.nTs p s.onto
  have hpr : ∀ lo hi, hi ≤ S.nTs → timeOrdered p lo hi = evolution S amps lo hi :=
    fun lo hi h => timeOrdered_congr fun k _ hk => v1 k (by omega)
  rw [e1] at e2 g1
  have e3 : recompute S amps s =
      { s with numRecompute := s.numRecompute + 1, views := {}, dynGen := dg, phasedDynGen := pdg,
               decompCurr := dc', decomp := dd, prop := p, propGrad := pg,
               fwd := fwdLoop S.nTs p s.fwd,
               onwd := if usesOnwd S then onwdLoop S.nTs p s.onwd else s.onwd,
               onto := if usesOnto S then ontoLoop S.nTs p s.onto else s.onto } := by
    unfold recompute
    simp only [e1, e2]
    by_cases h1 : usesOnwd S <;> by_cases h2 : usesOnto S <;> simp [h1, h2]
  refine ⟨_, _, _, _, _, _, _, _, _, e3, ?_, ?_⟩
  · rw [e3]
    refine ⟨?_, ?_⟩
    · show fwdLoop S.nTs p s.fwd 0 = _
      rw [hfwd 0 (Nat.zero_le _), timeOrdered_self, Matrix.one_mul, he.fwd0]
    · show (if usesOnto S then ontoLoop S.nTs p s.onto else s.onto) S.nTs = _
      by_cases h2 : usesOnto S
      · rw [if_pos h2, honto _ (Nat.le_refl _), timeOrdered_self, Matrix.mul_one, he.ontoN]
      · rw [if_neg h2, he.ontoN]
  · rw [e3]
    rw [e1, e2] at d2
    refine ⟨fun k hk hc => d2 k hk hc, g1.frame _ rfl rfl, v1, v2, ?_, ?_, ?_⟩
    · intro k hk
      show fwdLoop S.nTs p s.fwd k = _
      rw [hfwd k hk, he.fwd0, hpr 0 k hk]
    · intro h k hk
      show (if usesOnwd S then onwdLoop S.nTs p s.onwd else s.onwd) k = _
      rw [if_pos h, honwd k hk, hpr k _ (Nat.le_refl _)]
    · intro h k hk
      show (if usesOnto S then ontoLoop S.nTs p s.onto else s.onto) k = _
      rw [if_pos h, honto k hk, he.ontoN, hpr k _ (Nat.le_refl _)]

end QTrl.Dyn
