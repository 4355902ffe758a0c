import Verif.Model.DynUpdate
import Verif.Spec.Evolution
import Verif.Proofs.Loop
import Verif.Proofs.Evolution

/- Mask invariant of the dynamic-update timeslot computer. -/

namespace QTrl.DynUpdate

open QTrl.Dyn

variable {d m D : Type} [Fintype d] [DecidableEq d] [Fintype m] [DecidableEq m]

set_option linter.unusedSectionVars false

/-- Every operator that is not marked for recalculation has its value at the
amplitudes `a`. -/
structure Current (S : Sys d m D) (a : Amps) (s : UState d m) : Prop where
  gen : ∀ k < S.nTs, s.recalc.gen k = false → s.dynGen k = Spec.generator S a k
  prop : ∀ k < S.nTs, s.recalc.prop k = false → s.prop k = Spec.propagator S a k
  fwd : ∀ k ≤ S.nTs, s.recalc.fwd k = false → s.fwd k = Spec.evolution S a 0 k * S.initial
  onto : ∀ k ≤ S.nTs, s.recalc.onto k = false →
    s.onto k = S.ontoTarget * Spec.evolution S a k S.nTs

/-- The invariant: the end points are never marked, and unmarked operators are
current for the present amplitudes (for all amplitudes while there are none). -/
structure Inv (S : Sys d m D) (s : UState d m) : Prop where
  fwd0 : s.recalc.fwd 0 = false
  ontoN : s.recalc.onto S.nTs = false
  current : ∀ a, (∀ b, s.ctrlAmps = some b → b = a) → Current S a s

theorem evolution_self (S : Sys d m D) (a : Amps) (k : Nat) : Spec.evolution S a k k = 1 :=
  timeOrdered_self _ k

theorem initComp_inv (S : Sys d m D) (junk : UState d m) : Inv S (initComp S junk) := by
  refine ⟨by simp [initComp], by simp [initComp], ?_⟩
  intro a _
  refine ⟨?_, ?_, ?_, ?_⟩
  · intro k _ h; simp [initComp] at h
  · intro k _ h; simp [initComp] at h
  · intro k _ h
    by_cases hk : k = 0
    · subst hk; simp [initComp, evolution_self]
    · simp [initComp, Function.update_of_ne hk] at h
  · intro k _ h
    by_cases hk : k = S.nTs
    · subst hk; simp [initComp, evolution_self]
    · simp [initComp, Function.update_of_ne hk] at h

/-! ### changes of amplitudes -/

theorem firstLast_spec (n : Nat) (c : Nat → Bool) (h : (List.range n).any c = true) :
    ∃ f l, firstLast n c = (some f, l) ∧ f < n ∧ c f = true ∧ (∀ i < f, c i = false) ∧
      l < n ∧ c l = true ∧ ∀ i, l < i → i < n → c i = false := by
  have key : (((∀ i < n, c i = false) ∧ firstLast n c = (none, 0)) ∨
      ∃ f l, firstLast n c = (some f, l) ∧ f < n ∧ c f = true ∧ (∀ i < f, c i = false) ∧
        l < n ∧ c l = true ∧ ∀ i, l < i → i < n → c i = false) := by
    unfold firstLast
    refine forRange_inv (P := fun n fl => ((∀ i < n, c i = false) ∧ fl = (none, 0)) ∨
      ∃ f l, fl = (some f, l) ∧ f < n ∧ c f = true ∧ (∀ i < f, c i = false) ∧
        l < n ∧ c l = true ∧ ∀ i, l < i → i < n → c i = false) (Or.inl ⟨by simp, rfl⟩) ?_
    intro k fl _ hfl
    by_cases hk : c k = true
    · right
      rcases hfl with ⟨h1, rfl⟩ | ⟨f, l, rfl, hf, hcf, hlt, hl, hcl, hgt⟩
      · exact ⟨k, k, by simp [hk], by omega, hk, h1, by omega, hk, fun i h1 h2 => by omega⟩
      · exact ⟨f, k, by simp [hk], by omega, hcf, hlt, by omega, hk, fun i h1 h2 => by omega⟩
    · have hk' : c k = false := by simpa using hk
      rcases hfl with ⟨h1, rfl⟩ | ⟨f, l, rfl, hf, hcf, hlt, hl, hcl, hgt⟩
      · left
        refine ⟨fun i hi => ?_, by simp [hk']⟩
        rcases Nat.lt_succ_iff_lt_or_eq.mp hi with h | rfl
        · exact h1 i h
        · exact hk'
      · right
        refine ⟨f, l, by simp [hk'], by omega, hcf, hlt, by omega, hcl, fun i h1 h2 => ?_⟩
        rcases Nat.lt_succ_iff_lt_or_eq.mp h2 with h | rfl
        · exact hgt i h1 h
        · exact hk'
  rcases key with ⟨h1, _⟩ | h2
  · exfalso
    rw [List.any_eq_true] at h
    obtain ⟨x, hx, hc⟩ := h
    rw [h1 x (List.mem_range.mp hx)] at hc
    cases hc
  · exact h2

theorem generator_congr (S : Sys d m D) {a b : Amps} {k : Nat}
    (h : ∀ j < S.nCtrls, a k j = b k j) : Spec.generator S a k = Spec.generator S b k := by
  unfold Spec.generator
  congr 1
  refine Finset.sum_congr rfl fun j hj => ?_
  rw [h j (Finset.mem_range.mp hj)]

theorem propagator_congr (S : Sys d m D) {a b : Amps} {k : Nat}
    (h : ∀ j < S.nCtrls, a k j = b k j) : Spec.propagator S a k = Spec.propagator S b k := by
  unfold Spec.propagator
  rw [generator_congr S h]

theorem evolution_congr (S : Sys d m D) {a b : Amps} {lo hi : Nat}
    (h : ∀ k, lo ≤ k → k < hi → ∀ j < S.nCtrls, a k j = b k j) :
    Spec.evolution S a lo hi = Spec.evolution S b lo hi :=
  timeOrdered_congr fun k h1 h2 => propagator_congr S (h k h1 h2)

/-- A slot that is not in the mask has the same amplitudes. -/
theorem changedMask_false {S : Sys d m D} {a new : Amps} {k : Nat}
    (h : changedMask S (some a) new k = false) : ∀ j < S.nCtrls, a k j = new k j := by
  intro j hj
  by_contra hne
  have : changedMask S (some a) new k = true := by
    simp only [changedMask, List.any_eq_true]
    exact ⟨j, List.mem_range.mpr hj, by simpa using hne⟩
  rw [h] at this
  cases this

theorem compareAmps_inv {S : Sys d m D} {s : UState d m} (hs : Inv S s) (new : Amps) :
    Inv S (compareAmps S s new).1 := by
  unfold compareAmps
  simp only
  split
  case isFalse => exact hs
  case isTrue hany =>
    obtain ⟨f, l, hfl, hf, hcf, hlt, hl, hcl, hgt⟩ := firstLast_spec S.nTs _ hany
    rw [hfl]
    refine ⟨by simp [hs.fwd0], by simp [hs.ontoN, hl], ?_⟩
    intro a ha
    have : new = a := ha new rfl
    subst this
    -- the unchanged slots: either there were no amplitudes, or they agree
    obtain ⟨b, hb, hsame⟩ : ∃ b, Current S b s ∧
        ∀ k, changedMask S s.ctrlAmps new k = false → ∀ j < S.nCtrls, b k j = new k j := by
      cases hca : s.ctrlAmps with
      | none => exact ⟨new, hs.current new (by simp [hca]), fun _ _ _ _ => rfl⟩
      | some b => exact ⟨b, hs.current b (by simp [hca]), fun k hk => changedMask_false hk⟩
    refine ⟨?_, ?_, ?_, ?_⟩
    · intro k hk h
      simp only [Bool.or_eq_false_iff] at h
      rw [← generator_congr S (hsame k h.2)]
      exact hb.gen k hk h.1
    · intro k hk h
      simp only [Bool.or_eq_false_iff] at h
      rw [← propagator_congr S (hsame k h.2)]
      exact hb.prop k hk h.1
    · intro k hk h
      simp only [Bool.or_eq_false_iff, decide_eq_false_iff_not, Option.getD_some] at h
      rw [← evolution_congr S (fun i _ hi => hsame i (hlt i (by omega)))]
      exact hb.fwd k hk h.1
    · intro k hk h
      simp only [Bool.or_eq_false_iff, decide_eq_false_iff_not] at h
      rw [← evolution_congr S (fun i hi hi' => hsame i (hgt i (by omega) hi'))]
      exact hb.onto k hk h.1

/-! ### the marks of a recomputation -/

theorem fwdNow_spec (n : Nat) (s : UState d m) :
    (∀ k, s.now.fwd k = true → s.recalc.fwd k = true → fwdNow n s k = true) ∧
    (∀ k, fwdNow n s k = true → s.recalc.fwd k = true) ∧
    (∀ k < n, fwdNow n s (k + 1) = true → s.recalc.fwd k = true → fwdNow n s k = true) := by
  have := forDown_inv (n := n)
    (b := fun k now =>
      if now (k + 1) && s.recalc.fwd k then Function.update now k true else now)
    (s := fun k => s.now.fwd k && s.recalc.fwd k)
    (P := fun i now =>
      (∀ k, s.now.fwd k = true → s.recalc.fwd k = true → now k = true) ∧
      (∀ k, now k = true → s.recalc.fwd k = true) ∧
      (∀ k, i ≤ k → k < n → now (k + 1) = true → s.recalc.fwd k = true → now k = true))
    ⟨fun k h1 h2 => by simp [h1, h2], fun k h => by simp at h; exact h.2,
      fun k h1 h2 => by omega⟩ ?_
  · exact ⟨this.1, this.2.1, fun k hk => this.2.2 k (Nat.zero_le k) hk⟩
  · rintro k now hk ⟨h1, h2, h3⟩
    by_cases hc : (now (k + 1) && s.recalc.fwd k) = true
    · rw [if_pos hc]
      rw [Bool.and_eq_true] at hc
      refine ⟨fun i hi hr => ?_, fun i hi => ?_, fun i hi hin hn hr => ?_⟩
      · by_cases hik : i = k
        · subst hik; simp
        · rw [Function.update_of_ne hik]; exact h1 i hi hr
      · by_cases hik : i = k
        · subst hik; exact hc.2
        · rw [Function.update_of_ne hik] at hi; exact h2 i hi
      · by_cases hik : i = k
        · subst hik; simp
        · rw [Function.update_of_ne hik]
          rw [Function.update_of_ne (by omega)] at hn
          exact h3 i (by omega) hin hn hr
    · rw [if_neg hc]
      refine ⟨h1, h2, fun i hi hin hn hr => ?_⟩
      by_cases hik : i = k
      · subst hik; exact absurd (by simp [hn, hr]) hc
      · exact h3 i (by omega) hin hn hr

theorem ontoNow_spec (n : Nat) (s : UState d m) :
    (∀ k, s.now.onto k = true → s.recalc.onto k = true → ontoNow n s k = true) ∧
    (∀ k, ontoNow n s k = true → s.recalc.onto k = true) ∧
    (∀ k < n, ontoNow n s k = true → s.recalc.onto (k + 1) = true →
      ontoNow n s (k + 1) = true) := by
  have := forRange_inv (n := n)
    (b := fun k now =>
      if now k && s.recalc.onto (k + 1) then Function.update now (k + 1) true else now)
    (s := fun k => s.now.onto k && s.recalc.onto k)
    (P := fun i now =>
      (∀ k, s.now.onto k = true → s.recalc.onto k = true → now k = true) ∧
      (∀ k, now k = true → s.recalc.onto k = true) ∧
      (∀ k < i, now k = true → s.recalc.onto (k + 1) = true → now (k + 1) = true))
    ⟨fun k h1 h2 => by simp [h1, h2], fun k h => by simp at h; exact h.2,
      fun k h1 => by omega⟩ ?_
  · exact this
  · rintro k now hk ⟨h1, h2, h3⟩
    by_cases hc : (now k && s.recalc.onto (k + 1)) = true
    · rw [if_pos hc]
      rw [Bool.and_eq_true] at hc
      refine ⟨fun i hi hr => ?_, fun i hi => ?_, fun i hi hn hr => ?_⟩
      · by_cases hik : i = k + 1
        · subst hik; simp
        · rw [Function.update_of_ne hik]; exact h1 i hi hr
      · by_cases hik : i = k + 1
        · subst hik; exact hc.2
        · rw [Function.update_of_ne hik] at hi; exact h2 i hi
      · by_cases hik : i = k
        · subst hik; simp
        · rw [Function.update_of_ne (by omega)]
          rw [Function.update_of_ne (by omega)] at hn
          exact h3 i (by omega) hn hr
    · rw [if_neg hc]
      refine ⟨h1, h2, fun i hi hn hr => ?_⟩
      by_cases hik : i = k
      · subst hik; exact absurd (by simp [hn, hr]) hc
      · exact h3 i (by omega) hn hr

/-! ### the loops of a recomputation -/

theorem genStep_eq (S : Sys d m D) (a : Amps) (g : Nat → Bool) (s : UState d m) :
    genStep S a g s = { s with
      dynGen := fun k => if k < S.nTs ∧ g k = true then combineDynGen S a k else s.dynGen k
      recalc := { s.recalc with
        gen := fun k => if k < S.nTs ∧ g k = true then false else s.recalc.gen k } } := by
  unfold genStep
  refine forRange_inv (s := s) (P := fun n t => t = { s with
      dynGen := fun k => if k < n ∧ g k = true then combineDynGen S a k else s.dynGen k
      recalc := { s.recalc with
        gen := fun k => if k < n ∧ g k = true then false else s.recalc.gen k } }) (by simp) ?_
  rintro k t _ rfl
  by_cases hg : g k = true
  · rw [if_pos hg]
    congr 1
    · funext i
      by_cases hi : i = k
      · subst hi; simp [hg]
      · rw [Function.update_of_ne hi]
        exact if_congr (by constructor <;> rintro ⟨h1, h2⟩ <;> exact ⟨by omega, h2⟩) rfl rfl
    · simp only [Masks.mk.injEq, and_true]
      funext i
      by_cases hi : i = k
      · subst hi; simp [hg]
      · rw [Function.update_of_ne hi]
        exact if_congr (by constructor <;> rintro ⟨h1, h2⟩ <;> exact ⟨by omega, h2⟩) rfl rfl
  · rw [if_neg hg]
    have e : ∀ i, (i < k ∧ g i = true) ↔ (i < k + 1 ∧ g i = true) := by
      intro i
      constructor
      · rintro ⟨h1, h2⟩; exact ⟨by omega, h2⟩
      · rintro ⟨h1, h2⟩
        refine ⟨?_, h2⟩
        rcases Nat.lt_succ_iff_lt_or_eq.mp h1 with h | rfl
        · exact h
        · exact absurd h2 hg
    simp only [e]

theorem propStep_eq (S : Sys d m D) (p : Nat → Bool) (s : UState d m) :
    propStep S p s = { s with
      prop := fun k => if k < S.nTs ∧ p k = true then propOf S k (s.dynGen k) else s.prop k
      recalc := { s.recalc with
        prop := fun k => if k < S.nTs ∧ p k = true then false else s.recalc.prop k } } := by
  unfold propStep
  refine forRange_inv (s := s) (P := fun n t => t = { s with
      prop := fun k => if k < n ∧ p k = true then propOf S k (s.dynGen k) else s.prop k
      recalc := { s.recalc with
        prop := fun k => if k < n ∧ p k = true then false else s.recalc.prop k } }) (by simp) ?_
  rintro k t _ rfl
  by_cases hg : p k = true
  · rw [if_pos hg]
    congr 1
    · funext i
      by_cases hi : i = k
      · subst hi; simp [hg]
      · rw [Function.update_of_ne hi]
        exact if_congr (by constructor <;> rintro ⟨h1, h2⟩ <;> exact ⟨by omega, h2⟩) rfl rfl
    · simp only [Masks.mk.injEq, and_true, true_and]
      funext i
      by_cases hi : i = k
      · subst hi; simp [hg]
      · rw [Function.update_of_ne hi]
        exact if_congr (by constructor <;> rintro ⟨h1, h2⟩ <;> exact ⟨by omega, h2⟩) rfl rfl
  · rw [if_neg hg]
    have e : ∀ i, (i < k ∧ p i = true) ↔ (i < k + 1 ∧ p i = true) := by
      intro i
      constructor
      · rintro ⟨h1, h2⟩; exact ⟨by omega, h2⟩
      · rintro ⟨h1, h2⟩
        refine ⟨?_, h2⟩
        rcases Nat.lt_succ_iff_lt_or_eq.mp h1 with h | rfl
        · exact h
        · exact absurd h2 hg
    simp only [e]

theorem propOf_generator (S : Sys d m D) (a : Amps) (k : Nat) :
    propOf S k (Spec.generator S a k) = Spec.propagator S a k := by
  unfold propOf Spec.propagator Spec.phased
  cases S.propKind <;> simp <;> cases S.phase <;> rfl

/-- Forward loop: marked operators become current, everything else stays. -/
theorem fwdStep_spec {S : Sys d m D} {a : Amps} {f : Nat → Bool} {s : UState d m}
    (h0 : s.recalc.fwd 0 = false)
    (hcur : ∀ k ≤ S.nTs, s.recalc.fwd k = false →
      s.fwd k = Spec.evolution S a 0 k * S.initial)
    (hp : ∀ k < S.nTs, f (k + 1) = true → s.prop k = Spec.propagator S a k)
    (hc : ∀ k < S.nTs, f (k + 1) = true → s.recalc.fwd k = true → f k = true) :
    ∃ fw, fwdStep S f s = { s with
        fwd := fw
        recalc := { s.recalc with
          fwd := fun k => if 1 ≤ k ∧ k ≤ S.nTs ∧ f k = true then false
            else s.recalc.fwd k } } ∧
      (∀ k ≤ S.nTs, (s.recalc.fwd k = false ∨ f k = true ∧ 1 ≤ k) →
        fw k = Spec.evolution S a 0 k * S.initial) ∧
      (∀ k, ¬ (1 ≤ k ∧ k ≤ S.nTs ∧ f k = true) → fw k = s.fwd k) := by
  have := forRange_inv (n := S.nTs)
    (b := fun k (s : UState d m) =>
      if f (k + 1) then { s with
        fwd := Function.update s.fwd (k + 1) (s.prop k * s.fwd k)
        recalc := { s.recalc with fwd := Function.update s.recalc.fwd (k + 1) false } }
      else s) (s := s)
    (P := fun n t => ∃ fw, t = { s with
        fwd := fw
        recalc := { s.recalc with
          fwd := fun k => if 1 ≤ k ∧ k ≤ n ∧ f k = true then false else s.recalc.fwd k } } ∧
      (∀ k ≤ S.nTs, (s.recalc.fwd k = false ∨ f k = true ∧ 1 ≤ k ∧ k ≤ n) →
        fw k = Spec.evolution S a 0 k * S.initial) ∧
      (∀ k, ¬ (1 ≤ k ∧ k ≤ n ∧ f k = true) → fw k = s.fwd k))
    ⟨s.fwd, by
      have : (fun k => if 1 ≤ k ∧ k ≤ 0 ∧ f k = true then false else s.recalc.fwd k) =
          s.recalc.fwd := by
        funext k
        rw [if_neg (fun h => by omega)]
      rw [this], fun k hk h => by
        rcases h with h | ⟨_, h1, h2⟩
        · exact hcur k hk h
        · omega, fun _ _ => rfl⟩ ?_
  · obtain ⟨fw, h1, h2, h3⟩ := this
    refine ⟨fw, h1, fun k hk h => h2 k hk ?_, h3⟩
    rcases h with h | ⟨h1, h2⟩
    · exact Or.inl h
    · exact Or.inr ⟨h1, h2, hk⟩
  · rintro k t hk ⟨fw, rfl, h1, h2⟩
    by_cases hf : f (k + 1) = true
    · rw [if_pos hf]
      have hk1 : fw k = Spec.evolution S a 0 k * S.initial := by
        refine h1 k hk.le ?_
        by_cases hr : s.recalc.fwd k = true
        · have hfk := hc k hk hf hr
          refine Or.inr ⟨hfk, ?_, le_rfl⟩
          rcases Nat.eq_zero_or_pos k with rfl | h
          · rw [h0] at hr; cases hr
          · exact h
        · exact Or.inl (by simpa using hr)
      have hval : s.prop k * fw k = Spec.evolution S a 0 (k + 1) * S.initial := by
        rw [hp k hk hf, hk1, ← Matrix.mul_assoc]
        congr 1
        exact (timeOrdered_succ _ (Nat.zero_le k)).symm
      refine ⟨Function.update fw (k + 1) (s.prop k * fw k), ?_, ?_, ?_⟩
      · have e2 : Function.update (fun k' => if 1 ≤ k' ∧ k' ≤ k ∧ f k' = true then false
            else s.recalc.fwd k') (k + 1) false = fun k' =>
            if 1 ≤ k' ∧ k' ≤ k + 1 ∧ f k' = true then false else s.recalc.fwd k' := by
          funext i
          by_cases hi : i = k + 1
          · subst hi; simp [hf]
          · rw [Function.update_of_ne hi]
            exact if_congr (by constructor <;> rintro ⟨a, b, c⟩ <;> exact ⟨a, by omega, c⟩) rfl rfl
        rw [← e2]
      · intro i hi hor
        by_cases hik : i = k + 1
        · subst hik
          rw [Function.update_self]
          exact hval
        · rw [Function.update_of_ne hik]
          refine h1 i hi ?_
          rcases hor with h | ⟨h, h', h''⟩
          · exact Or.inl h
          · exact Or.inr ⟨h, h', by omega⟩
      · intro i hi
        have hik : i ≠ k + 1 := by
          rintro rfl
          exact hi ⟨by omega, le_rfl, hf⟩
        rw [Function.update_of_ne hik]
        exact h2 i fun ⟨x, y, z⟩ => hi ⟨x, by omega, z⟩
    · rw [if_neg hf]
      have e : ∀ i, (1 ≤ i ∧ i ≤ k + 1 ∧ f i = true) ↔ (1 ≤ i ∧ i ≤ k ∧ f i = true) := by
        intro i
        constructor
        · rintro ⟨x, y, z⟩
          refine ⟨x, ?_, z⟩
          by_contra hlt
          have : i = k + 1 := by omega
          subst this
          exact hf z
        · rintro ⟨x, y, z⟩; exact ⟨x, by omega, z⟩
      refine ⟨fw, ?_, ?_, ?_⟩
      · simp only [e]
      · intro i hi hor
        refine h1 i hi ?_
        rcases hor with h | ⟨x, y, z⟩
        · exact Or.inl h
        · exact Or.inr ⟨x, ((e i).mp ⟨y, z, x⟩).1, ((e i).mp ⟨y, z, x⟩).2.1⟩
      · intro i hi
        exact h2 i fun h => hi ((e i).mpr h)

/-- Onward loop: marked operators become current, everything else stays. -/
theorem ontoStep_spec {S : Sys d m D} {a : Amps} {o : Nat → Bool} {s : UState d m}
    (hn : s.recalc.onto S.nTs = false)
    (hcur : ∀ k ≤ S.nTs, s.recalc.onto k = false →
      s.onto k = S.ontoTarget * Spec.evolution S a k S.nTs)
    (hp : ∀ k < S.nTs, o k = true → s.prop k = Spec.propagator S a k)
    (hc : ∀ k < S.nTs, o k = true → s.recalc.onto (k + 1) = true → o (k + 1) = true) :
    ∃ fw, ontoStep S o s = { s with
        onto := fw
        recalc := { s.recalc with
          onto := fun k => if k < S.nTs ∧ o k = true then false else s.recalc.onto k } } ∧
      (∀ k ≤ S.nTs, (s.recalc.onto k = false ∨ o k = true ∧ k < S.nTs) →
        fw k = S.ontoTarget * Spec.evolution S a k S.nTs) ∧
      (∀ k, ¬ (k < S.nTs ∧ o k = true) → fw k = s.onto k) := by
  have := forDown_inv (n := S.nTs)
    (b := fun k (s : UState d m) =>
      if o k then { s with
        onto := Function.update s.onto k (s.onto (k + 1) * s.prop k)
        recalc := { s.recalc with onto := Function.update s.recalc.onto k false } }
      else s) (s := s)
    (P := fun n t => ∃ fw, t = { s with
        onto := fw
        recalc := { s.recalc with
          onto := fun k => if n ≤ k ∧ k < S.nTs ∧ o k = true then false
            else s.recalc.onto k } } ∧
      (∀ k ≤ S.nTs, (s.recalc.onto k = false ∨ o k = true ∧ n ≤ k ∧ k < S.nTs) →
        fw k = S.ontoTarget * Spec.evolution S a k S.nTs) ∧
      (∀ k, ¬ (n ≤ k ∧ k < S.nTs ∧ o k = true) → fw k = s.onto k))
    ⟨s.onto, by
      have : (fun k => if S.nTs ≤ k ∧ k < S.nTs ∧ o k = true then false
          else s.recalc.onto k) = s.recalc.onto := by
        funext k
        rw [if_neg (fun h => by omega)]
      rw [this], fun k hk h => by
        rcases h with h | ⟨_, h1, h2⟩
        · exact hcur k hk h
        · omega, fun _ _ => rfl⟩ ?_
  · simp only [Nat.zero_le, true_and] at this
    exact this
  · rintro k t hk ⟨fw, rfl, h1, h2⟩
    by_cases hf : o k = true
    · rw [if_pos hf]
      have hk1 : fw (k + 1) = S.ontoTarget * Spec.evolution S a (k + 1) S.nTs := by
        refine h1 (k + 1) hk ?_
        by_cases hr : s.recalc.onto (k + 1) = true
        · have hfk := hc k hk hf hr
          refine Or.inr ⟨hfk, le_rfl, ?_⟩
          rcases Nat.lt_or_ge (k + 1) S.nTs with h | h
          · exact h
          · have : k + 1 = S.nTs := by omega
            rw [this, hn] at hr; cases hr
        · exact Or.inl (by simpa using hr)
      have hval : fw (k + 1) * s.prop k = S.ontoTarget * Spec.evolution S a k S.nTs := by
        rw [hp k hk hf, hk1, Matrix.mul_assoc]
        congr 1
        exact (timeOrdered_pred _ hk).symm
      refine ⟨Function.update fw k (fw (k + 1) * s.prop k), ?_, ?_, ?_⟩
      · have e2 : Function.update (fun k' => if k + 1 ≤ k' ∧ k' < S.nTs ∧ o k' = true
            then false else s.recalc.onto k') k false = fun k' =>
            if k ≤ k' ∧ k' < S.nTs ∧ o k' = true then false else s.recalc.onto k' := by
          funext i
          by_cases hi : i = k
          · subst hi; simp [hf, hk]
          · rw [Function.update_of_ne hi]
            exact if_congr (by constructor <;> rintro ⟨a, b, c⟩ <;> exact ⟨by omega, b, c⟩) rfl rfl
        rw [← e2]
      · intro i hi hor
        by_cases hik : i = k
        · subst hik
          rw [Function.update_self]
          exact hval
        · rw [Function.update_of_ne hik]
          refine h1 i hi ?_
          rcases hor with h | ⟨h, h', h''⟩
          · exact Or.inl h
          · exact Or.inr ⟨h, by omega, h''⟩
      · intro i hi
        have hik : i ≠ k := by
          rintro rfl
          exact hi ⟨le_rfl, hk, hf⟩
        rw [Function.update_of_ne hik]
        exact h2 i fun ⟨x, y, z⟩ => hi ⟨by omega, y, z⟩
    · rw [if_neg hf]
      have e : ∀ i, (k ≤ i ∧ i < S.nTs ∧ o i = true) ↔
          (k + 1 ≤ i ∧ i < S.nTs ∧ o i = true) := by
        intro i
        constructor
        · rintro ⟨x, y, z⟩
          refine ⟨?_, y, z⟩
          by_contra hlt
          have : i = k := by omega
          subst this
          exact hf z
        · rintro ⟨x, y, z⟩; exact ⟨by omega, y, z⟩
      refine ⟨fw, ?_, ?_, ?_⟩
      · simp only [e]
      · intro i hi hor
        refine h1 i hi ?_
        rcases hor with h | ⟨x, y, z⟩
        · exact Or.inl h
        · exact Or.inr ⟨x, ((e i).mp ⟨y, z, x⟩).1, z⟩
      · intro i hi
        exact h2 i fun h => hi ((e i).mpr h)

/-! ### a whole recomputation -/

/-- What a successful recomputation does: the invariant is kept, every operator marked
"calculate now" is current afterwards, and operators that were not marked for
recalculation are left as they are. -/
theorem recompute_spec {H : Host} {S : Sys d m D} {s t : UState d m} (hs : Inv S s)
    (h : recompute H S s = (t, .ok ())) :
    Inv S t ∧ t.ctrlAmps = s.ctrlAmps ∧ t.evoCurrent = s.evoCurrent ∧ t.now = Masks.empty ∧
    (∀ k < S.nTs, s.now.gen k = true → t.recalc.gen k = false) ∧
    (∀ k < S.nTs, s.now.prop k = true → t.recalc.prop k = false) ∧
    (∀ k ≤ S.nTs, s.now.fwd k = true → t.recalc.fwd k = false) ∧
    (∀ k ≤ S.nTs, s.now.onto k = true → t.recalc.onto k = false) ∧
    (∀ k, s.recalc.gen k = false → t.recalc.gen k = false ∧ t.dynGen k = s.dynGen k) ∧
    (∀ k, s.recalc.prop k = false → t.recalc.prop k = false ∧ t.prop k = s.prop k) ∧
    (∀ k, s.recalc.fwd k = false → t.recalc.fwd k = false ∧ t.fwd k = s.fwd k) ∧
    (∀ k, s.recalc.onto k = false → t.recalc.onto k = false ∧ t.onto k = s.onto k) := by
  unfold recompute at h
  obtain ⟨hf1, hf2, hf3⟩ := fwdNow_spec S.nTs s
  obtain ⟨ho1, ho2, ho3⟩ := ontoNow_spec S.nTs s
  simp only at h
  generalize fwdNow S.nTs s = f at h hf1 hf2 hf3
  generalize ontoNow S.nTs s = o at h ho1 ho2 ho3
  obtain ⟨p, hp⟩ : ∃ p, propNow s f o = p := ⟨_, rfl⟩
  obtain ⟨g, hg⟩ : ∃ g, genNow s p = g := ⟨_, rfl⟩
  rw [hp, hg] at h
  have hpk : ∀ k, p k = ((f (k + 1) || o k || s.now.prop k) && s.recalc.prop k) :=
    fun k => by rw [← hp]; rfl
  have hgk : ∀ k, g k = ((p k || s.now.gen k) && s.recalc.gen k) := fun k => by rw [← hg]; rfl
  split at h
  case isTrue => injection h with _ h; cases h
  split at h
  case isTrue => injection h with _ h; cases h
  case isFalse h1 h2 =>
  injection h with h _
  rw [genStep_eq, propStep_eq] at h
  -- the state after the loops, for amplitudes compatible with the stored ones
  have key : ∀ a, (∀ b, s.ctrlAmps = some b → b = a) →
      (∀ k < S.nTs, p k = true → ∀ G, G = (if k < S.nTs ∧ g k = true
        then combineDynGen S (s.ctrlAmps.getD fun _ _ => 0) k else s.dynGen k) →
        propOf S k G = Spec.propagator S a k) ∧
      (∀ k < S.nTs, g k = true →
        combineDynGen S (s.ctrlAmps.getD fun _ _ => 0) k = Spec.generator S a k) := by
    intro a ha
    have hgen : ∀ k < S.nTs, g k = true →
        combineDynGen S (s.ctrlAmps.getD fun _ _ => 0) k = Spec.generator S a k := by
      intro k hk hgt
      cases hca : s.ctrlAmps with
      | none =>
        exfalso
        apply h2
        rw [hca]
        simp only [Option.isNone_none, Bool.and_true, List.any_eq_true]
        exact ⟨k, List.mem_range.mpr hk, hgt⟩
      | some b =>
        rw [Option.getD_some, combineDynGen_spec, ha b hca]
    refine ⟨?_, hgen⟩
    rintro k hk hpt G rfl
    rw [← propOf_generator]
    congr 1
    by_cases hgt : g k = true
    · rw [if_pos ⟨hk, hgt⟩]; exact hgen k hk hgt
    · rw [if_neg (fun h => hgt h.2)]
      refine (hs.current a ha).gen k hk ?_
      rw [hgk, hpt] at hgt
      simpa using hgt
  have aux : ∀ a, (∀ b, s.ctrlAmps = some b → b = a) → ∀ k < S.nTs,
      (p k = true ∨ s.recalc.prop k = false) →
      (if k < S.nTs ∧ p k = true then propOf S k (if k < S.nTs ∧ g k = true
        then combineDynGen S (s.ctrlAmps.getD fun _ _ => 0) k else s.dynGen k)
        else s.prop k) = Spec.propagator S a k := by
    intro a ha k hk hor
    by_cases hpt : p k = true
    · rw [if_pos ⟨hk, hpt⟩]
      exact (key a ha).1 k hk hpt _ rfl
    · rw [if_neg (fun h => hpt h.2)]
      exact (hs.current a ha).prop k hk (hor.resolve_left hpt)
  obtain ⟨a0, ha0⟩ : ∃ a, ∀ b, s.ctrlAmps = some b → b = a := by
    cases hca : s.ctrlAmps with
    | none => exact ⟨fun _ _ => 0, by simp⟩
    | some b => exact ⟨b, by simp⟩
  have hor : ∀ k, (f (k + 1) = true ∨ o k = true) → p k = true ∨ s.recalc.prop k = false := by
    intro k h
    rw [hpk]
    cases hr : s.recalc.prop k
    · exact Or.inr rfl
    · left
      rcases h with h | h <;> simp [h]
  -- forward and onward loops, for every compatible choice of amplitudes
  have fw : ∀ a, (∀ b, s.ctrlAmps = some b → b = a) → _ := fun a ha =>
    fwdStep_spec (S := S) (a := a) (f := f)
      (s := { s with
        dynGen := fun k => if k < S.nTs ∧ g k = true
          then combineDynGen S (s.ctrlAmps.getD fun _ _ => 0) k else s.dynGen k
        prop := fun k => if k < S.nTs ∧ p k = true then propOf S k (if k < S.nTs ∧ g k = true
          then combineDynGen S (s.ctrlAmps.getD fun _ _ => 0) k else s.dynGen k)
          else s.prop k
        recalc := { s.recalc with
          gen := fun k => if k < S.nTs ∧ g k = true then false else s.recalc.gen k
          prop := fun k => if k < S.nTs ∧ p k = true then false else s.recalc.prop k } })
      hs.fwd0 (hs.current a ha).fwd
      (fun k hk hfk => aux a ha k hk (hor k (Or.inl hfk)))
      hf3
  obtain ⟨fw0, e0, _, k0⟩ := fw a0 ha0
  rw [e0] at h
  have on : ∀ a, (∀ b, s.ctrlAmps = some b → b = a) → _ := fun a ha =>
    ontoStep_spec (S := S) (a := a) (o := o)
      (s := { s with
        dynGen := fun k => if k < S.nTs ∧ g k = true
          then combineDynGen S (s.ctrlAmps.getD fun _ _ => 0) k else s.dynGen k
        prop := fun k => if k < S.nTs ∧ p k = true then propOf S k (if k < S.nTs ∧ g k = true
          then combineDynGen S (s.ctrlAmps.getD fun _ _ => 0) k else s.dynGen k)
          else s.prop k
        fwd := fw0
        recalc :=
          { gen := fun k => if k < S.nTs ∧ g k = true then false else s.recalc.gen k
            prop := fun k => if k < S.nTs ∧ p k = true then false else s.recalc.prop k
            fwd := fun k => if 1 ≤ k ∧ k ≤ S.nTs ∧ f k = true then false else s.recalc.fwd k
            onto := s.recalc.onto } })
      hs.ontoN (hs.current a ha).onto
      (fun k hk hok => aux a ha k hk (hor k (Or.inr hok)))
      ho3
  obtain ⟨on0, e1, _, k1⟩ := on a0 ha0
  rw [e1] at h
  subst h
  have fwv : ∀ a, (∀ b, s.ctrlAmps = some b → b = a) → ∀ k ≤ S.nTs,
      (s.recalc.fwd k = false ∨ f k = true ∧ 1 ≤ k) →
      fw0 k = Spec.evolution S a 0 k * S.initial := by
    intro a ha
    obtain ⟨fw1, e2, v, _⟩ := fw a ha
    rw [e0] at e2
    injection e2 with _ _ _ _ e2
    rw [e2]; exact v
  have onv : ∀ a, (∀ b, s.ctrlAmps = some b → b = a) → ∀ k ≤ S.nTs,
      (s.recalc.onto k = false ∨ o k = true ∧ k < S.nTs) →
      on0 k = S.ontoTarget * Spec.evolution S a k S.nTs := by
    intro a ha
    obtain ⟨on1, e2, v, _⟩ := on a ha
    rw [e1] at e2
    injection e2 with _ _ _ _ _ e2
    rw [e2]; exact v
  refine ⟨⟨?_, ?_, ?_⟩, rfl, rfl, rfl, ?_, ?_, ?_, ?_, ?_, ?_, ?_, ?_⟩
  · simp [hs.fwd0]
  · simp [hs.ontoN]
  · intro a ha
    refine ⟨?_, ?_, ?_, ?_⟩
    · intro k hk hr
      simp only at hr ⊢
      by_cases hgt : g k = true
      · rw [if_pos ⟨hk, hgt⟩]; exact (key a ha).2 k hk hgt
      · rw [if_neg (fun h => hgt h.2)] at hr ⊢
        exact (hs.current a ha).gen k hk hr
    · intro k hk hr
      simp only at hr ⊢
      refine aux a ha k hk ?_
      by_cases hpt : p k = true
      · exact Or.inl hpt
      · rw [if_neg (fun h => hpt h.2)] at hr
        exact Or.inr hr
    · intro k hk hr
      simp only at hr ⊢
      refine fwv a ha k hk ?_
      split at hr
      case isTrue h => exact Or.inr ⟨h.2.2, h.1⟩
      case isFalse => exact Or.inl hr
    · intro k hk hr
      simp only at hr ⊢
      refine onv a ha k hk ?_
      split at hr
      case isTrue h => exact Or.inr ⟨h.2, h.1⟩
      case isFalse => exact Or.inl hr
  · intro k hk hn
    simp only
    cases hr : s.recalc.gen k
    · simp
    · have : g k = true := by rw [hgk, hn, hr]; simp
      simp [hk, this]
  · intro k hk hn
    simp only
    cases hr : s.recalc.prop k
    · simp
    · have : p k = true := by rw [hpk, hn, hr]; simp
      simp [hk, this]
  · intro k hk hn
    simp only
    cases hr : s.recalc.fwd k
    · simp
    · have h1 := hf1 k hn hr
      have h2 : 1 ≤ k := by
        rcases Nat.eq_zero_or_pos k with rfl | h
        · rw [hs.fwd0] at hr; cases hr
        · exact h
      simp [hk, h1, h2]
  · intro k hk hn
    simp only
    cases hr : s.recalc.onto k
    · simp
    · have h1 := ho1 k hn hr
      have h2 : k < S.nTs := by
        rcases Nat.lt_or_ge k S.nTs with h | h
        · exact h
        · have : k = S.nTs := by omega
          rw [this, hs.ontoN] at hr; cases hr
      simp [h1, h2]
  · intro k hr
    have : g k = false := by rw [hgk, hr]; simp
    simp [hr, this]
  · intro k hr
    have : p k = false := by rw [hpk, hr]; simp
    simp [hr, this]
  · intro k hr
    have hfk : ¬ f k = true := fun h => by rw [hf2 k h] at hr; cases hr
    exact ⟨by simp [hr], k0 k fun h => hfk h.2.2⟩
  · intro k hr
    have hok : ¬ o k = true := fun h => by rw [ho2 k h] at hr; cases hr
    exact ⟨by simp [hr], k1 k fun h => hok h.2⟩

theorem recompute_inv {H : Host} {S : Sys d m D} {s : UState d m} (hs : Inv S s) :
    Inv S (recompute H S s).1 := by
  cases h : recompute H S s with
  | mk t r =>
    cases r with
    | ok u => cases u; exact (recompute_spec hs h).1
    | error e =>
      have : t = s := by
        unfold recompute at h
        simp only at h
        split at h
        · injection h with h _; exact h.symm
        · split at h
          · injection h with h _; exact h.symm
          · injection h with _ h; cases h
      rw [this]; exact hs

theorem inv_of_eq {S : Sys d m D} {s t : UState d m} (hs : Inv S s)
    (h1 : t.ctrlAmps = s.ctrlAmps) (h2 : t.recalc = s.recalc) (h3 : t.dynGen = s.dynGen)
    (h4 : t.prop = s.prop) (h5 : t.fwd = s.fwd) (h6 : t.onto = s.onto) : Inv S t := by
  refine ⟨by rw [h2]; exact hs.fwd0, by rw [h2]; exact hs.ontoN, fun a ha => ?_⟩
  have := hs.current a (by rw [← h1]; exact ha)
  exact ⟨by rw [h2, h3]; exact this.gen, by rw [h2, h4]; exact this.prop,
    by rw [h2, h5]; exact this.fwd, by rw [h2, h6]; exact this.onto⟩

theorem fidSlot_frame (S : Sys d m D) (s : UState d m) :
    (fidSlot S s).1 = { s with now := (fidSlot S s).1.now } := by
  unfold fidSlot
  simp only
  split <;> rfl

theorem step_inv {H : Host} {S : Sys d m D} {s : UState d m} (hs : Inv S s) (op : UOp) :
    Inv S (step H S s op) := by
  cases op with
  | update new => exact compareAmps_inv hs new
  | flagAll => exact inv_of_eq hs rfl rfl rfl rfl rfl rfl
  | choose c => exact inv_of_eq hs rfl rfl rfl rfl rfl rfl
  | slot =>
    simp only [step]
    rw [fidSlot_frame]
    exact inv_of_eq hs rfl rfl rfl rfl rfl rfl
  | recompute => exact recompute_inv hs
  | compute =>
    simp only [step, computeEvolution]
    split
    · exact hs
    · have := recompute_inv (H := H) hs
      generalize recompute H S s = r at this
      obtain ⟨t, r⟩ := r
      cases r with
      | error e => exact this
      | ok u => exact inv_of_eq this rfl rfl rfl rfl rfl rfl

theorem run_inv {H : Host} {S : Sys d m D} {s : UState d m} (hs : Inv S s) (ops : List UOp) :
    Inv S (run H S s ops) := by
  unfold run
  induction ops generalizing s with
  | nil => exact hs
  | cons op ops ih => exact ih (step_inv hs op)

/-- The slot loop: with at least one slot it always finds one. -/
theorem fidSlot_spec {S : Sys d m D} {s : UState d m} (hs : Inv S s) (hn : 0 < S.nTs) :
    ∃ k < S.nTs, fidSlot S s = ({ s with now := { s.now with
      fwd := Function.update s.now.fwd k true
      onto := Function.update s.now.onto k true } }, .ok k) ∧ s.recalc.fwd k = false := by
  have := forRange_inv (n := S.nTs)
    (b := fun k (p : Option Nat × Option Nat) =>
      if p.2.isSome then p
      else if !s.recalc.fwd k then (some k, if !s.recalc.onto k then some k else none)
      else p) (s := (none, none))
    (P := fun i p => (∀ k, p.1 = some k → k < i ∧ s.recalc.fwd k = false) ∧
      (∀ k, p.2 = some k → k < i ∧ s.recalc.fwd k = false) ∧
      (0 < i → p.1.isSome = true)) ⟨by simp, by simp, by simp⟩ ?_
  · obtain ⟨h1, h2, h3⟩ := this
    unfold fidSlot slotLoop
    generalize forRange S.nTs _ _ = p at h1 h2 h3
    obtain ⟨p1, p2⟩ := p
    cases p2 with
    | some k => exact ⟨k, (h2 k rfl).1, rfl, (h2 k rfl).2⟩
    | none =>
      cases p1 with
      | some k => exact ⟨k, (h1 k rfl).1, rfl, (h1 k rfl).2⟩
      | none => exact absurd (h3 hn) (by simp)
  · rintro k ⟨p1, p2⟩ hk ⟨h1, h2, h3⟩
    by_cases hp : p2.isSome = true
    · rw [if_pos hp]
      refine ⟨fun i hi => ⟨by have := (h1 i hi).1; omega, (h1 i hi).2⟩,
        fun i hi => ⟨by have := (h2 i hi).1; omega, (h2 i hi).2⟩, fun _ => ?_⟩
      obtain ⟨j, hj⟩ := Option.isSome_iff_exists.mp hp
      exact h3 (by have := (h2 j hj).1; omega)
    · rw [if_neg hp]
      by_cases hf : s.recalc.fwd k = false
      · rw [if_pos (by simp [hf])]
        refine ⟨fun i hi => ?_, fun i hi => ?_, fun _ => rfl⟩
        · injection hi with hi; subst hi; exact ⟨by omega, hf⟩
        · simp only at hi
          split at hi
          · injection hi with hi; subst hi; exact ⟨by omega, hf⟩
          · cases hi
      · rw [if_neg (by simpa using hf)]
        refine ⟨fun i hi => ⟨by have := (h1 i hi).1; omega, (h1 i hi).2⟩,
          fun i hi => ⟨by have := (h2 i hi).1; omega, (h2 i hi).2⟩, fun _ => ?_⟩
        refine h3 ?_
        rcases Nat.eq_zero_or_pos k with rfl | h
        · exact absurd hs.fwd0 hf
        · exact h

/-! ### what a recomputation does not touch -/

/-- The last forward operator is computed only if it is marked itself. -/
theorem fwdNow_last (n : Nat) (s : UState d m) :
    fwdNow n s n = (s.now.fwd n && s.recalc.fwd n) := by
  unfold fwdNow
  refine forDown_inv (P := fun _ (now : Nat → Bool) => now n = (s.now.fwd n && s.recalc.fwd n)) rfl ?_
  intro k now hk h
  split
  · rw [Function.update_of_ne (by omega)]; exact h
  · exact h

/-- Nothing marked, nothing computed. -/
theorem fwdNow_none (n : Nat) (s : UState d m)
    (h : ∀ k, (s.now.fwd k && s.recalc.fwd k) = false) (k : Nat) : fwdNow n s k = false := by
  unfold fwdNow
  refine (forDown_inv (P := fun _ (now : Nat → Bool) => ∀ k, now k = false) h ?_ : ∀ k, _) k
  intro k now hk h
  rw [h (k + 1)]
  simpa using h

theorem ontoNow_none (n : Nat) (s : UState d m)
    (h : ∀ k, (s.now.onto k && s.recalc.onto k) = false) (k : Nat) : ontoNow n s k = false := by
  unfold ontoNow
  refine (forRange_inv (P := fun _ (now : Nat → Bool) => ∀ k, now k = false) h ?_ : ∀ k, _) k
  intro k now hk h
  rw [h k]
  simpa using h

theorem fwdStep_frame (S : Sys d m D) (f : Nat → Bool) (s : UState d m) :
    (∀ k, f k = false → (fwdStep S f s).fwd k = s.fwd k ∧
      (fwdStep S f s).recalc.fwd k = s.recalc.fwd k) ∧
    (fwdStep S f s).onto = s.onto := by
  unfold fwdStep
  refine forRange_inv (P := fun _ (t : UState d m) =>
    (∀ k, f k = false → t.fwd k = s.fwd k ∧ t.recalc.fwd k = s.recalc.fwd k) ∧
      t.onto = s.onto) ⟨fun _ _ => ⟨rfl, rfl⟩, rfl⟩ ?_
  rintro k t _ ⟨h1, h2⟩
  by_cases hf : f (k + 1) = true
  · rw [if_pos hf]
    refine ⟨fun i hi => ?_, h2⟩
    have : i ≠ k + 1 := by rintro rfl; rw [hf] at hi; cases hi
    simp only
    rw [Function.update_of_ne this, Function.update_of_ne this]
    exact h1 i hi
  · rw [if_neg hf]; exact ⟨h1, h2⟩

theorem ontoStep_frame (S : Sys d m D) (o : Nat → Bool) (s : UState d m) :
    (∀ k, o k = false → (ontoStep S o s).onto k = s.onto k) ∧
    (ontoStep S o s).fwd = s.fwd ∧ (ontoStep S o s).recalc.fwd = s.recalc.fwd := by
  unfold ontoStep
  refine forDown_inv (P := fun _ (t : UState d m) =>
    (∀ k, o k = false → t.onto k = s.onto k) ∧ t.fwd = s.fwd ∧
      t.recalc.fwd = s.recalc.fwd) ⟨fun _ _ => rfl, rfl, rfl⟩ ?_
  rintro k t _ ⟨h1, h2⟩
  by_cases hf : o k = true
  · rw [if_pos hf]
    refine ⟨fun i hi => ?_, h2⟩
    have : i ≠ k := by rintro rfl; rw [hf] at hi; cases hi
    simp only
    rw [Function.update_of_ne this]
    exact h1 i hi
  · rw [if_neg hf]; exact ⟨h1, h2⟩

theorem recompute_frame {H : Host} {S : Sys d m D} {s t : UState d m}
    (h : recompute H S s = (t, .ok ())) :
    (∀ k, fwdNow S.nTs s k = false → t.fwd k = s.fwd k ∧ t.recalc.fwd k = s.recalc.fwd k) ∧
    (∀ k, ontoNow S.nTs s k = false → t.onto k = s.onto k) := by
  unfold recompute at h
  simp only at h
  split at h
  case isTrue => injection h with _ h; cases h
  split at h
  case isTrue => injection h with _ h; cases h
  injection h with h _
  subst h
  refine ⟨fun k hk => ?_, fun k hk => ?_⟩
  · simp only
    rw [(ontoStep_frame S _ _).2.1, (ontoStep_frame S _ _).2.2,
      ((fwdStep_frame S _ _).1 k hk).1, ((fwdStep_frame S _ _).1 k hk).2, propStep_eq, genStep_eq]
    exact ⟨rfl, rfl⟩
  · simp only
    rw [(ontoStep_frame S _ _).1 k hk, (fwdStep_frame S _ _).2, propStep_eq, genStep_eq]

end QTrl.DynUpdate
