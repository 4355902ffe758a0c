import Verif.Props.Descent
import Mathlib.Data.EReal.Basic
import Mathlib.Analysis.Real.Pi.Bounds

/-
C78: the reported gradient at a best pulse.
-/

set_option linter.unusedSectionVars false

open Matrix

namespace QTrl.Dyn

open QTrl.Spec

variable {d m D : Type} [Fintype d] [DecidableEq d] [Fintype m] [DecidableEq m]

/-- All amplitudes are within the bounds, which may be infinite. -/
def InBounds (S : Sys d m D) (lo hi : Nat → Nat → EReal) (a : Amps) : Prop :=
  ∀ k j, k < S.nTs → j < S.nCtrls → lo k j ≤ (a k j : EReal) ∧ (a k j : EReal) ≤ hi k j

/-- No pulse within the bounds whose amplitudes are close to the current ones makes the object
report a smaller error than it reports now. -/
def LocallyBest (S : Sys d m D) (junk s0 : State d m D) (a0 : Amps) (ops : List Op)
    (lo hi : Nat → Nat → EReal) : Prop :=
  ∃ ε > 0, ∀ a, InBounds S lo hi a → (∀ k j, |a k j - lastAmps a0 ops k j| < ε) →
    ∀ e e', query S junk s0 a0 ops .getFidErr = .real e →
      query S junk s0 a0 (ops ++ [.updateAmps a]) .getFidErr = .real e' → e ≤ e'

/-- No element of `g` asks for a change that the bounds allow: it is not positive unless the
amplitude is at the lower bound, and not negative unless it is at the upper bound. -/
def Balanced (S : Sys d m D) (lo hi : Nat → Nat → EReal) (a g : Amps) : Prop :=
  ∀ k j, k < S.nTs → j < S.nCtrls →
    (lo k j < (a k j : EReal) → g k j ≤ 0) ∧ ((a k j : EReal) < hi k j → 0 ≤ g k j)

/-- The direction that changes one amplitude only. -/
def only (k j : Nat) (x : ℝ) : Amps := fun k' j' => if k' = k ∧ j' = j then x else 0

theorem pairing_only (S : Sys d m D) {k j : Nat} (hk : k < S.nTs) (hj : j < S.nCtrls) (x : ℝ)
    (g : Amps) : pairing S (only k j x) g = x * g k j := by
  unfold pairing
  rw [Finset.sum_eq_single_of_mem k (Finset.mem_range.2 hk),
    Finset.sum_eq_single_of_mem j (Finset.mem_range.2 hj)]
  · simp [only]
  · intro j' _ hne
    simp [only, hne]
  · intro k' _ hne
    refine Finset.sum_eq_zero fun j' _ => ?_
    simp [only, hne]

theorem room_below {lo : EReal} {x : ℝ} (h : lo < (x : EReal)) :
    ∃ δ > 0, ∀ t, 0 < t → t < δ → lo ≤ ((x + t * (-1) : ℝ) : EReal) := by
  obtain ⟨y, h1, h2⟩ := EReal.lt_iff_exists_real_btwn.1 h
  rw [EReal.coe_lt_coe_iff] at h2
  refine ⟨x - y, by linarith, fun t _ ht => h1.le.trans ?_⟩
  rw [EReal.coe_le_coe_iff]
  linarith

theorem room_above {hi : EReal} {x : ℝ} (h : (x : EReal) < hi) :
    ∃ δ > 0, ∀ t, 0 < t → t < δ → ((x + t * 1 : ℝ) : EReal) ≤ hi := by
  obtain ⟨y, h1, h2⟩ := EReal.lt_iff_exists_real_btwn.1 h
  rw [EReal.coe_lt_coe_iff] at h1
  refine ⟨y - x, by linarith, fun t _ ht => le_trans ?_ h2.le⟩
  rw [EReal.coe_le_coe_iff]
  linarith

/-- A step along one amplitude that the bounds allow does not lower the error. -/
theorem no_descent {S : Sys d m D} {junk s0 : State d m D} {a0 : Amps} {ops : List Op} {g : Amps}
    {lo hi : Nat → Nat → EReal} (hd : Descends S junk s0 a0 ops g)
    (hb : LocallyBest S junk s0 a0 ops lo hi) {k j : Nat} (hk : k < S.nTs) (hj : j < S.nCtrls) (x : ℝ)
    (hx : |x| ≤ 1)
    (hok : ∃ δ > 0, ∀ t, 0 < t → t < δ → InBounds S lo hi (along (lastAmps a0 ops) (only k j x) t)) :
    0 ≤ x * g k j := by
  by_contra hneg
  have hneg : x * g k j < 0 := not_le.1 hneg
  rw [← pairing_only S hk hj x g] at hneg
  obtain ⟨e, he, δ, hδ, h1⟩ := hd _ hneg
  obtain ⟨δ', hδ', h2⟩ := hok
  obtain ⟨ε, hε, h3⟩ := hb
  set t := min (min δ δ') ε / 2 with ht
  have hpos : 0 < min (min δ δ') ε := lt_min (lt_min hδ hδ') hε
  have l1 : min (min δ δ') ε ≤ δ := (min_le_left _ _).trans (min_le_left _ _)
  have l2 : min (min δ δ') ε ≤ δ' := (min_le_left _ _).trans (min_le_right _ _)
  have l3 : min (min δ δ') ε ≤ ε := min_le_right _ _
  have t0 : 0 < t := by rw [ht]; linarith
  obtain ⟨e', he', hlt⟩ := h1 t t0 (by rw [ht]; linarith)
  have := h3 _ (h2 t t0 (by rw [ht]; linarith)) (fun k' j' => ?_) e e' he he'
  · linarith
  · simp only [along, add_sub_cancel_left, abs_mul, abs_of_pos t0]
    have : |only k j x k' j'| ≤ 1 := by
      unfold only
      split_ifs
      · exact hx
      · simp
    have : t * |only k j x k' j'| ≤ t * 1 := mul_le_mul_of_nonneg_left this t0.le
    have : t < ε := by rw [ht]; linarith
    linarith

theorem balanced_of {S : Sys d m D} {junk s0 : State d m D} {a0 : Amps} {ops : List Op} {g : Amps}
    {lo hi : Nat → Nat → EReal} (hd : Descends S junk s0 a0 ops g)
    (hw : InBounds S lo hi (lastAmps a0 ops)) (hb : LocallyBest S junk s0 a0 ops lo hi) :
    Balanced S lo hi (lastAmps a0 ops) g := by
  have key : ∀ k j, k < S.nTs → j < S.nCtrls → ∀ x : ℝ,
      (∃ δ > 0, ∀ t, 0 < t → t < δ → lo k j ≤ ((lastAmps a0 ops k j + t * x : ℝ) : EReal) ∧
        ((lastAmps a0 ops k j + t * x : ℝ) : EReal) ≤ hi k j) →
      ∃ δ > 0, ∀ t, 0 < t → t < δ →
        InBounds S lo hi (along (lastAmps a0 ops) (only k j x) t) := by
    rintro k j - - x ⟨δ, hδ, h⟩
    refine ⟨δ, hδ, fun t t0 ht k' j' hk' hj' => ?_⟩
    by_cases hkj : k' = k ∧ j' = j
    · obtain ⟨rfl, rfl⟩ := hkj
      simpa [along, only] using h t t0 ht
    · simpa [along, only, hkj] using hw k' j' hk' hj'
  intro k j hk hj
  refine ⟨fun hlo => ?_, fun hhi => ?_⟩
  · obtain ⟨δ, hδ, h⟩ := room_below hlo
    have := no_descent hd hb hk hj (-1) (by simp) (key k j hk hj (-1) ⟨δ, hδ, fun t t0 ht =>
      ⟨h t t0 ht, le_trans ?_ (hw k j hk hj).2⟩⟩)
    · linarith
    · rw [EReal.coe_le_coe_iff]; linarith
  · obtain ⟨δ, hδ, h⟩ := room_above hhi
    have := no_descent hd hb hk hj 1 (by simp) (key k j hk hj 1 ⟨δ, hδ, fun t t0 ht =>
      ⟨le_trans (hw k j hk hj).1 ?_, h t t0 ht⟩⟩)
    · linarith
    · rw [EReal.coe_le_coe_iff]; linarith

/-- **C78**, unitary measure: after any history, if no pulse within the bounds close to the current
one is reported to be better, then no element of the reported gradient asks for a change that the
bounds allow. This holds also where the overlap is zero. -/
theorem C78_unitary {c : UnitaryCfg d m} [Nonempty m] (hc : Closed c) (hi : Normalised c)
    (hu : c.fidKind = .unitary) (hq : c.phaseOpt = .SU → c.isQobj = true)
    (junk s0 : State d m (Decomp d)) (a0 : Amps) (ops : List Op)
    (hx : ExactAt c (lastAmps a0 ops)) (lo hb : Nat → Nat → EReal)
    (hw : InBounds c.sys lo hb (lastAmps a0 ops)) (h : LocallyBest c.sys junk s0 a0 ops lo hb) :
    ∃ g, query c.sys junk s0 a0 ops .getGradient = .array g ∧
      Balanced c.sys lo hb (lastAmps a0 ops) g := by
  obtain ⟨g, h1, h2, -⟩ := C73_unitary hc hi hu hq junk s0 a0 ops hx
  exact ⟨g, h1, balanced_of h2 hw h⟩

/-- **C78**, trace difference measure, any dynamics whose propagators are exponentials. -/
theorem C78_distance {S : Sys d m D} (hn : Valid S) (hu : S.fidKind = .traceDiff)
    (hp : S.propKind ≠ .approx) (hS : AffineProps S) (junk s0 : State d m D) (a0 : Amps)
    (ops : List Op) (hx : ExactPropGrad S (lastAmps a0 ops)) (lo hb : Nat → Nat → EReal)
    (hw : InBounds S lo hb (lastAmps a0 ops)) (h : LocallyBest S junk s0 a0 ops lo hb) :
    ∃ g, query S junk s0 a0 ops .getGradient = .array g ∧ Balanced S lo hb (lastAmps a0 ops) g := by
  obtain ⟨g, h1, -, h2, -⟩ := C73_distance hn hu hp hS junk s0 a0 ops hx
  exact ⟨g, h1, balanced_of h2 hw h⟩

/-- **C78**, dynamics given by general generators. -/
theorem C78_general {c : GeneralCfg d m} (h1 : 0 < c.nTs) (h2 : 0 < c.nCtrls)
    (hu : c.fidKind = .traceDiff) (ha : c.approx = false)
    (junk s0 : State d m Unit) (a0 : Amps) (ops : List Op) (lo hb : Nat → Nat → EReal)
    (hw : InBounds c.sys lo hb (lastAmps a0 ops)) (h : LocallyBest c.sys junk s0 a0 ops lo hb) :
    ∃ g, query c.sys junk s0 a0 ops .getGradient = .array g ∧
      Balanced c.sys lo hb (lastAmps a0 ops) g := by
  obtain ⟨g, g1, -, g2, -⟩ := C73_general h1 h2 hu ha junk s0 a0 ops
  exact ⟨g, g1, balanced_of g2 hw h⟩

/-- Without bounds, or strictly within them, that means that the gradient is zero. -/
theorem C78_interior {S : Sys d m D} {lo hb : Nat → Nat → EReal} {a g : Amps}
    (h : Balanced S lo hb a g) {k j : Nat} (hk : k < S.nTs) (hj : j < S.nCtrls)
    (h1 : lo k j < (a k j : EReal)) (h2 : (a k j : EReal) < hb k j) : g k j = 0 :=
  le_antisymm ((h k j hk hj).1 h1) ((h k j hk hj).2 h2)

theorem halfTurn_err (junk s0 : State (Fin 2) (Fin 2) (Decomp (Fin 2))) (a0 : Amps)
    (ops : List Op) : query (halfTurn .SU).sys junk s0 a0 ops .getFidErr =
      .real (1 - Real.sin (lastAmps a0 ops 0 0 / 2)) := by
  rw [query_eq (halfTurn_closed .SU).valid]
  have hu : (halfTurn .SU).sys.fidKind = .unitary := rfl
  have hp : (halfTurn .SU).sys.phaseOpt = .SU := rfl
  have hf : fidNum (halfTurn .SU).sys (lastAmps a0 ops) = Real.sin (lastAmps a0 ops 0 0 / 2) := by
    unfold fidNum
    rw [hp, halfTurn_overlap, dimNorm_eq (halfTurn_normalised .SU).target]
    simp only [Complex.ofReal_re, Fintype.card_fin]
    push_cast
    ring
  simp only [answer, fidErr, hu, fidelity_eq_fidNum (S := (halfTurn .SU).sys) (fun _ => rfl),
    Except.map, Out.ofReal, hf]
  rw [abs_of_nonneg (by linarith [Real.sin_le_one (lastAmps a0 ops 0 0 / 2)])]

/-- The hypotheses are met: with amplitudes between 0 and 1 the best pulse for the half turn is 1,
where the reported gradient is not positive. -/
example (junk s0 : State (Fin 2) (Fin 2) (Decomp (Fin 2))) :
    ∃ g, query (halfTurn .SU).sys junk s0 (fun _ _ => 1) [] .getGradient = .array g ∧ g 0 0 ≤ 0 := by
  obtain ⟨g, h1, h2⟩ := C78_unitary (halfTurn_closed .SU) (halfTurn_normalised .SU) rfl (fun _ => rfl)
    junk s0 (fun _ _ => 1) [] (Or.inl rfl) (fun _ _ => ((0 : ℝ) : EReal)) (fun _ _ => ((1 : ℝ) : EReal))
    (fun k j _ _ => by simp [lastAmps]) ⟨1, one_pos, fun a ha _ e e' he he' => by
      rw [halfTurn_err] at he he'
      injection he with he
      injection he' with he'
      rw [lastAmps_update] at he'
      obtain ⟨b1, b2⟩ := ha 0 0 (show 0 < 1 by norm_num) (show 0 < 1 by norm_num)
      rw [EReal.coe_le_coe_iff] at b1 b2
      rw [← he, ← he']
      have hpi := Real.pi_gt_three
      have := Real.sin_le_sin_of_le_of_le_pi_div_two (x := a 0 0 / 2) (y := 1 / 2) (by linarith)
        (by linarith) (by linarith)
      simp only [lastAmps]
      linarith⟩
  refine ⟨g, h1, (h2 0 0 (show 0 < 1 by norm_num) (show 0 < 1 by norm_num)).1 ?_⟩
  simp [lastAmps]

end QTrl.Dyn
