import Verif.Proofs.Descent
import Verif.Props.Fidelity
import Verif.Props.Symplectic
import Verif.Props.Kinds
import Mathlib.Analysis.InnerProductSpace.Calculus

/-
C73: a step against the reported gradient lowers the reported error.
-/

set_option linter.unusedSectionVars false

open Matrix

namespace QTrl.Dyn

open QTrl.Spec QTrl.MatExp

variable {d m D : Type} [Fintype d] [DecidableEq d] [Fintype m] [DecidableEq m]

/-- If some element of `g` is not zero, then submitting the current amplitudes minus any small
enough multiple of `g` makes the object report a smaller error than it reports now. -/
def Lowers (S : Sys d m D) (junk s0 : State d m D) (a0 : Amps) (ops : List Op) (g : Amps) : Prop :=
  (∃ k j, k < S.nTs ∧ j < S.nCtrls ∧ g k j ≠ 0) →
    ∃ e, query S junk s0 a0 ops .getFidErr = .real e ∧
      ∃ δ > 0, ∀ t, 0 < t → t < δ → ∃ e', query S junk s0 a0
        (ops ++ [.updateAmps (along (lastAmps a0 ops) (fun k j => -g k j) t)]) .getFidErr =
          .real e' ∧ e' < e

/-- A small enough step in any direction whose inner product with `g` is negative makes the object
report a smaller error than it reports now. -/
def Descends (S : Sys d m D) (junk s0 : State d m D) (a0 : Amps) (ops : List Op) (g : Amps) : Prop :=
  ∀ v, pairing S v g < 0 →
    ∃ e, query S junk s0 a0 ops .getFidErr = .real e ∧
      ∃ δ > 0, ∀ t, 0 < t → t < δ → ∃ e', query S junk s0 a0
        (ops ++ [.updateAmps (along (lastAmps a0 ops) v t)]) .getFidErr = .real e' ∧ e' < e

theorem Descends.lowers {S : Sys d m D} {junk s0 : State d m D} {a0 : Amps} {ops : List Op}
    {g : Amps} (h : Descends S junk s0 a0 ops g) : Lowers S junk s0 a0 ops g :=
  fun hne => h _ (pairing_neg_self_neg hne)

/-- The error the object reports after a small step in the direction `v` changes at the rate
given by the inner product of `v` and `g`, whatever the direction. -/
def SlopeIs (S : Sys d m D) (junk s0 : State d m D) (a0 : Amps) (ops : List Op) (g : Amps) : Prop :=
  ∃ err, ReportsErr S junk s0 a0 ops err ∧
    ∀ v, HasDerivAt (fun t => err (along (lastAmps a0 ops) v t)) (pairing S v g) 0

/-- When the reported error is zero, so is every element of `g`. -/
def Stationary (S : Sys d m D) (junk s0 : State d m D) (a0 : Amps) (ops : List Op) (g : Amps) :
    Prop :=
  query S junk s0 a0 ops .getFidErr = .real 0 → ∀ k j, k < S.nTs → j < S.nCtrls → g k j = 0

theorem along_zero (amps v : Amps) : along amps v 0 = amps := by
  ext k j
  simp [along]

theorem Descends.of_bound {S : Sys d m D} {junk s0 : State d m D} {a0 : Amps} {ops : List Op}
    {g : Amps} {err bd : Amps → ℝ} (hr : ReportsErr S junk s0 a0 ops err)
    (hnow : query S junk s0 a0 ops .getFidErr = .real (err (lastAmps a0 ops)))
    (hle : ∀ a, err a ≤ bd a) (heq : bd (lastAmps a0 ops) = err (lastAmps a0 ops))
    (hs : ∀ v, HasDerivAt (fun t => bd (along (lastAmps a0 ops) v t)) (pairing S v g) 0) :
    Descends S junk s0 a0 ops g := by
  intro v hv
  obtain ⟨δ, hδ, h⟩ := lower_of_neg_deriv (hs v) hv
  refine ⟨_, hnow, δ, hδ, fun t h0 ht => ⟨_, hr _, ?_⟩⟩
  have := h t h0 ht
  rw [along_zero, heq] at this
  exact (hle _).trans_lt this

theorem reports_now {S : Sys d m D} (hn : Valid S) {junk s0 : State d m D} {a0 : Amps}
    {ops : List Op} {err : Amps → ℝ} (hr : ReportsErr S junk s0 a0 ops err) :
    query S junk s0 a0 ops .getFidErr = .real (err (lastAmps a0 ops)) := by
  have := hr (lastAmps a0 ops)
  rw [query_eq hn, lastAmps_update] at this
  rw [query_eq hn, this]

theorem stationary_of {S : Sys d m D} (hn : Valid S) {junk s0 : State d m D} {a0 : Amps}
    {ops : List Op} {g : Amps} {err : Amps → ℝ} (hr : ReportsErr S junk s0 a0 ops err)
    (h0 : ∀ a, 0 ≤ err a) (hg : IsGradient S err (lastAmps a0 ops) g) :
    Stationary S junk s0 a0 ops g := by
  intro he k j hk hj
  rw [reports_now hn hr] at he
  injection he with he
  refine IsLocalMin.hasDerivAt_eq_zero (.of_forall fun u => ?_) (hg k j hk hj)
  rw [setAmp_self, he]
  exact h0 _

/-- **C73**, trace difference measure, any dynamics whose propagators are exponentials: after any
history the reported gradient determines the slope of the reported error in every direction, a
small step in any direction whose inner product with it is negative, in particular against it,
lowers the error, and it vanishes where the error is zero. -/
theorem C73_distance {S : Sys d m D} (hn : Valid S) (hu : S.fidKind = .traceDiff)
    (hp : S.propKind ≠ .approx) (hS : AffineProps S) (junk s0 : State d m D) (a0 : Amps)
    (ops : List Op) (hx : ExactPropGrad S (lastAmps a0 ops)) :
    ∃ g, query S junk s0 a0 ops .getGradient = .array g ∧ SlopeIs S junk s0 a0 ops g ∧
      Descends S junk s0 a0 ops g ∧ Lowers S junk s0 a0 ops g ∧
      (0 ≤ S.scale → Stationary S junk s0 a0 ops g) := by
  obtain ⟨err, g, hr, hq, hg⟩ := C13_gradient_is_derivative hn hu hp junk s0 a0 ops hx
  have herr : ∀ a, err a = S.scale * frobSq (S.target - final S a) := by
    intro a
    have := hr a
    rw [query_eq hn, lastAmps_update] at this
    simp only [answer, fidErr, hu, Out.ofReal, frobSq_re, Out.real.injEq] at this
    exact this.symm
  have hsl : ∀ v, HasDerivAt (fun t => err (along (lastAmps a0 ops) v t)) (pairing S v g) 0 := by
    intro v
    refine hasDerivAt_along (fun a b hab => by rw [herr, herr, final_congr hab]) ?_ hg v
    simp only [herr]
    unfold frobSq
    refine DifferentiableAt.const_mul (DifferentiableAt.fun_sum fun i _ =>
      DifferentiableAt.fun_sum fun j _ => DifferentiableAt.norm_sq ℝ ?_) _
    simp only [Matrix.sub_apply]
    exact ((differentiable_final hS (lastAmps a0 ops) i j).const_sub _).differentiableAt
  have hde : Descends S junk s0 a0 ops g :=
    .of_bound hr (reports_now hn hr) (fun _ => le_rfl) rfl hsl
  refine ⟨g, hq, ⟨err, hr, hsl⟩, hde, hde.lowers,
    fun h0 => stationary_of hn hr (fun a => ?_) hg⟩
  rw [herr]
  exact mul_nonneg h0 (frobSq_nonneg _)

/-! ### The dynamics at hand -/

theorem affineProps_linear {S : Sys d m D} (hl : LinearPhase S) (hp : S.propKind ≠ .diag)
    (he : S.expm = NormedSpace.exp) : AffineProps S := by
  have h0 : phased S 0 = 0 := by
    have := hl 0 0 1
    simpa using this
  have hsum : ∀ (s : Finset Nat) (A : Matrix d d ℂ) (f : Nat → ℂ) (B : Nat → Matrix d d ℂ),
      phased S (A + ∑ j ∈ s, f j • B j) = phased S A + ∑ j ∈ s, f j • phased S (B j) := by
    intro s A f B
    induction s using Finset.induction_on with
    | empty => simp
    | insert j s hj ih =>
      rw [Finset.sum_insert hj, Finset.sum_insert hj, add_comm (f j • B j), ← add_assoc, hl, ih]
      abel
  refine ⟨fun k => (S.tau k : ℂ) • phased S (S.drift k),
    fun k j => (S.tau k : ℂ) • phased S (S.ctrl k j), fun amps k _ => ?_⟩
  unfold propagator generator
  rw [if_neg hp, he, hsum, smul_add, Finset.smul_sum]
  simp only [smul_comm (S.tau k : ℂ)]

theorem affineProps_unitary {c : UnitaryCfg d m} (hc : Closed c) : AffineProps c.sys := by
  refine ⟨fun k => (c.tau k : ℂ) • (-Complex.I • c.drift k),
    fun k j => (c.tau k : ℂ) • (-Complex.I • c.ctrl k j), fun amps k hk => ?_⟩
  rw [propagator_exp hc _ (by simpa using hk)]
  unfold generator
  simp only [sys_drift, sys_ctrl, sys_nCtrls, smul_add, Finset.smul_sum]
  congr 2
  refine Finset.sum_congr rfl fun j _ => ?_
  simp only [smul_smul]
  congr 1
  ring

/-- **C73**, closed systems with the trace difference measure. -/
theorem C73_unitary_distance {c : UnitaryCfg d m} (hc : Closed c) (hu : c.fidKind = .traceDiff)
    (junk s0 : State d m (Decomp d)) (a0 : Amps) (ops : List Op)
    (hx : ExactAt c (lastAmps a0 ops)) :
    ∃ g, query c.sys junk s0 a0 ops .getGradient = .array g ∧ SlopeIs c.sys junk s0 a0 ops g ∧
      Descends c.sys junk s0 a0 ops g ∧ Lowers c.sys junk s0 a0 ops g ∧
      (0 ≤ c.sys.scale → Stationary c.sys junk s0 a0 ops g) := by
  refine C73_distance hc.valid (by simpa using hu) ?_ (affineProps_unitary hc) junk s0 a0 ops
    (hc.exactPropGrad hx)
  rw [sys_propKind]
  rcases hx with h | ⟨h, _⟩ <;> simp [h]

/-- **C73**, dynamics given by general generators, such as those of open systems. -/
theorem C73_general {c : GeneralCfg d m} (h1 : 0 < c.nTs) (h2 : 0 < c.nCtrls)
    (hu : c.fidKind = .traceDiff) (ha : c.approx = false)
    (junk s0 : State d m Unit) (a0 : Amps) (ops : List Op) :
    ∃ g, query c.sys junk s0 a0 ops .getGradient = .array g ∧ SlopeIs c.sys junk s0 a0 ops g ∧
      Descends c.sys junk s0 a0 ops g ∧ Lowers c.sys junk s0 a0 ops g ∧
      (0 ≤ c.sys.scale → Stationary c.sys junk s0 a0 ops g) := by
  have hk : c.sys.propKind = .frechet := by
    show (if c.approx then PropKind.approx else .frechet) = .frechet
    rw [ha]
    rfl
  exact C73_distance (general_valid h1 h2) hu (by rw [hk]; simp)
    (affineProps_linear (fun _ _ _ => rfl) (by rw [hk]; simp) rfl) junk s0 a0 ops (general_exact _ _)

/-- **C73**, symplectic dynamics. -/
theorem C73_symplectic {n : Nat} {c : Sympl.Cfg n m} (h : SymplecticCfg c) (junk s0 : State _ _ _)
    (a0 : Amps) (ops : List Op) :
    ∃ g, query c.sys junk s0 a0 ops .getGradient = .array g ∧ SlopeIs c.sys junk s0 a0 ops g ∧
      Descends c.sys junk s0 a0 ops g ∧ Lowers c.sys junk s0 a0 ops g ∧
      (0 ≤ c.sys.scale → Stationary c.sys junk s0 a0 ops g) := by
  obtain ⟨z, hz, hph⟩ := Sympl.sys_phase h
  have hl : LinearPhase c.sys := by
    intro A B w
    rcases hph with hph | hph <;>
      simp [phased, hph, Matrix.mul_add, Matrix.add_mul, smul_comm z w]
  obtain ⟨pc, e⟩ := Sympl.sys_eq c
  exact C73_distance (Sympl.sys_valid h) (by rw [e]) (by rw [e]; simp)
    (affineProps_linear hl (by rw [e]; simp) (by rw [e])) junk s0 a0 ops
    (exactPropGrad_linear hl (by rw [e]; simp) (by rw [e]) (by rw [e]) _)

/-! ### The unitary measure -/

/-- **C73**, closed systems with the unitary measure, gates and states, with and without global
phase: after any history, a small step in any direction whose inner product with the reported
gradient is negative, in particular against the gradient, lowers the reported error, even where the overlap is zero and the error has no gradient, and the reported gradient vanishes
where the error is zero. -/
theorem C73_unitary {c : UnitaryCfg d m} [Nonempty m] (hc : Closed c) (hi : Normalised c)
    (hu : c.fidKind = .unitary) (hq : c.phaseOpt = .SU → c.isQobj = true)
    (junk s0 : State d m (Decomp d)) (a0 : Amps) (ops : List Op)
    (hx : ExactAt c (lastAmps a0 ops)) :
    ∃ g, query c.sys junk s0 a0 ops .getGradient = .array g ∧ Descends c.sys junk s0 a0 ops g ∧
      Lowers c.sys junk s0 a0 ops g ∧ Stationary c.sys junk s0 a0 ops g := by
  have hq' : c.sys.phaseOpt = .SU → c.sys.isQobj = true := by simpa using hq
  have hu' : c.sys.fidKind = .unitary := by simpa using hu
  have hpk : c.sys.propKind ≠ .approx := by
    rw [sys_propKind]
    rcases hx with h | ⟨h, _⟩ <;> simp [h]
  have hn := hc.valid
  have hpos : (0 : ℝ) < c.sys.dimNorm := by rw [dimNorm_eq hi.target]; exact card_pos' (m := m)
  set amps := lastAmps a0 ops with hamps
  set f := fidNum c.sys amps with hf
  have hle : ∀ a, fidNum c.sys a ≤ 1 := fun a => (abs_le.1 (fidNum_le_one hc hi a)).2
  have hrep : ReportsErr c.sys junk s0 a0 ops fun a => 1 - fidNum c.sys a := by
    intro a
    rw [query_eq hn, lastAmps_update]
    simp only [answer, fidErr, hu', fidelity_eq_fidNum hq', Except.map, Out.ofReal]
    rw [abs_of_nonneg (by linarith [hle a])]
  have hgrad : query c.sys junk s0 a0 ops .getGradient = .array fun k j =>
      if k < c.sys.nTs ∧ j < c.sys.nCtrls then gradEntry c.sys amps f k j else 0 := by
    rw [query_eq hn]
    simp only [answer, gradient, hu', fidelity_eq_fidNum hq', Except.map, if_neg hpk, Out.ofArray,
      ← hamps, ← hf]
  have hstat : Stationary c.sys junk s0 a0 ops fun k j =>
      if k < c.sys.nTs ∧ j < c.sys.nCtrls then gradEntry c.sys amps f k j else 0 := by
    intro he
    have hf1 : f = 1 := by
      rw [reports_now hn hrep] at he
      injection he with he
      linarith
    obtain ⟨err, g, hr, hgq, hg⟩ := C12_unitary hc hi hu hq junk s0 a0 ops hx (by
      intro _ h0
      rw [query_eq hn] at h0
      simp only [answer, hu', fidelity_eq_fidNum hq', Out.ofReal, Out.real.injEq, ← hamps, ← hf] at h0
      rw [hf1] at h0
      exact one_ne_zero h0)
    rw [hgrad] at hgq
    injection hgq with hgq
    rw [hgq]
    refine stationary_of hn hr (fun a => ?_) hg he
    have := (hr a).symm.trans (hrep a)
    injection this with this
    rw [this]
    linarith [hle a]
  suffices hde : Descends c.sys junk s0 a0 ops _ from ⟨_, hgrad, hde, hde.lowers, hstat⟩
  by_cases hf1 : 1 ≤ f
  · intro v hv
    have he : query c.sys junk s0 a0 ops .getFidErr = .real 0 := by
      rw [reports_now hn hrep]
      have : f = 1 := le_antisymm (hle amps) hf1
      show Out.real (1 - f) = _
      rw [this, sub_self]
    have h0 : pairing c.sys v (fun k j =>
        if k < c.sys.nTs ∧ j < c.sys.nCtrls then gradEntry c.sys amps f k j else 0) = 0 := by
      unfold pairing
      refine Finset.sum_eq_zero fun k hk => Finset.sum_eq_zero fun j hj => ?_
      rw [hstat he k j (Finset.mem_range.1 hk) (Finset.mem_range.1 hj), mul_zero]
    rw [h0] at hv
    exact absurd hv (lt_irrefl 0)
  -- a bound of the error that is differentiable and touches it
  obtain ⟨w, hw1, hw2, hw3⟩ : ∃ w : ℂ,
      (∀ a, (w * overlap c.sys a).re / c.sys.dimNorm ≤ fidNum c.sys a) ∧
      (w * overlap c.sys amps).re / c.sys.dimNorm = f ∧
      ∀ k j, gradEntry c.sys amps f k j =
        -((w * (c.sys.ontoTarget * finalGrad c.sys amps k j).trace).re / c.sys.dimNorm) := by
    cases hp : c.sys.phaseOpt with
    | SU =>
      refine ⟨1, fun a => ?_, ?_, fun k j => ?_⟩
      · simp only [fidNum, hp, one_mul, le_refl]
      · simp only [hf, fidNum, hp, one_mul]
      · simp only [gradEntry, hu', hp, hf1, if_false, one_mul]
    | PSU =>
      refine ⟨Complex.exp (-Complex.I * (Complex.arg (overlap c.sys amps) : ℂ)), fun a => ?_, ?_,
        fun k j => ?_⟩
      · simp only [fidNum, hp]
        refine div_le_div_of_nonneg_right ((Complex.re_le_norm _).trans ?_) hpos.le
        rw [norm_mul]
        have : ‖Complex.exp (-Complex.I * (Complex.arg (overlap c.sys amps) : ℂ))‖ = 1 := by
          rw [show -Complex.I * (Complex.arg (overlap c.sys amps) : ℂ) =
            ((-Complex.arg (overlap c.sys amps) : ℝ) : ℂ) * Complex.I by push_cast; ring]
          exact Complex.norm_exp_ofReal_mul_I _
        rw [this, one_mul]
      · simp only [hf, fidNum, hp]
        congr 1
        have h1 := Complex.norm_mul_exp_arg_mul_I (overlap c.sys amps)
        generalize (overlap c.sys amps).arg = θ at h1 ⊢
        generalize ‖overlap c.sys amps‖ = r at h1 ⊢
        rw [← h1, mul_comm, mul_assoc, ← Complex.exp_add,
          show (θ : ℂ) * Complex.I + -Complex.I * θ = 0 by ring, Complex.exp_zero, mul_one,
          Complex.ofReal_re]
      · simp only [gradEntry, hu', hp, hf1, if_false]
        rw [← Complex.div_ofReal_re, mul_comm]
  have hI : IsGradient c.sys (fun a => 1 - (w * overlap c.sys a).re / c.sys.dimNorm) amps
      (fun k j => if k < c.sys.nTs ∧ j < c.sys.nCtrls then gradEntry c.sys amps f k j else 0) := by
    intro k j hk hj
    simp only [hk, hj, and_self, if_true, hw3]
    have hov := (overlap_deriv (hc.exactPropGrad hx) hk hj).const_mul w
    exact ((hasDerivAt_re hov).div_const _).const_sub 1
  refine .of_bound (bd := fun a => 1 - (w * overlap c.sys a).re / c.sys.dimNorm) hrep
    (reports_now hn hrep) (fun a => by linarith [hw1 a]) ?_ ?_
  · simp only [← hamps, hw2, ← hf]
  · refine hasDerivAt_along (fun a b hab => by rw [overlap_congr hab]) ?_ hI
    have := ((differentiable_overlap (affineProps_unitary hc) amps).const_mul w)
    simp only [div_eq_mul_inv]
    exact (((Complex.reCLM.differentiable.comp this).mul_const _).const_sub 1).differentiableAt

/-- **C73**: where the overlap is not zero, the reported gradient also gives the slope of the
reported error in every direction. -/
theorem C73_unitary_slope {c : UnitaryCfg d m} [Nonempty m] (hc : Closed c) (hi : Normalised c)
    (hu : c.fidKind = .unitary) (hq : c.phaseOpt = .SU → c.isQobj = true)
    (junk s0 : State d m (Decomp d)) (a0 : Amps) (ops : List Op)
    (hx : ExactAt c (lastAmps a0 ops))
    (h0 : c.phaseOpt = .PSU → query c.sys junk s0 a0 ops .getFidelity ≠ .real 0) :
    ∃ g, query c.sys junk s0 a0 ops .getGradient = .array g ∧ SlopeIs c.sys junk s0 a0 ops g := by
  have hq' : c.sys.phaseOpt = .SU → c.sys.isQobj = true := by simpa using hq
  have hu' : c.sys.fidKind = .unitary := by simpa using hu
  obtain ⟨err, g, hr, hgq, hg⟩ := C12_unitary hc hi hu hq junk s0 a0 ops hx h0
  have hle : ∀ a, fidNum c.sys a ≤ 1 := fun a => (abs_le.1 (fidNum_le_one hc hi a)).2
  have herr : ∀ a, err a = 1 - fidNum c.sys a := by
    intro a
    have := hr a
    rw [query_eq hc.valid, lastAmps_update] at this
    simp only [answer, fidErr, hu', fidelity_eq_fidNum hq', Except.map, Out.ofReal,
      Out.real.injEq] at this
    rw [← this, abs_of_nonneg (by linarith [hle a])]
  refine ⟨g, hgq, err, hr, fun v => hasDerivAt_along (fun a b hab => ?_) ?_ hg v⟩
  · rw [herr, herr]
    unfold fidNum
    rw [overlap_congr hab]
  · simp only [herr]
    refine DifferentiableAt.const_sub ?_ 1
    have hd := (differentiable_overlap (affineProps_unitary hc) (lastAmps a0 ops)).differentiableAt
      (x := pick c.sys.nTs c.sys.nCtrls (lastAmps a0 ops))
    unfold fidNum
    cases hp : c.sys.phaseOpt with
    | SU =>
      simp only [div_eq_mul_inv]
      exact (Complex.reCLM.differentiableAt.comp _ hd).mul_const _
    | PSU =>
      simp only [div_eq_mul_inv]
      refine (DifferentiableAt.norm ℝ hd ?_).mul_const _
      rw [fill_pick]
      intro ho
      refine h0 (by rw [← hp, sys_phaseOpt]) ?_
      rw [query_eq hc.valid]
      simp only [answer, hu', fidelity_eq_fidNum hq', Out.ofReal, fidNum, hp, ho, norm_zero, zero_div]

/-- A qubit with one slot whose control turns it about the axis of the target, a half turn. -/
noncomputable def halfTurn (po : PhaseOpt) : UnitaryCfg (Fin 2) (Fin 2) :=
  qubit 1 0 (diagonal ![1, -1]) (diagonal ![-Complex.I, Complex.I]) .unitary po

theorem halfTurn_closed (po : PhaseOpt) : Closed (halfTurn po) :=
  qubit_closed (by norm_num) (by simp [Matrix.IsHermitian]) sample_drift .unitary po

theorem halfTurn_normalised (po : PhaseOpt) : Normalised (halfTurn po) := by
  refine qubit_normalised ?_ .unitary po
  ext i j
  fin_cases i <;> fin_cases j <;> simp [Matrix.mul_apply, Fin.sum_univ_two]

theorem halfTurn_overlap (po : PhaseOpt) (a : Amps) :
    overlap (halfTurn po).sys a = ((2 * Real.sin (a 0 0 / 2) : ℝ) : ℂ) := by
  have hp : propagator (halfTurn po).sys a 0 =
      diagonal (fun i => Complex.exp ((![-1, 1] : Fin 2 → ℂ) i * ((a 0 0 / 2 : ℝ) * Complex.I))) := by
    rw [propagator_exp (halfTurn_closed po) a (show 0 < 1 by norm_num), ← exp_diagonal']
    congr 1
    ext i j
    fin_cases i <;> fin_cases j <;>
      simp [generator, halfTurn, qubit] <;> ring
  rw [overlap_sys]
  unfold final evolution
  have hn : (halfTurn po).sys.nTs = 0 + 1 := rfl
  rw [hn, timeOrdered_succ _ le_rfl, timeOrdered_self, hp]
  have hi : (halfTurn po).sys.initial = 1 := rfl
  have ht : (halfTurn po).target = diagonal ![-Complex.I, Complex.I] := rfl
  rw [hi, ht, Matrix.mul_one, Matrix.mul_one, Matrix.diagonal_conjTranspose,
    Matrix.diagonal_mul_diagonal, Matrix.trace_diagonal]
  simp only [Fin.sum_univ_two, Pi.star_apply]
  push_cast
  rw [Complex.sin]
  simp
  ring

/-- The hypotheses are met, also where the overlap is zero: starting from zero amplitudes, the
reported gradient is -1/2. -/
example (po : PhaseOpt) (junk s0 : State (Fin 2) (Fin 2) (Decomp (Fin 2))) :
    Closed (halfTurn po) ∧ Normalised (halfTurn po) ∧ ExactAt (halfTurn po) (fun _ _ => 0) ∧
      overlap (halfTurn po).sys (fun _ _ => 0) = 0 ∧
      ∃ g, query (halfTurn po).sys junk s0 (fun _ _ => 0) [] .getGradient = .array g ∧
        g 0 0 = -1 / 2 := by
  have hc := halfTurn_closed po
  have h0 : overlap (halfTurn po).sys (fun _ _ => 0) = 0 := by rw [halfTurn_overlap]; simp
  have hd : ((halfTurn po).sys.ontoTarget *
      finalGrad (halfTurn po).sys (fun _ _ => 0) 0 0).trace = 1 := by
    have h1 := overlap_deriv (S := (halfTurn po).sys) (amps := fun _ _ => 0) (k := 0) (j := 0)
      (hc.exactPropGrad (Or.inl rfl)) (show 0 < 1 by norm_num) (show 0 < 1 by norm_num)
    refine h1.unique ?_
    simp only [halfTurn_overlap, setAmp, and_self, if_true]
    have h2 : HasDerivAt (fun u : ℝ => 2 * Real.sin (u / 2)) 1 0 := by
      have := ((Real.hasDerivAt_sin (0 / 2)).comp (0 : ℝ)
        ((hasDerivAt_id (0 : ℝ)).div_const 2)).const_mul 2
      simpa using this
    simpa using h2.ofReal_comp
  have hdn : (halfTurn po).sys.dimNorm = 2 := by
    rw [dimNorm_eq (halfTurn_normalised po).target]
    simp
  refine ⟨hc, halfTurn_normalised po, Or.inl rfl, h0,
    fun k j => if k < (halfTurn po).sys.nTs ∧ j < (halfTurn po).sys.nCtrls then
      gradEntry (halfTurn po).sys (fun _ _ => 0) 0 k j else 0, ?_, ?_⟩
  · rw [query_eq hc.valid]
    have hf : fidNum (halfTurn po).sys (fun _ _ => 0) = 0 := by
      unfold fidNum
      rw [h0]
      cases (halfTurn po).sys.phaseOpt <;> simp
    have hu : (halfTurn po).sys.fidKind = .unitary := rfl
    have hk : (halfTurn po).sys.propKind ≠ .approx := by
      rw [sys_propKind]
      simp [halfTurn, qubit]
    simp only [answer, lastAmps, gradient, if_neg hk, hu, fidelity_eq_fidNum (S := (halfTurn po).sys)
      (fun _ => rfl), Except.map, Out.ofArray, hf]
  · have hu : (halfTurn po).sys.fidKind = .unitary := rfl
    have h1 : (0 < (halfTurn po).sys.nTs ∧ 0 < (halfTurn po).sys.nCtrls) :=
      ⟨show 0 < 1 by norm_num, show 0 < 1 by norm_num⟩
    simp only [if_pos h1, gradEntry, hu, hd, h0, hdn]
    cases (halfTurn po).sys.phaseOpt <;> norm_num

/-- Those of the other theorems are met by the qubit, the coupled oscillators and the latter written
with generators. -/
example (a : Amps) : Closed (sample 3 .traceDiff .PSU) ∧ ExactAt (sample 3 .traceDiff .PSU) a ∧
    0 < oscillatorFlow.nTs ∧ 0 < oscillatorFlow.nCtrls ∧ oscillatorFlow.fidKind = .traceDiff ∧
    oscillatorFlow.approx = false :=
  ⟨sample_closed (by norm_num) _ _, Or.inl rfl, by decide, by decide, rfl, rfl⟩

end QTrl.Dyn
