import Verif.Props.Evolution
import Verif.Proofs.Unitary

/-
C12 and C13: the reported gradient is the gradient of the reported error.

`query` is what a query returns after an arbitrary history; the error function that is
differentiated is the one the object itself reports after further amplitudes have been
submitted.
-/

set_option linter.unusedSectionVars false

open Matrix

namespace QTrl.Dyn

open QTrl.Spec

variable {d m D : Type} [Fintype d] [DecidableEq d] [Fintype m] [DecidableEq m]

/-- The output of operation `op` after the history `ops`. -/
noncomputable def query (S : Sys d m D) (junk s0 : State d m D) (a0 : Amps) (ops : List Op)
    (op : Op) : Out :=
  (step S junk (reached S junk s0 a0 ops) op).2

theorem query_eq {S : Sys d m D} (hn : Valid S) (junk s0 : State d m D) (a0 : Amps)
    (ops : List Op) (op : Op) :
    query S junk s0 a0 ops op = answer S (some (lastAmps a0 ops)) op := by
  obtain ⟨hi, hb⟩ := reached_inv hn junk s0 a0 ops
  exact (step_spec hn junk hi (A := some (lastAmps a0 ops)) hb op).1

theorem lastAmps_update (a0 : Amps) (ops : List Op) (a : Amps) :
    lastAmps a0 (ops ++ [.updateAmps a]) = a := by
  induction ops generalizing a0 with
  | nil => rfl
  | cons op ops ih => cases op <;> simp only [List.cons_append, lastAmps, ih]

/-- The error the object reports as a function of further submitted amplitudes. -/
def ReportsErr (S : Sys d m D) (junk s0 : State d m D) (a0 : Amps) (ops : List Op)
    (err : Amps → ℝ) : Prop :=
  ∀ a, query S junk s0 a0 (ops ++ [.updateAmps a]) .getFidErr = .real (err a)

theorem hasDerivAt_abs_one_sub {f : ℝ → ℝ} {f' t : ℝ} (h : HasDerivAt f f' t)
    (h1 : f t ≠ 1 ∨ ∀ u, f u ≤ 1) :
    HasDerivAt (fun u => |1 - f u|) (if 1 ≤ f t then f' else -f') t := by
  by_cases hle : ∀ u, f u ≤ 1
  · have e : (fun u => |1 - f u|) = fun u => 1 - f u := by
      ext u
      rw [abs_of_nonneg (by linarith [hle u])]
    rw [e]
    by_cases hf : 1 ≤ f t
    · have h0 : f' = 0 := by
        refine IsLocalMax.hasDerivAt_eq_zero (f := f) (a := t) ?_ h
        exact Filter.Eventually.of_forall fun u => (hle u).trans hf
      simpa [hf, h0] using h.const_sub 1
    · simpa [hf] using h.const_sub 1
  · have hne : f t ≠ 1 := h1.resolve_right hle
    rcases lt_or_gt_of_ne hne with hlt | hgt
    · rw [if_neg (not_le.2 hlt)]
      have hev : (fun u => |1 - f u|) =ᶠ[nhds t] fun u => 1 - f u := by
        filter_upwards [h.continuousAt.eventually_lt continuousAt_const hlt] with u hu
        rw [abs_of_nonneg (by linarith)]
      exact (h.const_sub 1).congr_of_eventuallyEq hev
    · rw [if_pos hgt.le]
      have hev : (fun u => |1 - f u|) =ᶠ[nhds t] fun u => f u - 1 := by
        filter_upwards [continuousAt_const.eventually_lt h.continuousAt hgt] with u hu
        rw [abs_of_neg (by linarith)]
        ring
      exact (h.sub_const 1).congr_of_eventuallyEq hev

/-- The fidelity as a plain number. -/
noncomputable def fidNum (S : Sys d m D) (amps : Amps) : ℝ :=
  match S.phaseOpt with
  | .PSU => ‖overlap S amps‖ / S.dimNorm
  | .SU => (overlap S amps).re / S.dimNorm

theorem fidelity_eq_fidNum {S : Sys d m D} (hq : S.phaseOpt = .SU → S.isQobj = true) (amps : Amps) :
    fidelity S amps = .ok (fidNum S amps) := by
  unfold fidelity fidNum
  cases hp : S.phaseOpt with
  | PSU => rfl
  | SU => rw [hq hp]

/-- **C12.** Unitary fidelity measure, any system with exact propagator gradients: after
any history the reported gradient is the gradient of the reported error at the current
amplitudes, provided the overlap is not zero (PSU only) and the fidelity is not one or
never exceeds one. -/
theorem C12_gradient_is_derivative {S : Sys d m D} (hn : Valid S) (hu : S.fidKind = .unitary)
    (hp : S.propKind ≠ .approx) (hq : S.phaseOpt = .SU → S.isQobj = true)
    (junk s0 : State d m D) (a0 : Amps) (ops : List Op)
    (hx : ExactPropGrad S (lastAmps a0 ops))
    (h0 : S.phaseOpt = .PSU → overlap S (lastAmps a0 ops) ≠ 0)
    (h1 : query S junk s0 a0 ops .getFidelity ≠ .real 1 ∨
      ∀ a f, query S junk s0 a0 (ops ++ [.updateAmps a]) .getFidelity = .real f → f ≤ 1) :
    ∃ err g, ReportsErr S junk s0 a0 ops err ∧ query S junk s0 a0 ops .getGradient = .array g ∧
      IsGradient S err (lastAmps a0 ops) g := by
  set amps := lastAmps a0 ops with hamps
  refine ⟨fun a => |1 - fidNum S a|, fun k j =>
    if k < S.nTs ∧ j < S.nCtrls then gradEntry S amps (fidNum S amps) k j else 0, ?_, ?_, ?_⟩
  · intro a
    rw [query_eq hn, lastAmps_update]
    simp only [answer, fidErr, hu, fidelity_eq_fidNum hq, Except.map, Out.ofReal]
  · rw [query_eq hn]
    simp only [answer, gradient, hu, fidelity_eq_fidNum hq, Except.map, if_neg hp, Out.ofArray,
      ← hamps]
  · intro k j hk hj
    simp only [hk, hj, and_self, if_true]
    have hov := overlap_deriv hx hk hj
    have hself : fidNum S (setAmp amps k j (amps k j)) = fidNum S amps := by rw [setAmp_self]
    have hdf : HasDerivAt (fun u => fidNum S (setAmp amps k j u))
        (match S.phaseOpt with
          | .PSU => ((S.ontoTarget * finalGrad S amps k j).trace *
              Complex.exp (-Complex.I * (Complex.arg (overlap S amps) : ℂ)) / (S.dimNorm : ℂ)).re
          | .SU => (S.ontoTarget * finalGrad S amps k j).trace.re / S.dimNorm) (amps k j) := by
      unfold fidNum
      cases hpo : S.phaseOpt with
      | PSU =>
        have h2 := hasDerivAt_norm hov (by rw [setAmp_self]; exact h0 hpo)
        rw [setAmp_self] at h2
        have h3 := h2.div_const S.dimNorm
        rw [← Complex.div_ofReal_re] at h3
        exact h3
      | SU => exact (hasDerivAt_re hov).div_const _
    have h1' : fidNum S (setAmp amps k j (amps k j)) ≠ 1 ∨
        ∀ u, fidNum S (setAmp amps k j u) ≤ 1 := by
      rcases h1 with h1 | h1
      · left
        intro he
        apply h1
        rw [hself] at he
        rw [query_eq hn]
        simp only [answer, hu, fidelity_eq_fidNum hq, Out.ofReal, ← hamps, he]
      · right
        intro u
        refine h1 (setAmp amps k j u) _ ?_
        rw [query_eq hn, lastAmps_update]
        simp only [answer, hu, fidelity_eq_fidNum hq, Out.ofReal]
    have h4 := hasDerivAt_abs_one_sub hdf h1'
    rw [hself] at h4
    unfold gradEntry
    rw [hu]
    exact h4

/-- **C13.** Trace difference measure: after any history the reported gradient is the
gradient of the reported error at the current amplitudes, everywhere. -/
theorem C13_gradient_is_derivative {S : Sys d m D} (hn : Valid S) (hu : S.fidKind = .traceDiff)
    (hp : S.propKind ≠ .approx) (junk s0 : State d m D) (a0 : Amps) (ops : List Op)
    (hx : ExactPropGrad S (lastAmps a0 ops)) :
    ∃ err g, ReportsErr S junk s0 a0 ops err ∧ query S junk s0 a0 ops .getGradient = .array g ∧
      IsGradient S err (lastAmps a0 ops) g := by
  set amps := lastAmps a0 ops with hamps
  refine ⟨fun a => S.scale * frobSq (S.target - final S a), fun k j =>
    if k < S.nTs ∧ j < S.nCtrls then gradEntry S amps 0 k j else 0, ?_, ?_, ?_⟩
  · intro a
    rw [query_eq hn, lastAmps_update]
    simp only [answer, fidErr, hu, Out.ofReal, frobSq_re]
  · rw [query_eq hn]
    simp only [answer, gradient, hu, if_neg hp, Out.ofArray, ← hamps]
  · intro k j hk hj
    simp only [hk, hj, and_self, if_true]
    have h1 := (hasDerivAt_frobSq ((final_deriv hx hk hj).const_sub S.target)).const_mul S.scale
    rw [setAmp_self] at h1
    unfold gradEntry
    rw [hu]
    have e : -2 * S.scale * ((S.target - final S amps)ᴴ * finalGrad S amps k j).trace.re =
        S.scale * (2 * ((S.target - final S amps)ᴴ * -finalGrad S amps k j).trace.re) := by
      rw [Matrix.mul_neg, Matrix.trace_neg, Complex.neg_re]
      ring
    rw [← e] at h1
    exact h1

end QTrl.Dyn
