import Verif.Props.Optimizer
import Verif.Props.Crab
import Verif.Props.Reconfig

/-
C28, C29: which amplitudes a point of the minimiser means.  C30: what the minimiser is told.
C31: where the reported gradient norm is wrong.  Concrete runs.
-/

set_option linter.unusedSectionVars false

namespace QTrl.Opt

open QTrl.Dyn QTrl.Spec

variable {d m D : Type} [Fintype d] [DecidableEq d] [Fintype m] [DecidableEq m]

/-- **C29.** The amplitudes a GRAPE optimiser derives from a point of the minimiser: entry
`t * num_ctrls + j` for slot `t` and control `j`. -/
theorem C29_point (S : Sys d m D) (gs : List Pulse.Crab) (x : List ℝ) :
    (∀ a, ampsOf S .grape gs x = .ok a → x.length = S.nTs * S.nCtrls ∧
      ∀ t j, t < S.nTs → j < S.nCtrls → x[t * S.nCtrls + j]? = some (a t j)) ∧
    (x.length = S.nTs * S.nCtrls → ∃ a, ampsOf S .grape gs x = .ok a) := by
  constructor
  · intro a h
    by_cases hl : x.length = S.nTs * S.nCtrls
    · obtain ⟨b, h1, _, h3⟩ := (C29_unflatten S.nTs S.nCtrls x).1 hl
      simp only [ampsOf, getCtrlAmps, h1, Except.map] at h
      injection h with h
      subst h
      exact ⟨hl, h3⟩
    · rw [ampsOf, getCtrlAmps, (C29_unflatten S.nTs S.nCtrls x).2 hl] at h
      cases h
  · intro hl
    obtain ⟨b, h1, _⟩ := (C29_unflatten S.nTs S.nCtrls x).1 hl
    exact ⟨b, by simp only [ampsOf, getCtrlAmps, h1, Except.map]⟩

theorem columns_spec (n : ℕ) : ∀ (ps : List (List ℝ)) (cs : List (ℕ → ℝ)), columns n ps = .ok cs →
    cs.length = ps.length ∧ ∀ (j : ℕ) (p : List ℝ), ps[j]? = some p → p.length = n →
      ∀ k, k < n → p[k]? = some (cs.getD j (fun _ => 0) k) := by
  intro ps
  induction ps with
  | nil => intro cs h; injection h with h; subst h; exact ⟨rfl, fun j p hj => by simp at hj⟩
  | cons p ps ih =>
    intro cs h
    unfold columns at h
    split at h
    · cases hc : columns n ps with
      | error e => rw [hc] at h; cases h
      | ok cs' =>
        rw [hc] at h
        injection h with h
        subst h
        obtain ⟨h1, h2⟩ := ih cs' hc
        refine ⟨by simp [h1], ?_⟩
        intro j q hj hq k hk
        cases j with
        | zero =>
          simp only [List.getElem?_cons_zero, Option.some.injEq] at hj
          subst hj
          rw [List.getD_cons_zero, if_pos hq, List.getD_eq_getElem?_getD,
            List.getElem?_eq_getElem (by omega)]
          rfl
        | succ j =>
          rw [List.getElem?_cons_succ] at hj
          rw [List.getD_cons_succ]
          exact h2 j q hj hq k hk
    · cases h

/-- **C28.** The amplitudes a CRAB optimiser derives from a point: those of control `j` are
the pulse its generator makes with its own slice of the point as coefficients. -/
theorem C28_point (S : Sys d m D) (gs : List Pulse.Crab) (x : List ℝ) (a : Amps)
    (hs : ∀ g ∈ gs, Pulse.Sized g) (hlen : x.length = (gs.map Pulse.Crab.numOptimVars).sum)
    (h : ampsOf S .crab gs x = .ok a) (j : ℕ) (g : Pulse.Crab) (hg : gs[j]? = some g) :
    ∃ c p, Pulse.Crab.gen { g with coeffs := some c } = .ok p ∧
      c.rows = g.numCoeffs.getD 0 ∧ c.cols = g.numBasis ∧
      (∀ i l, i < c.rows → l < c.cols →
        x[Pulse.varStart gs j + (i * c.cols + l)]? = some (c.val i l)) ∧
      (p.length = S.nTs → ∀ k, k < S.nTs → p[k]? = some (a k j)) := by
  simp only [ampsOf, getCtrlAmps, crabAmps] at h
  cases hd : Pulse.distribute x 0 gs with
  | error e => rw [hd] at h; cases h
  | ok w =>
    obtain ⟨gs', ps⟩ := w
    rw [hd] at h
    simp only at h
    cases hc : columns S.nTs ps with
    | error e => rw [hc] at h; cases h
    | ok cs =>
      rw [hc] at h
      injection h with h
      subst h
      obtain ⟨_, _, _, h4⟩ := Pulse.C28_distribute_collect gs gs' x ps hs hlen hd
      obtain ⟨c, p, _, e2, e3, e4, e5, e6⟩ := h4 j g hg
      exact ⟨c, p, e3, e4, e5, e6, fun hp k hk => (columns_spec S.nTs ps cs hc).2 j p e2 hp k hk⟩

/-- Two controls with four and two variables, four slots. -/
example : ∃ a, ampsOf { tinySys with nTs := 4, nCtrls := 2 } .crab Pulse.crabPair [1, 2, 3, 4, 5, 6] =
    .ok a := by
  refine ⟨_, by
    simp [ampsOf, getCtrlAmps, crabAmps, Pulse.crabPair, Pulse.distribute, Pulse.crabExample,
      Pulse.Crab.fresh, Pulse.Base.ofDyn, Pulse.Crab.setCoeffs, Pulse.reshape, Pulse.Crab.gen,
      Pulse.addWaves, Pulse.addInto, Pulse.Crab.applyGuess, Pulse.Crab.applyRamp,
      Pulse.BoundCond.apply, List.replicate, List.range, List.range.loop, Pulse.crabWave, columns,
      Except.map]
    rfl⟩

/-- **C30.** At every point it tries before the run ends the minimiser is told the fidelity
error, or the gradient in the order of the variables, of the amplitudes meant by that point. -/
theorem C30_replies {S : Sys d m D} (hS : Valid S) (c : Cls) (tc : TermConds)
    (junk s0 : State d m D) (a0 : Amps) (gn0 : ℝ) (ops : List VOp) (gens : List Pulse.Crab)
    (start : ℝ) (cs : List Call) (hq : Quiet S c.vars gens tc start cs) :
    ∃ o' rs, calls S c.vars tc start (attached S junk s0 a0 gn0 ops gens) cs = (o', rs, none) ∧
      List.Forall₂ (fun k r => replyFor S c.vars gens k = .ok r) cs rs := by
  obtain ⟨o2, rs, e2, _, _, _, k2, _⟩ := calls_quiet hS c.vars tc start cs
    (attached_inv hS junk s0 a0 gn0 ops gens) (quietFrom_zero.2 hq)
  exact ⟨o2, rs, e2, k2⟩

/-! ### C31: the gradient norm -/

theorem createResult_gradNorm (S : Sys d m D) (o : OState d m D) :
    (createResult S o).1.gradNorm = o.gradNorm := by
  unfold createResult
  rcases getFidErr S o.dyn with ⟨t, _ | e⟩ <;> rfl

/-- No call of the list asks for a gradient. -/
def NoGrad (cs : List Call) : Prop := ∀ x, Call.grad x ∉ cs

theorem calls_gradNorm (S : Sys d m D) (v : VarKind) (tc : TermConds) (start : ℝ) (cs : List Call) :
    ∀ o : OState d m D, NoGrad cs → (calls S v tc start o cs).1.gradNorm = o.gradNorm := by
  induction cs with
  | nil => intro o _; rfl
  | cons c cs ih =>
    intro o h
    have hc : (call S v tc start o c).1.gradNorm = o.gradNorm := by
      cases c with
      | func x =>
        simp only [call, funcWrapper]
        rcases getCtrlAmps S v o.gens x with _ | ⟨gs, a⟩
        · rfl
        · dsimp only
          rcases getFidErr S (compareAmps S o.dyn a).1 with ⟨t, _ | e⟩
          · rfl
          · dsimp only
            split
            · rename_i hh
              (repeat' split at hh) <;> cases hh <;> rfl
            · rename_i hh
              (repeat' split at hh) <;> cases hh
              rfl
      | grad x => exact absurd (List.mem_cons_self) (h x)
      | iter t =>
        simp only [call, iterCallback]
        split
        · rename_i hh
          split at hh <;> cases hh
          rfl
        · rename_i hh
          split at hh <;> cases hh
          rfl
    unfold calls
    generalize call S v tc start o c = y at hc
    rcases y with ⟨o1, _ | r⟩
    · exact hc
    · dsimp only
      have := ih o1 (fun x hx => h x (List.mem_cons_of_mem _ hx))
      generalize calls S v tc start o1 cs = z at this
      obtain ⟨o2, rs, e⟩ := z
      exact this.trans hc

/-- **C31 fails for the gradient norm:** in a run whose minimiser never asks for a gradient
(Nelder-Mead, or the goal is achieved at the first point) the reported final norm is whatever
the fidelity computer held before the run — 0 if it is new. -/
theorem C31_stale_grad_norm (S : Sys d m D) (c : Cls) (tc : TermConds) (o o' : OState d m D)
    (start stop : ℝ) (cs : List Call) (f : Finish) (r : Result d m) (h : NoGrad cs)
    (hr : runOptimization S c tc o start stop cs f = (o', .ok r)) :
    r.gradNormFinal = o.gradNorm := by
  have hadd : ∀ (o1 o2 : OState d m D) (r1 r2 : Result d m),
      addCommon S o1 start stop r1 = (o2, .ok r2) → r2.gradNormFinal = o1.gradNorm := by
    intro o1 o2 r1 r2 h
    unfold addCommon at h
    generalize getFidErr S o1.dyn = y at h
    rcases y with ⟨t, _ | e⟩
    · cases h
    · injection h with _ h
      injection h with h
      subst h
      rfl
  unfold runOptimization at hr
  have h1 := createResult_gradNorm S { o with numIter := 0, numFid := 0, numGrad := 0 }
  dsimp only at hr
  generalize createResult S { o with numIter := 0, numFid := 0, numGrad := 0 } = y at hr h1
  rcases y with ⟨o1, _ | r1⟩
  · cases hr
  · dsimp only at hr
    have h2 := calls_gradNorm S c.vars tc start cs o1 h
    generalize calls S c.vars tc start o1 cs = z at hr h2
    rcases z with ⟨o2, rs, _ | (t | e)⟩
    · dsimp only at hr
      cases hg : getCtrlAmps S c.vars o2.gens f.x with
      | error e => rw [hg] at hr; cases hr
      | ok w =>
        rw [hg] at hr
        obtain ⟨gs, a⟩ := w
        exact (hadd _ _ _ _ hr).trans (h2.trans h1)
    · exact (hadd _ _ _ _ hr).trans (h2.trans h1)
    · cases hr

/-- A one-level system with the trace difference as error: `1 - cos u`. -/
noncomputable def dotSys : Sys (Fin 1) (Fin 1) Unit :=
  { tinySys with tau := fun _ => 1, fidKind := .traceDiff, scale := 1 / 2 }

theorem dotSys_valid : Valid dotSys := by
  refine ⟨by simp [dotSys, tinySys], by simp [dotSys, tinySys], ?_⟩
  intro ph hph _ k j
  simp only [dotSys, tinySys, Option.some.injEq] at hph
  subst hph
  rfl

theorem dot_final (a : Amps) : final dotSys a = Matrix.of fun _ _ => Complex.exp (-(a 0 0 * Complex.I)) := by
  ext i j
  simp [final, evolution, timeOrdered, propagator, dotSys, tinySys, phased, generator, mul_comm]

theorem dot_err (a : Amps) : fidErr dotSys a = .ok (1 - Real.cos (a 0 0)) := by
  have h0 : (Complex.exp (-(a 0 0 * Complex.I))).re = Real.cos (a 0 0) := by
    rw [← neg_mul, ← Complex.ofReal_neg, Complex.exp_ofReal_mul_I_re, Real.cos_neg]
  have h1 : (Complex.exp (-(a 0 0 * Complex.I))).im = -Real.sin (a 0 0) := by
    rw [← neg_mul, ← Complex.ofReal_neg, Complex.exp_ofReal_mul_I_im, Real.sin_neg]
  have hk : dotSys.fidKind = .traceDiff := rfl
  have hsc : dotSys.scale = 1 / 2 := rfl
  have ht : dotSys.target = 1 := rfl
  simp only [fidErr, hk, dot_final, hsc, ht]
  congr 1
  simp only [Matrix.trace_fin_one, Matrix.mul_apply, Fin.sum_univ_one, Matrix.conjTranspose_apply,
    Matrix.sub_apply, Matrix.one_apply_eq, Matrix.of_apply]
  simp only [RCLike.star_def, Complex.mul_re, Complex.conj_re, Complex.conj_im, Complex.sub_re,
    Complex.sub_im, Complex.one_re, Complex.one_im, h0, h1]
  have := Real.sin_sq_add_cos_sq (a 0 0)
  nlinarith

theorem dot_grad (a : Amps) : ∃ g, gradient dotSys a = .ok g ∧ g 0 0 = Real.sin (a 0 0) := by
  have h0 : (Complex.exp (-(a 0 0 * Complex.I))).re = Real.cos (a 0 0) := by
    rw [← neg_mul, ← Complex.ofReal_neg, Complex.exp_ofReal_mul_I_re, Real.cos_neg]
  have h1 : (Complex.exp (-(a 0 0 * Complex.I))).im = -Real.sin (a 0 0) := by
    rw [← neg_mul, ← Complex.ofReal_neg, Complex.exp_ofReal_mul_I_im, Real.sin_neg]
  have hfg : finalGrad dotSys a 0 0 =
      Matrix.of fun _ _ => -Complex.I * Complex.exp (-(a 0 0 * Complex.I)) := by
    ext i j
    simp [finalGrad, evolution, timeOrdered, propagatorGrad, dotSys, tinySys, phased, generator, mul_comm]
  have hk : dotSys.fidKind = .traceDiff := rfl
  have hp : dotSys.propKind = .frechet := rfl
  have hsc : dotSys.scale = 1 / 2 := rfl
  have ht : dotSys.target = 1 := rfl
  refine ⟨_, by unfold gradient; rw [hp, if_neg (by decide), hk], ?_⟩
  rw [if_pos (by simp [dotSys, tinySys])]
  simp only [gradEntry, hk, hfg, dot_final, hsc, ht]
  simp only [Matrix.trace_fin_one, Matrix.mul_apply, Fin.sum_univ_one, Matrix.conjTranspose_apply,
    Matrix.sub_apply, Matrix.one_apply_eq, Matrix.of_apply]
  simp only [RCLike.star_def, Complex.mul_re, Complex.mul_im, Complex.conj_re, Complex.conj_im, Complex.sub_re,
    Complex.sub_im, Complex.one_re, Complex.one_im, h0, h1, Complex.neg_re, Complex.neg_im,
    Complex.I_re, Complex.I_im]
  have := Real.sin_sq_add_cos_sq (a 0 0)
  nlinarith

theorem dot_norm (a : Amps) (g : ℕ → ℕ → ℝ) (hg : gradient dotSys a = .ok g) :
    gradientNorm dotSys g = |Real.sin (a 0 0)| := by
  obtain ⟨g', h1, h2⟩ := dot_grad a
  rw [hg] at h1
  injection h1 with h1
  subst h1
  unfold gradientNorm
  have hn : dotSys.nTs = 1 := rfl
  have hc : dotSys.nCtrls = 1 := rfl
  rw [hn, hc]
  simp only [Finset.range_one, Finset.sum_singleton, h2]
  exact Real.sqrt_sq_eq_abs _

theorem dot_point (v : ℝ) (gs : List Pulse.Crab) : ∃ a, ampsOf dotSys .grape gs [v] = .ok a ∧ a 0 0 = v := by
  obtain ⟨a, h⟩ := (C29_point dotSys gs [v]).2 rfl
  refine ⟨a, h, ?_⟩
  have := ((C29_point dotSys gs [v]).1 a h).2 0 0 (by simp [dotSys, tinySys]) (by simp [dotSys, tinySys])
  simpa using this.symm

/-- **C31 is violated (gradient norm).** Every optimiser class, started on fresh dynamics
and reaching its goal (error 1, target 1) at the first point `u = π/2`, reports the gradient
norm 0; the norm of the gradient at the final amplitudes is 1. -/
theorem C31_violated_grad_norm (junk s0 : State (Fin 1) (Fin 1) Unit) (f : Finish) (start stop : ℝ) :
    ∃ o' r b g, runOptimization dotSys .lbfgsb ⟨1, 3600, 0, 10⟩
        (attached dotSys junk s0 (fun _ _ => 1) 0 [] []) start stop [.func [Real.pi / 2]] f =
          (o', .ok r) ∧
      r.gradNormFinal = 0 ∧ r.finalAmps = some b ∧ gradient dotSys b = .ok g ∧
      gradientNorm dotSys g = 1 ∧ r.goalAchieved = true := by
  obtain ⟨a, ha, hv⟩ := dot_point (Real.pi / 2) []
  have herr : fidErr dotSys a = .ok 1 := by rw [dot_err, hv, Real.cos_pi_div_two, sub_zero]
  have hk : verdict dotSys Cls.lbfgsb.vars [] ⟨1, 3600, 0, 10⟩ start 1 (.func [Real.pi / 2]) =
      some (.term (.goal 1)) := by
    have ha' : ampsOf dotSys Cls.lbfgsb.vars [] [Real.pi / 2] = .ok a := ha
    simp only [verdict, ha', herr, if_pos (le_refl (1 : ℝ))]
  obtain ⟨o', r, h1, h2, h3, _⟩ := run_stopped dotSys_valid .lbfgsb ⟨1, 3600, 0, 10⟩
    (attached_inv dotSys_valid junk s0 (fun _ _ => 1) 0 [] []) start stop [] (.func [Real.pi / 2]) [] f
    (.goal 1) (dot_err (startAmps (fun _ _ => 1) [])) (by intro p c q h; simp at h) hk
  obtain ⟨b, hb, hs⟩ := h3.finalAmps
  have hab : ampsAfter dotSys Cls.lbfgsb.vars [] (startAmps (fun _ _ => 1) []) ([] ++ [.func [Real.pi / 2]]) = a := by
    have ha' : ampsOf dotSys Cls.lbfgsb.vars [] [Real.pi / 2] = .ok a := ha
    simp only [List.nil_append, ampsAfter, ha']
    rfl
  rw [hab] at hs
  obtain ⟨g, hg, _⟩ := dot_grad b
  refine ⟨o', r, b, g, h1, ?_, hb, hg, ?_, h2.goal⟩
  · exact C31_stale_grad_norm dotSys _ _ _ _ _ _ _ _ _ (by intro x hx; simp at hx) h1
  · rw [dot_norm b g hg]
    have : b 0 0 = Real.pi / 2 := by
      rw [← hv]; exact hs 0 0 (by simp [dotSys, tinySys]) (by simp [dotSys, tinySys])
    rw [this, Real.sin_pi_div_two, abs_one]

/-- **C31 is violated (sum of squares).** `grad_norm_final` is documented as the sum of the
squares of the gradient (optimresult.py 36-38). A run stopped by the minimum gradient 1 at
`u = π/6` reports 1/2, the square root; the sum of the squares at the final amplitudes is
1/4. -/
theorem C31_violated_sum_of_squares (junk s0 : State (Fin 1) (Fin 1) Unit) (f : Finish)
    (start stop : ℝ) :
    ∃ o' r a g, runOptimization dotSys .lbfgsb ⟨-1, 3600, 1, 10⟩
        (attached dotSys junk s0 (fun _ _ => 1) 0 [] []) start stop [.grad [Real.pi / 6]] f =
          (o', .ok r) ∧
      ampsOf dotSys .grape [] [Real.pi / 6] = .ok a ∧ gradient dotSys a = .ok g ∧
      (∑ k ∈ Finset.range dotSys.nTs, ∑ j ∈ Finset.range dotSys.nCtrls, g k j ^ 2) = 1 / 4 ∧
      r.gradNormFinal = 1 / 2 := by
  obtain ⟨a, ha, hv⟩ := dot_point (Real.pi / 6) []
  have ha' : ampsOf dotSys Cls.lbfgsb.vars [] [Real.pi / 6] = .ok a := ha
  obtain ⟨g, hg, hg0⟩ := dot_grad a
  have hn : gradientNorm dotSys g = 1 / 2 := by
    rw [dot_norm a g hg, hv, Real.sin_pi_div_six, abs_of_pos (by norm_num)]
  have hk : verdict dotSys Cls.lbfgsb.vars [] ⟨-1, 3600, 1, 10⟩ start
      (funcCount ([] ++ [.grad [Real.pi / 6]])) (.grad [Real.pi / 6]) =
      some (.term (.gradMin (1 / 2))) := by
    simp only [verdict, ha', hg, hn]
    rw [if_pos (by norm_num)]
  obtain ⟨o', r, b, g', h1, hb, hg', h2⟩ := (C31_grad_norm_partial dotSys_valid .lbfgsb
    ⟨-1, 3600, 1, 10⟩ junk s0 (fun _ _ => 1) 0 [] [] start stop [] [Real.pi / 6] f _
    (dot_err (startAmps (fun _ _ => 1) []))).1 [] _ (by intro p c q h; simp at h) hk
  have hba : b = a := by
    rw [hb]
    simp only [List.nil_append, ampsAfter, ha']
    rfl
  rw [hba, hg] at hg'
  injection hg' with hg'
  subst hg'
  refine ⟨o', r, a, g, h1, ha, hg, ?_, by rw [h2, hn]⟩
  have e1 : dotSys.nTs = 1 := rfl
  have e2 : dotSys.nCtrls = 1 := rfl
  rw [e1, e2]
  simp only [Finset.range_one, Finset.sum_singleton, hg0, hv, Real.sin_pi_div_six]
  norm_num

/-- No run sets the fidelity of its result. -/
theorem run_fidelity (S : Sys d m D) (c : Cls) (tc : TermConds) (o o' : OState d m D)
    (start stop : ℝ) (cs : List Call) (f : Finish) (r : Result d m)
    (hr : runOptimization S c tc o start stop cs f = (o', .ok r)) : r.fidelity = 0 := by
  have hadd : ∀ (o1 o2 : OState d m D) (r1 r2 : Result d m),
      addCommon S o1 start stop r1 = (o2, .ok r2) → r2.fidelity = r1.fidelity := by
    intro o1 o2 r1 r2 h
    unfold addCommon at h
    generalize getFidErr S o1.dyn = y at h
    rcases y with ⟨t, _ | e⟩
    · cases h
    · injection h with _ h
      injection h with h
      subst h
      rfl
  have hnew : ∀ (o1 o2 : OState d m D) (r1 : Result d m), createResult S o1 = (o2, .ok r1) →
      r1.fidelity = 0 := by
    intro o1 o2 r1 h
    unfold createResult at h
    generalize getFidErr S o1.dyn = y at h
    rcases y with ⟨t, _ | e⟩
    · cases h
    · injection h with _ h
      injection h with h
      subst h
      rfl
  have hint : ∀ (t : Term) (r : Result d m), (interpret t r).fidelity = r.fidelity := by
    intro t r; cases t <;> rfl
  have hrep : ∀ (r : Result d m), (report c f r).fidelity = r.fidelity := by
    intro r
    cases c <;> simp only [report] <;> (repeat' split) <;> rfl
  unfold runOptimization at hr
  dsimp only at hr
  have h0 := hnew { o with numIter := 0, numFid := 0, numGrad := 0 }
  generalize createResult S { o with numIter := 0, numFid := 0, numGrad := 0 } = y at hr h0
  rcases y with ⟨o1, _ | r1⟩
  · cases hr
  · dsimp only at hr
    have h1 := h0 o1 r1 rfl
    generalize calls S c.vars tc start o1 cs = z at hr
    rcases z with ⟨o2, rs, _ | (t | e)⟩
    · dsimp only at hr
      cases hg : getCtrlAmps S c.vars o2.gens f.x with
      | error e => rw [hg] at hr; cases hr
      | ok w =>
        rw [hg] at hr
        rw [hadd _ _ _ _ hr, hrep, h1]
    · rw [hadd _ _ _ _ hr, hint, h1]
    · cases hr

/-- **C31 is violated (fidelity).** The result documents its attribute `fidelity` as the final
fidelity that was achieved, but no run of any class sets it: it is always 0.  A run of any class
whose final error is below 1 shows the contradiction, for example one that reaches the error 0
exactly. -/
theorem C31_violated_fidelity (junk s0 : State (Fin 1) (Fin 1) Unit) (f : Finish)
    (start stop : ℝ) :
    (∀ (S : Sys d m D) (c : Cls) (tc : TermConds) (o o' : OState d m D) (start stop : ℝ)
      (cs : List Call) (f : Finish) (r : Result d m),
      runOptimization S c tc o start stop cs f = (o', .ok r) → r.fidelity = 0) ∧
    ∃ o' r, runOptimization dotSys .lbfgsb ⟨1, 3600, 0, 10⟩
        (attached dotSys junk s0 (fun _ _ => 1) 0 [] []) start stop [.func [0]] f =
          (o', .ok r) ∧
      r.goalAchieved = true ∧ r.fidErr = 0 ∧ r.fidelity = 0 := by
  refine ⟨run_fidelity, ?_⟩
  obtain ⟨a, ha, hv⟩ := dot_point 0 []
  have herr : fidErr dotSys a = .ok 0 := by rw [dot_err, hv, Real.cos_zero, sub_self]
  have hk : verdict dotSys Cls.lbfgsb.vars [] ⟨1, 3600, 0, 10⟩ start 1 (.func [0]) =
      some (.term (.goal 0)) := by
    have ha' : ampsOf dotSys Cls.lbfgsb.vars [] [0] = .ok a := ha
    simp only [verdict, ha', herr, if_pos (zero_le_one' ℝ)]
  obtain ⟨o', r, h1, h2, h3, _⟩ := run_stopped dotSys_valid .lbfgsb ⟨1, 3600, 0, 10⟩
    (attached_inv dotSys_valid junk s0 (fun _ _ => 1) 0 [] []) start stop [] (.func [0]) [] f
    (.goal 0) (dot_err (startAmps (fun _ _ => 1) [])) (by intro p c q h; simp at h) hk
  have hab : ampsAfter dotSys Cls.lbfgsb.vars [] (startAmps (fun _ _ => 1) []) ([] ++ [.func [0]]) = a := by
    have ha' : ampsOf dotSys Cls.lbfgsb.vars [] [0] = .ok a := ha
    simp only [List.nil_append, ampsAfter, ha']
    rfl
  have h4 := h3.finalErr
  rw [hab, herr] at h4
  injection h4 with h4
  exact ⟨o', r, h1, h2.goal, h4.symm, run_fidelity _ _ _ _ _ _ _ _ _ _ h1⟩

/-- The hypotheses of `C30_violated_grad_min` (hence of `C30_returns_partial`, `C30_replies`,
`C31_returned`) are met by a run with an error evaluation at `u = π/2`, one iteration and a
gradient evaluation, in which the gradient norm is 1 and its minimum 1/2: the result claims that the
minimum was reached. -/
theorem C30_violated_case (junk s0 : State (Fin 1) (Fin 1) Unit) :
    let cs : List Call := [.func [Real.pi / 2], .iter 5, .grad [Real.pi / 2]]
    let tc : TermConds := ⟨1 / 2, 3600, 1 / 2, 10⟩
    Quiet dotSys .grape [] tc 0 cs ∧
    ∃ o' r, runOptimization dotSys .lbfgsb tc (attached dotSys junk s0 (fun _ _ => 1) 0 [] []) 0 6
        cs ⟨[Real.pi / 2], 0, "CONVERGENCE: REL_REDUCTION_OF_F", 1⟩ = (o', .ok r) ∧
      r.gradNormMinReached = true ∧ r.gradNormFinal = 1 := by
  intro cs tc
  obtain ⟨a, ha, hv⟩ := dot_point (Real.pi / 2) []
  have herr : fidErr dotSys a = .ok 1 := by rw [dot_err, hv, Real.cos_pi_div_two, sub_zero]
  obtain ⟨g, hg, _⟩ := dot_grad a
  have hn : gradientNorm dotSys g = 1 := by
    rw [dot_norm a g hg, hv, Real.sin_pi_div_two, abs_one]
  have hq : Quiet dotSys .grape [] tc 0 cs := by
    intro p c q h
    match p, h with
    | [], h =>
      simp only [cs, List.nil_append, List.cons.injEq] at h
      obtain ⟨rfl, _⟩ := h
      simp [verdict, ha, herr, tc, funcCount]
      norm_num
    | [_], h =>
      simp only [cs, List.cons_append, List.nil_append, List.cons.injEq] at h
      obtain ⟨_, rfl, _⟩ := h
      simp [verdict, tc]
      norm_num
    | [_, _], h =>
      simp only [cs, List.cons_append, List.nil_append, List.cons.injEq] at h
      obtain ⟨_, _, rfl, _⟩ := h
      simp [verdict, ha, hg, hn, tc]
      norm_num
    | _ :: _ :: _ :: _, h => simp [cs] at h
  refine ⟨hq, ?_⟩
  obtain ⟨o', r, r0, h1, h2, _, _, _, h6, _⟩ := run_finished dotSys_valid .lbfgsb tc
    (attached_inv dotSys_valid junk s0 (fun _ _ => 1) 0 [] []) 0 6 cs
    ⟨[Real.pi / 2], 0, "CONVERGENCE: REL_REDUCTION_OF_F", 1⟩
    (dot_err (startAmps (fun _ _ => 1) [])) hq ha
  refine ⟨o', r, h1, by rw [h2.grad]; simp [report], ?_⟩
  have ha' : ampsOf dotSys Cls.lbfgsb.vars [] [Real.pi / 2] = .ok a := ha
  obtain ⟨g', g1, g2⟩ := h6 [Real.pi / 2] [.func [Real.pi / 2], .iter 5] rfl (by
    simp only [cs, ampsAfter, ha']
    exact fun _ _ _ _ => rfl)
  rw [g2, dot_norm a g' g1, hv, Real.sin_pi_div_two, abs_one]

end QTrl.Opt
