import Verif.Proofs.GrapeAdaptive
import Mathlib.Analysis.Normed.Algebra.MatrixExponential
import Mathlib.Analysis.SpecialFunctions.Exponential
import Mathlib.Analysis.SpecialFunctions.Trigonometric.Basic

/-
A one-dimensional system: one control Hamiltonian 1, one slot of length 1, target the
multiplication by `i`, no penalties.
-/

open Matrix

namespace QTrl.Grape

/-- A one by one matrix. -/
noncomputable def scal (c : ℂ) : Matrix Unit Unit ℂ := diagonal fun _ => c

theorem scal_mul (a b : ℂ) : scal a * scal b = scal (a * b) := by
  unfold scal; rw [diagonal_mul_diagonal]

theorem scal_one : (1 : Matrix Unit Unit ℂ) = scal 1 := by
  unfold scal; rw [diagonal_one]

theorem scal_smul (k c : ℂ) : k • scal c = scal (k * c) := by
  unfold scal; rw [← diagonal_smul]; rfl

theorem scal_add (a b : ℂ) : scal a + scal b = scal (a + b) := by
  unfold scal; rw [diagonal_add]

theorem scal_conj (c : ℂ) : (scal c)ᴴ = scal ((starRingEnd ℂ) c) := by
  unfold scal; rw [diagonal_conjTranspose]; rfl

theorem scal_trace (c : ℂ) : (scal c).trace = c := by
  unfold scal; simp

theorem scal_zero : (0 : Matrix Unit Unit ℂ) = scal 0 := by
  unfold scal; ext i j; simp

theorem scal_inj {a b : ℂ} (h : scal a = scal b) : a = b := by
  have := congrFun (congrFun h ()) ()
  simpa [scal] using this

theorem scal_exp (c : ℂ) : NormedSpace.exp (scal c) = scal (Complex.exp c) := by
  unfold scal
  rw [Matrix.exp_diagonal]
  congr 1
  funext i
  rw [Pi.coe_exp, ← Complex.exp_eq_exp_ℂ]

/-- The arguments. -/
noncomputable def wit (n : Nat) (e : ℝ) : Args Unit :=
  { target := scal Complex.I, h0 := 0, hOps := [1], nIter := n, times := [0, 1], eps := some e
    uStart := none, startInt := false, uLimits := none, useInterp := false, alpha := none
    beta := none, phaseSensitive := true, expm := NormedSpace.exp, interp := fun _ _ _ => 0 }

theorem wit_exact (n : Nat) (e : ℝ) : (wit n e).Exact := fun h => by simp [wit] at h

theorem wit_slot (n : Nat) (e : ℝ) (v : Nat → Nat → ℝ) (m : Nat) :
    (wit n e).slot v m = scal (Complex.exp (-Complex.I * (v 0 m : ℂ))) := by
  have : (wit n e).slot v m = NormedSpace.exp ((-Complex.I * ((1 - 0 : ℝ) : ℂ)) •
      ((0 : Matrix Unit Unit ℂ) + ((v 0 m : ℂ) • (1 : Matrix Unit Unit ℂ) + 0))) := rfl
  rw [this, zero_add, add_zero, scal_one, scal_smul, scal_smul, scal_exp]
  congr 2
  push_cast
  ring

theorem wit_trial (n : Nat) (e : ℝ) (v : Nat → Nat → ℝ) :
    (wit n e).trial v = scal (Complex.exp (-Complex.I * (v 0 0 : ℂ))) := by
  have : (wit n e).trial v = (wit n e).slot v 0 * 1 := rfl
  rw [this, mul_one, wit_slot]

theorem wit_propagator (n : Nat) (e : ℝ) (v : Nat → Nat → ℝ) :
    Spec.Grape.propagator (wit n e).expm (wit n e).h0 (wit n e).hOps (wit n e).dt v
      ((wit n e).M - 1) = scal (Complex.exp (-Complex.I * (v 0 0 : ℂ))) := by
  rw [← trial_eq, wit_trial]

theorem exp_negI (x : ℝ) :
    Complex.exp (-Complex.I * (x : ℂ)) = (Real.cos x : ℂ) - (Real.sin x : ℂ) * Complex.I := by
  rw [show -Complex.I * (x : ℂ) = ((-x : ℝ) : ℂ) * Complex.I by push_cast; ring,
    Complex.exp_mul_I, ← Complex.ofReal_cos, ← Complex.ofReal_sin, Real.cos_neg, Real.sin_neg]
  push_cast
  ring

theorem wit_close (x : ℝ) :
    Spec.Grape.closeness true (scal Complex.I) (scal (Complex.exp (-Complex.I * (x : ℂ))))
      = -Real.sin x := by
  unfold Spec.Grape.closeness Spec.Grape.overlap
  rw [if_pos rfl, scal_conj, scal_mul, scal_trace, exp_negI]
  simp [-Complex.ofReal_sin, -Complex.ofReal_cos]

theorem wit_du (n : Nat) (e : ℝ) (v : Nat → Nat → ℝ) :
    ((wit n e).du0 ((wit n e).propagators ((wit n e).uList v)) 0 0).re = -Real.cos (v 0 0) := by
  have h : (wit n e).du0 ((wit n e).propagators ((wit n e).uList v)) 0 0 =
      -overlap (1 * scal Complex.I) ((Complex.I * ((1 - 0 : ℝ) : ℂ)) •
        ((1 : Matrix Unit Unit ℂ) * ((wit n e).slot v 0 * 1))) := rfl
  rw [h, wit_slot, one_mul, one_mul, mul_one, scal_smul, overlap, scal_conj, scal_mul, scal_trace,
    exp_negI]
  simp [-Complex.ofReal_sin, -Complex.ofReal_cos]

theorem wit_new (n : Nat) (e : ℝ) (v : Nat → Nat → ℝ) (i : Impl) (x : ℝ) :
    (wit n e).newVal i e none ((wit n e).propagators ((wit n e).uList v)) 0 0 x
      = x - e * Real.cos (v 0 0) := by
  have hn : ¬ truthy (wit n e).alpha := fun ⟨_, h, _⟩ => by cases h
  have h : (wit n e).incr i ((wit n e).propagators ((wit n e).uList v)) 0 0 x =
      (wit n e).du0 ((wit n e).propagators ((wit n e).uList v)) 0 0 := by
    cases i with
    | py =>
      have hb : ¬ truthy (wit n e).beta := fun ⟨_, h, _⟩ => by cases h
      unfold Args.incr
      simp only
      rw [if_neg hn, if_neg hb]
    | cy =>
      unfold Args.incr orZero
      simp only
      rw [if_neg (by simp [wit]), if_neg (by simp [wit])]
  unfold Args.newVal
  rw [h, wit_du]
  simp only [clipElif]
  ring

theorem wit_run (n : Nat) (e : ℝ) (hn : 2 ≤ n) (i : Impl) :
    ∃ res, (wit n e).run i = .ok res ∧
      res.uf = scal (Complex.exp (-Complex.I * (res.u (n - 2) 0 0 : ℂ))) ∧
      res.ht = res.u (n - 1) ∧ res.u 0 0 0 = 0 ∧
      ∀ r, r + 1 < n → res.u (r + 1) 0 0 = res.u r 0 0 - e * Real.cos (res.u r 0 0) := by
  have h := run_eq (wit n e) i e none (fun _ _ _ => 0) rfl rfl rfl hn (le_refl 2)
  refine ⟨_, h, ?_, rfl, ?_, ?_⟩
  · rw [evo_eq _ (wit_exact n e) _ _ (by omega)]
    exact wit_propagator n e _
  · obtain ⟨h0, -, -⟩ := loop_spec (wit n e) i e none (le_refl 2) (fun _ _ _ => 0) (n - 1)
    exact congrFun (congrFun h0 0) 0
  · intro r hr
    obtain ⟨-, h1, -⟩ := loop_spec (wit n e) i e none (le_refl 2) (fun _ _ _ => 0) (n - 1)
    have := h1 r (by omega) 0 0 (Nat.one_pos) (Nat.two_pos)
    rw [show min 0 ((wit n e).M - 2) = 0 by simp, wit_new] at this
    exact this

/-! ### The adaptive function -/

theorem wit_tried (n : Nat) (e : ℝ) (r : Nat) (s : AState Unit) (k : Nat) (hk : k < 3) :
    (wit n e).tried none r s (r + 1) 0 0 k
      = s.u r 0 0 k - s.eps k * Real.cos (s.u r 0 0 s.bestK) := by
  have hn : ¬ truthy (wit n e).alpha := fun ⟨_, h, _⟩ => by cases h
  unfold Args.tried
  rw [aUpdate_eq _ _ _ _ _ _ _ (le_refl 2)]
  unfold nextArr4
  rw [if_pos ⟨rfl, Nat.one_pos, Nat.two_pos, hk⟩]
  unfold Args.aNew
  rw [if_neg hn, show min 0 ((wit n e).M - 2) = 0 by simp, wit_du]
  simp only [clipElif, pulse]
  ring

theorem wit_tried_old (n : Nat) (e : ℝ) (r : Nat) (s : AState Unit) (q j m k : Nat)
    (hq : q ≠ r + 1) : (wit n e).tried none r s q j m k = s.u q j m k := by
  unfold Args.tried
  rw [aUpdate_eq _ _ _ _ _ _ _ (le_refl 2)]
  unfold nextArr4
  rw [if_neg (fun h => hq h.1)]

theorem wit_trials (n : Nat) (e : ℝ) (r : Nat) (s : AState Unit) (k : Nat) (hk : k < 3) :
    (wit n e).trials none r s k =
      -Real.sin (s.u r 0 0 k - s.eps k * Real.cos (s.u r 0 0 s.bestK)) := by
  have h : (wit n e).trials none r s k =
      fidelity true (overlap ((wit n e).trial (pulse ((wit n e).tried none r s) (r + 1) k))
        (scal Complex.I)) := rfl
  rw [h, fidelity_eq, wit_trial, wit_close]
  simp only [pulse]
  rw [wit_tried n e r s k hk]

end QTrl.Grape
