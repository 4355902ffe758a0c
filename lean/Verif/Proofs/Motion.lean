import Verif.Spec.Motion
import Verif.Spec.Evolution
import Verif.Proofs.Evolution
import Verif.Proofs.MatExp
import Mathlib.Analysis.Complex.RealDeriv
import Mathlib.Analysis.Calculus.MeanValue
import Mathlib.Analysis.Calculus.Deriv.Mul
import Mathlib.Analysis.Calculus.Deriv.Add

/-
Solutions of the equation of motion with piecewise constant generators: there is one, and its
values at the slot boundaries are the time-ordered products of the exponentials.
-/

open Matrix QTrl.Dyn

namespace QTrl.Spec

variable {d m : Type} [Fintype d] [DecidableEq d]

theorem exp_entry_deriv (A : Matrix d d ℂ) (t : ℝ) (i j : d) :
    HasDerivAt (fun s : ℝ => NormedSpace.exp ((s : ℂ) • A) i j)
      ((A * NormedSpace.exp ((t : ℂ) • A)) i j) t := by
  let : NormedRing (Matrix d d ℂ) := Matrix.linftyOpNormedRing
  let : NormedAlgebra ℂ (Matrix d d ℂ) := Matrix.linftyOpNormedAlgebra
  let : NormedAlgebra ℚ (Matrix d d ℂ) := NormedAlgebra.restrictScalars ℚ ℂ _
  have h := hasDerivAt_exp_smul_const' (𝕂 := ℂ) A (t : ℂ)
  let L : Matrix d d ℂ →L[ℂ] ℂ := LinearMap.toContinuousLinearMap (Matrix.entryLinearMap ℂ ℂ i j)
  have h1 := L.hasFDerivAt.comp_hasDerivAt (t : ℂ) h
  exact HasDerivAt.comp_ofReal (e := fun u : ℂ => NormedSpace.exp (u • A) i j) h1

/-- The exponential from the beginning of a slot. -/
theorem exp_shift_deriv (A : Matrix d d ℂ) (c a t : ℝ) (i j : d) :
    HasDerivAt (fun s : ℝ => NormedSpace.exp (((c * (s - a) : ℝ) : ℂ) • A) i j)
      (((c : ℂ) • (A * NormedSpace.exp (((c * (t - a) : ℝ) : ℂ) • A))) i j) t := by
  have h := exp_entry_deriv A (c * (t - a)) i j
  have h2 : HasDerivAt (fun s : ℝ => c * (s - a)) c t := by
    simpa using ((hasDerivAt_id t).sub_const a).const_mul c
  have h3 := HasDerivAt.scomp t h h2
  rw [Complex.real_smul] at h3
  exact h3

theorem exp_comm (A : Matrix d d ℂ) (z : ℂ) :
    A * NormedSpace.exp (z • A) = NormedSpace.exp (z • A) * A := by
  let : NormedRing (Matrix d d ℂ) := Matrix.linftyOpNormedRing
  let : NormedAlgebra ℂ (Matrix d d ℂ) := Matrix.linftyOpNormedAlgebra
  let : NormedAlgebra ℚ (Matrix d d ℂ) := NormedAlgebra.restrictScalars ℚ ℂ _
  exact ((Commute.refl A).smul_right z).exp_right.eq

/-- In a slot a solution is the exponential times its value at the beginning. -/
theorem slot_value {a b : ℝ} (hab : a ≤ b) (A : Matrix d d ℂ) (X : ℝ → Matrix d m ℂ)
    (h : ∀ t ∈ Set.Icc a b, ∀ i j,
      HasDerivWithinAt (fun s => X s i j) ((A * X t) i j) (Set.Icc a b) t) :
    X b = NormedSpace.exp (((b - a : ℝ) : ℂ) • A) * X a := by
  have hY : ∀ i j, ∀ t ∈ Set.Icc a b, HasDerivWithinAt
      (fun s => (NormedSpace.exp (((-1 * (s - a) : ℝ) : ℂ) • A) * X s) i j) 0 (Set.Icc a b) t := by
    intro i j t ht
    have e1 : ∀ l, HasDerivWithinAt
        (fun s => NormedSpace.exp (((-1 * (s - a) : ℝ) : ℂ) • A) i l * X s l j)
        ((((-1 : ℝ) : ℂ) • (A * NormedSpace.exp (((-1 * (t - a) : ℝ) : ℂ) • A))) i l * X t l j +
          NormedSpace.exp (((-1 * (t - a) : ℝ) : ℂ) • A) i l * (A * X t) l j) (Set.Icc a b) t :=
      fun l => (exp_shift_deriv A (-1) a t i l).hasDerivWithinAt.mul (h t ht l j)
    have e2 := HasDerivWithinAt.fun_sum (u := Finset.univ) fun l _ => e1 l
    have e3 : ∑ l, ((((-1 : ℝ) : ℂ) • (A * NormedSpace.exp (((-1 * (t - a) : ℝ) : ℂ) • A))) i l *
        X t l j + NormedSpace.exp (((-1 * (t - a) : ℝ) : ℂ) • A) i l * (A * X t) l j) = 0 := by
      rw [Finset.sum_add_distrib, ← Matrix.mul_apply, ← Matrix.mul_apply, exp_comm,
        ← Matrix.mul_assoc, Matrix.smul_mul]
      simp
    rw [e3] at e2
    exact e2
  have hc : NormedSpace.exp (((-1 * (b - a) : ℝ) : ℂ) • A) * X b = X a := by
    ext i j
    have := constant_of_has_deriv_right_zero (f := fun s =>
      (NormedSpace.exp (((-1 * (s - a) : ℝ) : ℂ) • A) * X s) i j) (a := a) (b := b)
      (fun t ht => (hY i j t ht).continuousWithinAt)
      (fun t ht => (hY i j t ⟨ht.1, ht.2.le⟩).mono_of_mem_nhdsWithin (Icc_mem_nhdsGE_of_mem ht)) b
      ⟨hab, le_refl b⟩
    simpa using this
  rw [← hc, ← Matrix.mul_assoc, ← Matrix.exp_add_of_commute, ← add_smul]
  · have : ((b - a : ℝ) : ℂ) + ((-1 * (b - a) : ℝ) : ℂ) = 0 := by push_cast; ring
    rw [this, zero_smul, NormedSpace.exp_zero, Matrix.one_mul]
  · exact ((Commute.refl A).smul_left _).smul_right _

theorem slotTime_succ (tau : Nat → ℝ) (k : Nat) : slotTime tau (k + 1) = slotTime tau k + tau k :=
  Finset.sum_range_succ _ _

theorem slotTime_le {tau : Nat → ℝ} {n : Nat} (h : ∀ k, k < n → 0 ≤ tau k) {i j : Nat} (hij : i ≤ j)
    (hj : j ≤ n) : slotTime tau i ≤ slotTime tau j := by
  induction j, hij using Nat.le_induction with
  | base => exact le_refl _
  | succ j hle ih =>
    rw [slotTime_succ]
    have := ih (by omega)
    have := h j (by omega)
    linarith

/-- The values of a solution at the boundaries. -/
theorem motion_value {n : Nat} {tau : Nat → ℝ} (hτ : ∀ k, k < n → 0 ≤ tau k)
    {A : Nat → Matrix d d ℂ} {X0 : Matrix d m ℂ} {X : ℝ → Matrix d m ℂ}
    (h : Motion n tau A X0 X) {k : Nat} (hk : k ≤ n) :
    X (slotTime tau k) =
      timeOrdered (fun k => NormedSpace.exp ((tau k : ℂ) • A k)) 0 k * X0 := by
  induction k with
  | zero => simpa [slotTime, timeOrdered_self] using h.start
  | succ k ih =>
    have hv := slot_value (slotTime_le hτ (Nat.le_succ k) hk) (A k) X (h.deriv k (by omega))
    rw [hv, ih (by omega), timeOrdered_succ _ (Nat.zero_le k), Matrix.mul_assoc, slotTime_succ]
    simp

/-- A solution, slot by slot. -/
noncomputable def solution (tau : Nat → ℝ) (A : Nat → Matrix d d ℂ) (X0 : Matrix d m ℂ) :
    Nat → ℝ → Matrix d m ℂ
  | 0, _ => X0
  | n + 1, t =>
    if t ≤ slotTime tau n then solution tau A X0 n t
    else NormedSpace.exp (((t - slotTime tau n : ℝ) : ℂ) • A n) *
      solution tau A X0 n (slotTime tau n)

/-- There is a solution. -/
theorem motion_exists {n : Nat} {tau : Nat → ℝ} (hτ : ∀ k, k < n → 0 ≤ tau k)
    (A : Nat → Matrix d d ℂ) (X0 : Matrix d m ℂ) : Motion n tau A X0 (solution tau A X0 n) := by
  induction n with
  | zero => exact ⟨rfl, fun k hk => absurd hk (Nat.not_lt_zero k)⟩
  | succ n ih =>
    have ih := ih fun k hk => hτ k (by omega)
    have h0 : ∀ k, k ≤ n → slotTime tau k ≤ slotTime tau n := fun k hk =>
      slotTime_le (n := n) (fun k hk => hτ k (by omega)) hk (le_refl n)
    refine ⟨?_, fun k hk t ht i j => ?_⟩
    · have : (0 : ℝ) ≤ slotTime tau n := by simpa [slotTime] using h0 0 (Nat.zero_le n)
      simp only [solution, this, if_true]
      exact ih.start
    · rcases Nat.lt_or_ge k n with hlt | hge
      · have e : ∀ s ∈ Set.Icc (slotTime tau k) (slotTime tau (k + 1)),
            solution tau A X0 (n + 1) s = solution tau A X0 n s := fun s hs => by
          simp only [solution, if_pos (hs.2.trans (h0 (k + 1) hlt))]
        rw [e t ht]
        exact (ih.deriv k hlt t ht i j).congr (fun s hs => by rw [e s hs]) (by rw [e t ht])
      · have : k = n := by omega
        subst this
        have e : ∀ s ∈ Set.Icc (slotTime tau k) (slotTime tau (k + 1)),
            solution tau A X0 (k + 1) s =
              NormedSpace.exp (((1 * (s - slotTime tau k) : ℝ) : ℂ) • A k) *
                solution tau A X0 k (slotTime tau k) := fun s hs => by
          simp only [solution, one_mul]
          split
          · next hle =>
            have : s = slotTime tau k := le_antisymm hle hs.1
            subst this
            simp
          · rfl
        have hd : HasDerivWithinAt (fun s => (NormedSpace.exp
            (((1 * (s - slotTime tau k) : ℝ) : ℂ) • A k) *
              solution tau A X0 k (slotTime tau k)) i j)
            ((A k * (NormedSpace.exp (((1 * (t - slotTime tau k) : ℝ) : ℂ) • A k) *
              solution tau A X0 k (slotTime tau k))) i j)
            (Set.Icc (slotTime tau k) (slotTime tau (k + 1))) t := by
          have e2 := HasDerivWithinAt.fun_sum (u := Finset.univ) fun l _ =>
            ((exp_shift_deriv (A k) 1 (slotTime tau k) t i l).mul_const
              (solution tau A X0 k (slotTime tau k) l j)).hasDerivWithinAt
              (s := Set.Icc (slotTime tau k) (slotTime tau (k + 1)))
          rw [← Matrix.mul_apply] at e2
          simp only [← Matrix.mul_assoc]
          simpa [Matrix.mul_apply] using e2
        rw [e t ht]
        exact hd.congr (fun s hs => by rw [e s hs]) (by rw [e t ht])

end QTrl.Spec
