import Verif.Spec.Evolution
import Verif.Proofs.Loop

/-
The loops of `recompute_evolution` compute time-ordered products.
-/

set_option linter.unusedSectionVars false

namespace QTrl.Dyn

open QTrl.Spec

variable {d m D : Type} [Fintype d] [DecidableEq d] [Fintype m] [DecidableEq m]

theorem timeOrdered_self (p : Nat → Matrix d d ℂ) (k : Nat) : timeOrdered p k k = 1 := by
  simp [timeOrdered]

theorem timeOrdered_succ (p : Nat → Matrix d d ℂ) {lo hi : Nat} (h : lo ≤ hi) :
    timeOrdered p lo (hi + 1) = p hi * timeOrdered p lo hi := by
  have : hi + 1 - lo = (hi - lo) + 1 := by omega
  rw [timeOrdered, this, List.range'_1_concat]
  simp [timeOrdered, show lo + (hi - lo) = hi by omega]

theorem timeOrdered_pred (p : Nat → Matrix d d ℂ) {lo hi : Nat} (h : lo < hi) :
    timeOrdered p lo hi = timeOrdered p (lo + 1) hi * p lo := by
  have : hi - lo = (hi - (lo + 1)) + 1 := by omega
  rw [timeOrdered, this, List.range'_succ]
  simp [timeOrdered]

theorem timeOrdered_mul (p : Nat → Matrix d d ℂ) {a b c : Nat} (h1 : a ≤ b) (h2 : b ≤ c) :
    timeOrdered p b c * timeOrdered p a b = timeOrdered p a c := by
  induction c with
  | zero =>
    have hb : b = 0 := by omega
    have ha : a = 0 := by omega
    subst hb; subst ha; simp [timeOrdered]
  | succ c ih =>
    rcases Nat.lt_or_ge c b with h | h
    · have : b = c + 1 := by omega
      subst this
      rw [timeOrdered_self, one_mul]
    · rw [timeOrdered_succ p h, timeOrdered_succ p (by omega), mul_assoc, ih h]

theorem timeOrdered_congr {p q : Nat → Matrix d d ℂ} {lo hi : Nat}
    (h : ∀ k, lo ≤ k → k < hi → p k = q k) : timeOrdered p lo hi = timeOrdered q lo hi := by
  unfold timeOrdered
  congr 2
  apply List.map_congr_left
  intro k hk
  rw [List.mem_range'_1] at hk
  exact h k hk.1 (by omega)

theorem fwdLoop_spec (n : Nat) (prop : Nat → Matrix d d ℂ) (fwd : Nat → Matrix d m ℂ) :
    ∀ k, k ≤ n → fwdLoop n prop fwd k = timeOrdered prop 0 k * fwd 0 := by
  refine forRange_inv (n := n)
    (b := fun k fwd => Function.update fwd (k + 1) (prop k * fwd k)) (s := fwd)
    (fun i f => ∀ k, k ≤ i → f k = timeOrdered prop 0 k * fwd 0) ?_ ?_
  · intro k hk
    have : k = 0 := by omega
    subst this
    simp [timeOrdered_self]
  · intro i f _ ih k hk
    rcases Nat.lt_or_ge k (i + 1) with h | h
    · rw [Function.update_of_ne (by omega)]
      exact ih k (by omega)
    · have : k = i + 1 := by omega
      subst this
      rw [Function.update_self, ih i (Nat.le_refl i), timeOrdered_succ _ (Nat.zero_le i),
        Matrix.mul_assoc]

theorem onwdLoop_spec (n : Nat) (prop : Nat → Matrix d d ℂ) (onwd : Nat → Matrix d d ℂ) :
    ∀ k, k < n → onwdLoop n prop onwd k = timeOrdered prop k n := by
  intro k hk
  have h := forDown_inv (n := n - 1)
    (b := fun k onwd => Function.update onwd k (onwd (k + 1) * prop k))
    (s := Function.update onwd (n - 1) (prop (n - 1)))
    (fun i f => ∀ k, i ≤ k → k < n → f k = timeOrdered prop k n) ?_ ?_
  · exact h k (Nat.zero_le k) hk
  · intro i hi1 hi2
    have : i = n - 1 := by omega
    subst this
    rw [Function.update_self, timeOrdered_pred _ hi2]
    have : n - 1 + 1 = n := by omega
    rw [this, timeOrdered_self, one_mul]
  · intro i f hi ih k hk1 hk2
    rcases Nat.lt_or_ge i k with h | h
    · rw [Function.update_of_ne (by omega)]
      exact ih k (by omega) hk2
    · have : k = i := by omega
      subst this
      rw [Function.update_self, ih (k + 1) (Nat.le_refl _) (by omega), ← timeOrdered_pred _ hk2]

theorem ontoLoop_spec (n : Nat) (prop : Nat → Matrix d d ℂ) (onto : Nat → Matrix m d ℂ) :
    ∀ k, k ≤ n → ontoLoop n prop onto k = onto n * timeOrdered prop k n := by
  intro k hk
  have h := forDown_inv (n := n)
    (b := fun k onto => Function.update onto k (onto (k + 1) * prop k))
    (s := onto)
    (fun i f => ∀ k, i ≤ k → k ≤ n → f k = onto n * timeOrdered prop k n) ?_ ?_
  · exact h k (Nat.zero_le k) hk
  · intro i hi1 hi2
    have : i = n := by omega
    subst this
    rw [timeOrdered_self, Matrix.mul_one]
  · intro i f hi ih k hk1 hk2
    rcases Nat.lt_or_ge i k with h | h
    · rw [Function.update_of_ne (by omega)]
      exact ih k (by omega) hk2
    · have : k = i := by omega
      subst this
      rw [Function.update_self, ih (k + 1) (Nat.le_refl _) (by omega), timeOrdered_pred _ hi,
        Matrix.mul_assoc]

theorem combineDynGen_spec (S : Sys d m D) (amps : Amps) (k : Nat) :
    combineDynGen S amps k = generator S amps k := by
  unfold combineDynGen generator
  induction S.nCtrls with
  | zero => simp
  | succ n ih => rw [forRange_succ, ih, Finset.sum_range_succ, add_assoc]

end QTrl.Dyn
