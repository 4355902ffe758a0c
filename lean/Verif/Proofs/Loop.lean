import Verif.Model.Basic

universe u
namespace QTrl

variable {σ : Type u}

@[simp] theorem forRange_zero (b : Nat → σ → σ) (s : σ) : forRange 0 b s = s := rfl

theorem forRange_succ (n : Nat) (b : Nat → σ → σ) (s : σ) :
    forRange (n + 1) b s = b n (forRange n b s) := by
  simp [forRange, List.range_succ]

/-- Loop invariant rule. -/
theorem forRange_inv {n : Nat} {b : Nat → σ → σ} {s : σ} (P : Nat → σ → Prop)
    (h0 : P 0 s) (hs : ∀ k s, k < n → P k s → P (k + 1) (b k s)) :
    P n (forRange n b s) := by
  suffices ∀ m, m ≤ n → P m (forRange m b s) from this n (Nat.le_refl n)
  intro m
  induction m with
  | zero => intro _; exact h0
  | succ m ih =>
    intro hm
    rw [forRange_succ]
    exact hs _ _ hm (ih (Nat.le_of_succ_le hm))

theorem forRange_congr {n : Nat} {b c : Nat → σ → σ} {s : σ}
    (h : ∀ k t, k < n → b k t = c k t) : forRange n b s = forRange n c s := by
  induction n with
  | zero => rfl
  | succ n ih =>
    rw [forRange_succ, forRange_succ, ih (fun k t hk => h k t (Nat.lt_succ_of_lt hk)),
      h n _ (Nat.lt_succ_self n)]

@[simp] theorem forDown_zero (b : Nat → σ → σ) (s : σ) : forDown 0 b s = s := rfl

theorem forDown_succ (n : Nat) (b : Nat → σ → σ) (s : σ) :
    forDown (n + 1) b s = forDown n b (b n s) := by
  simp [forDown, List.range_succ]

/-- Invariant rule for descending loops: `P k` holds before the body runs for
index `k - 1`. -/
theorem forDown_inv {n : Nat} {b : Nat → σ → σ} {s : σ} (P : Nat → σ → Prop)
    (h0 : P n s) (hs : ∀ k s, k < n → P (k + 1) s → P k (b k s)) :
    P 0 (forDown n b s) := by
  induction n generalizing s with
  | zero => exact h0
  | succ n ih =>
    rw [forDown_succ]
    exact ih (hs n s (Nat.lt_succ_self n) h0) (fun k s hk => hs k s (Nat.lt_succ_of_lt hk))

end QTrl
