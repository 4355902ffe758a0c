import Verif.Spec.Gradient

/-
Finite difference quotients.
-/

namespace QTrl.Spec

open QTrl.Dyn

/-- `g[k, j]` is the difference quotient of `err` with step `eps` in amplitude `[k, j]`. -/
def IsDiffQuotient (n m : Nat) (err : Amps → ℝ) (eps : ℝ) (amps : Amps) (g : Nat → Nat → ℝ) :
    Prop :=
  ∀ k j, k < n → j < m → g k j = (err (setAmp amps k j (amps k j + eps)) - err amps) / eps

end QTrl.Spec
