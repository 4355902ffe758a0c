import Mathlib.Algebra.BigOperators.Group.List.Basic

/-
What it means for the four timeslot attributes of a `Dynamics` object to agree
(property C01), stated without reference to the code.
-/

namespace QTrl.Spec

/-- `tau` has `n` entries, `evo` is their sum, and `time` has `n+1` entries, the
`k`-th being the sum of the first `k` durations. -/
def TimeslotsAgree {K : Type*} [AddCommMonoid K]
    (n : Int) (evo : K) (tau time : List K) : Prop :=
  (tau.length : Int) = n ∧
  tau.sum = evo ∧
  time.length = tau.length + 1 ∧
  ∀ k, k ≤ tau.length → time[k]? = some (tau.take k).sum

end QTrl.Spec
