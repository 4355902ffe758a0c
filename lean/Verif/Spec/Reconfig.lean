import Verif.Spec.Evolution
import Verif.Model.Reconfig

/-
What a user expects of configuration changes and of arrays passed to the system.
-/

namespace QTrl.Spec

open QTrl.Dyn

variable {d m D : Type} [Fintype d] [DecidableEq d] [Fintype m] [DecidableEq m]

/-- C07: every query is answered from the *current* configuration and the
amplitudes supplied last. -/
noncomputable def cAnswers : Sys d m D → Amps → List (COp d) → List Out
  | _, _, [] => []
  | S, a, .cfg c :: os => .none :: cAnswers (reconfigure S c) a os
  | S, _, .op (.updateAmps b) :: os => .none :: cAnswers S b os
  | S, _, .op (.reinit b) :: os => .none :: cAnswers S b os
  | S, a, .op o :: os => answer S (some a) o :: cAnswers S a os

/-- C08: every query is answered from the *contents* the last submitted array had
when it was submitted (`heap` are the current contents of the caller's arrays). -/
noncomputable def hAnswers (S : Sys d m D) : (Nat → Amps) → Amps → List HOp → List Out
  | _, _, [] => []
  | h, a, .mutate r b :: os => .none :: hAnswers S (Function.update h r b) a os
  | h, _, .submit r :: os => .none :: hAnswers S h (h r) os
  | h, _, .reinit r :: os => .none :: hAnswers S h (h r) os
  | h, a, .query o :: os => answer S (some a) o :: hAnswers S h a os

/-- The caller never modifies an array after handing it over (as the optimisers
do, which pass copies: optimizer.py 663, 709). -/
def HandsOver : List Nat → List HOp → Prop
  | _, [] => True
  | given, .mutate r _ :: os => r ∉ given ∧ HandsOver given os
  | given, .submit r :: os => HandsOver (r :: given) os
  | given, .reinit r :: os => HandsOver (r :: given) os
  | given, .query _ :: os => HandsOver given os

end QTrl.Spec
