import Verif.Model.Deprecated
import Verif.Proofs.Machine

/-
Combining a generator anew changes nothing that is current.
-/

namespace QTrl.Dyn

open QTrl.Spec

variable {d m D : Type} [Fintype d] [DecidableEq d] [Fintype m] [DecidableEq m]

theorem recombine_gen {S : Sys d m D} {b : Amps} {s : State d m D} (h : GenOK S b s) (k : Nat) :
    GenOK S b (recombine S b s k) := by
  constructor
  · intro i hi
    simp only [recombine]
    by_cases e : i = k
    · subst e; simp only [Function.update_self]; exact combineDynGen_spec S b i
    · rw [Function.update_of_ne e]; exact h.dynGen i hi
  · intro i hi
    have hh := h.phased i hi
    unfold getPhasedDynGen at hh ⊢
    unfold phased at hh ⊢
    simp only [recombine]
    cases hp : S.phase with
    | none =>
      by_cases e : i = k
      · subst e; simp only [Function.update_self]; exact combineDynGen_spec S b i
      · simp only [Function.update_of_ne e]; exact h.dynGen i hi
    | some ph =>
      simp only [hp] at hh ⊢
      by_cases hc : S.cachePhased = true
      · simp only [hc, if_true] at hh ⊢
        by_cases e : i = k
        · subst e; simp only [Function.update_self]; rw [combineDynGen_spec S b i]
        · simp only [Function.update_of_ne e]; exact hh
      · simp only [hc, Bool.false_eq_true, if_false] at hh ⊢
        by_cases e : i = k
        · subst e; simp only [Function.update_self]; rw [combineDynGen_spec S b i]
        · simp only [Function.update_of_ne e]; exact hh

theorem recombine_decomp {S : Sys d m D} {b : Amps} {s : State d m D} (h : EvoOK S b s)
    (k : Nat) : DecompOK S (recombine S b s k) := by
  intro i hi hc
  have h1 : (recombine S b s k).dynGen i = s.dynGen i := by
    rw [(recombine_gen h.gen k).dynGen i hi, h.gen.dynGen i hi]
  rw [h1]
  exact h.decomp i hi hc

theorem recombine_inv {G : Amps → (Nat → Nat → ℝ) → Prop} {S : Sys d m D} {b : Amps}
    {s : State d m D} (h : InvG G S s) (hb : s.ctrlAmps = some b) (k : Nat) :
    InvG G S (recombine S b s k) := by
  refine ⟨⟨h.ends.fwd0, h.ends.ontoN⟩, fun hc => ?_, h.prenorm, h.fid, h.grad⟩
  obtain ⟨b', hb', ho⟩ := h.evo hc
  rw [hb] at hb'; cases hb'
  exact ⟨b, hb, ⟨recombine_decomp ho k, recombine_gen ho.gen k, ho.prop, ho.propGrad, ho.fwd,
    ho.onwd, ho.onto⟩⟩

end QTrl.Dyn
