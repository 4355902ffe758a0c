import Verif.Spec.Equivalent
import Verif.Proofs.Symmetry
import Verif.Proofs.Kinds
import Mathlib.Algebra.BigOperators.GroupWithZero.Action
import Mathlib.Algebra.Module.LinearMap.Basic

/-
Lemmas for C84.
-/

set_option linter.unusedSectionVars false

open Matrix

namespace QTrl.Dyn

open QTrl.Spec QTrl.MatExp

variable {d m D D' : Type} [Fintype d] [DecidableEq d] [Fintype m] [DecidableEq m]

/-- The propagator gradients are the derivatives of the exponentials. -/
def ExactG (φ : Matrix d d ℂ →ₗ[ℂ] Matrix d d ℂ) (S : Sys d m D) (a : Amps) : Prop :=
  S.propKind ≠ .approx ∧ ∀ k j, k < S.nTs → j < S.nCtrls → propagatorGrad S a k j =
    dexp ((S.tau k : ℂ) • φ (generator S a k)) ((S.tau k : ℂ) • φ (S.ctrl k j))

/-- The element of the gradient belonging to a derivative `X` of the final object. -/
noncomputable def slope (S : Sys d m D) (amps : Amps) (f : ℝ) (X : Matrix d m ℂ) : ℝ :=
  match S.fidKind with
  | .unitary =>
    let g := (S.ontoTarget * X).trace
    let n := match S.phaseOpt with
      | .PSU => (g * Complex.exp (-Complex.I * (Complex.arg (overlap S amps) : ℂ)) /
          (S.dimNorm : ℂ)).re
      | .SU => g.re / S.dimNorm
    if 1 ≤ f then n else -n
  | .traceDiff => -2 * S.scale * ((S.target - final S amps)ᴴ * X).trace.re

theorem gradEntry_slope (S : Sys d m D) (amps : Amps) (f : ℝ) (k j : Nat) :
    gradEntry S amps f k j = slope S amps f (finalGrad S amps k j) := rfl

theorem slope_zero (S : Sys d m D) (amps : Amps) (f : ℝ) : slope S amps f 0 = 0 := by
  unfold slope
  cases S.fidKind <;> cases S.phaseOpt <;> simp

theorem slope_add (S : Sys d m D) (amps : Amps) (f : ℝ) (X Y : Matrix d m ℂ) :
    slope S amps f (X + Y) = slope S amps f X + slope S amps f Y := by
  unfold slope
  cases S.fidKind <;> cases S.phaseOpt <;>
    simp only [Matrix.mul_add, Matrix.trace_add, add_mul, add_div, Complex.add_re] <;>
    (try split) <;> ring

theorem slope_smul (S : Sys d m D) (amps : Amps) (f r : ℝ) (X : Matrix d m ℂ) :
    slope S amps f ((r : ℂ) • X) = r * slope S amps f X := by
  unfold slope
  cases S.fidKind <;> cases S.phaseOpt <;>
    simp only [Matrix.mul_smul, Matrix.trace_smul, smul_eq_mul, mul_assoc, mul_div_assoc,
      Complex.re_ofReal_mul] <;>
    (try split) <;> ring

theorem slope_sum (S : Sys d m D) (amps : Amps) (f : ℝ) {ι : Type} (s : Finset ι)
    (r : ι → ℝ) (X : ι → Matrix d m ℂ) :
    slope S amps f (∑ i ∈ s, (r i : ℂ) • X i) = ∑ i ∈ s, r i * slope S amps f (X i) := by
  classical
  induction s using Finset.induction_on with
  | empty => simp [slope_zero]
  | insert a s ha ih => rw [Finset.sum_insert ha, Finset.sum_insert ha, slope_add, slope_smul, ih]

/-! ### The same final object -/

section Same
variable {S : Sys d m D} {S' : Sys d m D'} {a a' : Amps}

theorem alike_answers (h : Alike S S') (ho : overlap S' a' = overlap S a)
    (hf : frobSq (S'.target - final S' a') = frobSq (S.target - final S a)) :
    fidelity S' a' = fidelity S a ∧
    answer S' (some a') .getFidelity = answer S (some a) .getFidelity ∧
    answer S' (some a') .getFidErr = answer S (some a) .getFidErr := by
  have h1 : fidelity S' a' = fidelity S a := by
    unfold fidelity
    rw [ho, h.isQobj, h.phaseOpt, h.dimNorm]
  refine ⟨h1, ?_, ?_⟩
  · simp only [answer, h.fidKind]
    cases S.fidKind <;> simp only [h1]
  · simp only [answer, fidErr, h.fidKind, h1, frobSq_re, hf, h.scale]

theorem ends_overlap (h : SameEnds S S') (hf : final S' a' = final S a) :
    overlap S' a' = overlap S a := by
  unfold overlap
  rw [h.ontoTarget, hf]

theorem ends_answers (h : SameEnds S S') (hf : final S' a' = final S a) :
    fidelity S' a' = fidelity S a ∧
    answer S' (some a') .getFidelity = answer S (some a) .getFidelity ∧
    answer S' (some a') .getFidErr = answer S (some a) .getFidErr :=
  alike_answers h.toAlike (ends_overlap h hf) (by rw [h.target, hf])

theorem ends_slope (h : SameEnds S S') (hf : final S' a' = final S a) (f : ℝ) (X : Matrix d m ℂ) :
    slope S' a' f X = slope S a f X := by
  unfold slope
  rw [h.fidKind, h.phaseOpt, h.scale, h.dimNorm, h.ontoTarget, h.target, hf, ends_overlap h hf]

theorem alike_gradient (h : Alike S S') (hp : S.propKind ≠ .approx) (hp' : S'.propKind ≠ .approx)
    (hf : fidelity S' a' = fidelity S a) (R : (Nat → Nat → ℝ) → (Nat → Nat → ℝ) → Prop)
    (hR : ∀ f, R (fun k j => if k < S.nTs ∧ j < S.nCtrls then gradEntry S a f k j else 0)
      (fun k j => if k < S'.nTs ∧ j < S'.nCtrls then gradEntry S' a' f k j else 0)) :
    GradRel R (answer S (some a) .getGradient) (answer S' (some a') .getGradient) := by
  unfold answer gradient
  simp only
  rw [if_neg hp, if_neg hp', h.fidKind, hf]
  cases S.fidKind with
  | unitary =>
    cases fidelity S a with
    | error e => exact rfl
    | ok f => exact hR f
  | traceDiff => exact hR 0

theorem props_final (hn : S'.nTs = S.nTs) (hi : S'.initial = S.initial)
    (hp : ∀ k, k < S.nTs → propagator S' a' k = propagator S a k) : final S' a' = final S a := by
  unfold final evolution
  rw [hn, hi]
  congr 1
  exact timeOrdered_congr fun k _ hk => hp k hk

theorem props_finalGrad (hn : S'.nTs = S.nTs) (hi : S'.initial = S.initial)
    (hp : ∀ k, k < S.nTs → propagator S' a' k = propagator S a k) {k i : Nat}
    (hk : k < S.nTs) {ι : Type} {s : Finset ι} {r : ι → ℝ} {j : ι → Nat}
    (hg : propagatorGrad S' a' k i = ∑ x ∈ s, (r x : ℂ) • propagatorGrad S a k (j x)) :
    finalGrad S' a' k i = ∑ x ∈ s, (r x : ℂ) • finalGrad S a k (j x) := by
  have h1 : evolution S' a' (k + 1) S.nTs = evolution S a (k + 1) S.nTs :=
    timeOrdered_congr fun k _ hk => hp k hk
  have h2 : evolution S' a' 0 k = evolution S a 0 k :=
    timeOrdered_congr fun k' _ hk' => hp k' (by omega)
  unfold finalGrad
  simp only [hn, h1, h2, hi, hg, Matrix.mul_sum, Matrix.sum_mul, Matrix.mul_smul, Matrix.smul_mul]

end Same

section Kinds
variable {φ : Matrix d d ℂ →ₗ[ℂ] Matrix d d ℂ} {S : Sys d m D} {S' : Sys d m D'} {a a' : Amps}

/-! ### Recombined controls -/

section Mixed
variable {M : Nat → Nat → Nat → ℝ} {b : Nat → Nat → ℝ}

theorem mixed_generator (h : Mixed M b S S')
    (ha : ∀ k j, k < S.nTs → j < S.nCtrls →
      a k j = b k j + ∑ i ∈ Finset.range S'.nCtrls, M k j i * a' k i) {k : Nat}
    (hk : k < S.nTs) : generator S' a' k = generator S a k := by
  unfold generator
  rw [h.drift k hk, add_assoc]
  congr 1
  have e1 : ∑ i ∈ Finset.range S'.nCtrls, (a' k i : ℂ) • S'.ctrl k i =
      ∑ j ∈ Finset.range S.nCtrls, ∑ i ∈ Finset.range S'.nCtrls,
        ((M k j i * a' k i : ℝ) : ℂ) • S.ctrl k j := by
    rw [Finset.sum_comm]
    refine Finset.sum_congr rfl fun i hi => ?_
    rw [h.ctrl k i hk (Finset.mem_range.1 hi), Finset.smul_sum]
    refine Finset.sum_congr rfl fun j _ => ?_
    rw [smul_smul, mul_comm]
    push_cast
    rfl
  rw [e1, ← Finset.sum_add_distrib]
  refine Finset.sum_congr rfl fun j hj => ?_
  rw [ha k j hk (Finset.mem_range.1 hj), ← Finset.sum_smul, ← add_smul]
  push_cast
  rfl

theorem mixed_propagator (hS : Exponential φ S) (hS' : Exponential φ S') (h : Mixed M b S S')
    (ha : ∀ k j, k < S.nTs → j < S.nCtrls →
      a k j = b k j + ∑ i ∈ Finset.range S'.nCtrls, M k j i * a' k i) {k : Nat}
    (hk : k < S.nTs) : propagator S' a' k = propagator S a k := by
  rw [hS _ _ hk, hS' _ _ (h.nTs ▸ hk), mixed_generator h ha hk, h.tau k hk]

theorem mixed_finalGrad (hS : Exponential φ S) (hS' : Exponential φ S') (h : Mixed M b S S')
    (ha : ∀ k j, k < S.nTs → j < S.nCtrls →
      a k j = b k j + ∑ i ∈ Finset.range S'.nCtrls, M k j i * a' k i)
    (hx : ExactG φ S a) (hx' : ExactG φ S' a') {k i : Nat} (hk : k < S.nTs) (hi : i < S'.nCtrls) :
    finalGrad S' a' k i = ∑ j ∈ Finset.range S.nCtrls, (M k j i : ℂ) • finalGrad S a k j := by
  refine props_finalGrad (j := fun j => j) h.nTs h.initial
    (fun k hk => mixed_propagator hS hS' h ha hk) hk ?_
  rw [hx'.2 k i (h.nTs ▸ hk) hi, mixed_generator h ha hk, h.tau k hk, h.ctrl k i hk hi, map_sum,
    Finset.smul_sum, dexp_sum]
  refine Finset.sum_congr rfl fun j hj => ?_
  rw [map_smul, smul_comm, dexp_smul', hx.2 k j hk (Finset.mem_range.1 hj)]

end Mixed

/-! ### Other units of time -/

section Slowed
variable {s : Nat → ℝ}

theorem slowed_generator (h : Slowed s S S')
    (ha : ∀ k j, k < S.nTs → j < S.nCtrls → a' k j = a k j) {k : Nat}
    (hk : k < S.nTs) : generator S a k = (s k : ℂ) • generator S' a' k := by
  unfold generator
  rw [h.drift k hk, h.nCtrls, smul_add, Finset.smul_sum]
  congr 1
  refine Finset.sum_congr rfl fun j hj => ?_
  have hj := Finset.mem_range.1 hj
  rw [h.ctrl k j hk hj, ha k j hk hj, smul_comm]

theorem slowed_exponent (h : Slowed s S S') {k : Nat} (hk : k < S.nTs)
    {A A' : Matrix d d ℂ} (hA : A = (s k : ℂ) • A') :
    (S'.tau k : ℂ) • φ A' = (S.tau k : ℂ) • φ A := by
  rw [hA, h.tau k hk, map_smul, smul_smul]
  push_cast
  rw [mul_comm]

theorem slowed_propagator (hS : Exponential φ S) (hS' : Exponential φ S') (h : Slowed s S S')
    (ha : ∀ k j, k < S.nTs → j < S.nCtrls → a' k j = a k j) {k : Nat} (hk : k < S.nTs) :
    propagator S' a' k = propagator S a k := by
  rw [hS _ _ hk, hS' _ _ (h.nTs ▸ hk), slowed_exponent h hk (slowed_generator h ha hk)]

theorem slowed_finalGrad (hS : Exponential φ S) (hS' : Exponential φ S') (h : Slowed s S S')
    (ha : ∀ k j, k < S.nTs → j < S.nCtrls → a' k j = a k j) (hx : ExactG φ S a)
    (hx' : ExactG φ S' a') {k j : Nat} (hk : k < S.nTs)
    (hj : j < S.nCtrls) : finalGrad S' a' k j = finalGrad S a k j := by
  have := props_finalGrad (S := S) (S' := S') (a := a) (a' := a') (i := j) (s := {()})
    (r := fun _ => 1) (j := fun _ => j) h.nTs h.initial
    (fun k hk => slowed_propagator hS hS' h ha hk) hk ?_
  · simpa using this
  · rw [hx'.2 k j (h.nTs ▸ hk) (h.nCtrls ▸ hj),
      slowed_exponent h hk (slowed_generator h ha hk), slowed_exponent h hk (h.ctrl k j hk hj),
      hx.2 k j hk hj]
    simp

end Slowed

/-! ### One slot cut in two -/

section Halved
variable {s : Nat} {x : ℝ}

theorem halved_generator (h : Halved s x S S')
    (ha : ∀ k j, k < S'.nTs → j < S.nCtrls → a' k j = a (uncut s k) j) {k : Nat}
    (hk : k < S'.nTs) : generator S' a' k = generator S a (uncut s k) := by
  unfold generator
  rw [h.drift k hk, h.nCtrls]
  congr 1
  refine Finset.sum_congr rfl fun j hj => ?_
  have hj := Finset.mem_range.1 hj
  rw [h.ctrl k j hk hj, ha k j hk hj]

theorem halved_lt (h : Halved s x S S') {k : Nat} (hk : k < S'.nTs) : uncut s k < S.nTs := by
  have := h.slot
  have := h.nTs
  unfold uncut
  split <;> omega

theorem halved_propagator (hS : Exponential φ S) (hS' : Exponential φ S') (h : Halved s x S S')
    (ha : ∀ k j, k < S'.nTs → j < S.nCtrls → a' k j = a (uncut s k) j) {k : Nat}
    (hk : k < S'.nTs) (h1 : k ≠ s) (h2 : k ≠ s + 1) :
    propagator S' a' k = propagator S a (uncut s k) := by
  rw [hS _ _ (halved_lt h hk), hS' _ _ hk, halved_generator h ha hk,
    h.tau k hk, if_neg h1, if_neg h2]

theorem halved_slot (hS : Exponential φ S) (hS' : Exponential φ S') (h : Halved s x S S')
    (ha : ∀ k j, k < S'.nTs → j < S.nCtrls → a' k j = a (uncut s k) j) :
    propagator S' a' (s + 1) * propagator S' a' s = propagator S a s := by
  have h1 := h.slot
  have h2 := h.nTs
  have u1 : uncut s s = s := by simp [uncut]
  have u2 : uncut s (s + 1) = s := by simp [uncut]
  rw [hS _ _ h1, hS' _ _ (by omega : s + 1 < S'.nTs),
    hS' _ _ (by omega : s < S'.nTs), halved_generator h ha (by omega),
    halved_generator h ha (by omega), u1, u2, h.tau s (by omega), h.tau (s + 1) (by omega), if_pos rfl,
    if_neg (by omega), if_pos rfl, ← exp_split]
  congr 2
  push_cast
  ring

theorem halved_before (hS : Exponential φ S) (hS' : Exponential φ S') (h : Halved s x S S')
    (ha : ∀ k j, k < S'.nTs → j < S.nCtrls → a' k j = a (uncut s k) j) {lo hi : Nat}
    (hh : hi ≤ s) : evolution S' a' lo hi = evolution S a lo hi := by
  have h1 := h.slot
  have h2 := h.nTs
  refine timeOrdered_congr fun k _ hk => ?_
  rw [halved_propagator hS hS' h ha (by omega) (by omega) (by omega), uncut, if_pos (by omega)]

theorem halved_after (hS : Exponential φ S) (hS' : Exponential φ S') (h : Halved s x S S')
    (ha : ∀ k j, k < S'.nTs → j < S.nCtrls → a' k j = a (uncut s k) j) {lo hi : Nat}
    (hl : s < lo) (hlh : lo ≤ hi) (hh : hi ≤ S.nTs) :
    evolution S' a' (lo + 1) (hi + 1) = evolution S a lo hi := by
  have h2 := h.nTs
  unfold evolution
  rw [timeOrdered_shift _ hlh]
  refine timeOrdered_congr fun k hk1 hk => ?_
  rw [halved_propagator hS hS' h ha (by omega) (by omega) (by omega), uncut, if_neg (by omega)]
  rfl

theorem halved_across (hS : Exponential φ S) (hS' : Exponential φ S') (h : Halved s x S S')
    (ha : ∀ k j, k < S'.nTs → j < S.nCtrls → a' k j = a (uncut s k) j) {lo hi : Nat}
    (hl : lo ≤ s) (hlh : s < hi) (hh : hi ≤ S.nTs) :
    evolution S' a' lo (hi + 1) = evolution S a lo hi := by
  have e1 := halved_after hS hS' h ha (lo := s + 1) (hi := hi) (by omega) hlh hh
  have e2 := halved_before hS hS' h ha (lo := lo) (hi := s) (Nat.le_refl _)
  have e3 := halved_slot hS hS' h ha
  unfold evolution at *
  rw [← timeOrdered_mul (propagator S a) (b := s + 1) (by omega) (by omega : s + 1 ≤ hi),
    timeOrdered_succ _ hl,
    ← timeOrdered_mul (propagator S' a') (b := s + 1 + 1) (by omega) (by omega : s + 1 + 1 ≤ hi + 1),
    timeOrdered_succ _ (by omega : lo ≤ s + 1), timeOrdered_succ _ hl, e1, e2, ← e3]
  simp only [Matrix.mul_assoc]

theorem halved_final (hS : Exponential φ S) (hS' : Exponential φ S') (h : Halved s x S S')
    (ha : ∀ k j, k < S'.nTs → j < S.nCtrls → a' k j = a (uncut s k) j) :
    final S' a' = final S a := by
  unfold final
  rw [h.nTs, halved_across hS hS' h ha (Nat.zero_le _) h.slot (Nat.le_refl _), h.initial]

theorem halved_finalGrad_before (hS : Exponential φ S) (hS' : Exponential φ S') (h : Halved s x S S')
    (ha : ∀ k j, k < S'.nTs → j < S.nCtrls → a' k j = a (uncut s k) j) (hx : ExactG φ S a)
    (hx' : ExactG φ S' a') {k j : Nat} (hk : k < s) (hj : j < S.nCtrls) :
    finalGrad S' a' k j = finalGrad S a k j := by
  have h1 := h.slot
  have h2 := h.nTs
  have hu : uncut s k = k := by simp [uncut]; omega
  unfold finalGrad
  rw [h.nTs, halved_across hS hS' h ha (by omega) h.slot (Nat.le_refl _),
    halved_before hS hS' h ha (by omega), h.initial,
    hx'.2 k j (by omega) (h.nCtrls ▸ hj), hx.2 k j (by omega) hj,
    halved_generator h ha (by omega), hu, h.tau k (by omega), if_neg (by omega), if_neg (by omega), hu,
    h.ctrl k j (by omega) hj, hu]

theorem halved_finalGrad_after (hS : Exponential φ S) (hS' : Exponential φ S') (h : Halved s x S S')
    (ha : ∀ k j, k < S'.nTs → j < S.nCtrls → a' k j = a (uncut s k) j) (hx : ExactG φ S a)
    (hx' : ExactG φ S' a') {k j : Nat} (hs : s < k) (hk : k < S.nTs) (hj : j < S.nCtrls) :
    finalGrad S' a' (k + 1) j = finalGrad S a k j := by
  have h1 := h.slot
  have h2 := h.nTs
  have hu : uncut s (k + 1) = k := by simp [uncut]; omega
  unfold finalGrad
  rw [h.nTs, halved_after hS hS' h ha (by omega) (by omega) (Nat.le_refl _),
    halved_across hS hS' h ha (Nat.zero_le _) hs (by omega), h.initial,
    hx'.2 (k + 1) j (by omega) (h.nCtrls ▸ hj), hx.2 k j (by omega) hj,
    halved_generator h ha (by omega), hu, h.tau (k + 1) (by omega), if_neg (by omega),
    if_neg (by omega), hu, h.ctrl (k + 1) j (by omega) hj, hu]

theorem halved_finalGrad_at (hS : Exponential φ S) (hS' : Exponential φ S') (h : Halved s x S S')
    (ha : ∀ k j, k < S'.nTs → j < S.nCtrls → a' k j = a (uncut s k) j) (hx : ExactG φ S a)
    (hx' : ExactG φ S' a') {j : Nat} (hj : j < S.nCtrls) :
    finalGrad S' a' s j + finalGrad S' a' (s + 1) j = finalGrad S a s j := by
  have h1 := h.slot
  have h2 := h.nTs
  have hj' : j < S'.nCtrls := h.nCtrls ▸ hj
  have u1 : uncut s s = s := by simp [uncut]
  have u2 : uncut s (s + 1) = s := by simp [uncut]
  have e1 : evolution S' a' (s + 1) (S.nTs + 1) =
      evolution S a (s + 1) S.nTs * propagator S' a' (s + 1) := by
    have := halved_after hS hS' h ha (lo := s + 1) (hi := S.nTs) (by omega) (by omega) (Nat.le_refl _)
    unfold evolution at *
    rw [timeOrdered_pred _ (by omega), this]
  have e2 : evolution S' a' 0 (s + 1) =
      propagator S' a' s * evolution S a 0 s := by
    have := halved_before hS hS' h ha (lo := 0) (hi := s) (Nat.le_refl _)
    unfold evolution at *
    rw [timeOrdered_succ _ (Nat.zero_le _), this]
  have e3 := halved_before hS hS' h ha (lo := 0) (hi := s) (Nat.le_refl _)
  have e4 := halved_after hS hS' h ha (lo := s + 1) (hi := S.nTs) (by omega) (by omega) (Nat.le_refl _)
  have hg : propagatorGrad S a s j =
      propagatorGrad S' a' (s + 1) j * propagator S' a' s +
        propagator S' a' (s + 1) * propagatorGrad S' a' s j := by
    rw [hx'.2 (s + 1) j (by omega) hj', hx'.2 s j (by omega) hj', hx.2 s j h1 hj,
      hS' _ _ (by omega : s + 1 < S'.nTs), hS' _ _ (by omega : s < S'.nTs),
      halved_generator h ha (by omega), halved_generator h ha (by omega), u1, u2, h.tau s (by omega),
      h.tau (s + 1) (by omega), if_pos rfl, if_neg (by omega), if_pos rfl, h.ctrl s j (by omega) hj,
      h.ctrl (s + 1) j (by omega) hj, u1, u2, ← dexp_split]
    congr 2 <;> (push_cast; ring)
  unfold finalGrad
  rw [h.nTs, e1, e2, e3, e4, hg, h.initial]
  simp only [Matrix.mul_add, Matrix.add_mul, Matrix.mul_assoc]
  rw [add_comm]

end Halved

/-! ### Another basis -/

section Turned
variable {ψ : Matrix d d ℂ →ₗ[ℂ] Matrix d d ℂ} {W : Matrix d d ℂ} {V : Matrix m m ℂ}

theorem turned_generator (h : Turned W V S S')
    (ha : ∀ k j, k < S.nTs → j < S.nCtrls → a' k j = a k j) {k : Nat}
    (hk : k < S.nTs) : generator S' a' k = W * generator S a k * Wᴴ := by
  unfold generator
  rw [h.drift k hk, h.nCtrls, Matrix.mul_add, Matrix.add_mul, Matrix.mul_sum, Matrix.sum_mul]
  congr 1
  refine Finset.sum_congr rfl fun j hj => ?_
  have hj := Finset.mem_range.1 hj
  rw [h.ctrl k j hk hj, ha k j hk hj, Matrix.mul_smul, Matrix.smul_mul]

variable (hS : Exponential φ S) (hS' : Exponential ψ S') (h : Turned W V S S')
  (hW : W ∈ Matrix.unitaryGroup d ℂ) (hφ : ∀ A, ψ (W * A * Wᴴ) = W * φ A * Wᴴ)
  (ha : ∀ k j, k < S.nTs → j < S.nCtrls → a' k j = a k j)

include hS hS' h hW hφ ha

theorem turned_propagator {k : Nat} (hk : k < S.nTs) :
    propagator S' a' k = W * propagator S a k * Wᴴ := by
  rw [hS _ _ hk, hS' _ _ (h.nTs ▸ hk), turned_generator h ha hk, hφ, h.tau k hk,
    ← exp_unitary_conj W hW]
  simp only [Matrix.mul_smul, Matrix.smul_mul]

theorem turned_evolution {lo hi : Nat} (hl : lo ≤ hi) (hh : hi ≤ S.nTs) :
    evolution S' a' lo hi = W * evolution S a lo hi * Wᴴ := by
  unfold evolution
  rw [← timeOrdered_conj W hW _ hl]
  exact timeOrdered_congr fun k _ hk => turned_propagator hS hS' h hW hφ ha (by omega)

theorem turned_final : final S' a' = W * final S a * V := by
  have h2 : Wᴴ * W = 1 := (Matrix.mem_unitaryGroup_iff').1 hW
  unfold final
  rw [h.nTs, turned_evolution hS hS' h hW hφ ha (Nat.zero_le _) (Nat.le_refl _), h.initial]
  calc _ = W * evolution S a 0 S.nTs * (Wᴴ * W) * (S.initial * V) := by
        simp only [Matrix.mul_assoc]
    _ = _ := by rw [h2]; simp only [Matrix.mul_assoc, Matrix.one_mul]

theorem turned_finalGrad (hx : ExactG φ S a) (hx' : ExactG ψ S' a') {k j : Nat} (hk : k < S.nTs)
    (hj : j < S.nCtrls) : finalGrad S' a' k j = W * finalGrad S a k j * V := by
  have h2 : Wᴴ * W = 1 := (Matrix.mem_unitaryGroup_iff').1 hW
  have hg : propagatorGrad S' a' k j = W * propagatorGrad S a k j * Wᴴ := by
    rw [hx.2 k j hk hj, hx'.2 k j (h.nTs ▸ hk) (h.nCtrls ▸ hj),
      turned_generator h ha hk, h.tau k hk, h.ctrl k j hk hj, hφ, hφ, ← dexp_conj' W hW]
    simp only [Matrix.mul_smul, Matrix.smul_mul]
  unfold finalGrad
  rw [h.nTs, turned_evolution hS hS' h hW hφ ha hk (Nat.le_refl _),
    turned_evolution hS hS' h hW hφ ha (Nat.zero_le _) (Nat.le_of_lt hk), hg, h.initial]
  calc _ = W * evolution S a (k + 1) S.nTs * (Wᴴ * W) * propagatorGrad S a k j * (Wᴴ * W) *
        evolution S a 0 k * (Wᴴ * W) * (S.initial * V) := by
        simp only [Matrix.mul_assoc]
    _ = _ := by rw [h2]; simp only [Matrix.mul_assoc, Matrix.one_mul]

omit hS hS' hφ ha in
theorem turned_trace (hV : V ∈ Matrix.unitaryGroup m ℂ) (X : Matrix d m ℂ) :
    (S'.ontoTarget * (W * X * V)).trace = (S.ontoTarget * X).trace := by
  have h2 : Wᴴ * W = 1 := (Matrix.mem_unitaryGroup_iff').1 hW
  have h3 : V * Vᴴ = 1 := (Matrix.mem_unitaryGroup_iff).1 hV
  rw [h.ontoTarget]
  calc (Vᴴ * S.ontoTarget * Wᴴ * (W * X * V)).trace =
        (Vᴴ * (S.ontoTarget * (Wᴴ * W) * X * V)).trace := by simp only [Matrix.mul_assoc]
    _ = (S.ontoTarget * X * (V * Vᴴ)).trace := by
        rw [h2, Matrix.mul_one, Matrix.trace_mul_comm]; simp only [Matrix.mul_assoc]
    _ = _ := by rw [h3, Matrix.mul_one]

theorem turned_overlap (hV : V ∈ Matrix.unitaryGroup m ℂ) : overlap S' a' = overlap S a := by
  unfold overlap
  rw [turned_final hS hS' h hW hφ ha, turned_trace h hW hV]

theorem turned_frob (hV : V ∈ Matrix.unitaryGroup m ℂ) :
    frobSq (S'.target - final S' a') = frobSq (S.target - final S a) := by
  rw [turned_final hS hS' h hW hφ ha, h.target, ← Matrix.sub_mul, ← Matrix.mul_sub,
    ← frobSq_re, trace_rebase hW hV, frobSq_re]

theorem turned_slope (hV : V ∈ Matrix.unitaryGroup m ℂ) (f : ℝ) (X : Matrix d m ℂ) :
    slope S' a' f (W * X * V) = slope S a f X := by
  unfold slope
  rw [h.fidKind, h.phaseOpt, h.scale, h.dimNorm, turned_trace h hW hV,
    turned_overlap hS hS' h hW hφ ha hV, turned_final hS hS' h hW hφ ha, h.target,
    ← Matrix.sub_mul, ← Matrix.mul_sub, trace_rebase hW hV]

end Turned

end Kinds

/-! ### The dynamics at hand -/

theorem exponential_general (c : GeneralCfg d m) : Exponential LinearMap.id c.sys :=
  fun a k _ => general_propagator c a k

theorem exactG_general (c : GeneralCfg d m) (ha : c.approx = false) (a : Amps) :
    ExactG LinearMap.id c.sys a := by
  refine ⟨?_, fun k j _ _ => general_propagatorGrad c a k j⟩
  change (if c.approx then PropKind.approx else .frechet) ≠ .approx
  rw [ha]
  simp

theorem exponential_unitary {c : UnitaryCfg d m} (hc : Closed c) :
    Exponential ((-Complex.I) • LinearMap.id) c.sys := by
  intro a k hk
  rw [sys_nTs] at hk
  rw [propagator_exp hc a hk, sys_tau]
  rfl

theorem exactG_unitary {c : UnitaryCfg d m} (hc : Closed c) {a : Amps} (hx : ExactAt c a) :
    ExactG ((-Complex.I) • LinearMap.id) c.sys a := by
  refine ⟨hx.ne_approx, fun k j hk _ => ?_⟩
  rw [sys_nTs] at hk
  rw [propagatorGrad_dexp hc hx hk, sys_tau, sys_ctrl]
  rfl

end QTrl.Dyn
