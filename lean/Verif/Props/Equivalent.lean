import Verif.Proofs.Equivalent
import Verif.Props.Kinds

/-
C84: equivalent descriptions of one control problem, for every kind of dynamics.
-/

set_option linter.unusedSectionVars false

open Matrix

namespace QTrl.Dyn

open QTrl.Spec QTrl.MatExp

variable {d m D D' : Type} [Fintype d] [DecidableEq d] [Fintype m] [DecidableEq m]

/-- **C84.** The dynamics of the library evolve by exponentials of a fixed linear function of the
generator, with the derivatives of these exponentials as propagator gradients: general dynamics
with generators as given (exact gradients unless approximated ones were chosen), symplectic dynamics
with the generator multiplied by the symplectic form (the same side for objects configured
alike). -/
theorem C84_kinds :
    (∀ c : GeneralCfg d m, Exponential LinearMap.id c.sys ∧
      (c.approx = false → ∀ a, ExactG LinearMap.id c.sys a)) ∧
    (∀ c : UnitaryCfg d m, Closed c → Exponential ((-Complex.I) • LinearMap.id) c.sys ∧
      ∀ a, ExactAt c a → ExactG ((-Complex.I) • LinearMap.id) c.sys a) ∧
    ∀ (n : Nat) (c : Sympl.Cfg n m), SymplecticCfg c →
      ∃ φ : Matrix (Fin (2 * n)) (Fin (2 * n)) ℂ →ₗ[ℂ] Matrix (Fin (2 * n)) (Fin (2 * n)) ℂ,
        ((∃ z : ℂ, (z = 1 ∨ z = -1) ∧ ((∀ A, φ A = (z • Sympl.omega n) * A) ∨
          ∀ A, φ A = A * (z • Sympl.omega n)))) ∧
        ∀ c' : Sympl.Cfg n m, c'.phaseOps = c.phaseOps → Exponential φ c'.sys ∧
          ∀ a, ExactG φ c'.sys a := by
  refine ⟨fun c => ⟨exponential_general c, exactG_general c⟩,
    fun c hc => ⟨exponential_unitary hc, fun a hx => exactG_unitary hc hx⟩, fun n c hc => ?_⟩
  obtain ⟨z, hz, hph⟩ := Sympl.sys_phase hc
  have key : ∀ φ : Matrix (Fin (2 * n)) (Fin (2 * n)) ℂ →ₗ[ℂ] Matrix (Fin (2 * n)) (Fin (2 * n)) ℂ,
      c.sys.phase = some (fun A => φ A) → ∀ c' : Sympl.Cfg n m, c'.phaseOps = c.phaseOps →
        Exponential φ c'.sys ∧ ∀ a, ExactG φ c'.sys a := by
    intro φ h c' h'
    have hp : c'.sys.phase = some (fun A => φ A) := by
      rw [← h]
      obtain ⟨pc, e⟩ := Sympl.sys_eq c
      obtain ⟨pc', e'⟩ := Sympl.sys_eq c'
      rw [e, e']
      simp only [h']
    have hA : ∀ A, phased c'.sys A = φ A := fun A => by simp only [phased, hp]
    obtain ⟨pc', e'⟩ := Sympl.sys_eq c'
    have hk : c'.sys.propKind = .frechet := by rw [e']
    have he : c'.sys.expm = NormedSpace.exp := by rw [e']
    have hf : c'.sys.frechet = augMatGrad := by rw [e']
    refine ⟨fun a k _ => ?_, fun a => ⟨by rw [hk]; simp, fun k j _ _ => ?_⟩⟩
    · unfold propagator
      rw [if_neg (by rw [hk]; simp), he, hA]
    · unfold propagatorGrad
      rw [if_neg (by rw [hk]; simp), hf, hA, hA]
      rfl
  rcases hph with h | h
  · exact ⟨LinearMap.mulLeft ℂ (z • Sympl.omega n), ⟨z, hz, Or.inl fun _ => rfl⟩, key _ h⟩
  · exact ⟨LinearMap.mulRight ℂ (z • Sympl.omega n), ⟨z, hz, Or.inr fun _ => rfl⟩, key _ h⟩

section
variable {φ ψ : Matrix d d ℂ →ₗ[ℂ] Matrix d d ℂ} {S : Sys d m D} {S' : Sys d m D'}

/-- **C84.** Controls of any dynamics may be recombined: if the controls of one system are real
combinations `M` of those of the other and its drift contains them with fixed amplitudes `b`, then
at amplitudes related by `a = b + M·a'` evolution, fidelity and error are the same, and the gradients
obey the chain rule `g' = Mᵀ·g`. -/
theorem C84_controls (hv : Valid S) (hv' : Valid S') (hS : Exponential φ S) (hS' : Exponential φ S')
    {M : Nat → Nat → Nat → ℝ} {b : Nat → Nat → ℝ} (h : Mixed M b S S')
    (junk s0 : State d m D) (junk' s0' : State d m D') (a0 a0' : Amps) (ops ops' : List Op)
    (ha : ∀ k j, k < S.nTs → j < S.nCtrls → lastAmps a0 ops k j =
      b k j + ∑ i ∈ Finset.range S'.nCtrls, M k j i * lastAmps a0' ops' k i) :
    finalObj S' junk' s0' a0' ops' = finalObj S junk s0 a0 ops ∧
    query S' junk' s0' a0' ops' .getFidelity = query S junk s0 a0 ops .getFidelity ∧
    query S' junk' s0' a0' ops' .getFidErr = query S junk s0 a0 ops .getFidErr ∧
    (ExactG φ S (lastAmps a0 ops) → ExactG φ S' (lastAmps a0' ops') →
      GradRel (fun g g' => ∀ k i, k < S.nTs → i < S'.nCtrls →
          g' k i = ∑ j ∈ Finset.range S.nCtrls, M k j i * g k j)
        (query S junk s0 a0 ops .getGradient) (query S' junk' s0' a0' ops' .getGradient)) := by
  have hf := props_final h.nTs h.initial fun k hk => mixed_propagator hS hS' h ha hk
  obtain ⟨h1, h2, h3⟩ := ends_answers h.toSameEnds hf
  rw [finalObj_eq hv, finalObj_eq hv']
  simp only [query_eq hv, query_eq hv']
  refine ⟨hf, h2, h3, fun hx hx' => ?_⟩
  refine alike_gradient h.toAlike hx.1 hx'.1 h1 _ fun f k i hk hi => ?_
  beta_reduce
  rw [if_pos ⟨h.nTs ▸ hk, hi⟩, gradEntry_slope, mixed_finalGrad hS hS' h ha hx hx' hk hi,
    ends_slope h.toSameEnds hf, slope_sum]
  refine Finset.sum_congr rfl fun j hj => ?_
  rw [if_pos ⟨hk, Finset.mem_range.1 hj⟩, gradEntry_slope]

/-- **C84.** Units do not matter in any dynamics: slots that last `s` times as long with generators
divided by `s` (possibly different in every slot) give the same evolution, fidelity, error and
gradient. -/
theorem C84_units (hv : Valid S) (hv' : Valid S') (hS : Exponential φ S) (hS' : Exponential φ S')
    {s : Nat → ℝ} (h : Slowed s S S') (junk s0 : State d m D) (junk' s0' : State d m D')
    (a0 a0' : Amps) (ops ops' : List Op)
    (ha : ∀ k j, k < S.nTs → j < S.nCtrls → lastAmps a0' ops' k j = lastAmps a0 ops k j) :
    finalObj S' junk' s0' a0' ops' = finalObj S junk s0 a0 ops ∧
    query S' junk' s0' a0' ops' .getFidelity = query S junk s0 a0 ops .getFidelity ∧
    query S' junk' s0' a0' ops' .getFidErr = query S junk s0 a0 ops .getFidErr ∧
    (ExactG φ S (lastAmps a0 ops) → ExactG φ S' (lastAmps a0' ops') →
      GradRel (fun g g' => g' = g)
        (query S junk s0 a0 ops .getGradient) (query S' junk' s0' a0' ops' .getGradient)) := by
  have hf := props_final h.nTs h.initial fun k hk => slowed_propagator hS hS' h ha hk
  obtain ⟨h1, h2, h3⟩ := ends_answers h.toSameEnds hf
  rw [finalObj_eq hv, finalObj_eq hv']
  simp only [query_eq hv, query_eq hv']
  refine ⟨hf, h2, h3, fun hx hx' => ?_⟩
  refine alike_gradient h.toAlike hx.1 hx'.1 h1 _ fun f => ?_
  ext k j
  rw [h.nTs, h.nCtrls]
  split
  · next hkj =>
    rw [gradEntry_slope, gradEntry_slope, slowed_finalGrad hS hS' h ha hx hx' hkj.1 hkj.2,
      ends_slope h.toSameEnds hf]
  · rfl

/-- **C84.** The time grid of any dynamics may be refined: cutting a slot in two and repeating its
amplitudes changes neither evolution nor fidelity nor error; the gradient of the slot is the sum of
the gradients of its parts and the other gradients are unchanged. -/
theorem C84_refined_grid (hv : Valid S) (hv' : Valid S') (hS : Exponential φ S)
    (hS' : Exponential φ S') {s : Nat} {x : ℝ} (h : Halved s x S S') (junk s0 : State d m D)
    (junk' s0' : State d m D') (a0 a0' : Amps) (ops ops' : List Op)
    (ha : ∀ k j, k < S'.nTs → j < S.nCtrls →
      lastAmps a0' ops' k j = lastAmps a0 ops (uncut s k) j) :
    finalObj S' junk' s0' a0' ops' = finalObj S junk s0 a0 ops ∧
    query S' junk' s0' a0' ops' .getFidelity = query S junk s0 a0 ops .getFidelity ∧
    query S' junk' s0' a0' ops' .getFidErr = query S junk s0 a0 ops .getFidErr ∧
    (ExactG φ S (lastAmps a0 ops) → ExactG φ S' (lastAmps a0' ops') →
      GradRel (fun g g' => ∀ j, j < S.nCtrls → g s j = g' s j + g' (s + 1) j ∧
          (∀ k, k < s → g k j = g' k j) ∧ ∀ k, s < k → k < S.nTs → g k j = g' (k + 1) j)
        (query S junk s0 a0 ops .getGradient) (query S' junk' s0' a0' ops' .getGradient)) := by
  have hf := halved_final hS hS' h ha
  obtain ⟨h1, h2, h3⟩ := ends_answers h.toSameEnds hf
  have hs := h.slot
  have hn := h.nTs
  rw [finalObj_eq hv, finalObj_eq hv']
  simp only [query_eq hv, query_eq hv']
  refine ⟨hf, h2, h3, fun hx hx' => ?_⟩
  refine alike_gradient h.toAlike hx.1 hx'.1 h1 _ fun f j hj => ?_
  have hj' : j < S'.nCtrls := h.nCtrls ▸ hj
  have hg := ends_slope h.toSameEnds hf f
  beta_reduce
  refine ⟨?_, fun k hk => ?_, fun k hk1 hk2 => ?_⟩
  · rw [if_pos ⟨hs, hj⟩, if_pos ⟨by omega, hj'⟩, if_pos ⟨by omega, hj'⟩, gradEntry_slope,
      gradEntry_slope, gradEntry_slope, hg, hg, ← slope_add, halved_finalGrad_at hS hS' h ha hx hx' hj]
  · rw [if_pos ⟨by omega, hj⟩, if_pos ⟨by omega, hj'⟩, gradEntry_slope, gradEntry_slope, hg,
      halved_finalGrad_before hS hS' h ha hx hx' hk hj]
  · rw [if_pos ⟨hk2, hj⟩, if_pos ⟨by omega, hj'⟩, gradEntry_slope, gradEntry_slope, hg,
      halved_finalGrad_after hS hS' h ha hx hx' hk1 hk2 hj]

/-- **C84.** The orthonormal basis in which a problem of any dynamics is written does not matter:
with generators, initial and target object transformed by a unitary `W` (and the columns by a
unitary `V`) the evolved object is transformed likewise, and fidelity, error and gradient are the
same. -/
theorem C84_basis (hv : Valid S) (hv' : Valid S') (hS : Exponential φ S) (hS' : Exponential ψ S')
    {W : Matrix d d ℂ} {V : Matrix m m ℂ} (h : Turned W V S S')
    (hW : W ∈ Matrix.unitaryGroup d ℂ) (hV : V ∈ Matrix.unitaryGroup m ℂ)
    (hφ : ∀ A, ψ (W * A * Wᴴ) = W * φ A * Wᴴ) (junk s0 : State d m D)
    (junk' s0' : State d m D') (a0 a0' : Amps) (ops ops' : List Op)
    (ha : ∀ k j, k < S.nTs → j < S.nCtrls → lastAmps a0' ops' k j = lastAmps a0 ops k j) :
    finalObj S' junk' s0' a0' ops' = W * finalObj S junk s0 a0 ops * V ∧
    query S' junk' s0' a0' ops' .getFidelity = query S junk s0 a0 ops .getFidelity ∧
    query S' junk' s0' a0' ops' .getFidErr = query S junk s0 a0 ops .getFidErr ∧
    (ExactG φ S (lastAmps a0 ops) → ExactG ψ S' (lastAmps a0' ops') →
      GradRel (fun g g' => g' = g)
        (query S junk s0 a0 ops .getGradient) (query S' junk' s0' a0' ops' .getGradient)) := by
  obtain ⟨h1, h2, h3⟩ := alike_answers h.toAlike (turned_overlap hS hS' h hW hφ ha hV)
    (turned_frob hS hS' h hW hφ ha hV)
  rw [finalObj_eq hv, finalObj_eq hv']
  simp only [query_eq hv, query_eq hv']
  refine ⟨turned_final hS hS' h hW hφ ha, h2, h3, fun hx hx' => ?_⟩
  refine alike_gradient h.toAlike hx.1 hx'.1 h1 _ fun f => ?_
  ext k j
  rw [h.nTs, h.nCtrls]
  split
  · next hkj =>
    rw [gradEntry_slope, gradEntry_slope, turned_finalGrad hS hS' h hW hφ ha hx hx' hkj.1 hkj.2,
      turned_slope hS hS' h hW hφ ha hV]
  · rfl

end

/-! ### Non-vacuity -/

section Examples

/-- A draining two-level system: level `1` decays into level `0`, the control exchanges them. -/
noncomputable def draining (n : Nat) (t : Nat → ℝ) : GeneralCfg (Fin 2) (Fin 2) where
  nTs := n
  nCtrls := 1
  drift _ := !![0, 1; 0, -1]
  ctrl _ _ := !![0, 1; 1, 0]
  tau := t
  initial := 1
  target := diagonal ![1, 2]
  isQobj := false
  cachePhased := false
  cachePropGrad := true
  approx := false
  fidKind := .traceDiff
  phaseOpt := .PSU
  scaleFactor := some 1
  inv X := X⁻¹

theorem draining_valid {n : Nat} (hn : 0 < n) (t : Nat → ℝ) : Valid (draining n t).sys :=
  general_valid hn (by change 0 < 1; norm_num)

/-- **C84_controls**: the control offered twice, once doubled and once negative, and already
contained in the drift. -/
example (a : Amps) : ∃ (c : GeneralCfg (Fin 2) (Fin 2)) (M : Nat → Nat → Nat → ℝ)
    (b : Nat → Nat → ℝ), Valid (draining 3 fun _ => 1).sys ∧ Valid c.sys ∧
      Mixed M b (draining 3 fun _ => 1).sys c.sys ∧ c.sys.nCtrls = 2 ∧
      ExactG LinearMap.id (draining 3 fun _ => 1).sys a ∧ ExactG LinearMap.id c.sys a := by
  refine ⟨{ draining 3 fun _ => 1 with
    nCtrls := 2,
    drift := fun _ => !![0, 1; 0, -1] + ((1 : ℝ) : ℂ) • !![0, 1; 1, 0],
    ctrl := fun _ i => ((if i = 0 then 2 else -1 : ℝ) : ℂ) • !![0, 1; 1, 0] },
    fun _ _ i => if i = 0 then 2 else -1, fun _ _ => 1, draining_valid (by norm_num) _,
    general_valid (by change 0 < 3; norm_num) (by change 0 < 2; norm_num), ?_, rfl,
    exactG_general _ rfl a, exactG_general _ rfl a⟩
  refine ⟨⟨⟨rfl, rfl, rfl, rfl, rfl⟩, rfl, rfl, rfl⟩, rfl, fun _ _ => rfl, fun k _ => ?_,
    fun k i _ _ => ?_⟩
  · change _ = !![0, 1; 0, -1] + ∑ j ∈ Finset.range 1, ((1 : ℝ) : ℂ) • (!![0, 1; 1, 0] : Matrix _ _ ℂ)
    rw [Finset.sum_range_one]
    rfl
  · change _ = ∑ j ∈ Finset.range 1, (((if i = 0 then 2 else -1 : ℝ)) : ℂ) •
      (!![0, 1; 1, 0] : Matrix _ _ ℂ)
    rw [Finset.sum_range_one]
    rfl

/-- **C84_units**: a unit of time against three with a third of the rates. -/
example (a : Amps) : ∃ c : GeneralCfg (Fin 2) (Fin 2), Valid (draining 3 fun _ => 1).sys ∧
    Valid c.sys ∧ Slowed (fun _ => 3) (draining 3 fun _ => 1).sys c.sys ∧
      ExactG LinearMap.id (draining 3 fun _ => 1).sys a ∧ ExactG LinearMap.id c.sys a := by
  refine ⟨{ draining 3 fun _ => 3 * 1 with
    drift := fun _ => ((1 / 3 : ℝ) : ℂ) • !![0, 1; 0, -1]
    ctrl := fun _ _ => ((1 / 3 : ℝ) : ℂ) • !![0, 1; 1, 0] }, draining_valid (by norm_num) _,
    general_valid (by change 0 < 3; norm_num) (by change 0 < 1; norm_num), ?_,
    exactG_general _ rfl a, exactG_general _ rfl a⟩
  refine ⟨⟨⟨rfl, rfl, rfl, rfl, rfl⟩, rfl, rfl, rfl⟩, rfl, rfl, fun _ _ => rfl, fun k _ => ?_,
    fun k i _ _ => ?_⟩
  · change (!![0, 1; 0, -1] : Matrix (Fin 2) (Fin 2) ℂ) = ((3 : ℝ) : ℂ) • ((1 / 3 : ℝ) : ℂ) • _
    rw [smul_smul]
    norm_num
  · change (!![0, 1; 1, 0] : Matrix (Fin 2) (Fin 2) ℂ) = ((3 : ℝ) : ℂ) • ((1 / 3 : ℝ) : ℂ) • _
    rw [smul_smul]
    norm_num

/-- **C84_refined_grid**: the middle slot of three cut into a tenth and the rest. -/
example (a : Amps) : ∃ c : GeneralCfg (Fin 2) (Fin 2), Valid (draining 3 fun _ => 1).sys ∧
    Valid c.sys ∧ Halved 1 (1 / 10) (draining 3 fun _ => 1).sys c.sys ∧
      ExactG LinearMap.id (draining 3 fun _ => 1).sys a ∧ ExactG LinearMap.id c.sys a := by
  refine ⟨draining 4 fun k => if k = 1 then 1 / 10 else if k = 2 then 1 - 1 / 10 else 1,
    draining_valid (by norm_num) _, draining_valid (by norm_num) _, ?_, exactG_general _ rfl a,
    exactG_general _ rfl a⟩
  exact ⟨⟨⟨rfl, rfl, rfl, rfl, rfl⟩, rfl, rfl, rfl⟩, by change 1 < 3; norm_num, rfl, rfl,
    fun _ _ => rfl, fun _ _ => rfl, fun _ _ _ _ => rfl⟩

/-- **C84_basis**: the two levels exchanged. -/
example (a : Amps) : ∃ (c : GeneralCfg (Fin 2) (Fin 2)) (W V : Matrix (Fin 2) (Fin 2) ℂ),
    Valid (draining 3 fun _ => 1).sys ∧ Valid c.sys ∧ Turned W V (draining 3 fun _ => 1).sys c.sys ∧
      W ∈ Matrix.unitaryGroup (Fin 2) ℂ ∧ V ∈ Matrix.unitaryGroup (Fin 2) ℂ ∧ W ≠ 1 ∧
      (∀ A, LinearMap.id (R := ℂ) (W * A * Wᴴ) = W * LinearMap.id (R := ℂ) A * Wᴴ) ∧
      ExactG LinearMap.id (draining 3 fun _ => 1).sys a ∧ ExactG LinearMap.id c.sys a := by
  let W : Matrix (Fin 2) (Fin 2) ℂ := !![0, 1; 1, 0]
  have hW : W * Wᴴ = 1 := by
    ext i j
    fin_cases i <;> fin_cases j <;> simp [W, Matrix.mul_apply, Fin.sum_univ_two]
  have hW' : Wᴴ * W = 1 := by
    ext i j
    fin_cases i <;> fin_cases j <;> simp [W, Matrix.mul_apply, Fin.sum_univ_two]
  have hV : Wᴴ ∈ Matrix.unitaryGroup (Fin 2) ℂ := by
    rw [Matrix.mem_unitaryGroup_iff, star_eq_conjTranspose, conjTranspose_conjTranspose, hW']
  have hi : (W * diagonal ![1, 2] * Wᴴ)⁻¹ = W * (diagonal ![1, 2])⁻¹ * Wᴴ := by
    have h1 : (Wᴴ)⁻¹ = W := Matrix.inv_eq_left_inv hW
    have h2 : W⁻¹ = Wᴴ := Matrix.inv_eq_left_inv hW'
    rw [Matrix.mul_inv_rev, Matrix.mul_inv_rev, h1, h2, Matrix.mul_assoc]
  refine ⟨{ draining 3 fun _ => 1 with
    drift := fun _ => W * !![0, 1; 0, -1] * Wᴴ
    ctrl := fun _ _ => W * !![0, 1; 1, 0] * Wᴴ
    target := W * diagonal ![1, 2] * Wᴴ }, W, Wᴴ, draining_valid (by norm_num) _,
    general_valid (by change 0 < 3; norm_num) (by change 0 < 1; norm_num), ?_,
    (Matrix.mem_unitaryGroup_iff).2 hW, hV, ?_, fun _ => rfl, exactG_general _ rfl a,
    exactG_general _ rfl a⟩
  · refine ⟨⟨rfl, rfl, rfl, rfl, ?_⟩, rfl, rfl, fun _ _ => rfl, fun _ _ => rfl, fun _ _ _ _ => rfl,
      ?_, rfl, ?_⟩
    · change ‖((W * diagonal ![1, 2] * Wᴴ)ᴴ * (W * diagonal ![1, 2] * Wᴴ)).trace‖ / 1 =
        ‖((diagonal ![1, 2] : Matrix (Fin 2) (Fin 2) ℂ)ᴴ * diagonal ![1, 2]).trace‖ / 1
      rw [trace_rebase ((Matrix.mem_unitaryGroup_iff).2 hW) hV]
    · change (1 : Matrix (Fin 2) (Fin 2) ℂ) = W * 1 * Wᴴ
      rw [Matrix.mul_one, hW]
    · change (W * diagonal ![1, 2] * Wᴴ)⁻¹ = Wᴴᴴ * (diagonal ![1, 2])⁻¹ * Wᴴ
      rw [hi, conjTranspose_conjTranspose]
  · intro h
    simpa [W] using congrFun (congrFun h 0) 0

/-- **C84_kinds**: a qubit and coupled oscillators, whose phase application is the default one. -/
example (a : Amps) : Closed (sample 3 .unitary .PSU) ∧ ExactAt (sample 3 .unitary .PSU) a ∧
    SymplecticCfg oscillatorsBack ∧ 0 < oscillatorsBack.nTs := by
  refine ⟨sample_closed (by norm_num) _ _, Or.inl rfl,
    ⟨by decide, by decide, fun k _ => ?_, fun k j _ _ => ?_, fun v hv => ?_, ?_⟩, by decide⟩
  · simp [oscillatorsBack, Sympl.oscillators]
  · ext a b
    simp only [oscillatorsBack, Sympl.oscillators, Matrix.transpose_apply, Matrix.of_apply,
      Nat.add_comm]
  · simp [oscillatorsBack] at hv
  · exact (Sympl.C51_phase_partial 2 [] (by simp)).1

end Examples

end QTrl.Dyn
