import Verif.Spec.Kinds
import Verif.Proofs.Symmetry2
import Verif.Proofs.OpenSystem
import Verif.Proofs.Linear
import Verif.Props.Fidelity

/-
The evolution of one problem written for different kinds of dynamics.
-/

set_option linter.unusedSectionVars false

open Matrix Kronecker

namespace QTrl.Dyn

open QTrl.Spec QTrl.MatExp

variable {d m n p : Type} [Fintype d] [DecidableEq d] [Fintype m] [DecidableEq m]
  [Fintype n] [DecidableEq n] [Fintype p] [DecidableEq p]

/-! ### General systems -/

section General
variable (g : GeneralCfg d m)

theorem general_eq : ∃ S : Sys d m Unit, g.sys = S ∧ S.nTs = g.nTs ∧ S.nCtrls = g.nCtrls ∧
    S.drift = g.drift ∧ S.ctrl = g.ctrl ∧ S.tau = g.tau ∧ S.phase = none ∧
    S.initial = g.initial ∧ S.target = g.target ∧ S.ontoTarget = g.onto ∧
    S.isQobj = g.isQobj ∧ S.propKind = (if g.approx then .approx else .frechet) ∧
    S.fidKind = g.fidKind ∧ S.phaseOpt = g.phaseOpt ∧
    S.dimNorm = initNormalization g.phaseOpt g.target ∧
    S.scale = defaultScale g.scaleFactor (Fintype.card d) ∧ S.expm = NormedSpace.exp ∧
    S.frechet = augMatGrad :=
  ⟨_, rfl, rfl, rfl, rfl, rfl, rfl, rfl, rfl, rfl, rfl, rfl, rfl, rfl, rfl, rfl, rfl, rfl, rfl⟩

theorem general_valid {g : GeneralCfg d m} (h1 : 0 < g.nTs) (h2 : 0 < g.nCtrls) : Valid g.sys :=
  initSys_valid h1 h2

theorem general_propagator (amps : Amps) (k : Nat) : propagator g.sys amps k =
    NormedSpace.exp ((g.tau k : ℂ) • generator g.sys amps k) := by
  have hd : g.sys.propKind ≠ .diag := by
    show (if g.approx then PropKind.approx else .frechet) ≠ .diag
    split <;> decide
  unfold propagator
  rw [if_neg hd]
  rfl

theorem general_propagatorGrad (amps : Amps) (k j : Nat) : propagatorGrad g.sys amps k j =
    dexp ((g.tau k : ℂ) • generator g.sys amps k) ((g.tau k : ℂ) • g.ctrl k j) := by
  have hd : g.sys.propKind ≠ .diag := by
    show (if g.approx then PropKind.approx else .frechet) ≠ .diag
    split <;> decide
  unfold propagatorGrad
  rw [if_neg hd]
  rfl

theorem general_exact (amps : Amps) : ExactPropGrad g.sys amps := by
  refine exactPropGrad_linear ?_ ?_ rfl rfl amps
  · intro A B z
    rfl
  · show (if g.approx then PropKind.approx else .frechet) ≠ .diag
    split <;> decide

end General

/-! ### Systems with the same propagators -/

section Same
variable {D D' : Type} {S : Sys d m D} {S' : Sys d m D'} {a a' : Amps}

/-- What two systems must share to report the same once their propagators agree. -/
structure SameRest (S : Sys d m D) (S' : Sys d m D') : Prop where
  nTs : S'.nTs = S.nTs
  nCtrls : S'.nCtrls = S.nCtrls
  initial : S'.initial = S.initial
  target : S'.target = S.target
  fidKind : S'.fidKind = S.fidKind
  unitary : S.fidKind = .unitary → S'.ontoTarget = S.ontoTarget ∧ S'.dimNorm = S.dimNorm ∧
    S'.phaseOpt = S.phaseOpt ∧ S'.isQobj = S.isQobj
  traceDiff : S.fidKind = .traceDiff → S'.scale = S.scale

theorem SameRest.evolution (_ : SameRest S S')
    (hp : ∀ k, k < S.nTs → propagator S' a' k = propagator S a k) {lo hi : Nat}
    (hh : hi ≤ S.nTs) : evolution S' a' lo hi = evolution S a lo hi :=
  timeOrdered_congr fun k _ hk => hp k (by omega)

theorem SameRest.final (h : SameRest S S')
    (hp : ∀ k, k < S.nTs → propagator S' a' k = propagator S a k) :
    final S' a' = final S a := by
  unfold QTrl.Spec.final
  rw [h.nTs, h.initial, h.evolution hp le_rfl]

theorem SameRest.fidelity (h : SameRest S S') (hu : S.fidKind = .unitary)
    (hp : ∀ k, k < S.nTs → propagator S' a' k = propagator S a k) :
    fidelity S' a' = fidelity S a := by
  obtain ⟨h1, h2, h3, h4⟩ := h.unitary hu
  unfold QTrl.Spec.fidelity overlap
  rw [h1, h2, h3, h4, h.final hp]

theorem SameRest.answers (h : SameRest S S')
    (hp : ∀ k, k < S.nTs → propagator S' a' k = propagator S a k) :
    answer S' (some a') .getFidelity = answer S (some a) .getFidelity ∧
    answer S' (some a') .getFidErr = answer S (some a) .getFidErr := by
  simp only [answer, fidErr, h.fidKind]
  cases hk : S.fidKind with
  | unitary => simp only [h.fidelity hk hp, and_self]
  | traceDiff => simp only [h.traceDiff hk, h.target, h.final hp, and_self]

theorem SameRest.gradient (h : SameRest S S')
    (hp : ∀ k, k < S.nTs → propagator S' a' k = propagator S a k)
    (hg : ∀ k j, k < S.nTs → j < S.nCtrls → propagatorGrad S' a' k j = propagatorGrad S a k j)
    (hx : S.propKind ≠ .approx) (hx' : S'.propKind ≠ .approx) :
    answer S' (some a') .getGradient = answer S (some a) .getGradient := by
  have hG : ∀ k j, k < S.nTs → j < S.nCtrls → finalGrad S' a' k j = finalGrad S a k j := by
    intro k j hk hj
    unfold finalGrad
    rw [h.nTs, h.evolution hp le_rfl, h.evolution hp hk.le, hg k j hk hj, h.initial]
  have hE : ∀ f : ℝ, (fun k j => if k < S'.nTs ∧ j < S'.nCtrls then gradEntry S' a' f k j else 0) =
      fun k j => if k < S.nTs ∧ j < S.nCtrls then gradEntry S a f k j else 0 := by
    intro f
    ext k j
    rw [h.nTs, h.nCtrls]
    by_cases hkj : k < S.nTs ∧ j < S.nCtrls
    · rw [if_pos hkj, if_pos hkj]
      unfold gradEntry overlap
      rw [h.fidKind, hG k j hkj.1 hkj.2, h.final hp]
      cases hk : S.fidKind with
      | unitary =>
        obtain ⟨h1, h2, h3, h4⟩ := h.unitary hk
        simp only [h1, h2, h3]
      | traceDiff => simp only [h.traceDiff hk, h.target]
    · rw [if_neg hkj, if_neg hkj]
  simp only [answer, QTrl.Spec.gradient, if_neg hx, if_neg hx', h.fidKind, hE]
  cases hk : S.fidKind with
  | unitary =>
    simp only [h.fidelity hk hp]
    rw [funext hE]
  | traceDiff => rfl

end Same

/-! ### Superoperators -/

/-- The object for density matrices. -/
def dbl (X : Matrix n m ℂ) : Matrix (n × n) (m × m) ℂ := X ⊗ₖ X.map star

theorem dbl_mul {l : Type} [Fintype l] (A : Matrix n m ℂ) (B : Matrix m l ℂ) :
    dbl (A * B) = dbl A * dbl B := by
  unfold dbl
  rw [← Matrix.mul_kronecker_mul]
  congr 1
  ext i j
  simp [Matrix.mul_apply]

theorem dbl_one : dbl (1 : Matrix n n ℂ) = 1 := by
  unfold dbl
  rw [show (1 : Matrix n n ℂ).map star = 1 from Matrix.map_one _ (star_zero _) (star_one _),
    Matrix.one_kronecker_one]

theorem conj_eq (K : Matrix n m ℂ) : K.map star = (Kᴴ)ᵀ := rfl

theorem bothSides_eq (K : Matrix n n ℂ) :
    bothSides K = K ⊗ₖ (1 : Matrix n n ℂ) + (1 : Matrix n n ℂ) ⊗ₖ (K.map star) := rfl

attribute [local instance] Matrix.linftyOpNormedRing Matrix.linftyOpNormedAlgebra in
theorem exp_one_kronecker (B : Matrix n n ℂ) :
    NormedSpace.exp ((1 : Matrix d d ℂ) ⊗ₖ B) = (1 : Matrix d d ℂ) ⊗ₖ NormedSpace.exp B := by
  let f : Matrix n n ℂ →+* Matrix (d × n) (d × n) ℂ :=
    { toFun := fun A => ((1 : Matrix d d ℂ) ⊗ₖ A)
      map_one' := by simp
      map_mul' := fun A B => by
        rw [← Matrix.mul_kronecker_mul, Matrix.one_mul]
      map_zero' := by simp
      map_add' := fun A B => by simp [Matrix.kronecker_add] }
  have hf : Continuous f := by
    refine continuous_matrix fun i j => ?_
    exact (continuous_const.mul (continuous_id.matrix_elem i.2 j.2))
  exact (NormedSpace.map_exp f hf B).symm

theorem exp_bothSides (K : Matrix n n ℂ) :
    NormedSpace.exp (bothSides K) = dbl (NormedSpace.exp K) := by
  have hc : Commute (K ⊗ₖ (1 : Matrix n n ℂ)) ((1 : Matrix n n ℂ) ⊗ₖ (K.map star)) := by
    unfold Commute SemiconjBy
    rw [← Matrix.mul_kronecker_mul, ← Matrix.mul_kronecker_mul]
    simp
  rw [bothSides_eq, Matrix.exp_add_of_commute _ _ hc, exp_kronecker_one, exp_one_kronecker,
    ← Matrix.mul_kronecker_mul, Matrix.mul_one, Matrix.one_mul, conj_eq, Matrix.exp_transpose,
    Matrix.exp_conjTranspose]
  rfl

theorem bothSides_add (K L : Matrix n n ℂ) : bothSides (K + L) = bothSides K + bothSides L := by
  ext x y
  simp [bothSides]
  ring

theorem bothSides_smul (r : ℝ) (K : Matrix n n ℂ) :
    bothSides ((r : ℂ) • K) = (r : ℂ) • bothSides K := by
  ext x y
  simp [bothSides]
  ring

theorem bothSides_zero : bothSides (0 : Matrix n n ℂ) = 0 := by
  ext x y
  simp [bothSides]

theorem bothSides_sum {ι : Type} (s : Finset ι) (f : ι → Matrix n n ℂ) :
    bothSides (∑ i ∈ s, f i) = ∑ i ∈ s, bothSides (f i) := by
  classical
  induction s using Finset.induction_on with
  | empty => simp [bothSides_zero]
  | insert a s ha ih => rw [Finset.sum_insert ha, Finset.sum_insert ha, bothSides_add, ih]

theorem _root_.QTrl.Spec.IsLindblad.commutator {M : Matrix (n × n) (n × n) ℂ}
    {H : Matrix n n ℂ} (h : IsLindblad M H []) : M = bothSides (-Complex.I • H) := by
  rw [h.form]
  simp [drain]

theorem timeOrdered_dbl (q : Nat → Matrix n n ℂ) {lo hi : Nat} (h : lo ≤ hi) :
    timeOrdered (fun k => dbl (q k)) lo hi = dbl (timeOrdered q lo hi) := by
  induction hi, h using Nat.le_induction with
  | base => rw [timeOrdered_self, timeOrdered_self, dbl_one]
  | succ hi h ih => rw [timeOrdered_succ _ h, timeOrdered_succ _ h, ih, dbl_mul]

theorem doubled_iff (e : p ≃ m × m) (X : Matrix n m ℂ) (Y : Matrix (n × n) p ℂ) :
    Doubled e X Y ↔ Y = (dbl X).submatrix id e := by
  constructor
  · intro h
    ext ⟨i, j⟩ q
    exact congrFun (congrFun (h q) i) j
  · rintro rfl q
    rfl

theorem trace_dbl (A B : Matrix n m ℂ) :
    ((dbl A)ᴴ * dbl B).trace = ((‖(Aᴴ * B).trace‖ ^ 2 : ℝ) : ℂ) := by
  unfold dbl
  rw [conjTranspose_kronecker, ← mul_kronecker_mul, trace_kronecker]
  have : ((A.map star)ᴴ * B.map star).trace = star (Aᴴ * B).trace := by
    simp [Matrix.trace, Matrix.mul_apply]
  rw [this, ← Complex.normSq_eq_norm_sq, ← Complex.mul_conj]
  rfl

theorem dbl_isometry {A : Matrix n m ℂ} (h : Aᴴ * A = 1) : (dbl A)ᴴ * dbl A = 1 := by
  unfold dbl
  rw [conjTranspose_kronecker, ← mul_kronecker_mul, h]
  have : (A.map star)ᴴ * A.map star = (1 : Matrix m m ℂ).map star := by
    rw [← h]
    ext i j
    simp [Matrix.mul_apply]
  rw [this, Matrix.map_one _ (star_zero _) (star_one _), one_kronecker_one]

/-- The distance of doubled objects. -/
theorem frobSq_dbl (e : p ≃ m × m) {F T : Matrix n m ℂ} (hF : Fᴴ * F = 1) (hT : Tᴴ * T = 1) :
    frobSq ((dbl T).submatrix id e - (dbl F).submatrix id e) =
      2 * ((Fintype.card m : ℝ) ^ 2 - ‖(Tᴴ * F).trace‖ ^ 2) := by
  have h1 : frobSq ((dbl T).submatrix id e - (dbl F).submatrix id e) =
      frobSq (dbl F - (1 : ℂ) • dbl T) := by
    unfold frobSq
    refine Finset.sum_congr rfl fun i _ => ?_
    rw [← Equiv.sum_comp e]
    refine Finset.sum_congr rfl fun q _ => ?_
    rw [one_smul, Matrix.sub_apply, Matrix.sub_apply, norm_sub_rev]
    rfl
  rw [h1, frobSq_sub (dbl_isometry hF) (dbl_isometry hT) 1 (by simp), trace_dbl]
  rw [Fintype.card_prod, map_one, one_mul, Complex.ofReal_re]
  push_cast
  ring

section Super
variable {e : p ≃ m × m} {c : UnitaryCfg n m} {g : GeneralCfg (n × n) p} {a a' : Amps}

theorem super_generator (h : AsSuperoperators e c g) (ha : AmpsAgree c a a') {k : Nat}
    (hk : k < c.nTs) : generator g.sys a' k = bothSides (-Complex.I • generator c.sys a k) := by
  show g.drift k + ∑ j ∈ Finset.range g.nCtrls, (a' k j : ℂ) • g.ctrl k j = _
  unfold generator
  simp only [sys_drift, sys_ctrl, sys_nCtrls]
  rw [smul_add, Finset.smul_sum, bothSides_add, bothSides_sum, (h.drift k hk).commutator, h.nCtrls]
  congr 1
  refine Finset.sum_congr rfl fun j hj => ?_
  have hj := Finset.mem_range.1 hj
  rw [(h.ctrl k j hk hj).commutator, ha k j hk hj, smul_comm, bothSides_smul]

theorem super_propagator (hc : Closed c) (h : AsSuperoperators e c g) (ha : AmpsAgree c a a')
    {k : Nat} (hk : k < c.nTs) : propagator g.sys a' k = dbl (propagator c.sys a k) := by
  rw [general_propagator, super_generator h ha hk, propagator_exp hc _ hk, h.tau k hk,
    ← bothSides_smul, exp_bothSides]

theorem super_final (hc : Closed c) (h : AsSuperoperators e c g) (ha : AmpsAgree c a a') :
    final g.sys a' = (dbl (final c.sys a)).submatrix id e := by
  have he : evolution g.sys a' 0 c.nTs = dbl (evolution c.sys a 0 c.nTs) := by
    unfold evolution
    rw [← timeOrdered_dbl _ (Nat.zero_le _)]
    exact timeOrdered_congr fun k _ hk => super_propagator hc h ha hk
  have hi : g.sys.initial = (dbl c.initial).submatrix id e := (doubled_iff e _ _).1 h.initial
  have hn : g.sys.nTs = c.nTs := h.nTs
  unfold QTrl.Spec.final
  rw [hn, he, hi, sys_nTs, sys_initial, dbl_mul]
  ext x q
  rfl

end Super

end QTrl.Dyn
