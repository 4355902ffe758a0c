import Verif.Proofs.UnitCheck
import Verif.Props.Fidelity
import Mathlib.Analysis.Complex.Exponential

/-
C59: the unitarity check.

The system is any `DynamicsUnitary` (or other) object with amplitudes; the state before the
recomputation is one that an initialised object can have (`EndsOK`), with amplitudes and
without a current evolution.
-/

set_option linter.unusedSectionVars false

open Matrix

namespace QTrl.Dyn

open QTrl.Spec

variable {d m : Type} [Fintype d] [DecidableEq d] [Fintype m] [DecidableEq m]

theorem computeEvolutionC_some {cfg : CheckCfg d} {S : Sys d m (Decomp d)}
    {s : State d m (Decomp d)} {amps : Amps} (hc : s.evoCurrent = false)
    (ha : s.ctrlAmps = some amps) {log : List CheckRec}
    (h : afterRecompute cfg S (recompute S amps s) = (log, .ok ())) :
    computeEvolutionC cfg S s = ((computeEvolution S s).1, log, .ok true) := by
  unfold computeEvolutionC computeEvolution
  simp [hc, ha, h]

theorem computeEvolutionC_fail {cfg : CheckCfg d} {S : Sys d m (Decomp d)}
    {s : State d m (Decomp d)} {amps : Amps} (hc : s.evoCurrent = false)
    (ha : s.ctrlAmps = some amps) {log : List CheckRec} {e : PyErr}
    (h : afterRecompute cfg S (recompute S amps s) = (log, .error e)) :
    computeEvolutionC cfg S s = (recompute S amps s, log, .error e) := by
  unfold computeEvolutionC
  simp [hc, ha, h]

theorem computeEvolution_prop {S : Sys d m (Decomp d)} {s : State d m (Decomp d)} {amps : Amps}
    (hc : s.evoCurrent = false) (ha : s.ctrlAmps = some amps) :
    (computeEvolution S s).1 = { recompute S amps s with evoCurrent := true } := by
  unfold computeEvolution
  simp [hc, ha]

theorem afterRecompute_unitary {cfg : CheckCfg d} {S : Sys d m (Decomp d)}
    {t : State d m (Decomp d)} (hu : cfg.cls = .unitary) (hl : cfg.level ≠ 0) :
    afterRecompute cfg S t =
      forRange S.nTs (checkSlot cfg (S.propKind = .diag) t) ([], .ok ()) := by
  unfold afterRecompute checkUnitarity
  rw [if_pos hl, hu]

theorem mem_slotRecs {cfg : CheckCfg d} {s : State d m (Decomp d)} {k i : Nat} :
    CheckRec.notUnitary i ∈ slotRecs cfg s k ↔ i = k ∧ isUnitary cfg.tol (s.prop k) = false := by
  unfold slotRecs
  cases isUnitary cfg.tol (s.prop k) <;> by_cases hl : cfg.level > 1 <;> simp [hl]

/-- The warnings of a check, in the order of the log. -/
def warned (log : List CheckRec) : List Nat :=
  log.filterMap fun r => match r with
    | .notUnitary k => some k
    | .details .. => none

theorem warned_slotRecs (cfg : CheckCfg d) (s : State d m (Decomp d)) (k : Nat) :
    warned (slotRecs cfg s k) = if isUnitary cfg.tol (s.prop k) = false then [k] else [] := by
  unfold slotRecs warned
  cases isUnitary cfg.tol (s.prop k) <;> by_cases hl : cfg.level > 1 <;> simp [hl]

theorem warned_flatMap (cfg : CheckCfg d) (s : State d m (Decomp d)) (l : List Nat) :
    warned (l.flatMap (slotRecs cfg s)) =
      l.filter fun k => !isUnitary cfg.tol (s.prop k) := by
  induction l with
  | nil => rfl
  | cons k l ih =>
    rw [List.flatMap_cons, warned, List.filterMap_append, ← warned, ← warned, ih, warned_slotRecs]
    cases h : isUnitary cfg.tol (s.prop k) <;> simp [h]

/-- **C59**, the part that holds.  With the diagonalising propagator computer of
`DynamicsUnitary` and the check switched on, the evolution is computed exactly as without the
check; every slot is warned about at most once and in order; a slot is warned about only if
some entry of `P·P†` differs from the identity by more than the tolerance, and always if one
differs by more than `(tol + 1e-5)/(1 - 1e-5)`, or one outside the diagonal by more than
`tol/(1 - 1e-5)`.  Missing: deviations on the diagonal between the two bounds
(`C59_tolerance_violated`), the other computers and classes (`C59_computer_violated`,
`C59_class_violated`). -/
theorem C59_reports_partial {cfg : CheckCfg d} {S : Sys d m (Decomp d)}
    {s : State d m (Decomp d)} {amps : Amps} (hu : cfg.cls = .unitary) (hl : cfg.level ≠ 0)
    (hd : S.propKind = .diag) (hc : s.evoCurrent = false) (ha : s.ctrlAmps = some amps) :
    let t := (computeEvolution S s).1
    ∃ log, computeEvolutionC cfg S s = (t, log, .ok true) ∧
      (warned log).Pairwise (· < ·) ∧
      (∀ k, k ∈ warned log → k < S.nTs ∧ Deviates cfg.tol (t.prop k)) ∧
      (∀ k, k < S.nTs → Deviates ((cfg.tol + 1e-5) / (1 - 1e-5)) (t.prop k) → k ∈ warned log) ∧
      (∀ k, k < S.nTs → DeviatesOff (cfg.tol / (1 - 1e-5)) (t.prop k) → k ∈ warned log) := by
  intro t
  have e := afterRecompute_unitary (S := S) (t := recompute S amps s) hu hl
  simp only [hd, decide_true] at e
  rw [checkLoop_diag] at e
  refine ⟨_, computeEvolutionC_some hc ha e, ?_⟩
  rw [warned_flatMap]
  have ht : t.prop = (recompute S amps s).prop := by
    simp only [t, computeEvolution_prop hc ha]
  rw [ht]
  refine ⟨List.Pairwise.filter _ List.pairwise_lt_range, fun k hk => ?_, fun k hk h => ?_,
    fun k hk h => ?_⟩
  · rw [List.mem_filter, List.mem_range] at hk
    refine ⟨hk.1, ?_⟩
    by_contra h
    simp [isUnitary_of_not_deviates h] at hk
  · simp [hk, not_isUnitary_of_deviates h]
  · simp [hk, not_isUnitary_of_deviatesOff h]

/-- **C59.** The method `unitarity_check` of the base class, which has to be called by hand,
warns about the same slots. -/
theorem C59_by_hand {cfg : CheckCfg d} {S : Sys d m (Decomp d)} {s : State d m (Decomp d)}
    {amps : Amps} {log : List CheckRec} (hu : cfg.cls = .unitary) (hl : cfg.level ≠ 0)
    (hd : S.propKind = .diag) (hc : s.evoCurrent = false) (ha : s.ctrlAmps = some amps)
    (h : (computeEvolutionC cfg S s).2.1 = log) :
    unitarityCheck cfg.tol S.nTs (computeEvolutionC cfg S s).1 = (warned log).map .notUnitary := by
  have e := afterRecompute_unitary (S := S) (t := recompute S amps s) hu hl
  simp only [hd, decide_true] at e
  rw [checkLoop_diag] at e
  rw [computeEvolutionC_some hc ha e] at h ⊢
  rw [← h, warned_flatMap, computeEvolution_prop hc ha]
  rfl

/-- **C59.** For a closed system (Hermitian drift and controls, a correct eigen-solver) level 1
reports nothing and changes nothing, with any propagator computer. -/
theorem C59_silent {c : UnitaryCfg d m} (hcl : Closed c) {cfg : CheckCfg d}
    {s : State d m (Decomp d)} {amps : Amps} (hu : cfg.cls = .unitary) (hl : cfg.level = 1)
    (ht : 0 ≤ cfg.tol) (hs : EndsOK c.sys s) (hc : s.evoCurrent = false)
    (ha : s.ctrlAmps = some amps) :
    computeEvolutionC cfg c.sys s = ((computeEvolution c.sys s).1, [], .ok true) := by
  apply computeEvolutionC_some hc ha
  rw [afterRecompute_unitary hu (by omega)]
  obtain ⟨_, _, _, _, _, _, _, _, _, _, _, he⟩ := recompute_form c.sys amps s hcl.valid hs
  refine checkLoop_pass (by omega) fun k hk => ?_
  rw [he.prop k hk]
  exact isUnitary_of_unitary ht (propagator_unitary hcl amps (by simpa using hk))

/-- **C59.** Level 2 on a closed system with the diagonalising computer adds for every slot, in
order, one line saying that propagator, eigenvalues and eigenvectors are unitary, and what the
Hermiticity test says about the combined Hamiltonian of the slot. -/
theorem C59_eigen_basis {c : UnitaryCfg d m} (hcl : Closed c) {cfg : CheckCfg d}
    {s : State d m (Decomp d)} {amps : Amps} (hu : cfg.cls = .unitary) (hl : 2 ≤ cfg.level)
    (hd : c.propKind = .diag) (ht : 0 ≤ cfg.tol) (hs : EndsOK c.sys s)
    (hc : s.evoCurrent = false) (ha : s.ctrlAmps = some amps) :
    computeEvolutionC cfg c.sys s = ((computeEvolution c.sys s).1,
      (List.range c.nTs).map (fun k => .details k true (cfg.herm
        (c.drift k + ∑ j ∈ Finset.range c.nCtrls, (amps k j : ℂ) • c.ctrl k j)) true true
        (if cfg.cacheAdj then some true else none)), .ok true) := by
  apply computeEvolutionC_some hc ha
  rw [afterRecompute_unitary hu (by omega)]
  have hd' : c.sys.propKind = .diag := by rw [← hd]; simp
  simp only [hd', decide_true]
  rw [checkLoop_diag]
  obtain ⟨_, _, _, _, _, _, _, _, _, _, _, he⟩ := recompute_form c.sys amps s hcl.valid hs
  have hcur := recompute_curr c.sys hcl.valid hd' amps s
  have key : ∀ k ∈ List.range c.sys.nTs, slotRecs cfg (recompute c.sys amps s) k =
      [.details k true (cfg.herm
        (c.drift k + ∑ j ∈ Finset.range c.nCtrls, (amps k j : ℂ) • c.ctrl k j)) true true
        (if cfg.cacheAdj then some true else none)] := by
    intro k hk
    rw [List.mem_range] at hk
    have hk' : k < c.nTs := by simpa using hk
    have h1 : isUnitary cfg.tol ((recompute c.sys amps s).prop k) = true := by
      rw [he.prop k hk]
      exact isUnitary_of_unitary ht (propagator_unitary hcl amps hk')
    have hH := generator_hermitian hcl amps hk'
    have hE := hcl.eigh _ hH
    have h2 : (recompute c.sys amps s).decomp k =
        spectralDecomp c.eigh c.prec (generator c.sys amps k) (c.tau k) := by
      rw [he.decomp k hk (hcur k hk), he.gen.dynGen k hk]
      simp
    have h3 : isUnitary cfg.tol (diagonal ((recompute c.sys amps s).decomp k).propEig) = true := by
      apply isUnitary_of_unitary ht
      rw [h2, Matrix.mem_unitaryGroup_iff, star_eq_conjTranspose, diagonal_conjTranspose,
        diagonal_mul_diagonal]
      rw [← diagonal_one]
      congr 1
      funext i
      simp only [spectralDecomp, Pi.star_apply, RCLike.star_def, ← Complex.exp_conj,
        ← Complex.exp_add]
      simp
    have h4 : isUnitary cfg.tol ((recompute c.sys amps s).decomp k).eigVec = true := by
      rw [h2]
      exact isUnitary_of_unitary ht hE.unitary
    have h5 : isUnitary cfg.tol ((recompute c.sys amps s).decomp k).eigVecᴴ = true := by
      rw [h2]
      refine isUnitary_of_unitary ht ?_
      rw [← star_eq_conjTranspose]
      exact Unitary.star_mem hE.unitary
    have hg : generator c.sys amps k =
        c.drift k + ∑ j ∈ Finset.range c.nCtrls, (amps k j : ℂ) • c.ctrl k j := by
      unfold generator
      rw [sys_drift, sys_nCtrls, sys_ctrl]
    unfold slotRecs
    rw [h1, h3, h4, h5, he.gen.dynGen k hk, hg]
    have : cfg.level > 1 := by omega
    simp only [this, or_true, if_true, List.nil_append]
  rw [List.flatMap_congr key, sys_nTs, List.map_eq_flatMap]

/-! ### What fails -/

/-- One level with the drift `i·x` (not Hermitian for `x ≠ 0`), one control, one slot of length
1: its propagator is `exp x`. -/
noncomputable def lossy (x : ℝ) (p : PropKind) : UnitaryCfg Unit Unit where
  nTs := 1
  nCtrls := 1
  drift _ := diagonal fun _ => Complex.I * (x : ℂ)
  ctrl _ _ := 0
  tau _ := 1
  initial := 1
  target := 1
  isQobj := false
  cachePhased := true
  cachePropGrad := true
  propKind := p
  fidKind := .unitary
  phaseOpt := .PSU
  scaleFactor := none
  prec := 1e-10
  eigh _ := (fun _ => 0, 1)

theorem lossy_valid (x : ℝ) (p : PropKind) : Valid (lossy x p).sys :=
  initSys_valid (by simp [lossy]) (by simp [lossy])

theorem lossy_prop (x : ℝ) (amps : Amps) :
    propagator (lossy x .frechet).sys amps 0 = diagonal fun _ => (Real.exp x : ℂ) := by
  unfold propagator
  rw [sys_propKind, if_neg (by simp [lossy]), sys_expm]
  have e : (((lossy x .frechet).sys.tau 0 : ℝ) : ℂ) •
      phased (lossy x .frechet).sys (generator (lossy x .frechet).sys amps 0) =
      diagonal fun _ => (x : ℂ) := by
    unfold phased generator
    rw [sys_phase, sys_tau, sys_drift, sys_ctrl]
    ext i j
    simp [lossy, ← mul_assoc]
  rw [e, MatExp.exp_diagonal']
  congr 1
  funext _
  exact (Complex.ofReal_exp x).symm

theorem lossy_dev (x : ℝ) (i j : Unit) :
    ((diagonal fun _ => (Real.exp x : ℂ)) * (diagonal fun _ => (Real.exp x : ℂ))ᴴ :
      Matrix Unit Unit ℂ) i j = ((Real.exp (2 * x) : ℝ) : ℂ) := by
  rw [diagonal_conjTranspose, diagonal_mul_diagonal, diagonal_apply, if_pos (Subsingleton.elim _ _)]
  simp only [Pi.star_apply, RCLike.star_def, Complex.conj_ofReal]
  rw [← Complex.ofReal_mul, ← Real.exp_add]
  congr 2
  ring

/-- A freshly initialised object. -/
noncomputable def fresh {D : Type} (S : Sys d m D) (junk s0 : State d m D) (amps : Amps) :
    State d m D := initControls S junk s0 amps

theorem fresh_spec {D : Type} (S : Sys d m D) (junk s0 : State d m D) (amps : Amps) :
    (fresh S junk s0 amps).evoCurrent = false ∧ (fresh S junk s0 amps).ctrlAmps = some amps ∧
      EndsOK S (fresh S junk s0 amps) := by
  refine ⟨?_, ?_, (initControls_inv (G := fun _ _ => True) S junk s0 amps).1.ends⟩ <;>
  · unfold fresh initControls
    rw [compareAmps_none (by rfl)]
    rfl

/-- **C59 violated** (tolerance).  With the default tolerance `1e-10` a propagator `P` with
`P·P† = exp(4e-6)`, off by more than `4e-6`, is accepted without a warning: `np.allclose` adds
its own relative tolerance `1e-5`. -/
theorem C59_tolerance_violated :
    ∃ (c : UnitaryCfg Unit Unit) (cfg : CheckCfg Unit), Valid c.sys ∧ c.nTs = 1 ∧
      cfg.cls = .unitary ∧ cfg.level = 1 ∧ cfg.tol = 1e-10 ∧
      ∀ (junk s0 : State Unit Unit (Decomp Unit)) (amps : Amps),
        let r := computeEvolutionC cfg c.sys (fresh c.sys junk s0 amps)
        r.2 = ([], .ok true) ∧ Deviates 4e-6 (r.1.prop 0) := by
  refine ⟨lossy 2e-6 .frechet, ⟨.unitary, 1, 1e-10, fun _ => false, false⟩, lossy_valid _ _, rfl, rfl,
    rfl, rfl, fun junk s0 amps => ?_⟩
  obtain ⟨hc, ha, hs⟩ := fresh_spec (lossy 2e-6 .frechet).sys junk s0 amps
  obtain ⟨_, _, _, _, _, _, _, _, _, _, _, he⟩ :=
    recompute_form _ amps _ (lossy_valid 2e-6 .frechet) hs
  have hp : (recompute (lossy 2e-6 .frechet).sys amps
      (fresh (lossy 2e-6 .frechet).sys junk s0 amps)).prop 0 =
      diagonal fun _ => (Real.exp 2e-6 : ℂ) := by
    rw [he.prop 0 (by simp [lossy]), lossy_prop]
  have h1 : (1 : ℝ) + 4e-6 < Real.exp (2 * 2e-6) := by
    have := Real.add_one_lt_exp (x := 2 * 2e-6) (by norm_num)
    linarith
  have h2 : Real.exp (2 * 2e-6) ≤ 1 + 5e-6 := by
    have := Real.exp_bound_div_one_sub_of_interval (x := 2 * 2e-6) (by norm_num) (by norm_num)
    refine this.trans ?_
    norm_num
  have hd : ∀ i j : Unit, ‖(1 : Matrix Unit Unit ℂ) i j - ((Real.exp (2 * 2e-6) : ℝ) : ℂ)‖ =
      Real.exp (2 * 2e-6) - 1 := by
    intro i j
    rw [Matrix.one_apply, if_pos (Subsingleton.elim _ _), ← Complex.ofReal_one,
      ← Complex.ofReal_sub, Complex.norm_real, Real.norm_eq_abs, abs_sub_comm, abs_of_pos (by linarith)]
  have hu : isUnitary 1e-10 (diagonal fun _ => (Real.exp 2e-6 : ℂ) : Matrix Unit Unit ℂ) = true := by
    unfold isUnitary
    rw [decide_eq_true_eq]
    intro i j
    rw [lossy_dev, hd, Complex.norm_real, Real.norm_eq_abs, abs_of_pos (by linarith)]
    linarith
  have e := afterRecompute_unitary (S := (lossy 2e-6 .frechet).sys)
    (t := recompute (lossy 2e-6 .frechet).sys amps (fresh (lossy 2e-6 .frechet).sys junk s0 amps))
    (cfg := ⟨.unitary, 1, 1e-10, fun _ => false, false⟩) rfl (by decide)
  rw [checkLoop_pass (by decide) (fun k hk => by
    have : k = 0 := by simp [lossy] at hk; exact hk
    subst this
    rw [hp]; exact hu)] at e
  intro r
  simp only [r, computeEvolutionC_some hc ha e]
  refine ⟨trivial, (), (), ?_⟩
  rw [computeEvolution_prop hc ha]
  simp only [hp]
  rw [lossy_dev, hd]
  linarith

/-- **C59 violated** (classes).  The check is called by every time slot computer, but the
method exists in `DynamicsUnitary` only: on the other classes a level other than 0 makes the
evolution raise `AttributeError`. -/
theorem C59_class_violated {cfg : CheckCfg d} {S : Sys d m (Decomp d)}
    {s : State d m (Decomp d)} {amps : Amps} (hu : cfg.cls ≠ .unitary) (hl : cfg.level ≠ 0)
    (hc : s.evoCurrent = false) (ha : s.ctrlAmps = some amps) :
    (computeEvolutionC cfg S s).2 = ([], .error .attributeError) ∧
      (computeEvolution S s).2 = .ok true := by
  have e : afterRecompute cfg S (recompute S amps s) = ([], .error .attributeError) := by
    unfold afterRecompute checkUnitarity
    rw [if_pos hl]
    cases h : cfg.cls
    · rfl
    · exact absurd h hu
    · rfl
  rw [computeEvolutionC_fail hc ha e]
  refine ⟨rfl, ?_⟩
  unfold computeEvolution
  simp [hc, ha]

/-- **C59 violated** (computers).  Level 2 with any other than the diagonalising propagator
computer makes the evolution raise `TypeError`; so does level 1 as soon as some propagator is
not unitary, which is the case the check is there to report. -/
theorem C59_computer_violated {cfg : CheckCfg d} {S : Sys d m (Decomp d)}
    {s : State d m (Decomp d)} {amps : Amps} (hS : Valid S) (hs : EndsOK S s)
    (hu : cfg.cls = .unitary) (hp : S.propKind ≠ .diag)
    (hl : 2 ≤ cfg.level ∨ cfg.level = 1 ∧ ∃ k, k < S.nTs ∧
      Deviates ((cfg.tol + 1e-5) / (1 - 1e-5)) (propagator S amps k))
    (hc : s.evoCurrent = false) (ha : s.ctrlAmps = some amps) :
    (computeEvolutionC cfg S s).2.2 = .error .typeError ∧
      (computeEvolution S s).2 = .ok true := by
  have hl0 : cfg.level ≠ 0 := by rcases hl with h | h <;> omega
  have e := afterRecompute_unitary (S := S) (t := recompute S amps s) hu hl0
  simp only [hp, decide_false] at e
  obtain ⟨_, _, _, _, _, _, _, _, _, _, _, he⟩ := recompute_form S amps s hS hs
  have hk : ∃ k ∈ List.range S.nTs,
      isUnitary cfg.tol ((recompute S amps s).prop k) = false ∨ cfg.level > 1 := by
    rcases hl with h | ⟨_, k, hk, hd⟩
    · exact ⟨0, List.mem_range.2 hS.slots, .inr (by omega)⟩
    · refine ⟨k, List.mem_range.2 hk, .inl ?_⟩
      rw [he.prop k hk]
      exact not_isUnitary_of_deviates hd
  obtain ⟨log, h⟩ := checkFold_fail hk []
  have e' : afterRecompute cfg S (recompute S amps s) = (log, .error .typeError) := by
    rw [e]; exact h
  rw [computeEvolutionC_fail hc ha e']
  refine ⟨rfl, ?_⟩
  unfold computeEvolution
  simp [hc, ha]

/-- **C59 violated** (level).  Initialisation with log level `DEBUG` replaces a requested
level 2 by 1, and switches the check on where it was not requested. -/
theorem C59_level_violated (logLevel level : Int) (h : logLevel ≤ 10) :
    initLevel .unitary logLevel level = 1 := by
  unfold initLevel
  rw [if_pos ⟨h, rfl⟩]

/-- With the log level above `DEBUG`, or another class, the level stays as requested. -/
theorem C59_level_partial (cls : DynCls) (logLevel level : Int) (h : 10 < logLevel ∨ cls ≠ .unitary) :
    initLevel cls logLevel level = level := by
  unfold initLevel
  rw [if_neg]
  rintro ⟨h1, h2⟩
  rcases h with h | h
  · omega
  · exact h h2

/-- **C59 violated** (logging changes results).  The same system, whose propagator is not
unitary, with the exact gradient computer and no check requested: at log level `INFO` (20) the
evolution is computed, at `DEBUG` (10) it raises `TypeError`. -/
theorem C59_logging_violated :
    ∃ c : UnitaryCfg Unit Unit, Valid c.sys ∧
      ∀ (junk s0 : State Unit Unit (Decomp Unit)) (amps : Amps),
        let r := fun log : Int => computeEvolutionC
          ⟨.unitary, initLevel .unitary log 0, 1e-10, fun _ => false, false⟩ c.sys
          (fresh c.sys junk s0 amps)
        (r 20).2 = ([], .ok true) ∧ (r 10).2.2 = .error .typeError := by
  refine ⟨lossy 1 .frechet, lossy_valid _ _, fun junk s0 amps => ?_⟩
  obtain ⟨hc, ha, hs⟩ := fresh_spec (lossy 1 .frechet).sys junk s0 amps
  dsimp only
  refine ⟨?_, ?_⟩
  · have e : afterRecompute ⟨.unitary, initLevel .unitary 20 0, 1e-10, fun _ => false, false⟩
        (lossy 1 .frechet).sys (recompute (lossy 1 .frechet).sys amps
          (fresh (lossy 1 .frechet).sys junk s0 amps)) = ([], .ok ()) := by
      unfold afterRecompute
      rw [if_neg (by decide)]
    rw [computeEvolutionC_some hc ha e]
  · refine (C59_computer_violated (lossy_valid _ _) hs rfl (by simp [lossy])
      (.inr ⟨rfl, 0, by simp [lossy], (), (), ?_⟩) hc ha).1
    rw [lossy_prop, lossy_dev, Matrix.one_apply, if_pos rfl, ← Complex.ofReal_one,
      ← Complex.ofReal_sub, Complex.norm_real, Real.norm_eq_abs, abs_sub_comm]
    have h1 := Real.add_one_lt_exp (x := 2 * 1) (by norm_num)
    rw [abs_of_pos (by linarith)]
    refine lt_of_lt_of_le ?_ (by linarith : (2 : ℝ) ≤ Real.exp (2 * 1) - 1)
    norm_num

/-! ### Non-vacuity -/

/-- A qubit with `σz` drift, `σx` control, five slots and the diagonalising computer. -/
noncomputable def checkedQubit : UnitaryCfg (Fin 2) (Fin 2) :=
  { qubit 5 !![1, 0; 0, -1] !![0, 1; 1, 0] 1 .unitary .PSU with propKind := .diag }

theorem checkedQubit_closed : Closed checkedQubit := by
  have h1 : (!![1, 0; 0, -1] : Matrix (Fin 2) (Fin 2) ℂ).IsHermitian := by
    ext i j; fin_cases i <;> fin_cases j <;> simp
  have h2 : (!![0, 1; 1, 0] : Matrix (Fin 2) (Fin 2) ℂ).IsHermitian := by
    ext i j; fin_cases i <;> fin_cases j <;> simp
  have h := qubit_closed (n := 5) (T := 1) (by norm_num) h1 h2 .unitary .PSU
  exact ⟨h.slots, h.ctrls, h.drift, h.ctrl, h.eigh⟩

/-- The hypotheses of `C59_silent` and `C59_eigen_basis` are met by a freshly initialised
qubit, at any amplitudes; level 2 writes five lines. -/
example (junk s0 : State (Fin 2) (Fin 2) (Decomp (Fin 2))) (amps : Amps) :
    (computeEvolutionC ⟨.unitary, 1, 1e-10, hermTest 1e-12, true⟩ checkedQubit.sys
      (fresh checkedQubit.sys junk s0 amps)).2 = ([], .ok true) ∧
    (computeEvolutionC ⟨.unitary, 2, 1e-10, hermTest 1e-12, true⟩ checkedQubit.sys
      (fresh checkedQubit.sys junk s0 amps)).2.1.length = 5 := by
  obtain ⟨hc, ha, hs⟩ := fresh_spec checkedQubit.sys junk s0 amps
  refine ⟨?_, ?_⟩
  · rw [C59_silent checkedQubit_closed rfl rfl (by norm_num) hs hc ha]
  · rw [C59_eigen_basis checkedQubit_closed rfl (by decide) rfl (by norm_num) hs hc ha]
    simp [checkedQubit, qubit]

/-- One level whose eigen-solver returns the "eigenvector" 2. -/
noncomputable def badSolver : UnitaryCfg Unit Unit :=
  { lossy 0 .diag with eigh := fun _ => (fun _ => 0, diagonal fun _ => 2) }

theorem badSolver_prop (amps : Amps) : propagator badSolver.sys amps 0 = diagonal fun _ => 4 := by
  unfold propagator
  rw [sys_propKind, if_pos (show badSolver.propKind = .diag from rfl), sys_diagProp, sys_decompose]
  unfold diagProp spectralDecomp badSolver
  ext i j
  simp
  norm_num

/-- The hypotheses of `C59_reports_partial` are met by an object whose only slot is warned
about. -/
example (junk s0 : State Unit Unit (Decomp Unit)) (amps : Amps) :
    ∃ log, (computeEvolutionC ⟨.unitary, 1, 1e-10, hermTest 1e-12, true⟩ badSolver.sys
      (fresh badSolver.sys junk s0 amps)).2 = (log, .ok true) ∧ 0 ∈ warned log := by
  obtain ⟨hc, ha, hs⟩ := fresh_spec badSolver.sys junk s0 amps
  have hv : Valid badSolver.sys := initSys_valid (by simp [badSolver, lossy]) (by simp [badSolver, lossy])
  obtain ⟨_, _, _, _, _, _, _, _, _, _, _, he⟩ := recompute_form badSolver.sys amps _ hv hs
  obtain ⟨log, e, _, _, h, _⟩ := C59_reports_partial
    (cfg := ⟨.unitary, 1, 1e-10, hermTest 1e-12, true⟩) (S := badSolver.sys) rfl (by decide)
    (by rw [sys_propKind]; rfl) hc ha
  refine ⟨log, by rw [e], h 0 (by simp [badSolver, lossy]) ⟨(), (), ?_⟩⟩
  rw [computeEvolution_prop hc ha]
  simp only [he.prop 0 (by simp [badSolver, lossy] : 0 < badSolver.sys.nTs), badSolver_prop]
  rw [diagonal_conjTranspose, diagonal_mul_diagonal]
  simp
  norm_num

end QTrl.Dyn
