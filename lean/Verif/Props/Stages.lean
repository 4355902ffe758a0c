import Verif.Props.Symmetry
import Verif.Proofs.Stages

/-
C83: a pulse may be applied, evaluated and planned in stages.
-/

set_option linter.unusedSectionVars false

open Matrix

namespace QTrl.Dyn

open QTrl.Spec QTrl.MatExp

variable {d m D : Type} [Fintype d] [DecidableEq d] [Fintype m] [DecidableEq m]

/-- From slot `lo` and the object `X` on, stages of the given lengths lead to `Y`: every stage is an
object of its own with a history of its own, initialised with the final object of the stage before
it, and last given the part of the pulse `a` that belongs to it. -/
inductive Staged (S : Sys d m D) (a : Amps) : Nat → Matrix d m ℂ → List Nat → Matrix d m ℂ → Prop
  | nil (lo : Nat) (X : Matrix d m ℂ) : Staged S a lo X [] X
  | cons {lo n : Nat} {X Y : Matrix d m ℂ} {ns : List Nat} (junk s0 : State d m D) (a0 : Amps)
      (ops : List Op) (ha : PartOf S.nCtrls a lo n (lastAmps a0 ops))
      (rest : Staged S a (lo + n) (finalObj (stage S X lo n) junk s0 a0 ops) ns Y) :
      Staged S a lo X (n :: ns) Y

theorem staged_evolution {S : Sys d m D} (hS : Valid S) {a : Amps} {lo : Nat} {X Y : Matrix d m ℂ}
    {ns : List Nat} (h : Staged S a lo X ns Y) (hpos : ∀ n ∈ ns, 0 < n) :
    Y = evolution S a lo (lo + ns.sum) * X := by
  induction h with
  | nil lo X =>
    unfold evolution
    rw [List.sum_nil, Nat.add_zero, timeOrdered_self, Matrix.one_mul]
  | cons junk s0 a0 ops ha rest ih =>
    rename_i lo n X Y ns
    have hn := hpos n (List.mem_cons_self ..)
    rw [ih fun k hk => hpos k (List.mem_cons_of_mem _ hk), finalObj_eq (stage_valid hS hn),
      stage_final ha, List.sum_cons, ← Matrix.mul_assoc]
    unfold evolution
    rw [timeOrdered_mul _ (by omega) (by omega), Nat.add_assoc]

/-- **C83.** A pulse applied in any number of stages, each by an object of its own started in what
the stage before reached, leads to the object that the whole pulse leads to - for every kind of
dynamics, propagator computer and measure. -/
theorem C83_stages {S : Sys d m D} (hS : Valid S) {a : Amps} {ns : List Nat} {Y : Matrix d m ℂ}
    (hpos : ∀ n ∈ ns, 0 < n) (hsum : ns.sum = S.nTs) (h : Staged S a 0 S.initial ns Y)
    (junk s0 : State d m D) (a0 : Amps) (ops : List Op)
    (ha : PartOf S.nCtrls a 0 S.nTs (lastAmps a0 ops)) :
    Y = finalObj S junk s0 a0 ops := by
  rw [staged_evolution hS h hpos, finalObj_eq hS, hsum, Nat.zero_add]
  unfold final
  congr 1
  refine (timeOrdered_congr fun k _ hk => ?_).symm
  unfold propagator
  rw [show generator S (lastAmps a0 ops) k = generator S a k from ?_]
  unfold generator
  congr 1
  exact Finset.sum_congr rfl fun j hj => by rw [ha k j hk (Finset.mem_range.1 hj)]; rfl

/-- **C83.** The rest of a pulse, started in what any number of stages before it reached, has the
final object, the fidelity, the error and - slot by slot - the gradient of the whole pulse, or ends
with the same exception. -/
theorem C83_continued {S : Sys d m D} (hS : Valid S) {ns : List Nat} {X : Matrix d m ℂ}
    (hpos : ∀ n ∈ ns, 0 < n) (hsum : ns.sum < S.nTs) (junk s0 : State d m D) (a0 : Amps)
    (ops : List Op) (h : Staged S (lastAmps a0 ops) 0 S.initial ns X)
    (junk' s0' : State d m D) (a0' : Amps) (ops' : List Op)
    (ha : PartOf S.nCtrls (lastAmps a0 ops) ns.sum (S.nTs - ns.sum) (lastAmps a0' ops')) :
    let R := stage S X ns.sum (S.nTs - ns.sum)
    finalObj R junk' s0' a0' ops' = finalObj S junk s0 a0 ops ∧
    query R junk' s0' a0' ops' .getFidelity = query S junk s0 a0 ops .getFidelity ∧
    query R junk' s0' a0' ops' .getFidErr = query S junk s0 a0 ops .getFidErr ∧
    GradRel (fun g g' => ∀ k j, k < S.nTs - ns.sum → g' k j = g (k + ns.sum) j)
      (query S junk s0 a0 ops .getGradient) (query R junk' s0' a0' ops' .getGradient) := by
  intro R
  have hR : Valid R := stage_valid hS (by omega)
  have hX := staged_evolution hS h hpos
  rw [Nat.zero_add] at hX
  rw [finalObj_eq hS, finalObj_eq hR]
  simp only [query_eq hS, query_eq hR]
  refine ⟨rest_final hsum.le hX ha, ?_, ?_, rest_gradient hsum.le hX ha⟩
  · change (match S.fidKind, some (lastAmps a0' ops') with
      | .traceDiff, _ => Out.error .attributeError
      | .unitary, none => .error .typeError
      | .unitary, some b => .ofReal (fidelity R b)) = _
    unfold answer
    cases S.fidKind
    · simp only [R, rest_fidelity hsum.le hX ha]
    · rfl
  · simp only [answer, R, rest_fidErr hsum.le hX ha]

/-- **C83.** Closed systems: the first part of a pulse with the target pulled back through the
propagators of the rest - as the evolution onto the target or the onward evolution of the whole
object at that slot has it - has the fidelity, the error and, in its slots, the gradient of the
whole pulse. -/
theorem C83_pulled_back {c : UnitaryCfg d m} (hc : Closed c) {p : Nat} (h0 : 0 < p) (hp : p < c.nTs)
    (junk s0 : State d m (Decomp d)) (a0 : Amps) (ops : List Op) {T : Matrix d m ℂ}
    (hT : let t := (computeEvolution c.sys (reached c.sys junk s0 a0 ops)).1
      match c.fidKind with
      | .unitary => T = (t.onto p)ᴴ
      | .traceDiff => T = (t.onwd p)ᴴ * c.target)
    (junk' s0' : State d m (Decomp d)) (a0' : Amps) (ops' : List Op)
    (ha : PartOf c.nCtrls (lastAmps a0 ops) 0 p (lastAmps a0' ops')) :
    let c' := leg c c.initial T 0 p
    query c'.sys junk' s0' a0' ops' .getFidelity = query c.sys junk s0 a0 ops .getFidelity ∧
    query c'.sys junk' s0' a0' ops' .getFidErr = query c.sys junk s0 a0 ops .getFidErr ∧
    GradRel (fun g g' => ∀ k j, k < p → g' k j = g k j)
      (query c.sys junk s0 a0 ops .getGradient) (query c'.sys junk' s0' a0' ops' .getGradient) := by
  intro c'
  have hc' : Closed c' := leg_closed hc h0 (by omega)
  have hU := evolution_unitary hc (lastAmps a0 ops) hp.le (Nat.le_refl _)
  have hev : timeOrdered (computeEvolution c.sys (reached c.sys junk s0 a0 ops)).1.prop p c.nTs =
      evolution c.sys (lastAmps a0 ops) p c.nTs :=
    timeOrdered_congr fun k _ hk => (C03_time_ordered hc.valid junk s0 a0 ops).2.1 k (by simpa using hk)
  have hT0 : T = (evolution c.sys (lastAmps a0 ops) p c.nTs)ᴴ * c.target := by
    obtain ⟨_, _, _, h4, h5⟩ := C03_time_ordered hc.valid junk s0 a0 ops
    simp only [sys_nTs, sys_fidKind, sys_onto] at h4 h5
    cases hk : c.fidKind with
    | unitary =>
      rw [hk] at hT
      simp only at hT
      rw [hT, h5 hk p hp.le, hev, conjTranspose_mul, conjTranspose_conjTranspose]
    | traceDiff =>
      rw [hk] at hT
      simp only at hT
      rw [hT, h4 hk p hp, hev]
  have hT1 : c.target = evolution c.sys (lastAmps a0 ops) p c.nTs * T := by
    rw [hT0, ← Matrix.mul_assoc]
    have := (Matrix.mem_unitaryGroup_iff).1 hU
    rw [star_eq_conjTranspose] at this
    rw [this, Matrix.one_mul]
  have ho := pulled_overlap hc hp.le ha hT1
  have hN : c'.sys.dimNorm = c.sys.dimNorm := by
    rw [sys_dimNorm, sys_dimNorm]
    exact pulled_norm hc hp.le ha hT1 c.phaseOpt
  have hs : c'.sys.scale = c.sys.scale := by rw [sys_scale, sys_scale]; rfl
  obtain ⟨h1, h2, h3⟩ := same_answers (pulled_same hc hp.le ha hT1)
    (fun _ => by rw [ho, hN]) (fun _ => by rw [ho, hN])
    fun _ => by rw [hs]; exact congrArg _ (pulled_frob hc hp.le ha hT1)
  simp only [query_eq hc.valid, query_eq hc'.valid]
  refine ⟨h2, h3, gradRel_of (by simp only [sys_propKind]; rfl) (by simp only [sys_cachePropGrad]; rfl)
    (by simp only [sys_fidKind]; rfl) h1 _ fun f k j hk => ?_⟩
  beta_reduce
  rw [gradEntry_sys, gradEntry_sys, pulled_gradOf hc hp.le ha hT1,
    ← pulled_finalGrad (T := T) hp.le ha hk]
  simp only [sys_nTs, sys_nCtrls]
  change (if k < p ∧ j < c.nCtrls then _ else _) = _
  by_cases hj : j < c.nCtrls
  · rw [if_pos ⟨hk, hj⟩, if_pos ⟨by omega, hj⟩]
  · rw [if_neg fun h => hj h.2, if_neg fun h => hj h.2]

/-- From slot `lo` and the object `X` on, the tasks of reaching the given targets in the given
numbers of slots one after the other, each by an object of its own with a history of its own, report
the errors `es` at the parts of the pulse `a`. -/
inductive Planned (c : UnitaryCfg d m) (a : Amps) :
    Nat → Matrix d m ℂ → List (Nat × Matrix d m ℂ) → List ℝ → Prop
  | nil (lo : Nat) (X : Matrix d m ℂ) : Planned c a lo X [] []
  | cons {lo n : Nat} {X T : Matrix d m ℂ} {ts : List (Nat × Matrix d m ℂ)} {e : ℝ} {es : List ℝ}
      (junk s0 : State d m (Decomp d)) (a0 : Amps) (ops : List Op)
      (ha : PartOf c.nCtrls a lo n (lastAmps a0 ops))
      (he : query (leg c X T lo n).sys junk s0 a0 ops .getFidErr = .real e)
      (rest : Planned c a (lo + n) T ts es) : Planned c a lo X ((n, T) :: ts) (e :: es)

theorem planned_dist {c : UnitaryCfg d m} [Nonempty m] (hc : Closed c)
    (hs : c.fidKind = .traceDiff → 0 ≤ c.sys.scale) {a : Amps} {lo : Nat} {X : Matrix d m ℂ}
    {ts : List (Nat × Matrix d m ℂ)} {es : List ℝ} (h : Planned c a lo X ts es)
    (hpos : ∀ t ∈ ts, 0 < t.1) (hsum : lo + (ts.map Prod.fst).sum ≤ c.nTs)
    (hX : c.fidKind = .unitary → Xᴴ * X = 1)
    (hT : c.fidKind = .unitary → ∀ t ∈ ts, t.2ᴴ * t.2 = 1) :
    ∃ z, Disregards c.fidKind c.phaseOpt z ∧
      Real.sqrt (unit c) * dist2 (evolution c.sys a lo (lo + (ts.map Prod.fst).sum) * X -
        z • (((lo, X) :: ts).getLast (List.cons_ne_nil _ _)).2) ≤ (es.map Real.sqrt).sum := by
  induction h with
  | nil lo X =>
    refine ⟨1, Disregards.one _ _, ?_⟩
    unfold evolution
    simp [timeOrdered_self, dist2, frobSq]
  | cons junk s0 a0 ops ha he rest ih =>
    rename_i lo n X T ts e es
    have hn : 0 < n := hpos (n, T) (List.mem_cons_self ..)
    rw [List.map_cons, List.sum_cons] at hsum
    simp only at hsum
    have hl : Closed (leg c X T lo n) := leg_closed hc hn (by omega)
    obtain ⟨z, hz, h1⟩ := ih (fun t ht => hpos t (List.mem_cons_of_mem _ ht)) (by omega)
      (fun hk => hT hk (n, T) (List.mem_cons_self ..))
      fun hk t ht => hT hk t (List.mem_cons_of_mem _ ht)
    rw [query_eq hl.valid] at he
    obtain ⟨_, w, hw, h2⟩ := err_dist hl
      (fun hk => ⟨hX hk, hT hk (n, T) (List.mem_cons_self ..)⟩)
      (fun hk => by
        have := hs hk
        rw [sys_scale] at this ⊢
        exact this) he
    rw [unit_leg, leg_final ha] at h2
    change _ = _ * dist2 (_ - w • T) at h2
    refine ⟨w * z, Disregards.mul hw hz, ?_⟩
    have hU : evolution c.sys a (lo + n) (lo + n + (ts.map Prod.fst).sum) ∈ Matrix.unitaryGroup d ℂ :=
      evolution_unitary hc a (by omega) (by omega)
    have hlast : ((((lo, X) :: (n, T) :: ts).getLast (List.cons_ne_nil _ _)).2 : Matrix d m ℂ) =
        (((lo + n, T) :: ts).getLast (List.cons_ne_nil _ _)).2 := by
      cases ts <;> simp
    rw [hlast, List.map_cons, List.sum_cons, List.map_cons, List.sum_cons]
    generalize (((lo + n, T) :: ts).getLast (List.cons_ne_nil _ _)).2 = Z at h1 ⊢
    simp only
    have e : evolution c.sys a lo (lo + (n + (ts.map Prod.fst).sum)) * X - (w * z) • Z =
        evolution c.sys a (lo + n) (lo + n + (ts.map Prod.fst).sum) *
          (evolution c.sys a lo (lo + n) * X - w • T) +
        w • (evolution c.sys a (lo + n) (lo + n + (ts.map Prod.fst).sum) * T - z • Z) := by
      rw [Matrix.mul_sub, smul_sub, Matrix.mul_smul, smul_smul, ← Matrix.mul_assoc]
      have : evolution c.sys a (lo + n) (lo + n + (ts.map Prod.fst).sum) *
          evolution c.sys a lo (lo + n) = evolution c.sys a lo (lo + (n + (ts.map Prod.fst).sum)) := by
        unfold evolution
        rw [timeOrdered_mul _ (by omega) (by omega), Nat.add_assoc]
      rw [this]
      abel
    have h3 := dist2_add (evolution c.sys a (lo + n) (lo + n + (ts.map Prod.fst).sum) *
          (evolution c.sys a lo (lo + n) * X - w • T))
        (w • (evolution c.sys a (lo + n) (lo + n + (ts.map Prod.fst).sum) * T - z • Z))
    rw [← e, dist2_unitary hU, dist2_phase hw.norm] at h3
    have h4 := mul_le_mul_of_nonneg_left h3 (Real.sqrt_nonneg (unit c))
    rw [mul_add, ← h2] at h4
    linarith

/-- **C83.** Closed systems, both measures: a transfer planned in any number of stages through
intermediate targets, each stage designed on its own, has an error whose root is at most the sum of
the roots of the errors of the stages. -/
theorem C83_errors_add {c : UnitaryCfg d m} [Nonempty m] (hc : Closed c)
    (hs : c.fidKind = .traceDiff → 0 ≤ c.sys.scale) {ts : List (Nat × Matrix d m ℂ)} {es : List ℝ}
    (hpos : ∀ t ∈ ts, 0 < t.1) (hsum : (ts.map Prod.fst).sum = c.nTs)
    (hlast : ∃ n, ts.getLast? = some (n, c.target))
    (hN : c.fidKind = .unitary → c.initialᴴ * c.initial = 1 ∧ ∀ t ∈ ts, t.2ᴴ * t.2 = 1)
    (junk s0 : State d m (Decomp d)) (a0 : Amps) (ops : List Op)
    (h : Planned c (lastAmps a0 ops) 0 c.initial ts es) {e : ℝ}
    (he : query c.sys junk s0 a0 ops .getFidErr = .real e) :
    Real.sqrt e ≤ (es.map Real.sqrt).sum := by
  obtain ⟨n, hn⟩ := hlast
  have hne : ts ≠ [] := by rintro rfl; simp at hn
  have hl : ((((0, c.initial) :: ts).getLast (List.cons_ne_nil _ _)).2 : Matrix d m ℂ) = c.target := by
    rw [List.getLast_cons hne]
    rw [List.getLast?_eq_some_getLast hne] at hn
    rw [Option.some.inj hn]
  have hmem : (n, c.target) ∈ ts := List.mem_of_getLast? hn
  obtain ⟨z, hz, h1⟩ := planned_dist hc hs h hpos (by omega) (fun hk => (hN hk).1)
    fun hk => (hN hk).2
  rw [hl, Nat.zero_add, hsum] at h1
  rw [query_eq hc.valid] at he
  have h2 := (err_dist hc (fun hk => ⟨(hN hk).1, (hN hk).2 _ hmem⟩) hs he).1 z hz
  have hf : final c.sys (lastAmps a0 ops) =
      evolution c.sys (lastAmps a0 ops) 0 c.nTs * c.initial := by
    unfold final
    rw [sys_nTs, sys_initial]
  rw [hf] at h2
  exact h2.trans h1

/-! ### Non-vacuity -/

section Examples

/-- The stages of a closed system are closed systems a user can configure. -/
example (c : UnitaryCfg d m) (X : Matrix d m ℂ) (lo n : Nat) :
    (leg c X c.target lo n).sys = stage c.sys X lo n := leg_sys

/-- Any stages, any pulse: there are objects for them. -/
theorem staged_exists (S : Sys d m D) (junk : State d m D) (a : Amps) (ns : List Nat) :
    ∀ lo X, ∃ Y, Staged S a lo X ns Y := by
  induction ns with
  | nil => exact fun lo X => ⟨X, .nil lo X⟩
  | cons n ns ih =>
    intro lo X
    obtain ⟨Y, hY⟩ := ih (lo + n) (finalObj (stage S X lo n) junk junk (fun k j => a (k + lo) j) [])
    exact ⟨Y, .cons junk junk (fun k j => a (k + lo) j) [] (fun _ _ _ _ => rfl) hY⟩

/-- **C83_stages**: three slots in stages of one and two. -/
example (fk : FidKind) (po : PhaseOpt) (junk : State (Fin 2) (Fin 2) (Decomp (Fin 2))) (a : Amps) :
    ∃ Y, Valid (sample 3 fk po).sys ∧ (∀ n ∈ [1, 2], 0 < n) ∧
      [1, 2].sum = (sample 3 fk po).sys.nTs ∧
      Staged (sample 3 fk po).sys a 0 (sample 3 fk po).sys.initial [1, 2] Y ∧
      PartOf (sample 3 fk po).sys.nCtrls a 0 (sample 3 fk po).sys.nTs (lastAmps a []) := by
  obtain ⟨Y, hY⟩ := staged_exists (sample 3 fk po).sys junk a [1, 2] 0 (sample 3 fk po).sys.initial
  exact ⟨Y, (sample_closed (by norm_num) fk po).valid, by simp, by rw [sys_nTs]; rfl, hY,
    fun _ _ _ _ => rfl⟩

/-- **C83_continued**: two of five slots in stages of one, then the rest. -/
example (fk : FidKind) (po : PhaseOpt) (junk : State (Fin 2) (Fin 2) (Decomp (Fin 2))) (a : Amps) :
    ∃ X, Valid (sample 5 fk po).sys ∧ (∀ n ∈ [1, 1], 0 < n) ∧
      [1, 1].sum < (sample 5 fk po).sys.nTs ∧
      Staged (sample 5 fk po).sys (lastAmps a []) 0 (sample 5 fk po).sys.initial [1, 1] X ∧
      PartOf (sample 5 fk po).sys.nCtrls (lastAmps a []) [1, 1].sum
        ((sample 5 fk po).sys.nTs - [1, 1].sum) (lastAmps (fun k j => a (k + 2) j) []) := by
  obtain ⟨X, hX⟩ := staged_exists (sample 5 fk po).sys junk a [1, 1] 0 (sample 5 fk po).sys.initial
  exact ⟨X, (sample_closed (by norm_num) fk po).valid, by simp, by rw [sys_nTs]; change 2 < 5; norm_num, hX,
    fun _ _ _ _ => rfl⟩

/-- **C83_pulled_back**: the first of three slots; for every object there is such a target. -/
example (fk : FidKind) (po : PhaseOpt) (junk s0 : State (Fin 2) (Fin 2) (Decomp (Fin 2))) (a : Amps) :
    ∃ T : Matrix (Fin 2) (Fin 2) ℂ, Closed (sample 3 fk po) ∧ 1 < (sample 3 fk po).nTs ∧
      (let t := (computeEvolution (sample 3 fk po).sys
          (reached (sample 3 fk po).sys junk s0 a [])).1
        match (sample 3 fk po).fidKind with
        | .unitary => T = (t.onto 1)ᴴ
        | .traceDiff => T = (t.onwd 1)ᴴ * (sample 3 fk po).target) := by
  cases hk : (sample 3 fk po).fidKind with
  | unitary => exact ⟨_, sample_closed (by norm_num) fk po, by change 1 < 3; norm_num, rfl⟩
  | traceDiff => exact ⟨_, sample_closed (by norm_num) fk po, by change 1 < 3; norm_num, rfl⟩

/-- **C83_errors_add**: three slots, first to the exchange of the two levels and then to the target;
all three objects report errors. -/
example (fk : FidKind) (junk s0 : State (Fin 2) (Fin 2) (Decomp (Fin 2))) (a : Amps) :
    ∃ (ts : List (Nat × Matrix (Fin 2) (Fin 2) ℂ)) (es : List ℝ) (e : ℝ),
      Closed (sample 3 fk .PSU) ∧
      ((sample 3 fk .PSU).fidKind = .traceDiff → 0 ≤ (sample 3 fk .PSU).sys.scale) ∧
      (∀ t ∈ ts, 0 < t.1) ∧ (ts.map Prod.fst).sum = (sample 3 fk .PSU).nTs ∧
      ts.length = 2 ∧ es.length = 2 ∧ (∃ n, ts.getLast? = some (n, (sample 3 fk .PSU).target)) ∧
      ((sample 3 fk .PSU).fidKind = .unitary →
        (sample 3 fk .PSU).initialᴴ * (sample 3 fk .PSU).initial = 1 ∧ ∀ t ∈ ts, t.2ᴴ * t.2 = 1) ∧
      Planned (sample 3 fk .PSU) (lastAmps a []) 0 (sample 3 fk .PSU).initial ts es ∧
      query (sample 3 fk .PSU).sys junk s0 a [] .getFidErr = .real e := by
  have hc : Closed (sample 3 fk .PSU) := sample_closed (by norm_num) fk .PSU
  have hN := sample_normalised 3 fk .PSU
  have hr : ∀ (c : UnitaryCfg (Fin 2) (Fin 2)) (b : Amps), Closed c → c.phaseOpt = .PSU →
      ∃ e, query c.sys junk s0 b [] .getFidErr = .real e := by
    intro c b h hp
    rw [query_eq h.valid]
    simp only [answer, fidErr, fidelity, sys_fidKind, sys_phaseOpt, hp]
    cases c.fidKind <;> exact ⟨_, rfl⟩
  let X : Matrix (Fin 2) (Fin 2) ℂ := !![0, 1; 1, 0]
  have hX : Xᴴ * X = 1 := by
    ext i j
    fin_cases i <;> fin_cases j <;> simp [X, Matrix.mul_apply, Fin.sum_univ_two]
  obtain ⟨e1, h1⟩ := hr (leg (sample 3 fk .PSU) (sample 3 fk .PSU).initial X 0 1) a
    (leg_closed hc (by norm_num) (by change 0 + 1 ≤ 3; norm_num)) rfl
  obtain ⟨e2, h2⟩ := hr (leg (sample 3 fk .PSU) X (sample 3 fk .PSU).target 1 2)
    (fun k j => a (k + 1) j) (leg_closed hc (by norm_num) (by change 1 + 2 ≤ 3; norm_num)) rfl
  obtain ⟨e, he⟩ := hr (sample 3 fk .PSU) a hc rfl
  refine ⟨[(1, X), (2, (sample 3 fk .PSU).target)], [e1, e2], e, hc, fun _ => ?_, by simp, rfl, rfl,
    rfl, ⟨2, rfl⟩, fun _ => ⟨hN.initial, ?_⟩, ?_, he⟩
  · rw [sys_scale]
    change 0 ≤ 1 / (2 * ((Fintype.card (Fin 2) : ℕ) : ℝ))
    positivity
  · intro t ht
    simp only [List.mem_cons, List.not_mem_nil, or_false] at ht
    rcases ht with rfl | rfl
    · exact hX
    · exact hN.target
  · exact .cons junk s0 a [] (fun _ _ _ _ => rfl) h1
      (.cons junk s0 (fun k j => a (k + 1) j) [] (fun _ _ _ _ => rfl) h2 (.nil _ _))

end Examples

end QTrl.Dyn
