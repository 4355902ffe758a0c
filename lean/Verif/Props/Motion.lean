import Verif.Proofs.Motion
import Verif.Props.Optimizer
import Verif.Props.Fidelity

/-
C64: what is reported belongs to the solution of the equation of motion under the pulse.
-/

open Matrix

namespace QTrl.Opt

open QTrl.Dyn QTrl.Spec

variable {d m D : Type} [Fintype d] [DecidableEq d] [Fintype m] [DecidableEq m]

/-- The generators under a pulse: the phase applied to drift plus amplitudes times controls. -/
noncomputable def driven (S : Sys d m D) (amps : Amps) (k : Nat) : Matrix d d ℂ :=
  phased S (S.drift k + ∑ j ∈ Finset.range S.nCtrls, (amps k j : ℂ) • S.ctrl k j)

/-- The generators `-i H` of a closed system under a pulse. -/
noncomputable def schrodinger (c : UnitaryCfg d m) (amps : Amps) (k : Nat) : Matrix d d ℂ :=
  -Complex.I • (c.drift k + ∑ j ∈ Finset.range c.nCtrls, (amps k j : ℂ) • c.ctrl k j)

/-- **C64.** For any kind of dynamics whose propagators are matrix exponentials: after any
history there is a solution of the equation of motion for the amplitudes set last, and the
forward evolution is the value of every solution at the beginning of each slot and at the end. -/
theorem C64_history {S : Sys d m D} (hn : Valid S) (hp : S.propKind ≠ .diag)
    (he : S.expm = NormedSpace.exp) (hτ : ∀ k, k < S.nTs → 0 ≤ S.tau k)
    (junk s0 : State d m D) (a0 : Amps) (ops : List Op) :
    let t := (computeEvolution S (reached S junk s0 a0 ops)).1
    let A := driven S (lastAmps a0 ops)
    (∃ X, Motion S.nTs S.tau A S.initial X) ∧
    ∀ X, Motion S.nTs S.tau A S.initial X → ∀ k, k ≤ S.nTs → t.fwd k = X (slotTime S.tau k) := by
  intro t A
  refine ⟨⟨_, motion_exists hτ A S.initial⟩, fun X hX k hk => ?_⟩
  obtain ⟨-, h2, h3, -, -⟩ := C03_time_ordered hn junk s0 a0 ops
  rw [h3 k hk, motion_value hτ hX hk]
  congr 1
  refine timeOrdered_congr fun i _ hi => ?_
  rw [h2 i (by omega), propagator, if_neg hp, he]
  rfl

/-- **C64.** For closed systems, with any propagator computer: likewise for the Schrödinger
equation. -/
theorem C64_schrodinger {c : UnitaryCfg d m} (hc : Closed c) (hτ : ∀ k, k < c.nTs → 0 ≤ c.tau k)
    (junk s0 : State d m (Decomp d)) (a0 : Amps) (ops : List Op) :
    let t := (computeEvolution c.sys (reached c.sys junk s0 a0 ops)).1
    let A := schrodinger c (lastAmps a0 ops)
    (∃ X, Motion c.nTs c.tau A c.initial X) ∧
    ∀ X, Motion c.nTs c.tau A c.initial X → ∀ k, k ≤ c.nTs → t.fwd k = X (slotTime c.tau k) := by
  intro t A
  refine ⟨⟨_, motion_exists hτ A c.initial⟩, fun X hX k hk => ?_⟩
  obtain ⟨-, h2, h3, -, -⟩ := C03_time_ordered hc.valid junk s0 a0 ops
  simp only [sys_nTs, sys_initial] at h2 h3
  rw [h3 k hk, motion_value hτ hX hk]
  congr 1
  refine timeOrdered_congr fun i _ hi => ?_
  rw [h2 i (by omega), propagator_exp hc _ (by omega)]
  simp only [generator, sys_drift, sys_ctrl, sys_nCtrls]
  rfl

/-- The error of a final object of a closed system. -/
noncomputable def closedErr (c : UnitaryCfg d m) (X : Matrix d m ℂ) : ℝ :=
  match c.fidKind with
  | .unitary =>
    match c.phaseOpt with
    | .PSU => 1 - ‖(c.targetᴴ * X).trace‖ / Fintype.card m
    | .SU => 1 - (c.targetᴴ * X).trace.re / Fintype.card m
  | .traceDiff => (c.scaleFactor.getD (1 / (2 * Fintype.card d))) *
      ∑ i, ∑ j, ‖c.target i j - X i j‖ ^ 2

/-- Amplitudes, evolution and error belong together: the Schrödinger equation under the pulse
has a solution, all solutions end in the evolution, and the error is that of their end. -/
def Together (c : UnitaryCfg d m) (amps : Option Amps) (evo : Option (Matrix d m ℂ)) (err : ℝ) :
    Prop :=
  ∃ b, amps = some b ∧ (∃ X, Motion c.nTs c.tau (schrodinger c b) c.initial X) ∧
    ∀ X, Motion c.nTs c.tau (schrodinger c b) c.initial X →
      evo = some (X (slotTime c.tau c.nTs)) ∧ err = closedErr c (X (slotTime c.tau c.nTs))

theorem together_of {c : UnitaryCfg d m} [Nonempty m] (hc : Closed c) (hi : Normalised c)
    (hτ : ∀ k, k < c.nTs → 0 ≤ c.tau k) {a : Amps} {amps : Option Amps}
    {evo : Option (Matrix d m ℂ)} {err : ℝ} (h1 : fidErr c.sys a = .ok err)
    (h2 : evo = some (final c.sys a)) (h3 : ∃ b, amps = some b ∧ SameAmps c.sys b a) :
    Together c amps evo err := by
  obtain ⟨b, hb, hs⟩ := h3
  refine ⟨b, hb, ⟨_, motion_exists hτ _ _⟩, fun X hX => ?_⟩
  have hF : final c.sys a = X (slotTime c.tau c.nTs) := by
    rw [motion_value hτ hX (le_refl _)]
    unfold final evolution
    simp only [sys_nTs, sys_initial]
    congr 1
    refine timeOrdered_congr fun i _ hi => ?_
    rw [← propagator_congr hs (by simpa using hi), propagator_exp hc _ hi]
    simp only [generator, sys_drift, sys_ctrl, sys_nCtrls]
    rfl
  refine ⟨by rw [h2, hF], ?_⟩
  rw [← hF]
  unfold closedErr
  unfold fidErr at h1
  cases hk : c.fidKind with
  | traceDiff =>
    rw [sys_fidKind, hk] at h1
    simp only [frobSq_re, sys_scale, sys_target] at h1
    cases h1
    cases c.scaleFactor <;> rfl
  | unitary =>
    rw [sys_fidKind, hk] at h1
    have hle := abs_le.1 (fidNum_le_one hc hi a)
    unfold fidNum at hle
    unfold fidelity at h1
    rw [dimNorm_eq hi.target, overlap_sys] at hle h1
    simp only [sys_phaseOpt, sys_isQobj] at hle h1
    cases hp : c.phaseOpt with
    | PSU =>
      simp only [hp] at hle h1
      simp only [Except.map] at h1
      cases h1
      exact abs_of_nonneg (by linarith [hle.2])
    | SU =>
      simp only [hp] at hle h1
      cases hq : c.isQobj with
      | false => rw [hq] at h1; simp [Except.map] at h1
      | true =>
        simp only [hq, Except.map] at h1
        cases h1
        exact abs_of_nonneg (by linarith [hle.2])

/-- **C64.** A run that the minimiser ends: the final amplitudes, evolution and error of the
result belong together, and so do the initial ones. -/
theorem C64_returned {c : UnitaryCfg d m} [Nonempty m] (hc : Closed c) (hi : Normalised c)
    (hτ : ∀ k, k < c.nTs → 0 ≤ c.tau k) (cls : Cls) (tc : TermConds)
    (junk s0 : State d m (Decomp d)) (a0 : Amps) (gn0 : ℝ) (ops : List VOp)
    (gens : List Pulse.Crab) (start stop : ℝ) (cs : List Call) (f : Finish) (e0 : ℝ) (a : Amps)
    (he : fidErr c.sys (startAmps a0 ops) = .ok e0) (hq : Quiet c.sys cls.vars gens tc start cs)
    (hx : ampsOf c.sys cls.vars gens f.x = .ok a) :
    ∃ o' r, runOptimization c.sys cls tc (attached c.sys junk s0 a0 gn0 ops gens) start stop cs f =
        (o', .ok r) ∧
      Together c r.finalAmps r.evoFullFinal r.fidErr ∧
      Together c r.initialAmps r.evoFullInitial r.initialFidErr := by
  obtain ⟨o', r, h1, h2, -⟩ := C31_returned hc.valid cls tc junk s0 a0 gn0 ops gens start stop cs f
    e0 a he hq hx
  exact ⟨o', r, h1, together_of hc hi hτ h2.finalErr h2.finalEvo h2.finalAmps,
    together_of hc hi hτ h2.initialErr h2.initialEvo h2.initialAmps⟩

/-- **C64.** Likewise for a run ended by a termination condition. -/
theorem C64_stopped {c : UnitaryCfg d m} [Nonempty m] (hc : Closed c) (hi : Normalised c)
    (hτ : ∀ k, k < c.nTs → 0 ≤ c.tau k) (cls : Cls) (tc : TermConds)
    (junk s0 : State d m (Decomp d)) (a0 : Amps) (gn0 : ℝ) (ops : List VOp)
    (gens : List Pulse.Crab) (start stop : ℝ) (pre : List Call) (k : Call) (post : List Call)
    (f : Finish) (t : Term) (e0 : ℝ)
    (he : fidErr c.sys (startAmps a0 ops) = .ok e0) (hq : Quiet c.sys cls.vars gens tc start pre)
    (hk : verdict c.sys cls.vars gens tc start (funcCount (pre ++ [k])) k = some (.term t)) :
    ∃ o' r, runOptimization c.sys cls tc (attached c.sys junk s0 a0 gn0 ops gens) start stop
        (pre ++ k :: post) f = (o', .ok r) ∧
      Together c r.finalAmps r.evoFullFinal r.fidErr ∧
      Together c r.initialAmps r.evoFullInitial r.initialFidErr := by
  obtain ⟨o', r, h1, h2, -⟩ := C31_stopped hc.valid cls tc junk s0 a0 gn0 ops gens start stop pre k
    post f t e0 he hq hk
  exact ⟨o', r, h1, together_of hc hi hτ h2.finalErr h2.finalEvo h2.finalAmps,
    together_of hc hi hτ h2.initialErr h2.initialEvo h2.initialAmps⟩

/-- Non-vacuity: a qubit with two slots, driven from the identity towards the identity, and a run
of BFGS that evaluates one error before it returns the point it tried. -/
example (junk s0 : State (Fin 2) (Fin 2) (Decomp (Fin 2))) (C : Matrix (Fin 2) (Fin 2) ℂ)
    (hC : C.IsHermitian) :
    let c := qubit 2 0 C 1 .unitary .PSU
    ∃ o' r, runOptimization c.sys .bfgs ⟨-1, 10, 0, 10⟩
        (attached c.sys junk s0 (fun _ _ => 0) 0 [.readProp] []) 0 1 [.func [1, 2]]
        ⟨[1, 2], 1, "", 1⟩ = (o', .ok r) ∧
      Together c r.finalAmps r.evoFullFinal r.fidErr ∧
      Together c r.initialAmps r.evoFullInitial r.initialFidErr := by
  intro c
  have hc : Closed c := qubit_closed (by norm_num) Matrix.isHermitian_zero hC _ _
  have he : ∀ a, ∃ e, fidErr c.sys a = .ok e ∧ 0 ≤ e := fun a => by
    refine ⟨|1 - ‖overlap c.sys a‖ / c.sys.dimNorm|, ?_, abs_nonneg _⟩
    unfold fidErr
    rw [sys_fidKind]
    show (fidelity c.sys a).map (fun f => |1 - f|) = _
    unfold fidelity
    rw [sys_phaseOpt]
    rfl
  obtain ⟨e0, he0, -⟩ := he fun _ _ => 0
  obtain ⟨a, ha⟩ : ∃ a, ampsOf c.sys Cls.bfgs.vars [] [1, 2] = .ok a := by
    simp [ampsOf, Cls.vars, getCtrlAmps, unflatten, c, qubit, Except.map]
  refine C64_returned hc (qubit_normalised (by simp) _ _) (fun k _ => ?_) .bfgs _ junk s0 _ 0
    [.readProp] [] 0 1 _ _ e0 a he0 ?_ ha
  · show (0 : ℝ) ≤ 1 / 2
    norm_num
  · intro p k q hp
    obtain ⟨rfl, rfl, rfl⟩ : p = [] ∧ k = .func [1, 2] ∧ q = [] := by
      cases p with
      | nil => simpa [eq_comm] using hp
      | cons x p => simp at hp
    obtain ⟨e, h1, h2⟩ := he a
    simp only [verdict, ha, h1]
    rw [if_neg (by norm_num; linarith), if_neg (by norm_num [funcCount])]

end QTrl.Opt
