import Verif.Proofs.Symplectic
import Verif.Proofs.Linear
import Verif.Props.Evolution
import Verif.Props.Gradient

/-
C19: the symplectic form and symplectic evolution.  C51: the phase application.
-/

set_option linter.unusedSectionVars false

open Matrix

namespace QTrl.Sympl

open QTrl.Dyn QTrl.Spec

/-- **C19.** `calc_omega(n)` is the standard symplectic form: it has the standard
entries, is antisymmetric, squares to `-1` and is orthogonal. -/
theorem C19_omega (n : Nat) :
    omega n = stdForm n ∧ (omega n)ᵀ = -omega n ∧ omega n * omega n = -1 ∧
      (omega n)ᵀ * omega n = 1 := by
  rw [omega_eq_stdForm]
  refine ⟨rfl, stdForm_transpose n, stdForm_sq n, ?_⟩
  rw [stdForm_transpose, Matrix.neg_mul, stdForm_sq, neg_neg]

variable {n : Nat} {m : Type} [Fintype m] [DecidableEq m]

theorem sys_eq (c : Cfg n m) : ∃ pc, c.sys =
    { nTs := c.nTs, nCtrls := c.nCtrls, drift := c.drift, ctrl := c.ctrl, tau := c.tau
      phase := (phaseRun (omega n) (c.phaseOps ++ [.init])).phase, initial := c.initial
      target := c.target, ontoTarget := 0, isQobj := c.isQobj, cachePhased := c.cachePhased
      phasedCtrl := pc, cachePropGrad := c.cachePropGrad, propKind := .frechet
      fidKind := .traceDiff, phaseOpt := .PSU, dimNorm := 1
      scale := defaultScale c.scaleFactor (2 * n), expm := NormedSpace.exp
      frechet := augMatGrad, decompose := fun _ _ => ⟨0, 0, 0⟩
      diagProp := diagProp, diagGrad := diagGrad } := by
  unfold Cfg.sys
  exact initSys_eq _

theorem sys_phase {c : Cfg n m} (h : SymplecticCfg c) : ∃ z : ℂ, (z = 1 ∨ z = -1) ∧
    (c.sys.phase = some (fun A => (z • omega n) * A) ∨
      c.sys.phase = some (fun A => A * (z • omega n))) := by
  obtain ⟨pc, e⟩ := sys_eq c
  rw [e]
  simp only [phaseRun, List.foldl_append, List.foldl_cons, List.foldl_nil]
  exact initPhase_phase (phaseRun_good c.phaseOps h.noCustom) h.initOk

theorem sys_valid {c : Cfg n m} (h : SymplecticCfg c) : Valid c.sys :=
  initSys_valid h.slots h.ctrls

theorem generator_symm {c : Cfg n m} (h : SymplecticCfg c) (amps : Amps) {k : Nat}
    (hk : k < c.nTs) : (generator c.sys amps k)ᵀ = generator c.sys amps k := by
  obtain ⟨pc, e⟩ := sys_eq c
  rw [e]
  unfold generator
  rw [Matrix.transpose_add, h.drift k hk, Matrix.transpose_sum]
  congr 1
  refine Finset.sum_congr rfl fun j hj => ?_
  rw [Matrix.transpose_smul, h.ctrl k j hk (Finset.mem_range.1 hj)]

theorem propagator_symplectic {c : Cfg n m} (h : SymplecticCfg c) (amps : Amps) {k : Nat}
    (hk : k < c.nTs) : IsSymplectic (omega n) (propagator c.sys amps k) := by
  have hG := generator_symm h amps hk
  obtain ⟨z, hz, hph⟩ := sys_phase h
  have hzz : z * z = 1 := by rcases hz with rfl | rfl <;> norm_num
  obtain ⟨_, hT, hsq, _⟩ := C19_omega n
  obtain ⟨pc, e⟩ := sys_eq c
  have hp : propagator c.sys amps k = NormedSpace.exp ((c.tau k : ℂ) •
      phased c.sys (generator c.sys amps k)) := by
    rw [e]; rfl
  rw [hp]
  apply exp_symplectic
  generalize generator c.sys amps k = G at hG
  generalize (c.tau k : ℂ) = t
  rcases hph with hph | hph
  · simp only [phased, hph, Matrix.smul_mul, Matrix.transpose_smul, Matrix.transpose_mul, hG, hT,
      Matrix.mul_smul, Matrix.mul_assoc, Matrix.neg_mul]
    rw [← Matrix.mul_assoc (omega n) (omega n) G, hsq]
    simp
  · simp only [phased, hph, Matrix.smul_mul, Matrix.transpose_smul, Matrix.transpose_mul, hG, hT,
      Matrix.mul_smul, Matrix.mul_assoc, Matrix.neg_mul]
    simp

/-- **C19.** With symmetric drift and controls, however the phase application was
configured (`"preop"`, `"postop"`, in any order, with reads in between), after any history
of amplitude updates and queries every propagator satisfies `Pᵀ Ω P = Ω`, and so do the
forward evolution (from a symplectic initial object) and the onward evolution. -/
theorem C19_evolution_symplectic {c : Cfg n (Fin (2 * n))} (h : SymplecticCfg c)
    (junk s0 : State _ _ _) (a0 : Amps) (ops : List Op) :
    let t := (computeEvolution c.sys (reached c.sys junk s0 a0 ops)).1
    (∀ k, k < c.nTs → (t.prop k)ᵀ * omega n * t.prop k = omega n) ∧
    (c.initialᵀ * omega n * c.initial = omega n →
      ∀ k, k ≤ c.nTs → (t.fwd k)ᵀ * omega n * t.fwd k = omega n) ∧
    (∀ k, k < c.nTs → (t.onwd k)ᵀ * omega n * t.onwd k = omega n) := by
  intro t
  obtain ⟨_, h2, h3, h4, _⟩ := C03_time_ordered (sys_valid h) junk s0 a0 ops
  have hn : c.sys.nTs = c.nTs := by obtain ⟨pc, e⟩ := sys_eq c; rw [e]
  have hi : c.sys.initial = c.initial := by obtain ⟨pc, e⟩ := sys_eq c; rw [e]
  have hf : c.sys.fidKind = .traceDiff := by obtain ⟨pc, e⟩ := sys_eq c; rw [e]
  rw [hn] at h2 h3 h4
  have hP : ∀ k, k < c.nTs → IsSymplectic (omega n) (t.prop k) := fun k hk => by
    rw [h2 k hk]; exact propagator_symplectic h _ hk
  refine ⟨hP, fun h0 k hk => ?_, fun k hk => ?_⟩
  · rw [h3 k hk, hi]
    exact (timeOrdered_symplectic (Nat.zero_le k) fun l _ hl => hP l (by omega)).mul h0
  · rw [h4 hf k hk]
    exact timeOrdered_symplectic (Nat.le_of_lt hk) fun l _ hl => hP l hl

/-- **C13** for symplectic dynamics: the reported gradient is the gradient of the reported
error. -/
theorem C13_symplectic {c : Cfg n m} (h : SymplecticCfg c) (junk s0 : State _ _ _) (a0 : Amps)
    (ops : List Op) :
    ∃ err g, ReportsErr c.sys junk s0 a0 ops err ∧
      query c.sys junk s0 a0 ops .getGradient = .array g ∧
      IsGradient c.sys err (lastAmps a0 ops) g := by
  obtain ⟨z, hz, hph⟩ := sys_phase h
  have hl : LinearPhase c.sys := by
    intro A B w
    rcases hph with hph | hph <;>
      simp [phased, hph, Matrix.mul_add, Matrix.add_mul, smul_comm z w]
  obtain ⟨pc, e⟩ := sys_eq c
  exact C13_gradient_is_derivative (sys_valid h) (by rw [e]) (by rw [e]; simp) junk s0 a0 ops
    (exactPropGrad_linear hl (by rw [e]; simp) (by rw [e]) (by rw [e]) _)

/-! ### C51: the phase application -/

/-- What the documentation says a phase application means for a generator `A`
(dynamics.py 858-867, 1815-1821), in any letter case. -/
def Documented {d : Type} [Fintype d] (om : Matrix d d ℂ) (v : String)
    (ph : Option (Matrix d d ℂ → Matrix d d ℂ)) : Prop :=
  (pyLower v = "preop" → ph = some fun A => om * A) ∧
  (pyLower v = "postop" → ph = some fun A => A * -om)

/-- **C51**, full statement: after any configuration that ends with an accepted phase
application, initialisation succeeds and the phase is applied as documented for it. -/
def C51_statement (n : Nat) : Prop :=
  ∀ (ops : List PhaseOp) (v : String), (pyLower v = "preop" ∨ pyLower v = "postop") →
    (setPhaseApp (omega n) (phaseRun (omega n) ops) v).2 = .ok () →
    let s := (setPhaseApp (omega n) (phaseRun (omega n) ops) v).1
    (initPhase (omega n) s).2 = .ok () ∧ Documented (omega n) v (initPhase (omega n) s).1.phase

/-- **C51 is violated**, by letter case: `"PREOP"` is accepted by the setter, but the
initialisation then raises `ValueError`. -/
theorem C51_violated_case (n : Nat) : ¬ C51_statement n := by
  intro h
  have := (h [] "PREOP" (.inl (by decide)) rfl).1
  have e : (initPhase (omega n) (setPhaseApp (omega n) (phaseRun (omega n) []) "PREOP").1).2 =
      .error .valueError := rfl
  rw [e] at this
  cases this

/-- **C51 is violated**, by an earlier read: reading `dyn_gen_phase` stores `-Ω`, and
switching to `"preop"` before the initialisation keeps it, so generators are phased with
`-Ω·A` instead of `Ω·A`: the evolution runs backwards. -/
theorem C51_violated_read (n : Nat) (hn : 0 < n) :
    (initPhase (omega n) (phaseRun (omega n) [.read, .setApp "preop"])).2 = .ok () ∧
    (initPhase (omega n) (phaseRun (omega n) [.read, .setApp "preop"])).1.phase =
      some (fun A => -omega n * A) ∧
    ¬ Documented (omega n) "preop"
      (initPhase (omega n) (phaseRun (omega n) [.read, .setApp "preop"])).1.phase := by
  have hpre : pyLower "preop" = "preop" := by decide
  have e : (initPhase (omega n) (phaseRun (omega n) [.read, .setApp "preop"])).1.phase =
      some (fun A => -omega n * A) := by
    simp [phaseRun, phaseStep, PhaseState.fresh, initPhase, readPhase, getDynGenPhase, setPhaseApp,
      configPhase, hpre, PhaseState.phase]
  refine ⟨by simp [phaseRun, phaseStep, PhaseState.fresh, initPhase, readPhase, getDynGenPhase,
    setPhaseApp, configPhase, hpre], e, fun h => ?_⟩
  have h2 := h.1 hpre
  rw [e] at h2
  have h3 := congrFun (Option.some.inj h2) (omega n)
  obtain ⟨_, _, hsq, _⟩ := C19_omega n
  rw [Matrix.neg_mul, hsq, neg_neg] at h3
  have h4 := congrFun (congrFun h3 ⟨0, by omega⟩) ⟨0, by omega⟩
  simp at h4
  norm_num at h4

/-- Before any reading or initialisation. -/
theorem setApps_fresh (n : Nat) (vs : List String)
    (hv : ∀ v ∈ vs, v = "preop" ∨ v = "postop") :
    (phaseRun (omega n) (vs.map .setApp)).app = (vs.getLast?).getD "postop" ∧
      (phaseRun (omega n) (vs.map .setApp)).cached = none ∧
      (phaseRun (omega n) (vs.map .setApp)).evoInit = false := by
  have : ∀ (vs : List String) (t : PhaseState (Fin (2 * n))),
      (∀ v ∈ vs, v = "preop" ∨ v = "postop") → t.cached = none → t.evoInit = false →
      ((vs.map PhaseOp.setApp).foldl (phaseStep (omega n)) t).app = (vs.getLast?).getD t.app ∧
      ((vs.map PhaseOp.setApp).foldl (phaseStep (omega n)) t).cached = none ∧
      ((vs.map PhaseOp.setApp).foldl (phaseStep (omega n)) t).evoInit = false := by
    intro vs
    induction vs with
    | nil => intro t _ h1 h2; exact ⟨rfl, h1, h2⟩
    | cons v vs ih =>
      intro t hv h1 h2
      have hstep : ∃ ap, phaseStep (omega n) t (.setApp v) =
          { t with app := v, applied := ap } := by
        rcases hv v List.mem_cons_self with rfl | rfl
        · refine ⟨.pre, ?_⟩
          simp [phaseStep, setPhaseApp, configPhase, h2, show pyLower "preop" = "preop" by decide]
        · refine ⟨.post, ?_⟩
          simp [phaseStep, setPhaseApp, configPhase, h2, show pyLower "postop" = "postop" by decide]
      obtain ⟨ap, hs⟩ := hstep
      obtain ⟨i1, i2, i3⟩ := ih { t with app := v, applied := ap }
        (fun v hv' => hv v (List.mem_cons_of_mem _ hv')) h1 h2
      simp only [List.map_cons, List.foldl_cons, hs]
      refine ⟨?_, i2, i3⟩
      rw [i1, List.getLast?_cons]
      simp
  exact this vs PhaseState.fresh hv rfl rfl

/-- **C51**, the part that holds: if the phase applications are given in lower case and
nothing was read or initialised before, the one given last is applied as documented (and
by default it is `"postop"`). -/
theorem C51_phase_partial (n : Nat) (vs : List String)
    (hv : ∀ v ∈ vs, v = "preop" ∨ v = "postop") :
    let s := phaseRun (omega n) (vs.map .setApp)
    (initPhase (omega n) s).2 = .ok () ∧
      Documented (omega n) ((vs.getLast?).getD "postop") (initPhase (omega n) s).1.phase := by
  intro s
  have key := setApps_fresh n vs hv
  obtain ⟨k1, k2, k3⟩ := key
  change s.app = _ at k1
  change s.cached = _ at k2
  rw [← k1]
  have ha : s.app = "preop" ∨ s.app = "postop" := by
    rw [k1]
    rcases hg : vs.getLast? with _ | v
    · exact .inr rfl
    · exact hv v (List.mem_of_getLast? hg)
  have hpre : pyLower "preop" = "preop" := by decide
  have hpost : pyLower "postop" = "postop" := by decide
  rcases ha with ha | ha <;>
    simp [initPhase, readPhase, k2, getDynGenPhase, ha, configPhase, hpre, hpost, Documented,
      PhaseState.phase]

/-- The value an operation sets. -/
def PhaseOp.value : PhaseOp → Option String
  | .setApp v => some v
  | _ => none

/-- **C51**, the part that holds once the object is initialised: from then on, whatever is set (in
lower case), read and initialised in whatever order, the application set last is in force as
documented, without a new initialisation and with one. -/
theorem C51_reconfigured_partial (n : Nat) (vs : List String)
    (hv : ∀ v ∈ vs, v = "preop" ∨ v = "postop") (rest : List PhaseOp)
    (hr : ∀ op ∈ rest, ∀ v, op.value = some v → v = "preop" ∨ v = "postop") :
    let s := phaseRun (omega n) (vs.map .setApp ++ .init :: rest)
    let last := ((vs ++ rest.filterMap PhaseOp.value).getLast?).getD "postop"
    Documented (omega n) last s.phase ∧ (initPhase (omega n) s).2 = .ok () ∧
      Documented (omega n) last (initPhase (omega n) s).1.phase := by
  intro s last
  have hpre : pyLower "preop" = "preop" := by decide
  have hpost : pyLower "postop" = "postop" := by decide
  let Inv (t : PhaseState (Fin (2 * n))) : Prop := t.evoInit = true ∧
    ((t.app = "preop" ∧ t.applied = .pre ∧ t.cached = some (omega n)) ∨
      (t.app = "postop" ∧ t.applied = .post ∧ t.cached = some (-omega n)))
  have hinit : ∀ t, Inv t → initPhase (omega n) t = (t, .ok ()) := by
    rintro ⟨a, ap, c, e⟩ ⟨h1, ⟨h2, h3, h4⟩ | ⟨h2, h3, h4⟩⟩ <;>
      simp only at h1 h2 h3 h4 <;> subst h1 h2 h3 h4 <;>
      simp [initPhase, readPhase, configPhase, hpre, hpost]
  have hdoc : ∀ t, Inv t → Documented (omega n) t.app t.phase := by
    rintro ⟨a, ap, c, e⟩ ⟨h1, ⟨h2, h3, h4⟩ | ⟨h2, h3, h4⟩⟩ <;>
      simp only at h1 h2 h3 h4 <;> subst h1 h2 h3 h4 <;>
      simp [Documented, PhaseState.phase, hpre, hpost]
  have hstep : ∀ (ops : List PhaseOp) (t : PhaseState (Fin (2 * n))), Inv t →
      (∀ op ∈ ops, ∀ v, op.value = some v → v = "preop" ∨ v = "postop") →
      Inv (ops.foldl (phaseStep (omega n)) t) ∧
        (ops.foldl (phaseStep (omega n)) t).app =
          ((ops.filterMap PhaseOp.value).getLast?).getD t.app := by
    intro ops
    induction ops with
    | nil => intro t ht _; exact ⟨ht, rfl⟩
    | cons op ops ih =>
      intro t ht ho
      have ho' : ∀ op ∈ ops, ∀ v, op.value = some v → v = "preop" ∨ v = "postop" :=
        fun o h => ho o (List.mem_cons_of_mem _ h)
      cases op with
      | setApp v =>
        have hs : Inv (phaseStep (omega n) t (.setApp v)) ∧
            (phaseStep (omega n) t (.setApp v)).app = v := by
          rcases ho _ List.mem_cons_self v rfl with rfl | rfl <;>
            simp [Inv, phaseStep, setPhaseApp, configPhase, hpre, hpost, ht.1, getDynGenPhase]
        obtain ⟨i1, i2⟩ := ih _ hs.1 ho'
        refine ⟨i1, ?_⟩
        rw [List.foldl_cons, i2, hs.2]
        simp [PhaseOp.value, List.getLast?_cons]
      | read =>
        have hs : phaseStep (omega n) t .read = t := by
          obtain ⟨_, ⟨_, _, h⟩ | ⟨_, _, h⟩⟩ := ht <;> simp [phaseStep, readPhase, h]
        rw [List.foldl_cons, hs]
        exact ih t ht ho'
      | init =>
        have hs : phaseStep (omega n) t .init = t := by simp [phaseStep, hinit t ht]
        rw [List.foldl_cons, hs]
        exact ih t ht ho'
  obtain ⟨p1, p2⟩ := C51_phase_partial n vs hv
  have hstart : Inv (phaseStep (omega n) (phaseRun (omega n) (vs.map .setApp)) .init) ∧
      (phaseStep (omega n) (phaseRun (omega n) (vs.map .setApp)) .init).app =
        (vs.getLast?).getD "postop" := by
    obtain ⟨k1, k2, k3⟩ := setApps_fresh n vs hv
    have ha : (vs.getLast?).getD "postop" = "preop" ∨ (vs.getLast?).getD "postop" = "postop" := by
      rcases hg : vs.getLast? with _ | v
      · exact .inr rfl
      · exact hv v (List.mem_of_getLast? hg)
    rcases ha with ha | ha <;> rw [ha] at k1 ⊢ <;>
      simp [Inv, phaseStep, initPhase, readPhase, k2, getDynGenPhase, k1, configPhase, hpre, hpost]
  obtain ⟨i1, i2⟩ := hstep rest _ hstart.1 hr
  have hs : s = rest.foldl (phaseStep (omega n))
      (phaseStep (omega n) (phaseRun (omega n) (vs.map .setApp)) .init) := by
    simp only [s, phaseRun, List.foldl_append, List.foldl_cons]
  have hl : s.app = last := by
    rw [hs, i2, hstart.2]
    simp only [last, List.getLast?_append]
    cases (rest.filterMap PhaseOp.value).getLast? <;> rfl
  rw [← hs] at i1
  rw [← hl]
  refine ⟨hdoc s i1, ?_, ?_⟩
  · rw [hinit s i1]
  · rw [hinit s i1]; exact hdoc s i1

example : ∀ op ∈ [PhaseOp.read, .setApp "preop", .init, .setApp "postop"],
    ∀ v, op.value = some v → v = "preop" ∨ v = "postop" := by
  simp [PhaseOp.value]

/-! ### Non-vacuity -/

/-- Two coupled oscillators with a controlled coupling, two slots, `preop`. -/
noncomputable def oscillators : Cfg 2 (Fin 4) where
  nTs := 2
  nCtrls := 1
  drift := fun _ => 1
  ctrl := fun _ _ => Matrix.of fun j k => if j.val + k.val = 2 then 1 else 0
  tau := fun k => 1 / (k + 1)
  initial := 1
  target := 1
  isQobj := false
  cachePhased := true
  cachePropGrad := true
  scaleFactor := none
  phaseOps := [.setApp "preop"]

example : SymplecticCfg oscillators ∧
    oscillators.initialᵀ * omega 2 * oscillators.initial = omega 2 := by
  refine ⟨⟨by decide, by decide, fun k _ => ?_, fun k j _ _ => ?_, fun v hv => ?_, ?_⟩, ?_⟩
  · simp [oscillators]
  · ext a b
    simp only [oscillators, Matrix.transpose_apply, Matrix.of_apply, Nat.add_comm]
  · simp only [oscillators, List.mem_singleton, PhaseOp.setApp.injEq] at hv
    subst hv
    decide
  · exact (C51_phase_partial 2 ["preop"] (by simp)).1
  · simp [oscillators]

end QTrl.Sympl
