import Verif.Model.Memory
import Verif.Proofs.SameSystem
import Verif.Proofs.Unitary
import Verif.Props.Evolution
import Verif.Props.Symplectic

/-
C20: memory optimisation.
-/

set_option linter.unusedSectionVars false

open Matrix

namespace QTrl.Mem

open QTrl.Dyn QTrl.Spec

/-! ### Resolution of the options -/

/-- An option keeps the value the user gave it and otherwise gets the default. -/
def Resolved {α : Type} (user : Option α) (dflt : α) (result : Option α) : Prop :=
  result = some (user.getD dflt)

theorem setMemory_eq (o : MemOpts) (N nnz : Nat) : setMemory o N nnz =
    { level := o.level
      operDtype := some (o.operDtype.getD (chooseOperDtype o.level N nnz))
      cachePhased := some (o.cachePhased.getD (decide (o.level ≤ 0)))
      cachePropGrad := some (o.cachePropGrad.getD (decide (o.level ≤ 0)))
      cacheAdj := some (o.cacheAdj.getD (decide (o.level ≤ 0)))
      sparse := some (o.sparse.getD (decide (1 < o.level))) } := by
  obtain ⟨level, dt, cp, cg, ca, sp⟩ := o
  unfold setMemory
  by_cases h0 : level > 0
  · have h0' : ¬ level ≤ 0 := by omega
    by_cases h1 : level > 1 <;>
      cases dt <;> cases cp <;> cases cg <;> cases ca <;> cases sp <;> simp [h0, h1, h0']
  · have h0' : level ≤ 0 := by omega
    have h1 : ¬ 1 < level := by omega
    have h2 : ¬ 0 < level := by omega
    cases dt <;> cases cp <;> cases cg <;> cases ca <;> cases sp <;>
      simp only [gt_iff_lt, h1, h2, h0', if_false, Option.getD, decide_true, decide_false]

/-- **C20.** After initialisation every option has the value set by the user, or the
documented default of the memory level: caches are kept at level 0 and dropped above, the
sparse eigen-solver is used above level 1, `Qobj` is the data type above level 0.  (One
exception: without a generator phase there is nothing to cache.) -/
theorem C20_options {o r : MemOpts} {hasPhase : Bool} {size N nnz : Nat}
    (h : initMemory o hasPhase size N nnz = .ok r) :
    Resolved o.cachePropGrad (decide (o.level ≤ 0)) r.cachePropGrad ∧
    Resolved o.cacheAdj (decide (o.level ≤ 0)) r.cacheAdj ∧
    Resolved o.sparse (decide (1 < o.level)) r.sparse ∧
    Resolved o.operDtype (if 0 < o.level ∨ (100 * nnz ≤ N ^ 2 ∧ 400 < N) then .qobj else .ndarray)
      r.operDtype ∧
    (hasPhase = true → Resolved o.cachePhased (decide (o.level ≤ 0)) r.cachePhased) ∧
    (hasPhase = false → r.cachePhased = some false) := by
  have hr : r = setMemory (if hasPhase then o else { o with cachePhased := some false }) N nnz := by
    unfold initMemory at h
    simp only at h
    generalize setMemory (if hasPhase then o else { o with cachePhased := some false }) N nnz = t at h ⊢
    by_cases h1 : t.sparse = some true ∧ size ≤ 2
    · rw [if_pos h1] at h; cases h
    · rw [if_neg h1] at h
      by_cases h2 : t.operDtype = some .other
      · rw [if_pos h2] at h; cases h
      · rw [if_neg h2] at h; cases h; rfl
  have hd : chooseOperDtype o.level N nnz =
      if 0 < o.level ∨ (100 * nnz ≤ N ^ 2 ∧ 400 < N) then .qobj else .ndarray := by
    unfold chooseOperDtype
    by_cases h1 : o.level > 0
    · simp [h1]
    · by_cases h2 : N ^ 2 < 100 * nnz
      · rw [if_neg h1, if_pos h2, if_neg (by omega)]
      · by_cases h3 : N > 400
        · rw [if_neg h1, if_neg h2, if_pos h3, if_pos (by omega)]
        · rw [if_neg h1, if_neg h2, if_neg h3, if_neg (by omega)]
  rw [setMemory_eq] at hr
  subst hr
  cases hasPhase <;> simp [Resolved, hd]

/-- The initialisation fails exactly for a sparse eigen-solver on a system of dimension at
most two and for an unknown data type. -/
theorem C20_rejected (o : MemOpts) (hasPhase : Bool) (size N nnz : Nat) :
    (∃ e, initMemory o hasPhase size N nnz = .error e) ↔
      (o.sparse.getD (decide (1 < o.level)) = true ∧ size ≤ 2) ∨ o.operDtype = some .other := by
  have hd : ∀ l, chooseOperDtype l N nnz ≠ .other := by
    intro l
    unfold chooseOperDtype
    repeat' split
    all_goals simp
  unfold initMemory
  simp only [setMemory_eq]
  have e1 : (if hasPhase then o else { o with cachePhased := some false }).sparse = o.sparse := by
    cases hasPhase <;> rfl
  have e2 : (if hasPhase then o else { o with cachePhased := some false }).level = o.level := by
    cases hasPhase <;> rfl
  have e3 : (if hasPhase then o else { o with cachePhased := some false }).operDtype =
      o.operDtype := by cases hasPhase <;> rfl
  rw [e1, e2, e3]
  by_cases h1 : o.sparse.getD (decide (1 < o.level)) = true ∧ size ≤ 2
  · rw [if_pos (by simpa using h1)]
    exact ⟨fun _ => .inl h1, fun _ => ⟨_, rfl⟩⟩
  · rw [if_neg (by simpa using h1)]
    rcases hdt : o.operDtype with _ | dt
    · simp [hd, h1]
    · cases dt <;> simp [h1]

/-! ### Results -/

variable {d m : Type} [Fintype d] [DecidableEq d] [Fintype m] [DecidableEq m]

theorem getAdj_decomp (b : Bool) (eigh : Matrix d d ℂ → (d → ℝ) × Matrix d d ℂ) (prec : ℝ)
    (H : Matrix d d ℂ) (tau : ℝ) :
    getAdj (spectralDecompAdj b eigh prec H tau) = (spectralDecomp eigh prec H tau).eigVecᴴ := by
  unfold getAdj spectralDecompAdj
  cases b <;> rfl

theorem memSys_eq (c : UnitaryCfg d m) (postop : Bool) (o : MemOpts) : ∃ pc, memSys c postop o =
    { nTs := c.nTs, nCtrls := c.nCtrls, drift := c.drift, ctrl := c.ctrl, tau := c.tau
      phase := some (if postop then fun A => Matrix.of fun i j => A i j * (-Complex.I)
        else fun A => Matrix.of fun i j => (-Complex.I) * A i j)
      initial := c.initial, target := c.target, ontoTarget := c.targetᴴ
      isQobj := o.operDtype = some .qobj, cachePhased := o.cachePhased = some true
      phasedCtrl := pc, cachePropGrad := o.cachePropGrad = some true, propKind := c.propKind
      fidKind := c.fidKind, phaseOpt := c.phaseOpt
      dimNorm := initNormalization c.phaseOpt c.target
      scale := defaultScale c.scaleFactor (Fintype.card d), expm := NormedSpace.exp
      frechet := augMatGrad
      decompose := spectralDecompAdj (o.cacheAdj = some true) c.eigh c.prec
      diagProp := diagPropAdj, diagGrad := diagGradAdj } := by
  unfold memSys
  exact initSys_eq _

theorem phase_eq (postop : Bool) : (if postop then fun A : Matrix d d ℂ =>
      Matrix.of fun i j => A i j * (-Complex.I)
    else fun A => Matrix.of fun i j => (-Complex.I) * A i j) = fun A => -Complex.I • A := by
  funext A
  cases postop
  · ext i j; simp
  · ext i j; simp [mul_comm]

/-- Every combination of options is the same system as the plain configuration. -/
theorem memSys_same (c : UnitaryCfg d m) (postop : Bool) (o : MemOpts)
    (hd : c.phaseOpt = .SU → (o.operDtype = some .qobj ↔ c.isQobj = true))
    (hc : c.propKind = .approx → (o.cachePropGrad = some true ↔ c.cachePropGrad = true)) :
    SameSystem (memSys c postop o) c.sys := by
  obtain ⟨pc, e⟩ := memSys_eq c postop o
  have hprop : ∀ amps, propagator (memSys c postop o) amps = propagator c.sys amps := by
    intro amps
    funext k
    rw [e, phase_eq]
    unfold propagator
    simp only [sys_propKind, sys_diagProp, sys_decompose, sys_tau, sys_expm]
    have hg : generator c.sys amps k = c.drift k + ∑ j ∈ Finset.range c.nCtrls,
        (amps k j : ℂ) • c.ctrl k j := by
      unfold generator; simp only [sys_drift, sys_ctrl, sys_nCtrls]
    have hp : ∀ A, phased c.sys A = -Complex.I • A := fun A => by simp [phased]
    rw [hg, hp]
    simp only [diagPropAdj, getAdj_decomp]
    rfl
  have hgrad : ∀ amps, propagatorGrad (memSys c postop o) amps = propagatorGrad c.sys amps := by
    intro amps
    funext k j
    rw [e, phase_eq]
    unfold propagatorGrad
    simp only [sys_propKind, sys_diagGrad, sys_decompose, sys_tau, sys_frechet, sys_ctrl]
    have hg : generator c.sys amps k = c.drift k + ∑ j ∈ Finset.range c.nCtrls,
        (amps k j : ℂ) • c.ctrl k j := by
      unfold generator; simp only [sys_drift, sys_ctrl, sys_nCtrls]
    have hp : ∀ A, phased c.sys A = -Complex.I • A := fun A => by simp [phased]
    rw [hg, hp, hp]
    simp only [diagGradAdj, getAdj_decomp]
    rfl
  constructor <;> (try exact hprop) <;> (try exact hgrad) <;> rw [e] <;> simp only [sys_nTs,
    sys_nCtrls, sys_initial, sys_target, sys_onto, sys_propKind, sys_fidKind, sys_phaseOpt,
    sys_dimNorm, sys_scale, sys_isQobj, sys_cachePropGrad]
  · intro h
    have := hd h
    by_cases h2 : c.isQobj = true
    · simp [h2, this.2 h2]
    · simp only [h2] at this
      simp [this, h2]
  · intro h
    have := hc h
    by_cases h2 : c.cachePropGrad = true
    · simp [h2, this.2 h2]
    · simp only [h2] at this
      simp [this, h2]

/-- **C20**, results: however phased generators, propagator gradients and eigenvector
adjoints are cached, whichever data type is used and on whichever side the scalar phase is
multiplied, every history of queries returns the same propagator-based results.
Missing compared to the full claim: with phase option `SU` the data type must be the same
(see `C20_violated_su`), and the approximate propagator computer, which has no gradient, is
left out (only the kind of its error depends on the caching). -/
theorem C20_results_partial (c : UnitaryCfg d m) (h0 : 0 < c.nTs) (h1 : 0 < c.nCtrls)
    (hp : c.propKind ≠ .approx) (post post' : Bool) (o o' : MemOpts)
    (hd : c.phaseOpt = .SU → (o.operDtype = some .qobj ↔ o'.operDtype = some .qobj))
    (junk s0 junk' s0' : State d m (DecompAdj d)) (a0 : Amps) (ops : List Op) :
    outputs (memSys c post o) junk s0 a0 ops = outputs (memSys c post' o') junk' s0' a0 ops := by
  have hv : ∀ p q, Valid (memSys c p q) := fun p q => initSys_valid h0 h1
  rw [C05_caching_transparent (hv _ _), C05_caching_transparent (hv _ _)]
  have key : ∀ p q, (c.phaseOpt = .SU → (q.operDtype = some .qobj ↔ o.operDtype = some .qobj)) →
      answers (memSys c p q) (some a0) ops =
        answers ({ c with isQobj := o.operDtype = some .qobj } : UnitaryCfg d m).sys (some a0) ops := by
    intro p q hq
    have := memSys_same ({ c with isQobj := o.operDtype = some .qobj } : UnitaryCfg d m) p q
      (by simpa using hq) (fun h => absurd h hp)
    exact this.answers _ _
  rw [key post o (fun _ => Iff.rfl), key post' o' (fun h => (hd h).symm)]

/-- ... and the operators of the evolution agree too. -/
theorem C20_evolution (c : UnitaryCfg d m) (h0 : 0 < c.nTs) (h1 : 0 < c.nCtrls)
    (post post' : Bool) (o o' : MemOpts)
    (junk s0 junk' s0' : State d m (DecompAdj d)) (a0 : Amps) (ops : List Op) :
    let t := (computeEvolution (memSys c post o) (reached (memSys c post o) junk s0 a0 ops)).1
    let t' := (computeEvolution (memSys c post' o') (reached (memSys c post' o') junk' s0' a0 ops)).1
    (∀ k, k < c.nTs → t.prop k = t'.prop k) ∧ ∀ k, k ≤ c.nTs → t.fwd k = t'.fwd k := by
  intro t t'
  have hv : ∀ p q, Valid (memSys c p q) := fun p q => initSys_valid h0 h1
  have hn : ∀ p q, (memSys c p q).nTs = c.nTs := fun p q => by
    obtain ⟨pc, e⟩ := memSys_eq c p q; rw [e]
  have hi : ∀ p q, (memSys c p q).initial = c.initial := fun p q => by
    obtain ⟨pc, e⟩ := memSys_eq c p q; rw [e]
  have hP : ∀ p q amps, propagator (memSys c p q) amps = propagator c.sys amps := by
    intro p q amps
    have := (memSys_same ({ c with isQobj := q.operDtype = some .qobj
                                   cachePropGrad := q.cachePropGrad = some true } : UnitaryCfg d m)
      p q (by simp) (by simp)).prop amps
    refine Eq.trans this ?_
    funext k
    unfold propagator
    simp only [sys_propKind, sys_diagProp, sys_decompose, sys_tau, sys_expm]
    unfold generator phased
    simp only [sys_drift, sys_ctrl, sys_nCtrls, sys_phase]
  obtain ⟨_, a2, a3, _, _⟩ := C03_time_ordered (hv post o) junk s0 a0 ops
  obtain ⟨_, b2, b3, _, _⟩ := C03_time_ordered (hv post' o') junk' s0' a0 ops
  rw [hn] at a2 a3 b2 b3
  have hk : ∀ k, k < c.nTs → t.prop k = t'.prop k := fun k hk => by
    rw [a2 k hk, b2 k hk, hP, hP]
  refine ⟨hk, fun k hk' => ?_⟩
  rw [a3 k hk', b3 k hk', hi, hi]
  congr 1
  exact timeOrdered_congr fun l _ hl => hk l (by omega)

/-! ### Violations -/

/-- **C20 is violated** for the phase option `SU`: raising the memory optimisation level
from 0 to 1 turns an `IndexError` into a fidelity.  This holds for every system of dimension
at most 400 (data type unset). -/
theorem C20_violated_su (c : UnitaryCfg d m) (h0 : 0 < c.nTs) (h1 : 0 < c.nCtrls)
    (hf : c.fidKind = .unitary) (hs : c.phaseOpt = .SU) (o r r' : MemOpts) (hl : o.level = 0)
    (ho : o.operDtype = none) (size N nnz : Nat) (hN : N ≤ 400)
    (hr : initMemory o true size N nnz = .ok r)
    (hr' : initMemory { o with level := 1 } true size N nnz = .ok r')
    (junk s0 : State d m (DecompAdj d)) (a0 : Amps) :
    outputs (memSys c false r) junk s0 a0 [.getFidelity] = [.error .indexError] ∧
    ∃ f, outputs (memSys c false r') junk s0 a0 [.getFidelity] = [.real f] := by
  have hv : ∀ q, Valid (memSys c false q) := fun q => initSys_valid h0 h1
  obtain ⟨_, _, _, e, _⟩ := C20_options hr
  obtain ⟨_, _, _, e', _⟩ := C20_options hr'
  have hq : r.operDtype = some .ndarray := by
    unfold Resolved at e
    rw [e, ho, hl, if_neg (by omega)]; rfl
  have hq' : r'.operDtype = some .qobj := by
    unfold Resolved at e'
    rw [e', if_pos (by left; simp)]
    simp [ho]
  rw [C05_caching_transparent (hv _), C05_caching_transparent (hv _)]
  obtain ⟨pc, es⟩ := memSys_eq c false r
  obtain ⟨pc', es'⟩ := memSys_eq c false r'
  rw [es, es']
  simp only [answers, answer, fidelity, hf, hs, hq, hq']
  refine ⟨rfl, _, rfl⟩

/-- **C20 is violated** for symplectic dynamics: with the data type unset, memory
optimisation level 1 (or higher, for more than one mode) makes the evolution raise
`AttributeError`, because the phase is created as an array before the data type `Qobj` is
chosen; at level 0 it works. -/
theorem C20_violated_symplectic (n nnz : Nat) (hn : 2 ≤ n) (hN : n ≤ 200)
    (A : Matrix (Fin (2 * n)) (Fin (2 * n)) ℂ) (level : Int) :
    symplecticFirstPhase n ⟨level, none, none, none, none, none⟩ nnz A =
      if level > 0 then .error .attributeError else .ok (.ndarray (A * -Sympl.omega n)) := by
  unfold symplecticFirstPhase initMemory
  simp only [setMemory_eq, if_true]
  have hs : ¬ 2 * n ≤ 2 := by omega
  simp only [hs, and_false, if_false, Option.getD_none, chooseOperDtype]
  by_cases h : level > 0
  · simp [h, applyPostop]
  · have h4 : ¬ 2 * n > 400 := by omega
    simp [h, h4, applyPostop]

/-- Setting the data type explicitly is a way out: then the results agree. -/
theorem C20_symplectic_explicit (n nnz : Nat) (hn : 2 ≤ n)
    (A : Matrix (Fin (2 * n)) (Fin (2 * n)) ℂ) (level : Int) :
    symplecticFirstPhase n ⟨level, some .qobj, none, none, none, none⟩ nnz A =
      .ok (.qobj (A * -Sympl.omega n)) := by
  unfold symplecticFirstPhase initMemory
  simp only [setMemory_eq, if_true]
  have hs : ¬ 2 * n ≤ 2 := by omega
  simp [hs, applyPostop]

theorem combineAll_inv (ph : Matrix d d ℂ → Matrix d d ℂ) (n : Nat) (G : Nat → Matrix d d ℂ)
    (s : GenState d) :
    (forRange n (fun k s => s.combine ph k (G k)) s).cache = s.cache ∧
    (∀ k, k < n → (forRange n (fun k s => s.combine ph k (G k)) s).dynGen k = G k) ∧
    (s.cache = false → (forRange n (fun k s => s.combine ph k (G k)) s).phased = s.phased) ∧
    (s.cache = true → ∀ l, s.phased = some l →
      ∃ l', (forRange n (fun k s => s.combine ph k (G k)) s).phased = some l' ∧
        ∀ k, k < n → l' k = ph (G k)) := by
  refine forRange_inv (fun i (t : GenState d) => t.cache = s.cache ∧
    (∀ k, k < i → t.dynGen k = G k) ∧ (s.cache = false → t.phased = s.phased) ∧
    (s.cache = true → ∀ l, s.phased = some l → ∃ l', t.phased = some l' ∧
      ∀ k, k < i → l' k = ph (G k))) ?_ ?_
  · exact ⟨rfl, fun k hk => by omega, fun _ => rfl, fun _ l hl => ⟨l, hl, fun k hk => by omega⟩⟩
  · rintro i t hi ⟨h1, h2, h3, h4⟩
    refine ⟨h1, fun k hk => ?_, fun hc => ?_, fun hc l hl => ?_⟩
    · simp only [GenState.combine]
      by_cases hki : k = i
      · subst hki; simp
      · rw [Function.update_of_ne hki]; exact h2 k (by omega)
    · simp only [GenState.combine, h1, hc]
      exact h3 hc
    · obtain ⟨l', e, hl'⟩ := h4 hc l hl
      refine ⟨Function.update l' i (ph (G i)), by simp [GenState.combine, h1, hc, e], fun k hk => ?_⟩
      by_cases hki : k = i
      · subst hki; simp
      · rw [Function.update_of_ne hki]; exact hl' k (by omega)

/-- A history of generator operations on a fresh object. -/
def genRun (ph : Matrix d d ℂ → Matrix d d ℂ) (junk : Matrix d d ℂ) (ops : List (GenOp d)) :
    GenState d :=
  ops.foldl (GenState.step ph junk) ⟨true, fun _ => junk, none⟩

/-- Generators of an initialised object are the ones combined last, in any history in which
caching, once on at an initialisation, is never switched off. -/
theorem C20_toggle_partial (ph : Matrix d d ℂ → Matrix d d ℂ) (junk : Matrix d d ℂ) (b : Bool)
    (ops : List (GenOp d)) (hops : ∀ c, GenOp.setCache c ∈ ops → c = b) (n : Nat)
    (G : Nat → Matrix d d ℂ) (k : Nat) (hk : k < n) :
    (genRun ph junk (.setCache b :: ops ++ [.init, .combineAll n G])).get ph k = ph (G k) := by
  have inv : ∀ (ops : List (GenOp d)) (s : GenState d), (∀ c, GenOp.setCache c ∈ ops → c = b) →
      s.cache = b → (b = false → s.phased = none) →
      (ops.foldl (GenState.step ph junk) s).cache = b ∧
      (b = false → (ops.foldl (GenState.step ph junk) s).phased = none) := by
    intro ops
    induction ops with
    | nil => intro s _ h1 h2; exact ⟨h1, h2⟩
    | cons op ops ih =>
      intro s hop h1 h2
      refine ih _ (fun c hc => hop c (List.mem_cons_of_mem _ hc)) ?_ ?_
      · cases op with
        | setCache c => exact hop c List.mem_cons_self
        | init => exact h1
        | combineAll n G => exact (combineAll_inv ph n G s).1.trans h1
      · intro hb
        cases op with
        | setCache c => exact h2 hb
        | init => simp [GenState.step, GenState.init, h1, hb, h2 hb]
        | combineAll n G => exact ((combineAll_inv ph n G s).2.2.1 (h1.trans hb)).trans (h2 hb)
  unfold genRun
  rw [List.cons_append, List.foldl_cons, List.foldl_append]
  have h0 := inv ops (GenState.step ph junk ⟨true, fun _ => junk, none⟩ (.setCache b)) hops rfl
    (fun _ => rfl)
  generalize List.foldl (GenState.step ph junk) _ ops = s at h0
  obtain ⟨h1, h2⟩ := h0
  simp only [List.foldl_cons, List.foldl_nil]
  have hc := combineAll_inv ph n G (GenState.step ph junk s .init)
  change (forRange n (fun k s => s.combine ph k (G k)) (GenState.step ph junk s .init)).get ph k = _
  generalize forRange n (fun k s => s.combine ph k (G k)) (GenState.step ph junk s .init) = t at hc
  obtain ⟨c1, c2, c3, c4⟩ := hc
  cases b with
  | false =>
    have : t.phased = none := by
      rw [c3 (by exact h1)]
      simp [GenState.step, GenState.init, h1, h2]
    simp [GenState.get, this, c2 k hk]
  | true =>
    obtain ⟨l', e, hl⟩ := c4 h1 (fun _ => junk) (by simp [GenState.step, GenState.init, h1])
    simp [GenState.get, e, hl k hk]

/-- **C20 is violated** when caching is switched off and the object re-initialised: the
generators used for the propagators stay those of the amplitudes before. -/
theorem C20_violated_toggle (ph : Matrix d d ℂ → Matrix d d ℂ) (junk : Matrix d d ℂ) (n : Nat)
    (G G' : Nat → Matrix d d ℂ) (k : Nat) (hk : k < n) :
    (genRun ph junk [.init, .combineAll n G, .setCache false, .init, .combineAll n G']).get ph k =
      ph (G k) := by
  unfold genRun
  simp only [List.foldl_cons, List.foldl_nil]
  obtain ⟨a1, a2, a3, a4⟩ := combineAll_inv ph n G
    (GenState.step ph junk ⟨true, fun _ => junk, none⟩ .init)
  obtain ⟨l', e, hl⟩ := a4 rfl _ rfl
  obtain ⟨b1, b2, b3, b4⟩ := combineAll_inv ph n G' (GenState.step ph junk
    (GenState.step ph junk (GenState.step ph junk
      (GenState.step ph junk ⟨true, fun _ => junk, none⟩ .init) (.combineAll n G))
      (.setCache false)) .init)
  have hb := b3 rfl
  have he : (GenState.step ph junk (GenState.step ph junk (GenState.step ph junk
      (GenState.step ph junk ⟨true, fun _ => junk, none⟩ .init) (.combineAll n G))
      (.setCache false)) .init).phased = some l' := e
  rw [he] at hb
  unfold GenState.get
  split
  · rename_i h
    exact absurd (hb.symm.trans h) (by simp)
  · rename_i l h
    rw [← Option.some.inj (hb.symm.trans h)]
    exact hl k hk

/-! ### Non-vacuity -/

example : ∃ r r', initMemory ⟨0, none, none, none, none, none⟩ true 4 4 16 = .ok r ∧
    initMemory ⟨1, none, none, none, none, none⟩ true 4 4 16 = .ok r' ∧
    r.operDtype = some .ndarray ∧ r'.operDtype = some .qobj ∧ r.cachePhased = some true ∧
    r'.cachePhased = some false := ⟨_, _, rfl, rfl, rfl, rfl, rfl, rfl⟩

example : ∃ e, initMemory ⟨2, none, none, none, none, none⟩ true 2 2 4 = .error e := ⟨_, rfl⟩

end QTrl.Mem
