import Verif.Proofs.Recompute

/-
Invariant of the cached machine: whatever is flagged as current is what the
stateless specification prescribes for the stored amplitudes.
-/

set_option linter.unusedSectionVars false

namespace QTrl.Dyn

open QTrl.Spec

variable {d m D : Type} [Fintype d] [DecidableEq d] [Fintype m] [DecidableEq m]

/-- Two amplitude arrays agree on every slot and control of the system. -/
def SameAmps (S : Sys d m D) (a b : Amps) : Prop :=
  ∀ k j, k < S.nTs → j < S.nCtrls → a k j = b k j

theorem numChanged_eq_zero (S : Sys d m D) (a b : Amps) :
    numChanged S a b = 0 ↔ SameAmps S a b := by
  unfold numChanged SameAmps
  rw [List.sum_eq_zero_iff]
  simp only [List.mem_map, List.mem_range, forall_exists_index, and_imp,
    forall_apply_eq_imp_iff₂, List.length_eq_zero_iff, List.filter_eq_nil_iff,
    decide_eq_true_eq, not_not]
  exact ⟨fun h k j hk hj => h k hk j hj, fun h k hk j hj => h k j hk hj⟩

/-! ### Congruence of the specification -/

section congr
variable {S : Sys d m D} {a b : Amps}

theorem generator_congr (h : SameAmps S a b) {k : Nat} (hk : k < S.nTs) :
    generator S a k = generator S b k := by
  unfold generator
  congr 1
  exact Finset.sum_congr rfl fun j hj => by rw [h k j hk (Finset.mem_range.1 hj)]

theorem propagator_congr (h : SameAmps S a b) {k : Nat} (hk : k < S.nTs) :
    propagator S a k = propagator S b k := by
  unfold propagator; rw [generator_congr h hk]

theorem propagatorGrad_congr (h : SameAmps S a b) {k : Nat} (hk : k < S.nTs) (j : Nat) :
    propagatorGrad S a k j = propagatorGrad S b k j := by
  unfold propagatorGrad; rw [generator_congr h hk]

theorem evolution_congr (h : SameAmps S a b) {lo hi : Nat} (hhi : hi ≤ S.nTs) :
    evolution S a lo hi = evolution S b lo hi :=
  timeOrdered_congr fun _ _ hk => propagator_congr h (by omega)

theorem final_congr (h : SameAmps S a b) : final S a = final S b := by
  unfold final; rw [evolution_congr h (Nat.le_refl _)]

theorem overlap_congr (h : SameAmps S a b) : overlap S a = overlap S b := by
  unfold overlap; rw [final_congr h]

theorem fidelity_congr (h : SameAmps S a b) : fidelity S a = fidelity S b := by
  unfold fidelity; rw [overlap_congr h]

theorem fidErr_congr (h : SameAmps S a b) : fidErr S a = fidErr S b := by
  unfold fidErr; rw [fidelity_congr h, final_congr h]

theorem finalGrad_congr (h : SameAmps S a b) {k : Nat} (hk : k < S.nTs) (j : Nat) :
    finalGrad S a k j = finalGrad S b k j := by
  unfold finalGrad
  rw [evolution_congr h (Nat.le_refl _), evolution_congr h (Nat.le_of_lt hk),
    propagatorGrad_congr h hk]

theorem gradEntry_congr (h : SameAmps S a b) {k : Nat} (hk : k < S.nTs) (f : ℝ) (j : Nat) :
    gradEntry S a f k j = gradEntry S b f k j := by
  unfold gradEntry; rw [finalGrad_congr h hk, overlap_congr h, final_congr h]

theorem gradient_congr (h : SameAmps S a b) : gradient S a = gradient S b := by
  have key : ∀ f : ℝ, (fun k j => if k < S.nTs ∧ j < S.nCtrls then gradEntry S a f k j else 0) =
      fun k j => if k < S.nTs ∧ j < S.nCtrls then gradEntry S b f k j else 0 := by
    intro f; funext k j
    by_cases hk : k < S.nTs ∧ j < S.nCtrls
    · rw [if_pos hk, if_pos hk, gradEntry_congr h hk.1]
    · rw [if_neg hk, if_neg hk]
  have key' : (fun (f : ℝ) k j => if k < S.nTs ∧ j < S.nCtrls then gradEntry S a f k j else 0) =
      fun f k j => if k < S.nTs ∧ j < S.nCtrls then gradEntry S b f k j else 0 := funext key
  unfold gradient; rw [fidelity_congr h, key']; simp only [key 0]

theorem answer_congr (h : SameAmps S a b) (op : Op) :
    answer S (some a) op = answer S (some b) op := by
  cases op with
  | getFidelity => cases hk : S.fidKind <;> simp only [answer, hk, fidelity_congr h]
  | _ => simp only [answer, fidErr_congr h, gradient_congr h]

end congr

/-! ### The invariant -/

/-- Every cache flagged as current holds the value belonging to the stored
amplitudes. -/
structure InvG (G : Amps → (Nat → Nat → ℝ) → Prop) (S : Sys d m D) (s : State d m D) : Prop where
  ends : EndsOK S s
  evo : s.evoCurrent = true → ∃ b, s.ctrlAmps = some b ∧ EvoOK S b s
  prenorm : s.prenormCurrent = true → ∃ b, s.ctrlAmps = some b ∧ s.prenorm = overlap S b
  fid : s.fidelityCurrent = true → ∃ b, s.ctrlAmps = some b ∧
    (S.fidKind = .unitary → fidelity S b = .ok s.fidelity) ∧
    (S.fidKind = .traceDiff → fidErr S b = .ok s.fidErr)
  grad : s.gradCurrent = true → ∃ b, s.ctrlAmps = some b ∧ G b s.grad

/-- The invariant when the cached gradient is that of the specification. -/
abbrev Inv (S : Sys d m D) (s : State d m D) : Prop :=
  InvG (fun b g => gradient S b = .ok g) S s

variable {G : Amps → (Nat → Nat → ℝ) → Prop}

/-- Effect of `compute_evolution` when amplitudes are known. -/
theorem computeEvolution_some {S : Sys d m D} {s : State d m D} {b : Amps} (hn : Valid S)
    (hi : InvG G S s) (ha : s.ctrlAmps = some b) :
    ∃ r t, computeEvolution S s = (t, .ok r) ∧ InvG G S t ∧ t.ctrlAmps = some b ∧
      t.evoCurrent = true ∧ EvoOK S b t := by
  unfold computeEvolution
  by_cases hc : s.evoCurrent = true
  · rw [if_pos hc]
    obtain ⟨b', hb', ho⟩ := hi.evo hc
    rw [ha] at hb'; cases hb'
    exact ⟨_, _, rfl, hi, ha, hc, ho⟩
  · rw [if_neg hc, ha]
    obtain ⟨dg, pdg, dc, dd, p, pg, f, ow, ot, e, o2, o3⟩ :=
      recompute_form S b s hn hi.ends
    have hE : EvoOK S b { recompute S b s with evoCurrent := true } :=
      ⟨fun k hk hc => o3.decomp k hk hc, o3.gen.frame _ rfl rfl, o3.prop, o3.propGrad, o3.fwd, o3.onwd, o3.onto⟩
    have ha' : (recompute S b s).ctrlAmps = some b := by rw [e]; exact ha
    refine ⟨_, _, rfl, ⟨⟨o2.fwd0, o2.ontoN⟩, fun _ => ⟨b, ha', hE⟩,
      ?_, ?_, ?_⟩, ha', rfl, hE⟩
    · intro h
      have h' : s.prenormCurrent = true := by rw [e] at h; exact h
      obtain ⟨b', hb', hp⟩ := hi.prenorm h'
      refine ⟨b', ?_, ?_⟩
      · rw [e]; exact hb'
      · rw [e]; exact hp
    · intro h
      have h' : s.fidelityCurrent = true := by rw [e] at h; exact h
      obtain ⟨b', hb', hp⟩ := hi.fid h'
      refine ⟨b', ?_, ?_⟩
      · rw [e]; exact hb'
      · rw [e]; exact hp
    · intro h
      have h' : s.gradCurrent = true := by rw [e] at h; exact h
      obtain ⟨b', hb', hp⟩ := hi.grad h'
      refine ⟨b', ?_, ?_⟩
      · rw [e]; exact hb'
      · rw [e]; exact hp

/-- Without amplitudes nothing is current and everything raises `TypeError`. -/
theorem not_current {S : Sys d m D} {s : State d m D} (hi : InvG G S s) (ha : s.ctrlAmps = none) :
    s.evoCurrent = false ∧ s.prenormCurrent = false ∧ s.fidelityCurrent = false ∧
      s.gradCurrent = false := by
  refine ⟨?_, ?_, ?_, ?_⟩ <;> rw [← Bool.not_eq_true] <;> intro h
  · obtain ⟨b, hb, _⟩ := hi.evo h; simp [ha] at hb
  · obtain ⟨b, hb, _⟩ := hi.prenorm h; simp [ha] at hb
  · obtain ⟨b, hb, _⟩ := hi.fid h; simp [ha] at hb
  · obtain ⟨b, hb, _⟩ := hi.grad h; simp [ha] at hb

theorem computeEvolution_none {S : Sys d m D} {s : State d m D}
    (hi : InvG G S s) (ha : s.ctrlAmps = none) :
    ∃ t, computeEvolution S s = (t, .error .typeError) ∧ InvG G S t ∧ t.ctrlAmps = none := by
  obtain ⟨h1, h2, h3, h4⟩ := not_current hi ha
  unfold computeEvolution
  rw [if_neg (by simp [h1]), ha]
  refine ⟨_, rfl, ⟨⟨hi.ends.fwd0, hi.ends.ontoN⟩, ?_, ?_, ?_, ?_⟩, ?_⟩
  · intro h; simp [h1] at h
  · intro h; simp [h2] at h
  · intro h; simp [h3] at h
  · intro h; simp [h4] at h
  · rfl

theorem overlap_of_evoOK {S : Sys d m D} {s : State d m D} {b : Amps} (hi : EndsOK S s)
    (h : EvoOK S b s) : (s.onto S.nTs * s.fwd S.nTs).trace = overlap S b := by
  rw [hi.ontoN, h.fwd _ (Nat.le_refl _)]; rfl

theorem getPrenorm_some {S : Sys d m D} {s : State d m D} {b : Amps} (hn : Valid S)
    (hi : InvG G S s) (ha : s.ctrlAmps = some b) :
    ∃ t, getPrenorm S s = (t, .ok (overlap S b)) ∧ InvG G S t ∧ t.ctrlAmps = some b := by
  unfold getPrenorm
  by_cases hc : s.prenormCurrent = true
  · rw [if_pos hc]
    obtain ⟨b', hb', ho⟩ := hi.prenorm hc
    rw [ha] at hb'; cases hb'
    exact ⟨s, by rw [ho], hi, ha⟩
  · rw [if_neg hc]
    obtain ⟨r, t, e, it, at', et, ot⟩ := computeEvolution_some hn hi ha
    simp only [e]
    rw [overlap_of_evoOK it.ends ot]
    refine ⟨_, rfl, ⟨⟨it.ends.fwd0, it.ends.ontoN⟩, ?_, ?_, it.fid, it.grad⟩,
      at'⟩
    · intro _
      exact ⟨b, at', ⟨fun k hk hc => ot.decomp k hk hc, ot.gen.frame _ rfl rfl, ot.prop, ot.propGrad, ot.fwd, ot.onwd, ot.onto⟩⟩
    · intro _; exact ⟨b, at', rfl⟩

theorem getPrenorm_none {S : Sys d m D} {s : State d m D}
    (hi : InvG G S s) (ha : s.ctrlAmps = none) :
    ∃ t, getPrenorm S s = (t, .error .typeError) ∧ InvG G S t ∧ t.ctrlAmps = none := by
  unfold getPrenorm
  obtain ⟨t, e, it, at'⟩ := computeEvolution_none hi ha
  rw [if_neg (by simp [(not_current hi ha).2.1])]
  simp only [e]
  exact ⟨t, rfl, it, at'⟩

theorem fidNorm_eq (S : Sys d m D) (b : Amps) : fidNorm S (overlap S b) = fidelity S b := by
  unfold fidNorm fidelity
  cases S.phaseOpt <;> cases S.isQobj <;> rfl

theorem getFidelity_some {S : Sys d m D} {s : State d m D} {b : Amps} (hn : Valid S)
    (hu : S.fidKind = .unitary) (hi : InvG G S s) (ha : s.ctrlAmps = some b) :
    ∃ t, getFidelity S s = (t, fidelity S b) ∧ InvG G S t ∧ t.ctrlAmps = some b := by
  unfold getFidelity
  by_cases hc : s.fidelityCurrent = true
  · rw [if_pos hc]
    obtain ⟨b', hb', ho, _⟩ := hi.fid hc
    rw [ha] at hb'; cases hb'
    exact ⟨s, by rw [ho hu], hi, ha⟩
  · rw [if_neg hc]
    obtain ⟨t, e, it, at'⟩ := getPrenorm_some hn hi ha
    simp only [e, fidNorm_eq]
    cases hf : fidelity S b with
    | error er => exact ⟨t, rfl, it, at'⟩
    | ok v =>
      refine ⟨_, rfl, ⟨⟨it.ends.fwd0, it.ends.ontoN⟩, ?_, it.prenorm, ?_, it.grad⟩, at'⟩
      · intro h
        obtain ⟨b', hb', o⟩ := it.evo h
        exact ⟨b', hb', ⟨fun k hk hc => o.decomp k hk hc, o.gen.frame _ rfl rfl, o.prop, o.propGrad, o.fwd, o.onwd, o.onto⟩⟩
      · intro _
        exact ⟨b, at', fun _ => hf, fun h => by rw [hu] at h; cases h⟩

theorem getFidelity_none {S : Sys d m D} {s : State d m D}
    (hi : InvG G S s) (ha : s.ctrlAmps = none) :
    ∃ t, getFidelity S s = (t, .error .typeError) ∧ InvG G S t ∧ t.ctrlAmps = none := by
  unfold getFidelity
  obtain ⟨t, e, it, at'⟩ := getPrenorm_none hi ha
  rw [if_neg (by simp [(not_current hi ha).2.2.1])]
  simp only [e]
  exact ⟨t, rfl, it, at'⟩

theorem getFidErr_some {S : Sys d m D} {s : State d m D} {b : Amps} (hn : Valid S)
    (hi : InvG G S s) (ha : s.ctrlAmps = some b) :
    ∃ t, getFidErr S s = (t, fidErr S b) ∧ InvG G S t ∧ t.ctrlAmps = some b := by
  unfold getFidErr fidErr
  cases hk : S.fidKind with
  | unitary =>
    obtain ⟨t, e, it, at'⟩ := getFidelity_some hn hk hi ha
    simp only [e]
    cases hf : fidelity S b with
    | error er => exact ⟨t, rfl, it, at'⟩
    | ok v => exact ⟨t, rfl, it, at'⟩
  | traceDiff =>
    simp only
    unfold getFidErrTD
    by_cases hc : s.fidelityCurrent = true
    · rw [if_pos hc]
      obtain ⟨b', hb', _, ho⟩ := hi.fid hc
      rw [ha] at hb'; cases hb'
      have := ho hk
      unfold fidErr at this
      simp only [hk] at this
      exact ⟨s, by rw [← this], hi, ha⟩
    · rw [if_neg hc]
      obtain ⟨r, t, e, it, at', et, ot⟩ := computeEvolution_some hn hi ha
      simp only [e]
      have hfin : t.fwd S.nTs = final S b := ot.fwd _ (Nat.le_refl _)
      rw [hfin]
      refine ⟨_, rfl, ⟨⟨it.ends.fwd0, it.ends.ontoN⟩, ?_, it.prenorm, ?_, it.grad⟩, at'⟩
      · intro _
        exact ⟨b, at', ⟨fun k hk hc => ot.decomp k hk hc, ot.gen.frame _ rfl rfl, ot.prop, ot.propGrad, ot.fwd, ot.onwd, ot.onto⟩⟩
      · intro _
        refine ⟨b, at', ?_, fun _ => ?_⟩
        · intro h; rw [hk] at h; cases h
        · unfold fidErr; simp only [hk]

theorem getFidErr_none {S : Sys d m D} {s : State d m D}
    (hi : InvG G S s) (ha : s.ctrlAmps = none) :
    ∃ t, getFidErr S s = (t, .error .typeError) ∧ InvG G S t ∧ t.ctrlAmps = none := by
  unfold getFidErr
  cases hk : S.fidKind with
  | unitary =>
    obtain ⟨t, e, it, at'⟩ := getFidelity_none hi ha
    simp only [e]
    exact ⟨t, rfl, it, at'⟩
  | traceDiff =>
    simp only
    unfold getFidErrTD
    obtain ⟨t, e, it, at'⟩ := computeEvolution_none hi ha
    rw [if_neg (by simp [(not_current hi ha).2.2.1])]
    simp only [e]
    exact ⟨t, rfl, it, at'⟩

/-! ### Gradients -/

/-- `t` differs from `s` at most in its decompositions, which are correct. -/
def OnlyDecomp (S : Sys d m D) (s t : State d m D) : Prop :=
  (∃ dc dd, t = { s with decompCurr := dc, decomp := dd }) ∧ DecompOK S t

/-- The double loop when every entry can be computed. -/
theorem gradLoop_ok {R : Type} (S : Sys d m D)
    (entry : State d m D → Nat → Nat → State d m D × Except PyErr R)
    (z : R) (s : State d m D) (v : Nat → Nat → R) (hd : DecompOK S s)
    (h : ∀ t k j, k < S.nTs → j < S.nCtrls → OnlyDecomp S s t →
      ∃ t', entry t k j = (t', .ok (v k j)) ∧ OnlyDecomp S s t') :
    ∃ t, gradLoop S entry (fun _ _ => z) s =
        (t, .ok fun k j => if k < S.nTs ∧ j < S.nCtrls then v k j else z) ∧ OnlyDecomp S s t := by
  have key := forRange_inv (n := S.nCtrls) (s := ((s, .ok fun _ _ => z) :
        State d m D × Except PyErr (Nat → Nat → R)))
    (b := fun j acc => forRange S.nTs (gradStep entry j) acc)
    (fun i acc => ∃ t g, acc = (t, .ok g) ∧ OnlyDecomp S s t ∧
      ∀ k j, g k j = if k < S.nTs ∧ j < i then v k j else z)
    ⟨s, _, rfl, ⟨⟨_, _, rfl⟩, hd⟩, by simp⟩ ?_
  · obtain ⟨t, g, e, o, hg⟩ := key
    refine ⟨t, ?_, o⟩
    rw [gradLoop, e]
    congr 2
    funext k j
    exact hg k j
  · rintro i _ hi ⟨t0, g0, rfl, o0, hg0⟩
    have inner := forRange_inv (n := S.nTs) (s := ((t0, .ok g0) :
        State d m D × Except PyErr (Nat → Nat → R)))
      (b := gradStep entry i)
      (fun n acc => ∃ t g, acc = (t, .ok g) ∧ OnlyDecomp S s t ∧
        ∀ k j, g k j = if (k < S.nTs ∧ j < i) ∨ (k < n ∧ j = i) then v k j else z)
      ⟨t0, g0, rfl, o0, by intro k j; rw [hg0]; simp⟩ ?_
    · obtain ⟨t, g, e, o, hg⟩ := inner
      refine ⟨t, g, e, o, ?_⟩
      intro k j
      rw [hg]
      have : ((k < S.nTs ∧ j < i) ∨ (k < S.nTs ∧ j = i)) ↔ (k < S.nTs ∧ j < i + 1) := by omega
      simp only [this]
    · rintro n _ hn ⟨t, g, rfl, o, hg⟩
      obtain ⟨t', e, o'⟩ := h t n i hn hi o
      refine ⟨t', update2 g n i (v n i), by simp only [gradStep, e], o', ?_⟩
      intro k j
      by_cases hkj : k = n ∧ j = i
      · obtain ⟨rfl, rfl⟩ := hkj
        rw [update2_self, if_pos (Or.inr ⟨by omega, rfl⟩)]
      · rw [update2_ne _ _ hkj, hg]
        have : ((k < S.nTs ∧ j < i) ∨ (k < n ∧ j = i)) ↔
          ((k < S.nTs ∧ j < i) ∨ (k < n + 1 ∧ j = i)) := by omega
        simp only [this]

theorem gradStep_error {R : Type} (n j : Nat)
    (entry : State d m D → Nat → Nat → State d m D × Except PyErr R) (s : State d m D)
    (e : PyErr) : forRange n (gradStep entry j) (s, .error e) = (s, .error e) := by
  induction n with
  | zero => rfl
  | succ n ih => rw [forRange_succ, ih]; rfl

/-- The double loop when the gradient of a propagator cannot be computed. -/
theorem gradLoop_error {R : Type} (S : Sys d m D) (hn : 0 < S.nTs) (hc : 0 < S.nCtrls)
    (entry : State d m D → Nat → Nat → State d m D × Except PyErr R)
    (g0 : Nat → Nat → R) (s : State d m D) (e : PyErr)
    (h : ∀ k j, entry s k j = (s, .error e)) :
    gradLoop S entry g0 s = (s, .error e) := by
  have inner : ∀ n j, 0 < n → forRange n (gradStep entry j) (s, .ok g0) = (s, .error e) := by
    intro n j hn
    induction n with
    | zero => omega
    | succ n ih =>
      rw [forRange_succ]
      rcases Nat.eq_zero_or_pos n with h0 | h0
      · subst h0; simp only [forRange_zero, gradStep, h]
      · rw [ih h0]; rfl
  have outer : ∀ c, 0 < c → forRange c (fun j acc => forRange S.nTs (gradStep entry j) acc)
      (s, .ok g0) = (s, .error e) := by
    intro c hc
    induction c with
    | zero => omega
    | succ c ih =>
      rw [forRange_succ]
      rcases Nat.eq_zero_or_pos c with h0 | h0
      · subst h0; rw [forRange_zero]; exact inner _ _ hn
      · rw [ih h0]; exact gradStep_error _ _ _ _ _
  exact outer _ hc

theorem getPropGrad_ok {S : Sys d m D} {s t : State d m D} {b : Amps} (hn : Valid S) (hx : gradExact S = true)
    (ho : EvoOK S b s) (hst : OnlyDecomp S s t) {k j : Nat} (hk : k < S.nTs) (hj : j < S.nCtrls) :
    ∃ t', getPropGrad S t k j = (t', .ok (propagatorGrad S b k j)) ∧ OnlyDecomp S s t' := by
  obtain ⟨⟨dc, dd, rfl⟩, hd⟩ := hst
  unfold getPropGrad
  by_cases hc : S.cachePropGrad = true
  · rw [if_pos hc, if_pos hx]
    exact ⟨_, by rw [show (_ : Nat → Nat → Matrix d d ℂ) k j = _ from ho.propGrad hx hc k j hk hj],
      ⟨⟨_, _, rfl⟩, hd⟩⟩
  · rw [if_neg hc, if_pos hx]
    obtain ⟨dc', dd', e, o, v⟩ := computeGrad_form S hn b
      { s with decompCurr := dc, decomp := dd } k j hk hd (ho.gen.frame _ rfl rfl)
    refine ⟨(computeGrad S { s with decompCurr := dc, decomp := dd } k j).1, by rw [← v],
      ⟨⟨dc', dd', by rw [e]⟩, o⟩⟩

theorem InvG.onlyDecomp {S : Sys d m D} {s t : State d m D} (h : InvG G S s) (ho : OnlyDecomp S s t) :
    InvG G S t ∧ t.ctrlAmps = s.ctrlAmps := by
  obtain ⟨⟨dc, dd, rfl⟩, hd⟩ := ho
  refine ⟨⟨⟨h.ends.fwd0, h.ends.ontoN⟩, ?_, h.prenorm, h.fid, h.grad⟩, rfl⟩
  intro hc
  obtain ⟨b, hb, o⟩ := h.evo hc
  exact ⟨b, hb, ⟨fun k hk hc => hd k hk hc, o.gen.frame _ rfl rfl, o.prop, o.propGrad, o.fwd, o.onwd, o.onto⟩⟩

theorem EvoOK.onlyDecomp {S : Sys d m D} {s t : State d m D} {b : Amps} (h : EvoOK S b s)
    (ho : OnlyDecomp S s t) : EvoOK S b t := by
  obtain ⟨⟨dc, dd, rfl⟩, hd⟩ := ho
  exact ⟨fun k hk hc => hd k hk hc, h.gen.frame _ rfl rfl, h.prop, h.propGrad, h.fwd, h.onwd, h.onto⟩

/-- The error reported when the propagator computer has no exact gradient. -/
def approxErr (S : Sys d m D) : PyErr := if S.cachePropGrad then .typeError else .usageError

theorem getPropGrad_error {S : Sys d m D} (hx : gradExact S = false) (s : State d m D) (k j : Nat) :
    getPropGrad S s k j = (s, .error (approxErr S)) := by
  unfold getPropGrad approxErr
  by_cases hc : S.cachePropGrad = true <;> simp [hc, hx]

theorem gradExact_false {S : Sys d m D} : gradExact S = false ↔ S.propKind = .approx := by
  simp [gradExact]

theorem gradient_approx {S : Sys d m D} (h : S.propKind = .approx) (b : Amps) :
    gradient S b = .error (approxErr S) := by
  unfold gradient approxErr; rw [if_pos h]

theorem computeFidGrad_some {S : Sys d m D} {s : State d m D} {b : Amps} (hn : Valid S) (hu : S.fidKind = .unitary) (hi : Inv S s) (ha : s.ctrlAmps = some b) :
    ∃ t, Inv S t ∧ t.ctrlAmps = some b ∧ computeFidGrad S s = (t,
      if S.propKind = .approx then .error (approxErr S)
      else .ok fun k j => if k < S.nTs ∧ j < S.nCtrls then
        (S.ontoTarget * finalGrad S b k j).trace else 0) := by
  unfold computeFidGrad
  obtain ⟨r, t, e, it, at', et, ot⟩ := computeEvolution_some hn hi ha
  simp only [e]
  by_cases hx : S.propKind = .approx
  · refine ⟨t, it, at', ?_⟩
    rw [if_pos hx]
    apply gradLoop_error S hn.slots hn.ctrls
    intro k j
    simp only [gradEntryUnitary, getPropGrad_error (gradExact_false.2 hx)]
  · rw [if_neg hx]
    have hx' : gradExact S = true := by
      rw [← Bool.not_eq_false, gradExact_false]; exact hx
    obtain ⟨t', e', o'⟩ := gradLoop_ok S (gradEntryUnitary S) 0 t
      (fun k j => (S.ontoTarget * finalGrad S b k j).trace) ot.decomp (by
        intro u k j hk hj hu'
        obtain ⟨t', e', o'⟩ := getPropGrad_ok hn hx' ot hu' hk hj
        simp only [gradEntryUnitary, e']
        have oE := ot.onlyDecomp o'
        refine ⟨t', ?_, o'⟩
        rw [oE.onto (by simp [usesOnto, hu]) (k + 1) hk, oE.fwd k (Nat.le_of_lt hk)]
        simp only [finalGrad, Matrix.mul_assoc])
    obtain ⟨i', a'⟩ := it.onlyDecomp o'
    exact ⟨t', i', by rw [a', at'], e'⟩

theorem getGrad_some {S : Sys d m D} {s : State d m D} {b : Amps} (hn : Valid S) (hi : Inv S s) (ha : s.ctrlAmps = some b) :
    ∃ t, getGrad S s = (t, gradient S b) ∧ Inv S t ∧ t.ctrlAmps = some b := by
  unfold getGrad
  cases hk : S.fidKind with
  | unitary =>
    simp only
    unfold getGradUnitary
    by_cases hc : s.gradCurrent = true
    · rw [if_pos hc]
      obtain ⟨b', hb', ho⟩ := hi.grad hc
      rw [ha] at hb'; cases hb'
      exact ⟨s, by rw [ho], hi, ha⟩
    · rw [if_neg hc]
      obtain ⟨t, it, at', e⟩ := computeFidGrad_some hn hk hi ha
      simp only [e]
      by_cases hx : S.propKind = .approx
      · simp only [if_pos hx]
        exact ⟨t, by rw [gradient_approx hx], it, at'⟩
      · simp only [if_neg hx]
        obtain ⟨t1, e1, i1, a1⟩ := getFidelity_some hn hk it at'
        simp only [e1]
        have hg : gradient S b = (fidelity S b).map fun f =>
            fun k j => if k < S.nTs ∧ j < S.nCtrls then gradEntry S b f k j else 0 := by
          unfold gradient; rw [if_neg hx, hk]
        rw [hg]
        cases hf : fidelity S b with
        | error er => exact ⟨t1, rfl, i1, a1⟩
        | ok f =>
          obtain ⟨t2, e2, i2, a2⟩ := getPrenorm_some hn i1 a1
          simp only [e2]
          have harr : (fun k j =>
              if 1 ≤ f then gradNorm S (overlap S b)
                (if k < S.nTs ∧ j < S.nCtrls then (S.ontoTarget * finalGrad S b k j).trace else 0)
              else -gradNorm S (overlap S b)
                (if k < S.nTs ∧ j < S.nCtrls then (S.ontoTarget * finalGrad S b k j).trace else 0))
              = fun k j => if k < S.nTs ∧ j < S.nCtrls then gradEntry S b f k j else 0 := by
            funext k j
            unfold gradEntry gradNorm
            rw [hk]
            by_cases hkj : k < S.nTs ∧ j < S.nCtrls
            · simp only [if_pos hkj]
              cases S.phaseOpt <;> rfl
            · simp only [if_neg hkj]
              cases S.phaseOpt <;> simp
          simp only [harr]
          refine ⟨_, rfl, ⟨⟨i2.ends.fwd0, i2.ends.ontoN⟩, ?_, i2.prenorm, i2.fid, ?_⟩,
            a2⟩
          · intro h
            obtain ⟨b', hb', o⟩ := i2.evo h
            exact ⟨b', hb', ⟨fun k hk hc => o.decomp k hk hc, o.gen.frame _ rfl rfl, o.prop, o.propGrad, o.fwd, o.onwd, o.onto⟩⟩
          · intro _
            refine ⟨b, a2, ?_⟩
            rw [hg, hf]; rfl
  | traceDiff =>
    simp only
    unfold getGradTD
    by_cases hc : s.gradCurrent = true
    · rw [if_pos hc]
      obtain ⟨b', hb', ho⟩ := hi.grad hc
      rw [ha] at hb'; cases hb'
      exact ⟨s, by rw [ho], hi, ha⟩
    · rw [if_neg hc]
      unfold computeErrGradTD
      obtain ⟨r, t, e, it, at', et, ot⟩ := computeEvolution_some hn hi ha
      simp only [e]
      by_cases hx : S.propKind = .approx
      · have := gradLoop_error S hn.slots hn.ctrls (gradEntryTD S (S.target - t.fwd S.nTs))
          (fun _ _ => 0) t (approxErr S) (by
            intro k j; simp only [gradEntryTD, getPropGrad_error (gradExact_false.2 hx)])
        simp only [this]
        exact ⟨t, by rw [gradient_approx hx], it, at'⟩
      · have hx' : gradExact S = true := by
          rw [← Bool.not_eq_false, gradExact_false]; exact hx
        obtain ⟨t', e', o'⟩ := gradLoop_ok S (gradEntryTD S (S.target - t.fwd S.nTs))
          0 t (fun k j => gradEntry S b 0 k j) ot.decomp (by
            intro u k j hk' hj hu'
            obtain ⟨t', e', o'⟩ := getPropGrad_ok hn hx' ot hu' hk' hj
            simp only [gradEntryTD, e']
            have oE := ot.onlyDecomp o'
            refine ⟨t', ?_, o'⟩
            have hfin : t.fwd S.nTs = final S b := ot.fwd _ (Nat.le_refl _)
            have hev : (if k + 1 < S.nTs then
                t'.onwd (k + 1) * (propagatorGrad S b k j * t'.fwd k)
                else propagatorGrad S b k j * t'.fwd k) = finalGrad S b k j := by
              rw [oE.fwd k (Nat.le_of_lt hk')]
              unfold finalGrad
              by_cases hlast : k + 1 < S.nTs
              · rw [if_pos hlast, oE.onwd (by simp [usesOnwd, hk]) _ hlast, Matrix.mul_assoc]
              · have : k + 1 = S.nTs := by omega
                rw [if_neg hlast, this]
                simp only [evolution, timeOrdered_self, Matrix.one_mul]
            rw [hev, hfin]
            unfold gradEntry; rw [hk])
        simp only [e']
        have hg : gradient S b = .ok fun k j =>
            if k < S.nTs ∧ j < S.nCtrls then gradEntry S b 0 k j else 0 := by
          unfold gradient; rw [if_neg hx, hk]
        obtain ⟨i', a'⟩ := it.onlyDecomp o'
        rw [hg]
        refine ⟨_, rfl, ⟨⟨i'.ends.fwd0, i'.ends.ontoN⟩, ?_, i'.prenorm, i'.fid,
          ?_⟩, by rw [← at', ← a']⟩
        · intro h
          obtain ⟨b', hb', o⟩ := i'.evo h
          exact ⟨b', hb', ⟨fun k hk hc => o.decomp k hk hc, o.gen.frame _ rfl rfl, o.prop, o.propGrad, o.fwd, o.onwd, o.onto⟩⟩
        · intro _; exact ⟨b, by rw [← at', ← a'], hg⟩

theorem getGrad_none {S : Sys d m D} {s : State d m D}
    (hi : Inv S s) (ha : s.ctrlAmps = none) :
    ∃ t, getGrad S s = (t, .error .typeError) ∧ Inv S t ∧ t.ctrlAmps = none := by
  obtain ⟨t, e, it, at'⟩ := computeEvolution_none hi ha
  unfold getGrad
  cases hk : S.fidKind with
  | unitary =>
    simp only
    unfold getGradUnitary computeFidGrad
    rw [if_neg (by simp [(not_current hi ha).2.2.2])]
    simp only [e]
    exact ⟨t, rfl, it, at'⟩
  | traceDiff =>
    simp only
    unfold getGradTD computeErrGradTD
    rw [if_neg (by simp [(not_current hi ha).2.2.2])]
    simp only [e]
    exact ⟨t, rfl, it, at'⟩

/-! ### Amplitude updates -/

theorem compareAmps_none {S : Sys d m D} {s : State d m D} (ha : s.ctrlAmps = none) (a : Amps) :
    compareAmps S s a = (flagSystemChanged { s with
      ctrlAmps := some a
      numAmpUpdates := s.numAmpUpdates + (if S.nTs * S.nCtrls ≠ 0 then 1 else 0)
      numAmpChanges := s.numAmpChanges + S.nTs * S.nCtrls
      numTslotChanges := s.numTslotChanges + S.nTs }, false) := by
  unfold compareAmps
  rw [ha]
  rfl

theorem compareAmps_changed {S : Sys d m D} {s : State d m D} {old : Amps}
    (ha : s.ctrlAmps = some old) {a : Amps} (h : numChanged S old a ≠ 0) :
    compareAmps S s a = (flagSystemChanged { s with
      ctrlAmps := some a
      numAmpUpdates := s.numAmpUpdates + 1
      numAmpChanges := s.numAmpChanges + numChanged S old a
      numTslotChanges := s.numTslotChanges + numTslotsChanged S old a }, false) := by
  unfold compareAmps
  rw [ha]
  simp only [if_pos h]
  rfl

theorem compareAmps_same {S : Sys d m D} {s : State d m D} {old : Amps}
    (ha : s.ctrlAmps = some old) {a : Amps} (h : numChanged S old a = 0) :
    compareAmps S s a = (s, true) := by
  unfold compareAmps
  have h' : ¬ numChanged S old a ≠ 0 := fun h' => h' h
  cases s
  simp only at ha
  subst ha
  simp [h]

theorem compareAmps_amps {S : Sys d m D} {s : State d m D} (hi : InvG G S s) (a : Amps) :
    InvG G S (compareAmps S s a).1 ∧
      ∃ b, (compareAmps S s a).1.ctrlAmps = some b ∧ SameAmps S b a := by
  cases ha : s.ctrlAmps with
  | none =>
    rw [compareAmps_none ha]
    refine ⟨⟨⟨hi.ends.fwd0, hi.ends.ontoN⟩, ?_, ?_, ?_, ?_⟩, a, rfl, fun _ _ _ _ => rfl⟩
      <;> intro h <;> simp [flagSystemChanged] at h
  | some old =>
    by_cases hch : numChanged S old a = 0
    · rw [compareAmps_same ha hch]
      exact ⟨hi, old, ha, (numChanged_eq_zero S old a).1 hch⟩
    · rw [compareAmps_changed ha hch]
      refine ⟨⟨⟨hi.ends.fwd0, hi.ends.ontoN⟩, ?_, ?_, ?_, ?_⟩, a, rfl,
        fun _ _ _ _ => rfl⟩
        <;> intro h <;> simp [flagSystemChanged] at h

/-- `initialize_controls` establishes the invariant from any state. -/
theorem initControls_inv (S : Sys d m D) (junk s : State d m D) (a : Amps) :
    InvG G S (initControls S junk s a) ∧
      ∃ b, (initControls S junk s a).ctrlAmps = some b ∧ SameAmps S b a := by
  unfold initControls compareAmps initEvo
  simp only [if_true]
  refine ⟨⟨⟨by simp [flagSystemChanged], by simp [flagSystemChanged]⟩, ?_, ?_, ?_, ?_⟩, a, rfl,
    fun _ _ _ _ => rfl⟩
  all_goals intro h; simp [flagSystemChanged] at h

/-- Relation between the stored amplitudes and the ones last supplied. -/
def AmpsRel (S : Sys d m D) (s : State d m D) : Option Amps → Prop
  | none => s.ctrlAmps = none
  | some a => ∃ b, s.ctrlAmps = some b ∧ SameAmps S b a

theorem step_spec {S : Sys d m D} (hn : Valid S)
    (junk : State d m D) {s : State d m D} {A : Option Amps} (hi : Inv S s) (hA : AmpsRel S s A)
    (op : Op) :
    (step S junk s op).2 = answer S A op ∧ Inv S (step S junk s op).1 ∧
      AmpsRel S (step S junk s op).1 (nextAmps A op) := by
  cases op with
  | updateAmps a =>
    obtain ⟨h1, h2⟩ := compareAmps_amps hi a
    exact ⟨rfl, h1, h2⟩
  | reinit a =>
    obtain ⟨h1, h2⟩ := initControls_inv S junk s a
    exact ⟨rfl, h1, h2⟩
  | computeEvolution =>
    cases A with
    | none =>
      obtain ⟨t, e, it, at'⟩ := computeEvolution_none hi hA
      simp only [step, e]
      exact ⟨rfl, it, at'⟩
    | some a =>
      obtain ⟨b, hb, hs⟩ := hA
      obtain ⟨r, t, e, it, at', _⟩ := computeEvolution_some hn hi hb
      simp only [step, e]
      exact ⟨rfl, it, b, at', hs⟩
  | getFidelity =>
    cases A with
    | none =>
      cases hk : S.fidKind with
      | unitary =>
        obtain ⟨t, e, it, at'⟩ := getFidelity_none hi hA
        simp only [step, hk, e]
        exact ⟨by simp only [answer, hk]; rfl, it, at'⟩
      | traceDiff =>
        simp only [step, hk]
        exact ⟨by simp only [answer, hk], hi, hA⟩
    | some a =>
      cases hk : S.fidKind with
      | unitary =>
        obtain ⟨b, hb, hs⟩ := hA
        obtain ⟨t, e, it, at'⟩ := getFidelity_some hn hk hi hb
        simp only [step, hk, e]
        exact ⟨by simp only [answer, hk, fidelity_congr hs], it, b, at', hs⟩
      | traceDiff =>
        simp only [step, hk]
        exact ⟨by simp only [answer, hk], hi, hA⟩
  | getFidErr =>
    cases A with
    | none =>
      obtain ⟨t, e, it, at'⟩ := getFidErr_none hi hA
      simp only [step, e]
      exact ⟨rfl, it, at'⟩
    | some a =>
      obtain ⟨b, hb, hs⟩ := hA
      obtain ⟨t, e, it, at'⟩ := getFidErr_some hn hi hb
      simp only [step, e]
      exact ⟨by simp only [answer, fidErr_congr hs], it, b, at', hs⟩
  | getGradient =>
    cases A with
    | none =>
      obtain ⟨t, e, it, at'⟩ := getGrad_none hi hA
      simp only [step, e]
      exact ⟨rfl, it, at'⟩
    | some a =>
      obtain ⟨b, hb, hs⟩ := hA
      obtain ⟨t, e, it, at'⟩ := getGrad_some hn hi hb
      simp only [step, e]
      exact ⟨by simp only [answer, gradient_congr hs], it, b, at', hs⟩

theorem run_spec {S : Sys d m D} (hn : Valid S)
    (junk : State d m D) (ops : List Op) : ∀ {s : State d m D} {A : Option Amps}, Inv S s →
    AmpsRel S s A → (run S junk s ops).2 = answers S A ops ∧ Inv S (run S junk s ops).1 ∧
      AmpsRel S (run S junk s ops).1 (ops.foldl nextAmps A) := by
  induction ops with
  | nil => intro s A hi hA; exact ⟨rfl, hi, hA⟩
  | cons op ops ih =>
    intro s A hi hA
    obtain ⟨h1, h2, h3⟩ := step_spec hn junk hi hA op
    obtain ⟨h4, h5, h6⟩ := ih h2 h3
    refine ⟨?_, h5, h6⟩
    show (step S junk s op).2 :: (run S junk (step S junk s op).1 ops).2 = _
    rw [h1, h4]; rfl

theorem initSys_valid {S : Sys d m D} (h1 : 0 < S.nTs) (h2 : 0 < S.nCtrls) : Valid (initSys S) := by
  unfold initSys
  cases hp : S.phase with
  | none => exact ⟨h1, h2, fun ph h => by simp [hp] at h⟩
  | some ph =>
    by_cases hc : S.cachePhased = true
    · simp only [hc, if_true]
      exact ⟨h1, h2, fun ph' h _ k j => by simp only [Option.some.injEq] at h; rw [h]⟩
    · simp only [hc]
      exact ⟨h1, h2, fun ph' _ h => absurd h hc⟩

end QTrl.Dyn
