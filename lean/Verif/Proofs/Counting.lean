import Verif.Proofs.Machine
import Verif.Spec.Counting

/-
The flags and counters of the cached machine follow the counting specification.
-/

set_option linter.unusedSectionVars false

namespace QTrl.Dyn

open QTrl.Spec

variable {d m D : Type} [Fintype d] [DecidableEq d] [Fintype m] [DecidableEq m]

theorem numChanged_eq (S : Sys d m D) (a b : Amps) : numChanged S a b = changedAmps S a b := by
  classical
  unfold numChanged changedAmps
  rw [Finset.card_filter, Finset.sum_product]
  have : ∀ (n : Nat) (f : Nat → Nat), ((List.range n).map f).sum = ∑ i ∈ Finset.range n, f i := by
    intro n f
    induction n with
    | zero => simp
    | succ n ih => rw [List.range_succ, Finset.sum_range_succ]; simp [ih]
  rw [this]
  apply Finset.sum_congr rfl
  intro k _
  have : ∀ (n : Nat) (p : Nat → Prop) [DecidablePred p],
      ((List.range n).filter fun j => decide (p j)).length =
        ∑ j ∈ Finset.range n, if p j then 1 else 0 := by
    intro n p _
    induction n with
    | zero => simp
    | succ n ih =>
      rw [List.range_succ, Finset.sum_range_succ, List.filter_append, List.length_append, ih]
      by_cases h : p n <;> simp [h]
  have h2 := this S.nCtrls (fun j => a k j ≠ b k j)
  convert h2

theorem numTslotsChanged_eq (S : Sys d m D) (a b : Amps) :
    numTslotsChanged S a b = changedSlots S a b := by
  classical
  unfold numTslotsChanged changedSlots
  have : ∀ (n : Nat) (p : Nat → Bool) (q : Nat → Prop) [DecidablePred q], (∀ k, p k = true ↔ q k) →
      ((List.range n).filter p).length = ((Finset.range n).filter q).card := by
    intro n p q _ hpq
    induction n with
    | zero => simp
    | succ n ih =>
      rw [List.range_succ, Finset.range_add_one, List.filter_append, List.length_append, ih,
        Finset.filter_insert]
      by_cases h : q n
      · have := (hpq n).2 h
        simp [h, this]
      · have : p n = false := by rw [← Bool.not_eq_true]; exact fun h' => h ((hpq n).1 h')
        simp [h, this]
  apply this
  intro k
  simp [List.any_eq_true]

/-- Flags and counters of a state. -/
structure View where
  evo : Bool
  pre : Bool
  fid : Bool
  grad : Bool
  tally : Tally

/-- The view of a state. -/
def view (s : State d m D) : View :=
  ⟨s.evoCurrent, s.prenormCurrent, s.fidelityCurrent, s.gradCurrent, Spec.tally s⟩

/-- Effect of computing the evolution on the view. -/
def View.addEvo (v : View) : View :=
  { v with evo := true
           tally := { v.tally with recomputes := v.tally.recomputes + charge true v.evo } }

theorem computeEvolution_view {S : Sys d m D} {s : State d m D} {b : Amps} (hn : Valid S)
    (hi : Inv S s) (ha : s.ctrlAmps = some b) :
    ∃ t, computeEvolution S s = (t, .ok (!s.evoCurrent)) ∧ view t = (view s).addEvo := by
  unfold computeEvolution
  by_cases hc : s.evoCurrent = true
  · rw [if_pos hc]
    exact ⟨s, by simp [hc], by simp [view, View.addEvo, hc, charge, Spec.tally]⟩
  · rw [if_neg hc, ha]
    obtain ⟨dg, pdg, dc, dd, p, pg, f, ow, ot, e, _⟩ := recompute_form S b s hn hi.ends
    refine ⟨_, by simp only [hc]; rfl, ?_⟩
    rw [e]
    simp [view, View.addEvo, hc, charge, Spec.tally]

/-- Effect of the overlap on the view. -/
def View.addPre (v : View) : View :=
  if v.pre then v
  else { v.addEvo with
    pre := true
    tally := { v.addEvo.tally with fidelities := v.addEvo.tally.fidelities + 1 } }

theorem getPrenorm_view {S : Sys d m D} {s : State d m D} {b : Amps} (hn : Valid S)
    (hi : Inv S s) (ha : s.ctrlAmps = some b) :
    ∃ t, getPrenorm S s = (t, .ok (overlap S b)) ∧ Inv S t ∧ t.ctrlAmps = some b ∧
      view t = (view s).addPre := by
  obtain ⟨t, e, it, at'⟩ := getPrenorm_some hn hi ha
  refine ⟨t, e, it, at', ?_⟩
  have : (getPrenorm S s).1 = t := by rw [e]
  rw [← this]
  unfold getPrenorm View.addPre
  by_cases hc : s.prenormCurrent = true
  · rw [if_pos hc, if_pos (show (view s).pre = true from hc)]
  · rw [if_neg hc, if_neg (show ¬ (view s).pre = true from hc)]
    obtain ⟨u, eu, hu⟩ := computeEvolution_view hn hi ha
    simp only [eu]
    rw [← hu]
    rfl

/-- Whether normalising the overlap succeeds. -/
def normOK (S : Sys d m D) : Bool := !(S.phaseOpt = .SU && !S.isQobj)

theorem fidelity_normOK (S : Sys d m D) (b : Amps) :
    (normOK S = true ∧ ∃ v, fidelity S b = .ok v) ∨
    (normOK S = false ∧ ∃ e, fidelity S b = .error e) := by
  unfold normOK fidelity
  cases S.phaseOpt <;> cases S.isQobj <;> simp

/-- Effect of the fidelity on the view. -/
def View.addFid (S : Sys d m D) (v : View) : View :=
  if v.fid then v else if normOK S then { v.addPre with fid := true } else v.addPre

theorem getFidelity_view {S : Sys d m D} {s : State d m D} {b : Amps} (hn : Valid S)
    (hu : S.fidKind = .unitary) (hi : Inv S s) (ha : s.ctrlAmps = some b) :
    ∃ t, getFidelity S s = (t, fidelity S b) ∧ Inv S t ∧ t.ctrlAmps = some b ∧
      view t = (view s).addFid S := by
  obtain ⟨t, e, it, at'⟩ := getFidelity_some hn hu hi ha
  refine ⟨t, e, it, at', ?_⟩
  have : (getFidelity S s).1 = t := by rw [e]
  rw [← this]
  unfold getFidelity View.addFid
  by_cases hc : s.fidelityCurrent = true
  · rw [if_pos hc, if_pos (show (view s).fid = true from hc)]
  · rw [if_neg hc, if_neg (show ¬ (view s).fid = true from hc)]
    obtain ⟨u, eu, _, _, hu⟩ := getPrenorm_view hn hi ha
    simp only [eu, fidNorm_eq]
    rcases fidelity_normOK S b with ⟨h1, v, h2⟩ | ⟨h1, er, h2⟩
    · simp only [h2, h1, if_true]; rw [← hu]; rfl
    · simp only [h2, h1]; rw [hu]; rfl

theorem view_onlyDecomp {S : Sys d m D} {s t : State d m D} (h : OnlyDecomp S s t) :
    view t = view s := by
  obtain ⟨⟨dc, dd, rfl⟩, _⟩ := h; rfl

theorem computeFidGrad_view {S : Sys d m D} {s : State d m D} {b : Amps} (hn : Valid S) (hu : S.fidKind = .unitary) (hi : Inv S s) (ha : s.ctrlAmps = some b) :
    view (computeFidGrad S s).1 = (view s).addEvo := by
  unfold computeFidGrad
  obtain ⟨r, t, e, it, at', et, ot⟩ := computeEvolution_some hn hi ha
  obtain ⟨u, eu, hv⟩ := computeEvolution_view hn hi ha
  rw [e] at eu
  cases eu
  simp only [e]
  rw [← hv]
  by_cases hx : S.propKind = .approx
  · rw [gradLoop_error S hn.slots hn.ctrls (gradEntryUnitary S) _ t (approxErr S)]
    intro k j
    simp only [gradEntryUnitary, getPropGrad_error (gradExact_false.2 hx)]
  · have hx' : gradExact S = true := by
      rw [← Bool.not_eq_false, gradExact_false]; exact hx
    obtain ⟨t', e', o'⟩ := gradLoop_ok S (gradEntryUnitary S) 0 t
      (fun k j => (S.ontoTarget * finalGrad S b k j).trace) ot.decomp (by
        intro u k j hk hj hu'
        obtain ⟨t', e', o'⟩ := getPropGrad_ok hn hx' ot hu' hk hj
        simp only [gradEntryUnitary, e']
        have oE := ot.onlyDecomp o'
        refine ⟨t', ?_, o'⟩
        rw [oE.onto (by simp [usesOnto, hu]) (k + 1) hk, oE.fwd k (Nat.le_of_lt hk)]
        simp only [finalGrad, Matrix.mul_assoc])
    rw [e']
    exact view_onlyDecomp o'

/-- Effect of the unitary gradient on the view. -/
def View.addGradU (S : Sys d m D) (v : View) : View :=
  if v.grad then v
  else if S.propKind = .approx then v.addEvo
  else
    let w := v.addEvo.addFid S
    if normOK S then
      { w.addPre with
        grad := true
        tally := { w.addPre.tally with gradients := w.addPre.tally.gradients + 1 } }
    else w

theorem getGradUnitary_view {S : Sys d m D} {s : State d m D} {b : Amps} (hn : Valid S) (hu : S.fidKind = .unitary) (hi : Inv S s) (ha : s.ctrlAmps = some b) :
    view (getGradUnitary S s).1 = (view s).addGradU S := by
  unfold getGradUnitary View.addGradU
  by_cases hc : s.gradCurrent = true
  · rw [if_pos hc, if_pos (show (view s).grad = true from hc)]
  · rw [if_neg hc, if_neg (show ¬ (view s).grad = true from hc)]
    obtain ⟨t, it, at', e⟩ := computeFidGrad_some hn hu hi ha
    have hv := computeFidGrad_view hn hu hi ha
    rw [e] at hv
    simp only [e]
    by_cases hx : S.propKind = .approx
    · simp only [if_pos hx]; exact hv
    · simp only [if_neg hx]
      obtain ⟨t1, e1, i1, a1, v1⟩ := getFidelity_view hn hu it at'
      simp only [e1]
      simp only at hv
      rw [hv] at v1
      rcases fidelity_normOK S b with ⟨h1, v, h2⟩ | ⟨h1, er, h2⟩
      · obtain ⟨t2, e2, i2, a2, v2⟩ := getPrenorm_view hn i1 a1
        simp only [h2, h1, if_true, e2]
        rw [v1] at v2
        rw [← v2]; rfl
      · simp only [h2, h1]
        exact v1

/-- Effect of the trace difference error on the view. -/
def View.addErrTD (v : View) : View :=
  if v.fid then v
  else { v.addEvo with
    fid := true
    tally := { v.addEvo.tally with fidelities := v.addEvo.tally.fidelities + 1 } }

theorem getFidErrTD_view {S : Sys d m D} {s : State d m D} {b : Amps} (hn : Valid S)
    (hi : Inv S s) (ha : s.ctrlAmps = some b) :
    view (getFidErrTD S s).1 = (view s).addErrTD := by
  unfold getFidErrTD View.addErrTD
  by_cases hc : s.fidelityCurrent = true
  · rw [if_pos hc, if_pos (show (view s).fid = true from hc)]
  · rw [if_neg hc, if_neg (show ¬ (view s).fid = true from hc)]
    obtain ⟨u, eu, hu⟩ := computeEvolution_view hn hi ha
    simp only [eu]
    rw [← hu]
    rfl

/-- Effect of the trace difference gradient on the view. -/
def View.addGradTD (S : Sys d m D) (v : View) : View :=
  if v.grad then v
  else if S.propKind = .approx then v.addEvo
  else { v.addEvo with
    grad := true
    tally := { v.addEvo.tally with gradients := v.addEvo.tally.gradients + 1 } }

theorem getGradTD_view {S : Sys d m D} {s : State d m D} {b : Amps} (hn : Valid S) (hi : Inv S s) (ha : s.ctrlAmps = some b) :
    view (getGradTD S s).1 = (view s).addGradTD S := by
  unfold getGradTD View.addGradTD
  by_cases hc : s.gradCurrent = true
  · rw [if_pos hc, if_pos (show (view s).grad = true from hc)]
  · rw [if_neg hc, if_neg (show ¬ (view s).grad = true from hc)]
    unfold computeErrGradTD
    obtain ⟨r, t, e, it, at', et, ot⟩ := computeEvolution_some hn hi ha
    obtain ⟨u, eu, hv⟩ := computeEvolution_view hn hi ha
    rw [e] at eu
    cases eu
    simp only [e]
    rw [← hv]
    by_cases hx : S.propKind = .approx
    · rw [gradLoop_error S hn.slots hn.ctrls (gradEntryTD S (S.target - t.fwd S.nTs)) _ t (approxErr S)]
      · simp [hx]
      · intro k j
        simp only [gradEntryTD, getPropGrad_error (gradExact_false.2 hx)]
    · have hx' : gradExact S = true := by
        rw [← Bool.not_eq_false, gradExact_false]; exact hx
      have key : ∃ w : Nat → Nat → ℝ, ∀ u k j, k < S.nTs → j < S.nCtrls → OnlyDecomp S t u →
          ∃ t', gradEntryTD S (S.target - t.fwd S.nTs) u k j = (t', .ok (w k j)) ∧
            OnlyDecomp S t t' := by
        refine ⟨fun k j => -2 * S.scale * ((S.target - t.fwd S.nTs).conjTranspose *
          (if k + 1 < S.nTs then t.onwd (k + 1) * (propagatorGrad S b k j * t.fwd k)
            else propagatorGrad S b k j * t.fwd k)).trace.re, ?_⟩
        intro u k j hk hj hu
        obtain ⟨t', e', o'⟩ := getPropGrad_ok hn hx' ot hu hk hj
        refine ⟨t', ?_, o'⟩
        simp only [gradEntryTD, e']
        obtain ⟨⟨dc, dd, rfl⟩, _⟩ := o'
        rfl
      obtain ⟨w, hw⟩ := key
      obtain ⟨t', e', o'⟩ := gradLoop_ok S (gradEntryTD S (S.target - t.fwd S.nTs)) 0 t w
        ot.decomp hw
      simp only [e', if_neg hx]
      rw [← view_onlyDecomp o']
      rfl

/-- Relation between the flags and what the specification considers known. -/
def KnownOK (S : Sys d m D) (v : View) (kn : Known) : Prop :=
  match S.fidKind with
  | .unitary => kn = ⟨v.evo, v.pre, v.grad⟩ ∧ (v.fid = true → v.pre = true ∧ normOK S = true) ∧
      (v.pre = true → v.evo = true) ∧ (v.grad = true → v.fid = true ∧ S.propKind ≠ .approx)
  | .traceDiff => kn = ⟨v.evo, v.fid, v.grad⟩ ∧ (v.fid = true → v.evo = true) ∧
      (v.grad = true → v.evo = true ∧ S.propKind ≠ .approx)

/-- Effect of a query on the view. -/
def View.query (S : Sys d m D) (v : View) : Op → View
  | .computeEvolution => v.addEvo
  | .getFidelity => match S.fidKind with
    | .unitary => v.addFid S
    | .traceDiff => v
  | .getFidErr => match S.fidKind with
    | .unitary => v.addFid S
    | .traceDiff => v.addErrTD
  | .getGradient => match S.fidKind with
    | .unitary => v.addGradU S
    | .traceDiff => v.addGradTD S
  | _ => v

/-- An operation that does not supply amplitudes. -/
def IsQuery : Op → Prop
  | .updateAmps _ => False
  | .reinit _ => False
  | _ => True

theorem query_view (S : Sys d m D) (v : View) (kn : Known) (h : KnownOK S v kn) (op : Op)
    (hq : IsQuery op) :
    (v.query S op).tally = v.tally.plus
      { recomputes := charge (needsEvo S op) kn.evo
        fidelities := charge (needsFid S op) kn.fid
        gradients := charge (needsGrad S op) kn.grad } ∧
    KnownOK S (v.query S op)
      ⟨kn.evo || needsEvo S op, kn.fid || needsFid S op, kn.grad || needsGrad S op⟩ := by
  obtain ⟨evo, pre, fid, grad, t⟩ := v
  unfold KnownOK at h
  cases hu : S.fidKind <;> rw [hu] at h <;> simp only at h
  · obtain ⟨rfl, h1, h2, h3⟩ := h
    have hno : normOK S = !(S.phaseOpt = .SU && !S.isQobj) := rfl
    cases op <;> simp only [IsQuery] at hq <;> 
      by_cases hx : S.propKind = .approx <;> 
      cases hn : normOK S <;> rw [hn] at hno <;>
      cases evo <;> cases pre <;> cases fid <;> cases grad <;>
      simp_all [KnownOK, View.query, View.addEvo, View.addPre, View.addFid, View.addGradU,
        Tally.plus, charge, needsEvo, needsFid, needsGrad]
  · obtain ⟨rfl, h1, h2⟩ := h
    cases op <;> simp only [IsQuery] at hq <;> 
      by_cases hx : S.propKind = .approx <;> 
      cases evo <;> cases fid <;> cases grad <;>
      simp_all [KnownOK, View.query, View.addEvo, View.addErrTD, View.addGradTD,
        Tally.plus, charge, needsEvo, needsFid, needsGrad]

theorem step_query_view {S : Sys d m D} (hn : Valid S)
    (junk : State d m D) {s : State d m D} {b : Amps} (hi : Inv S s) (ha : s.ctrlAmps = some b)
    (op : Op) (hq : IsQuery op) :
    view (step S junk s op).1 = (view s).query S op := by
  cases op with
  | updateAmps _ => exact hq.elim
  | reinit _ => exact hq.elim
  | computeEvolution =>
    obtain ⟨t, e, hv⟩ := computeEvolution_view hn hi ha
    simp only [step, e]
    exact hv
  | getFidelity =>
    cases hk : S.fidKind with
    | unitary =>
      obtain ⟨t, e, _, _, hv⟩ := getFidelity_view hn hk hi ha
      simp only [step, View.query, hk, e]; exact hv
    | traceDiff => simp only [step, View.query, hk]
  | getFidErr =>
    cases hk : S.fidKind with
    | unitary =>
      obtain ⟨t, e, _, _, hv⟩ := getFidelity_view hn hk hi ha
      simp only [step, View.query, hk, getFidErr, e]
      cases fidelity S b <;> exact hv
    | traceDiff =>
      simp only [step, View.query, hk, getFidErr]
      exact getFidErrTD_view hn hi ha
  | getGradient =>
    cases hk : S.fidKind with
    | unitary =>
      simp only [step, View.query, hk, getGrad]
      exact getGradUnitary_view hn hk hi ha
    | traceDiff =>
      simp only [step, View.query, hk, getGrad]
      exact getGradTD_view hn hi ha

theorem changedAmps_congr {S : Sys d m D} {a b : Amps} (h : SameAmps S a b) (c : Amps) :
    changedAmps S a c = changedAmps S b c := by
  classical
  unfold changedAmps
  congr 1
  apply Finset.filter_congr
  rintro ⟨k, j⟩ hkj
  rw [Finset.mem_product, Finset.mem_range, Finset.mem_range] at hkj
  simp only [h k j hkj.1 hkj.2]

theorem changedSlots_congr {S : Sys d m D} {a b : Amps} (h : SameAmps S a b) (c : Amps) :
    changedSlots S a c = changedSlots S b c := by
  classical
  unfold changedSlots
  congr 1
  apply Finset.filter_congr
  intro k hk
  rw [Finset.mem_range] at hk
  constructor <;> rintro ⟨j, hj, hne⟩ <;> refine ⟨j, hj, ?_⟩
  · rw [← h k j hk hj]; exact hne
  · rw [h k j hk hj]; exact hne

theorem KnownOK_fresh (S : Sys d m D) (t : Tally) :
    KnownOK S ⟨false, false, false, false, t⟩ {} := by
  unfold KnownOK
  cases S.fidKind <;> simp

theorem Tally.plus_assoc (a b c : Tally) : (a.plus b).plus c = a.plus (b.plus c) := by
  simp [Tally.plus, Nat.add_assoc]

theorem SameAmps.trans {S : Sys d m D} {a b c : Amps} (h1 : SameAmps S a b)
    (h2 : SameAmps S b c) : SameAmps S a c := fun k j hk hj => (h1 k j hk hj).trans (h2 k j hk hj)

/-- The counters after a history. -/
theorem run_tally {S : Sys d m D} (hn : Valid S)
    (junk : State d m D) (ops : List Op) : ∀ {s : State d m D} {a b : Amps} {kn : Known}, Inv S s →
    s.ctrlAmps = some b → SameAmps S b a → KnownOK S (view s) kn →
    Spec.tally (run S junk s ops).1 = (Spec.tally s).plus (expected S a kn ops) := by
  induction ops with
  | nil => intro s a b kn _ _ _ _; simp [run, expected, Tally.plus, Spec.tally]
  | cons op ops ih =>
    intro s a b kn hi hb hs hk
    show Spec.tally (run S junk (step S junk s op).1 ops).1 = _
    obtain ⟨h1, h2, h3⟩ := step_spec hn junk hi (A := some a) ⟨b, hb, hs⟩ op
    have query : IsQuery op → Spec.tally (run S junk (step S junk s op).1 ops).1 =
        (Spec.tally s).plus (Tally.plus
          { recomputes := charge (needsEvo S op) kn.evo
            fidelities := charge (needsFid S op) kn.fid
            gradients := charge (needsGrad S op) kn.grad }
          (expected S a ⟨kn.evo || needsEvo S op, kn.fid || needsFid S op,
            kn.grad || needsGrad S op⟩ ops)) := by
      intro hq
      have hv := step_query_view hn junk hi hb op hq
      obtain ⟨q1, q2⟩ := query_view S (view s) kn hk op hq
      rw [← hv] at q1 q2
      have hA : AmpsRel S (step S junk s op).1 (some a) := by
        cases op with
        | updateAmps _ => exact hq.elim
        | reinit _ => exact hq.elim
        | _ => exact h3
      obtain ⟨b', hb', hs'⟩ := hA
      rw [ih h2 hb' hs' q2, show Spec.tally (step S junk s op).1 = _ from q1, Tally.plus_assoc]
      rfl
    cases op with
    | updateAmps c =>
      rw [expected]
      show Spec.tally (run S junk (compareAmps S s c).1 ops).1 = _
      by_cases hch : changedAmps S b c = 0
      · rw [if_pos (by rw [← changedAmps_congr hs, hch])]
        have hch' : numChanged S b c = 0 := by rw [numChanged_eq, hch]
        rw [compareAmps_same hb hch']
        exact ih hi hb ((numChanged_eq_zero S b c).1 hch') hk
      · rw [if_neg (by rw [← changedAmps_congr hs]; exact hch)]
        have hch' : numChanged S b c ≠ 0 := by rw [numChanged_eq]; exact hch
        have h2' : Inv S (compareAmps S s c).1 := h2
        rw [compareAmps_changed hb hch'] at h2' ⊢
        rw [ih (a := c) (b := c) (kn := {}) h2' rfl (fun _ _ _ _ => rfl) (KnownOK_fresh S _),
          ← Tally.plus_assoc, ← changedAmps_congr hs, ← changedSlots_congr hs, ← numChanged_eq,
          ← numTslotsChanged_eq]
        rfl
    | reinit c =>
      rw [expected]
      show Spec.tally (run S junk (initControls S junk s c) ops).1 = _
      have h2' : Inv S (initControls S junk s c) := h2
      have hpos : S.nTs * S.nCtrls ≠ 0 := Nat.mul_ne_zero hn.slots.ne' hn.ctrls.ne'
      unfold initControls at h2' ⊢
      rw [compareAmps_none (by rfl)] at h2' ⊢
      rw [ih (a := c) (b := c) (kn := {}) h2' rfl (fun _ _ _ _ => rfl) (KnownOK_fresh S _),
        ← Tally.plus_assoc]
      simp only [if_pos hpos]
      rfl
    | computeEvolution => rw [expected]; exacts [query trivial, nofun, nofun]
    | getFidelity => rw [expected]; exacts [query trivial, nofun, nofun]
    | getFidErr => rw [expected]; exacts [query trivial, nofun, nofun]
    | getGradient => rw [expected]; exacts [query trivial, nofun, nofun]

end QTrl.Dyn
