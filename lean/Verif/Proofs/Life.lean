import Verif.Spec.Life
import Verif.Proofs.Machine

/-
Proofs for C82.
-/

namespace QTrl.Dyn

open QTrl.Spec

variable {d m D : Type} [Fintype d] [DecidableEq d] [Fintype m] [DecidableEq m]

theorem broadcasts_iff (a b : Arr) : a.broadcasts b = true ↔ Conform a b := by
  simp [Arr.broadcasts, Conform, or_assoc]

/-- The comparison finds a change exactly if compared entries differ. -/
theorem changes_iff (S : Sys d m D) {a b : Arr} (h : Conform a b) :
    numChanged (a.common S b) a.stretched b.stretched ≠ 0 ↔ Differ a b := by
  rw [Ne, numChanged_eq_zero]
  unfold SameAmps
  obtain ⟨hr, hc⟩ := h
  constructor
  · intro hn
    push Not at hn
    obtain ⟨k, j, hk, hj, hne⟩ := hn
    simp only [Arr.common, beq_iff_eq] at hk hj
    refine ⟨if a.rows == 1 then 0 else k, if b.rows == 1 then 0 else k,
      if a.cols == 1 then 0 else j, if b.cols == 1 then 0 else j, ?_, ?_, ?_, ?_, ?_, ?_, hne⟩
    · by_cases h1 : a.rows = 1
      · simp [h1]
      · rw [if_neg h1] at hk; simp [h1, hk]
    · by_cases h1 : b.rows = 1
      · simp [h1]
      · by_cases h2 : a.rows = 1
        · rw [if_pos h2] at hk; simp [h1, hk]
        · rw [if_neg h2] at hk
          have : a.rows = b.rows := by omega
          simp [h1]; omega
    · by_cases h1 : a.cols = 1
      · simp [h1]
      · rw [if_neg h1] at hj; simp [h1, hj]
    · by_cases h1 : b.cols = 1
      · simp [h1]
      · by_cases h2 : a.cols = 1
        · rw [if_pos h2] at hj; simp [h1, hj]
        · rw [if_neg h2] at hj
          have : a.cols = b.cols := by omega
          simp [h1]; omega
    · intro h1; rw [h1]
    · intro h1; rw [h1]
  · rintro ⟨k, k', j, j', hk, hk', hj, hj', er, ec, hne⟩ hs
    refine hne ?_
    have e := hs (if a.rows = 1 then k' else k) (if a.cols = 1 then j' else j) (by
      simp only [Arr.common, beq_iff_eq]; split <;> assumption) (by
      simp only [Arr.common, beq_iff_eq]; split <;> assumption)
    simp only [Arr.stretched, beq_iff_eq] at e
    have e1 : (if a.rows = 1 then 0 else if a.rows = 1 then k' else k) = k := by
      split_ifs <;> omega
    have e2 : (if a.cols = 1 then 0 else if a.cols = 1 then j' else j) = j := by
      split_ifs <;> omega
    have e3 : (if b.rows = 1 then 0 else if a.rows = 1 then k' else k) = k' := by
      split_ifs with h1 h2
      · omega
      · rfl
      · have := er (by omega); omega
    have e4 : (if b.cols = 1 then 0 else if a.cols = 1 then j' else j) = j' := by
      split_ifs with h1 h2
      · omega
      · rfl
      · have := ec (by omega); omega
    rw [e1, e2, e3, e4] at e
    exact e

/-- `S` and `a` are in place and every cache is right. -/
structure Holds (o : Obj d m D) (S : Sys d m D) (a : Arr) : Prop where
  sys : o.sys = S
  amps : o.st.ctrlAmps = some a.val
  rows : o.rows = a.rows
  cols : o.cols = a.cols
  inv : Inv S o.st
  idle : ¬ Covers S a → o.st.evoCurrent = false ∧ o.st.prenormCurrent = false ∧
    o.st.fidelityCurrent = false ∧ o.st.gradCurrent = false

/-- Taking an array into an object whose end points are right. -/
theorem holds_new {S : Sys d m D} {o : Obj d m D} {a : Arr} (hS : o.sys = S)
    (he : EndsOK S o.st) (ha : o.st.ctrlAmps = some a.val) (hr : o.rows = a.rows)
    (hc : o.cols = a.cols) (h1 : o.st.evoCurrent = false) (h2 : o.st.prenormCurrent = false)
    (h3 : o.st.fidelityCurrent = false) (h4 : o.st.gradCurrent = false) : Holds o S a := by
  refine ⟨hS, ha, hr, hc, ⟨he, ?_, ?_, ?_, ?_⟩, fun _ => ⟨h1, h2, h3, h4⟩⟩
  · intro h; rw [h1] at h; cases h
  · intro h; rw [h2] at h; cases h
  · intro h; rw [h3] at h; cases h
  · intro h; rw [h4] at h; cases h

theorem update_none {o : Obj d m D} (ha : o.st.ctrlAmps = none) (he : EndsOK o.sys o.st) (b : Arr) :
    Holds (o.update b).1 o.sys b ∧ (o.update b).2 = .ok false ∧
      (o.update b).1.ready = o.ready := by
  unfold Obj.update
  rw [ha]
  exact ⟨holds_new rfl ⟨he.fwd0, he.ontoN⟩ rfl rfl rfl rfl rfl rfl rfl, rfl, rfl⟩

theorem update_holds {o : Obj d m D} {S : Sys d m D} {a : Arr} (h : Holds o S a) (b : Arr) :
    Holds (o.update b).1 S (placed a b) ∧ Out.ofUnit (o.update b).2 = reply S a (.update b) ∧
      (o.update b).1.ready = o.ready := by
  have hold : (⟨o.rows, o.cols, a.val⟩ : Arr) = a := by rw [h.rows, h.cols]
  unfold Obj.update
  rw [h.amps]
  simp only [hold, reply]
  by_cases hb : Conform a b
  · rw [if_pos ((broadcasts_iff a b).2 hb), if_pos hb]
    by_cases hd : Differ a b
    · rw [if_pos ((changes_iff o.sys hb).2 hd)]
      have hp : placed a b = b := if_pos ⟨hb, hd⟩
      rw [hp]
      exact ⟨holds_new h.sys ⟨h.inv.ends.fwd0, h.inv.ends.ontoN⟩ rfl rfl rfl rfl rfl rfl rfl,
        rfl, rfl⟩
    · rw [if_neg fun hn => hd ((changes_iff o.sys hb).1 hn)]
      have hp : placed a b = a := if_neg fun hn => hd hn.2
      rw [hp]
      exact ⟨h, rfl, rfl⟩
  · rw [if_neg fun hn => hb ((broadcasts_iff a b).1 hn), if_neg hb]
    have hp : placed a b = a := if_neg fun hn => hb hn.1
    rw [hp]
    exact ⟨h, rfl, rfl⟩

/-- The evolution when there is an amplitude for every slot and control. -/
theorem evolve_covers {o : Obj d m D} {S : Sys d m D} {a : Arr} (hv : Valid S) (h : Holds o S a)
    (hc : Covers S a) : ∃ r o', o.evolve = (o', .ok r) ∧ Holds o' S a ∧ o'.ready = o.ready := by
  obtain rfl := h.sys
  obtain ⟨r, t, e, it, at', -⟩ := computeEvolution_some hv h.inv h.amps
  refine ⟨r, { o with st := t }, ?_, ⟨rfl, at', h.rows, h.cols, it, fun hn => absurd hc hn⟩, rfl⟩
  have hc' : o.sys.nTs ≤ o.rows ∧ o.sys.nCtrls ≤ o.cols := by rw [h.rows, h.cols]; exact hc
  unfold Obj.evolve
  rw [h.amps]
  cases hev : o.st.evoCurrent with
  | true => simp only [e]
  | false => simp only [if_pos hc', e]

/-- The evolution when an amplitude is missing. -/
theorem evolve_lacks {o : Obj d m D} {S : Sys d m D} {a : Arr} (h : Holds o S a)
    (hc : ¬ Covers S a) :
    ∃ o', o.evolve = (o', .error .indexError) ∧ Holds o' S a ∧ o'.ready = o.ready := by
  obtain ⟨h1, h2, h3, h4⟩ := h.idle hc
  have hc' : ¬ (o.sys.nTs ≤ o.rows ∧ o.sys.nCtrls ≤ o.cols) := by
    rw [h.sys, h.rows, h.cols]; exact hc
  unfold Obj.evolve
  rw [h.amps, h1]
  simp only [if_neg hc']
  refine ⟨_, rfl, ?_, rfl⟩
  obtain ⟨dg, pdg, dc, e, -⟩ := genLoop_form
    { o.sys with nTs := if o.sys.nCtrls ≤ o.cols then o.rows else 0 } a.val
    { o.st with numRecompute := o.st.numRecompute + 1, views := {} }
  rw [e]
  exact holds_new h.sys ⟨h.inv.ends.fwd0, h.inv.ends.ontoN⟩ h.amps h.rows h.cols h1 h2 h3 h4

/-- A request whose rest answers from the invariant. -/
theorem ask_holds {R : Type} {o : Obj d m D} {S : Sys d m D} {a : Arr} (hv : Valid S)
    (h : Holds o S a) {cached : Bool}
    {f : Sys d m D → State d m D → State d m D × Except PyErr R} {v : Except PyErr R}
    (hcached : ¬ Covers S a → cached = false)
    (hf : ∀ s, Inv S s → s.ctrlAmps = some a.val →
      ∃ t, f S s = (t, v) ∧ Inv S t ∧ t.ctrlAmps = some a.val) :
    (Covers S a → (o.ask cached f).2 = v) ∧
      (¬ Covers S a → (o.ask cached f).2 = .error .indexError) ∧
      Holds (o.ask cached f).1 S a ∧ (o.ask cached f).1.ready = o.ready := by
  have rest : ∀ o' : Obj d m D, Holds o' S a → Covers S a →
      (f o'.sys o'.st).2 = v ∧ Holds { o' with st := (f o'.sys o'.st).1 } S a := by
    intro o' h' hc
    obtain ⟨t, e, it, at'⟩ := hf o'.st h'.inv h'.amps
    have e' : f o'.sys o'.st = (t, v) := by rw [h'.sys]; exact e
    rw [e']
    exact ⟨rfl, ⟨h'.sys, at', h'.rows, h'.cols, it, fun hn => absurd hc hn⟩⟩
  unfold Obj.ask
  by_cases hc : Covers S a
  · cases cached with
    | true =>
      obtain ⟨e, h'⟩ := rest o h hc
      exact ⟨fun _ => e, fun hn => absurd hc hn, h', rfl⟩
    | false =>
      obtain ⟨r, o', e, h', hr⟩ := evolve_covers hv h hc
      obtain ⟨e2, h2⟩ := rest o' h' hc
      simp only [e, Bool.false_eq_true, if_false]
      exact ⟨fun _ => e2, fun hn => absurd hc hn, h2, hr⟩
  · rw [hcached hc]
    obtain ⟨o', e, h', hr⟩ := evolve_lacks h hc
    simp only [e, Bool.false_eq_true, if_false]
    exact ⟨fun h => absurd h hc, fun _ => trivial, h', hr⟩

/-- Every call that is no failing initialisation is answered for what is in place. -/
theorem call_holds {o : Obj d m D} {S : Sys d m D} {a : Arr} (hv : Valid S) (h : Holds o S a)
    (c : Call d m D) (hc : Succeed [c]) :
    (o.call c).2 = reply S a c ∧ Holds (o.call c).1 (inPlace S a c).1 (inPlace S a c).2 ∧
      Valid (inPlace S a c).1 ∧ (o.ready = true → (o.call c).1.ready = true) := by
  cases c with
  | update b =>
    obtain ⟨h1, h2, h3⟩ := update_holds h b
    exact ⟨h2, h1, hv, fun hr => h3.trans hr⟩
  | init S' junk b stop =>
    obtain ⟨hv', hs, -⟩ : Valid S' ∧ stop = .nowhere ∧ True := hc
    subst hs
    obtain ⟨h1, h2, h3⟩ := update_none
      (o := { o with sys := S', st := initEvo S' junk o.st, ready := true }) rfl
      ⟨by simp [initEvo], by simp [initEvo]⟩ b
    refine ⟨?_, h1, hv', fun _ => h3⟩
    exact congrArg Out.ofUnit h2
  | evolution =>
    by_cases hcv : Covers S a
    · obtain ⟨r, o', e, h', hr⟩ := evolve_covers hv h hcv
      simp only [Obj.call, e, reply, if_pos hcv]
      exact ⟨rfl, h', hv, fun h => hr.trans h⟩
    · obtain ⟨o', e, h', hr⟩ := evolve_lacks h hcv
      simp only [Obj.call, e, reply, if_neg hcv]
      exact ⟨rfl, h', hv, fun h => hr.trans h⟩
  | error =>
    obtain ⟨h1, h2, h3, h4⟩ := ask_holds (cached := match o.sys.fidKind with
      | .unitary => o.st.fidelityCurrent || o.st.prenormCurrent
      | .traceDiff => o.st.fidelityCurrent) (f := getFidErr) hv h (by
        intro hn
        obtain ⟨-, e2, e3, -⟩ := h.idle hn
        rw [e2, e3]; cases o.sys.fidKind <;> rfl)
      (fun s hi ha => getFidErr_some hv hi ha)
    refine ⟨?_, h3, hv, fun h => h4.trans h⟩
    by_cases hcv : Covers S a
    · simp only [reply, if_pos hcv]; exact congrArg Out.ofReal (h1 hcv)
    · simp only [reply, if_neg hcv]; exact congrArg Out.ofReal (h2 hcv)
  | gradient =>
    obtain ⟨h1, h2, h3, h4⟩ := ask_holds (cached := o.st.gradCurrent) (f := getGrad) hv h
      (fun hn => (h.idle hn).2.2.2) (fun s hi ha => getGrad_some hv hi ha)
    refine ⟨?_, h3, hv, fun h => h4.trans h⟩
    by_cases hcv : Covers S a
    · simp only [reply, if_pos hcv]; exact congrArg Out.ofArray (h1 hcv)
    · simp only [reply, if_neg hcv]; exact congrArg Out.ofArray (h2 hcv)

theorem outcomes_holds (l : List (Call d m D)) : ∀ {o : Obj d m D} {S : Sys d m D} {a : Arr},
    Valid S → Holds o S a → Succeed l → o.outcomes l = replies S a l := by
  induction l with
  | nil => intro o S a _ _ _; rfl
  | cons c l ih =>
    intro o S a hv h hs
    have hc : Succeed [c] ∧ Succeed l := by
      cases c with
      | init S' junk b stop => exact ⟨⟨hs.1, hs.2.1, trivial⟩, hs.2.2⟩
      | update b => exact ⟨trivial, hs⟩
      | evolution => exact ⟨trivial, hs⟩
      | error => exact ⟨trivial, hs⟩
      | gradient => exact ⟨trivial, hs⟩
    obtain ⟨h1, h2, h3, -⟩ := call_holds hv h c hc.1
    show (o.call c).2 :: (o.call c).1.outcomes l = reply S a c :: _
    rw [h1, ih h3 h2 hc.2]

theorem after_holds (l : List (Call d m D)) : ∀ {o : Obj d m D} {S : Sys d m D} {a : Arr},
    Valid S → Holds o S a → Succeed l →
    Holds (o.after l) (atEnd S a l).1 (atEnd S a l).2 ∧ Valid (atEnd S a l).1 := by
  induction l with
  | nil => intro o S a hv h _; exact ⟨h, hv⟩
  | cons c l ih =>
    intro o S a hv h hs
    have hc : Succeed [c] ∧ Succeed l := by
      cases c with
      | init S' junk b stop => exact ⟨⟨hs.1, hs.2.1, trivial⟩, hs.2.2⟩
      | update b => exact ⟨trivial, hs⟩
      | evolution => exact ⟨trivial, hs⟩
      | error => exact ⟨trivial, hs⟩
      | gradient => exact ⟨trivial, hs⟩
    obtain ⟨-, h2, h3, -⟩ := call_holds hv h c hc.1
    exact ih h3 h2 hc.2

theorem initialize_holds (o : Obj d m D) {S : Sys d m D} (junk : State d m D) (a : Arr) :
    Holds (o.initialize S junk a .nowhere).1 S a ∧
      (o.initialize S junk a .nowhere).1.ready = true := by
  obtain ⟨h1, -, h3⟩ := update_none
    (o := { o with sys := S, st := initEvo S junk o.st, ready := true }) rfl
    ⟨by simp [initEvo], by simp [initEvo]⟩ a
  exact ⟨h1, h3⟩

/-! ### Failed initialisations -/

/-- The value a current fidelity stands for. -/
def memo (k : FidKind) (s : State d m D) : ℝ :=
  match k with
  | .unitary => |1 - s.fidelity|
  | .traceDiff => s.fidErr

theorem getFidErr_memo {S : Sys d m D} {s t : State d m D} {x : ℝ}
    (h : getFidErr S s = (t, .ok x)) : t.fidelityCurrent = true ∧ memo S.fidKind t = x := by
  unfold getFidErr at h
  cases hk : S.fidKind with
  | unitary =>
    simp only [hk] at h
    unfold getFidelity at h
    by_cases hc : s.fidelityCurrent = true
    · rw [if_pos hc] at h
      simp only [Prod.mk.injEq, Except.ok.injEq] at h
      obtain ⟨rfl, rfl⟩ := h
      exact ⟨hc, rfl⟩
    · rw [if_neg hc] at h
      rcases hp : getPrenorm S s with ⟨u, e | f⟩
      · simp [hp] at h
      · simp only [hp] at h
        cases hf : fidNorm S f with
        | error e => simp [hf] at h
        | ok v =>
          simp only [hf, Prod.mk.injEq, Except.ok.injEq] at h
          obtain ⟨rfl, rfl⟩ := h
          exact ⟨rfl, rfl⟩
  | traceDiff =>
    simp only [hk] at h
    unfold getFidErrTD at h
    by_cases hc : s.fidelityCurrent = true
    · rw [if_pos hc] at h
      simp only [Prod.mk.injEq, Except.ok.injEq] at h
      obtain ⟨rfl, rfl⟩ := h
      exact ⟨hc, rfl⟩
    · rw [if_neg hc] at h
      rcases hp : computeEvolution S s with ⟨u, e | f⟩
      · simp [hp] at h
      · simp only [hp, Prod.mk.injEq, Except.ok.injEq] at h
        obtain ⟨rfl, rfl⟩ := h
        exact ⟨rfl, rfl⟩

theorem getFidErr_current_value (S : Sys d m D) (s : State d m D) (h : s.fidelityCurrent = true) :
    getFidErr S s = (s, .ok (memo S.fidKind s)) := by
  unfold getFidErr
  cases hk : S.fidKind with
  | unitary => simp only [getFidelity, if_pos h]; rfl
  | traceDiff => simp only [getFidErrTD, if_pos h]; rfl

theorem getGrad_current_value (S : Sys d m D) (s : State d m D) (h : s.gradCurrent = true) :
    getGrad S s = (s, .ok s.grad) := by
  unfold getGrad
  cases hk : S.fidKind with
  | unitary => simp only [getGradUnitary, if_pos h]
  | traceDiff => simp only [getGradTD, if_pos h]

theorem getGrad_memo {S : Sys d m D} {s t : State d m D} {g : Nat → Nat → ℝ}
    (h : getGrad S s = (t, .ok g)) : t.gradCurrent = true ∧ t.grad = g := by
  unfold getGrad at h
  cases hk : S.fidKind with
  | unitary =>
    simp only [hk] at h
    unfold getGradUnitary at h
    by_cases hc : s.gradCurrent = true
    · rw [if_pos hc] at h
      simp only [Prod.mk.injEq, Except.ok.injEq] at h
      obtain ⟨rfl, rfl⟩ := h
      exact ⟨hc, rfl⟩
    · rw [if_neg hc] at h
      rcases h1 : computeFidGrad S s with ⟨u1, e | g1⟩
      · simp [h1] at h
      · simp only [h1] at h
        rcases h2 : getFidelity S u1 with ⟨u2, e | f⟩
        · simp [h2] at h
        · simp only [h2] at h
          rcases h3 : getPrenorm S u2 with ⟨u3, e | q⟩
          · simp [h3] at h
          · simp only [h3, Prod.mk.injEq, Except.ok.injEq] at h
            obtain ⟨rfl, rfl⟩ := h
            exact ⟨rfl, rfl⟩
  | traceDiff =>
    simp only [hk] at h
    unfold getGradTD at h
    by_cases hc : s.gradCurrent = true
    · rw [if_pos hc] at h
      simp only [Prod.mk.injEq, Except.ok.injEq] at h
      obtain ⟨rfl, rfl⟩ := h
      exact ⟨hc, rfl⟩
    · rw [if_neg hc] at h
      rcases h1 : computeErrGradTD S s with ⟨u1, e | g1⟩
      · simp [h1] at h
      · simp only [h1, Prod.mk.injEq, Except.ok.injEq] at h
        obtain ⟨rfl, rfl⟩ := h
        exact ⟨rfl, rfl⟩

/-- A successful request leaves its value current. -/
theorem ask_ok {R : Type} {o : Obj d m D} {cached : Bool}
    {f : Sys d m D → State d m D → State d m D × Except PyErr R} {v : R}
    (h : (o.ask cached f).2 = .ok v) :
    ∃ s, f o.sys s = ((o.ask cached f).1.st, .ok v) ∧ (o.ask cached f).1.sys = o.sys ∧
      (o.ask cached f).1.ready = o.ready := by
  have sysE : o.evolve.1.sys = o.sys ∧ o.evolve.1.ready = o.ready := by
    unfold Obj.evolve
    split
    · split <;> exact ⟨rfl, rfl⟩
    · exact ⟨rfl, rfl⟩
  unfold Obj.ask at h ⊢
  cases cached with
  | true => exact ⟨o.st, Prod.ext rfl h, rfl, rfl⟩
  | false =>
    simp only [Bool.false_eq_true, if_false] at h ⊢
    rcases he : o.evolve with ⟨o', e | r⟩
    · simp [he] at h
    · rw [he] at sysE
      simp only [he] at h ⊢
      refine ⟨o'.st, Prod.ext ?_ ?_, sysE.1, sysE.2⟩
      · rw [← sysE.1]
      · rw [← sysE.1]; exact h

/-- The initialisation stops after it has forgotten the amplitudes. -/
inductive Midway (e : PyErr) : Stop → Prop
  | operators : Midway e (.operators e)
  | directory : Midway e (.directory e)

/-- What such an initialisation leaves. -/
theorem midway_keeps {e : PyErr} {stop : Stop} (h : Midway e stop) (o : Obj d m D)
    (S' : Sys d m D) (hk : S'.fidKind = o.sys.fidKind) (junk : State d m D) (b : Arr) :
    let o' := (o.initialize S' junk b stop).1
    (o.initialize S' junk b stop).2 = .error e ∧ o'.st.ctrlAmps = none ∧ o'.ready = o.ready ∧
      o'.sys.fidKind = o.sys.fidKind ∧ o'.st.evoCurrent = o.st.evoCurrent ∧
      o'.st.prenormCurrent = o.st.prenormCurrent ∧
      o'.st.fidelityCurrent = o.st.fidelityCurrent ∧ o'.st.gradCurrent = o.st.gradCurrent ∧
      memo o.sys.fidKind o'.st = memo o.sys.fidKind o.st ∧ o'.st.grad = o.st.grad := by
  cases h with
  | operators =>
    refine ⟨rfl, rfl, rfl, rfl, rfl, rfl, rfl, rfl, ?_, rfl⟩
    cases o.sys.fidKind <;> rfl
  | directory =>
    refine ⟨rfl, rfl, rfl, hk, rfl, rfl, rfl, rfl, ?_, rfl⟩
    cases o.sys.fidKind <;> rfl

/-- Without amplitudes and with nothing current every request raises `TypeError`. -/
theorem empty_calls {o : Obj d m D} (ha : o.st.ctrlAmps = none) (h1 : o.st.evoCurrent = false)
    (h2 : o.st.prenormCurrent = false) (h3 : o.st.fidelityCurrent = false)
    (h4 : o.st.gradCurrent = false) :
    (o.call .evolution).2 = .error .typeError ∧ (o.call .error).2 = .error .typeError ∧
      (o.call .gradient).2 = .error .typeError := by
  have he : o.evolve = ({ o with st :=
      { o.st with numRecompute := o.st.numRecompute + 1, views := {} } }, .error .typeError) := by
    unfold Obj.evolve
    rw [ha]
    simp only [computeEvolution, h1, ha, Bool.false_eq_true, if_false]
  refine ⟨?_, ?_, ?_⟩
  · simp only [Obj.call, he]; rfl
  · simp only [Obj.call, Obj.error, Obj.ask, he, h2, h3]
    cases o.sys.fidKind <;> rfl
  · simp only [Obj.call, Obj.gradient, Obj.ask, he, h4]; rfl

theorem outcomes_cons (o : Obj d m D) (c : Call d m D) (l : List (Call d m D)) :
    o.outcomes (c :: l) = (o.call c).2 :: (o.call c).1.outcomes l := rfl

theorem error_current {o : Obj d m D} (h : o.st.fidelityCurrent = true) :
    (o.call .error).2 = .real (memo o.sys.fidKind o.st) := by
  have e : o.error = (o, .ok (memo o.sys.fidKind o.st)) := by
    cases hk : o.sys.fidKind <;>
      simp only [Obj.error, Obj.ask, hk, h, Bool.true_or, if_true, getFidErr_current_value _ _ h]
  show Out.ofReal o.error.2 = _
  rw [e]
  rfl

theorem gradient_current {o : Obj d m D} (h : o.st.gradCurrent = true) :
    (o.call .gradient).2 = .array o.st.grad := by
  show Out.ofArray o.gradient.2 = _
  unfold Obj.gradient Obj.ask
  rw [if_pos h, getGrad_current_value _ _ h]
  rfl

end QTrl.Dyn
