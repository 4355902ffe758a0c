import Verif.Proofs.Flags
import Verif.Spec.Optimizer

/-
The calls of the minimiser are answered from the point they are made at.
-/

set_option linter.unusedSectionVars false

namespace QTrl.Opt

open QTrl.Dyn QTrl.Spec

variable {d m D : Type} [Fintype d] [DecidableEq d] [Fintype m] [DecidableEq m]

/-! ### Flattening -/

theorem flatten_length (n c : ℕ) (a : ℕ → ℕ → ℝ) : (flatten n c a).length = n * c := by
  simp [flatten, List.length_flatMap]

theorem flatten_succ (n c : ℕ) (a : ℕ → ℕ → ℝ) :
    flatten (n + 1) c a = flatten n c a ++ (List.range c).map fun j => a n j := by
  simp [flatten, List.range_succ]

theorem flatten_get (n c : ℕ) (a : ℕ → ℕ → ℝ) {k j : ℕ} (hk : k < n) (hj : j < c) :
    (flatten n c a)[k * c + j]? = some (a k j) := by
  induction n with
  | zero => omega
  | succ n ih =>
    rw [flatten_succ]
    by_cases h : k < n
    · have hlt : k * c + j < n * c :=
        calc k * c + j < k * c + c := by omega
          _ = (k + 1) * c := by ring
          _ ≤ n * c := Nat.mul_le_mul_right _ h
      rw [List.getElem?_append_left (by rw [flatten_length]; exact hlt)]
      exact ih h
    · have hkn : k = n := by omega
      subst hkn
      rw [List.getElem?_append_right (by rw [flatten_length]; omega), flatten_length]
      simp [hj]

theorem flatten_ofFn (n c : ℕ) (a : ℕ → ℕ → ℝ) :
    flatten n c a = List.ofFn fun i : Fin (n * c) => a (i / c) (i % c) := by
  apply List.ext_getElem?
  intro i
  by_cases h : i < n * c
  · have hc : 0 < c := by
      rcases Nat.eq_zero_or_pos c with rfl | h'
      · simp at h
      · exact h'
    have h1 : i / c < n := Nat.div_lt_of_lt_mul (by rwa [Nat.mul_comm] at h)
    have := flatten_get n c a h1 (Nat.mod_lt i hc)
    rw [Nat.div_add_mod' i c] at this
    rw [this, List.getElem?_ofFn, dif_pos h]
  · rw [List.getElem?_eq_none (by rw [flatten_length]; omega),
      List.getElem?_eq_none (by simp; omega)]

theorem normOf_eq (S : Sys d m D) (g : ℕ → ℕ → ℝ) : normOf S g = gradientNorm S g := by
  unfold normOf gradientNorm
  congr 1
  generalize S.nTs = n
  induction n with
  | zero => simp [flatten]
  | succ n ih =>
    rw [flatten_succ, List.map_append, List.sum_append, ih, Finset.sum_range_succ]
    congr 1
    generalize S.nCtrls = c
    induction c with
    | zero => simp
    | succ c ihc =>
      rw [List.range_succ, List.map_append, List.map_append, List.sum_append, ihc,
        Finset.sum_range_succ]
      simp

/-! ### Generators -/

/-- Everything but the coefficients. -/
def strip (gs : List Pulse.Crab) : List Pulse.Crab := gs.map fun g => { g with coeffs := none }

theorem distribute_strip (x : List ℝ) : ∀ (gs gs1 : List Pulse.Crab) (st : ℕ), strip gs = strip gs1 →
    Pulse.distribute x st gs = Pulse.distribute x st gs1 ∧
      ∀ r, Pulse.distribute x st gs = .ok r → strip r.1 = strip gs := by
  intro gs
  induction gs with
  | nil =>
    intro gs1 st h
    cases gs1 with
    | nil => exact ⟨rfl, fun r h => by injection h with h; subst h; rfl⟩
    | cons _ _ => simp [strip] at h
  | cons g gs ih =>
    intro gs1 st h
    cases gs1 with
    | nil => simp [strip] at h
    | cons g1 gs1 =>
      simp only [strip, List.map_cons, List.cons.injEq] at h
      obtain ⟨hg, hgs⟩ := h
      have key : ∀ a : Option Pulse.Arr2, ({ g with coeffs := a } : Pulse.Crab) = { g1 with coeffs := a } := by
        intro a
        have := congrArg (fun g : Pulse.Crab => ({ g with coeffs := a } : Pulse.Crab)) hg
        simpa using this
      have h1 : g.numOptimVars = g1.numOptimVars := by
        have := congrArg Pulse.Crab.numOptimVars (key none); exact this
      have h3 : g.numCoeffs = g1.numCoeffs := by
        have := congrArg Pulse.Crab.numCoeffs (key none); exact this
      have h4 : g.numBasis = g1.numBasis := by
        have := congrArg Pulse.Crab.numBasis (key none); exact this
      have h2 : g.setCoeffs ((x.drop st).take g.numOptimVars) =
          g1.setCoeffs ((x.drop st).take g1.numOptimVars) := by
        unfold Pulse.Crab.setCoeffs
        rw [h1, h3, h4]
        generalize Pulse.reshape _ _ _ = r
        cases r with
        | error e => rfl
        | ok a =>
          have := key (some a)
          rw [h1, h3, h4] at this
          exact congrArg Except.ok this
      have hset : ∀ g', g.setCoeffs ((x.drop st).take g.numOptimVars) = .ok g' →
          ({ g' with coeffs := none } : Pulse.Crab) = { g with coeffs := none } := by
        intro g' h'
        unfold Pulse.Crab.setCoeffs at h'
        split at h'
        · cases h'
        · injection h' with h'; subst h'; rfl
      obtain ⟨i1, i2⟩ := ih gs1 (st + g.numOptimVars) hgs
      unfold Pulse.distribute
      rw [← h2, ← h1, ← i1]
      refine ⟨rfl, ?_⟩
      intro r hr
      generalize g.setCoeffs ((x.drop st).take g.numOptimVars) = y at hr hset
      cases y with
      | error e => cases hr
      | ok g' =>
        simp only at hr
        split at hr
        · cases hr
        · split at hr
          · cases hr
          · rename_i gs' ps hd
            injection hr with hr
            subst hr
            simp only [strip, List.map_cons]
            rw [hset g' rfl]
            congr 1
            exact i2 _ hd

/-- The amplitudes do not depend on the coefficients left by earlier calls. -/
theorem getCtrlAmps_strip (S : Sys d m D) (v : VarKind) {gs gs0 : List Pulse.Crab}
    (h : strip gs = strip gs0) (x : List ℝ) :
    (getCtrlAmps S v gs x).map Prod.snd = ampsOf S v gs0 x ∧
      ∀ r, getCtrlAmps S v gs x = .ok r → strip r.1 = strip gs0 := by
  unfold ampsOf
  cases v with
  | grape =>
    unfold getCtrlAmps
    cases unflatten S.nTs S.nCtrls x with
    | error e => exact ⟨rfl, fun r h => by cases h⟩
    | ok a => exact ⟨rfl, fun r hr => by injection hr with hr; subst hr; exact h⟩
  | crab =>
    obtain ⟨h1, h2⟩ := distribute_strip x gs gs0 0 h
    simp only [getCtrlAmps, crabAmps]
    rw [← h1]
    refine ⟨rfl, ?_⟩
    intro r hr
    split at hr
    · cases hr
    · rename_i gs' ps hd
      split at hr
      · cases hr
      · injection hr with hr
        subst hr
        exact (h2 _ hd).trans h

/-! ### States of the optimiser -/

/-- The state of an optimiser whose dynamics have been initialised and used in any way; `a`
are the current amplitudes. -/
structure OInv (S : Sys d m D) (gs0 : List Pulse.Crab) (o : OState d m D) (a : Amps) : Prop where
  inv : Inv S o.dyn
  views : ViewInv S o.dyn
  flags : FlagInv o.dyn
  norm : o.dyn.gradCurrent = true → o.gradNorm = normOf S o.dyn.grad
  gens : strip o.gens = strip gs0
  amps : ∃ b, o.dyn.ctrlAmps = some b ∧ SameAmps S b a

/-- The error exists for all amplitudes or for none. -/
theorem fidErr_ok (S : Sys d m D) {a : Amps} {e : ℝ} (h : fidErr S a = .ok e) (b : Amps) :
    ∃ e', fidErr S b = .ok e' := by
  unfold fidErr at h ⊢
  cases hk : S.fidKind with
  | traceDiff => exact ⟨_, rfl⟩
  | unitary =>
    rw [hk] at h
    simp only at h ⊢
    unfold fidelity at h ⊢
    cases hp : S.phaseOpt <;> cases hq : S.isQobj <;> rw [hp, hq] at h
    all_goals first | exact ⟨_, rfl⟩ | cases h

/-- Updating the amplitudes of the dynamics. -/
theorem update_inv {S : Sys d m D} {gs0 : List Pulse.Crab} {o : OState d m D} {a0 : Amps}
    (h : OInv S gs0 o a0) (a : Amps) {gs : List Pulse.Crab} (hg : strip gs = strip gs0) (nf ni ng : ℕ) :
    OInv S gs0 ⟨(compareAmps S o.dyn a).1, o.gradNorm, gs, ni, nf, ng⟩ a := by
  obtain ⟨h1, h2⟩ := compareAmps_amps h.inv a
  obtain ⟨h3, h4⟩ := compareAmps_flags S o.dyn a
  refine ⟨h1, step_viewInv o.dyn h.views (.updateAmps a), h3 h.flags, ?_, hg, h2⟩
  dsimp only
  intro hc
  rcases h4 with h4 | h4
  · rw [h4] at hc ⊢; exact h.norm hc
  · rw [h4] at hc; cases hc

/-- Computing the error. -/
theorem getFidErr_inv {S : Sys d m D} (hS : Valid S) {gs0 : List Pulse.Crab} {o : OState d m D}
    {a : Amps} (h : OInv S gs0 o a) :
    ∃ t, getFidErr S o.dyn = (t, fidErr S a) ∧ OInv S gs0 { o with dyn := t } a ∧
      (∀ e, fidErr S a = .ok e → t.evoCurrent = true) ∧ t.gradCurrent = o.dyn.gradCurrent := by
  obtain ⟨b, hb, hs⟩ := h.amps
  obtain ⟨t, e, it, at'⟩ := getFidErr_some hS h.inv hb
  rw [fidErr_congr hs] at e
  have hk := getFidErr_keeps S o.dyn
  have hv := h.views.evolves (getFidErr_evolves S o.dyn)
  rw [e] at hk hv
  refine ⟨t, e, ⟨it, hv, hk.flags h.flags, ?_, h.gens, b, at', hs⟩, ?_, hk.gradCurrent⟩
  · intro hc
    rw [hk.gradCurrent] at hc
    show o.gradNorm = normOf S t.grad
    rw [hk.grad]
    exact h.norm hc
  · intro err herr
    rw [herr] at e
    exact getFidErr_current S o.dyn h.flags e

/-- Computing the gradient. -/
theorem getGradNorm_inv {S : Sys d m D} (hS : Valid S) {gs0 : List Pulse.Crab} {o : OState d m D}
    {a : Amps} (h : OInv S gs0 o a) :
    ∃ t gn, getGradNorm S o.dyn o.gradNorm = (t, gn, gradient S a) ∧
      OInv S gs0 { o with dyn := t, gradNorm := gn } a ∧
      (∀ g, gradient S a = .ok g → gn = normOf S g ∧ t.gradCurrent = true) := by
  obtain ⟨b, hb, hs⟩ := h.amps
  obtain ⟨t, e, it, at'⟩ := getGrad_some hS h.inv hb
  rw [gradient_congr hs] at e
  obtain ⟨f1, f2, f3, f4⟩ := getGrad_flags S o.dyn
  have hv := h.views.evolves (getGrad_evolves S o.dyn)
  rw [e] at f1 hv
  unfold getGradNorm
  cases hg : gradient S a with
  | error err =>
    rw [hg] at e
    obtain ⟨c1, c2⟩ := f3 t err e
    refine ⟨t, o.gradNorm, by rw [e], ⟨it, hv, f1 h.flags, ?_, h.gens, b, at', hs⟩, ?_⟩
    · intro hc
      dsimp only at hc
      rw [c2] at hc; cases hc
    · intro g hg'; cases hg'
  | ok g =>
    rw [hg] at e
    obtain ⟨c1, c2⟩ := f2 t g e
    have hn : (if o.dyn.gradCurrent then o.gradNorm else normOf S g) = normOf S g := by
      split
      · rename_i hc
        rw [h.norm hc]
        rw [f4 hc] at e
        injection e with _ e
        injection e with e
        rw [e]
      · rfl
    refine ⟨t, normOf S g, by rw [e]; dsimp only; rw [hn], ⟨it, hv, f1 h.flags, ?_, h.gens, b, at', hs⟩, ?_⟩
    · intro _
      show normOf S g = normOf S t.grad
      rw [c2]
    · intro g' hg'
      injection hg' with hg'
      subst hg'
      exact ⟨rfl, c1⟩

/-- Reading the full evolution. -/
theorem readFull_inv {S : Sys d m D} {gs0 : List Pulse.Crab} {o : OState d m D}
    {a : Amps} (h : OInv S gs0 o a) (hc : o.dyn.evoCurrent = true) :
    (readFull S o.dyn).2 = some (final S a) ∧ OInv S gs0 { o with dyn := (readFull S o.dyn).1 } a := by
  obtain ⟨b, hb, hs⟩ := h.amps
  obtain ⟨r1, r2, r3⟩ := readFwd_spec h.views h.inv.ends
  obtain ⟨i1, i2⟩ := h.inv.onlyViews r1
  obtain ⟨f1, f2, f3, f4, f5⟩ := r1.sameFlags
  obtain ⟨b', hb', ho⟩ := h.inv.evo hc
  rw [hb] at hb'
  cases hb'
  refine ⟨?_, i1, r2, r1.sameFlags.keeps.flags h.flags, ?_, h.gens, b, ?_, hs⟩
  · unfold readFull
    rw [r3 hc]
    simp only [Option.map_some]
    rw [ho.fwd _ (Nat.le_refl _), ← final_congr hs]
    rfl
  · intro hg
    show o.gradNorm = normOf S (readFwd S o.dyn).1.grad
    rw [f5]
    exact h.norm (by rw [← f4]; exact hg)
  · exact i2.trans hb

/-! ### Calls -/

/-- Whether the stored gradient norm belongs to the current amplitudes. -/
def NormKnown (S : Sys d m D) (o : OState d m D) (a : Amps) : Prop :=
  ∃ g, gradient S a = .ok g ∧ o.gradNorm = gradientNorm S g

/-- The amplitudes after one call. -/
theorem ampsAfter_single (S : Sys d m D) (v : VarKind) (gs : List Pulse.Crab) (a : Amps)
    (c : Call) (cs : List Call) :
    ampsAfter S v gs a (c :: cs) = ampsAfter S v gs (ampsAfter S v gs a [c]) cs := by
  cases c <;> rfl

theorem ampsAfter_append (S : Sys d m D) (v : VarKind) (gs : List Pulse.Crab) (a : Amps)
    (cs ds : List Call) :
    ampsAfter S v gs a (cs ++ ds) = ampsAfter S v gs (ampsAfter S v gs a cs) ds := by
  induction cs generalizing a with
  | nil => rfl
  | cons c cs ih =>
    rw [List.cons_append, ampsAfter_single, ih, ampsAfter_single S v gs a c cs]

/-- One call. -/
theorem call_spec {S : Sys d m D} (hS : Valid S) (v : VarKind) (tc : TermConds) (start : ℝ)
    {gs0 : List Pulse.Crab} {o : OState d m D} {a : Amps} (h : OInv S gs0 o a) (c : Call) :
    ∃ o' out, call S v tc start o c = (o', out) ∧
      OInv S gs0 o' (ampsAfter S v gs0 a [c]) ∧
      o'.numFid = o.numFid + funcCount [c] ∧ o'.numIter = o.numIter + iterCount [c] ∧
      (match verdict S v gs0 tc start (o.numFid + funcCount [c]) c with
        | some r => out = .error r
        | none => ∃ rep, out = .ok rep ∧ replyFor S v gs0 c = .ok rep) ∧
      (∀ x, c = .grad x → (∀ e, out ≠ .error (.error e)) →
        NormKnown S o' (ampsAfter S v gs0 a [c])) := by
  cases c with
  | iter t =>
    have hi : OInv S gs0 { o with numIter := o.numIter + 1 } a :=
      ⟨h.inv, h.views, h.flags, h.norm, h.gens, h.amps⟩
    by_cases hw : t - start > tc.maxWallTime
    · refine ⟨{ o with numIter := o.numIter + 1 }, .error (.term .wallTime), by
        simp only [call, iterCallback, if_pos hw], hi, rfl, rfl, by simp only [verdict, if_pos hw],
        fun x hx => by cases hx⟩
    · refine ⟨{ o with numIter := o.numIter + 1 }, .ok .none, by
        simp only [call, iterCallback, if_neg hw], hi, rfl, rfl, ?_, fun x hx => by cases hx⟩
      simp only [verdict, if_neg hw]
      exact ⟨_, rfl, rfl⟩
  | func x =>
    obtain ⟨hx1, hx2⟩ := getCtrlAmps_strip S v h.gens x
    simp only [call, funcWrapper]
    cases hx : getCtrlAmps S v o.gens x with
    | error e =>
      rw [hx] at hx1
      have hx1 : ampsOf S v gs0 x = .error e := hx1.symm
      refine ⟨_, _, rfl, ?_, rfl, rfl, ?_, fun x hx => by cases hx⟩
      · simp only [ampsAfter, hx1]
        exact ⟨h.inv, h.views, h.flags, h.norm, h.gens, h.amps⟩
      · simp only [verdict, hx1]
    | ok r =>
      obtain ⟨gs, a1⟩ := r
      rw [hx] at hx1
      have hx1 : ampsOf S v gs0 x = .ok a1 := hx1.symm
      have hu := update_inv h a1 (hx2 _ hx) (o.numFid + 1) o.numIter o.numGrad
      obtain ⟨t, et, ht, _, _⟩ := getFidErr_inv hS hu
      dsimp only at et ht ⊢
      rw [et]
      have ha : ampsAfter S v gs0 a [.func x] = a1 := by
        simp only [ampsAfter, hx1]; rfl
      rw [ha]
      simp only [verdict, hx1, replyFor]
      cases hf : fidErr S a1 with
      | error e => exact ⟨_, _, rfl, ht, rfl, rfl, rfl, fun x hx => by cases hx⟩
      | ok err =>
        dsimp only
        have hcount : funcCount [Call.func x] = 1 := rfl
        rw [hcount]
        by_cases hg : err ≤ tc.fidErrTarg
        · simp only [if_pos hg]
          exact ⟨_, _, rfl, ht, rfl, rfl, rfl, fun x hx => by cases hx⟩
        · by_cases hn : ((o.numFid + 1 : ℕ) : ℝ) > tc.maxFidCalls
          · simp only [if_neg hg, if_pos hn]
            exact ⟨_, _, rfl, ht, rfl, rfl, rfl, fun x hx => by cases hx⟩
          · simp only [if_neg hg, if_neg hn]
            exact ⟨_, _, rfl, ht, rfl, rfl, ⟨_, rfl, rfl⟩, fun x hx => by cases hx⟩
  | grad x =>
    obtain ⟨hx1, hx2⟩ := getCtrlAmps_strip S v h.gens x
    simp only [call, gradWrapper]
    cases hx : getCtrlAmps S v o.gens x with
    | error e =>
      rw [hx] at hx1
      have hx1 : ampsOf S v gs0 x = .error e := hx1.symm
      refine ⟨_, _, rfl, ?_, rfl, rfl, ?_, fun x _ hne => absurd rfl (hne e)⟩
      · simp only [ampsAfter, hx1]
        exact ⟨h.inv, h.views, h.flags, h.norm, h.gens, h.amps⟩
      · simp only [verdict, hx1]
    | ok r =>
      obtain ⟨gs, a1⟩ := r
      rw [hx] at hx1
      have hx1 : ampsOf S v gs0 x = .ok a1 := hx1.symm
      have hu := update_inv h a1 (hx2 _ hx) o.numFid o.numIter (o.numGrad + 1)
      obtain ⟨t, gn, et, ht, hgn⟩ := getGradNorm_inv hS hu
      dsimp only at et ht ⊢
      rw [et]
      have ha : ampsAfter S v gs0 a [.grad x] = a1 := by
        simp only [ampsAfter, hx1]; rfl
      rw [ha]
      simp only [verdict, hx1, replyFor]
      cases hg : gradient S a1 with
      | error e => exact ⟨_, _, rfl, ht, rfl, rfl, rfl, fun x _ hne => absurd rfl (hne e)⟩
      | ok g =>
        obtain ⟨rfl, _⟩ := hgn g hg
        rw [normOf_eq] at ht ⊢
        dsimp only
        by_cases hm : gradientNorm S g < tc.minGradNorm
        · simp only [if_pos hm]
          exact ⟨_, _, rfl, ht, rfl, rfl, rfl, fun x _ _ => ⟨g, hg, rfl⟩⟩
        · simp only [if_neg hm]
          refine ⟨_, _, rfl, ht, rfl, rfl, ⟨_, rfl, ?_⟩, fun x _ _ => ⟨g, hg, rfl⟩⟩
          simp only [Except.map]
          rw [flatten_ofFn]

theorem funcCount_append (cs ds : List Call) : funcCount (cs ++ ds) = funcCount cs + funcCount ds := by
  induction cs with
  | nil => simp [funcCount]
  | cons c cs ih => cases c <;> simp only [List.cons_append, funcCount, ih] <;> omega

theorem iterCount_append (cs ds : List Call) : iterCount (cs ++ ds) = iterCount cs + iterCount ds := by
  induction cs with
  | nil => simp [iterCount]
  | cons c cs ih => cases c <;> simp only [List.cons_append, iterCount, ih] <;> omega

/-- A list of calls none of which ends the run, after `done` have been made. -/
def QuietFrom (S : Sys d m D) (v : VarKind) (gs : List Pulse.Crab) (tc : TermConds) (start : ℝ)
    (nf : ℕ) (cs : List Call) : Prop :=
  ∀ p c q, cs = p ++ c :: q → verdict S v gs tc start (nf + funcCount (p ++ [c])) c = none

theorem QuietFrom.head {S : Sys d m D} {v : VarKind} {gs : List Pulse.Crab} {tc : TermConds}
    {start : ℝ} {nf : ℕ} {c : Call} {cs : List Call} (h : QuietFrom S v gs tc start nf (c :: cs)) :
    verdict S v gs tc start (nf + funcCount [c]) c = none := h [] c cs rfl

theorem QuietFrom.tail {S : Sys d m D} {v : VarKind} {gs : List Pulse.Crab} {tc : TermConds}
    {start : ℝ} {nf : ℕ} {c : Call} {cs : List Call} (h : QuietFrom S v gs tc start nf (c :: cs)) :
    QuietFrom S v gs tc start (nf + funcCount [c]) cs := by
  intro p c' q hq
  have := h (c :: p) c' q (by rw [hq]; rfl)
  rw [List.cons_append, show c :: (p ++ [c']) = [c] ++ (p ++ [c']) from rfl, funcCount_append,
    ← Nat.add_assoc] at this
  exact this

/-- A run of calls that does not end: every call is answered from its point. -/
theorem calls_quiet {S : Sys d m D} (hS : Valid S) (v : VarKind) (tc : TermConds) (start : ℝ)
    {gs0 : List Pulse.Crab} (cs : List Call) : ∀ {o : OState d m D} {a : Amps}, OInv S gs0 o a →
    QuietFrom S v gs0 tc start o.numFid cs →
    ∃ o' rs, calls S v tc start o cs = (o', rs, none) ∧ OInv S gs0 o' (ampsAfter S v gs0 a cs) ∧
      o'.numFid = o.numFid + funcCount cs ∧ o'.numIter = o.numIter + iterCount cs ∧
      List.Forall₂ (fun c r => replyFor S v gs0 c = .ok r) cs rs ∧
      (∀ x pre, cs = pre ++ [.grad x] → NormKnown S o' (ampsAfter S v gs0 a cs)) := by
  induction cs with
  | nil =>
    intro o a h _
    exact ⟨o, [], rfl, h, rfl, rfl, .nil, fun x pre hp => by simp at hp⟩
  | cons c cs ih =>
    intro o a h hq
    obtain ⟨o1, out, e1, i1, n1, m1, v1, k1⟩ := call_spec hS v tc start h c
    rw [hq.head] at v1
    obtain ⟨rep, rfl, hrep⟩ := v1
    have hq' := hq.tail
    rw [← n1] at hq'
    obtain ⟨o2, rs, e2, i2, n2, m2, r2, k2⟩ := ih i1 hq'
    refine ⟨o2, rep :: rs, ?_, ?_, ?_, ?_, .cons hrep r2, ?_⟩
    · simp only [calls, e1, e2]
    · rw [ampsAfter_single]; exact i2
    · rw [n2, n1, show c :: cs = [c] ++ cs from rfl, funcCount_append]; omega
    · rw [m2, m1, show c :: cs = [c] ++ cs from rfl, iterCount_append]; omega
    · intro x pre hp
      rw [ampsAfter_single]
      cases pre with
      | nil =>
        simp only [List.nil_append, List.cons.injEq] at hp
        obtain ⟨rfl, rfl⟩ := hp
        injection e2 with e2
        subst e2
        exact k1 x rfl (by intro e he; cases he)
      | cons c' pre =>
        simp only [List.cons_append, List.cons.injEq] at hp
        obtain ⟨rfl, rfl⟩ := hp
        exact k2 x pre rfl

/-- A run that ends at a call. -/
theorem calls_stop {S : Sys d m D} (hS : Valid S) (v : VarKind) (tc : TermConds) (start : ℝ)
    {gs0 : List Pulse.Crab} (pre : List Call) (c : Call) (post : List Call) (r : Raised) :
    ∀ {o : OState d m D} {a : Amps}, OInv S gs0 o a →
    QuietFrom S v gs0 tc start o.numFid pre →
    verdict S v gs0 tc start (o.numFid + funcCount (pre ++ [c])) c = some r →
    ∃ o' rs, calls S v tc start o (pre ++ c :: post) = (o', rs, some r) ∧
      OInv S gs0 o' (ampsAfter S v gs0 a (pre ++ [c])) ∧
      o'.numFid = o.numFid + funcCount (pre ++ [c]) ∧
      o'.numIter = o.numIter + iterCount (pre ++ [c]) ∧
      List.Forall₂ (fun c r => replyFor S v gs0 c = .ok r) pre rs ∧
      (∀ x, c = .grad x → (∀ e, r ≠ .error e) → NormKnown S o' (ampsAfter S v gs0 a (pre ++ [c]))) := by
  induction pre with
  | nil =>
    intro o a h _ hv
    obtain ⟨o1, out, e1, i1, n1, m1, v1, k1⟩ := call_spec hS v tc start h c
    rw [List.nil_append] at hv
    rw [hv] at v1
    subst v1
    refine ⟨o1, [], ?_, i1, n1, m1, .nil, ?_⟩
    · simp only [List.nil_append, calls, e1]
    · intro x hx hne
      refine k1 x hx ?_
      intro e he
      injection he with he
      exact hne e he
  | cons c' pre ih =>
    intro o a h hq hv
    obtain ⟨o1, out, e1, i1, n1, m1, v1, k1⟩ := call_spec hS v tc start h c'
    rw [hq.head] at v1
    obtain ⟨rep, rfl, hrep⟩ := v1
    have hq' := hq.tail
    rw [← n1] at hq'
    have hcons : funcCount (c' :: (pre ++ [c])) = funcCount [c'] + funcCount (pre ++ [c]) :=
      funcCount_append [c'] (pre ++ [c])
    have hconsi : iterCount (c' :: (pre ++ [c])) = iterCount [c'] + iterCount (pre ++ [c]) :=
      iterCount_append [c'] (pre ++ [c])
    rw [List.cons_append, hcons, ← Nat.add_assoc, ← n1] at hv
    obtain ⟨o2, rs, e2, i2, n2, m2, r2, k2⟩ := ih i1 hq' hv
    refine ⟨o2, rep :: rs, ?_, ?_, ?_, ?_, .cons hrep r2, ?_⟩
    · simp only [List.cons_append, calls, e1, e2]
    · rw [List.cons_append, ampsAfter_single]; exact i2
    · rw [n2, n1, List.cons_append, hcons]; omega
    · rw [m2, m1, List.cons_append, hconsi]; omega
    · intro x hx hne
      rw [List.cons_append, ampsAfter_single]
      exact k2 x hx hne

end QTrl.Opt
