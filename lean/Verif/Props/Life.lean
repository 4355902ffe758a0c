import Verif.Proofs.Life
import Verif.Props.TDApprox

/-
C82: requests are answered for the system and amplitudes in place, or refused.
-/

set_option linter.unusedSectionVars false

namespace QTrl.Dyn

open QTrl.Spec

variable {d m D : Type} [Fintype d] [DecidableEq d] [Fintype m] [DecidableEq m]

/-- **C82 (partial).** Whatever happened to the object before, including failed initialisations:
after a successful initialisation, and through any calls with arrays of any shape and further
successful initialisations, every request is answered for the system and the array in place, or
refused with `IndexError` when that array lacks an amplitude of a slot and control; an update that
cannot be compared with the array in place is refused with `ValueError` and changes nothing.
Missing: arrays of a wrong shape are not refused when they are supplied (`C82_violated_shape`), and
failed initialisations are not noticed (`C82_violated_stale`). -/
theorem C82_partial {S : Sys d m D} (hv : Valid S) (o : Obj d m D) (junk : State d m D) (a : Arr)
    {l : List (Call d m D)} (hl : Succeed l) :
    o.outcomes (.init S junk a .nowhere :: l) = .none :: replies S a l := by
  obtain ⟨h1, -⟩ := initialize_holds o (S := S) junk a
  obtain ⟨-, h2, -⟩ := update_none
    (o := { o with sys := S, st := initEvo S junk o.st, ready := true }) rfl
    ⟨by simp [initEvo], by simp [initEvo]⟩ a
  have h3 : Out.ofUnit (o.initialize S junk a .nowhere).2 = .none := congrArg Out.ofUnit h2
  show Out.ofUnit (o.initialize S junk a .nowhere).2 ::
    (o.initialize S junk a .nowhere).1.outcomes l = _
  rw [h3, outcomes_holds l hv h1 hl]

/-- Three calls: a wrong array, an array that cannot be compared, and a right one. -/
example : Valid twoSlots ∧ Succeed [Call.update (d := Fin 1 ⊕ Fin 1) (m := Fin 1 ⊕ Fin 1) (D := Unit)
      ⟨1, 1, fun _ _ => 2⟩, .error, .update ⟨3, 4, fun _ _ => 2⟩, .update ⟨2, 1, fun _ _ => 3⟩,
      .gradient] ∧
    ¬ Covers twoSlots ⟨1, 1, fun _ _ => 2⟩ ∧ Covers twoSlots ⟨2, 1, fun _ _ => 3⟩ ∧
    ¬ Conform ⟨2, 1, fun _ _ => 1⟩ ⟨3, 4, fun _ _ => 2⟩ ∧
    Differ ⟨2, 1, fun _ _ => 1⟩ ⟨1, 1, fun _ _ => 2⟩ :=
  ⟨twoSlots_valid 1, trivial, by simp [Covers, twoSlotsOf], by simp [Covers, twoSlotsOf],
    by simp [Conform], 0, 0, 0, 0, by simp⟩

theorem failed_replies {S : Sys d m D} (hv : Valid S) {o : Obj d m D} {a : Arr}
    (ho : Holds o S a) (S' : Sys d m D) (hv' : Valid S') (junk : State d m D) (b c : Arr)
    (e : PyErr) {l : List (Call d m D)} (hl : Succeed l) :
    o.outcomes (.init S' junk b .computers :: l) = .error .usageError :: replies S a l ∧
    o.outcomes (.init S' junk b (.operators e) :: .update c :: l) =
      .error e :: .none :: replies S c l ∧
    o.outcomes (.init S' junk b (.directory e) :: .update c :: l) =
      .error e :: .none ::
        replies { S' with dimNorm := S.dimNorm, scale := S.scale } c l := by
  obtain rfl := ho.sys
  refine ⟨?_, ?_, ?_⟩
  · show Out.error .usageError :: o.outcomes l = _
    rw [outcomes_holds l hv ho hl]
  · obtain ⟨h1, h2, -⟩ := update_none (o := { o with st := { o.st with ctrlAmps := none } }) rfl
      ⟨ho.inv.ends.fwd0, ho.inv.ends.ontoN⟩ c
    have hcall : o.call (.init S' junk b (.operators e)) =
        ({ o with st := { o.st with ctrlAmps := none } }, .error e) := rfl
    rw [outcomes_cons, hcall, outcomes_cons]
    refine congrArg₂ _ rfl (congrArg₂ _ ?_ (outcomes_holds l hv h1 hl))
    exact congrArg Out.ofUnit h2
  · obtain ⟨h1, h2, -⟩ := update_none (o := { o with
        sys := { S' with dimNorm := o.sys.dimNorm, scale := o.sys.scale }
        st := initEvo S' junk o.st }) rfl ⟨by simp [initEvo], by simp [initEvo]⟩ c
    have hcall : o.call (.init S' junk b (.directory e)) = ({ o with
        sys := { S' with dimNorm := o.sys.dimNorm, scale := o.sys.scale }
        st := initEvo S' junk o.st }, .error e) := rfl
    rw [outcomes_cons, hcall, outcomes_cons]
    refine congrArg₂ _ rfl (congrArg₂ _ ?_ (outcomes_holds l ⟨hv'.slots, hv'.ctrls, hv'.phasedCtrl⟩ h1 hl))
    exact congrArg Out.ofUnit h2

/-- **C82 (partial).** An initialisation that fails because a computer is missing leaves the object
as it was.  One that fails later leaves an object that, after an update with any array, answers
again for the array and a definite system: the old one if an operator was unsuitable, the new one
(with the normalisation of the old one) if the dump directory could not be created. -/
theorem C82_failed_partial {S0 : Sys d m D} (hv : Valid S0) (o : Obj d m D) (junk : State d m D)
    (a0 : Arr) {before : List (Call d m D)} (hb : Succeed before) (S' : Sys d m D)
    (hv' : Valid S') (b c : Arr) (e : PyErr) {l : List (Call d m D)} (hl : Succeed l) :
    let o' := o.after (.init S0 junk a0 .nowhere :: before)
    let S := (atEnd S0 a0 before).1
    let a := (atEnd S0 a0 before).2
    o'.outcomes (.init S' junk b .computers :: l) = .error .usageError :: replies S a l ∧
    o'.outcomes (.init S' junk b (.operators e) :: .update c :: l) =
      .error e :: .none :: replies S c l ∧
    o'.outcomes (.init S' junk b (.directory e) :: .update c :: l) =
      .error e :: .none ::
        replies { S' with dimNorm := S.dimNorm, scale := S.scale } c l := by
  obtain ⟨h1, h2⟩ := after_holds before hv (initialize_holds o (S := S0) junk a0).1 hb
  exact failed_replies h2 h1 S' hv' junk b c e hl

example : Valid twoSlots ∧ Valid (twoSlotsOf 2) ∧
    Succeed [Call.update (d := Fin 1 ⊕ Fin 1) (m := Fin 1 ⊕ Fin 1) (D := Unit)
      ⟨1, 1, fun _ _ => 2⟩, .error] := ⟨twoSlots_valid 1, twoSlots_valid 2, trivial⟩

/-- **C82 (partial).** If nothing was requested between an initialisation (or a changing update)
and an initialisation that fails midway, every request is refused with `TypeError`. -/
theorem C82_unasked_partial {S S' : Sys d m D} (hk : S'.fidKind = S.fidKind) (o : Obj d m D)
    (junk : State d m D) (a b : Arr) {e : PyErr} {stop : Stop} (hs : Midway e stop) :
    let o' := o.after [.init S junk a .nowhere, .init S' junk b stop]
    (o'.call .evolution).2 = .error .typeError ∧ (o'.call .error).2 = .error .typeError ∧
      (o'.call .gradient).2 = .error .typeError := by
  obtain ⟨-, h1, -, -, h2, h3, h4, h5, -⟩ := midway_keeps hs
    (o.initialize S junk a .nowhere).1 S' hk junk b
  exact empty_calls h1 h2 h3 h4 h5

example : (twoSlotsOf 2).fidKind = twoSlots.fidKind ∧
    Midway .runtimeError (.directory .runtimeError) := ⟨rfl, .directory⟩

theorem ready_evolve (o : Obj d m D) : o.evolve.1.ready = o.ready := by
  unfold Obj.evolve
  split
  · split <;> rfl
  · rfl

theorem ready_ask {R : Type} (o : Obj d m D) (cached : Bool)
    (f : Sys d m D → State d m D → State d m D × Except PyErr R) :
    (o.ask cached f).1.ready = o.ready := by
  unfold Obj.ask
  split
  · rfl
  · have h := ready_evolve o
    split <;> rename_i he <;> rw [he] at h <;> exact h

theorem ready_update (o : Obj d m D) (a : Arr) : (o.update a).1.ready = o.ready := by
  unfold Obj.update
  split
  · rfl
  · simp only
    split
    · split <;> rfl
    · rfl

/-- **C82.** The check before an optimisation and before amplitudes are saved: an object passes it
exactly if it passed before or some initialisation among the calls succeeded, and is refused with
`UsageError` otherwise.  Updates, requests and failed initialisations do not matter. -/
theorem C82_check (o : Obj d m D) (l : List (Call d m D)) :
    let inits := o.check = .ok () ∨ ∃ S junk a, Call.init S junk a .nowhere ∈ l
    (inits → (o.after l).check = .ok ()) ∧ (¬ inits → (o.after l).check = .error .usageError) := by
  have h1 : ∀ p : Obj d m D, p.check = .ok () ↔ p.ready = true := by
    intro p
    unfold Obj.check
    cases p.ready <;> simp
  have h2 : ∀ p : Obj d m D, p.check = .error .usageError ↔ p.ready = false := by
    intro p
    unfold Obj.check
    cases p.ready <;> simp
  have key : (o.after l).ready = true ↔
      o.ready = true ∨ ∃ S junk a, Call.init S junk a .nowhere ∈ l := by
    induction l generalizing o with
    | nil => simp [Obj.after]
    | cons c l ih =>
      show ((o.call c).1.after l).ready = true ↔ _
      rw [ih]
      have same : ∀ (p : Prop), (o.call c).1.ready = o.ready →
          (∀ S junk a, c ≠ .init S junk a .nowhere) →
          (((o.call c).1.ready = true ∨ ∃ S junk a, Call.init S junk a .nowhere ∈ l) ↔
            (o.ready = true ∨ ∃ S junk a, Call.init S junk a .nowhere ∈ c :: l)) := by
        intro _ hr hc
        rw [hr]
        refine or_congr Iff.rfl ⟨fun ⟨S, j, a, h⟩ => ⟨S, j, a, List.mem_cons_of_mem _ h⟩,
          fun ⟨S, j, a, h⟩ => ?_⟩
        rcases List.mem_cons.1 h with h | h
        · exact (hc S j a h.symm).elim
        · exact ⟨S, j, a, h⟩
      cases c with
      | update a => exact same True (ready_update o a) (by simp)
      | evolution => exact same True (ready_evolve o) (by simp)
      | error => exact same True (ready_ask o _ _) (by simp)
      | gradient => exact same True (ready_ask o _ _) (by simp)
      | init S junk a stop =>
        cases stop with
        | nowhere =>
          have hr : (o.call (.init S junk a .nowhere)).1.ready = true := ready_update _ a
          exact ⟨fun _ => .inr ⟨S, junk, a, List.mem_cons_self⟩, fun _ => .inl hr⟩
        | computers => exact same True rfl (by simp)
        | operators e => exact same True rfl (by simp)
        | directory e => exact same True rfl (by simp)
  refine ⟨fun h => (h1 _).2 (key.2 (h.imp_left (h1 o).1)), fun h => (h2 _).2 ?_⟩
  rw [Bool.eq_false_iff]
  exact fun hr => h ((key.1 hr).imp_left (h1 o).2)

/-- An object that was not initialised is refused after an update and a failed initialisation, and
accepted after a successful one. -/
example (st : State (Fin 1 ⊕ Fin 1) (Fin 1 ⊕ Fin 1) Unit) (a : Arr) :
    (Obj.after ⟨twoSlots, st, 0, 0, false⟩
      [.update a, .init twoSlots st a .computers]).check = .error .usageError ∧
    (Obj.after ⟨twoSlots, st, 0, 0, false⟩
      [.update a, .init twoSlots st a .nowhere, .error]).check = .ok () :=
  ⟨(C82_check _ _).2 (by simp [Obj.check]),
    (C82_check _ _).1 (.inr ⟨twoSlots, st, a, by simp⟩)⟩

/-- **C82 fails**: after a request for the error (or the gradient), an initialisation for another
system that raises an exception midway is not noticed: the next request returns the number of the
old system and the old amplitudes again, although the object has no amplitudes any more, and the
check whether the controls are initialised passes. -/
theorem C82_violated_stale {S : Sys d m D} (hv : Valid S) (o : Obj d m D) (junk : State d m D)
    {a : Arr} (hc : Covers S a) (S' : Sys d m D) (hk : S'.fidKind = S.fidKind) (b : Arr)
    {e : PyErr} {stop : Stop} (hs : Midway e stop) :
    (∀ x, fidErr S a.val = .ok x →
      o.outcomes [.init S junk a .nowhere, .error, .init S' junk b stop, .error] =
        [.none, .real x, .error e, .real x]) ∧
    (∀ g, gradient S a.val = .ok g →
      o.outcomes [.init S junk a .nowhere, .gradient, .init S' junk b stop, .gradient] =
        [.none, .array g, .error e, .array g]) ∧
    (∀ c : Call d m D, c = .error ∨ c = .gradient →
      (o.after [.init S junk a .nowhere, c, .init S' junk b stop]).st.ctrlAmps = none ∧
      (o.after [.init S junk a .nowhere, c, .init S' junk b stop]).check = .ok ()) := by
  obtain ⟨h1, hr⟩ := initialize_holds o (S := S) junk a
  set o1 := (o.initialize S junk a .nowhere).1 with ho1
  have hfirst : Out.ofUnit (o.initialize S junk a .nowhere).2 = .none := by
    have := C82_partial hv o junk a (l := []) trivial
    exact (List.cons.inj this).1
  refine ⟨?_, ?_, ?_⟩
  · intro x hx
    obtain ⟨c1, c2, -, -⟩ := call_holds hv h1 .error trivial
    have hval : (o1.call .error).2 = .real x := by rw [c1]; simp only [reply, if_pos hc, hx]; rfl
    have hok : o1.error.2 = .ok x := by
      have h' : Out.ofReal o1.error.2 = .real x := hval
      cases hq : o1.error.2 with
      | error er => rw [hq] at h'; cases h'
      | ok y => rw [hq] at h'; injection h' with h'; rw [h']
    obtain ⟨s, hs1, hs2, -⟩ := ask_ok hok
    obtain ⟨m1, m2⟩ := getFidErr_memo hs1
    have hk' : S'.fidKind = o1.error.1.sys.fidKind := by
      rw [hk]; exact congrArg _ (c2.sys.symm)
    obtain ⟨k1, -, -, k4, -, -, k7, -, k9, -⟩ := midway_keeps hs o1.error.1 S' hk' junk b
    have hlast : ((o1.error.1.initialize S' junk b stop).1.call .error).2 = .real x := by
      have hcur : (o1.error.1.initialize S' junk b stop).1.st.fidelityCurrent = true :=
        k7.trans m1
      rw [error_current hcur, k4, k9, ← m2]
      exact congrArg (fun k => Out.real (memo k _)) (congrArg Sys.fidKind hs2)
    show [Out.ofUnit (o.initialize S junk a .nowhere).2, (o1.call .error).2,
      Out.ofUnit (o1.error.1.initialize S' junk b stop).2,
      ((o1.error.1.initialize S' junk b stop).1.call .error).2] = _
    rw [hfirst, hval, k1, hlast]
    rfl
  · intro g hg
    obtain ⟨c1, c2, -, -⟩ := call_holds hv h1 .gradient trivial
    have hval : (o1.call .gradient).2 = .array g := by
      rw [c1]; simp only [reply, if_pos hc, hg]; rfl
    have hok : o1.gradient.2 = .ok g := by
      have h' : Out.ofArray o1.gradient.2 = .array g := hval
      cases hq : o1.gradient.2 with
      | error er => rw [hq] at h'; cases h'
      | ok y => rw [hq] at h'; injection h' with h'; rw [h']
    obtain ⟨s, hs1, hs2, -⟩ := ask_ok hok
    obtain ⟨m1, m2⟩ := getGrad_memo hs1
    have hk' : S'.fidKind = o1.gradient.1.sys.fidKind := by
      rw [hk]; exact congrArg _ (c2.sys.symm)
    obtain ⟨k1, -, -, -, -, -, -, k8, -, k10⟩ := midway_keeps hs o1.gradient.1 S' hk' junk b
    have hlast : ((o1.gradient.1.initialize S' junk b stop).1.call .gradient).2 = .array g := by
      have hcur : (o1.gradient.1.initialize S' junk b stop).1.st.gradCurrent = true :=
        k8.trans m1
      rw [gradient_current hcur, k10]
      exact congrArg Out.array m2
    show [Out.ofUnit (o.initialize S junk a .nowhere).2, (o1.call .gradient).2,
      Out.ofUnit (o1.gradient.1.initialize S' junk b stop).2,
      ((o1.gradient.1.initialize S' junk b stop).1.call .gradient).2] = _
    rw [hfirst, hval, k1, hlast]
    rfl
  · intro c hcase
    have hsc : Succeed [c] := by rcases hcase with rfl | rfl <;> trivial
    obtain ⟨-, c2, -, c4⟩ := call_holds hv h1 c hsc
    have hsys : (o1.call c).1.sys = S := by
      rcases hcase with rfl | rfl <;> exact c2.sys
    obtain ⟨-, k2, k3, -⟩ := midway_keeps hs (o1.call c).1 S' (by rw [hk, hsys]) junk b
    refine ⟨k2, ?_⟩
    show (if ((o1.call c).1.initialize S' junk b stop).1.ready = true then _ else _) = _
    rw [k3, c4 hr]
    rfl

example : Valid twoSlots ∧ Covers twoSlots ⟨2, 1, fun _ _ => 1⟩ ∧
    (∃ x, fidErr twoSlots (fun _ _ => 1) = .ok x) ∧ Midway .typeError (.operators .typeError) :=
  ⟨twoSlots_valid 1, by simp [Covers, twoSlotsOf], ⟨_, rfl⟩, .operators⟩

/-- **C82 fails**: arrays of a wrong shape are accepted, by initialisations and by updates.  With
too few rows or columns the next request raises `IndexError`; surplus rows and columns are ignored;
and an array with one row is taken for no change when it repeats the rows in place. -/
theorem C82_violated_shape {S : Sys d m D} (hv : Valid S) (o : Obj d m D) (junk : State d m D) :
    (∀ b, ¬ Covers S b → o.outcomes [.init S junk b .nowhere, .error] =
      [.none, .error .indexError]) ∧
    (∀ b, Covers S b → (S.nTs < b.rows ∨ S.nCtrls < b.cols) →
      o.outcomes [.init S junk b .nowhere, .error] = [.none, .ofReal (fidErr S b.val)]) ∧
    (∀ x : ℝ, o.outcomes [.init S junk ⟨S.nTs, S.nCtrls, fun _ _ => x⟩ .nowhere,
      .update ⟨1, S.nCtrls, fun _ _ => x⟩, .error] =
      [.none, .none, .ofReal (fidErr S fun _ _ => x)]) := by
  refine ⟨fun b hb => ?_, fun b hb _ => ?_, fun x => ?_⟩
  · rw [C82_partial hv o junk b (l := [.error]) trivial]
    simp only [replies, reply, if_neg hb]
  · rw [C82_partial hv o junk b (l := [.error]) trivial]
    simp only [replies, reply, if_pos hb]
  · rw [C82_partial hv o junk _ (l := [.update _, .error]) trivial]
    have hp : placed ⟨S.nTs, S.nCtrls, fun _ _ => x⟩ ⟨1, S.nCtrls, fun _ _ => x⟩ =
        ⟨S.nTs, S.nCtrls, fun _ _ => x⟩ := by
      refine if_neg ?_
      rintro ⟨-, k, k', j, j', -, -, -, -, -, -, hne⟩
      exact hne rfl
    have hcf : Conform ⟨S.nTs, S.nCtrls, fun _ _ => x⟩ ⟨1, S.nCtrls, fun _ _ => x⟩ :=
      ⟨Or.inr (Or.inr rfl), Or.inl rfl⟩
    have hcv : Covers S ⟨S.nTs, S.nCtrls, fun _ _ => x⟩ := ⟨Nat.le_refl _, Nat.le_refl _⟩
    show [Out.none, reply S _ (.update _), reply S (placed _ _) .error] = _
    rw [hp]
    simp only [reply, if_pos hcf, if_pos hcv]

example : ¬ Covers twoSlots ⟨1, 1, fun _ _ => 1⟩ ∧ Covers twoSlots ⟨3, 1, fun _ _ => 1⟩ ∧
    twoSlots.nTs < 3 := by simp [Covers, twoSlotsOf]

end QTrl.Dyn
