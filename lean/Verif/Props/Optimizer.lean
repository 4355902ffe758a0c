import Verif.Proofs.Optimizer
import Verif.Props.Evolution

/-
C29: variables, amplitudes and bounds.  C30: termination.  C31: the result describes the
final amplitudes.
-/

set_option linter.unusedSectionVars false

namespace QTrl.Opt

open QTrl.Dyn QTrl.Spec

variable {d m D : Type} [Fintype d] [DecidableEq d] [Fintype m] [DecidableEq m]

/-! ### C29 -/

/-- **C29.** Flattening has one variable per slot and control, at position
`t * num_ctrls + j`, and reshaping gives the amplitudes back. -/
theorem C29_flatten (n c : ℕ) (a : Amps) :
    (flatten n c a).length = n * c ∧
    (∀ t j, t < n → j < c → (flatten n c a)[t * c + j]? = some (a t j)) ∧
    ∃ b, unflatten n c (flatten n c a) = .ok b ∧ ∀ t j, t < n → j < c → b t j = a t j := by
  refine ⟨flatten_length n c a, fun t j ht hj => flatten_get n c a ht hj, ?_⟩
  refine ⟨_, by rw [unflatten, if_pos (flatten_length n c a)], ?_⟩
  intro t j ht hj
  show (flatten n c a).getD (t * c + j) 0 = a t j
  rw [List.getD_eq_getElem?_getD, flatten_get n c a ht hj]
  rfl

/-- **C29**, converse: a vector with one entry per slot and control is reshaped and
flattened to itself, the amplitude of slot `t` and control `j` being its entry
`t * num_ctrls + j`; any other length is rejected. -/
theorem C29_unflatten (n c : ℕ) (x : List ℝ) :
    (x.length = n * c → ∃ a, unflatten n c x = .ok a ∧ flatten n c a = x ∧
      ∀ t j, t < n → j < c → x[t * c + j]? = some (a t j)) ∧
    (x.length ≠ n * c → unflatten n c x = .error .valueError) := by
  refine ⟨fun h => ?_, fun h => by rw [unflatten, if_neg h]⟩
  have hget : ∀ t j, t < n → j < c → x[t * c + j]? = some (x.getD (t * c + j) 0) := by
    intro t j ht hj
    have hlt : t * c + j < x.length := by
      rw [h]
      calc t * c + j < t * c + c := by omega
        _ = (t + 1) * c := by ring
        _ ≤ n * c := Nat.mul_le_mul_right _ ht
    rw [List.getD_eq_getElem?_getD, List.getElem?_eq_getElem hlt]
    rfl
  refine ⟨_, by rw [unflatten, if_pos h], ?_, fun t j ht hj => hget t j ht hj⟩
  apply List.ext_getElem?
  intro i
  by_cases hi : i < n * c
  · have hc : 0 < c := by
      rcases Nat.eq_zero_or_pos c with rfl | h'
      · simp at hi
      · exact h'
    have h1 : i / c < n := Nat.div_lt_of_lt_mul (by rwa [Nat.mul_comm] at hi)
    have := flatten_get n c (fun k j => x.getD (k * c + j) 0) h1 (Nat.mod_lt i hc)
    rw [Nat.div_add_mod' i c] at this
    rw [this, List.getD_eq_getElem?_getD, List.getElem?_eq_getElem (by omega)]
    rfl
  · rw [List.getElem?_eq_none (by rw [flatten_length]; omega), List.getElem?_eq_none (by omega)]

/-- The bound meant for a control: the number, or the control's entry; infinite means none. -/
def boundOf (b : AmpBound) (j : ℕ) : Option Flt :=
  match b with
  | .scalar v => match v with
      | some (.inf _) => none
      | v => v
  | .list vs => match vs[j]?.join with
      | some (.inf _) => none
      | v => v

/-- Enough entries for all controls. -/
def Covers (b : AmpBound) (n : ℕ) : Prop :=
  match b with
  | .scalar _ => True
  | .list vs => n ≤ vs.length

theorem boundsRow_spec (lb ub : AmpBound) (N : ℕ) (hl : Covers lb N) (hu : Covers ub N) :
    ∀ n c, c + n = N → ∃ r, boundsRow lb ub n c = .ok r ∧ r.length = n ∧
      ∀ j, j < n → r[j]? = some (boundOf lb (c + j), boundOf ub (c + j)) := by
  have get : ∀ (b : AmpBound) (c : ℕ), Covers b N → c < N →
      ∃ v, b.get c = .ok v ∧ clearInf v = boundOf b c := by
    intro b c hb hc
    cases b with
    | scalar v =>
      refine ⟨v, rfl, ?_⟩
      rcases v with _ | (r | s | _) <;> rfl
    | list vs =>
      have hlt : c < vs.length := lt_of_lt_of_le hc hb
      refine ⟨vs[c], by simp [AmpBound.get, List.getElem?_eq_getElem hlt], ?_⟩
      simp only [boundOf, List.getElem?_eq_getElem hlt, Option.join]
      rcases vs[c] with _ | (r | s | _) <;> rfl
  intro n
  induction n with
  | zero => intro c _; exact ⟨[], rfl, rfl, fun j hj => by omega⟩
  | succ n ih =>
    intro c hc
    obtain ⟨l, hl1, hl2⟩ := get lb c hl (by omega)
    obtain ⟨u, hu1, hu2⟩ := get ub c hu (by omega)
    obtain ⟨r, hr, hlen, hget⟩ := ih (c + 1) (by omega)
    refine ⟨(clearInf l, clearInf u) :: r, by simp only [boundsRow, hl1, hu1, hr], by simp [hlen], ?_⟩
    intro j hj
    cases j with
    | zero => simp [hl2, hu2]
    | succ j =>
      rw [List.getElem?_cons_succ, hget j (by omega)]
      congr 3 <;> omega

/-- **C29.** The bounds list has one entry per variable, and entry `t * num_ctrls + j` is the
pair of bounds of control `j`, infinite bounds being absent. -/
theorem C29_bounds (lb ub : AmpBound) (n c : ℕ) (hl : Covers lb c) (hu : Covers ub c) :
    ∃ r, buildBounds lb ub c n = .ok r ∧ r.length = n * c ∧
      ∀ t j, t < n → j < c → r[t * c + j]? = some (boundOf lb j, boundOf ub j) := by
  obtain ⟨row, h1, h2, h3⟩ := boundsRow_spec lb ub c hl hu c 0 (by omega)
  induction n with
  | zero => exact ⟨[], rfl, by simp, fun t j ht => by omega⟩
  | succ n ih =>
    obtain ⟨r, e, hlen, hget⟩ := ih
    refine ⟨row ++ r, by simp only [buildBounds, h1, e], by simp [h2, hlen]; ring, ?_⟩
    intro t j ht hj
    cases t with
    | zero =>
      rw [Nat.zero_mul, Nat.zero_add, List.getElem?_append_left (by omega), h3 j hj, Nat.zero_add]
    | succ t =>
      have : (t + 1) * c + j = c + (t * c + j) := by ring
      rw [this, List.getElem?_append_right (by omega), h2, Nat.add_sub_cancel_left]
      exact hget t j (by omega) hj

/-- A per-control list that is too short raises IndexError. -/
theorem C29_bounds_short (lb ub : AmpBound) (n c : ℕ) (hl : ¬ Covers lb c) (hn : 0 < n) :
    buildBounds lb ub c n = .error .indexError ∨
      (¬ Covers ub c ∧ buildBounds lb ub c n = .error .indexError) := by
  left
  have key : ∀ k i, i + k = c → boundsRow lb ub k i = .error .indexError ∨
      (∃ vs, lb = .list vs ∧ c ≤ vs.length) ∨ k = 0 := by
    intro k
    induction k with
    | zero => intro i _; exact Or.inr (Or.inr rfl)
    | succ k ih =>
      intro i hi
      cases lb with
      | scalar v => exact absurd trivial hl
      | list vs =>
        by_cases hlt : i < vs.length
        · have hg : (AmpBound.list vs).get i = .ok vs[i] := by
            simp [AmpBound.get, List.getElem?_eq_getElem hlt]
          simp only [boundsRow, hg]
          rcases ih (i + 1) (by omega) with h | h | h
          · rw [h]
            left
            cases hub : ub.get i with
            | error e =>
              cases ub with
              | scalar v => cases hub
              | list us =>
                simp only [AmpBound.get] at hub
                split at hub <;> cases hub
                rfl
            | ok u => rfl
          · exact Or.inr (Or.inl h)
          · subst h
            exact absurd (show c ≤ vs.length by omega) hl
        · left
          have hg : (AmpBound.list vs).get i = .error .indexError := by
            simp [AmpBound.get, List.getElem?_eq_none (Nat.le_of_not_lt hlt)]
          simp only [boundsRow, hg]
  have hc : c ≠ 0 := by
    rintro rfl
    cases lb with
    | scalar v => exact hl trivial
    | list vs => exact hl (Nat.zero_le _)
  cases n with
  | zero => omega
  | succ n =>
    rcases key c 0 (by omega) with h | ⟨vs, rfl, h⟩ | h
    · simp only [buildBounds, h]
    · exact absurd h hl
    · exact absurd h hc

/-- With L-BFGS-B the bounds handed to the minimiser are always those now configured. -/
theorem C29_lbfgsb_current (old : Option (List (Option Flt × Option Flt))) (lb ub : AmpBound)
    (n c : ℕ) (hl : Covers lb c) (hu : Covers ub c) :
    ∃ r, boundsFor .lbfgsb old lb ub n c = .ok (some r) ∧ buildBounds lb ub c n = .ok r := by
  obtain ⟨r, h, _⟩ := C29_bounds lb ub n c hl hu
  exact ⟨r, by simp [boundsFor, h, Except.map], h⟩

/-- **C29.** In the first run of an optimiser, the base class hands over the bounds configured, and
the methods whose variables are not amplitudes, or that take no bounds, none: for CRAB in every
run, whatever amplitude bounds are configured before each. -/
theorem C29_first_run (lb ub : AmpBound) (n c : ℕ) (hl : Covers lb c) (hu : Covers ub c) :
    (∃ r, boundsFor .base none lb ub n c = .ok (some r) ∧ buildBounds lb ub c n = .ok r) ∧
      boundsFor .bfgs none lb ub n c = .ok none ∧
      boundsFor .crabFmin none lb ub n c = .ok none ∧
      ∀ runs : List (AmpBound × AmpBound), runs.foldlM
        (fun old b => boundsFor .crab old b.1 b.2 n c) none = .ok none := by
  obtain ⟨r, h, _⟩ := C29_bounds lb ub n c hl hu
  refine ⟨⟨r, by simp [boundsFor, h, Except.map], h⟩, rfl, rfl, fun runs => ?_⟩
  induction runs with
  | nil => rfl
  | cons b bs ih => exact ih

/-- **C29 fails** for the base class when the bounds are changed between two runs: the second
run still uses those of the first. -/
theorem C29_violated_stale : ∃ r1 r2,
    boundsFor .base none (.scalar (some (.fin 0))) (.scalar (some (.fin 1))) 1 1 = .ok r1 ∧
    boundsFor .base r1 (.scalar (some (.fin 5))) (.scalar (some (.fin 6))) 1 1 = .ok r2 ∧
    r2 = some [(some (.fin 0), some (.fin 1))] := by
  refine ⟨_, _, rfl, rfl, ?_⟩
  simp [clearInf, Flt.isInf]

/-- Non-trivial case: two slots, two controls with their own bounds. -/
example : Covers (.list [some (.fin 0), some (.inf true)]) 2 ∧
    buildBounds (.list [some (.fin 0), some (.inf true)]) (.scalar (some (.fin 1))) 2 2 =
      .ok [(some (.fin 0), some (.fin 1)), (none, some (.fin 1)),
           (some (.fin 0), some (.fin 1)), (none, some (.fin 1))] := by
  refine ⟨by simp [Covers], ?_⟩
  simp [buildBounds, boundsRow, AmpBound.get, clearInf, Flt.isInf]

/-! ### Runs -/

/-- How `grad_norm` changes with the user's operations before the optimisation. -/
noncomputable def normAfter (S : Sys d m D) (junk : State d m D) :
    State d m D → ℝ → List VOp → ℝ
  | _, gn, [] => gn
  | s, gn, op :: ops =>
      normAfter S junk (vstep S junk s op)
        (match op with
          | .op .getGradient => (getGradNorm S s gn).2.1
          | _ => gn) ops

/-- An optimiser attached to dynamics that were initialised with amplitudes `a0` and then used
in any way `ops` (queries, updates, re-initialisations, reading operators). -/
noncomputable def attached (S : Sys d m D) (junk s0 : State d m D) (a0 : Amps) (gn0 : ℝ)
    (ops : List VOp) (gens : List Pulse.Crab) : OState d m D where
  dyn := vrun S junk (initControls S junk s0 a0) ops
  gradNorm := normAfter S junk (initControls S junk s0 a0) gn0 ops
  gens := gens
  numIter := 0
  numFid := 0
  numGrad := 0

/-- The amplitudes such an optimiser starts from. -/
def startAmps (a0 : Amps) : List VOp → Amps
  | [] => a0
  | .op (.updateAmps a) :: ops => startAmps a ops
  | .op (.reinit a) :: ops => startAmps a ops
  | _ :: ops => startAmps a0 ops

theorem step_flags {S : Sys d m D} (junk : State d m D) {s : State d m D} (h : FlagInv s) (o : Op) :
    FlagInv (step S junk s o).1 := by
  cases o with
  | updateAmps a => exact (compareAmps_flags S s a).1 h
  | reinit a =>
    show FlagInv (initControls S junk s a)
    unfold initControls
    rw [compareAmps_none (by rfl)]
    exact ⟨fun h => by simp [flagSystemChanged] at h, fun h => by simp [flagSystemChanged] at h⟩
  | computeEvolution => exact (computeEvolution_keeps S s).flags h
  | getFidelity =>
    unfold step
    cases S.fidKind with
    | unitary => exact (getFidelity_keeps S s).flags h
    | traceDiff => exact h
  | getFidErr => exact (getFidErr_keeps S s).flags h
  | getGradient => exact (getGrad_flags S s).1 h

/-- Such an optimiser is in a consistent state. -/
theorem attached_inv {S : Sys d m D} (hS : Valid S) (junk s0 : State d m D) (a0 : Amps) (gn0 : ℝ)
    (ops : List VOp) (gens : List Pulse.Crab) :
    OInv S gens (attached S junk s0 a0 gn0 ops gens) (startAmps a0 ops) := by
  have key : ∀ (ops : List VOp) (s : State d m D) (gn : ℝ) (a : Amps),
      OInv S gens ⟨s, gn, gens, 0, 0, 0⟩ a →
      OInv S gens ⟨vrun S junk s ops, normAfter S junk s gn ops, gens, 0, 0, 0⟩ (startAmps a ops) := by
    intro ops
    induction ops with
    | nil => intro s gn a h; exact h
    | cons op ops ih =>
      intro s gn a h
      have views : ∀ t, OnlyViews s t → ViewInv S t → OInv S gens ⟨t, gn, gens, 0, 0, 0⟩ a := by
        intro t ho hv
        obtain ⟨i1, i2⟩ := h.inv.onlyViews ho
        obtain ⟨b, hb, hs⟩ := h.amps
        obtain ⟨_, _, _, f4, f5⟩ := ho.sameFlags
        refine ⟨i1, hv, ho.sameFlags.keeps.flags h.flags, ?_, rfl, b, i2.trans hb, hs⟩
        intro hc
        show gn = normOf S t.grad
        rw [f5]
        exact h.norm (by rw [← f4]; exact hc)
      cases op with
      | op o =>
        have hv := step_viewInv junk h.views o
        have hf := step_flags (S := S) junk h.flags o
        obtain ⟨_, hi, hA⟩ := step_spec hS junk h.inv (A := some a) h.amps o
        cases o with
        | updateAmps a' =>
          exact ih _ _ _ (update_inv h a' rfl 0 0 0)
        | reinit a' =>
          refine ih _ _ _ ⟨hi, hv, hf, ?_, rfl, hA⟩
          intro hc
          exfalso
          have : (initControls S junk s a').gradCurrent = true := hc
          unfold initControls at this
          rw [compareAmps_none (by rfl)] at this
          simp [flagSystemChanged] at this
        | computeEvolution =>
          have hk := computeEvolution_keeps S s
          refine ih _ _ _ ⟨hi, hv, hf, ?_, rfl, hA⟩
          intro hc
          show gn = normOf S (computeEvolution S s).1.grad
          rw [hk.grad]
          exact h.norm (by rw [← hk.gradCurrent]; exact hc)
        | getFidelity =>
          refine ih _ _ _ ⟨hi, hv, hf, ?_, rfl, hA⟩
          have hk : Keeps s (step S junk s .getFidelity).1 := by
            unfold step
            cases S.fidKind with
            | unitary => exact getFidelity_keeps S s
            | traceDiff => exact Keeps.refl s
          intro hc
          show gn = normOf S (step S junk s .getFidelity).1.grad
          rw [hk.grad]
          exact h.norm (by rw [← hk.gradCurrent]; exact hc)
        | getFidErr =>
          have hk := getFidErr_keeps S s
          refine ih _ _ _ ⟨hi, hv, hf, ?_, rfl, hA⟩
          intro hc
          show gn = normOf S (getFidErr S s).1.grad
          rw [hk.grad]
          exact h.norm (by rw [← hk.gradCurrent]; exact hc)
        | getGradient =>
          obtain ⟨t, gn', e, ht, _⟩ := getGradNorm_inv hS h
          have e1 : (getGrad S s).1 = t := by
            have h1 : (getGradNorm S s gn).1 = t := congrArg Prod.fst e
            rw [← h1]
            unfold getGradNorm
            rcases getGrad S s with ⟨u, _ | g⟩ <;> rfl
          have e2 : (getGradNorm S s gn).2.1 = gn' := congrArg (fun x => x.2.1) e
          show OInv S gens ⟨vrun S junk (getGrad S s).1 ops,
            normAfter S junk (getGrad S s).1 (getGradNorm S s gn).2.1 ops, gens, 0, 0, 0⟩ _
          rw [e1, e2]
          exact ih _ _ _ ht
      | readDynGen => exact ih _ _ _ (views _ (readDynGen_spec h.views).1 (readDynGen_spec h.views).2.1)
      | readProp => exact ih _ _ _ (views _ (readProp_spec h.views).1 (readProp_spec h.views).2.1)
      | readPropGrad =>
        exact ih _ _ _ (views _ (readPropGrad_spec h.views).1 (readPropGrad_spec h.views).2.1)
      | readFwd =>
        exact ih _ _ _ (views _ (readFwd_spec h.views h.inv.ends).1 (readFwd_spec h.views h.inv.ends).2.1)
      | readOnwd => exact ih _ _ _ (views _ (readOnwd_spec h.views).1 (readOnwd_spec h.views).2.1)
      | readOnto =>
        exact ih _ _ _ (views _ (readOnto_spec h.views h.inv.ends).1 (readOnto_spec h.views h.inv.ends).2.1)
  obtain ⟨hI, hA⟩ : Dyn.Inv S (initControls S junk s0 a0) ∧
      ∃ b, (initControls S junk s0 a0).ctrlAmps = some b ∧ SameAmps S b a0 :=
    initControls_inv S junk s0 a0
  refine key ops _ gn0 a0 ⟨hI, ?_, ?_, ?_, rfl, hA⟩
  · unfold initControls
    rw [compareAmps_none (by rfl)]
    exact ViewInv.of_stale rfl
  · unfold initControls
    rw [compareAmps_none (by rfl)]
    exact ⟨fun h => by simp [flagSystemChanged] at h, fun h => by simp [flagSystemChanged] at h⟩
  · intro hc
    exfalso
    dsimp only at hc
    unfold initControls at hc
    rw [compareAmps_none (by rfl)] at hc
    simp [flagSystemChanged] at hc

/-- The initial result. -/
theorem createResult_spec {S : Sys d m D} (hS : Valid S) {gs0 : List Pulse.Crab} {o : OState d m D}
    {a : Amps} (h : OInv S gs0 o a) {e0 : ℝ} (he : fidErr S a = .ok e0) :
    ∃ o' r, createResult S o = (o', .ok r) ∧ OInv S gs0 o' a ∧ o'.numFid = o.numFid ∧
      o'.numIter = o.numIter ∧ r.initialFidErr = e0 ∧ r.evoFullInitial = some (final S a) ∧
      (∃ b, r.initialAmps = some b ∧ SameAmps S b a) ∧
      r.reason = "not started yet" ∧ r.goalAchieved = false ∧ r.gradNormMinReached = false ∧
      r.maxIterExceeded = false ∧ r.maxFidFuncExceeded = false ∧ r.wallTimeLimitExceeded = false := by
  obtain ⟨t, et, ht, hc, _⟩ := getFidErr_inv hS h
  rw [he] at et
  obtain ⟨f1, f2⟩ := readFull_inv ht (hc e0 he)
  unfold createResult
  rw [et]
  refine ⟨_, _, rfl, f2, rfl, rfl, rfl, f1, f2.amps, rfl, rfl, rfl, rfl, rfl, rfl⟩

/-- The common attributes. -/
theorem addCommon_spec {S : Sys d m D} (hS : Valid S) {gs0 : List Pulse.Crab} {o : OState d m D}
    {a : Amps} (h : OInv S gs0 o a) {e0 : ℝ} (he : fidErr S a = .ok e0) (start stop : ℝ)
    (r : Result d m) :
    ∃ o' r', addCommon S o start stop r = (o', .ok r') ∧ OInv S gs0 o' a ∧ r'.fidErr = e0 ∧
      r'.evoFullFinal = some (final S a) ∧ (∃ b, r'.finalAmps = some b ∧ SameAmps S b a) ∧
      r'.gradNormFinal = o.gradNorm ∧ r'.numIter = o.numIter ∧ r'.numFidFuncCalls = o.numFid ∧
      r'.wallTime = stop - start ∧
      r'.reason = r.reason ∧ r'.goalAchieved = r.goalAchieved ∧
      r'.gradNormMinReached = r.gradNormMinReached ∧ r'.maxIterExceeded = r.maxIterExceeded ∧
      r'.maxFidFuncExceeded = r.maxFidFuncExceeded ∧
      r'.wallTimeLimitExceeded = r.wallTimeLimitExceeded ∧ r'.initialFidErr = r.initialFidErr ∧
      r'.initialAmps = r.initialAmps ∧ r'.evoFullInitial = r.evoFullInitial := by
  obtain ⟨t, et, ht, hc, _⟩ := getFidErr_inv hS h
  rw [he] at et
  obtain ⟨f1, f2⟩ := readFull_inv ht (hc e0 he)
  unfold addCommon
  rw [et]
  exact ⟨_, _, rfl, f2, rfl, f1, f2.amps, rfl, rfl, rfl, rfl, rfl, rfl, rfl, rfl, rfl, rfl, rfl, rfl,
    rfl⟩

/-- What a result says about its run: which calls were made and which flags are set. -/
structure Says (r : Result d m) (done : List Call) (reason : String)
    (goal grad iter fid wall : Bool) : Prop where
  reason : r.reason = reason
  goal : r.goalAchieved = goal
  grad : r.gradNormMinReached = grad
  iter : r.maxIterExceeded = iter
  fid : r.maxFidFuncExceeded = fid
  wall : r.wallTimeLimitExceeded = wall
  numFid : r.numFidFuncCalls = funcCount done
  numIter : r.numIter = iterCount done

/-- The flags and the reason that belong to a termination condition. -/
def SaysTerm (r : Result d m) (done : List Call) : Term → Prop
  | .goal _ => Says r done "Goal achieved" true false false false false
  | .gradMin _ => Says r done "Gradient normal minimum reached" false true false false false
  | .fidCalls => Says r done "Number of fidelity error calls has exceeded the maximum"
      false false false true false
  | .wallTime => Says r done "Max wall time exceeded" false false false false true

/-- What a result says about amplitudes. -/
structure Describes (S : Sys d m D) (r : Result d m) (a0 a : Amps) : Prop where
  initialErr : fidErr S a0 = .ok r.initialFidErr
  initialEvo : r.evoFullInitial = some (final S a0)
  initialAmps : ∃ b, r.initialAmps = some b ∧ SameAmps S b a0
  finalErr : fidErr S a = .ok r.fidErr
  finalEvo : r.evoFullFinal = some (final S a)
  finalAmps : ∃ b, r.finalAmps = some b ∧ SameAmps S b a

theorem quietFrom_zero {S : Sys d m D} {v : VarKind} {gs : List Pulse.Crab} {tc : TermConds}
    {start : ℝ} {cs : List Call} : QuietFrom S v gs tc start 0 cs ↔ Quiet S v gs tc start cs := by
  unfold QuietFrom Quiet
  simp only [Nat.zero_add]

/-- A run that ends by a termination condition. -/
theorem run_stopped {S : Sys d m D} (hS : Valid S) (c : Cls) (tc : TermConds)
    {gs0 : List Pulse.Crab} {o : OState d m D} {a0 : Amps} (h : OInv S gs0 o a0) (start stop : ℝ)
    (pre : List Call) (k : Call) (post : List Call) (f : Finish) (t : Term) {e0 : ℝ}
    (he : fidErr S a0 = .ok e0) (hq : Quiet S c.vars gs0 tc start pre)
    (hk : verdict S c.vars gs0 tc start (funcCount (pre ++ [k])) k = some (.term t)) :
    ∃ o' r, runOptimization S c tc o start stop (pre ++ k :: post) f = (o', .ok r) ∧
      SaysTerm r (pre ++ [k]) t ∧ Describes S r a0 (ampsAfter S c.vars gs0 a0 (pre ++ [k])) ∧
      r.wallTime = stop - start ∧
      (∀ x, k = .grad x → ∃ g, gradient S (ampsAfter S c.vars gs0 a0 (pre ++ [k])) = .ok g ∧
        r.gradNormFinal = gradientNorm S g) ∧
      OInv S gs0 o' (ampsAfter S c.vars gs0 a0 (pre ++ [k])) := by
  have h0 : OInv S gs0 { o with numIter := 0, numFid := 0, numGrad := 0 } a0 :=
    ⟨h.inv, h.views, h.flags, h.norm, h.gens, h.amps⟩
  obtain ⟨o1, r1, e1, i1, n1, m1, q1, q2, q3, q4, q5, q6, q7, q8, q9⟩ := createResult_spec hS h0 he
  obtain ⟨o2, rs, e2, i2, n2, m2, _, k2⟩ := calls_stop hS c.vars tc start pre k post (.term t) i1
    (by rw [n1]; exact quietFrom_zero.2 hq) (by rw [n1]; simpa using hk)
  obtain ⟨e', he'⟩ := fidErr_ok S he (ampsAfter S c.vars gs0 a0 (pre ++ [k]))
  obtain ⟨o3, r3, e3, i3, p1, p2, p3, p4, p5, p6, p7, p8, p9, p10, p11, p12, p13, p14, p15, p16⟩ :=
    addCommon_spec hS i2 he' start stop (interpret t r1)
  refine ⟨o3, r3, ?_, ?_, ?_, p7, ?_, i3⟩
  · simp only [runOptimization, e1, e2, e3]
  · have hn : r3.numFidFuncCalls = funcCount (pre ++ [k]) := by rw [p6, n2, n1]; simp
    have hm : r3.numIter = iterCount (pre ++ [k]) := by rw [p5, m2, m1]; simp
    cases t <;> refine ⟨p8, ?_, ?_, ?_, ?_, ?_, hn, hm⟩ <;>
      first
        | (rw [p9]; simp [interpret, q5])
        | (rw [p10]; simp [interpret, q6])
        | (rw [p11]; simp [interpret, q7])
        | (rw [p12]; simp [interpret, q8])
        | (rw [p13]; simp [interpret, q9])
  · have hi : ∀ r : Result d m, (interpret t r).initialFidErr = r.initialFidErr ∧
        (interpret t r).initialAmps = r.initialAmps ∧
        (interpret t r).evoFullInitial = r.evoFullInitial := by
      intro r; cases t <;> exact ⟨rfl, rfl, rfl⟩
    obtain ⟨w1, w2, w3⟩ := hi r1
    exact ⟨by rw [p14, w1, q1, he], by rw [p16, w3, q2], by rw [p15, w2]; exact q3,
      by rw [p1, he'], p2, p3⟩
  · intro x hx
    obtain ⟨g, g1, g2⟩ := k2 x hx (by intro e h; cases h)
    exact ⟨g, g1, by rw [p4, g2]⟩

/-- A run in which the minimiser returns. -/
theorem run_finished {S : Sys d m D} (hS : Valid S) (c : Cls) (tc : TermConds)
    {gs0 : List Pulse.Crab} {o : OState d m D} {a0 : Amps} (h : OInv S gs0 o a0) (start stop : ℝ)
    (cs : List Call) (f : Finish) {e0 : ℝ} {a : Amps}
    (he : fidErr S a0 = .ok e0) (hq : Quiet S c.vars gs0 tc start cs)
    (hx : ampsOf S c.vars gs0 f.x = .ok a) :
    ∃ (o' : OState d m D) (r r0 : Result d m), runOptimization S c tc o start stop cs f = (o', .ok r) ∧
      Says r cs (report c f r0).reason (report c f r0).goalAchieved
        (report c f r0).gradNormMinReached (report c f r0).maxIterExceeded
        (report c f r0).maxFidFuncExceeded (report c f r0).wallTimeLimitExceeded ∧
      Says r0 [] "not started yet" false false false false false ∧
      Describes S r a0 a ∧ r.wallTime = stop - start ∧
      (∀ x pre, cs = pre ++ [.grad x] → SameAmps S a (ampsAfter S c.vars gs0 a0 cs) →
        ∃ g, gradient S a = .ok g ∧ r.gradNormFinal = gradientNorm S g) ∧
      OInv S gs0 o' a := by
  have h0 : OInv S gs0 { o with numIter := 0, numFid := 0, numGrad := 0 } a0 :=
    ⟨h.inv, h.views, h.flags, h.norm, h.gens, h.amps⟩
  obtain ⟨o1, r1, e1, i1, n1, m1, q1, q2, q3, q4, q5, q6, q7, q8, q9⟩ := createResult_spec hS h0 he
  obtain ⟨o2, rs, e2, i2, n2, m2, _, k2⟩ := calls_quiet hS c.vars tc start cs i1
    (by rw [n1]; exact quietFrom_zero.2 hq)
  obtain ⟨x1, x2⟩ := getCtrlAmps_strip S c.vars i2.gens f.x
  rw [hx] at x1
  cases hg : getCtrlAmps S c.vars o2.gens f.x with
  | error e => rw [hg] at x1; cases x1
  | ok w =>
    obtain ⟨gs, a'⟩ := w
    rw [hg] at x1
    injection x1 with x1
    replace x1 : a' = a := x1
    subst x1
    have i3 := update_inv i2 a' (x2 _ hg) o2.numFid o2.numIter o2.numGrad
    obtain ⟨e', he'⟩ := fidErr_ok S he a'
    obtain ⟨o3, r3, e3, i4, p1, p2, p3, p4, p5, p6, p7, p8, p9, p10, p11, p12, p13, p14, p15, p16⟩ :=
      addCommon_spec hS i3 he' start stop (report c f r1)
    have hc0 : createResult S { o with numIter := 0, numFid := 0, numGrad := 0 } = (o1, .ok r1) := e1
    have hr0 : r1.numFidFuncCalls = 0 ∧ r1.numIter = 0 := by
      unfold createResult at hc0
      generalize getFidErr S _ = y at hc0
      rcases y with ⟨t, _ | err⟩
      · cases hc0
      · injection hc0 with _ hc0
        injection hc0 with hc0
        subst hc0
        exact ⟨rfl, rfl⟩
    refine ⟨o3, r3, r1, ?_, ⟨p8, p9, p10, p11, p12, p13, ?_, ?_⟩,
      ⟨q4, q5, q6, q7, q8, q9, hr0.1, hr0.2⟩, ?_, p7, ?_, i4⟩
    · simp only [runOptimization, e1, e2, hg]
      exact e3
    · rw [p6]; show o2.numFid = _; rw [n2, n1]; simp
    · rw [p5]; show o2.numIter = _; rw [m2, m1]; simp
    · have hi : ∀ r : Result d m, (report c f r).initialFidErr = r.initialFidErr ∧
          (report c f r).initialAmps = r.initialAmps ∧
          (report c f r).evoFullInitial = r.evoFullInitial := by
        intro r
        cases c <;> simp only [report] <;> (repeat' split) <;> simp
      obtain ⟨w1, w2, w3⟩ := hi r1
      exact ⟨by rw [p14, w1, q1, he], by rw [p16, w3, q2], by rw [p15, w2]; exact q3,
        by rw [p1, he'], p2, p3⟩
    · intro x pre hpre hsame
      obtain ⟨g, g1, g2⟩ := k2 x pre hpre
      refine ⟨g, by rw [gradient_congr hsame]; exact g1, ?_⟩
      rw [p4, ← g2]

/-- A run in which evaluating a point fails. -/
theorem run_failed {S : Sys d m D} (hS : Valid S) (c : Cls) (tc : TermConds)
    {gs0 : List Pulse.Crab} {o : OState d m D} {a0 : Amps} (h : OInv S gs0 o a0) (start stop : ℝ)
    (pre : List Call) (k : Call) (post : List Call) (f : Finish) (e : PyErr) {e0 : ℝ}
    (he : fidErr S a0 = .ok e0) (hq : Quiet S c.vars gs0 tc start pre)
    (hk : verdict S c.vars gs0 tc start (funcCount (pre ++ [k])) k = some (.error e)) :
    ∃ o', runOptimization S c tc o start stop (pre ++ k :: post) f = (o', .error e) := by
  have h0 : OInv S gs0 { o with numIter := 0, numFid := 0, numGrad := 0 } a0 :=
    ⟨h.inv, h.views, h.flags, h.norm, h.gens, h.amps⟩
  obtain ⟨o1, r1, e1, i1, n1, m1, _⟩ := createResult_spec hS h0 he
  obtain ⟨o2, rs, e2, _⟩ := calls_stop hS c.vars tc start pre k post (.error e) i1
    (by rw [n1]; exact quietFrom_zero.2 hq) (by rw [n1]; simpa using hk)
  exact ⟨o2, by simp only [runOptimization, e1, e2]⟩

/-! ### C30 -/

/-- Every sequence of calls either contains none that ends the run, or a first one. -/
theorem C30_exhaustive (S : Sys d m D) (v : VarKind) (gs : List Pulse.Crab) (tc : TermConds)
    (start : ℝ) (cs : List Call) :
    Quiet S v gs tc start cs ∨ ∃ pre k post r, cs = pre ++ k :: post ∧ Quiet S v gs tc start pre ∧
      verdict S v gs tc start (funcCount (pre ++ [k])) k = some r := by
  induction cs using List.reverseRecOn with
  | nil => left; intro p c q h; simp at h
  | append_singleton cs c ih =>
    rcases ih with ih | ⟨pre, k, post, r, rfl, h1, h2⟩
    · cases hv : verdict S v gs tc start (funcCount (cs ++ [c])) c with
      | some r => exact Or.inr ⟨cs, c, [], r, rfl, ih, hv⟩
      | none =>
        left
        intro p c' q h
        rcases List.eq_nil_or_concat q with rfl | ⟨q', b, rfl⟩
        · obtain ⟨rfl, h'⟩ := List.append_inj' h rfl
          injection h' with h' _
          subst h'
          exact hv
        · rw [List.concat_eq_append, ← List.cons_append, ← List.append_assoc] at h
          obtain ⟨h', _⟩ := List.append_inj' h rfl
          exact ih p c' q' h'
    · exact Or.inr ⟨pre, k, post ++ [c], r, by simp, h1, h2⟩

/-- **C30.** For every optimiser class, every state of its dynamics, every configuration of
termination conditions and every behaviour of the minimiser and the clock: the run stops at
the first call that meets a termination condition; the result has the flag and the reason of
that condition and no other flag, and counts the calls made up to then. -/
theorem C30_stops {S : Sys d m D} (hS : Valid S) (c : Cls) (tc : TermConds)
    (junk s0 : State d m D) (a0 : Amps) (gn0 : ℝ) (ops : List VOp) (gens : List Pulse.Crab)
    (start stop : ℝ) (pre : List Call) (k : Call) (post : List Call) (f : Finish) (t : Term) (e0 : ℝ)
    (he : fidErr S (startAmps a0 ops) = .ok e0) (hq : Quiet S c.vars gens tc start pre)
    (hk : verdict S c.vars gens tc start (funcCount (pre ++ [k])) k = some (.term t)) :
    ∃ o' r, runOptimization S c tc (attached S junk s0 a0 gn0 ops gens) start stop
        (pre ++ k :: post) f = (o', .ok r) ∧ SaysTerm r (pre ++ [k]) t := by
  obtain ⟨o', r, h1, h2, _⟩ := run_stopped hS c tc (attached_inv hS junk s0 a0 gn0 ops gens)
    start stop pre k post f t he hq hk
  exact ⟨o', r, h1, h2⟩

/-- **C30.** The goal is reported as achieved exactly if some call evaluated an error not above
the target before anything else ended the run, and the error in the result is then at most
the target. -/
theorem C30_goal {S : Sys d m D} (hS : Valid S) (c : Cls) (tc : TermConds)
    (junk s0 : State d m D) (a0 : Amps) (gn0 : ℝ) (ops : List VOp) (gens : List Pulse.Crab)
    (start stop : ℝ) (cs : List Call) (f : Finish) (o' : OState d m D) (r : Result d m) (e0 : ℝ)
    (he : fidErr S (startAmps a0 ops) = .ok e0)
    (hr : runOptimization S c tc (attached S junk s0 a0 gn0 ops gens) start stop cs f =
      (o', .ok r)) :
    (r.goalAchieved = true ↔ ∃ pre x post a e, cs = pre ++ .func x :: post ∧
      Quiet S c.vars gens tc start pre ∧ ampsOf S c.vars gens x = .ok a ∧ fidErr S a = .ok e ∧
      e ≤ tc.fidErrTarg) ∧
    (r.goalAchieved = true → r.fidErr ≤ tc.fidErrTarg) := by
  have hi := attached_inv hS junk s0 a0 gn0 ops gens
  rcases C30_exhaustive S c.vars gens tc start cs with hq | ⟨pre, k, post, rr, rfl, hq, hk⟩
  · have hno : ¬ ∃ pre x post a e, cs = pre ++ .func x :: post ∧
        Quiet S c.vars gens tc start pre ∧ ampsOf S c.vars gens x = .ok a ∧ fidErr S a = .ok e ∧
        e ≤ tc.fidErrTarg := by
      rintro ⟨pre, x, post, a, e, rfl, _, hx, hf, hle⟩
      have := hq pre (.func x) post rfl
      simp only [verdict, hx, hf, if_pos hle] at this
      cases this
    have hg : r.goalAchieved = false := by
      cases hx : ampsOf S c.vars gens f.x with
      | error e =>
        exfalso
        have h0 : OInv S gens { attached S junk s0 a0 gn0 ops gens with numIter := 0, numFid := 0, numGrad := 0 } _ :=
          ⟨hi.inv, hi.views, hi.flags, hi.norm, hi.gens, hi.amps⟩
        obtain ⟨o1, r1, e1, i1, n1, _⟩ := createResult_spec hS h0 he
        obtain ⟨o2, rs, e2, i2, _⟩ := calls_quiet hS c.vars tc start cs i1
          (by rw [n1]; exact quietFrom_zero.2 hq)
        obtain ⟨x1, _⟩ := getCtrlAmps_strip S c.vars i2.gens f.x
        rw [hx] at x1
        simp only [runOptimization, e1, e2] at hr
        cases hgc : getCtrlAmps S c.vars o2.gens f.x with
        | error e' => rw [hgc] at hr; cases hr
        | ok w => rw [hgc] at x1; cases x1
      | ok a =>
        obtain ⟨o2, r2, r0, h1, h2, h3, _⟩ := run_finished hS c tc hi start stop cs f he hq hx
        rw [hr] at h1
        injection h1 with _ h1
        injection h1 with h1
        subst h1
        rw [h2.goal]
        have h3g := h3.goal
        cases c <;> simp only [report] <;> (repeat' split) <;> exact h3g
    rw [hg]
    exact ⟨⟨fun h => Bool.noConfusion h, fun h => absurd h hno⟩, fun h => Bool.noConfusion h⟩
  · cases rr with
    | error e =>
      obtain ⟨o2, h2⟩ := run_failed hS c tc hi start stop pre k post f e he hq hk
      rw [hr] at h2
      injection h2 with _ h2
      cases h2
    | term t =>
      obtain ⟨o2, r2, h1, h2, h3, _⟩ := run_stopped hS c tc hi start stop pre k post f t he hq hk
      rw [hr] at h1
      injection h1 with _ h1
      injection h1 with h1
      subst h1
      have split : ∀ (pre' : List Call) (x : List ℝ) (post' : List Call) (a : Amps) (e : ℝ),
          pre ++ k :: post = pre' ++ .func x :: post' → Quiet S c.vars gens tc start pre' →
          ampsOf S c.vars gens x = .ok a → fidErr S a = .ok e → e ≤ tc.fidErrTarg →
          pre' = pre ∧ k = .func x := by
        intro pre' x post' a e heq hq' hx hf hle
        have hv' : ∀ n, verdict S c.vars gens tc start n (.func x) = some (.term (.goal e)) := by
          intro n; simp only [verdict, hx, hf, if_pos hle]
        rcases List.append_eq_append_iff.1 heq with ⟨as, h1, h2⟩ | ⟨as, h1, h2⟩
        · cases as with
          | nil =>
            simp only [List.nil_append, List.cons.injEq] at h2
            exact ⟨by simpa using h1, h2.1⟩
          | cons b as =>
            simp only [List.cons_append, List.cons.injEq] at h2
            obtain ⟨rfl, _⟩ := h2
            have := hq' pre k as h1
            rw [hk] at this
            cases this
        · cases as with
          | nil =>
            simp only [List.nil_append, List.cons.injEq] at h2
            exact ⟨by simpa using h1.symm, h2.1.symm⟩
          | cons b as =>
            simp only [List.cons_append, List.cons.injEq] at h2
            obtain ⟨rfl, _⟩ := h2
            have := hq pre' (.func x) as h1
            rw [hv'] at this
            cases this
      have hgoal : r.goalAchieved = true ↔ ∃ e, t = .goal e := by
        cases t with
        | goal e => exact ⟨fun _ => ⟨e, rfl⟩, fun _ => h2.goal⟩
        | wallTime => exact ⟨fun h => (by rw [h2.goal] at h; cases h), fun ⟨_, h⟩ => by cases h⟩
        | fidCalls => exact ⟨fun h => (by rw [h2.goal] at h; cases h), fun ⟨_, h⟩ => by cases h⟩
        | gradMin g => exact ⟨fun h => (by rw [h2.goal] at h; cases h), fun ⟨_, h⟩ => by cases h⟩
      -- a goal verdict comes from an error evaluation
      have hfunc : ∀ e, verdict S c.vars gens tc start (funcCount (pre ++ [k])) k =
          some (.term (.goal e)) → ∃ x a, k = .func x ∧ ampsOf S c.vars gens x = .ok a ∧
            fidErr S a = .ok e ∧ e ≤ tc.fidErrTarg := by
        intro e hv
        cases k with
        | func x =>
          simp only [verdict] at hv
          cases hx : ampsOf S c.vars gens x with
          | error e' => rw [hx] at hv; cases hv
          | ok a =>
            rw [hx] at hv
            simp only at hv
            cases hf : fidErr S a with
            | error e' => rw [hf] at hv; cases hv
            | ok e' =>
              rw [hf] at hv
              simp only at hv
              split at hv
              · rename_i hle
                injection hv with hv
                injection hv with hv
                injection hv with hv
                subst hv
                exact ⟨x, a, rfl, hx, hf, hle⟩
              · split at hv <;> cases hv
        | grad x =>
          simp only [verdict] at hv
          (repeat' split at hv) <;> cases hv
        | iter u =>
          simp only [verdict] at hv
          (repeat' split at hv) <;> cases hv
      refine ⟨⟨fun h => ?_, fun h => ?_⟩, fun h => ?_⟩
      · obtain ⟨e, rfl⟩ := hgoal.1 h
        obtain ⟨x, a, rfl, hx, hf, hle⟩ := hfunc e hk
        exact ⟨pre, x, post, a, e, rfl, hq, hx, hf, hle⟩
      · obtain ⟨pre', x, post', a, e, heq, hq', hx, hf, hle⟩ := h
        obtain ⟨rfl, rfl⟩ := split pre' x post' a e heq hq' hx hf hle
        refine hgoal.2 ⟨e, ?_⟩
        simp only [verdict, hx, hf, if_pos hle] at hk
        injection hk with hk
        injection hk with hk
        exact hk.symm
      · obtain ⟨e, rfl⟩ := hgoal.1 h
        obtain ⟨x, a, rfl, hx, hf, hle⟩ := hfunc e hk
        have := h3.finalErr
        rw [ampsAfter_append] at this
        simp only [ampsAfter, hx] at this
        have h' : fidErr S a = .ok r.fidErr := this
        rw [hf] at h'
        injection h' with h'
        rw [← h']
        exact hle

/-- **C30**, partial for runs in which the minimiser returns by itself: neither the goal nor
the wall time is reported; `minimize` passes its message on; Nelder-Mead's flags 1 and 2 set
exactly the matching flag, as do BFGS's flag 1 and L-BFGS-B's flag 1 (as far as iterations are
concerned). -/
theorem C30_returns_partial {S : Sys d m D} (hS : Valid S) (c : Cls) (tc : TermConds)
    (junk s0 : State d m D) (a0 : Amps) (gn0 : ℝ) (ops : List VOp) (gens : List Pulse.Crab)
    (start stop : ℝ) (cs : List Call) (f : Finish) (e0 : ℝ) (a : Amps)
    (he : fidErr S (startAmps a0 ops) = .ok e0) (hq : Quiet S c.vars gens tc start cs)
    (hx : ampsOf S c.vars gens f.x = .ok a) :
    ∃ o' r, runOptimization S c tc (attached S junk s0 a0 gn0 ops gens) start stop cs f =
        (o', .ok r) ∧ r.goalAchieved = false ∧ r.wallTimeLimitExceeded = false ∧
      ((c = .base ∨ c = .crab) → Says r cs f.message false false false false false) ∧
      (c = .crabFmin → (f.warn = 0 →
          Says r cs "Function converged (within tolerance)" false false false false false) ∧
        (f.warn = 1 → Says r cs "Maximum number of function evaluations reached"
          false false false true false) ∧
        (f.warn = 2 → Says r cs "Maximum number of iterations reached"
          false false true false false)) ∧
      (c = .bfgs → f.warn = 1 →
        Says r cs "Iteration count limit reached" false false true false false) ∧
      (c = .lbfgsb → f.warn = 1 →
        Says r cs "Iteration or fidelity function call limit reached" false false true false false) ∧
      (c = .lbfgsb → f.warn = 2 → Says r cs f.message false false false false false) := by
  obtain ⟨o', r, r0, h1, h2, h3, _⟩ := run_finished hS c tc
    (attached_inv hS junk s0 a0 gn0 ops gens) start stop cs f he hq hx
  have hgoal : r.goalAchieved = false := by
    rw [h2.goal]
    have h3g := h3.goal
    cases c <;> simp only [report] <;> (repeat' split) <;> exact h3g
  have hwall : r.wallTimeLimitExceeded = false := by
    rw [h2.wall]
    have h3g := h3.wall
    cases c <;> simp only [report] <;> (repeat' split) <;> exact h3g
  refine ⟨o', r, h1, hgoal, hwall, ?_, ?_, ?_, ?_, ?_⟩
  · intro hc
    rcases hc with rfl | rfl
    · exact ⟨h2.reason, hgoal, h2.grad.trans h3.grad, h2.iter.trans h3.iter, h2.fid.trans h3.fid,
        hwall, h2.numFid, h2.numIter⟩
    · exact ⟨h2.reason, hgoal, h2.grad.trans h3.grad, h2.iter.trans h3.iter, h2.fid.trans h3.fid,
        hwall, h2.numFid, h2.numIter⟩
  · rintro rfl
    refine ⟨fun hw => ?_, fun hw => ?_, fun hw => ?_⟩
    all_goals
      simp only [report, hw] at h2
      refine ⟨h2.reason, hgoal, h2.grad.trans ?_, h2.iter.trans ?_, h2.fid.trans ?_, hwall,
        h2.numFid, h2.numIter⟩ <;> first | exact h3.grad | exact h3.iter | exact h3.fid | rfl
  · rintro rfl hw
    simp only [report, hw] at h2
    refine ⟨h2.reason, hgoal, h2.grad.trans ?_, h2.iter.trans ?_, h2.fid.trans ?_, hwall,
        h2.numFid, h2.numIter⟩ <;> first | exact h3.grad | exact h3.iter | exact h3.fid | rfl
  · rintro rfl hw
    simp only [report, hw] at h2
    refine ⟨h2.reason, hgoal, h2.grad.trans ?_, h2.iter.trans ?_, h2.fid.trans ?_, hwall,
        h2.numFid, h2.numIter⟩ <;> first | exact h3.grad | exact h3.iter | exact h3.fid | rfl
  · rintro rfl hw
    simp only [report, hw] at h2
    refine ⟨h2.reason, hgoal, h2.grad.trans ?_, h2.iter.trans ?_, h2.fid.trans ?_, hwall,
        h2.numFid, h2.numIter⟩ <;> first | exact h3.grad | exact h3.iter | exact h3.fid

/-- **C30 fails** when BFGS converges (`warnflag` 0): the result says that the run has not
been started. -/
theorem C30_violated_bfgs {S : Sys d m D} (hS : Valid S) (tc : TermConds)
    (junk s0 : State d m D) (a0 : Amps) (gn0 : ℝ) (ops : List VOp) (gens : List Pulse.Crab)
    (start stop : ℝ) (cs : List Call) (f : Finish) (e0 : ℝ) (a : Amps)
    (he : fidErr S (startAmps a0 ops) = .ok e0) (hq : Quiet S .grape gens tc start cs)
    (hx : ampsOf S .grape gens f.x = .ok a) (hw : f.warn = 0) :
    ∃ o' r, runOptimization S .bfgs tc (attached S junk s0 a0 gn0 ops gens) start stop cs f =
        (o', .ok r) ∧ Says r cs "not started yet" false false false false false := by
  obtain ⟨o', r, r0, h1, h2, h3, _⟩ := run_finished hS .bfgs tc
    (attached_inv hS junk s0 a0 gn0 ops gens) start stop cs f he hq hx
  simp only [report, hw] at h2
  exact ⟨o', r, h1, h2.reason.trans h3.reason, h2.goal.trans h3.goal, h2.grad.trans h3.grad,
    h2.iter.trans h3.iter, h2.fid.trans h3.fid, h2.wall.trans h3.wall, h2.numFid, h2.numIter⟩

/-- **C30 fails** when L-BFGS-B returns with `warnflag` 0 or BFGS with `warnflag` 2: the
gradient norm minimum is reported as reached although the norms of all gradients evaluated in
the run are at least that minimum. -/
theorem C30_violated_grad_min {S : Sys d m D} (hS : Valid S) (c : Cls) (tc : TermConds)
    (junk s0 : State d m D) (a0 : Amps) (gn0 : ℝ) (ops : List VOp) (gens : List Pulse.Crab)
    (start stop : ℝ) (cs : List Call) (f : Finish) (e0 : ℝ) (a : Amps)
    (he : fidErr S (startAmps a0 ops) = .ok e0) (hq : Quiet S c.vars gens tc start cs)
    (hx : ampsOf S c.vars gens f.x = .ok a)
    (hw : (c = .lbfgsb ∧ f.warn = 0) ∨ (c = .bfgs ∧ f.warn = 2)) :
    (∃ o' r, runOptimization S c tc (attached S junk s0 a0 gn0 ops gens) start stop cs f =
        (o', .ok r) ∧ r.gradNormMinReached = true) ∧
    (∀ x ∈ cs.filterMap (fun | .grad x => some x | _ => none), ∃ a g,
      ampsOf S c.vars gens x = .ok a ∧ gradient S a = .ok g ∧ tc.minGradNorm ≤ gradientNorm S g) := by
  obtain ⟨o', r, r0, h1, h2, h3, _⟩ := run_finished hS c tc
    (attached_inv hS junk s0 a0 gn0 ops gens) start stop cs f he hq hx
  refine ⟨⟨o', r, h1, ?_⟩, ?_⟩
  · rw [h2.grad]
    rcases hw with ⟨rfl, hw⟩ | ⟨rfl, hw⟩ <;> simp [report, hw]
  · intro x hx
    rw [List.mem_filterMap] at hx
    obtain ⟨k, hk, hkx⟩ := hx
    cases k with
    | func y => cases hkx
    | iter t => cases hkx
    | grad y =>
      injection hkx with hkx
      subst hkx
      obtain ⟨p, q, rfl⟩ := List.append_of_mem hk
      have := hq p (.grad y) q rfl
      simp only [verdict] at this
      cases hy : ampsOf S c.vars gens y with
      | error e => rw [hy] at this; cases this
      | ok b =>
        rw [hy] at this
        simp only at this
        cases hg : gradient S b with
        | error e => rw [hg] at this; cases this
        | ok g =>
          rw [hg] at this
          simp only at this
          refine ⟨b, g, rfl, hg, ?_⟩
          by_contra hlt
          rw [if_pos (lt_of_not_ge hlt)] at this
          cases this

/-! ### C31 -/

/-- **C31.** When the run is ended by a termination condition, the result's final amplitudes
are those of the last point tried, and its fidelity error and evolution are those of these
amplitudes; likewise for the initial ones. -/
theorem C31_stopped {S : Sys d m D} (hS : Valid S) (c : Cls) (tc : TermConds)
    (junk s0 : State d m D) (a0 : Amps) (gn0 : ℝ) (ops : List VOp) (gens : List Pulse.Crab)
    (start stop : ℝ) (pre : List Call) (k : Call) (post : List Call) (f : Finish) (t : Term) (e0 : ℝ)
    (he : fidErr S (startAmps a0 ops) = .ok e0) (hq : Quiet S c.vars gens tc start pre)
    (hk : verdict S c.vars gens tc start (funcCount (pre ++ [k])) k = some (.term t)) :
    ∃ o' r, runOptimization S c tc (attached S junk s0 a0 gn0 ops gens) start stop
        (pre ++ k :: post) f = (o', .ok r) ∧
      Describes S r (startAmps a0 ops) (ampsAfter S c.vars gens (startAmps a0 ops) (pre ++ [k])) ∧
      r.wallTime = stop - start := by
  obtain ⟨o', r, h1, _, h2, h3, _⟩ := run_stopped hS c tc (attached_inv hS junk s0 a0 gn0 ops gens)
    start stop pre k post f t he hq hk
  exact ⟨o', r, h1, h2, h3⟩

/-- **C31.** When the minimiser returns, the final amplitudes are those of the point it
returned, with their fidelity error and evolution. -/
theorem C31_returned {S : Sys d m D} (hS : Valid S) (c : Cls) (tc : TermConds)
    (junk s0 : State d m D) (a0 : Amps) (gn0 : ℝ) (ops : List VOp) (gens : List Pulse.Crab)
    (start stop : ℝ) (cs : List Call) (f : Finish) (e0 : ℝ) (a : Amps)
    (he : fidErr S (startAmps a0 ops) = .ok e0) (hq : Quiet S c.vars gens tc start cs)
    (hx : ampsOf S c.vars gens f.x = .ok a) :
    ∃ o' r, runOptimization S c tc (attached S junk s0 a0 gn0 ops gens) start stop cs f =
        (o', .ok r) ∧ Describes S r (startAmps a0 ops) a ∧ r.wallTime = stop - start := by
  obtain ⟨o', r, r0, h1, _, _, h2, h3, _⟩ := run_finished hS c tc
    (attached_inv hS junk s0 a0 gn0 ops gens) start stop cs f he hq hx
  exact ⟨o', r, h1, h2, h3⟩

/-- **C31**, partial: the reported gradient norm is that of the final amplitudes if the last
call evaluated the gradient and the run ends there. -/
theorem C31_grad_norm_partial {S : Sys d m D} (hS : Valid S) (c : Cls) (tc : TermConds)
    (junk s0 : State d m D) (a0 : Amps) (gn0 : ℝ) (ops : List VOp) (gens : List Pulse.Crab)
    (start stop : ℝ) (pre : List Call) (x : List ℝ) (f : Finish) (e0 : ℝ)
    (he : fidErr S (startAmps a0 ops) = .ok e0) :
    (∀ post t, Quiet S c.vars gens tc start pre →
      verdict S c.vars gens tc start (funcCount (pre ++ [.grad x])) (.grad x) = some (.term t) →
      ∃ o' r a g, runOptimization S c tc (attached S junk s0 a0 gn0 ops gens) start stop
          (pre ++ .grad x :: post) f = (o', .ok r) ∧
        a = ampsAfter S c.vars gens (startAmps a0 ops) (pre ++ [.grad x]) ∧
        gradient S a = .ok g ∧ r.gradNormFinal = gradientNorm S g) ∧
    (∀ a, Quiet S c.vars gens tc start (pre ++ [.grad x]) → f.x = x →
      ampsOf S c.vars gens f.x = .ok a →
      ∃ o' r g, runOptimization S c tc (attached S junk s0 a0 gn0 ops gens) start stop
          (pre ++ [.grad x]) f = (o', .ok r) ∧
        gradient S a = .ok g ∧ r.gradNormFinal = gradientNorm S g) := by
  have hi := attached_inv hS junk s0 a0 gn0 ops gens
  refine ⟨fun post t hq hk => ?_, fun a hq hfx hx => ?_⟩
  · obtain ⟨o', r, h1, _, _, _, h2, _⟩ := run_stopped hS c tc hi start stop pre (.grad x) post f t he hq hk
    obtain ⟨g, g1, g2⟩ := h2 x rfl
    exact ⟨o', r, _, g, h1, rfl, g1, g2⟩
  · obtain ⟨o', r, r0, h1, _, _, _, _, h2, _⟩ := run_finished hS c tc hi start stop _ f he hq hx
    have hsame : SameAmps S a (ampsAfter S c.vars gens (startAmps a0 ops) (pre ++ [.grad x])) := by
      rw [ampsAfter_append]
      rw [hfx] at hx
      simp only [ampsAfter, hx]
      exact fun _ _ _ _ => rfl
    obtain ⟨g, g1, g2⟩ := h2 x pre rfl hsame
    exact ⟨o', r, g, h1, g1, g2⟩

end QTrl.Opt
