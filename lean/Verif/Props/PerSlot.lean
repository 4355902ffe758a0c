import Verif.Props.Reuse

/-
C88: operators given slot by slot are given for every slot.
-/

namespace QTrl.Reuse

open QTrl.Mem (MemOpts Dtype)

variable {K V : Type} [Field K] [AddCommGroup V] [Module K V]

/-- The operators given slot by slot reach this slot. -/
structure Reaches (S : System V) (k : Nat) : Prop where
  drift : ∀ l, S.drift = .perSlot l → k < l.length
  ctrls : ∀ rows, S.ctrls = .array rows → k < rows.length

theorem fold_error {α β : Type} (f : Except PyErr α → β → Except PyErr α)
    (hf : ∀ e b, f (.error e) b = .error e) (l : List β) (e : PyErr) :
    l.foldl f (.error e) = .error e := by
  induction l with
  | nil => rfl
  | cons b l ih => rw [List.foldl_cons, hf, ih]

/-- **C88**, partial: after any history with systems of a kind and a successful initialisation, the
generator of a slot is the documented one if the operators reach the slot; otherwise asking for it
raises `IndexError`.  Missing: the initialisation should have refused such operators. -/
theorem C88_slots_partial (W : World V) (m : MemOpts) (nTs : Nat) (sympl hasPhase : Bool)
    (scale : Option K) (s : Sig) (hn : 0 < s.n) (S₀ S : System V) (h₀ : Fits W m s S₀)
    (hS : Fits W m s S) (ops : List (Op V)) (ho : ∀ op ∈ ops, OpFits W m s op)
    (hok : (prepare W (run W (new (K := K) m nTs sympl hasPhase scale S₀) ops) S).2 = .ok ())
    (amps : Nat → Nat → K) (k : Nat) :
    let o := (prepare W (run W (new (K := K) m nTs sympl hasPhase scale S₀) ops) S).1
    (Reaches S k → generator W o S amps k = .ok (docGen S s.n amps k)) ∧
    (¬ Reaches S k → generator W o S amps k = .error .indexError) := by
  refine ⟨fun h => (C68_generator_partial W m nTs sympl hasPhase scale s S₀ S h₀ hS ops ho hok amps k
    h.drift h.ctrls).2, fun h => ?_⟩
  have i1 := inv_run (inv_new (K := K) (nTs := nTs) (sympl := sympl) (hasPhase := hasPhase)
    (scale := scale) h₀) ops ho
  rw [(prepare_known i1 hS).2 hok]
  have hf := hS.ctrls
  unfold generator ready
  simp only [Option.getD_some]
  obtain ⟨n, hn'⟩ : ∃ n, s.n = n + 1 := ⟨s.n - 1, by omega⟩
  cases hd : S.drift with
  | perSlot l =>
    simp only [Drift.perSlot?, if_true]
    by_cases hk : k < l.length
    · rw [List.getElem?_eq_getElem hk]
      simp only
      cases hc : S.ctrls with
      | list l => exact (h ⟨fun l' e => by rw [hd] at e; cases e; exact hk,
          fun rows e => (by rw [hc] at e; cases e)⟩).elim
      | nested rows => rw [hc] at hf; exact hf.elim
      | array rows =>
        rw [hc] at hf
        have hr : rows[k]? = none := by
          rw [List.getElem?_eq_none_iff]
          by_contra hlt
          exact h ⟨fun l' e => by rw [hd] at e; cases e; exact hk,
            fun rows' e => by rw [hc] at e; cases e; omega⟩
        rw [hn', List.range_succ_eq_map, List.foldl_cons]
        simp only [elem, hf.1, hr, if_true]
        exact fold_error _ (fun _ _ => rfl) _ _
    · rw [List.getElem?_eq_none (by omega)]
      exact fold_error _ (fun _ _ => rfl) _ _
  | single A =>
    simp only [Drift.perSlot?, Bool.false_eq_true, if_false]
    cases hc : S.ctrls with
    | list l => exact (h ⟨fun l' e => (by rw [hd] at e; cases e),
        fun rows e => (by rw [hc] at e; cases e)⟩).elim
    | nested rows => rw [hc] at hf; exact hf.elim
    | array rows =>
      rw [hc] at hf
      have hr : rows[k]? = none := by
        rw [List.getElem?_eq_none_iff]
        by_contra hlt
        exact h ⟨fun l' e => (by rw [hd] at e; cases e),
          fun rows' e => by rw [hc] at e; cases e; omega⟩
      rw [hn', List.range_succ_eq_map, List.foldl_cons]
      simp only [elem, hf.1, hr, if_true]
      exact fold_error _ (fun _ _ => rfl) _ _

/-- A drift for two of the three slots. -/
def exShort : System Rat :=
  { drift := .perSlot [4, 5], ctrls := .list [7, 8], initial := 3, target := 4 }

/-- A drift for five slots where there are three. -/
def exLong : System Rat :=
  { drift := .perSlot [4, 5, 6, 9, 9], ctrls := .list [7, 8], initial := 3, target := 4 }

/-- Controls for two of the three slots. -/
def exFew : System Rat :=
  { drift := .single 1, ctrls := .array [[2, 3], [4, 5]], initial := 1, target := 2 }

theorem exShort_fits : Fits exW exMem exSig exShort :=
  ⟨⟨rfl, rfl⟩, ⟨4, [5], rfl, by simp only [exW, exSig]; norm_num⟩, fun h => by cases h⟩

example : generator exW (prepare exW (run exW (exNew exMem true exA) exOps) exShort).1 exShort
      (fun _ _ => 1) 1 = .ok 20 ∧
    generator exW (prepare exW (run exW (exNew exMem true exA) exOps) exShort).1 exShort
      (fun _ _ => 1) 2 = .error .indexError := by
  have h := fun k => C88_slots_partial (K := Rat) exW exMem 3 true false none exSig (by decide) exA
    exShort exA_fits exShort_fits exOps exOps_fit (by decide +kernel) (fun _ _ => 1) k
  refine ⟨((h 1).1 ⟨fun l e => ?_, fun rows e => ?_⟩).trans (by decide +kernel), (h 2).2 fun r => ?_⟩
  · cases e; decide
  · cases e
  · exact absurd (r.drift _ rfl) (by decide)

omit [AddCommGroup V] in
/-- Reading the elements succeeds only if there are enough of them. -/
theorem readAll_rows {rows : List (List V)} {nTs n : Nat} (hn : 0 < n)
    (h : readAll (.array rows) nTs n = .ok ()) : nTs ≤ rows.length := by
  by_contra hlt
  have hlt : rows.length < nTs := by omega
  have key : ∀ (ps : List (Nat × Nat)) (x : Except PyErr Unit),
      ps.foldl (fun r p => match r with
        | .error e => .error e
        | .ok () => (elem true (.array rows) p.1 p.2).map fun _ => ()) x = .ok () →
      ∀ p ∈ ps, ∃ A, elem true (.array rows) p.1 p.2 = .ok A := by
    intro ps
    induction ps with
    | nil => intro x _ p hp; cases hp
    | cons q ps ih =>
      intro x hx p hp
      rw [List.foldl_cons] at hx
      rcases List.mem_cons.1 hp with rfl | hp
      · cases x with
        | error e =>
          simp only at hx
          rw [fold_error _ (fun _ _ => rfl)] at hx
          cases hx
        | ok u =>
          cases he : elem true (.array rows) p.1 p.2 with
          | ok A => exact ⟨A, rfl⟩
          | error e =>
            simp only [he, Except.map] at hx
            rw [fold_error _ (fun _ _ => rfl)] at hx
            cases hx
      · exact ih _ hx p hp
  obtain ⟨A, hA⟩ := key _ _ h (rows.length, 0) (by
    rw [List.mem_flatMap]
    exact ⟨rows.length, List.mem_range.2 hlt, List.mem_map.2 ⟨0, List.mem_range.2 hn, rfl⟩⟩)
  simp [elem] at hA

/-- **C88**: with arrays as the data type, controls given slot by slot for fewer slots than there are
are refused by the initialisation. -/
theorem C88_arrays (W : World V) (m : MemOpts) (nTs : Nat) (sympl hasPhase : Bool)
    (scale : Option K) (s : Sig) (hn : 0 < s.n) (S₀ S : System V) (h₀ : Fits W m s S₀)
    (hS : Fits W m s S) (ops : List (Op V)) (ho : ∀ op ∈ ops, OpFits W m s op)
    (hd : m.operDtype.getD s.dtype = .ndarray) (rows : List (List V)) (hc : S.ctrls = .array rows)
    (hok : (prepare W (run W (new (K := K) m nTs sympl hasPhase scale S₀) ops) S).2 = .ok ()) :
    nTs ≤ rows.length := by
  have i1 := inv_run (inv_new (K := K) (nTs := nTs) (sympl := sympl) (hasPhase := hasPhase)
    (scale := scale) h₀) ops ho
  have h1 := (prepare_known i1 hS).1
  rw [hok] at h1
  have hf := hS.ctrls
  rw [hc] at hf
  unfold outcome at h1
  split at h1
  · cases h1
  · generalize hb : before (K := K) m nTs sympl hasPhase s
        { run W (new (K := K) m nTs sympl hasPhase scale S₀) ops with sys := S } = b at h1
    have b1 : b.mem.operDtype = some .ndarray := by
      rw [← hb, ← hd]; rfl
    have b2 : b.tdCtrl = true := by rw [← hb]; exact hf.1
    have b3 : b.sys.ctrls = .array rows := by rw [← hb]; exact hc
    have b4 : b.nTs = nTs := by rw [← hb]; rfl
    have b5 : b.num.getD 0 = s.n := by rw [← hb]; rfl
    rw [b5] at h1
    cases hr : readAll (.array rows) nTs s.n with
    | ok u => exact readAll_rows hn hr
    | error e =>
      have : containers W b s.n = .error e := by
        unfold containers
        simp [b1, b2, b3, b4, hr]
      rw [this] at h1
      cases h1

/-- The options: arrays chosen by the user. -/
def exArrays : MemOpts :=
  { level := 0, operDtype := some .ndarray, cachePhased := none, cachePropGrad := none,
    cacheAdj := none, sparse := none }

/-- The kind of the systems with controls for each slot. -/
def exRowsSig : Sig := ⟨2, true, 2, .ndarray⟩

theorem exE_fits_arrays : Fits exW exArrays exRowsSig exE :=
  ⟨⟨rfl, by simp, by simp [exRowsSig]⟩,
    by simp only [DriftFit, exE, exW, exRowsSig]; norm_num, fun h => by cases h⟩

example : (prepare exW (exNew exArrays false exE) exE).2 = .ok () ∧
    (prepare exW (exNew exArrays false exE) exFew).2 = .error .indexError := by
  decide +kernel

example : 3 ≤ [[(2 : Rat), 3], [4, 5], [6, 7]].length :=
  C88_arrays (K := Rat) exW exArrays 3 false false none exRowsSig (by decide) exE exE
    exE_fits_arrays exE_fits_arrays [] (fun _ h => by cases h) rfl _ rfl (by decide +kernel)

/-- **C88**: whether the initialisation succeeds does not depend on the drift operators of systems of
a kind, and so not on how many there are. -/
theorem C88_unchecked (W : World V) (m : MemOpts) (nTs : Nat) (sympl hasPhase : Bool)
    (scale : Option K) (s : Sig) (S₀ S : System V) (d : Drift V) (h₀ : Fits W m s S₀)
    (hS : Fits W m s S) (hS' : Fits W m s { S with drift := d }) (ops : List (Op V))
    (ho : ∀ op ∈ ops, OpFits W m s op) :
    (prepare W (run W (new (K := K) m nTs sympl hasPhase scale S₀) ops) { S with drift := d }).2 =
      (prepare W (run W (new (K := K) m nTs sympl hasPhase scale S₀) ops) S).2 := by
  have i1 := inv_run (inv_new (K := K) (nTs := nTs) (sympl := sympl) (hasPhase := hasPhase)
    (scale := scale) h₀) ops ho
  rw [(prepare_known i1 hS).1, (prepare_known i1 hS').1]
  unfold outcome containers before ready
  simp only
  split
  · rfl
  · split <;> split <;> simp_all

example : (prepare exW (run exW (exNew exMem true exA) exOps) exShort).2 =
    (prepare exW (run exW (exNew exMem true exA) exOps) exB).2 :=
  C88_unchecked (K := Rat) exW exMem 3 true false none exSig exA exB (.perSlot [4, 5]) exA_fits
    exB_fits exShort_fits exOps exOps_fit

/-- **C88 fails** for a drift that is given for too few slots: documented is one operator for each
slot (dynamics.py 232-236), but the length is never compared with the number of slots; the
initialisation succeeds, the first slots have generators, and the first slot without an operator
raises `IndexError` in the middle of the first evaluation. -/
theorem C88_violated_short_drift :
    let r := prepare exW (exNew exMem false exShort) exShort
    r.2 = .ok () ∧
      generator exW r.1 exShort (fun _ _ => 1) 0 = .ok 19 ∧
      generator exW r.1 exShort (fun _ _ => 1) 1 = .ok 20 ∧
      generator exW r.1 exShort (fun _ _ => 1) 2 = .error .indexError := by
  decide +kernel

/-- **C88 fails** for a drift that is given for too many slots: everything succeeds, and the
operators beyond the last slot are ignored without a word. -/
theorem C88_violated_long_drift :
    let r := prepare exW (exNew exMem false exLong) exLong
    let r' := prepare exW (exNew exMem false exB) exB
    r.2 = .ok () ∧ r.1.nTs = 3 ∧
      ∀ k < 3, generator exW r.1 exLong (fun _ _ => 1) k =
        generator exW r'.1 exB (fun _ _ => 1) k := by
  decide +kernel

/-- **C88 fails** for controls that are given for too few slots with `Qobj` as the data type: the
initialisation succeeds, the last slot raises `IndexError`.  With arrays the same controls are
refused by the initialisation. -/
theorem C88_violated_short_ctrls :
    let r := prepare exW (exNew exMem false exFew) exFew
    r.2 = .ok () ∧
      generator exW r.1 exFew (fun _ _ => 1) 1 = .ok 10 ∧
      generator exW r.1 exFew (fun _ _ => 1) 2 = .error .indexError ∧
      (prepare exW (exNew exArrays false exFew) exFew).2 = .error .indexError := by
  decide +kernel

end QTrl.Reuse
