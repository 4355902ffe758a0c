import Verif.Proofs.PulseOptim
import Verif.Props.OptimSetup

/-
Lemmas about how the entry points of pulseoptim.py pass their arguments on.
-/

namespace QTrl.PO

open QTrl.Opt (Dict Attrs setattr setAll Cls Conf)

/-! ### Nothing to do for deprecated parameters -/

theorem foldKw_none {kw target check store : String} {s : St} (h : s.vars kw = .none) :
    foldKw kw target check store s = s := by
  unfold foldKw; rw [h]

theorem foldAlg_none {s : St} (h : s.vars "optim_alg" = .none) : foldAlg s = s := by
  unfold foldAlg; rw [h]

theorem foldAmpMode_none {s : St} (h : s.vars "amp_update_mode" = .none) : foldAmpMode s = s := by
  unfold foldAmpMode; rw [h]

/-- The deprecated parameters of `create_pulse_optimizer` and `optimize_pulse`. -/
def deprecatedNames : List String :=
  ["optim_alg", "max_metric_corr", "accuracy_factor", "phase_option", "fid_err_scale_factor",
    "amp_update_mode"]

theorem foldDeprecated_none {s : St} (h : ∀ n ∈ deprecatedNames, s.vars n = .none) :
    foldDeprecated s = s := by
  have h1 := h "optim_alg" (by decide)
  have h2 := h "max_metric_corr" (by decide)
  have h3 := h "accuracy_factor" (by decide)
  have h4 := h "phase_option" (by decide)
  have h5 := h "fid_err_scale_factor" (by decide)
  have h6 := h "amp_update_mode" (by decide)
  unfold foldDeprecated foldMethod
  rw [foldAlg_none h1, foldKw_none h2, foldKw_none h3, foldKw_none h4, foldKw_none h5,
    foldAmpMode_none h6]

theorem optimizeCall_deprecated (s : St) : ∀ n ∈ deprecatedNames, (optimizeCall s).vars n = .none := by
  intro n hn
  simp only [deprecatedNames, List.mem_cons, List.not_mem_nil, or_false] at hn
  rcases hn with rfl | rfl | rfl | rfl | rfl | rfl <;> rfl

/-- `optimize_pulse` leaves nothing for `create_pulse_optimizer` to fold. -/
theorem optimizeCall_folded (s : St) : foldDeprecated (optimizeCall s) = optimizeCall s :=
  foldDeprecated_none (optimizeCall_deprecated s)

theorem crabCall_deprecated (s : St) : ∀ n ∈ deprecatedNames, (crabCall s).vars n = .none := by
  intro n hn
  simp only [deprecatedNames, List.mem_cons, List.not_mem_nil, or_false] at hn
  rcases hn with rfl | rfl | rfl | rfl | rfl | rfl <;> rfl

theorem unitaryCall_deprecated {s c : St} (h : unitaryCall s = .ok c) :
    ∀ n ∈ deprecatedNames, c.vars n = .none := by
  obtain ⟨t, -, rfl⟩ := map_ok h
  intro n hn
  simp only [deprecatedNames, List.mem_cons, List.not_mem_nil, or_false] at hn
  rcases hn with rfl | rfl | rfl | rfl | rfl | rfl <;> rfl

/-- The state in which `create_pulse_optimizer` is called. -/
def Entry.reached (e : Entry) (s : St) : Except PyErr St :=
  match e with
  | .optimize => .ok (optimizeCall s)
  | .unitary => (unitaryCall s).map optimizeCall
  | .crab => .ok (optimizeCall (crabCall s))
  | .crabUnitary => (unitaryCall (crabUnitaryCall s)).map optimizeCall

theorem optimize_ok {W : World} {s : St} {run : Run} {h' : Heap} (h : optimize W s = (.ok run, h')) :
    create W (optimizeCall s) = (.ok run.optim, h') ∧ h' = (optimizeCall s).heap ∧
      start W s run.optim = .ok run ∧ run.ext = s.vars "out_file_ext" := by
  unfold optimize at h
  split at h
  · simp at h
  · rename_i o h1 hc
    simp only [Prod.mk.injEq] at h
    obtain ⟨h2, rfl⟩ := h
    have h3 := h2
    unfold start at h3
    obtain ⟨l, -, rfl⟩ := map_ok h3
    obtain ⟨n, -, h4, -⟩ := create_ok hc
    rw [optimizeCall_folded] at h4
    exact ⟨hc, h4, h2, rfl⟩

theorem optimizeUnitary_ok {W : World} {s : St} {run : Run} {h' : Heap}
    (h : optimizeUnitary W s = (.ok run, h')) :
    ∃ c, unitaryCall s = .ok c ∧ optimize W c = (.ok run, h') := by
  unfold optimizeUnitary at h
  split at h
  · simp at h
  · rename_i c hc; exact ⟨c, hc, h⟩

theorem foldPhase_vars {s t : St} (h : foldPhase s = .ok t) {n : String} (hn : n ≠ "fid_params") :
    t.vars n = s.vars n := by
  unfold foldPhase at h
  split at h
  · cases h; rfl
  · split at h
    · cases h; exact Env.set_ne s.vars _ hn
    · cases h; split <;> rfl
    · cases h

theorem unitaryFold_vars {s t : St} (h : unitaryFold s = .ok t) {n : String}
    (h1 : n ≠ "optim_method") (h2 : n ≠ "method_params") (h3 : n ≠ "fid_params")
    (h4 : n ≠ "tslot_type") : t.vars n = s.vars n := by
  rw [foldPhase_vars h h3, foldAmpMode_vars _ h4, foldMethod_vars _ h2, foldAlg_vars _ h1]

theorem unitaryFold_method {s t : St} (h : unitaryFold s = .ok t) :
    t.vars "optim_method" = methodAsked s.vars := by
  rw [foldPhase_vars h (by decide), foldAmpMode_vars _ (by decide), foldMethod_vars _ (by decide),
    foldAlg_method]

theorem fillKey_vars (var key : String) (r : ℕ) (s : St) : (fillKey var key r s).vars = s.vars := by
  unfold fillKey
  split
  · rfl
  · split <;> rfl

theorem fillGuess_vars (r : ℕ) (s : St) : (fillGuess r s).vars = s.vars := by
  unfold fillGuess
  rw [fillKey_vars, fillKey_vars, fillKey_vars]

theorem crabAlgParams_vars (s : St) {n : String} (h : n ≠ "alg_params") :
    (crabAlgParams s).vars n = s.vars n := by
  unfold crabAlgParams
  split
  · rw [fillKey_vars, fillKey_vars]
  · exact Env.set_ne s.vars _ h

theorem crabGuessParams_vars (s : St) {n : String} (h : n ≠ "guess_pulse_params") :
    (crabGuessParams s).vars n = s.vars n := by
  unfold crabGuessParams
  split
  · split
    · rw [fillGuess_vars]
    · rw [fillGuess_vars]; exact Env.set_ne s.vars _ h
  · rfl

theorem crabFold_vars (s : St) {n : String} (h1 : n ≠ "alg_params") (h2 : n ≠ "guess_pulse_params") :
    (crabFold s).vars n = s.vars n := by
  unfold crabFold
  rw [crabGuessParams_vars _ h2, crabAlgParams_vars _ h1]

/-- A successful call reached `create_pulse_optimizer`, and the run has its optimiser. -/
theorem call_ok {e : Entry} {W : World} {args : Dict Val} {h h' : Heap} {run : Run}
    (hc : e.call W args h = (.ok run, h')) :
    ∃ s', e.reached ⟨bind e.defaults args, h⟩ = .ok s' ∧ create W s' = (.ok run.optim, h') ∧
      h' = s'.heap ∧ run.ext = bind e.defaults args "out_file_ext" := by
  cases e with
  | optimize =>
    obtain ⟨h1, h2, -, h3⟩ := optimize_ok hc
    exact ⟨_, rfl, h1, h2, h3⟩
  | unitary =>
    obtain ⟨c, h1, h2⟩ := optimizeUnitary_ok hc
    obtain ⟨h3, h4, -, h5⟩ := optimize_ok h2
    refine ⟨_, ?_, h3, h4, ?_⟩
    · unfold Entry.reached; simp only [h1]; rfl
    · rw [h5]
      obtain ⟨t, ht, rfl⟩ := map_ok h1
      exact unitaryFold_vars ht (n := "out_file_ext") (by decide) (by decide) (by decide) (by decide)
  | crab =>
    obtain ⟨h1, h2, -, h3⟩ := optimize_ok hc
    refine ⟨_, rfl, h1, h2, ?_⟩
    rw [h3]
    exact crabFold_vars ⟨bind Entry.crab.defaults args, h⟩ (n := "out_file_ext") (by decide)
      (by decide)
  | crabUnitary =>
    obtain ⟨c, h1, h2⟩ := optimizeUnitary_ok hc
    obtain ⟨h3, h4, -, h5⟩ := optimize_ok h2
    refine ⟨_, ?_, h3, h4, ?_⟩
    · unfold Entry.reached; simp only [h1]; rfl
    · rw [h5]
      obtain ⟨t, ht, rfl⟩ := map_ok h1
      refine (unitaryFold_vars ht (n := "out_file_ext") (by decide) (by decide) (by decide)
        (by decide)).trans ?_
      exact crabFold_vars ⟨bind Entry.crabUnitary.defaults args, h⟩ (n := "out_file_ext")
        (by decide) (by decide)

/-- Checking a statement for each element of a concrete list. -/
theorem forall_cons {α : Type} {P : α → Prop} {a : α} {l : List α} (h : P a) (hl : ∀ x ∈ l, P x) :
    ∀ x ∈ a :: l, P x := List.forall_mem_cons.2 ⟨h, hl⟩

theorem forall_nil {α : Type} {P : α → Prop} : ∀ x ∈ ([] : List α), P x :=
  fun _ h => absurd h List.not_mem_nil

/-- The names that `optimize_pulse` passes on without touching them. -/
theorem optimizeCall_vars (s : St) : ∀ p ∈ Entry.optimize.plain,
    (optimizeCall s).vars p.2 = s.vars p.2 := by
  have hf : ∀ n, n ≠ "optim_method" → n ≠ "method_params" → n ≠ "fid_params" → n ≠ "tslot_type" →
    (foldDeprecated s).vars n = s.vars n := fun n => foldDeprecated_vars s
  have h1 : ∀ p ∈ Entry.optimize.plain,
      (optimizeCall s).vars p.2 = (foldDeprecated s).vars p.2 := by
    repeat
      first
      | exact forall_nil
      | refine forall_cons rfl ?_
  have h2 : ∀ p ∈ Entry.optimize.plain, p.2 ≠ "optim_method" ∧ p.2 ≠ "method_params" ∧
      p.2 ≠ "fid_params" ∧ p.2 ≠ "tslot_type" := by decide
  intro p hp
  obtain ⟨a, b, c, d⟩ := h2 p hp
  rw [h1 p hp, hf _ a b c d]

theorem optimizeCall_method (s : St) : (optimizeCall s).vars "optim_method" = methodAsked s.vars :=
  foldDeprecated_method s

theorem methodAsked_eq {g : Env} (h : g "optim_alg" = .none) : methodAsked g = g "optim_method" :=
  if_pos h

/-- The plain parameters of an entry point arrive at `create_pulse_optimizer`. -/
theorem reached_plain {e : Entry} {s s' : St} (h : e.reached s = .ok s') :
    ∀ p ∈ e.plain, s'.vars p.2 = s.vars p.1 := by
  cases e with
  | optimize =>
    simp only [Entry.reached] at h
    cases h
    have hp : ∀ p ∈ Entry.optimize.plain, p.1 = p.2 := by decide
    intro p hp'
    rw [optimizeCall_vars s p hp', hp p hp']
  | unitary =>
    obtain ⟨c, hc, rfl⟩ := map_ok h
    obtain ⟨t, ht, rfl⟩ := map_ok hc
    have h1 : ∀ p ∈ Entry.unitary.plain, (p.2, p.2) ∈ Entry.optimize.plain ∧
        (p.1 ≠ "optim_method" ∧ p.1 ≠ "method_params" ∧ p.1 ≠ "fid_params" ∧ p.1 ≠ "tslot_type") := by
      decide
    have h2 : ∀ p ∈ Entry.unitary.plain, bind optimizeDefaults (("dyn_type", .str "UNIT") ::
        kwargs t.vars unitaryArgs) p.2 = t.vars p.1 := by
      repeat
        first
        | exact forall_nil
        | refine forall_cons rfl ?_
    intro p hp
    obtain ⟨a, b1, b2, b3, b4⟩ := h1 p hp
    rw [optimizeCall_vars _ _ a, ← unitaryFold_vars ht b1 b2 b3 b4]
    exact h2 p hp
  | crab =>
    simp only [Entry.reached] at h
    cases h
    have h1 : ∀ p ∈ Entry.crab.plain, (p.2, p.2) ∈ Entry.optimize.plain ∧
        p.1 ≠ "alg_params" ∧ p.1 ≠ "guess_pulse_params" := by
      decide
    have h2 : ∀ p ∈ Entry.crab.plain, (crabCall s).vars p.2 = (crabFold s).vars p.1 := by
      repeat
        first
        | exact forall_nil
        | refine forall_cons rfl ?_
    intro p hp
    obtain ⟨a, b1, b2⟩ := h1 p hp
    rw [optimizeCall_vars _ _ a, h2 p hp, crabFold_vars s b1 b2]
  | crabUnitary =>
    obtain ⟨c, hc, rfl⟩ := map_ok h
    obtain ⟨t, ht, rfl⟩ := map_ok hc
    obtain ⟨mid, hmid⟩ : ∃ mid : String × String → String,
      mid = fun p => if p.1 = "guess_pulse_type" then "init_pulse_type" else p.1 := ⟨_, rfl⟩
    have h1 : ∀ p ∈ Entry.crabUnitary.plain, (p.2, p.2) ∈ Entry.optimize.plain ∧
        (mid p ≠ "optim_method" ∧ mid p ≠ "method_params" ∧ mid p ≠ "fid_params" ∧
          mid p ≠ "tslot_type") ∧ p.1 ≠ "alg_params" ∧ p.1 ≠ "guess_pulse_params" := by
      subst hmid; decide
    have h2 : ∀ p ∈ Entry.crabUnitary.plain, bind optimizeDefaults (("dyn_type", .str "UNIT") ::
        kwargs t.vars unitaryArgs) p.2 = t.vars (mid p) := by
      subst hmid
      repeat
        first
        | exact forall_nil
        | refine forall_cons rfl ?_
    have h3 : ∀ p ∈ Entry.crabUnitary.plain,
        (crabUnitaryCall s).vars (mid p) = (crabFold s).vars p.1 := by
      subst hmid
      repeat
        first
        | exact forall_nil
        | refine forall_cons rfl ?_
    intro p hp
    obtain ⟨a, ⟨b1, b2, b3, b4⟩, c1, c2⟩ := h1 p hp
    rw [optimizeCall_vars _ _ a, ← crabFold_vars s c1 c2, ← h3 p hp,
      ← unitaryFold_vars ht b1 b2 b3 b4]
    exact h2 p hp

/-- What an entry point fixes. -/
theorem reached_fixed {e : Entry} {s s' : St} (h : e.reached s = .ok s') :
    ∀ p ∈ e.fixed, s'.vars p.1 = p.2 := by
  cases e with
  | optimize => exact forall_nil
  | unitary =>
    obtain ⟨c, hc, rfl⟩ := map_ok h
    obtain ⟨t, ht, rfl⟩ := map_ok hc
    refine forall_cons ?_ forall_nil
    exact optimizeCall_vars _ ("dyn_type", "dyn_type") (by decide)
  | crab =>
    simp only [Entry.reached] at h
    cases h
    refine forall_cons ?_ forall_nil
    exact optimizeCall_vars _ ("alg", "alg") (by decide)
  | crabUnitary =>
    obtain ⟨c, hc, rfl⟩ := map_ok h
    obtain ⟨t, ht, rfl⟩ := map_ok hc
    refine forall_cons ?_ (forall_cons ?_ forall_nil)
    · exact optimizeCall_vars _ ("dyn_type", "dyn_type") (by decide)
    · refine (optimizeCall_vars _ ("alg", "alg") (by decide)).trans ?_
      exact unitaryFold_vars ht (n := "alg") (by decide) (by decide) (by decide) (by decide)

theorem reached_method {e : Entry} {s s' : St} (h : e.reached s = .ok s') :
    s'.vars "optim_method" = e.methodAsked s.vars := by
  cases e with
  | optimize =>
    simp only [Entry.reached] at h
    cases h
    exact optimizeCall_method s
  | unitary =>
    obtain ⟨c, hc, rfl⟩ := map_ok h
    obtain ⟨t, ht, rfl⟩ := map_ok hc
    rw [optimizeCall_method, methodAsked_eq rfl]
    exact Eq.trans (b := t.vars "optim_method") rfl (unitaryFold_method ht)
  | crab =>
    simp only [Entry.reached] at h
    cases h
    rw [optimizeCall_method, methodAsked_eq rfl]
    exact crabFold_vars s (n := "optim_method") (by decide) (by decide)
  | crabUnitary =>
    obtain ⟨c, hc, rfl⟩ := map_ok h
    obtain ⟨t, ht, rfl⟩ := map_ok hc
    rw [optimizeCall_method, methodAsked_eq rfl]
    refine (unitaryFold_method ht).trans ?_
    rw [methodAsked_eq rfl]
    exact crabFold_vars s (n := "optim_method") (by decide) (by decide)

/-! ### Dictionaries -/

/-- Every dictionary that existed keeps its entries apart from those for some keys. -/
def Heap.Keeps (h h' : Heap) (ks : List String) : Prop :=
  h.next ≤ h'.next ∧ ∀ i, i < h.next → ∀ n, n ∉ ks → (h'.dicts i).get n = (h.dicts i).get n

theorem Heap.Keeps.refl (h : Heap) (ks : List String) : h.Keeps h ks :=
  ⟨Nat.le_refl _, fun _ _ _ _ => rfl⟩

theorem Heap.Keeps.trans {h1 h2 h3 : Heap} {ks ks' : List String} (a : h1.Keeps h2 ks)
    (b : h2.Keeps h3 ks') : h1.Keeps h3 (ks ++ ks') := by
  refine ⟨Nat.le_trans a.1 b.1, fun i hi n hn => ?_⟩
  rw [List.mem_append, not_or] at hn
  rw [b.2 i (Nat.lt_of_lt_of_le hi a.1) n hn.2, a.2 i hi n hn.1]

theorem put_get (h : Heap) (r : ℕ) (k : String) (v : Val) (i : ℕ) (n : String) :
    ((h.put r k v).dicts i).get n =
      if i = r ∧ n = k then some v else (h.dicts i).get n := by
  unfold Heap.put
  simp only
  by_cases hi : i = r
  · subst hi
    rw [if_pos rfl, Dict.get_set]
    by_cases hn : n = k <;> simp [hn]
  · simp [hi]

theorem keeps_put (h : Heap) (r : ℕ) (k : String) (v : Val) : h.Keeps (h.put r k v) [k] := by
  refine ⟨Nat.le_refl _, fun i _ n hn => ?_⟩
  rw [put_get, if_neg]
  rintro ⟨-, rfl⟩
  exact hn (by simp)

theorem keeps_alloc (h : Heap) (d : Dict Val) : h.Keeps (h.alloc d) [] := by
  refine ⟨Nat.le_succ _, fun i hi n _ => ?_⟩
  unfold Heap.alloc
  simp only
  rw [if_neg (Nat.ne_of_lt hi)]

theorem alloc_get (h : Heap) (d : Dict Val) (n : String) :
    ((h.alloc d).dicts h.next).get n = d.get n := by
  unfold Heap.alloc
  simp

/-- Completing a missing entry. -/
theorem completed_has {d : Dict Val} {k : String} {v : Val} (h : d.has k = true) :
    completed d k v = d.get k := by
  unfold Dict.has at h
  unfold completed
  cases hd : d.get k with
  | none => rw [hd] at h; cases h
  | some w => rfl

theorem completed_none (d : Dict Val) (k : String) : completed d k .none = d.get k := by
  unfold completed; simp

theorem completed_missing {d : Dict Val} {k : String} {v : Val} (h : ¬ d.has k = true)
    (hv : v ≠ .none) : completed d k v = some v := by
  unfold Dict.has at h
  unfold completed
  cases hd : d.get k with
  | none => rw [if_neg hv]; rfl
  | some w => rw [hd] at h; exact absurd rfl h

/-- A deprecated keyword completes the entry it stands for, if the entry it looks for is the
one it writes. -/
theorem foldKw_get {kw target k : String} (s : St) :
    (entries (foldKw kw target k k s).heap ((foldKw kw target k k s).vars target)).get k =
      completed (entries s.heap (s.vars target)) k (s.vars kw) := by
  unfold foldKw
  split
  · rename_i hv
    rw [hv, completed_none]
  · rename_i hv
    split
    · rename_i r ht
      split
      · rename_i hh
        rw [completed_has (by rw [ht]; exact hh)]
      · rename_i hh
        rw [completed_missing (by rw [ht]; exact hh) hv]
        simp only [ht, entries, dictOf, Option.getD_some, put_get, and_self, if_true]
    · rename_i ht
      have he : entries s.heap (s.vars target) = [] := by
        unfold entries dictOf
        split
        · rename_i r hr; exact absurd hr (ht r)
        · rfl
      rw [he, completed_missing (by simp [Dict.has, Dict.get]) hv]
      simp only [entries, Env.set_eq, dictOf, Option.getD_some, alloc_get]
      simp [Dict.get]

theorem foldKw_keeps (kw target check store : String) (s : St) :
    s.heap.Keeps (foldKw kw target check store s).heap [store] := by
  unfold foldKw
  split
  · exact .refl _ _
  · split
    · split
      · exact .refl _ _
      · exact keeps_put _ _ _ _
    · exact ⟨(keeps_alloc _ _).1, fun i hi n _ => (keeps_alloc _ _).2 i hi n (by simp)⟩

/-- References are to dictionaries that exist. -/
def Known (e : Env) (h : Heap) : Prop := ∀ n r, e n = .dict r → r < h.next

theorem foldKw_known {kw target check store : String} {s : St} (hs : Known s.vars s.heap) :
    Known (foldKw kw target check store s).vars (foldKw kw target check store s).heap := by
  intro n r h
  unfold foldKw at h ⊢
  split at h
  · exact hs n r h
  · split at h
    · split at h
      · rename_i hh; simp only [hh, if_true]; exact hs n r h
      · rename_i hh
        rw [if_neg hh]
        exact hs n r h
    · by_cases hn : n = target
      · subst hn
        simp only [Env.set_eq, Val.dict.injEq] at h
        subst h
        exact Nat.lt_succ_self _
      · simp only [Env.set_ne _ _ hn] at h
        exact Nat.lt_succ_of_lt (hs n r h)

/-- Reading an entry through a variable that did not change. -/
theorem entries_keeps {h h' : Heap} {ks : List String} (hk : h.Keeps h' ks) {v : Val}
    (hv : ∀ r, v = .dict r → r < h.next) {n : String} (hn : n ∉ ks) :
    (entries h' v).get n = (entries h v).get n := by
  unfold entries dictOf
  split
  · rename_i r
    exact hk.2 r (hv r rfl) n hn
  · rfl

/-- Completing one entry leaves the entries for other keys alone, in every dictionary that a
variable refers to. -/
theorem foldKw_other {kw target check store k m : String} {s : St} (hs : Known s.vars s.heap)
    (hk : k ≠ store) :
    (entries (foldKw kw target check store s).heap ((foldKw kw target check store s).vars m)).get k =
      (entries s.heap (s.vars m)).get k := by
  by_cases hm : m = target
  · subst hm
    unfold foldKw
    split
    · rfl
    · split
      · rename_i r ht
        split
        · rfl
        · exact entries_keeps (keeps_put _ _ _ _) (fun r' => hs m r') (by simpa using hk)
      · rename_i v _ ht
        simp only [Env.set_eq, entries, dictOf, Option.getD_some, alloc_get]
        simp [Dict.get, Ne.symm hk]
  · rw [foldKw_vars s hm]
    exact entries_keeps (foldKw_keeps _ _ _ _ _) (fun r => hs m r) (by simpa using hk)

theorem foldAlg_known {s : St} (hs : Known s.vars s.heap) :
    Known (foldAlg s).vars (foldAlg s).heap := by
  intro n r h
  rw [foldAlg_heap]
  unfold foldAlg at h
  split at h
  · exact hs n r h
  · by_cases hn : n = "optim_method"
    · subst hn
      simp only [Env.set_eq] at h
      exact hs _ r h
    · simp only [Env.set_ne _ _ hn] at h
      exact hs n r h

/-- The entries that deprecated keywords complete in the two dictionaries. -/
theorem foldMethod_get {s : St} (hs : Known s.vars s.heap) :
    (entries (foldMethod s).heap ((foldMethod s).vars "method_params")).get "max_metric_corr" =
      completed (entries s.heap (s.vars "method_params")) "max_metric_corr"
        (s.vars "max_metric_corr") ∧
    (entries (foldMethod s).heap ((foldMethod s).vars "method_params")).get "accuracy_factor" =
      completed (entries s.heap (s.vars "method_params")) "accuracy_factor"
        (s.vars "accuracy_factor") := by
  unfold foldMethod
  constructor
  · rw [foldKw_other (foldKw_known hs) (by decide), foldKw_get]
  · rw [foldKw_get]
    unfold completed
    rw [foldKw_other hs (by decide), foldKw_vars s (by decide)]

theorem foldMethod_other {s : St} (hs : Known s.vars s.heap) (m : String) {k : String}
    (h1 : k ≠ "max_metric_corr") (h2 : k ≠ "accuracy_factor") :
    (entries (foldMethod s).heap ((foldMethod s).vars m)).get k =
      (entries s.heap (s.vars m)).get k := by
  unfold foldMethod
  rw [foldKw_other (foldKw_known hs) h2, foldKw_other hs h1]

theorem foldMethod_known {s : St} (hs : Known s.vars s.heap) :
    Known (foldMethod s).vars (foldMethod s).heap := foldKw_known (foldKw_known hs)

/-- Completion of the three entries by the deprecated keywords. -/
theorem foldDeprecated_get {s : St} (hs : Known s.vars s.heap) :
    (∀ k ∈ ["max_metric_corr", "accuracy_factor"],
      (entries (foldDeprecated s).heap ((foldDeprecated s).vars "method_params")).get k =
        completed (entries s.heap (s.vars "method_params")) k (s.vars k)) ∧
    (entries (foldDeprecated s).heap ((foldDeprecated s).vars "fid_params")).get "phase_option" =
      completed (entries s.heap (s.vars "fid_params")) "phase_option" (s.vars "phase_option") ∧
    (∀ m k, k ≠ "max_metric_corr" → k ≠ "accuracy_factor" → k ≠ "phase_option" →
      k ≠ "scale_factor" → m ≠ "optim_method" → m ≠ "tslot_type" →
      (entries (foldDeprecated s).heap ((foldDeprecated s).vars m)).get k =
        (entries s.heap (s.vars m)).get k) := by
  have h0 := foldAlg_known hs
  have e0 : ∀ m k, m ≠ "optim_method" → (entries (foldAlg s).heap ((foldAlg s).vars m)).get k =
      (entries s.heap (s.vars m)).get k := by
    intro m k hm
    rw [foldAlg_heap, foldAlg_vars s hm]
  have h1 := foldMethod_known h0
  have h2 := foldKw_known (kw := "phase_option") (target := "fid_params") (check := "phase_option")
    (store := "phase_option") h1
  unfold foldDeprecated
  refine ⟨?_, ?_, ?_⟩
  · intro k hk
    have hk' : k ≠ "scale_factor" ∧ k ≠ "phase_option" ∧ k ≠ "optim_method" := by
      simp only [List.mem_cons, List.not_mem_nil, or_false] at hk
      rcases hk with rfl | rfl <;> decide
    rw [foldAmpMode_heap, foldAmpMode_vars _ (by decide), foldKw_other h2 hk'.1,
      foldKw_other h1 hk'.2.1]
    obtain ⟨a, b⟩ := foldMethod_get h0
    have hc : ∀ k' ∈ ["max_metric_corr", "accuracy_factor"],
        completed (entries (foldAlg s).heap ((foldAlg s).vars "method_params")) k'
          ((foldAlg s).vars k') = completed (entries s.heap (s.vars "method_params")) k' (s.vars k') := by
      intro k' hk''
      have : k' ≠ "optim_method" := by
        simp only [List.mem_cons, List.not_mem_nil, or_false] at hk''
        rcases hk'' with rfl | rfl <;> decide
      unfold completed
      rw [e0 _ _ (by decide), foldAlg_vars s this]
    rw [← hc k hk]
    simp only [List.mem_cons, List.not_mem_nil, or_false] at hk
    rcases hk with rfl | rfl
    · exact a
    · exact b
  · rw [foldAmpMode_heap, foldAmpMode_vars _ (by decide), foldKw_other h2 (by decide), foldKw_get]
    unfold completed
    rw [foldMethod_other h0 _ (by decide) (by decide), e0 _ _ (by decide),
      foldMethod_vars _ (by decide), foldAlg_vars _ (by decide)]
  · intro m k k1 k2 k3 k4 m1 m2
    rw [foldAmpMode_heap, foldAmpMode_vars _ m2, foldKw_other h2 k4, foldKw_other h1 k3,
      foldMethod_other h0 _ k1 k2, e0 _ _ m1]

/-! ### CRAB and unitary dynamics -/

theorem fillKey_get (var key : String) (r : ℕ) (s : St) (i : ℕ) (n : String) :
    ((fillKey var key r s).heap.dicts i).get n =
      if i = r ∧ n = key then completed (s.heap.dicts r) key (s.vars var)
      else (s.heap.dicts i).get n := by
  unfold fillKey
  split
  · rename_i hv
    rw [hv, completed_none]
    split
    · rename_i h; rw [h.1, h.2]
    · rfl
  · rename_i hv
    split
    · rename_i hh
      rw [completed_has hh]
      split
      · rename_i h; rw [h.1, h.2]
      · rfl
    · rename_i hh
      rw [completed_missing hh hv, put_get]

theorem fillKey_next (var key : String) (r : ℕ) (s : St) :
    (fillKey var key r s).heap.next = s.heap.next := by
  unfold fillKey
  split
  · rfl
  · split <;> rfl

theorem fillKey_known {var key : String} {r : ℕ} {s : St} (h : Known s.vars s.heap) :
    Known (fillKey var key r s).vars (fillKey var key r s).heap := by
  intro n i
  rw [fillKey_vars, fillKey_next]
  exact h n i

theorem entries_dict (h : Heap) (r : ℕ) : entries h (.dict r) = h.dicts r := rfl

theorem entries_not_dict {h : Heap} {v : Val} (hv : ∀ r, v ≠ .dict r) : entries h v = [] := by
  unfold entries dictOf
  split
  · rename_i r; exact absurd rfl (hv r)
  · rfl

theorem alloc_known {e : Env} {h : Heap} (hs : Known e h) (m : String) (d : Dict Val) :
    Known (e.set m (.dict h.next)) (h.alloc d) := by
  intro n r hr
  by_cases hn : n = m
  · subst hn
    rw [Env.set_eq, Val.dict.injEq] at hr
    subst hr
    exact Nat.lt_succ_self _
  · rw [Env.set_ne _ _ hn] at hr
    exact Nat.lt_succ_of_lt (hs n r hr)

theorem crabAlgParams_known {s : St} (hs : Known s.vars s.heap) :
    Known (crabAlgParams s).vars (crabAlgParams s).heap := by
  unfold crabAlgParams
  split
  · exact fillKey_known (fillKey_known hs)
  · exact alloc_known hs _ _

theorem getD_completed_nil (k : String) (v : Val) :
    (some v).getD .none = (completed [] k v).getD .none := by
  unfold completed
  by_cases h : v = .none
  · rw [if_pos h, h]; rfl
  · rw [if_neg h]; rfl

/-- The completed algorithm options. -/
theorem crabAlgParams_get {s : St} :
    (∀ k ∈ ["num_coeffs", "init_coeff_scaling"],
      ((entries (crabAlgParams s).heap ((crabAlgParams s).vars "alg_params")).get k).getD .none =
        (completed (entries s.heap (s.vars "alg_params")) k (s.vars k)).getD .none) ∧
    (∀ k, k ≠ "num_coeffs" → k ≠ "init_coeff_scaling" →
      (entries (crabAlgParams s).heap ((crabAlgParams s).vars "alg_params")).get k =
        (entries s.heap (s.vars "alg_params")).get k) := by
  unfold crabAlgParams
  split
  · rename_i r hr
    simp only [fillKey_vars, hr, entries_dict, fillKey_get]
    constructor
    · intro k hk
      simp only [List.mem_cons, List.not_mem_nil, or_false] at hk
      rcases hk with rfl | rfl
      · simp
      · simp [completed, fillKey_get]
    · intro k h1 h2
      simp [h1, h2]
  · rename_i hr
    have he := entries_not_dict (h := s.heap) hr
    rw [he]
    simp only [Env.set_eq, entries_dict, alloc_get]
    constructor
    · intro k hk
      simp only [List.mem_cons, List.not_mem_nil, or_false] at hk
      rcases hk with rfl | rfl
      · exact getD_completed_nil "num_coeffs" (s.vars "num_coeffs")
      · exact getD_completed_nil "init_coeff_scaling" (s.vars "init_coeff_scaling")
    · intro k h1 h2
      simp [Dict.get, Ne.symm h1, Ne.symm h2]

/-- The algorithm options are completed in one dictionary only, for two keys. -/
theorem crabAlgParams_other {s : St} (hs : Known s.vars s.heap) {m k : String}
    (hm : m ≠ "alg_params") (h1 : k ≠ "num_coeffs") (h2 : k ≠ "init_coeff_scaling") :
    (entries (crabAlgParams s).heap ((crabAlgParams s).vars m)).get k =
      (entries s.heap (s.vars m)).get k := by
  rw [crabAlgParams_vars s hm]
  unfold crabAlgParams
  split
  · unfold entries dictOf
    split
    · simp [fillKey_get, h1, h2]
    · rfl
  · exact entries_keeps (keeps_alloc _ _) (fun r => hs m r) (by simp)

theorem fillGuess_get (r : ℕ) (s : St) :
    ((fillGuess r s).heap.dicts r).get "scaling" =
      completed (s.heap.dicts r) "scaling" (s.vars "guess_pulse_scaling") ∧
    ((fillGuess r s).heap.dicts r).get "offset" =
      completed (s.heap.dicts r) "offset" (s.vars "guess_pulse_offset") ∧
    ((fillGuess r s).heap.dicts r).get "pulse_action" =
      completed (s.heap.dicts r) "pulse_action" (s.vars "guess_pulse_action") ∧
    ∀ i k, k ≠ "scaling" → k ≠ "offset" → k ≠ "pulse_action" →
      ((fillGuess r s).heap.dicts i).get k = (s.heap.dicts i).get k := by
  unfold fillGuess
  refine ⟨?_, ?_, ?_, ?_⟩
  · simp [fillKey_get]
  · simp [fillKey_get, completed, fillKey_vars]
  · simp [fillKey_get, completed, fillKey_vars]
  · intro i k h1 h2 h3
    simp [fillKey_get, h1, h2, h3]

theorem fillGuess_next (r : ℕ) (s : St) : (fillGuess r s).heap.next = s.heap.next := by
  unfold fillGuess
  rw [fillKey_next, fillKey_next, fillKey_next]

theorem crabGuessParams_known {s : St} (hs : Known s.vars s.heap) :
    Known (crabGuessParams s).vars (crabGuessParams s).heap := by
  unfold crabGuessParams
  split
  · split
    · intro n r; rw [fillGuess_vars, fillGuess_next]; exact hs n r
    · intro n r; rw [fillGuess_vars, fillGuess_next]
      exact alloc_known hs "guess_pulse_params" [] n r
  · exact hs

/-- The completed guess pulse options. -/
theorem crabGuessParams_get {s : St} (ht : truthy s.heap (s.vars "guess_pulse_type") = true) :
    ∀ p ∈ [("scaling", "guess_pulse_scaling"), ("offset", "guess_pulse_offset"),
        ("pulse_action", "guess_pulse_action")],
      (entries (crabGuessParams s).heap ((crabGuessParams s).vars "guess_pulse_params")).get p.1 =
        completed (entries s.heap (s.vars "guess_pulse_params")) p.1 (s.vars p.2) := by
  unfold crabGuessParams
  rw [if_pos ht]
  split
  · rename_i r hr
    obtain ⟨a, b, c, -⟩ := fillGuess_get r s
    rw [fillGuess_vars, hr]
    exact forall_cons a (forall_cons b (forall_cons c forall_nil))
  · rename_i hr
    obtain ⟨u, hu⟩ : ∃ u : St, u =
      ⟨s.vars.set "guess_pulse_params" (.dict s.heap.next), s.heap.alloc []⟩ := ⟨_, rfl⟩
    rw [← hu, fillGuess_vars]
    obtain ⟨a, b, c, -⟩ := fillGuess_get s.heap.next u
    have hd : u.heap.dicts s.heap.next = [] := by rw [hu]; exact if_pos rfl
    have h1 : u.vars "guess_pulse_params" = .dict s.heap.next := by rw [hu]; rfl
    have h2 : u.vars "guess_pulse_scaling" = s.vars "guess_pulse_scaling" := by rw [hu]; rfl
    have h3 : u.vars "guess_pulse_offset" = s.vars "guess_pulse_offset" := by rw [hu]; rfl
    have h4 : u.vars "guess_pulse_action" = s.vars "guess_pulse_action" := by rw [hu]; rfl
    rw [entries_not_dict hr, h1, entries_dict]
    rw [hd] at a b c
    rw [h2] at a
    rw [h3] at b
    rw [h4] at c
    exact forall_cons a (forall_cons b (forall_cons c forall_nil))

theorem crabGuessParams_other {s : St} (hs : Known s.vars s.heap) {m k : String}
    (h1 : k ≠ "scaling") (h2 : k ≠ "offset") (h3 : k ≠ "pulse_action") :
    (entries (crabGuessParams s).heap ((crabGuessParams s).vars m)).get k =
      (entries s.heap (s.vars m)).get k := by
  unfold crabGuessParams
  split
  · split
    · rename_i r hr
      rw [fillGuess_vars]
      unfold entries dictOf
      split
      · exact (fillGuess_get r s).2.2.2 _ k h1 h2 h3
      · rfl
    · rename_i hr
      rw [fillGuess_vars]
      by_cases hm : m = "guess_pulse_params"
      · subst hm
        simp only [Env.set_eq, entries_dict]
        rw [(fillGuess_get _ _).2.2.2 _ k h1 h2 h3, entries_not_dict hr, alloc_get]
      · simp only [Env.set_ne _ _ hm]
        unfold entries dictOf
        split
        · rename_i r hr'
          simp only [Option.getD_some]
          rw [(fillGuess_get _ _).2.2.2 _ k h1 h2 h3]
          exact (keeps_alloc _ _).2 r (hs m r hr') k (by simp)
        · rfl
  · rfl

theorem foldPhase_get {s t : St} (h : foldPhase s = .ok t) :
    (entries t.heap (t.vars "fid_params")).get "phase_option" =
      completed (entries s.heap (s.vars "fid_params")) "phase_option" (s.vars "phase_option") := by
  unfold foldPhase at h
  split at h
  · rename_i hv
    cases h
    rw [hv, completed_none]
  · rename_i hv
    split at h
    · rename_i hf
      cases h
      rw [hf, completed_missing (by simp [entries, dictOf, Dict.has, Dict.get]) hv]
      simp only [Env.set_eq, entries_dict, alloc_get]
      rfl
    · rename_i r hf
      cases h
      rw [hf, entries_dict]
      split
      · rename_i hh
        rw [completed_has hh, hf, entries_dict]
      · rename_i hh
        rw [completed_missing hh hv]
        simp only [hf, entries_dict, put_get, and_self, if_true]
    · cases h

theorem foldPhase_other {s t : St} (h : foldPhase s = .ok t) (hs : Known s.vars s.heap)
    {m k : String} (hk : k ≠ "phase_option") :
    (entries t.heap (t.vars m)).get k = (entries s.heap (s.vars m)).get k := by
  unfold foldPhase at h
  split at h
  · cases h; rfl
  · split at h
    · rename_i hf
      cases h
      by_cases hm : m = "fid_params"
      · subst hm
        simp only [Env.set_eq, entries_dict, alloc_get]
        rw [hf]
        simp [Dict.get, Ne.symm hk, entries, dictOf]
      · simp only [Env.set_ne _ _ hm]
        exact entries_keeps (keeps_alloc _ _) (fun r => hs m r) (by simp)
    · rename_i r hf
      cases h
      split
      · rfl
      · exact entries_keeps (keeps_put _ _ _ _) (fun r => hs m r) (by simpa using hk)
    · cases h

/-! ### Known references -/

/-- The value is a dictionary. -/
def Val.isDict : Val → Bool
  | .dict _ => true
  | _ => false

theorem get_mem {d : Dict Val} {n : String} {v : Val} (h : d.get n = some v) : (n, v) ∈ d := by
  induction d with
  | nil => cases h
  | cons p r ih =>
    obtain ⟨k, w⟩ := p
    simp only [Dict.get] at h
    split at h
    · rename_i hk; cases h; subst hk; exact List.mem_cons_self
    · exact List.mem_cons_of_mem _ (ih h)

theorem bind_known {defaults consts : Dict Val} {e : Env} {h : Heap} {l : List (String × String)}
    (he : Known e h) (hd : ∀ p ∈ defaults, p.2.isDict = false)
    (hc : ∀ p ∈ consts, p.2.isDict = false) : Known (bind defaults (consts ++ kwargs e l)) h := by
  intro n r hr
  unfold bind at hr
  split at hr
  · rename_i v hv
    subst hr
    rcases List.mem_append.1 (get_mem hv) with hm | hm
    · have := hc _ hm; cases this
    · unfold kwargs at hm
      obtain ⟨q, -, hq⟩ := List.mem_map.1 hm
      simp only [Prod.mk.injEq] at hq
      exact he q.2 r hq.2
  · cases hg : defaults.get n with
    | none => rw [hg] at hr; cases hr
    | some v =>
      rw [hg] at hr
      simp only [Option.getD_some] at hr
      subst hr
      have := hd _ (get_mem hg)
      cases this

theorem createDefaults_plain : ∀ p ∈ createDefaults, p.2.isDict = false := by
  repeat
    first
    | exact forall_nil
    | refine forall_cons rfl ?_

theorem unitaryDefaults_plain : ∀ p ∈ unitaryDefaults, p.2.isDict = false := by
  repeat
    first
    | exact forall_nil
    | refine forall_cons rfl ?_

theorem crabConsts_plain : ∀ p ∈ crabConsts, p.2.isDict = false :=
  forall_cons rfl (forall_cons rfl forall_nil)

theorem crabFold_known {s : St} (hs : Known s.vars s.heap) :
    Known (crabFold s).vars (crabFold s).heap := crabGuessParams_known (crabAlgParams_known hs)

theorem crabCall_known {s : St} (hs : Known s.vars s.heap) :
    Known (crabCall s).vars (crabCall s).heap :=
  bind_known (crabFold_known hs) createDefaults_plain crabConsts_plain

theorem crabUnitaryCall_known {s : St} (hs : Known s.vars s.heap) :
    Known (crabUnitaryCall s).vars (crabUnitaryCall s).heap :=
  bind_known (crabFold_known hs) unitaryDefaults_plain crabConsts_plain

theorem foldPhase_known {s t : St} (h : foldPhase s = .ok t) (hs : Known s.vars s.heap) :
    Known t.vars t.heap := by
  unfold foldPhase at h
  split at h
  · cases h; exact hs
  · split at h
    · cases h; exact alloc_known hs _ _
    · cases h
      split
      · exact hs
      · exact hs
    · cases h

/-! ### Entries are only added -/

/-- Existing dictionaries keep their entries, except possibly `scale_factor`. -/
def Heap.Grows (h h' : Heap) : Prop :=
  h.next ≤ h'.next ∧ ∀ i, i < h.next → ∀ k v, k ≠ "scale_factor" → (h.dicts i).get k = some v →
    (h'.dicts i).get k = some v

theorem Heap.Grows.refl (h : Heap) : h.Grows h := ⟨Nat.le_refl _, fun _ _ _ _ _ h => h⟩

theorem Heap.Grows.trans {h1 h2 h3 : Heap} (a : h1.Grows h2) (b : h2.Grows h3) : h1.Grows h3 :=
  ⟨Nat.le_trans a.1 b.1, fun i hi k v hk h =>
    b.2 i (Nat.lt_of_lt_of_le hi a.1) k v hk (a.2 i hi k v hk h)⟩

theorem grows_put {h : Heap} {r : ℕ} {k : String} {v : Val}
    (hk : k = "scale_factor" ∨ ¬ (h.dicts r).has k = true) : h.Grows (h.put r k v) := by
  refine ⟨Nat.le_refl _, fun i _ k' v' hk' hv => ?_⟩
  rw [put_get, if_neg]
  · exact hv
  · rintro ⟨rfl, rfl⟩
    rcases hk with hk | hk
    · exact hk' hk
    · apply hk; unfold Dict.has; rw [hv]; rfl

theorem grows_alloc (h : Heap) (d : Dict Val) : h.Grows (h.alloc d) :=
  ⟨(keeps_alloc h d).1, fun i hi k v _ hv => by rw [(keeps_alloc h d).2 i hi k (by simp), hv]⟩

/-- A step keeps the dictionaries that variables refer to, and their entries. -/
def Step (s t : St) : Prop :=
  s.heap.Grows t.heap ∧ ∀ m r, m ≠ "optim_method" → m ≠ "tslot_type" → s.vars m = .dict r →
    t.vars m = .dict r

theorem Step.refl (s : St) : Step s s := ⟨.refl _, fun _ _ _ _ h => h⟩

theorem Step.trans {s t u : St} (a : Step s t) (b : Step t u) : Step s u :=
  ⟨a.1.trans b.1, fun m r h1 h2 h => b.2 m r h1 h2 (a.2 m r h1 h2 h)⟩

theorem Step.entry {s t : St} (h : Step s t) (hs : Known s.vars s.heap) {m k : String} {v : Val}
    (h1 : m ≠ "optim_method") (h2 : m ≠ "tslot_type") (hk : k ≠ "scale_factor")
    (hv : (entries s.heap (s.vars m)).get k = some v) :
    (entries t.heap (t.vars m)).get k = some v := by
  unfold entries dictOf at hv
  split at hv
  · rename_i r hr
    rw [h.2 m r h1 h2 hr]
    exact h.1.2 r (hs m r hr) k v hk hv
  · cases hv

theorem step_foldKw {kw target check store : String} (s : St)
    (h : check = store ∨ store = "scale_factor") : Step s (foldKw kw target check store s) := by
  unfold foldKw
  split
  · exact .refl _
  · split
    · split
      · exact .refl _
      · rename_i hh
        refine ⟨grows_put ?_, fun _ _ _ _ h => h⟩
        rcases h with rfl | h
        · exact .inr hh
        · exact .inl h
    · rename_i ht
      refine ⟨grows_alloc _ _, fun m r _ _ h => ?_⟩
      by_cases hm : m = target
      · subst hm; exact absurd h (ht r)
      · simp only [Env.set_ne _ _ hm]; exact h

theorem step_foldAlg (s : St) : Step s (foldAlg s) := by
  refine ⟨?_, fun m r h _ hr => ?_⟩
  · rw [foldAlg_heap]; exact .refl _
  · rw [foldAlg_vars s h]; exact hr

theorem step_foldAmpMode (s : St) : Step s (foldAmpMode s) := by
  refine ⟨?_, fun m r _ h hr => ?_⟩
  · rw [foldAmpMode_heap]; exact .refl _
  · rw [foldAmpMode_vars s h]; exact hr

theorem step_foldMethod (s : St) : Step s (foldMethod s) :=
  (step_foldKw s (.inl rfl)).trans (step_foldKw _ (.inl rfl))

theorem step_foldDeprecated (s : St) : Step s (foldDeprecated s) :=
  (step_foldAlg s).trans <| (step_foldMethod _).trans <| (step_foldKw _ (.inl rfl)).trans <|
    (step_foldKw _ (.inr rfl)).trans (step_foldAmpMode _)

theorem step_foldPhase {s t : St} (h : foldPhase s = .ok t) : Step s t := by
  unfold foldPhase at h
  split at h
  · cases h; exact .refl _
  · split at h
    · rename_i hf
      cases h
      refine ⟨grows_alloc _ _, fun m r _ _ h => ?_⟩
      by_cases hm : m = "fid_params"
      · subst hm; rw [hf] at h; cases h
      · simp only [Env.set_ne _ _ hm]; exact h
    · cases h
      split
      · exact .refl _
      · rename_i hh; exact ⟨grows_put (.inr hh), fun _ _ _ _ h => h⟩
    · cases h

theorem step_unitaryFold {s t : St} (h : unitaryFold s = .ok t) : Step s t :=
  (step_foldAlg s).trans <| (step_foldMethod _).trans <| (step_foldAmpMode _).trans
    (step_foldPhase h)

theorem step_fillKey (var key : String) (r : ℕ) (s : St) : Step s (fillKey var key r s) := by
  unfold fillKey
  split
  · exact .refl _
  · split
    · exact .refl _
    · rename_i hh; exact ⟨grows_put (.inr hh), fun _ _ _ _ h => h⟩

theorem step_alloc {s : St} {m : String} {d : Dict Val} (hm : ∀ r, s.vars m ≠ .dict r) :
    Step s ⟨s.vars.set m (.dict s.heap.next), s.heap.alloc d⟩ := by
  refine ⟨grows_alloc _ _, fun m' r _ _ h => ?_⟩
  by_cases h' : m' = m
  · subst h'; exact absurd h (hm r)
  · simp only [Env.set_ne _ _ h']; exact h

theorem step_crabFold (s : St) : Step s (crabFold s) := by
  have h1 : Step s (crabAlgParams s) := by
    unfold crabAlgParams
    split
    · exact (step_fillKey _ _ _ _).trans (step_fillKey _ _ _ _)
    · rename_i h; exact step_alloc h
  refine h1.trans ?_
  unfold crabFold crabGuessParams
  split
  · split
    · exact (step_fillKey _ _ _ _).trans ((step_fillKey _ _ _ _).trans (step_fillKey _ _ _ _))
    · rename_i h
      exact (step_alloc h).trans
        ((step_fillKey _ _ _ _).trans ((step_fillKey _ _ _ _).trans (step_fillKey _ _ _ _)))
  · exact .refl _

/-! ### Everything together -/

theorem completed_eq_some {d : Dict Val} {k : String} {v : Val} (h : d.get k = none) (hv : v ≠ .none) :
    completed d k v = some v := by
  unfold completed; rw [h, if_neg hv]; rfl

/-- Passing variables on. -/
theorem step_optimizeCall (s : St) : s.heap.Grows (optimizeCall s).heap ∧
    ∀ p ∈ Entry.optimize.dicts, ∀ r, s.vars p.1 = .dict r → (optimizeCall s).vars p.2 = .dict r := by
  refine ⟨(step_foldDeprecated s).1, ?_⟩
  have h1 : ∀ p ∈ Entry.optimize.dicts, (optimizeCall s).vars p.2 = (foldDeprecated s).vars p.1 := by
    repeat
      first
      | exact forall_nil
      | refine forall_cons rfl ?_
  have h2 : ∀ p ∈ Entry.optimize.dicts, p.1 ≠ "optim_method" ∧ p.1 ≠ "tslot_type" := by decide
  intro p hp r hr
  rw [h1 p hp]
  exact (step_foldDeprecated s).2 p.1 r (h2 p hp).1 (h2 p hp).2 hr

theorem step_unitaryCall {s c : St} (h : unitaryCall s = .ok c) : s.heap.Grows c.heap ∧
    ∀ p ∈ Entry.unitary.dicts, ∀ r, s.vars p.1 = .dict r → c.vars p.2 = .dict r := by
  obtain ⟨t, ht, rfl⟩ := map_ok h
  refine ⟨(step_unitaryFold ht).1, ?_⟩
  have h1 : ∀ p ∈ Entry.unitary.dicts, bind optimizeDefaults (("dyn_type", .str "UNIT") ::
      kwargs t.vars unitaryArgs) p.2 = t.vars p.1 := by
    repeat
      first
      | exact forall_nil
      | refine forall_cons rfl ?_
  have h2 : ∀ p ∈ Entry.unitary.dicts, p.1 ≠ "optim_method" ∧ p.1 ≠ "tslot_type" := by decide
  intro p hp r hr
  exact (h1 p hp).trans ((step_unitaryFold ht).2 p.1 r (h2 p hp).1 (h2 p hp).2 hr)

theorem step_crabCall (s : St) : s.heap.Grows (crabCall s).heap ∧
    ∀ p ∈ Entry.crab.dicts, ∀ r, s.vars p.1 = .dict r → (crabCall s).vars p.2 = .dict r := by
  refine ⟨(step_crabFold s).1, ?_⟩
  have h1 : ∀ p ∈ Entry.crab.dicts, (crabCall s).vars p.2 = (crabFold s).vars p.1 := by
    repeat
      first
      | exact forall_nil
      | refine forall_cons rfl ?_
  have h2 : ∀ p ∈ Entry.crab.dicts, p.1 ≠ "optim_method" ∧ p.1 ≠ "tslot_type" := by decide
  intro p hp r hr
  exact (h1 p hp).trans ((step_crabFold s).2 p.1 r (h2 p hp).1 (h2 p hp).2 hr)

theorem step_crabUnitaryCall (s : St) : s.heap.Grows (crabUnitaryCall s).heap ∧
    ∀ p ∈ Entry.crabUnitary.dicts, ∀ r, s.vars p.1 = .dict r →
      (crabUnitaryCall s).vars p.2 = .dict r := by
  refine ⟨(step_crabFold s).1, ?_⟩
  have h1 : ∀ p ∈ Entry.crabUnitary.dicts, (crabUnitaryCall s).vars p.2 = (crabFold s).vars p.1 := by
    repeat
      first
      | exact forall_nil
      | refine forall_cons rfl ?_
  have h2 : ∀ p ∈ Entry.crabUnitary.dicts, p.1 ≠ "optim_method" ∧ p.1 ≠ "tslot_type" := by decide
  intro p hp r hr
  exact (h1 p hp).trans ((step_crabFold s).2 p.1 r (h2 p hp).1 (h2 p hp).2 hr)

/-- The dictionaries the caller passes arrive, with their entries. -/
theorem reached_step {e : Entry} {s s' : St} (h : e.reached s = .ok s') :
    s.heap.Grows s'.heap ∧ ∀ p ∈ e.dicts, ∀ r, s.vars p.1 = .dict r → s'.vars p.2 = .dict r := by
  cases e with
  | optimize =>
    simp only [Entry.reached] at h
    cases h
    exact step_optimizeCall s
  | unitary =>
    obtain ⟨c, hc, rfl⟩ := map_ok h
    obtain ⟨a1, a2⟩ := step_unitaryCall hc
    obtain ⟨b1, b2⟩ := step_optimizeCall c
    have hp : ∀ p ∈ Entry.unitary.dicts, (p.2, p.2) ∈ Entry.optimize.dicts := by decide
    exact ⟨a1.trans b1, fun p h r hr => b2 _ (hp p h) r (a2 p h r hr)⟩
  | crab =>
    simp only [Entry.reached] at h
    cases h
    obtain ⟨a1, a2⟩ := step_crabCall s
    obtain ⟨b1, b2⟩ := step_optimizeCall (crabCall s)
    have hp : ∀ p ∈ Entry.crab.dicts, (p.2, p.2) ∈ Entry.optimize.dicts := by decide
    exact ⟨a1.trans b1, fun p h r hr => b2 _ (hp p h) r (a2 p h r hr)⟩
  | crabUnitary =>
    obtain ⟨c, hc, rfl⟩ := map_ok h
    obtain ⟨z1, z2⟩ := step_crabUnitaryCall s
    obtain ⟨a1, a2⟩ := step_unitaryCall hc
    obtain ⟨b1, b2⟩ := step_optimizeCall c
    have hp : ∀ p ∈ Entry.crabUnitary.dicts, (p.2, p.2) ∈ Entry.optimize.dicts ∧
      (p.2, p.2) ∈ Entry.unitary.dicts := by decide
    exact ⟨z1.trans (a1.trans b1), fun p h r hr =>
      b2 _ (hp p h).1 r (a2 _ (hp p h).2 r (z2 p h r hr))⟩

theorem reached_kept {e : Entry} {s s' : St} (h : e.reached s = .ok s') (hs : Known s.vars s.heap) :
    ∀ p ∈ e.dicts, ∀ k v, k ≠ "scale_factor" → (entries s.heap (s.vars p.1)).get k = some v →
      (entries s'.heap (s'.vars p.2)).get k = some v := by
  obtain ⟨h1, h2⟩ := reached_step h
  intro p hp k v hk hv
  unfold entries dictOf at hv
  split at hv
  · rename_i r hr
    rw [h2 p hp r hr]
    exact h1.2 r (hs _ r hr) k v hk hv
  · cases hv

theorem optimize_filled {s : St} (hs : Known s.vars s.heap) : ∀ f ∈ Entry.optimize.fills,
    s.vars f.keyword ≠ .none → (entries s.heap (s.vars f.dict)).get f.key = none →
      (entries (optimizeCall s).heap ((optimizeCall s).vars f.target)).get f.key =
        some (s.vars f.keyword) := by
  obtain ⟨h1, h2, -⟩ := foldDeprecated_get hs
  refine forall_cons ?_ (forall_cons ?_ (forall_cons ?_ forall_nil))
  · intro a b
    exact (h1 "max_metric_corr" (by decide)).trans (completed_eq_some b a)
  · intro a b
    exact (h1 "accuracy_factor" (by decide)).trans (completed_eq_some b a)
  · intro a b
    exact h2.trans (completed_eq_some b a)

theorem foldAmpMode_known {s : St} (hs : Known s.vars s.heap) :
    Known (foldAmpMode s).vars (foldAmpMode s).heap := by
  intro n r h
  rw [foldAmpMode_heap]
  unfold foldAmpMode at h
  split at h
  · exact hs n r h
  · by_cases hn : n = "tslot_type"
    · subst hn
      simp only [Env.set_eq] at h
      split at h
      · cases h
      · exact hs _ r h
    · simp only [Env.set_ne _ _ hn] at h
      exact hs n r h

/-- The same for `optimize_pulse_unitary`. -/
theorem unitaryFold_get {s t : St} (h : unitaryFold s = .ok t) (hs : Known s.vars s.heap) :
    (∀ k ∈ ["max_metric_corr", "accuracy_factor"],
      (entries t.heap (t.vars "method_params")).get k =
        completed (entries s.heap (s.vars "method_params")) k (s.vars k)) ∧
    (entries t.heap (t.vars "fid_params")).get "phase_option" =
      completed (entries s.heap (s.vars "fid_params")) "phase_option" (s.vars "phase_option") := by
  have h0 := foldAlg_known hs
  have e0 : ∀ m k, m ≠ "optim_method" → (entries (foldAlg s).heap ((foldAlg s).vars m)).get k =
      (entries s.heap (s.vars m)).get k := by
    intro m k hm
    rw [foldAlg_heap, foldAlg_vars s hm]
  have h1 := foldMethod_known h0
  have h2 := foldAmpMode_known h1
  unfold unitaryFold at h
  constructor
  · obtain ⟨a, b⟩ := foldMethod_get h0
    refine forall_cons ?_ (forall_cons ?_ forall_nil)
    · rw [foldPhase_other h h2 (by decide), foldAmpMode_heap, foldAmpMode_vars _ (by decide), a]
      unfold completed
      rw [e0 _ _ (by decide), foldAlg_vars s (by decide)]
    · rw [foldPhase_other h h2 (by decide), foldAmpMode_heap, foldAmpMode_vars _ (by decide), b]
      unfold completed
      rw [e0 _ _ (by decide), foldAlg_vars s (by decide)]
  · rw [foldPhase_get h, foldAmpMode_heap, foldAmpMode_vars _ (by decide),
      foldAmpMode_vars _ (by decide), foldMethod_vars _ (by decide), foldMethod_vars _ (by decide),
      foldAlg_vars s (by decide), foldAlg_vars s (by decide)]
    have := foldMethod_other h0 "fid_params" (k := "phase_option") (by decide) (by decide)
    rw [e0 _ _ (by decide), foldMethod_vars _ (by decide), foldAlg_vars s (by decide)] at this
    unfold completed
    rw [this]

theorem unitaryCall_filled {s c : St} (h : unitaryCall s = .ok c) (hs : Known s.vars s.heap) :
    ∀ f ∈ Entry.unitary.fills, s.vars f.keyword ≠ .none →
      (entries s.heap (s.vars f.dict)).get f.key = none →
      (entries c.heap (c.vars f.target)).get f.key = some (s.vars f.keyword) := by
  obtain ⟨t, ht, rfl⟩ := map_ok h
  obtain ⟨h1, h2⟩ := unitaryFold_get ht hs
  refine forall_cons ?_ (forall_cons ?_ (forall_cons ?_ forall_nil))
  · intro a b
    exact (h1 "max_metric_corr" (by decide)).trans (completed_eq_some b a)
  · intro a b
    exact (h1 "accuracy_factor" (by decide)).trans (completed_eq_some b a)
  · intro a b
    exact h2.trans (completed_eq_some b a)

theorem unitaryCall_known {s c : St} (h : unitaryCall s = .ok c) (hs : Known s.vars s.heap) :
    Known c.vars c.heap := by
  obtain ⟨t, ht, rfl⟩ := map_ok h
  have hk := foldPhase_known ht (foldAmpMode_known (foldMethod_known (foldAlg_known hs)))
  exact bind_known (consts := [("dyn_type", .str "UNIT")]) hk createDefaults_plain
    (forall_cons rfl forall_nil)

/-- What the CRAB entry points complete. -/
theorem crabFold_filled {s : St} (hs : Known s.vars s.heap) :
    (∀ k ∈ ["num_coeffs", "init_coeff_scaling"], s.vars k ≠ .none →
      (entries s.heap (s.vars "alg_params")).get k = none →
      (entries (crabFold s).heap ((crabFold s).vars "alg_params")).get k = some (s.vars k)) ∧
    ((∃ t, s.vars "guess_pulse_type" = .str t ∧ t ≠ "") →
      ∀ p ∈ [("scaling", "guess_pulse_scaling"), ("offset", "guess_pulse_offset"),
        ("pulse_action", "guess_pulse_action")], s.vars p.2 ≠ .none →
      (entries s.heap (s.vars "guess_pulse_params")).get p.1 = none →
      (entries (crabFold s).heap ((crabFold s).vars "guess_pulse_params")).get p.1 =
        some (s.vars p.2)) := by
  have h1 := crabAlgParams_known hs
  constructor
  · intro k hk a b
    have hk' : k ≠ "scaling" ∧ k ≠ "offset" ∧ k ≠ "pulse_action" := by
      simp only [List.mem_cons, List.not_mem_nil, or_false] at hk
      rcases hk with rfl | rfl <;> decide
    unfold crabFold
    rw [crabGuessParams_other h1 hk'.1 hk'.2.1 hk'.2.2]
    have := (crabAlgParams_get (s := s)).1 k hk
    rw [completed_eq_some b a] at this
    generalize (entries (crabAlgParams s).heap ((crabAlgParams s).vars "alg_params")).get k = x at this ⊢
    cases x with
    | none => exact absurd this.symm a
    | some v => simpa using this
  · rintro ⟨t, ht, ht'⟩ p hp a b
    have hp' : p.2 ≠ "alg_params" ∧ p.1 ≠ "num_coeffs" ∧ p.1 ≠ "init_coeff_scaling" := by
      simp only [List.mem_cons, List.not_mem_nil, or_false] at hp
      rcases hp with rfl | rfl | rfl <;> decide
    have htr : truthy (crabAlgParams s).heap ((crabAlgParams s).vars "guess_pulse_type") = true := by
      rw [crabAlgParams_vars s (by decide), ht]
      simpa [truthy] using ht'
    unfold crabFold
    rw [crabGuessParams_get htr p hp]
    unfold completed
    rw [crabAlgParams_other hs (by decide) hp'.2.1 hp'.2.2, b, crabAlgParams_vars s hp'.1, if_neg a]
    rfl

theorem crabFold_phase {s : St} (hs : Known s.vars s.heap) :
    (entries (crabFold s).heap ((crabFold s).vars "fid_params")).get "phase_option" =
      (entries s.heap (s.vars "fid_params")).get "phase_option" := by
  unfold crabFold
  rw [crabGuessParams_other (crabAlgParams_known hs) (by decide) (by decide) (by decide),
    crabAlgParams_other hs (by decide) (by decide) (by decide)]

/-- Keywords fill in missing entries. -/
theorem reached_filled {e : Entry} {s s' : St} (h : e.reached s = .ok s') (hs : Known s.vars s.heap) :
    (∀ f ∈ e.fills, s.vars f.keyword ≠ .none → (entries s.heap (s.vars f.dict)).get f.key = none →
      (entries s'.heap (s'.vars f.target)).get f.key = some (s.vars f.keyword)) ∧
    ((∃ t, s.vars "guess_pulse_type" = .str t ∧ t ≠ "") → ∀ f ∈ e.guess, s.vars f.keyword ≠ .none →
      (entries s.heap (s.vars f.dict)).get f.key = none →
      (entries s'.heap (s'.vars f.target)).get f.key = some (s.vars f.keyword)) := by
  have hopt : ∀ (c : St), Known c.vars c.heap → ∀ m k v, (m, m) ∈ Entry.optimize.dicts →
      k ≠ "scale_factor" → (entries c.heap (c.vars m)).get k = some v →
      (entries (optimizeCall c).heap ((optimizeCall c).vars m)).get k = some v :=
    fun c hc m k v hm hk hv => reached_kept (e := .optimize) (s := c) rfl hc (m, m) hm k v hk hv
  cases e with
  | optimize =>
    simp only [Entry.reached] at h
    cases h
    exact ⟨optimize_filled hs, fun _ => forall_nil⟩
  | unitary =>
    obtain ⟨c, hc, rfl⟩ := map_ok h
    have hf := unitaryCall_filled hc hs
    have hk := unitaryCall_known hc hs
    refine ⟨?_, fun _ => forall_nil⟩
    intro f hf' a b
    have hd : (∀ f ∈ Entry.unitary.fills, (f.target, f.target) ∈ Entry.optimize.dicts ∧
      f.key ≠ "scale_factor") := by
      refine forall_cons ?_ (forall_cons ?_ (forall_cons ?_ forall_nil)) <;> decide
    exact hopt c hk _ _ _ (hd f hf').1 (hd f hf').2 (hf f hf' a b)
  | crab =>
    simp only [Entry.reached] at h
    cases h
    have hk := crabCall_known hs
    obtain ⟨f1, f2⟩ := crabFold_filled hs
    constructor
    · refine forall_cons ?_ (forall_cons ?_ forall_nil)
      · intro a b
        exact hopt _ hk "alg_params" _ _ (by decide) (show "num_coeffs" ≠ _ by decide)
          (f1 "num_coeffs" (by decide) a b)
      · intro a b
        exact hopt _ hk "alg_params" _ _ (by decide) (show "init_coeff_scaling" ≠ _ by decide)
          (f1 "init_coeff_scaling" (by decide) a b)
    · intro ht
      have f3 := f2 ht
      refine forall_cons ?_ (forall_cons ?_ (forall_cons ?_ forall_nil))
      · intro a b
        exact hopt _ hk "init_pulse_params" _ _ (by decide) (show "scaling" ≠ _ by decide)
          (f3 ("scaling", "guess_pulse_scaling") (by decide) a b)
      · intro a b
        exact hopt _ hk "init_pulse_params" _ _ (by decide) (show "offset" ≠ _ by decide)
          (f3 ("offset", "guess_pulse_offset") (by decide) a b)
      · intro a b
        exact hopt _ hk "init_pulse_params" _ _ (by decide) (show "pulse_action" ≠ _ by decide)
          (f3 ("pulse_action", "guess_pulse_action") (by decide) a b)
  | crabUnitary =>
    obtain ⟨c, hc, rfl⟩ := map_ok h
    have hk := crabUnitaryCall_known hs
    have hkc := unitaryCall_known hc hk
    obtain ⟨f1, f2⟩ := crabFold_filled hs
    have hun : ∀ m k v, (m, m) ∈ Entry.unitary.dicts → (m, m) ∈ Entry.optimize.dicts →
        k ≠ "scale_factor" →
        (entries (crabUnitaryCall s).heap ((crabUnitaryCall s).vars m)).get k = some v →
        (entries (optimizeCall c).heap ((optimizeCall c).vars m)).get k = some v := by
      intro m k v hm hm' hk' hv
      refine reached_kept (e := .unitary) (s := crabUnitaryCall s) ?_ hk (m, m) hm k v hk' hv
      simp only [Entry.reached, hc]; rfl
    constructor
    · refine forall_cons ?_ (forall_cons ?_ (forall_cons ?_ forall_nil))
      · intro a b
        exact hun "alg_params" _ _ (by decide) (by decide) (show "num_coeffs" ≠ _ by decide)
          (f1 "num_coeffs" (by decide) a b)
      · intro a b
        exact hun "alg_params" _ _ (by decide) (by decide) (show "init_coeff_scaling" ≠ _ by decide)
          (f1 "init_coeff_scaling" (by decide) a b)
      · intro a b
        have hp : (crabUnitaryCall s).vars "phase_option" = s.vars "phase_option" :=
          crabFold_vars s (n := "phase_option") (by decide) (by decide)
        have := unitaryCall_filled hc hk phaseFill (by simp [Entry.fills, methodFills])
          (by rw [show phaseFill.keyword = "phase_option" from rfl, hp]; exact a)
          ((crabFold_phase hs).trans b)
        refine hopt c hkc "fid_params" _ _ (by decide) (show "phase_option" ≠ _ by decide) ?_
        exact this.trans (congrArg some hp)
    · intro ht
      have f3 := f2 ht
      refine forall_cons ?_ (forall_cons ?_ (forall_cons ?_ forall_nil))
      · intro a b
        exact hun "init_pulse_params" _ _ (by decide) (by decide) (show "scaling" ≠ _ by decide)
          (f3 ("scaling", "guess_pulse_scaling") (by decide) a b)
      · intro a b
        exact hun "init_pulse_params" _ _ (by decide) (by decide) (show "offset" ≠ _ by decide)
          (f3 ("offset", "guess_pulse_offset") (by decide) a b)
      · intro a b
        exact hun "init_pulse_params" _ _ (by decide) (by decide) (show "pulse_action" ≠ _ by decide)
          (f3 ("pulse_action", "guess_pulse_action") (by decide) a b)

end QTrl.PO
