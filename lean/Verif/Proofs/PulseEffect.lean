import Verif.Proofs.PulseForward
import Verif.Props.PulseOptim

/-
Lemmas: the parameters of `create_pulse_optimizer` show in the optimiser it returns.
-/

namespace QTrl.PO

open QTrl.Opt (Dict Attrs setattr setAll Cls Conf)

theorem setattr_eq (o : Attrs Val) (k : String) (v : Val) : setattr o k v k = some v := if_pos rfl

theorem setattr_ne (o : Attrs Val) {k n : String} (v : Val) (h : n ≠ k) : setattr o k v n = o n :=
  if_neg h

theorem setAll_get {d : Dict Val} (hd : Dict.Uniq d) (o : Attrs Val) (n : String) :
    setAll o d n = (d.get n).or (o n) := by
  rw [← Dict.last_eq_get hd]
  clear hd
  induction d generalizing o with
  | nil => simp [setAll, Dict.last]
  | cons q r ih =>
    obtain ⟨k, v⟩ := q
    simp only [setAll, Dict.last, ih, setattr]
    cases Dict.last r n with
    | some w => rfl
    | none => by_cases h : n = k <;> simp [h, eq_comm]

/-- Dictionaries have one value for each key. -/
def Heap.Uniq (h : Heap) : Prop := ∀ r, Dict.Uniq (h.dicts r)

theorem uniq_put {h : Heap} (hu : h.Uniq) (r : ℕ) (k : String) (v : Val) : (h.put r k v).Uniq := by
  intro i
  unfold Heap.put
  simp only
  split
  · exact Dict.set_uniq (hu r) k v
  · exact hu i

theorem uniq_alloc {h : Heap} (hu : h.Uniq) {d : Dict Val} (hd : Dict.Uniq d) : (h.alloc d).Uniq := by
  intro i
  unfold Heap.alloc
  simp only
  split
  · exact hd
  · exact hu i

theorem applyParams_get {h : Heap} (hu : h.Uniq) (o : Attrs Val) (v : Val) (n : String) :
    applyParams h o v n = ((entries h v).get n).or (o n) := by
  unfold applyParams entries dictOf
  split
  · exact setAll_get (hu _) _ _
  · rfl

theorem uniq_single (k : String) (v : Val) : Dict.Uniq [(k, v)] := by
  simp [Dict.Uniq]

theorem uniq_foldKw {kw target check store : String} {s : St} (hu : s.heap.Uniq) :
    (foldKw kw target check store s).heap.Uniq := by
  unfold foldKw
  split
  · exact hu
  · split
    · split
      · exact hu
      · exact uniq_put hu _ _ _
    · exact uniq_alloc hu (uniq_single _ _)

theorem uniq_foldMethod {s : St} (hu : s.heap.Uniq) : (foldMethod s).heap.Uniq :=
  uniq_foldKw (uniq_foldKw hu)

theorem uniq_foldDeprecated {s : St} (hu : s.heap.Uniq) : (foldDeprecated s).heap.Uniq := by
  unfold foldDeprecated
  rw [foldAmpMode_heap]
  refine uniq_foldKw (uniq_foldKw (uniq_foldMethod ?_))
  rw [foldAlg_heap]
  exact hu

theorem uniq_foldPhase {s t : St} (h : foldPhase s = .ok t) (hu : s.heap.Uniq) : t.heap.Uniq := by
  unfold foldPhase at h
  split at h
  · cases h; exact hu
  · split at h
    · cases h; exact uniq_alloc hu (uniq_single _ _)
    · cases h
      split
      · exact hu
      · exact uniq_put hu _ _ _
    · cases h

theorem uniq_unitaryCall {s c : St} (h : unitaryCall s = .ok c) (hu : s.heap.Uniq) : c.heap.Uniq := by
  obtain ⟨t, ht, rfl⟩ := map_ok h
  have h1 : (foldAmpMode (foldMethod (foldAlg s))).heap.Uniq := by
    rw [foldAmpMode_heap]
    refine uniq_foldMethod ?_
    rw [foldAlg_heap]
    exact hu
  exact uniq_foldPhase (s := foldAmpMode (foldMethod (foldAlg s))) (t := t) ht h1

theorem uniq_fillKey {var key : String} {r : ℕ} {s : St} (hu : s.heap.Uniq) :
    (fillKey var key r s).heap.Uniq := by
  unfold fillKey
  split
  · exact hu
  · split
    · exact hu
    · exact uniq_put hu _ _ _

theorem uniq_crabFold {s : St} (hu : s.heap.Uniq) : (crabFold s).heap.Uniq := by
  have h1 : (crabAlgParams s).heap.Uniq := by
    unfold crabAlgParams
    split
    · exact uniq_fillKey (uniq_fillKey hu)
    · exact uniq_alloc hu (by simp [Dict.Uniq])
  unfold crabFold crabGuessParams
  split
  · split
    · exact uniq_fillKey (uniq_fillKey (uniq_fillKey h1))
    · refine uniq_fillKey (uniq_fillKey (uniq_fillKey ?_))
      exact uniq_alloc h1 (by simp [Dict.Uniq])
  · exact h1

theorem reached_uniq {e : Entry} {s s' : St} (h : e.reached s = .ok s') (hu : s.heap.Uniq) :
    s'.heap.Uniq := by
  cases e with
  | optimize =>
    simp only [Entry.reached] at h
    cases h
    exact uniq_foldDeprecated hu
  | unitary =>
    obtain ⟨c, hc, rfl⟩ := map_ok h
    exact uniq_foldDeprecated (uniq_unitaryCall hc hu)
  | crab =>
    simp only [Entry.reached] at h
    cases h
    exact uniq_foldDeprecated (uniq_crabFold hu)
  | crabUnitary =>
    obtain ⟨c, hc, rfl⟩ := map_ok h
    exact uniq_foldDeprecated (uniq_unitaryCall hc (uniq_crabFold hu))

theorem reached_folded {e : Entry} {s s' : St} (h : e.reached s = .ok s') :
    foldDeprecated s' = s' := by
  cases e with
  | optimize =>
    simp only [Entry.reached] at h
    cases h
    exact optimizeCall_folded s
  | unitary =>
    obtain ⟨c, hc, rfl⟩ := map_ok h
    exact optimizeCall_folded c
  | crab =>
    simp only [Entry.reached] at h
    cases h
    exact optimizeCall_folded _
  | crabUnitary =>
    obtain ⟨c, hc, rfl⟩ := map_ok h
    exact optimizeCall_folded c

/-! ### The dynamics -/

theorem makeDyn_get {W : World} {d : DynCls} {s : St} {da : Attrs Val} (h : makeDyn W d s = some da)
    (hu : s.heap.Uniq) :
    (∀ p ∈ [("drift_dyn_gen", "drift"), ("ctrl_dyn_gen", "ctrls"), ("initial", "initial"),
      ("target", "target")], da p.1 = some (s.vars p.2)) ∧
    (s.vars "tau" ≠ .none → da "tau" = some (s.vars "tau")) ∧
    (s.vars "tau" = .none → da "num_tslots" = some (s.vars "num_tslots") ∧
      da "evo_time" = some (s.vars "evo_time")) ∧
    ∀ k v, k ∉ ["drift_dyn_gen", "ctrl_dyn_gen", "initial", "target", "tau", "num_tslots",
      "evo_time"] → (entries s.heap (s.vars "dyn_params")).get k = some v → da k = some v := by
  unfold makeDyn at h
  simp only at h
  split at h
  · rename_i ht
    split at h
    · cases h
      refine ⟨?_, fun hn => absurd ht hn, fun _ => ⟨?_, ?_⟩, ?_⟩
      · refine forall_cons ?_ (forall_cons ?_ (forall_cons ?_ (forall_cons ?_ forall_nil))) <;>
          simp [setattr]
      · simp [setattr]
      · simp [setattr]
      · intro k v hk hv
        simp only [List.mem_cons, List.not_mem_nil, or_false, not_or] at hk
        obtain ⟨k1, k2, k3, k4, -, k6, k7⟩ := hk
        rw [setattr_ne _ _ k7, setattr_ne _ _ k6, setattr_ne _ _ k4, setattr_ne _ _ k3,
          setattr_ne _ _ k2, setattr_ne _ _ k1, applyParams_get hu, hv]
        rfl
    · cases h
  · rename_i ht
    cases h
    refine ⟨?_, fun hn => ?_, fun hn => absurd hn ht, ?_⟩
    · refine forall_cons ?_ (forall_cons ?_ (forall_cons ?_ (forall_cons ?_ forall_nil))) <;>
        simp [setattr]
    · simp [setattr]
    · intro k v hk hv
      simp only [List.mem_cons, List.not_mem_nil, or_false, not_or] at hk
      obtain ⟨k1, k2, k3, k4, k5, -, -⟩ := hk
      rw [setattr_ne _ _ k5, setattr_ne _ _ k4, setattr_ne _ _ k3,
        setattr_ne _ _ k2, setattr_ne _ _ k1, applyParams_get hu, hv]
      rfl

/-! ### The configuration -/

/-- Method parameters, given as a value. -/
theorem applyMethod_get {c : Conf Val} (hc : c.params = none) {h : Heap} (hu : h.Uniq) (v : Val)
    (n : String) :
    ((entries h v).get n = none →
      (Opt.applyMethodParams c (dictOf h v)).attrs n = c.attrs n ∧
      (Opt.applyMethodParams c (dictOf h v)).tc n = c.tc n) ∧
    ∀ x, (entries h v).get n = some x →
      (Opt.applyMethodParams c (dictOf h v)).attrs n = some x ∨
      (Opt.applyMethodParams c (dictOf h v)).tc n = some x ∨
      ((Opt.applyMethodParams c (dictOf h v)).options.getD []).get n = some x := by
  unfold entries
  cases hd : dictOf h v with
  | none =>
    refine ⟨fun _ => ?_, fun x hx => by cases hx⟩
    unfold Opt.applyMethodParams
    simp only [hc]
    exact ⟨trivial, trivial⟩
  | some d =>
    have hud : Dict.Uniq d := by
      unfold dictOf at hd
      split at hd
      · cases hd; exact hu _
      · cases hd
    cases d with
    | nil =>
      refine ⟨fun _ => ?_, fun x hx => by cases hx⟩
      unfold Opt.applyMethodParams
      simp only [hc]
      exact ⟨trivial, trivial⟩
    | cons q r =>
      obtain ⟨h1, h2, h3⟩ := Opt.C32_params c (q :: r) hud (by simp) n
      simp only [Option.getD_some]
      constructor
      · intro hn
        rw [hn] at h1 h2
        exact ⟨h1, h2⟩
      · intro x hx
        rw [hx] at h1 h2 h3
        simp only at h1 h2 h3
        by_cases ha : (c.attrs n).isSome
        · left; rw [h1, if_pos ha]
        · by_cases ht : (c.tc n).isSome
          · right; left; rw [h2, if_neg ha, if_pos ht]
          · right; right; rw [h3, if_neg]
            rintro (h | h)
            · exact ha h
            · exact ht h

theorem makeConf_get {W : World} {c : Cls} {s : St} (hu : s.heap.Uniq) :
    (∀ p ∈ [("alg", "alg"), ("method", "optim_method"), ("amp_lbound", "amp_lbound"), ("amp_ubound", "amp_ubound")],
      (entries s.heap (s.vars "optim_params")).get p.1 = none →
      (entries s.heap (s.vars "method_params")).get p.1 = none →
        (makeConf W c s).attrs p.1 = some (s.vars p.2)) ∧
    (∀ k v, (entries s.heap (s.vars "optim_params")).get k = some v →
      (entries s.heap (s.vars "method_params")).get k = none → (makeConf W c s).attrs k = some v) ∧
    (∀ p ∈ [("fid_err_targ", "fid_err_targ"), ("min_gradient_norm", "min_grad"),
      ("max_iterations", "max_iter"), ("max_wall_time", "max_wall_time")],
      (entries s.heap (s.vars "method_params")).get p.1 = none →
        (makeConf W c s).tc p.1 = some (s.vars p.2)) ∧
    ∀ k v, (entries s.heap (s.vars "method_params")).get k = some v →
      (makeConf W c s).attrs k = some v ∨ (makeConf W c s).tc k = some v ∨
        ((makeConf W c s).options.getD []).get k = some v := by
  unfold makeConf
  simp only
  obtain ⟨cf, hcf⟩ : ∃ cf : Conf Val, cf = ⟨applyParams s.heap (setattr (setattr (setattr (setattr
      (W.optNew c) "alg" (s.vars "alg")) "method"
      (s.vars "optim_method")) "amp_lbound" (s.vars "amp_lbound")) "amp_ubound"
      (s.vars "amp_ubound")) (s.vars "optim_params"), setattr (setattr (setattr (setattr W.tcNew
      "fid_err_targ" (s.vars "fid_err_targ"))
    "min_gradient_norm" (s.vars "min_grad")) "max_iterations" (s.vars "max_iter"))
    "max_wall_time" (s.vars "max_wall_time"), none, none⟩ := ⟨_, rfl⟩
  rw [← hcf]
  have hm := fun n => applyMethod_get (c := cf) (by rw [hcf]) hu (s.vars "method_params") n
  refine ⟨?_, ?_, ?_, fun k v hv => (hm k).2 v hv⟩
  · have ha : ∀ p ∈ [("alg", "alg"), ("method", "optim_method"), ("amp_lbound", "amp_lbound"), ("amp_ubound", "amp_ubound")],
        (entries s.heap (s.vars "optim_params")).get p.1 = none → cf.attrs p.1 = some (s.vars p.2) := by
      refine forall_cons ?_ (forall_cons ?_ (forall_cons ?_ (forall_cons ?_ forall_nil))) <;>
      · intro h
        rw [hcf]
        simp only [applyParams_get hu]
        simp only at h
        rw [h]
        simp [setattr]
    intro p hp h1 h2
    rw [((hm p.1).1 h2).1, ha p hp h1]
  · intro k v hv hn
    rw [((hm k).1 hn).1, hcf]
    simp only [applyParams_get hu, hv]
    rfl
  · have ha : ∀ p ∈ [("fid_err_targ", "fid_err_targ"), ("min_gradient_norm", "min_grad"),
      ("max_iterations", "max_iter"), ("max_wall_time", "max_wall_time")],
        cf.tc p.1 = some (s.vars p.2) := by
      refine forall_cons ?_ (forall_cons ?_ (forall_cons ?_ (forall_cons ?_ forall_nil))) <;>
      · rw [hcf]; simp [setattr]
    intro p hp h2
    rw [((hm p.1).1 h2).2, ha p hp]

/-! ### The generators -/

theorem genBound_for {h : Heap} {b : Val} (hb : GoodBound b) (j : ℕ) :
    BoundFor b j (genBound h b j) := by
  rcases hb with rfl | ⟨q, hq, rfl⟩ | ⟨l, rfl⟩
  · exact .none
  · have : genBound h (.num q) j = .num q := by simp [genBound, truthy, hq]
    rw [this]
    exact .number
  · cases l with
    | nil => exact .empty
    | cons x r =>
      have ht : truthy h (.list (x :: r)) = true := by simp [truthy]
      unfold genBound
      rw [if_pos ht]
      simp only
      split
      · rename_i q hq; exact .own hq
      · rename_i hq
        have hl : (x :: r).length ≤ j := List.getElem?_eq_none_iff.1 hq
        cases hg : (x :: r).getLast? with
        | none => simp at hg
        | some q => exact .last hl hg

theorem crabBase_get {W : World} {h : Heap} (hu : h.Uniq) {v lb ub : Val} :
    (crabBase W h (crabSettings h v) lb ub "lbound" = some lb ∧
      crabBase W h (crabSettings h v) lb ub "ubound" = some ub) ∧
    ((entries h v).get "crab_pulse_params" = none →
      crabBase W h (crabSettings h v) lb ub "num_coeffs" =
        some (((entries h v).get "num_coeffs").getD .none) ∧
      crabBase W h (crabSettings h v) lb ub "fix_freqs" =
        some (((entries h v).get "fix_frequency").getD (.bool true)) ∧
      ∀ x, x ≠ .none → (entries h v).get "init_coeff_scaling" = some x →
        crabBase W h (crabSettings h v) lb ub "scaling" = some x) ∧
    (∀ r k x, (entries h v).get "crab_pulse_params" = some (.dict r) → k ≠ "lbound" → k ≠ "ubound" →
      (h.dicts r).get k = some x → crabBase W h (crabSettings h v) lb ub k = some x) := by
  have hs : crabSettings h v = ⟨((entries h v).get "num_coeffs").getD .none,
      ((entries h v).get "fix_frequency").getD (.bool true),
      ((entries h v).get "init_coeff_scaling").getD .none,
      ((entries h v).get "crab_pulse_params").getD .none⟩ := by
    unfold crabSettings entries
    cases dictOf h v <;> rfl
  rw [hs]
  generalize entries h v = d
  unfold crabBase
  refine ⟨⟨?_, ?_⟩, ?_, ?_⟩
  · simp [setattr]
  · simp [setattr]
  · intro hn
    simp only [hn, Option.getD_none, applyParams]
    refine ⟨?_, ?_, ?_⟩
    · rw [setattr_ne _ _ (by decide), setattr_ne _ _ (by decide)]
      generalize (d.get "init_coeff_scaling").getD .none = z
      cases z <;> simp [setattr]
    · rw [setattr_ne _ _ (by decide), setattr_ne _ _ (by decide)]
      generalize (d.get "init_coeff_scaling").getD .none = z
      cases z <;> simp [setattr]
    · intro x hx hg
      rw [setattr_ne _ _ (by decide), setattr_ne _ _ (by decide), hg]
      simp only [Option.getD_some]
      rw [setattr_eq]
  · intro r k x hr h1 h2 hx
    simp only [hr, Option.getD_some]
    rw [setattr_ne _ _ h2, setattr_ne _ _ h1, applyParams_get hu, entries_dict, hx]
    rfl

/-- The guess pulse generator. -/
theorem guessGen_get {W : World} {s : St} (hu : s.heap.Uniq) {t : String}
    (ht : s.vars "init_pulse_type" = .str t) (hne : t ≠ "") {guess : Option (PG × Val)}
    (h : guessGen W s = .ok guess) :
    ∃ g act, guess = some (g, act) ∧ Names docPG (s.vars "init_pulse_type") g.cls ∧
      (∀ k x, (entries s.heap (s.vars "init_pulse_params")).get k = some x → g.attrs k = some x) ∧
      ((entries s.heap (s.vars "init_pulse_params")).get "scaling" = none →
        g.attrs "scaling" = some (s.vars "pulse_scaling")) ∧
      ((entries s.heap (s.vars "init_pulse_params")).get "offset" = none →
        g.attrs "offset" = some (s.vars "pulse_offset")) ∧
      act = ((entries s.heap (s.vars "init_pulse_params")).get "pulse_action").getD .none := by
  unfold guessGen at h
  rw [if_pos (by rw [ht]; simpa [truthy] using hne)] at h
  split at h
  · cases h
  · rename_i g hg
    obtain ⟨hc, -⟩ := createGen_ok hg
    have hn := pickPG_ok hc
    simp only at h
    split at h
    · rename_i hp
      cases h
      refine ⟨_, _, rfl, hn, ?_, ?_, ?_, ?_⟩
      · intro k x hx
        rw [hp] at hx
        cases hx
      · intro _; simp [setattr]
      · intro _; simp [setattr]
      · rw [hp]; rfl
    · rename_i r hp
      cases h
      rw [hp, entries_dict]
      refine ⟨_, _, rfl, hn, ?_, ?_, ?_, rfl⟩
      · intro k x hx
        simp only [setAll_get (hu r), hx]
        rfl
      · intro hx
        simp only [setAll_get (hu r), hx]
        simp [setattr]
      · intro hx
        simp only [setAll_get (hu r), hx]
        simp [setattr]
    · cases h

/-- One generator. -/
theorem crabGen_get {W : World} {h : Heap} {c : CrabSettings} {guess : Option (PG × Val)}
    {ramp : Option PG} {lb ub : Val} {j : ℕ} {p : PG}
    (hp : crabGen W h c guess ramp lb ub j = .ok p) :
    (∀ k, k ≠ "guess_pulse" → k ≠ "guess_pulse_action" → k ≠ "ramping_pulse" →
      p.attrs k = crabBase W h c (genBound h lb j) (genBound h ub j) k) ∧
    (∀ g act, guess = some (g, act) → ∃ v,
      W.gen "guess" j ⟨g.cls, setattr (setattr g.attrs "lbound" (genBound h lb j)) "ubound"
        (genBound h ub j)⟩ = .ok v ∧ p.attrs "guess_pulse" = some v ∧
      (truthy h act = true → p.attrs "guess_pulse_action" = some act)) ∧
    (∀ g, ramp = some g → ∃ v, W.gen "ramp" j g = .ok v ∧ p.attrs "ramping_pulse" = some v) := by
  unfold crabGen at hp
  simp only at hp
  split at hp
  · cases hp
  · rename_i a ha
    have h1 : (∀ k, k ≠ "guess_pulse" → k ≠ "guess_pulse_action" →
        a k = crabBase W h c (genBound h lb j) (genBound h ub j) k) ∧
      (∀ g act, guess = some (g, act) → ∃ v,
        W.gen "guess" j ⟨g.cls, setattr (setattr g.attrs "lbound" (genBound h lb j)) "ubound"
          (genBound h ub j)⟩ = .ok v ∧ a "guess_pulse" = some v ∧
        (truthy h act = true → a "guess_pulse_action" = some act)) := by
      split at ha
      · cases ha
        exact ⟨fun _ _ _ => rfl, fun _ _ h => by cases h⟩
      · rename_i g act
        split at ha
        · cases ha
        · rename_i v hv
          injection ha with ha
          subst ha
          constructor
          · intro k k1 k2
            split
            · rw [setattr_ne _ _ k2, setattr_ne _ _ k1]
            · rw [setattr_ne _ _ k1]
          · intro g' act' hg
            cases hg
            refine ⟨v, hv, ?_, ?_⟩
            · split
              · rw [setattr_ne _ _ (by decide), setattr_eq]
              · rw [setattr_eq]
            · intro ht
              rw [if_pos ht, setattr_eq]
    split at hp
    · cases hp
      exact ⟨fun k k1 k2 _ => h1.1 k k1 k2, h1.2, fun g hg => by cases hg⟩
    · rename_i g
      split at hp
      · cases hp
      · rename_i v hv
        cases hp
        refine ⟨?_, ?_, ?_⟩
        · intro k k1 k2 k3
          simp only
          rw [setattr_ne _ _ k3]
          exact h1.1 k k1 k2
        · intro g' act hg
          obtain ⟨w, w1, w2, w3⟩ := h1.2 g' act hg
          refine ⟨w, w1, ?_, fun ht => ?_⟩
          · simp only; rw [setattr_ne _ _ (by decide)]; exact w2
          · simp only; rw [setattr_ne _ _ (by decide)]; exact w3 ht
        · intro g' hg
          cases hg
          exact ⟨v, hv, by simp only; rw [setattr_eq]⟩

/-- Everything that was built shows the parameters. -/
theorem built_effective {W : World} {n : ℕ} {s s' : St} {a : Alg} {o : Optim}
    (hu : s.heap.Uniq) (hb : Built W n s a s' o) : Effective W s a o := by
  obtain ⟨d1, d2, d3, -, d5⟩ := algDefaults_ok hb.defaults
  have hv : ∀ m, m ∉ ["optim_method", "prop_type", "init_pulse_type"] → s'.vars m = s.vars m := by
    intro m hm
    simp only [List.mem_cons, List.not_mem_nil, or_false, not_or] at hm
    exact d2 m hm.1 hm.2.1 hm.2.2
  have hu' : s'.heap.Uniq := by rw [d1]; exact hu
  have hdyn := makeDyn_get hb.dynAttrs hu'
  have hconf := makeConf_get (W := W) (c := o.cls) hu'
  have v1 := hv "drift" (by decide)
  have v2 := hv "ctrls" (by decide)
  have v3 := hv "initial" (by decide)
  have v4 := hv "target" (by decide)
  have v5 := hv "tau" (by decide)
  have v6 := hv "num_tslots" (by decide)
  have v7 := hv "evo_time" (by decide)
  have v8 := hv "dyn_params" (by decide)
  have v9 := hv "prop_params" (by decide)
  have v10 := hv "fid_params" (by decide)
  have v11 := hv "alg" (by decide)
  have v12 := hv "amp_lbound" (by decide)
  have v13 := hv "amp_ubound" (by decide)
  have v14 := hv "optim_params" (by decide)
  have v15 := hv "method_params" (by decide)
  have v16 := hv "fid_err_targ" (by decide)
  have v17 := hv "min_grad" (by decide)
  have v18 := hv "max_iter" (by decide)
  have v19 := hv "max_wall_time" (by decide)
  have v20 := hv "pulse_scaling" (by decide)
  have v21 := hv "pulse_offset" (by decide)
  have v22 := hv "init_pulse_params" (by decide)
  have v23 := hv "alg_params" (by decide)
  have v24 := hv "ramping_pulse_type" (by decide)
  have v25 := hv "ramping_pulse_params" (by decide)
  rw [← hb.conf] at hconf
  obtain ⟨c1, c2, c3, c4⟩ := hconf
  obtain ⟨e1, e2, e3, e4⟩ := hdyn
  refine ⟨?_, ?_, ?_, ?_, ?_, ?_, ?_, ?_, ?_, ?_, ?_, ?_, ?_⟩
  · intro p hp
    rw [e1 p hp]
    simp only [List.mem_cons, List.not_mem_nil, or_false] at hp
    rcases hp with rfl | rfl | rfl | rfl <;> simp only [v1, v2, v3, v4]
  · rw [← v5]; exact e2
  · rw [← v5, ← v6, ← v7]; exact e3
  · rw [← v8, ← d1]; exact e4
  · intro k v hk
    rw [hb.propAttrs, applyParams_get hu', v9, d1, hk]
    rfl
  · intro k v hk
    rw [hb.fidAttrs, applyParams_get hu', v10, d1, hk]
    rfl
  · intro p hp
    rw [← d1, ← v14, ← v15]
    have hpv : s.vars p.2 = s'.vars p.2 := by
      simp only [List.mem_cons, List.not_mem_nil, or_false] at hp
      rcases hp with rfl | rfl | rfl <;> simp only [v11, v12, v13]
    rw [hpv]
    refine c1 p ?_
    revert hp
    simp only [List.mem_cons, List.not_mem_nil, or_false]
    tauto
  · intro hnd
    rw [← d1, ← v14, ← v15]
    have : s'.vars "optim_method" = s.vars "optim_method" := by
      rcases d3 with ⟨x1, -⟩ | ⟨-, x2⟩
      · exact absurd (isDef_true x1) hnd
      · exact x2
    rw [← this]
    exact c1 ("method", "optim_method") (by decide)
  · rw [← d1, ← v14, ← v15]; exact c2
  · intro p hp
    rw [← d1, ← v15]
    have hpv : s.vars p.2 = s'.vars p.2 := by
      simp only [List.mem_cons, List.not_mem_nil, or_false] at hp
      rcases hp with rfl | rfl | rfl | rfl <;> simp only [v16, v17, v18, v19]
    rw [hpv]
    exact c3 p hp
  · rw [← d1, ← v15]; exact c4
  · rintro rfl
    obtain ⟨p, g1, g2⟩ := makeGens_grape hb.gens
    obtain ⟨-, g3⟩ := createGen_ok g1
    refine ⟨_, g2, ?_, ?_⟩
    · rw [v20, v21, v12, v13]
      refine forall_cons ?_ (forall_cons ?_ (forall_cons ?_ (forall_cons ?_ forall_nil))) <;>
        simp [setattr]
    · intro k hk
      simp only [List.mem_cons, List.not_mem_nil, or_false, not_or] at hk
      obtain ⟨k1, k2, k3, k4⟩ := hk
      simp only
      rw [setattr_ne _ _ k4, setattr_ne _ _ k3, setattr_ne _ _ k2, setattr_ne _ _ k1, g3, d1, v22]
      rfl
  · rintro rfl
    obtain ⟨-, ramp, guess, gs, q1, ⟨r, q2, rfl⟩, q3, q4⟩ := makeGens_crab hb.gens
    obtain ⟨q5, q6⟩ := crabGens_spec q4
    refine ⟨gs, q3, q5.trans hb.numCtrls.symm, fun j p hj => ?_⟩
    have hlt : j < n := by
      rw [← q5]
      exact (List.getElem?_eq_some_iff.1 hj).1
    obtain ⟨g, g1, g2⟩ := q6 j hlt
    rw [hj] at g1
    cases g1
    rw [Nat.zero_add] at g2
    obtain ⟨w1, w2, w3⟩ := crabGen_get g2
    obtain ⟨⟨b1, b2⟩, b3, b4⟩ := crabBase_get (W := W) (v := s'.vars "alg_params")
      (lb := genBound s'.heap (s'.vars "amp_lbound") j)
      (ub := genBound s'.heap (s'.vars "amp_ubound") j) hu'
    refine ⟨⟨?_, ?_⟩, genBound s'.heap (s'.vars "amp_lbound") j,
      genBound s'.heap (s'.vars "amp_ubound") j, ?_, ?_, ?_, ?_, ?_, ?_⟩
    · rw [← d1, ← v23]
      intro hn
      obtain ⟨b5, b6, b7⟩ := b3 hn
      refine ⟨?_, ?_, ?_⟩
      · rw [w1 _ (by decide) (by decide) (by decide), b5]
      · rw [w1 _ (by decide) (by decide) (by decide), b6]
      · intro x hx hg
        rw [w1 _ (by decide) (by decide) (by decide), b7 x hx hg]
    · intro r' k x hr hk hx
      simp only [List.mem_cons, List.not_mem_nil, or_false, not_or] at hk
      obtain ⟨k1, k2, k3, k4, k5⟩ := hk
      rw [w1 _ k3 k4 k5]
      refine b4 r' k x ?_ k1 k2 ?_
      · rw [d1, v23]; exact hr
      · rw [d1]; exact hx
    · rw [w1 _ (by decide) (by decide) (by decide), b1]
    · rw [w1 _ (by decide) (by decide) (by decide), b2]
    · rw [v12]; exact fun hb => genBound_for hb j
    · rw [v13]; exact fun hb => genBound_for hb j
    · intro t ht hne hnd
      have hi : s'.vars "init_pulse_type" = s.vars "init_pulse_type" := by
        rcases d5 with ⟨x1, -⟩ | ⟨-, x2⟩
        · rw [ht] at x1; exact absurd (isDef_true x1) hnd
        · exact x2
      obtain ⟨g, act, y1, y2, y3, y4, y5, y6⟩ := guessGen_get hu' (hi.trans ht) hne q1
      obtain ⟨v, z1, z2, z3⟩ := w2 g act y1
      rw [hi] at y2
      rw [d1, v22] at y3 y4 y5 y6
      rw [v20] at y4
      rw [v21] at y5
      refine ⟨⟨_, v, ?_, z1, z2, ?_, ?_, ?_, ?_, ?_⟩, ?_⟩
      · exact y2
      · simp only; rw [setattr_ne _ _ (by decide), setattr_eq]
      · simp only; rw [setattr_eq]
      · intro k x k1 k2 hx
        simp only; rw [setattr_ne _ _ k2, setattr_ne _ _ k1]; exact y3 k x hx
      · intro hx
        simp only; rw [setattr_ne _ _ (by decide), setattr_ne _ _ (by decide)]; exact y4 hx
      · intro hx
        simp only; rw [setattr_ne _ _ (by decide), setattr_ne _ _ (by decide)]; exact y5 hx
      · intro t' ht' hg
        rw [hg] at y6
        subst y6
        exact z3 (by simpa [truthy] using ht')
    · intro t ht hne
      rw [v24, ht, if_pos (by simpa [truthy] using hne)] at q2
      obtain ⟨g, y1, rfl⟩ := map_ok q2
      obtain ⟨v, z1, z2⟩ := w3 g rfl
      obtain ⟨y2, y3⟩ := createGen_ok y1
      refine ⟨g.cls, v, pickPG_ok y2, ?_, z2⟩
      rw [← d1, ← v25]
      have hg : g = ⟨g.cls, W.pgNew g.cls (entries s'.heap (s'.vars "ramping_pulse_params"))⟩ := by
        obtain ⟨gc, ga⟩ := g
        simp only [PG.mk.injEq, true_and]
        exact y3
      rw [← hg]
      exact z1

end QTrl.PO
