import Verif.Spec.PulseOptim

/-
Lemmas about the entry points of pulseoptim.py.
-/

namespace QTrl.PO

open QTrl.Opt (Dict Attrs setattr setAll Cls Conf)

/-! ### Deprecated parameters -/

theorem Env.set_ne (e : Env) {n m : String} (v : Val) (h : m ≠ n) : e.set n v m = e m :=
  if_neg h

theorem Env.set_eq (e : Env) (n : String) (v : Val) : e.set n v n = v := if_pos rfl

theorem foldKw_vars {kw target check store n : String} (s : St) (h : n ≠ target) :
    (foldKw kw target check store s).vars n = s.vars n := by
  unfold foldKw
  split
  · rfl
  · split
    · split <;> rfl
    · exact Env.set_ne _ _ h

theorem foldAlg_vars {n : String} (s : St) (h : n ≠ "optim_method") :
    (foldAlg s).vars n = s.vars n := by
  unfold foldAlg
  split
  · rfl
  · exact Env.set_ne _ _ h

theorem foldAmpMode_vars {n : String} (s : St) (h : n ≠ "tslot_type") :
    (foldAmpMode s).vars n = s.vars n := by
  unfold foldAmpMode
  split
  · rfl
  · exact Env.set_ne _ _ h

theorem foldAmpMode_heap (s : St) : (foldAmpMode s).heap = s.heap := by
  unfold foldAmpMode
  split <;> rfl

theorem foldAlg_heap (s : St) : (foldAlg s).heap = s.heap := by
  unfold foldAlg
  split <;> rfl

theorem foldMethod_vars {n : String} (s : St) (h : n ≠ "method_params") :
    (foldMethod s).vars n = s.vars n := by
  unfold foldMethod
  rw [foldKw_vars _ h, foldKw_vars _ h]

/-- Variables that the management of deprecated parameters leaves alone. -/
theorem foldDeprecated_vars {n : String} (s : St) (h1 : n ≠ "optim_method")
    (h2 : n ≠ "method_params") (h3 : n ≠ "fid_params") (h4 : n ≠ "tslot_type") :
    (foldDeprecated s).vars n = s.vars n := by
  unfold foldDeprecated
  rw [foldAmpMode_vars _ h4, foldKw_vars _ h3, foldKw_vars _ h3, foldMethod_vars _ h2,
    foldAlg_vars _ h1]

theorem foldAlg_method (s : St) : (foldAlg s).vars "optim_method" = methodAsked s.vars := by
  unfold foldAlg methodAsked
  split
  · rename_i h; rw [if_pos h]
  · rename_i h
    rw [if_neg (fun h' => h h')]
    exact Env.set_eq s.vars "optim_method" _

theorem foldDeprecated_method (s : St) :
    (foldDeprecated s).vars "optim_method" = methodAsked s.vars := by
  unfold foldDeprecated
  rw [foldAmpMode_vars _ (by decide), foldKw_vars _ (by decide), foldKw_vars _ (by decide),
    foldMethod_vars _ (by decide), foldAlg_method]

/-! ### Choices -/

theorem isDef_true {v : Val} (h : isDef v = .ok true) : AsksDefault v := by
  unfold isDef at h
  split at h
  · exact .inl rfl
  · rename_i s
    injection h with h
    exact .inr ⟨s, rfl, of_decide_eq_true h⟩
  · cases h

theorem isDef_false {v : Val} (h : isDef v = .ok false) : ∃ s, v = .str s ∧ pyUpper s ≠ "DEF" := by
  unfold isDef at h
  split at h
  · cases h
  · rename_i s
    injection h with h
    exact ⟨s, rfl, of_decide_eq_false h⟩
  · cases h

theorem not_asksDefault {v : Val} (h : isDef v = .ok false) : ¬ AsksDefault v := by
  obtain ⟨s, rfl, hs⟩ := isDef_false h
  rintro (h | ⟨t, h, ht⟩)
  · cases h
  · injection h with h
    subst h
    exact hs ht

theorem defaultTo_ok {name : String} {v : Val} {s s' : St} (h : defaultTo name v s = .ok s') :
    s'.heap = s.heap ∧ (∀ n, n ≠ name → s'.vars n = s.vars n) ∧
      ((isDef (s.vars name) = .ok true ∧ s'.vars name = v) ∨
        (isDef (s.vars name) = .ok false ∧ s'.vars name = s.vars name)) := by
  unfold defaultTo at h
  split at h
  · cases h
  · rename_i hd
    cases h
    exact ⟨rfl, fun n hn => Env.set_ne _ _ hn, .inl ⟨hd, Env.set_eq _ _ _⟩⟩
  · rename_i hd
    cases h
    exact ⟨rfl, fun n hn => rfl, .inr ⟨hd, rfl⟩⟩

theorem pickAlg_ok {v : Val} {a : Alg} (h : pickAlg v = .ok a) : Spells v a.name := by
  unfold pickAlg at h
  split at h
  · rename_i s hs
    cases v with
    | str t =>
      simp only [upperSafe, Val.str.injEq] at hs
      split at h
      · cases h; rename_i hu; exact ⟨t, rfl, by rw [hs, hu]; rfl⟩
      · split at h
        · cases h; rename_i hu; exact ⟨t, rfl, by rw [hs, hu]; rfl⟩
        · cases h
    | _ => simp [upperSafe] at hs
  · cases h

theorem pickDyn_ok {v : Val} {d : DynCls} (h : pickDyn v = .ok d) :
    ((v = .none ∨ v = .str "") ∧ d = .genMat) ∨ Names docDyn v d := by
  unfold pickDyn at h
  split at h
  · cases h; exact .inl ⟨.inl rfl, rfl⟩
  · rename_i s
    split at h
    · rename_i hs
      cases h
      rcases hs with rfl | rfl
      · exact .inr ⟨_, rfl, by decide⟩
      · exact .inl ⟨.inr rfl, rfl⟩
    · split at h
      · rename_i hs; cases h; subst hs; exact .inr ⟨_, rfl, by decide⟩
      · split at h
        · rename_i hs; cases h; subst hs; exact .inr ⟨_, rfl, by decide⟩
        · cases h
  · cases h

theorem defaultProp_spec (d : DynCls) : DefaultProp d (defaultProp d) := by cases d <;> constructor

theorem defaultFid_spec (d : DynCls) : DefaultFid d (defaultFid d) := by cases d <;> constructor

theorem pickProp_ok {d : DynCls} {v : Val} {p : PropCls} (h : pickProp d v = .ok p) :
    ((v = .none ∨ v = .str "DEF" ∨ v = .str "") ∧ DefaultProp d p) ∨ Names docProp v p := by
  unfold pickProp at h
  split at h
  · cases h; exact .inl ⟨.inl rfl, defaultProp_spec d⟩
  · rename_i s
    split at h
    · rename_i hs
      cases h
      rcases hs with rfl | rfl
      · exact .inl ⟨.inr (.inl rfl), defaultProp_spec d⟩
      · exact .inl ⟨.inr (.inr rfl), defaultProp_spec d⟩
    · iterate 4
        split at h
        · rename_i hs; cases h; subst hs; exact .inr ⟨_, rfl, by decide⟩
      cases h
  · cases h

theorem pickDyn_unitary {v : Val} (h : pickDyn v = .ok .unitary) : v = .str "UNIT" := by
  unfold pickDyn at h
  split at h
  · cases h
  · split at h
    · cases h
    · split at h
      · rename_i hs; rw [hs]
      · split at h <;> cases h
  · cases h

theorem pickProp_approx {v : Val} (h : pickProp .unitary v = .ok .approx) : v = .str "APPROX" := by
  unfold pickProp at h
  split at h
  · cases h
  · split at h
    · cases h
    · split at h
      · rename_i hs; rw [hs]
      · iterate 3
          split at h
          · cases h
        cases h
  · cases h

/-- The current computer is one of the defaults, so that `isinstance` cannot keep a subclass. -/
theorem replace_default {d : DynCls} {p : PropCls} {c f : FidCls}
    (h : (defaultFid d).replace p c = .ok f) : f = c := by
  cases d <;> cases c <;> cases p <;> cases h <;> rfl

theorem replace_total (d : DynCls) (p : PropCls) (c : FidCls) :
    (∃ f, (defaultFid d).replace p c = .ok f) ∨ (defaultFid d).replace p c = .error .usageError := by
  cases d <;> cases c <;> cases p <;> first | exact .inl ⟨_, rfl⟩ | exact .inr rfl

theorem replace_accepts {d : DynCls} {p : PropCls} {c : FidCls}
    (h : d = .unitary → c = .traceDiff → p ≠ .approx) : ∃ f, (defaultFid d).replace p c = .ok f := by
  cases d <;> cases c <;> cases p <;>
    first | exact ⟨_, rfl⟩ | exact absurd rfl (h rfl rfl)

theorem pickFid_exact {p : PropCls} {v : Val} {f : FidCls} (h : pickFid .unitary p v = .ok f)
    (hf : f = .traceDiff) : p ≠ .approx := by
  rintro rfl
  unfold pickFid at h
  split at h
  · cases h; cases hf
  · split at h
    · cases h; cases hf
    · split at h
      · cases h; cases hf
      · split at h
        · cases h
        · split at h
          · cases h; cases hf
          · cases h
  · cases h

theorem pickFid_ok {d : DynCls} {p : PropCls} {v : Val} {f : FidCls} (h : pickFid d p v = .ok f) :
    ((AsksDefault v ∨ ∃ s, v = .str s ∧ pyUpper s = "") ∧ DefaultFid d f) ∨
      NamesUpper docFid v f := by
  unfold pickFid at h
  split at h
  · cases h; exact .inl ⟨.inl (.inl rfl), defaultFid_spec d⟩
  · rename_i s
    split at h
    · rename_i hs
      cases h
      rcases hs with hs | hs
      · exact .inl ⟨.inl (.inr ⟨s, rfl, hs⟩), defaultFid_spec d⟩
      · exact .inl ⟨.inr ⟨s, rfl, hs⟩, defaultFid_spec d⟩
    · iterate 3
        split at h
        · rename_i hs
          cases replace_default h
          exact .inr ⟨s, rfl, by rw [hs]; decide⟩
      cases h
  · cases h

theorem pyUpper_eq_empty {s : String} (h : pyUpper s = "") : s = "" := by
  unfold pyUpper at h
  have h2 : (String.ofList (s.toList.map Char.toUpper)).toList = [] := by rw [h]; rfl
  rw [String.toList_ofList] at h2
  have h3 : s.toList = [] := by simpa using h2
  exact String.toList_injective (by rw [h3]; rfl)

theorem spells_str {t name : String} : Spells (.str t) name ↔ pyUpper t = name := by
  constructor
  · rintro ⟨s, h, hs⟩; injection h with h; rw [h, hs]
  · intro h; exact ⟨t, rfl, h⟩

theorem spells_upper {v : Val} {s : String} (h : upperSafe v = .str s) : Spells v s := by
  cases v with
  | str t => simp only [upperSafe, Val.str.injEq] at h; exact ⟨t, rfl, h⟩
  | _ => simp [upperSafe] at h

theorem ite_ok {α : Type} {p : Prop} [Decidable p] {x c : α} {e : Except PyErr α}
    (h : (if p then .ok x else e) = .ok c) : (p ∧ x = c) ∨ e = .ok c := by
  by_cases hp : p
  · rw [if_pos hp] at h; injection h with h; exact .inl ⟨hp, h⟩
  · rw [if_neg hp] at h; exact .inr h

theorem pickPG_ok {v : Val} {c : PGCls} (h : pickPG v = .ok c) : Names docPG v c := by
  cases v with
  | str s =>
    unfold pickPG at h
    iterate 14
      rcases ite_ok h with ⟨hs, hc⟩ | h
      · rw [hs, ← hc]; exact ⟨_, rfl, by decide⟩
    cases h
  | _ => cases h

theorem pickOptim_ok {a : Alg} {v : Val} {c : Cls} (hd : isDef v = .ok false)
    (h : pickOptim a v = .ok c) : MethodFor a v c := by
  obtain ⟨t, rfl, ht⟩ := isDef_false hd
  unfold pickOptim at h
  simp only [upperSafe] at h
  split at h
  · cases h
  · rename_i h0
    split at h
    · rename_i h1; cases h; exact .bfgs (spells_str.2 h1)
    · rename_i h1
      split at h
      · rename_i h2
        cases h
        exact .lbfgsb (h2.elim (fun h => .inr (spells_str.2 h)) (fun h => .inl (spells_str.2 h)))
      · rename_i h2
        rw [not_or] at h2
        split at h
        · rename_i h3
          cases a with
          | crab => cases h; exact .fmin (spells_str.2 h3)
          | grape => cases h
        · rename_i h3
          have hm : ∀ m ∈ ["", "DEF", "FMIN_BFGS", "FMIN_L_BFGS_B", "LBFGSB", "FMIN"],
              ¬ Spells (.str t) m := by
            intro m hm
            rw [spells_str]
            simp only [List.mem_cons, List.not_mem_nil, or_false] at hm
            rcases hm with rfl | rfl | rfl | rfl | rfl | rfl
            · exact h0
            · exact ht
            · exact h1
            · exact h2.2
            · exact h2.1
            · exact h3
          cases a with
          | crab => cases h; exact .scipyCrab hm (by simp)
          | grape => cases h; exact .scipyGrape hm (by simp)

theorem pickOptim_grape : pickOptim .grape (.str "FMIN_L_BFGS_B") = .ok .lbfgsb := by
  have h : pyUpper "FMIN_L_BFGS_B" = "FMIN_L_BFGS_B" := by decide +kernel
  simp [pickOptim, upperSafe, h]

theorem pickOptim_crab : pickOptim .crab (.str "FMIN") = .ok .crabFmin := by
  have h : pyUpper "FMIN" = "FMIN" := by decide +kernel
  simp [pickOptim, upperSafe, h]

/-- What the defaults of the algorithms change. -/
theorem algDefaults_ok {a : Alg} {s s' : St} (h : algDefaults a s = .ok s') :
    s'.heap = s.heap ∧
    (∀ n, n ≠ "optim_method" → n ≠ "prop_type" → n ≠ "init_pulse_type" → s'.vars n = s.vars n) ∧
    ((isDef (s.vars "optim_method") = .ok true ∧
        s'.vars "optim_method" = .str (if a = .grape then "FMIN_L_BFGS_B" else "FMIN")) ∨
      (isDef (s.vars "optim_method") = .ok false ∧
        s'.vars "optim_method" = s.vars "optim_method")) ∧
    ((a = .crab ∧ isDef (s.vars "prop_type") = .ok true ∧ s'.vars "prop_type" = .str "APPROX") ∨
      ((a = .crab → isDef (s.vars "prop_type") = .ok false) ∧
        s'.vars "prop_type" = s.vars "prop_type")) ∧
    ((isDef (s.vars "init_pulse_type") = .ok true ∧
        s'.vars "init_pulse_type" = (if a = .grape then .str "RND" else .none)) ∨
      (isDef (s.vars "init_pulse_type") = .ok false ∧
        s'.vars "init_pulse_type" = s.vars "init_pulse_type")) := by
  cases a with
  | grape =>
    simp only [algDefaults] at h
    split at h
    · cases h
    · rename_i s1 h1
      obtain ⟨a1, a2, a3⟩ := defaultTo_ok h1
      obtain ⟨b1, b2, b3⟩ := defaultTo_ok h
      rw [a2 _ (by decide)] at b3
      refine ⟨b1.trans a1, fun n hn _ hn' => (b2 n hn').trans (a2 n hn), ?_, ?_, ?_⟩
      · rw [b2 _ (by decide)]; simpa using a3
      · right
        refine ⟨fun h => (by cases h), ?_⟩
        rw [b2 _ (by decide), a2 _ (by decide)]
      · simpa using b3
  | crab =>
    simp only [algDefaults] at h
    split at h
    · cases h
    · rename_i s1 h1
      split at h
      · cases h
      · rename_i s2 h2
        obtain ⟨a1, a2, a3⟩ := defaultTo_ok h1
        obtain ⟨b1, b2, b3⟩ := defaultTo_ok h2
        obtain ⟨c1, c2, c3⟩ := defaultTo_ok h
        rw [a2 _ (by decide)] at b3
        rw [b2 _ (by decide), a2 _ (by decide)] at c3
        refine ⟨c1.trans (b1.trans a1),
          fun n hn h' hn' => (c2 n hn').trans ((b2 n h').trans (a2 n hn)), ?_, ?_, ?_⟩
        · rw [c2 _ (by decide), b2 _ (by decide)]; simpa using a3
        · rw [c2 _ (by decide)]
          rcases b3 with ⟨x, y⟩ | ⟨x, y⟩
          · exact .inl ⟨rfl, x, y⟩
          · exact .inr ⟨fun _ => x, y⟩
        · simpa using c3

/-- The steps of a successful creation. -/
structure Built (W : World) (n : ℕ) (s : St) (a : Alg) (s' : St) (o : Optim) : Prop where
  alg : pickAlg (s.vars "alg") = .ok a
  defaults : algDefaults a s = .ok s'
  dyn : pickDyn (s'.vars "dyn_type") = .ok o.dyn
  prop : pickProp o.dyn (s'.vars "prop_type") = .ok o.prop
  fid : pickFid o.dyn o.prop (s'.vars "fid_type") = .ok o.fid
  cls : pickOptim a (s'.vars "optim_method") = .ok o.cls
  dynAttrs : makeDyn W o.dyn s' = some o.dynAttrs
  gens : makeGens W a n s' = .ok o.gens
  conf : o.conf = makeConf W o.cls s'
  propAttrs : o.propAttrs = applyParams s'.heap (W.propNew o.prop) (s'.vars "prop_params")
  fidAttrs : o.fidAttrs = applyParams s'.heap (W.fidNew o.fid) (s'.vars "fid_params")
  tslot : o.tslot = .updateAll
  tslotAttrs : o.tslotAttrs = applyParams s'.heap (W.tslotNew .updateAll) (s'.vars "tslot_params")
  stats : o.stats = makeStats s'
  numCtrls : o.numCtrls = n

theorem build_ok {W : World} {n : ℕ} {s : St} {o : Optim} (h : build W n s = .ok o) :
    ∃ a s', Built W n s a s' o := by
  unfold build at h
  split at h
  · cases h
  rename_i a h1
  split at h
  · cases h
  rename_i s' h2
  split at h
  · cases h
  rename_i d h3
  split at h
  · cases h
  rename_i p h4
  split at h
  · cases h
  rename_i f h5
  split at h
  · cases h
  rename_i c h6
  split at h
  · cases h
  rename_i da h7
  split at h
  · cases h
  rename_i gens h8
  injection h with h
  subst h
  exact ⟨a, s', h1, h2, h3, h4, h5, h6, h7, h8, rfl, rfl, rfl, rfl, rfl, rfl, rfl⟩

theorem create_ok {W : World} {s : St} {o : Optim} {h' : Heap} (h : create W s = (.ok o, h')) :
    ∃ n, W.check (s.vars "drift") (s.vars "ctrls") (s.vars "initial") (s.vars "target") = .ok n ∧
      h' = (foldDeprecated s).heap ∧ build W n (foldDeprecated s) = .ok o := by
  unfold create at h
  split at h
  · simp at h
  · rename_i n hn
    simp only [Prod.mk.injEq] at h
    exact ⟨n, hn, h.2.symm, h.1⟩

/-! ### Generators -/

theorem map_ok {α β : Type} {x : Except PyErr α} {f : α → β} {b : β} (h : x.map f = .ok b) :
    ∃ a, x = .ok a ∧ f a = b := by
  cases x with
  | error e => cases h
  | ok a => injection h with h; exact ⟨a, rfl, h⟩

theorem crabGen_cls {W : World} {h : Heap} {c : CrabSettings} {guess : Option (PG × Val)}
    {ramp : Option PG} {lb ub : Val} {j : ℕ} {g : PG}
    (hg : crabGen W h c guess ramp lb ub j = .ok g) : g.cls = .crabFourier := by
  unfold crabGen at hg
  simp only at hg
  split at hg
  · cases hg
  · split at hg
    · cases hg; rfl
    · split at hg
      · cases hg
      · cases hg; rfl

/-- The generators are those of the controls `j, …, j + n - 1`, in this order. -/
theorem crabGens_spec {W : World} {h : Heap} {c : CrabSettings} {guess : Option (PG × Val)}
    {ramp : Option PG} {lb ub : Val} : ∀ {n j : ℕ} {gs : List PG},
    crabGens W h c guess ramp lb ub j n = .ok gs → gs.length = n ∧
      ∀ i, i < n → ∃ g, gs[i]? = some g ∧ crabGen W h c guess ramp lb ub (j + i) = .ok g := by
  intro n
  induction n with
  | zero =>
    intro j gs hg
    cases hg
    exact ⟨rfl, fun i hi => absurd hi (Nat.not_lt_zero i)⟩
  | succ n ih =>
    intro j gs hg
    simp only [crabGens] at hg
    split at hg
    · cases hg
    · rename_i g h1
      obtain ⟨gs', h2, rfl⟩ := map_ok hg
      obtain ⟨i1, i2⟩ := ih h2
      refine ⟨by rw [List.length_cons, i1], fun i hi => ?_⟩
      cases i with
      | zero => exact ⟨g, rfl, h1⟩
      | succ i =>
        obtain ⟨g', a, b⟩ := i2 i (Nat.lt_of_succ_lt_succ hi)
        refine ⟨g', by simpa using a, ?_⟩
        rw [← b]; congr 1; omega

/-- The generators of the CRAB algorithm. -/
theorem makeGens_crab {W : World} {n : ℕ} {s : St} {g : Gens} (h : makeGens W .crab n s = .ok g) :
    0 < n ∧ ∃ ramp guess gs, guessGen W s = .ok guess ∧
      (∃ r, (if truthy s.heap (s.vars "ramping_pulse_type") then
        (createGen W s.heap (s.vars "ramping_pulse_type") (s.vars "ramping_pulse_params")).map some
        else .ok none) = Except.ok r ∧ r = ramp) ∧ g = .many gs ∧
      crabGens W s.heap (crabSettings s.heap (s.vars "alg_params")) guess ramp
        (s.vars "amp_lbound") (s.vars "amp_ubound") 0 n = .ok gs := by
  unfold makeGens at h
  simp only at h
  split at h
  · cases h
  · rename_i ramp h1
    split at h
    · cases h
    · rename_i guess h2
      split at h
      · cases h
      · cases h
      · rename_i gs hne h3
        cases h
        refine ⟨?_, ramp, guess, gs, h2, ⟨ramp, h1, rfl⟩, rfl, h3⟩
        rcases Nat.eq_zero_or_pos n with rfl | h
        · simp only [crabGens] at h3
          cases h3
          exact absurd rfl hne
        · exact h

/-- The generator of GRAPE. -/
theorem makeGens_grape {W : World} {n : ℕ} {s : St} {g : Gens} (h : makeGens W .grape n s = .ok g) :
    ∃ p, createGen W s.heap (s.vars "init_pulse_type") (s.vars "init_pulse_params") = .ok p ∧
      g = .one ⟨p.cls,
        setattr (setattr (setattr (setattr p.attrs "scaling" (s.vars "pulse_scaling"))
          "offset" (s.vars "pulse_offset")) "lbound" (s.vars "amp_lbound"))
          "ubound" (s.vars "amp_ubound")⟩ := by
  unfold makeGens at h
  simp only at h
  split at h
  · cases h
  · split at h
    · cases h
    · rename_i p hp
      cases h
      exact ⟨p, hp, rfl⟩

/-! ### Which requests are accepted -/

/-- A value that is `None` or a string. -/
def Stringy (v : Val) : Prop := v = .none ∨ ∃ s, v = .str s

/-- An outcome that is a result or a usage error. -/
def OkOrUsage {α : Type} (x : Except PyErr α) : Prop := (∃ a, x = .ok a) ∨ x = .error .usageError

theorem pickAlg_total (v : Val) : OkOrUsage (pickAlg v) := by
  unfold pickAlg
  split
  · split
    · exact .inl ⟨_, rfl⟩
    · split
      · exact .inl ⟨_, rfl⟩
      · exact .inr rfl
  · exact .inr rfl

theorem pickAlg_spells {v : Val} {a : Alg} (h : Spells v a.name) : pickAlg v = .ok a := by
  obtain ⟨s, rfl, hs⟩ := h
  unfold pickAlg
  simp only [upperSafe, hs]
  cases a <;> simp [Alg.name]

theorem isDef_total {v : Val} (h : Stringy v) : ∃ b, isDef v = .ok b := by
  rcases h with rfl | ⟨s, rfl⟩
  · exact ⟨true, rfl⟩
  · exact ⟨_, rfl⟩

theorem defaultTo_total {name : String} {v : Val} {s : St} (h : Stringy (s.vars name)) :
    ∃ s', defaultTo name v s = .ok s' := by
  obtain ⟨b, hb⟩ := isDef_total h
  unfold defaultTo
  rw [hb]
  cases b
  · exact ⟨_, rfl⟩
  · exact ⟨_, rfl⟩

theorem algDefaults_total {a : Alg} {s : St} (h1 : Stringy (s.vars "optim_method"))
    (h2 : Stringy (s.vars "prop_type")) (h3 : Stringy (s.vars "init_pulse_type")) :
    ∃ s', algDefaults a s = .ok s' := by
  cases a with
  | grape =>
    obtain ⟨s1, e1⟩ := defaultTo_total (v := .str "FMIN_L_BFGS_B") h1
    have := (defaultTo_ok e1).2.1 "init_pulse_type" (by decide)
    obtain ⟨s2, e2⟩ := defaultTo_total (s := s1) (name := "init_pulse_type") (v := .str "RND")
      (by rw [this]; exact h3)
    exact ⟨s2, by simp only [algDefaults, e1, e2]⟩
  | crab =>
    obtain ⟨s1, e1⟩ := defaultTo_total (v := .str "FMIN") h1
    have t1 := (defaultTo_ok e1).2.1 "prop_type" (by decide)
    have t2 := (defaultTo_ok e1).2.1 "init_pulse_type" (by decide)
    obtain ⟨s2, e2⟩ := defaultTo_total (s := s1) (name := "prop_type") (v := .str "APPROX")
      (by rw [t1]; exact h2)
    have t3 := (defaultTo_ok e2).2.1 "init_pulse_type" (by decide)
    obtain ⟨s3, e3⟩ := defaultTo_total (s := s2) (name := "init_pulse_type") (v := .none)
      (by rw [t3, t2]; exact h3)
    exact ⟨s3, by simp only [algDefaults, e1, e2, e3]⟩

theorem pickDyn_total {v : Val} (h : Stringy v) : OkOrUsage (pickDyn v) := by
  rcases h with rfl | ⟨s, rfl⟩
  · exact .inl ⟨_, rfl⟩
  · unfold pickDyn
    simp only
    split
    · exact .inl ⟨_, rfl⟩
    · split
      · exact .inl ⟨_, rfl⟩
      · split
        · exact .inl ⟨_, rfl⟩
        · exact .inr rfl

theorem pickProp_total {d : DynCls} {v : Val} (h : Stringy v) : OkOrUsage (pickProp d v) := by
  rcases h with rfl | ⟨s, rfl⟩
  · exact .inl ⟨_, rfl⟩
  · unfold pickProp
    simp only
    iterate 5
      split
      · exact .inl ⟨_, rfl⟩
    exact .inr rfl

theorem pickFid_total {d : DynCls} {p : PropCls} {v : Val} (h : Stringy v) :
    OkOrUsage (pickFid d p v) := by
  rcases h with rfl | ⟨s, rfl⟩
  · exact .inl ⟨_, rfl⟩
  · unfold pickFid
    simp only
    split
    · exact .inl ⟨_, rfl⟩
    iterate 3
      split
      · exact replace_total d p _
    exact .inr rfl

theorem pickOptim_total (a : Alg) (v : Val) : OkOrUsage (pickOptim a v) := by
  unfold pickOptim
  split
  · exact .inr rfl
  · iterate 3
      split
      · first
        | exact .inl ⟨_, rfl⟩
        | exact .inr rfl
    split <;> cases a
    · exact .inr rfl
    · exact .inl ⟨_, rfl⟩
    · exact .inl ⟨_, rfl⟩
    · exact .inl ⟨_, rfl⟩
  · cases a
    · exact .inl ⟨_, rfl⟩
    · exact .inl ⟨_, rfl⟩

theorem pickDyn_accepts {v : Val} (h : v = .none ∨ v = .str "" ∨ ∃ d, Names docDyn v d) :
    ∃ d, pickDyn v = .ok d := by
  rcases h with rfl | rfl | ⟨d, s, rfl, hs⟩
  · exact ⟨_, rfl⟩
  · exact ⟨_, rfl⟩
  · simp only [docDyn, List.mem_cons, Prod.mk.injEq, List.not_mem_nil, or_false] at hs
    rcases hs with ⟨rfl, -⟩ | ⟨rfl, -⟩ | ⟨rfl, -⟩ <;> exact ⟨_, rfl⟩

theorem pickProp_accepts {d : DynCls} {v : Val}
    (h : v = .none ∨ v = .str "" ∨ v = .str "DEF" ∨ ∃ p, Names docProp v p) :
    ∃ p, pickProp d v = .ok p := by
  rcases h with rfl | rfl | rfl | ⟨p, s, rfl, hs⟩
  · exact ⟨_, rfl⟩
  · exact ⟨_, rfl⟩
  · exact ⟨_, rfl⟩
  · simp only [docProp, List.mem_cons, Prod.mk.injEq, List.not_mem_nil, or_false] at hs
    rcases hs with ⟨rfl, -⟩ | ⟨rfl, -⟩ | ⟨rfl, -⟩ | ⟨rfl, -⟩ <;> exact ⟨_, rfl⟩

theorem pickFid_accepts {d : DynCls} {q : PropCls} {v : Val}
    (h : AsksDefault v ∨ v = .str "" ∨ ∃ f, NamesUpper docFid v f)
    (hx : d = .unitary → Spells v "TRACEDIFF" → q ≠ .approx) :
    ∃ f, pickFid d q v = .ok f := by
  rcases h with (rfl | ⟨s, rfl, hs⟩) | rfl | ⟨p, s, rfl, hs⟩
  · exact ⟨_, rfl⟩
  · simp [pickFid, hs]
  · exact ⟨defaultFid d, by simp [pickFid, pyUpper]⟩
  · simp only [docFid, List.mem_cons, Prod.mk.injEq, List.not_mem_nil, or_false] at hs
    rcases hs with ⟨h, -⟩ | ⟨h, -⟩ | ⟨h, -⟩
    · simpa [pickFid, h] using replace_accepts (p := q) (c := .unitary) (fun _ => nofun)
    · simpa [pickFid, h] using
        replace_accepts (p := q) (c := .traceDiff) (fun hd _ => hx hd ⟨s, rfl, h⟩)
    · simpa [pickFid, h] using replace_accepts (p := q) (c := .traceDiffApprox) (fun _ => nofun)

theorem pickPG_accepts {v : Val} (h : ∃ c, Names docPG v c) : ∃ c, pickPG v = .ok c := by
  obtain ⟨c, s, rfl, hs⟩ := h
  simp only [docPG, List.mem_cons, Prod.mk.injEq, List.not_mem_nil, or_false] at hs
  rcases hs with ⟨rfl, -⟩ | ⟨rfl, -⟩ | ⟨rfl, -⟩ | ⟨rfl, -⟩ | ⟨rfl, -⟩ | ⟨rfl, -⟩ | ⟨rfl, -⟩ |
    ⟨rfl, -⟩ | ⟨rfl, -⟩ | ⟨rfl, -⟩ | ⟨rfl, -⟩ | ⟨rfl, -⟩ | ⟨rfl, -⟩ | ⟨rfl, -⟩ <;> exact ⟨_, rfl⟩

theorem spells_unique {v : Val} {a b : String} (h1 : Spells v a) (h2 : Spells v b) : a = b := by
  obtain ⟨s, rfl, rfl⟩ := h1
  exact spells_str.1 h2

/-- A method that stands for a class and is not the default is accepted. -/
theorem pickOptim_accepts {a : Alg} {v : Val} {c : Cls} (hd : isDef v = .ok false)
    (h : MethodFor a v c) : ∃ c, pickOptim a v = .ok c := by
  obtain ⟨t, rfl, ht⟩ := isDef_false hd
  cases h with
  | defaultGrape h => exact absurd h (not_asksDefault hd)
  | defaultCrab h => exact absurd h (not_asksDefault hd)
  | bfgs h => exact ⟨.bfgs, by simp [pickOptim, upperSafe, spells_str.1 h]⟩
  | lbfgsb h =>
    rcases h with h | h <;> exact ⟨.lbfgsb, by simp [pickOptim, upperSafe, spells_str.1 h]⟩
  | fmin h => exact ⟨.crabFmin, by simp [pickOptim, upperSafe, spells_str.1 h]⟩
  | scipyGrape h =>
    simp only [List.mem_cons, List.not_mem_nil, or_false, forall_eq_or_imp, forall_eq,
      spells_str] at h
    obtain ⟨m0, -, m1, m2, m3, m4⟩ := h
    exact ⟨.base, by simp [pickOptim, upperSafe, m0, m1, m2, m3, m4]⟩
  | scipyCrab h =>
    simp only [List.mem_cons, List.not_mem_nil, or_false, forall_eq_or_imp, forall_eq,
      spells_str] at h
    obtain ⟨m0, -, m1, m2, m3, m4⟩ := h
    exact ⟨.crab, by simp [pickOptim, upperSafe, m0, m1, m2, m3, m4]⟩

theorem createGen_ok {W : World} {h : Heap} {ty params : Val} {g : PG}
    (hg : createGen W h ty params = .ok g) :
    pickPG ty = .ok g.cls ∧ g.attrs = W.pgNew g.cls ((dictOf h params).getD []) := by
  obtain ⟨c, h1, rfl⟩ := map_ok hg
  exact ⟨h1, rfl⟩

theorem createGen_accepts {W : World} {h : Heap} {ty params : Val} (hn : ∃ c, Names docPG ty c) :
    ∃ g, createGen W h ty params = .ok g := by
  obtain ⟨c, hc⟩ := pickPG_accepts hn
  exact ⟨_, by unfold createGen; rw [hc]; rfl⟩

/-- Generators always produce a pulse. -/
def World.Generates (W : World) : Prop := ∀ role j p, ∃ v, W.gen role j p = .ok v

theorem crabGen_accepts {W : World} (hW : W.Generates) (h : Heap) (c : CrabSettings)
    (guess : Option (PG × Val)) (ramp : Option PG) (lb ub : Val) (j : ℕ) :
    ∃ g, crabGen W h c guess ramp lb ub j = .ok g := by
  unfold crabGen
  simp only
  cases guess with
  | none =>
    cases ramp with
    | none => exact ⟨_, rfl⟩
    | some r => obtain ⟨v, hv⟩ := hW "ramp" j r; simp only [hv]; exact ⟨_, rfl⟩
  | some p =>
    obtain ⟨p, act⟩ := p
    simp only
    obtain ⟨v, hv⟩ := hW "guess" j ⟨p.cls, setattr (setattr p.attrs "lbound" (genBound h lb j))
      "ubound" (genBound h ub j)⟩
    rw [hv]
    simp only
    cases ramp with
    | none => exact ⟨_, rfl⟩
    | some r => obtain ⟨v, hv⟩ := hW "ramp" j r; simp only [hv]; exact ⟨_, rfl⟩

theorem crabGens_accepts {W : World} (hW : W.Generates) (h : Heap) (c : CrabSettings)
    (guess : Option (PG × Val)) (ramp : Option PG) (lb ub : Val) : ∀ (n j : ℕ),
    ∃ gs, crabGens W h c guess ramp lb ub j n = .ok gs := by
  intro n
  induction n with
  | zero => intro j; exact ⟨_, rfl⟩
  | succ n ih =>
    intro j
    obtain ⟨g, hg⟩ := crabGen_accepts hW h c guess ramp lb ub j
    obtain ⟨gs, hgs⟩ := ih (j + 1)
    exact ⟨g :: gs, by simp only [crabGens, hg, hgs]; rfl⟩

/-- Valid names of pulse types lead to generators. -/
theorem makeGens_accepts {W : World} (hW : W.Generates) {a : Alg} {n : ℕ} {s : St}
    (hn : a = .crab → 0 < n)
    (hr : truthy s.heap (s.vars "ramping_pulse_type") = true →
      ∃ c, Names docPG (s.vars "ramping_pulse_type") c)
    (hi : a = .grape ∨ truthy s.heap (s.vars "init_pulse_type") = true →
      ∃ c, Names docPG (s.vars "init_pulse_type") c)
    (hp : s.vars "init_pulse_params" = .none ∨ ∃ r, s.vars "init_pulse_params" = .dict r) :
    ∃ g, makeGens W a n s = .ok g := by
  have hramp : ∃ r, (if truthy s.heap (s.vars "ramping_pulse_type") then
      (createGen W s.heap (s.vars "ramping_pulse_type") (s.vars "ramping_pulse_params")).map some
      else .ok none) = Except.ok r := by
    by_cases ht : truthy s.heap (s.vars "ramping_pulse_type") = true
    · obtain ⟨g, hg⟩ := createGen_accepts (W := W) (h := s.heap)
        (params := s.vars "ramping_pulse_params") (hr ht)
      exact ⟨some g, by rw [if_pos ht, hg]; rfl⟩
    · exact ⟨none, by rw [if_neg ht]⟩
  obtain ⟨ramp, hramp⟩ := hramp
  unfold makeGens
  simp only [hramp]
  cases a with
  | grape =>
    obtain ⟨g, hg⟩ := createGen_accepts (W := W) (h := s.heap)
        (params := s.vars "init_pulse_params") (hi (.inl rfl))
    simp only [hg]
    exact ⟨_, rfl⟩
  | crab =>
    have hguess : ∃ g, guessGen W s = .ok g := by
      unfold guessGen
      by_cases ht : truthy s.heap (s.vars "init_pulse_type") = true
      · rw [if_pos ht]
        obtain ⟨g, hg⟩ := createGen_accepts (W := W) (h := s.heap) (params := .none)
          (hi (.inr ht))
        rw [hg]
        rcases hp with hp | ⟨r, hp⟩ <;> simp only [hp] <;> exact ⟨_, rfl⟩
      · rw [if_neg ht]; exact ⟨_, rfl⟩
    obtain ⟨guess, hguess⟩ := hguess
    simp only [hguess]
    obtain ⟨gs, hgs⟩ := crabGens_accepts hW s.heap (crabSettings s.heap (s.vars "alg_params"))
      guess ramp (s.vars "amp_lbound") (s.vars "amp_ubound") n 0
    rw [hgs]
    cases gs with
    | nil =>
      have := (crabGens_spec hgs).1
      have := hn rfl
      simp at *
      omega
    | cons g gs => exact ⟨_, rfl⟩

end QTrl.PO
