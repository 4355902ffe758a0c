import Verif.Proofs.PulseOptim

/-
C45: the components that `create_pulse_optimizer` puts together.
-/

namespace QTrl.PO

open QTrl.Opt (Dict Attrs setattr setAll Cls Conf)

/-- A world with `n` controls in which new objects have no attributes of interest and
generators return some pulse. -/
def plainWorld (n : ℕ) : World where
  check := fun _ _ _ _ => .ok n
  dynNew := fun _ _ => none
  propNew := fun _ _ => none
  fidNew := fun _ _ => none
  tslotNew := fun _ _ => none
  optNew := fun _ _ => none
  tcNew := fun _ => none
  pgNew := fun _ d n => d.get n
  gen := fun _ j _ => .ok (.obj j)

theorem plainWorld_generates (n : ℕ) : (plainWorld n).Generates := fun _ j _ => ⟨.obj j, rfl⟩

/-- No dictionaries. -/
def noDicts : Heap := ⟨fun _ => [], 0⟩

/-- Numbers of timeslots and duration. -/
def slotArgs : Dict Val := [("num_tslots", .num 10), ("evo_time", .num 5)]

theorem makeDyn_ok {W : World} {d : DynCls} {s : St} {a : Attrs Val} (h : makeDyn W d s = some a) :
    s.vars "tau" ≠ .none ∨ divides (s.vars "evo_time") (s.vars "num_tslots") = true := by
  unfold makeDyn at h
  simp only at h
  split at h
  · split at h
    · rename_i hd; exact .inr hd
    · cases h
  · rename_i hne; exact .inl hne

theorem makeDyn_accepts {W : World} {d : DynCls} {s : St}
    (h : s.vars "tau" ≠ .none ∨ divides (s.vars "evo_time") (s.vars "num_tslots") = true) :
    ∃ a, makeDyn W d s = some a := by
  unfold makeDyn
  simp only
  split
  · rename_i ht
    rcases h with h | h
    · exact absurd ht h
    · rw [if_pos h]; exact ⟨_, rfl⟩
  · exact ⟨_, rfl⟩

theorem methodFor_of {a : Alg} {v v' : Val} {c : Cls}
    (h : (isDef v = .ok true ∧ v' = .str (if a = .grape then "FMIN_L_BFGS_B" else "FMIN")) ∨
      (isDef v = .ok false ∧ v' = v))
    (hp : pickOptim a v' = .ok c) : MethodFor a v c := by
  rcases h with ⟨h1, h2⟩ | ⟨h1, h2⟩
  · subst h2
    cases a with
    | grape =>
      rw [if_pos rfl, pickOptim_grape] at hp
      cases hp
      exact .defaultGrape (isDef_true h1)
    | crab =>
      rw [if_neg (by simp), pickOptim_crab] at hp
      cases hp
      exact .defaultCrab (isDef_true h1)
  · subst h2
    exact pickOptim_ok h1 hp

/-- What was built matches what was asked for. -/
theorem built_matches {W : World} {n : ℕ} {s s' : St} {a : Alg} {o : Optim}
    (h : Built W n (foldDeprecated s) a s' o) : Matches s.vars a n o := by
  obtain ⟨d1, d2, d3, d4, d5⟩ := algDefaults_ok h.defaults
  have hv : ∀ m, m ≠ "optim_method" → m ≠ "prop_type" → m ≠ "init_pulse_type" →
      m ≠ "method_params" → m ≠ "fid_params" → m ≠ "tslot_type" → s'.vars m = s.vars m :=
    fun m h1 h2 h3 h4 h5 h6 => (d2 m h1 h2 h3).trans (foldDeprecated_vars s h1 h4 h5 h6)
  rw [foldDeprecated_method] at d3
  rw [foldDeprecated_vars s (by decide) (by decide) (by decide) (by decide)] at d4 d5
  have halg := h.alg
  have hdyn := h.dyn
  have hfid := h.fid
  have hprop := h.prop
  rw [foldDeprecated_vars s (by decide) (by decide) (by decide) (by decide)] at halg
  rw [hv _ (by decide) (by decide) (by decide) (by decide) (by decide) (by decide)] at hdyn hfid
  refine ⟨pickAlg_ok halg, pickDyn_ok hdyn, ?_, ?_, ?_, methodFor_of d3 h.cls, h.tslot, ?_, ?_, ?_, ?_⟩
  · rcases d4 with ⟨rfl, e1, e2⟩ | ⟨e1, e2⟩
    · left
      rw [e2] at hprop
      refine ⟨rfl, isDef_true e1, ?_⟩
      simp only [pickProp] at hprop
      injection hprop with hprop
      exact hprop.symm
    · right
      rw [e2] at hprop
      rcases pickProp_ok hprop with ⟨hd, hp⟩ | hp
      · left
        refine ⟨?_, hp⟩
        cases a with
        | grape =>
          rcases hd with hd | hd | hd
          · exact .inr ⟨rfl, .inl hd⟩
          · exact .inr ⟨rfl, .inr hd⟩
          · exact .inl hd
        | crab =>
          rcases hd with hd | hd | hd
          · exact absurd (.inl hd) (not_asksDefault (e1 rfl))
          · exact absurd (.inr ⟨_, hd, by decide +kernel⟩) (not_asksDefault (e1 rfl))
          · exact .inl hd
      · exact .inr hp
  · rcases pickFid_ok hfid with ⟨hd | ⟨t, hd, ht⟩, hp⟩ | hp
    · exact .inl ⟨.inl hd, hp⟩
    · exact .inl ⟨.inr (by rw [hd, pyUpper_eq_empty ht]), hp⟩
    · exact .inr hp
  · intro hu hf
    rw [hu] at hfid
    exact pickFid_exact hfid hf
  · rintro rfl
    obtain ⟨p, h1, h2⟩ := makeGens_grape h.gens
    refine ⟨_, h2, ?_⟩
    obtain ⟨h3, -⟩ := createGen_ok h1
    rcases d5 with ⟨e1, e2⟩ | ⟨e1, e2⟩
    · left
      refine ⟨isDef_true e1, ?_⟩
      rw [e2, if_pos rfl] at h3
      simp only [pickPG] at h3
      injection h3 with h3
      exact h3.symm
    · right
      rw [e2] at h3
      exact pickPG_ok h3
  · rintro rfl
    obtain ⟨-, ramp, guess, gs, -, -, h4, h5⟩ := makeGens_crab h.gens
    obtain ⟨h6, h7⟩ := crabGens_spec h5
    refine ⟨gs, h4, h6, fun p hp => ?_⟩
    obtain ⟨i, hi⟩ := List.mem_iff_getElem?.1 hp
    have hlt : i < n := by
      rw [← h6]
      exact (List.getElem?_eq_some_iff.1 hi).1
    obtain ⟨g, g1, g2⟩ := h7 i hlt
    rw [hi] at g1
    cases g1
    exact crabGen_cls g2
  · intro hs
    rw [h.stats, makeStats, hv _ (by decide) (by decide) (by decide) (by decide) (by decide)
      (by decide), hs]
    simp [truthy]
  · intro hs hm
    rw [h.stats, makeStats, hv _ (by decide) (by decide) (by decide) (by decide) (by decide)
      (by decide), hs, hv _ (by decide) (by decide) (by decide) (by decide) (by decide)
      (by decide), hm]
    simp [truthy]

/-- **C45** (partial: the timeslot computer is the default one whatever was asked for).  If
`create_pulse_optimizer` returns, the checks of the operators passed, with some number of
controls, and the dynamics, propagator computer, fidelity computer, optimiser, pulse generator
and statistics are those that the arguments name, or the defaults where they ask for defaults;
for CRAB there is one CRAB generator for each control. -/
theorem C45_components_partial (W : World) (args : Dict Val) (h h' : Heap) (o : Optim)
    (hc : createWith W args h = (.ok o, h')) :
    let g := bind createDefaults args
    ∃ a n, W.check (g "drift") (g "ctrls") (g "initial") (g "target") = .ok n ∧
      o.numCtrls = n ∧ Matches g a n o := by
  intro g
  obtain ⟨n, h1, -, h3⟩ := create_ok hc
  obtain ⟨a, s', hb⟩ := build_ok h3
  exact ⟨a, n, h1, hb.numCtrls, built_matches hb⟩

example : ∃ o h', createWith (plainWorld 2) (("alg", .str "crab") :: slotArgs) noDicts = (.ok o, h') :=
  ⟨_, _, rfl⟩

/-- **C45.** Statistics are collected unless `gen_stats` is one of the values that count as false
(leaving aside dictionaries). -/
theorem C45_stats (W : World) (args : Dict Val) (h h' : Heap) (o : Optim)
    (hc : createWith W args h = (.ok o, h'))
    (hd : ∀ r, bind createDefaults args "gen_stats" ≠ .dict r) :
    o.stats = none ↔ bind createDefaults args "gen_stats" = .none ∨
      bind createDefaults args "gen_stats" = .bool false ∨
      bind createDefaults args "gen_stats" = .num 0 ∨
      bind createDefaults args "gen_stats" = .str "" ∨
      bind createDefaults args "gen_stats" = .list [] := by
  obtain ⟨n, h1, -, h3⟩ := create_ok hc
  obtain ⟨a, s', hb⟩ := build_ok h3
  have hv := (algDefaults_ok hb.defaults).2.1 "gen_stats" (by decide) (by decide) (by decide)
  rw [foldDeprecated_vars _ (by decide) (by decide) (by decide) (by decide)] at hv
  simp only at hv
  rw [hb.stats, makeStats, hv]
  generalize bind createDefaults args "gen_stats" = v at *
  have ht : (if truthy s'.heap v = true then
      some (if s'.vars "amp_update_mode" = .str "DYNAMIC" then StatsCls.dynTsUpdate else .stats)
      else none) = none ↔ truthy s'.heap v = false := by
    cases truthy s'.heap v <;> simp
  rw [ht]
  cases v with
  | dict r => exact absurd rfl (hd r)
  | _ => simp [truthy]

example : ∃ o h', createWith (plainWorld 2) (("gen_stats", .list []) :: slotArgs) noDicts =
    (.ok o, h') ∧ o.stats = none := ⟨_, _, rfl, rfl⟩

example : ∃ o h', createWith (plainWorld 2) (("dyn_type", .str "UNIT") :: ("prop_type", .str "FRECHET") ::
    ("init_pulse_type", .str "SINE") :: slotArgs) noDicts = (.ok o, h') := ⟨_, _, rfl⟩

theorem divides_iff {t n : Val} (ht : ∀ b, t ≠ .bool b) (hn : ∀ b, n ≠ .bool b) :
    divides t n = true ↔ Divisible t n := by
  constructor
  · intro h
    unfold divides at h
    split at h
    · rename_i a b; exact ⟨a, b, by simpa using h, rfl, rfl⟩
    · exact absurd rfl (hn _)
    · exact absurd rfl (ht _)
    · exact absurd rfl (ht _)
    · cases h
  · rintro ⟨a, b, hb, rfl, rfl⟩
    simp [divides, hb]

/-- The variables when the components are chosen. -/
theorem chosen_vars {s s' : St} {a : Alg} (h : algDefaults a (foldDeprecated s) = .ok s')
    (m : String) (h1 : m ≠ "optim_method" := by decide) (h2 : m ≠ "prop_type" := by decide)
    (h3 : m ≠ "init_pulse_type" := by decide) (h4 : m ≠ "method_params" := by decide)
    (h5 : m ≠ "fid_params" := by decide) (h6 : m ≠ "tslot_type" := by decide) :
    s'.vars m = s.vars m :=
  ((algDefaults_ok h).2.1 m h1 h2 h3).trans (foldDeprecated_vars s h1 h4 h5 h6)

/-- Known names of pulses lead to generators. -/
theorem typed_gens {W : World} (hW : W.Generates) {n : ℕ} {s s' : St} {a : Alg}
    (ht : Typed s.vars n) (h : algDefaults a (foldDeprecated s) = .ok s') :
    ∃ g, makeGens W a n s' = .ok g := by
  obtain ⟨-, -, -, -, d5⟩ := algDefaults_ok h
  rw [foldDeprecated_vars s (by decide) (by decide) (by decide) (by decide)] at d5
  refine makeGens_accepts hW (fun _ => ht.ctrls) ?_ ?_ ?_
  · intro hr
    rw [chosen_vars h "ramping_pulse_type"] at hr ⊢
    rcases ht.ramp with hr' | hr'
    · rw [hr'] at hr; cases hr
    · exact hr'
  · intro hi
    rcases d5 with ⟨e1, e2⟩ | ⟨e1, e2⟩
    · cases a with
      | grape => rw [e2, if_pos rfl]; exact ⟨.random, "RND", rfl, by decide⟩
      | crab =>
        rw [e2, if_neg (by simp)] at hi
        rcases hi with hi | hi <;> cases hi
    · rw [e2]
      rcases ht.pulse with hp | hp
      · exact absurd hp (not_asksDefault e1)
      · exact hp
  · rw [chosen_vars h "init_pulse_params"]
    exact ht.params

/-- The defaults of the algorithms can be applied. -/
theorem typed_defaults {n : ℕ} {s : St} (ht : Typed s.vars n) (a : Alg) :
    ∃ s', algDefaults a (foldDeprecated s) = .ok s' := by
  refine algDefaults_total ?_ ?_ ?_
  · rw [foldDeprecated_method]; exact ht.method
  · rw [foldDeprecated_vars s (by decide) (by decide) (by decide) (by decide)]; exact ht.prop
  · rw [foldDeprecated_vars s (by decide) (by decide) (by decide) (by decide)]
    rcases ht.pulse with (h | ⟨t, h, -⟩) | ⟨c, t, h, -⟩
    · exact .inl h
    · exact .inr ⟨t, h⟩
    · exact .inr ⟨t, h⟩

/-- Arguments of the right kinds: the outcome is an optimiser or a usage error. -/
theorem build_total {W : World} (hW : W.Generates) {n : ℕ} {s : St} (ht : Typed s.vars n) :
    OkOrUsage (build W n (foldDeprecated s)) := by
  rcases pickAlg_total ((foldDeprecated s).vars "alg") with ⟨a, ha⟩ | ha
  swap
  · right; simp only [build, ha]
  obtain ⟨s', hs'⟩ := typed_defaults ht a
  obtain ⟨-, -, -, d4, -⟩ := algDefaults_ok hs'
  rw [foldDeprecated_vars s (by decide) (by decide) (by decide) (by decide)] at d4
  rcases pickDyn_total (v := s'.vars "dyn_type") (by rw [chosen_vars hs' "dyn_type"]; exact ht.dyn) with
    ⟨d, hd⟩ | hd
  swap
  · right; simp only [build, ha, hs', hd]
  rcases pickProp_total (d := d) (v := s'.vars "prop_type") (by
      rcases d4 with ⟨-, -, e⟩ | ⟨-, e⟩
      · exact .inr ⟨_, e⟩
      · rw [e]; exact ht.prop) with ⟨p, hp⟩ | hp
  swap
  · right; simp only [build, ha, hs', hd, hp]
  rcases pickFid_total (d := d) (p := p) (v := s'.vars "fid_type") (by rw [chosen_vars hs' "fid_type"]; exact ht.fid)
    with ⟨f, hf⟩ | hf
  swap
  · right; simp only [build, ha, hs', hd, hp, hf]
  rcases pickOptim_total a (s'.vars "optim_method") with ⟨c, hc⟩ | hc
  swap
  · right; simp only [build, ha, hs', hd, hp, hf, hc]
  cases hda : makeDyn W d s' with
  | none => right; simp only [build, ha, hs', hd, hp, hf, hc, hda]
  | some da =>
    obtain ⟨g, hg⟩ := typed_gens hW ht hs'
    left
    exact ⟨_, by simp only [build, ha, hs', hd, hp, hf, hc, hda, hg]; rfl⟩

/-- A valid request leads to an optimiser. -/
theorem build_accepts {W : World} (hW : W.Generates) {n : ℕ} {s : St} (ht : Typed s.vars n)
    {a : Alg} (hv : Valid s.vars a) : ∃ o, build W n (foldDeprecated s) = .ok o := by
  have ha : pickAlg ((foldDeprecated s).vars "alg") = .ok a := by
    rw [foldDeprecated_vars s (by decide) (by decide) (by decide) (by decide)]
    exact pickAlg_spells hv.alg
  obtain ⟨s', hs'⟩ := typed_defaults ht a
  obtain ⟨-, -, d3, d4, -⟩ := algDefaults_ok hs'
  rw [foldDeprecated_vars s (by decide) (by decide) (by decide) (by decide)] at d4
  rw [foldDeprecated_method] at d3
  obtain ⟨d, hd⟩ := pickDyn_accepts (v := s'.vars "dyn_type") (by
    rw [chosen_vars hs' "dyn_type"]; exact hv.dyn)
  obtain ⟨p, hp⟩ := pickProp_accepts (d := d) (v := s'.vars "prop_type") (by
    rcases d4 with ⟨-, -, e⟩ | ⟨e', e⟩
    · rw [e]; exact .inr (.inr (.inr ⟨.approx, _, rfl, by decide⟩))
    · rw [e]
      rcases hv.prop with h | h | h | ⟨h, h'⟩ | h
      · exact .inl h
      · exact .inr (.inl h)
      · exact .inr (.inr (.inl h))
      · exact absurd h' (not_asksDefault (e' h))
      · exact .inr (.inr (.inr h)))
  obtain ⟨f, hf⟩ := pickFid_accepts (d := d) (q := p) (v := s'.vars "fid_type") (by
    rw [chosen_vars hs' "fid_type"]; exact hv.fid) (by
    intro hu hsp hpa
    rw [chosen_vars hs' "fid_type"] at hsp
    rw [chosen_vars hs' "dyn_type", hu] at hd
    obtain ⟨x1, x2⟩ := hv.exact (pickDyn_unitary hd) hsp
    rcases d4 with ⟨e0, e1, -⟩ | ⟨-, e⟩
    · exact x2 e0 (isDef_true e1)
    · rw [hu, hpa, e] at hp
      exact x1 (pickProp_approx hp))
  obtain ⟨c, hc⟩ : ∃ c, pickOptim a (s'.vars "optim_method") = .ok c := by
    rcases d3 with ⟨-, e⟩ | ⟨e', e⟩
    · rw [e]
      cases a with
      | grape => exact ⟨_, pickOptim_grape⟩
      | crab => exact ⟨_, pickOptim_crab⟩
    · rw [e]
      obtain ⟨c, hc⟩ := hv.method
      exact pickOptim_accepts e' hc
  obtain ⟨da, hda⟩ := makeDyn_accepts (W := W) (d := d) (s := s') (by
    rw [chosen_vars hs' "tau", chosen_vars hs' "evo_time", chosen_vars hs' "num_tslots",
      divides_iff (fun b => (ht.slots b).1) (fun b => (ht.slots b).2)]
    exact hv.slots)
  obtain ⟨g, hg⟩ := typed_gens hW ht hs'
  exact ⟨_, by simp only [build, ha, hs', hd, hp, hf, hc, hda, hg]; rfl⟩

theorem built_valid {W : World} {n : ℕ} {s s' : St} {a : Alg} {o : Optim} (ht : Typed s.vars n)
    (hb : Built W n (foldDeprecated s) a s' o) : Valid s.vars a := by
  have hm := built_matches hb
  have hs := makeDyn_ok hb.dynAttrs
  rw [chosen_vars hb.defaults "tau", chosen_vars hb.defaults "evo_time",
    chosen_vars hb.defaults "num_tslots",
    divides_iff (fun b => (ht.slots b).1) (fun b => (ht.slots b).2)] at hs
  refine ⟨hm.alg, ?_, ?_, ?_, ?_, ⟨_, hm.method⟩, hs⟩
  · rcases hm.dyn with ⟨h | h, -⟩ | h
    · exact .inl h
    · exact .inr (.inl h)
    · exact .inr (.inr ⟨_, h⟩)
  · rcases hm.prop with ⟨h, h', -⟩ | ⟨h | ⟨-, h | h⟩, -⟩ | h
    · exact .inr (.inr (.inr (.inl ⟨h, h'⟩)))
    · exact .inr (.inl h)
    · exact .inl h
    · exact .inr (.inr (.inl h))
    · exact .inr (.inr (.inr (.inr ⟨_, h⟩)))
  · rcases hm.fid with ⟨h | h, -⟩ | h
    · exact .inl h
    · exact .inr (.inl h)
    · exact .inr (.inr ⟨_, h⟩)
  · intro hu hsp
    have e1 : o.dyn = .unitary := by
      rcases hm.dyn with ⟨h | h, -⟩ | ⟨t, h, ht⟩
      · rw [hu] at h; cases h
      · rw [hu] at h; injection h with h; exact absurd h (by decide)
      · rw [hu] at h; cases h
        revert ht; generalize o.dyn = x; cases x <;> decide
    have e2 : o.fid = .traceDiff := by
      obtain ⟨u, hu1, hu2⟩ := hsp
      rcases hm.fid with ⟨(h | ⟨t, h, ht⟩) | h, -⟩ | ⟨t, h, ht⟩
      · rw [hu1] at h; cases h
      · rw [hu1] at h; cases h; rw [hu2] at ht; exact absurd ht (by decide)
      · rw [hu1] at h; cases h; exact absurd hu2 (by decide +kernel)
      · rw [hu1] at h; cases h; rw [hu2] at ht
        revert ht; generalize o.fid = x; cases x <;> decide
    have e3 := hm.exact e1 e2
    constructor
    · intro hp
      apply e3
      rcases hm.prop with ⟨-, -, h⟩ | ⟨h | ⟨-, h | h⟩, -⟩ | ⟨t, h, ht⟩
      · exact h
      · rw [hp] at h; injection h with h; exact absurd h (by decide)
      · rw [hp] at h; cases h
      · rw [hp] at h; injection h with h; exact absurd h (by decide)
      · rw [hp] at h; cases h
        revert ht; generalize o.prop = x; cases x <;> decide
    · rintro rfl hp
      apply e3
      rcases hm.prop with ⟨-, -, h⟩ | ⟨h | ⟨h, -⟩, -⟩ | ⟨t, h, ht⟩
      · exact h
      · rcases hp with hp | ⟨t, hp, ht⟩
        · rw [hp] at h; cases h
        · rw [hp] at h; cases h; exact absurd ht (by decide +kernel)
      · cases h
      · rcases hp with hp | ⟨t', hp, ht'⟩
        · rw [hp] at h; cases h
        · rw [hp] at h; cases h
          simp only [docProp, List.mem_cons, Prod.mk.injEq, List.not_mem_nil, or_false] at ht
          rcases ht with ⟨rfl, -⟩ | ⟨rfl, -⟩ | ⟨rfl, -⟩ | ⟨rfl, -⟩ <;>
            exact absurd ht' (by decide +kernel)

/-- **C45.** With arguments of the right kinds, `create_pulse_optimizer` either returns an
optimiser or raises a usage error, and it returns one exactly if every name in the request is
known, the timeslots are given and the trace difference computer is not asked for together with
unitary dynamics and the propagator computer without exact gradients. -/
theorem C45_usage_error (W : World) (hW : W.Generates) (args : Dict Val) (h : Heap) (n : ℕ)
    (hn : let g := bind createDefaults args
      W.check (g "drift") (g "ctrls") (g "initial") (g "target") = .ok n)
    (ht : Typed (bind createDefaults args) n) :
    ((∃ o, (createWith W args h).1 = .ok o) ∧ (∃ a, Valid (bind createDefaults args) a)) ∨
    ((createWith W args h).1 = .error .usageError ∧ ¬ ∃ a, Valid (bind createDefaults args) a) := by
  have e : (createWith W args h).1 = build W n (foldDeprecated ⟨bind createDefaults args, h⟩) := by
    unfold createWith create
    simp only at hn ⊢
    rw [hn]
  rw [e]
  by_cases hv : ∃ a, Valid (bind createDefaults args) a
  · obtain ⟨a, ha⟩ := hv
    left
    exact ⟨build_accepts hW (s := ⟨_, h⟩) ht ha, a, ha⟩
  · right
    refine ⟨?_, hv⟩
    rcases build_total hW (s := ⟨_, h⟩) ht with ⟨o, ho⟩ | ho
    · exfalso
      apply hv
      obtain ⟨a, s', hb⟩ := build_ok ho
      exact ⟨a, built_valid (s := ⟨bind createDefaults args, h⟩) ht hb⟩
    · exact ho

example : (createWith (plainWorld 2) (("alg", .str "gradient") :: slotArgs) noDicts).1 =
    .error .usageError := rfl

example : (createWith (plainWorld 2) (("dyn_type", .str "UNIT") :: ("prop_type", .str "APPROX") ::
    ("fid_type", .str "tracediff") :: slotArgs) noDicts).1 = .error .usageError := rfl

/-! ### Where the property fails -/

/-- **C45 fails**: the timeslot computer that was asked for is not used.  With
`tslot_type="DYNAMIC"`, a documented option, the returned optimiser has the default one,
whatever else is asked for. -/
theorem C45_violated_tslot (W : World) (args : Dict Val) (h h' : Heap) (o : Optim)
    (hc : createWith W (("tslot_type", .str "DYNAMIC") :: args) h = (.ok o, h')) :
    o.tslot = .updateAll := by
  obtain ⟨n, -, -, h3⟩ := create_ok hc
  obtain ⟨a, s', hb⟩ := build_ok h3
  exact hb.tslot

example : ∃ o h', createWith (plainWorld 2) (("tslot_type", .str "DYNAMIC") :: slotArgs) noDicts =
    (.ok o, h') := ⟨_, _, rfl⟩

/-- **C45 fails**: the documented name "TD_APPROX" of a fidelity computer is never accepted. -/
theorem C45_violated_fid (W : World) (args : Dict Val) (h : Heap) (o : Optim) :
    (createWith W (("fid_type", .str docFidName) :: args) h).1 ≠ .ok o := by
  intro hc
  obtain ⟨a, n, -, -, hm⟩ := C45_components_partial W (("fid_type", .str docFidName) :: args) h
    (createWith W (("fid_type", .str docFidName) :: args) h).2 o (Prod.ext hc rfl)
  have hg : bind createDefaults (("fid_type", .str docFidName) :: args) "fid_type" =
      .str docFidName := rfl
  have hu : pyUpper docFidName = docFidName := by decide +kernel
  rcases hm.fid with ⟨(h | ⟨t, h, ht⟩) | h, -⟩ | ⟨t, h, ht⟩
  · rw [hg] at h; cases h
  · rw [hg] at h; injection h with h; rw [← h, hu] at ht; exact absurd ht (by decide)
  · rw [hg] at h; injection h with h; exact absurd h (by decide)
  · rw [hg] at h; injection h with h; rw [← h, hu] at ht
    simp [docFid, docFidName] at ht

/-- **C45 fails**: asked for CRAB with a gradient method, it returns an optimiser that is not
one for CRAB, together with a list of CRAB generators. -/
theorem C45_violated_crab : ∃ o h', createWith (plainWorld 2)
    (("alg", .str "CRAB") :: ("optim_method", .str "FMIN_BFGS") :: slotArgs) noDicts = (.ok o, h') ∧
    o.cls = .bfgs ∧ ∃ gs, o.gens = .many gs := ⟨_, _, rfl, rfl, _, rfl⟩

/-- **C45 fails**: an unknown pulse type is reported by a value error, not by a usage error; so
is a known type spelt in lower case. -/
theorem C45_violated_pulse :
    (createWith (plainWorld 2) (("init_pulse_type", .str "NOISE") :: slotArgs) noDicts).1 =
      .error .valueError ∧
    (createWith (plainWorld 2) (("init_pulse_type", .str "rnd") :: slotArgs) noDicts).1 =
      .error .valueError := ⟨rfl, rfl⟩

end QTrl.PO
