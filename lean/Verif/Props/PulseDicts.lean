import Verif.Proofs.PulseEffect
import Verif.Props.PulseForward

/-
C47: deprecated keywords and the caller's dictionaries.
-/

namespace QTrl.PO

open QTrl.Opt (Dict Attrs setattr setAll Cls Conf)

/-- The value of a method parameter shows in the configuration. -/
def Conf.Shows (c : Conf Val) (k : String) (v : Val) : Prop :=
  c.attrs k = some v ∨ c.tc k = some v ∨ (c.options.getD []).get k = some v

/-- **C47** (partial: without `fid_err_scale_factor`).  When `create_pulse_optimizer` returns, a
deprecated keyword shows in the optimiser if the caller's dictionary has no such entry, and
the caller's entry shows otherwise. -/
theorem C47_fills_partial (W : World) (args : Dict Val) (h h' : Heap) (o : Optim)
    (hk : Known (bind createDefaults args) h) (hu : h.Uniq)
    (hc : createWith W args h = (.ok o, h')) :
    let g := bind createDefaults args
    (∀ k ∈ ["max_metric_corr", "accuracy_factor"],
      (∀ v, (entries h (g "method_params")).get k = some v → Conf.Shows o.conf k v) ∧
      ((entries h (g "method_params")).get k = none → g k ≠ .none → Conf.Shows o.conf k (g k))) ∧
    (∀ v, (entries h (g "fid_params")).get "phase_option" = some v →
      o.fidAttrs "phase_option" = some v) ∧
    ((entries h (g "fid_params")).get "phase_option" = none → g "phase_option" ≠ .none →
      o.fidAttrs "phase_option" = some (g "phase_option")) ∧
    (∀ k v, k ≠ "scale_factor" → (entries h (g "fid_params")).get k = some v → o.fidAttrs k = some v) ∧
    (∀ k v, k ≠ "scale_factor" → (entries h (g "method_params")).get k = some v →
      Conf.Shows o.conf k v) := by
  intro g
  obtain ⟨n, -, -, h5⟩ := create_ok hc
  obtain ⟨a, s', hb⟩ := build_ok h5
  obtain ⟨s, hs⟩ : ∃ s : St, s = ⟨g, h⟩ := ⟨_, rfl⟩
  have hb : Built W n (foldDeprecated s) a s' o := by rw [hs]; exact hb
  have hks : Known s.vars s.heap := by rw [hs]; exact hk
  have hus : s.heap.Uniq := by rw [hs]; exact hu
  have hE := built_effective (uniq_foldDeprecated hus) hb
  obtain ⟨d1, d2, -⟩ := foldDeprecated_get hks
  have hst := step_foldDeprecated s
  have e1 : s.vars = g := by rw [hs]
  have e2 : s.heap = h := by rw [hs]
  have keep : ∀ m k v, m ≠ "optim_method" → m ≠ "tslot_type" → k ≠ "scale_factor" →
      (entries h (g m)).get k = some v →
      (entries (foldDeprecated s).heap ((foldDeprecated s).vars m)).get k = some v := by
    intro m k v m1 m2 hk' hv
    refine hst.entry hks m1 m2 hk' ?_
    rw [e1, e2]
    exact hv
  rw [e1, e2] at d1 d2
  have hn : ∀ k ∈ ["max_metric_corr", "accuracy_factor"], k ≠ "scale_factor" := by decide
  refine ⟨fun k hk' => ⟨fun v hv => ?_, fun hv hg => ?_⟩, fun v hv => ?_, fun hv hg => ?_,
    fun k v hk' hv => ?_, fun k v hk' hv => ?_⟩
  · exact hE.methodParams k v (keep _ _ _ (by decide) (by decide) (hn k hk') hv)
  · refine hE.methodParams k _ ?_
    rw [d1 k hk', completed_eq_some hv hg]
  · exact hE.fidParams _ v (keep _ _ _ (by decide) (by decide) (by decide) hv)
  · refine hE.fidParams _ _ ?_
    rw [d2, completed_eq_some hv hg]
  · exact hE.fidParams _ v (keep _ _ _ (by decide) (by decide) hk' hv)
  · exact hE.methodParams _ v (keep _ _ _ (by decide) (by decide) hk' hv)

/-- A dictionary with a phase option, and an empty one. -/
def phaseDict : Heap where
  dicts := fun i => if i = 0 then [("phase_option", .str "SU")] else []
  next := 2

example : ∃ o h', createWith (plainWorld 2) (("fid_params", .dict 0) :: ("phase_option", .str "PSU") ::
    ("method_params", .dict 1) :: ("max_metric_corr", .num 4) :: slotArgs) phaseDict = (.ok o, h') :=
  ⟨_, _, rfl⟩

/-- **C47** (partial: dictionaries may gain entries, and lose `scale_factor`).  Whatever the
outcome of a call, the entries of the caller's dictionaries, except `scale_factor`, are as
before. -/
theorem C47_kept_partial (e : Entry) (W : World) (args : Dict Val) (h : Heap) (i : ℕ) (hi : i < h.next)
    (k : String) (hk : k ≠ "scale_factor") (v : Val) (hv : (h.dicts i).get k = some v) :
    ((e.call W args h).2.dicts i).get k = some v ∧
      ((createWith W args h).2.dicts i).get k = some v := by
  have hcr : ∀ s : St, s.heap.Grows (create W s).2 := by
    intro s
    unfold create
    split
    · exact .refl _
    · exact (step_foldDeprecated s).1
  have hop : ∀ s : St, s.heap.Grows (optimize W s).2 := by
    intro s
    have h1 := (step_optimizeCall s).1.trans (hcr (optimizeCall s))
    unfold optimize
    split
    · rename_i h2; rw [h2] at h1; exact h1
    · rename_i h2; rw [h2] at h1; exact h1
  have hun : ∀ s : St, s.heap.Grows (optimizeUnitary W s).2 := by
    intro s
    unfold optimizeUnitary
    split
    · exact ((step_foldAlg s).trans ((step_foldMethod _).trans (step_foldAmpMode _))).1
    · rename_i c hc; exact (step_unitaryCall hc).1.trans (hop c)
  constructor
  · have hall : h.Grows (e.call W args h).2 := by
      cases e with
      | optimize => exact hop ⟨bind optimizeDefaults args, h⟩
      | unitary => exact hun ⟨bind unitaryDefaults args, h⟩
      | crab => exact (step_crabCall ⟨bind crabDefaults args, h⟩).1.trans (hop _)
      | crabUnitary => exact (step_crabUnitaryCall ⟨bind crabUnitaryDefaults args, h⟩).1.trans (hun _)
    exact hall.2 i hi k v hk hv
  · exact (hcr ⟨bind createDefaults args, h⟩).2 i hi k v hk hv

example : ((Entry.unitary.call (plainWorld 2) (("fid_params", .dict 0) :: slotArgs) phaseDict).2.dicts 0).get
    "phase_option" = some (.str "SU") := rfl

/-- **C47** (partial).  Without deprecated keywords `create_pulse_optimizer` and `optimize_pulse`
do not modify any dictionary. -/
theorem C47_unmodified_partial (W : World) (args : Dict Val) (h : Heap)
    (hd : ∀ n ∈ deprecatedNames, args.get n = none) :
    (createWith W args h).2 = h ∧ (Entry.optimize.call W args h).2 = h := by
  have hg : ∀ n ∈ deprecatedNames, bind createDefaults args n = .none := by
    have hdef : ∀ n ∈ deprecatedNames, createDefaults.get n = none := by
      refine forall_cons rfl (forall_cons rfl (forall_cons rfl (forall_cons rfl (forall_cons rfl
        (forall_cons rfl forall_nil)))))
    intro n hn
    unfold bind
    rw [hd n hn]
    simp only [hdef n hn, Option.getD_none]
  have hf : foldDeprecated ⟨bind createDefaults args, h⟩ = ⟨bind createDefaults args, h⟩ :=
    foldDeprecated_none hg
  constructor
  · unfold createWith create
    split
    · rfl
    · rw [hf]
  · have hcall : (optimizeCall ⟨bind createDefaults args, h⟩).heap = h := by
      unfold optimizeCall; simp only [hf]
    have hcr : (create W (optimizeCall ⟨bind createDefaults args, h⟩)).2 = h := by
      unfold create
      split
      · exact hcall
      · rw [optimizeCall_folded]; exact hcall
    show (optimize W ⟨bind createDefaults args, h⟩).2 = h
    unfold optimize
    split
    · rename_i h2; rw [h2] at hcr; exact hcr
    · rename_i h2; rw [h2] at hcr; exact hcr

example : (Entry.optimize.call (plainWorld 2) (("fid_params", .dict 0) :: slotArgs) phaseDict).2 = phaseDict :=
  (C47_unmodified_partial _ _ _ (by decide)).2

/-- **C47 fails** for the scale factor: if the caller sets `scale_factor` in `fid_params`, the
deprecated `fid_err_scale_factor` replaces it, in the optimiser and in the caller's dictionary. -/
theorem C47_violated_scale_factor (W : World) (args : Dict Val) (h h' : Heap) (o : Optim) (r : ℕ)
    (hu : h.Uniq) (hk : Known (bind createDefaults args) h)
    (hf : bind createDefaults args "fid_params" = .dict r)
    (hne : bind createDefaults args "fid_err_scale_factor" ≠ .none)
    (hno : (h.dicts r).get "fid_err_scale_factor" = none)
    (hc : createWith W args h = (.ok o, h')) :
    o.fidAttrs "scale_factor" = some (bind createDefaults args "fid_err_scale_factor") ∧
    (h'.dicts r).get "scale_factor" = some (bind createDefaults args "fid_err_scale_factor") := by
  obtain ⟨n, -, h4, h5⟩ := create_ok hc
  obtain ⟨a, s', hb⟩ := build_ok h5
  obtain ⟨s, hs⟩ : ∃ s : St, s = ⟨bind createDefaults args, h⟩ := ⟨_, rfl⟩
  rw [← hs] at h4 hb
  have hus : s.heap.Uniq := by rw [hs]; exact hu
  have hks : Known s.vars s.heap := by rw [hs]; exact hk
  have hE := built_effective (uniq_foldDeprecated hus) hb
  obtain ⟨t, ht⟩ : ∃ t, t = foldKw "phase_option" "fid_params" "phase_option" "phase_option"
    (foldMethod (foldAlg s)) := ⟨_, rfl⟩
  have htv : ∀ m, m ≠ "optim_method" → m ≠ "method_params" → m ≠ "fid_params" → t.vars m = s.vars m := by
    intro m m1 m2 m3
    rw [ht, foldKw_vars _ m3, foldMethod_vars _ m2, foldAlg_vars _ m1]
  have htf : t.vars "fid_params" = .dict r := by
    have : Step s t := by
      rw [ht]
      exact (step_foldAlg s).trans ((step_foldMethod _).trans (step_foldKw _ (.inl rfl)))
    exact this.2 "fid_params" r (by decide) (by decide) (by rw [hs]; exact hf)
  have htn : (t.heap.dicts r).get "fid_err_scale_factor" = none := by
    have h0 := foldAlg_known hks
    have h1 := foldMethod_known h0
    have := foldKw_other (kw := "phase_option") (target := "fid_params") (check := "phase_option")
      (store := "phase_option") (k := "fid_err_scale_factor") (m := "fid_params") h1 (by decide)
    rw [← ht, htf, entries_dict, foldMethod_other h0 _ (by decide) (by decide), foldAlg_heap,
      foldAlg_vars _ (by decide)] at this
    rw [this, hs]
    simp only [hf, entries_dict]
    exact hno
  have hval : t.vars "fid_err_scale_factor" = bind createDefaults args "fid_err_scale_factor" := by
    rw [htv _ (by decide) (by decide) (by decide), hs]
  obtain ⟨x, hx⟩ : ∃ x, x = bind createDefaults args "fid_err_scale_factor" := ⟨_, rfl⟩
  rw [← hx] at hval hne ⊢
  have hfold : foldDeprecated s = foldAmpMode ⟨t.vars, t.heap.put r "scale_factor" x⟩ := by
    unfold foldDeprecated
    rw [← ht]
    congr 1
    have hh : ¬ (t.heap.dicts r).has "fid_err_scale_factor" = true := by
      unfold Dict.has; rw [htn]; simp
    unfold foldKw
    rw [hval, htf]
    cases x with
    | none => exact absurd rfl hne
    | bool _ | num _ | str _ | list _ | dict _ | obj _ =>
      simp only [hh, Bool.false_eq_true, if_false]
  have hput : ((foldDeprecated s).heap.dicts r).get "scale_factor" = some x := by
    rw [hfold, foldAmpMode_heap]
    simp [put_get]
  constructor
  · refine hE.fidParams _ _ ?_
    rw [show (foldDeprecated s).vars "fid_params" = .dict r by
      rw [hfold, foldAmpMode_vars _ (by decide)]; exact htf, entries_dict]
    exact hput
  · rw [h4]
    exact hput

/-- A dictionary with a scale factor. -/
def scaleDict : Heap where
  dicts := fun i => if i = 0 then [("scale_factor", .num 2)] else []
  next := 1

example : ∃ o h', createWith (plainWorld 2) (("fid_params", .dict 0) ::
    ("fid_err_scale_factor", .num 3) :: slotArgs) scaleDict = (.ok o, h') ∧
    o.fidAttrs "scale_factor" = some (.num 3) := ⟨_, _, rfl, rfl⟩

/-- **C47 fails** across calls: a dictionary used in two calls carries the keyword of the first
into the second.  Here the second call does not mention `max_metric_corr`, and its optimiser has
the first call's value; with a dictionary of its own it would not. -/
theorem C47_violated_across_calls :
    ∃ o1 h1 o2 h2 o3 h3,
      createWith (plainWorld 2) (("method_params", .dict 1) :: ("max_metric_corr", .num 4) :: slotArgs)
        phaseDict = (.ok o1, h1) ∧
      createWith (plainWorld 2) (("method_params", .dict 1) :: slotArgs) h1 = (.ok o2, h2) ∧
      createWith (plainWorld 2) (("method_params", .dict 1) :: slotArgs) phaseDict = (.ok o3, h3) ∧
      (o2.conf.options.getD []).get "max_metric_corr" = some (.num 4) ∧
      (o3.conf.options.getD []).get "max_metric_corr" = none :=
  ⟨_, _, _, _, _, _, rfl, rfl, rfl, rfl, rfl⟩

/-- **C47 fails** across calls also for `optimize_pulse_unitary`: the default of `phase_option` is
written into the caller's `fid_params`, so that a second call asking for "SU" gets "PSU". -/
theorem C47_violated_phase_option :
    ∃ r1 h1 r2 h2,
      Entry.unitary.call (plainWorld 2) (("fid_params", .dict 1) :: slotArgs) phaseDict = (.ok r1, h1) ∧
      Entry.unitary.call (plainWorld 2) (("fid_params", .dict 1) :: ("phase_option", .str "SU") :: slotArgs)
        h1 = (.ok r2, h2) ∧
      r2.optim.fidAttrs "phase_option" = some (.str "PSU") :=
  ⟨_, _, _, _, rfl, rfl, rfl⟩

/-- **C47 fails** across calls for `opt_pulse_crab`: the number of coefficients of the first call
stays in the caller's `alg_params` and overrides the keyword of the second. -/
theorem C47_violated_crab :
    ∃ r1 h1 r2 h2 p,
      Entry.crab.call (plainWorld 2) (("alg_params", .dict 1) :: ("num_coeffs", .num 3) :: slotArgs)
        phaseDict = (.ok r1, h1) ∧
      Entry.crab.call (plainWorld 2) (("alg_params", .dict 1) :: ("num_coeffs", .num 8) :: slotArgs)
        h1 = (.ok r2, h2) ∧ r2.optim.gens.at 0 = some p ∧ p.attrs "num_coeffs" = some (.num 3) :=
  ⟨_, _, _, _, _, rfl, rfl, rfl, rfl⟩

end QTrl.PO
