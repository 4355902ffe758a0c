import Verif.Proofs.PulseEffect

/-
C46: the convenience functions forward their parameters.
-/

namespace QTrl.PO

open QTrl.Opt (Dict Attrs setattr setAll Cls Conf)

/-- **C46** (partial: the parameters of the timeslot computer are left out, and bounds equal to
the number zero).  If one of the convenience functions gets as far as starting the
optimisation, `create_pulse_optimizer` was called with the function's parameters: the plain ones
under the names they mean, the dictionaries with all entries the caller set, and keywords that
stand for an entry of a dictionary put into it where the caller left it out.  And the parameters
of that call show in the optimiser: the components, their attributes, the termination
conditions, the method's parameters, and for each control the generator with its bounds, its
guess and ramping pulse. -/
theorem C46_forwarded_partial (e : Entry) (W : World) (args : Dict Val) (h h' : Heap) (run : Run)
    (hk : Known (bind e.defaults args) h) (hu : h.Uniq)
    (hc : e.call W args h = (.ok run, h')) :
    run.ext = bind e.defaults args "out_file_ext" ∧
    ∃ s a, h' = s.heap ∧ Forwarded e (bind e.defaults args) h s ∧
      Matches s.vars a run.optim.numCtrls run.optim ∧ Effective W s a run.optim := by
  obtain ⟨s, h1, h2, h3, h4⟩ := call_ok hc
  obtain ⟨n, -, -, h5⟩ := create_ok h2
  obtain ⟨a, s', hb⟩ := build_ok h5
  obtain ⟨f1, f2⟩ := reached_filled h1 hk
  have hm := built_matches hb
  rw [reached_folded h1] at hb
  rw [← hb.numCtrls] at hm
  exact ⟨h4, s, a, h3, ⟨reached_plain h1, reached_fixed h1, reached_method h1, reached_kept h1 hk, f1,
    f2⟩, hm, built_effective (reached_uniq h1 hu) hb⟩

/-- Two dictionaries: parameters for CRAB, and options of the guess pulse. -/
def twoDicts : Heap where
  dicts := fun i => if i = 0 then [("num_coeffs", .num 5)] else if i = 1 then [("scaling", .num 2)] else []
  next := 2

/-- Arguments for the CRAB entry points. -/
def crabCallArgs : Dict Val :=
  ("alg_params", .dict 0) :: ("num_coeffs", .num 7) :: ("guess_pulse_type", .str "SINE") ::
    ("guess_pulse_params", .dict 1) :: ("amp_lbound", .num (-1)) :: ("amp_ubound", .list [1, 2]) ::
    ("guess_pulse_offset", .num 3) :: slotArgs

example : ∃ run h', Entry.crab.call (plainWorld 3) crabCallArgs twoDicts = (.ok run, h') :=
  ⟨_, _, rfl⟩

example : ∃ run h', Entry.crabUnitary.call (plainWorld 3) crabCallArgs twoDicts = (.ok run, h') :=
  ⟨_, _, rfl⟩

example : ∃ run h', Entry.optimize.call (plainWorld 3) (("fid_params", .dict 1) :: ("phase_option", .str "SU") ::
    ("max_metric_corr", .num 4) :: slotArgs) twoDicts = (.ok run, h') := ⟨_, _, rfl⟩

example : ∃ run h', Entry.unitary.call (plainWorld 3) (("fid_params", .dict 1) :: ("phase_option", .str "SU") ::
    ("max_metric_corr", .num 4) :: slotArgs) twoDicts = (.ok run, h') := ⟨_, _, rfl⟩

/-- The generator of a control. -/
def Gens.at : Gens → ℕ → Option PG
  | .one g, _ => some g
  | .many gs, j => gs[j]?

theorem genAll_spec {W : World} {role : String} {g : PG} : ∀ {n j : ℕ} {l : List Val},
    genAll W role g j n = .ok l → l.length = n ∧ ∀ i, i < n → ∃ v, l[i]? = some v ∧
      W.gen role (j + i) g = .ok v := by
  intro n
  induction n with
  | zero =>
    intro j l h
    cases h
    exact ⟨rfl, fun i hi => absurd hi (Nat.not_lt_zero i)⟩
  | succ n ih =>
    intro j l h
    simp only [genAll] at h
    split at h
    · cases h
    · rename_i v hv
      obtain ⟨t, ht, rfl⟩ := map_ok h
      obtain ⟨i1, i2⟩ := ih ht
      refine ⟨by simp [i1], fun i hi => ?_⟩
      cases i with
      | zero => exact ⟨v, rfl, hv⟩
      | succ i =>
        obtain ⟨w, w1, w2⟩ := i2 i (by omega)
        exact ⟨w, w1, by rw [← w2]; congr 1; omega⟩

theorem genEach_spec {W : World} : ∀ {gs : List PG} {j : ℕ} {l : List Val},
    genEach W j gs = .ok l → l.length = gs.length ∧ ∀ i p, gs[i]? = some p → ∃ v, l[i]? = some v ∧
      W.gen "init" (j + i) p = .ok v := by
  intro gs
  induction gs with
  | nil =>
    intro j l h
    cases h
    exact ⟨rfl, fun i p hi => by cases hi⟩
  | cons g gs ih =>
    intro j l h
    simp only [genEach] at h
    split at h
    · cases h
    · rename_i v hv
      obtain ⟨t, ht, rfl⟩ := map_ok h
      obtain ⟨i1, i2⟩ := ih ht
      refine ⟨by simp [i1], fun i p hi => ?_⟩
      cases i with
      | zero => cases hi; exact ⟨v, rfl, hv⟩
      | succ i =>
        obtain ⟨w, w1, w2⟩ := i2 i p hi
        exact ⟨w, w1, by rw [← w2]; congr 1; omega⟩

/-- A run of any entry point ended in `optimize_pulse`. -/
theorem call_start {e : Entry} {W : World} {args : Dict Val} {h h' : Heap} {run : Run}
    (hc : e.call W args h = (.ok run, h')) : ∃ s, optimize W s = (.ok run, h') := by
  cases e with
  | optimize => exact ⟨_, hc⟩
  | unitary => obtain ⟨c, -, h2⟩ := optimizeUnitary_ok hc; exact ⟨c, h2⟩
  | crab => exact ⟨_, hc⟩
  | crabUnitary => obtain ⟨c, -, h2⟩ := optimizeUnitary_ok hc; exact ⟨c, h2⟩

/-- **C46.** The initial pulses: one for each control, produced by the generator of that control
in the optimiser that was built. -/
theorem C46_initial_pulses (e : Entry) (W : World) (args : Dict Val) (h h' : Heap) (run : Run)
    (hc : e.call W args h = (.ok run, h')) :
    run.init.length = run.optim.numCtrls ∧ ∀ j, j < run.optim.numCtrls → ∃ p v,
      run.optim.gens.at j = some p ∧ W.gen "init" j p = .ok v ∧ run.init[j]? = some v := by
  obtain ⟨s, hs⟩ := call_start hc
  obtain ⟨h1, -, h2, -⟩ := optimize_ok hs
  obtain ⟨n, -, -, h3⟩ := create_ok h1
  obtain ⟨a, s', hb⟩ := build_ok h3
  unfold start at h2
  obtain ⟨l, h4, h5⟩ := map_ok h2
  have hl : run.init = l := by rw [← h5]
  rw [hl]
  unfold initAmps at h4
  split at h4
  · split at h4
    · rename_i gs hg
      cases a with
      | grape =>
        obtain ⟨p, -, hp⟩ := makeGens_grape hb.gens
        rw [hg] at hp
        cases hp
      | crab =>
        obtain ⟨-, ramp, guess, gs', -, -, q3, q4⟩ := makeGens_crab hb.gens
        obtain ⟨q5, -⟩ := crabGens_spec q4
        rw [hg] at q3
        cases q3
        rw [hb.numCtrls] at h4 ⊢
        rw [List.take_of_length_le (by omega)] at h4
        obtain ⟨w1, w2⟩ := genEach_spec h4
        refine ⟨w1.trans q5, fun j hj => ?_⟩
        obtain ⟨p, hp⟩ : ∃ p, gs[j]? = some p := ⟨gs[j]'(by omega), List.getElem?_eq_getElem _⟩
        obtain ⟨v, v1, v2⟩ := w2 j p hp
        rw [Nat.zero_add] at v2
        rw [hg]
        exact ⟨p, v, hp, v2, v1⟩
    · cases h4
  · split at h4
    · rename_i g hg
      obtain ⟨w1, w2⟩ := genAll_spec h4
      refine ⟨w1, fun j hj => ?_⟩
      obtain ⟨v, v1, v2⟩ := w2 j hj
      rw [Nat.zero_add] at v2
      rw [hg]
      exact ⟨g, v, rfl, v2, v1⟩
    · split at h4
      · rename_i hn
        cases h4
        rw [hn]
        exact ⟨rfl, fun j hj => absurd hj (Nat.not_lt_zero j)⟩
      · cases h4

/-- **C46** for GRAPE: any spelling of `alg` works in `optimize_pulse`.  If the arguments are of
the right kinds and the request is valid, the optimisation starts. -/
theorem C46_grape_any_case (W : World) (hW : W.Generates) (args : Dict Val) (h : Heap) (n : ℕ) :
    let g := bind optimizeDefaults args
    W.check (g "drift") (g "ctrls") (g "initial") (g "target") = .ok n → Typed g n → Valid g .grape →
    ∃ run h', Entry.optimize.call W args h = (.ok run, h') := by
  intro g hchk ht hv
  obtain ⟨s, hs⟩ : ∃ s : St, s = ⟨g, h⟩ := ⟨_, rfl⟩
  have hvars := optimizeCall_vars s
  have hm := optimizeCall_method s
  have hsv : s.vars = g := by rw [hs]
  rw [hsv] at hvars hm
  have w : ∀ m, (m, m) ∈ Entry.optimize.plain → (optimizeCall s).vars m = g m := fun m hm => hvars (m, m) hm
  have hd : ∀ m ∈ deprecatedNames, (optimizeCall s).vars m = .none := optimizeCall_deprecated s
  have hm' : methodAsked (optimizeCall s).vars = methodAsked g := by
    rw [methodAsked_eq (hd "optim_alg" (by decide)), hm]
  have ht' : Typed (optimizeCall s).vars n := by
    refine ⟨?_, ?_, ?_, ?_, ?_, ht.ctrls, ?_, ?_, ?_⟩
    · rw [w "dyn_type" (by decide)]; exact ht.dyn
    · rw [w "prop_type" (by decide)]; exact ht.prop
    · rw [w "fid_type" (by decide)]; exact ht.fid
    · rw [hm']; exact ht.method
    · rw [w "evo_time" (by decide), w "num_tslots" (by decide)]; exact ht.slots
    · rw [w "init_pulse_type" (by decide)]; exact ht.pulse
    · rw [w "ramping_pulse_type" (by decide)]; exact ht.ramp
    · rw [w "init_pulse_params" (by decide)]; exact ht.params
  have hv' : Valid (optimizeCall s).vars .grape := by
    refine ⟨?_, ?_, ?_, ?_, ?_, ?_, ?_⟩
    · rw [w "alg" (by decide)]; exact hv.alg
    · rw [w "dyn_type" (by decide)]; exact hv.dyn
    · rw [w "prop_type" (by decide)]; exact hv.prop
    · rw [w "fid_type" (by decide)]; exact hv.fid
    · rw [w "dyn_type" (by decide), w "fid_type" (by decide), w "prop_type" (by decide)]
      exact hv.exact
    · rw [hm']; exact hv.method
    · rw [w "tau" (by decide), w "evo_time" (by decide), w "num_tslots" (by decide)]; exact hv.slots
  obtain ⟨o, ho⟩ := build_accepts hW ht' hv'
  have hcr : create W (optimizeCall s) = (.ok o, (foldDeprecated (optimizeCall s)).heap) := by
    unfold create
    rw [w "drift" (by decide), w "ctrls" (by decide), w "initial" (by decide),
      w "target" (by decide), hchk]
    simp only [ho]
  obtain ⟨a, s', hb⟩ := build_ok ho
  have hma := built_matches hb
  obtain ⟨t, t1, t2⟩ := hv.alg
  have ha : a = .grape := by
    obtain ⟨u, u1, u2⟩ := hma.alg
    rw [w "alg" (by decide), t1] at u1
    cases u1
    cases a with
    | grape => rfl
    | crab => rw [t2] at u2; exact absurd u2 (by decide)
  obtain ⟨p, p1, -⟩ := hma.grape ha
  have hne : (foldDeprecated s).vars "alg" ≠ .str "CRAB" := by
    rw [foldDeprecated_vars s (by decide) (by decide) (by decide) (by decide), hsv, t1]
    intro hx
    cases hx
    revert t2
    decide +kernel
  have hgen : ∀ (n j : ℕ), ∃ l, genAll W "init" p j n = .ok l := by
    intro n
    induction n with
    | zero => intro j; exact ⟨[], rfl⟩
    | succ n ih =>
      intro j
      obtain ⟨v, hv⟩ := hW "init" j p
      obtain ⟨l, hl⟩ := ih (j + 1)
      exact ⟨v :: l, by simp only [genAll, hv, hl]; rfl⟩
  obtain ⟨l, hl⟩ := hgen o.numCtrls 0
  refine ⟨⟨o, l, s.vars "out_file_ext"⟩, (foldDeprecated (optimizeCall s)).heap, ?_⟩
  show optimize W ⟨g, h⟩ = _
  rw [← hs]
  unfold optimize
  rw [hcr]
  simp only [start, initAmps, if_neg hne, p1, hl]
  rfl

example : ∃ run h', Entry.optimize.call (plainWorld 2) (("alg", .str "gRaPe") :: slotArgs) noDicts =
    (.ok run, h') := ⟨_, _, rfl⟩

/-- **C46 fails** for CRAB: with a spelling of "CRAB" other than upper case `optimize_pulse`
never starts the optimisation, although the optimiser itself is created. -/
theorem C46_violated_case (W : World) (args : Dict Val) (h h' : Heap) (run : Run)
    (hs : Spells (bind optimizeDefaults args "alg") "CRAB")
    (hne : bind optimizeDefaults args "alg" ≠ .str "CRAB") :
    Entry.optimize.call W args h ≠ (.ok run, h') := by
  intro hc
  obtain ⟨h1, -, h2, -⟩ := optimize_ok hc
  obtain ⟨n, -, -, h3⟩ := create_ok h1
  obtain ⟨a, s', hb⟩ := build_ok h3
  have hma := built_matches hb
  have halg : (optimizeCall ⟨bind optimizeDefaults args, h⟩).vars "alg" =
      bind optimizeDefaults args "alg" := optimizeCall_vars _ ("alg", "alg") (by decide)
  have ha : a = .crab := by
    obtain ⟨t, t1, t2⟩ := hs
    obtain ⟨u, u1, u2⟩ := hma.alg
    have u1 := (halg.symm.trans u1)
    rw [t1] at u1
    cases u1
    cases a with
    | crab => rfl
    | grape => rw [t2] at u2; exact absurd u2 (by decide)
  subst ha
  obtain ⟨hpos, -, -, gs, -, -, hg, -⟩ := makeGens_crab hb.gens
  unfold start at h2
  obtain ⟨l, h4, -⟩ := map_ok h2
  unfold initAmps at h4
  rw [if_neg] at h4
  · have hg' : run.optim.gens = .many gs := hg
    rw [hg'] at h4
    simp only at h4
    rw [if_neg] at h4
    · cases h4
    · rw [hb.numCtrls]; omega
  · change (foldDeprecated ⟨bind optimizeDefaults args, h⟩).vars "alg" ≠ _
    rw [foldDeprecated_vars _ (by decide) (by decide) (by decide) (by decide)]
    exact hne

example : (∃ o h', createWith (plainWorld 2) (("alg", .str "Crab") :: slotArgs) noDicts = (.ok o, h')) ∧
    ∃ h', Entry.optimize.call (plainWorld 2) (("alg", .str "Crab") :: slotArgs) noDicts =
      (.error .attributeError, h') := ⟨⟨_, _, rfl⟩, ⟨_, rfl⟩⟩

/-- **C46 fails** for bounds equal to zero: with CRAB, the generator of every control has no
lower bound if the lower bound is the number zero; the same holds for the upper bound. -/
theorem C46_violated_zero_bound (W : World) (args : Dict Val) (h h' : Heap) (o : Optim)
    (hs : Spells (bind createDefaults args "alg") "CRAB")
    (hc : createWith W args h = (.ok o, h')) :
    0 < o.numCtrls ∧ ∀ j, j < o.numCtrls → ∃ p, o.gens.at j = some p ∧
      (bind createDefaults args "amp_lbound" = .num 0 → p.attrs "lbound" = some .none) ∧
      (bind createDefaults args "amp_ubound" = .num 0 → p.attrs "ubound" = some .none) := by
  obtain ⟨n, -, -, h3⟩ := create_ok hc
  obtain ⟨a, s', hb⟩ := build_ok h3
  have hma := built_matches hb
  have ha : a = .crab := by
    obtain ⟨t, t1, t2⟩ := hs
    obtain ⟨u, u1, u2⟩ := hma.alg
    simp only at u1
    rw [t1] at u1
    cases u1
    cases a with
    | crab => rfl
    | grape => rw [t2] at u2; exact absurd u2 (by decide)
  subst ha
  obtain ⟨hpos, ramp, guess, gs, -, -, q3, q4⟩ := makeGens_crab hb.gens
  obtain ⟨q5, q6⟩ := crabGens_spec q4
  rw [hb.numCtrls]
  refine ⟨hpos, fun j hj => ?_⟩
  obtain ⟨p, p1, p2⟩ := q6 j hj
  obtain ⟨w1, -, -⟩ := crabGen_get p2
  have hz : ∀ (hp : Heap) (i : ℕ), genBound hp (.num 0) i = .none := by
    intro hp i; simp [genBound, truthy]
  rw [q3]
  refine ⟨p, p1, fun hl => ?_, fun hl => ?_⟩
  · rw [w1 _ (by decide) (by decide) (by decide), chosen_vars hb.defaults "amp_lbound"]
    simp only [hl, hz]
    simp [crabBase, setattr]
  · rw [w1 _ (by decide) (by decide) (by decide), chosen_vars hb.defaults "amp_ubound"]
    simp only [hl, hz]
    simp [crabBase, setattr]

example : ∃ o h', createWith (plainWorld 2) (("alg", .str "CRAB") :: ("amp_lbound", .num 0) :: slotArgs)
    noDicts = (.ok o, h') := ⟨_, _, rfl⟩

/-- Two states that differ in some variables only. -/
def AgreeOff (xs : List String) (s t : St) : Prop :=
  s.heap = t.heap ∧ ∀ n, n ∉ xs → s.vars n = t.vars n

theorem agree_foldKw {xs : List String} {kw target check store : String} {s t : St}
    (h : AgreeOff xs s t) (h1 : kw ∉ xs) (h2 : target ∉ xs) :
    AgreeOff xs (foldKw kw target check store s) (foldKw kw target check store t) := by
  obtain ⟨a, b⟩ := h
  unfold foldKw
  rw [b kw h1, b target h2, a]
  split
  · exact ⟨a, b⟩
  · split
    · split
      · exact ⟨a, b⟩
      · exact ⟨rfl, b⟩
    · refine ⟨rfl, fun n hn => ?_⟩
      by_cases hm : n = target
      · subst hm; simp only [Env.set_eq]
      · simp only [Env.set_ne _ _ hm]; exact b n hn

theorem agree_foldDeprecated {s t : St} (h : AgreeOff ["tslot_type", "tslot_params"] s t) :
    AgreeOff ["tslot_type", "tslot_params"] (foldDeprecated s) (foldDeprecated t) := by
  have h0 : AgreeOff ["tslot_type", "tslot_params"] (foldAlg s) (foldAlg t) := by
    refine ⟨by rw [foldAlg_heap, foldAlg_heap]; exact h.1, fun n hn => ?_⟩
    by_cases hm : n = "optim_method"
    · subst hm
      rw [foldAlg_method, foldAlg_method]
      unfold methodAsked
      rw [h.2 _ (by decide), h.2 _ (by decide)]
    · rw [foldAlg_vars s hm, foldAlg_vars t hm]; exact h.2 n hn
  have h1 := agree_foldKw (kw := "fid_err_scale_factor") (target := "fid_params")
    (check := "fid_err_scale_factor") (store := "scale_factor")
    (agree_foldKw (kw := "phase_option") (target := "fid_params") (check := "phase_option")
      (store := "phase_option") (agree_foldKw (kw := "accuracy_factor") (target := "method_params")
        (check := "accuracy_factor") (store := "accuracy_factor")
        (agree_foldKw (kw := "max_metric_corr") (target := "method_params")
          (check := "max_metric_corr") (store := "max_metric_corr") h0 (by decide) (by decide))
        (by decide) (by decide)) (by decide) (by decide)) (by decide) (by decide)
  unfold foldDeprecated foldMethod
  refine ⟨by rw [foldAmpMode_heap, foldAmpMode_heap]; exact h1.1, fun n hn => ?_⟩
  have hn' : n ≠ "tslot_type" := by rintro rfl; exact hn (by decide)
  rw [foldAmpMode_vars _ hn', foldAmpMode_vars _ hn']
  exact h1.2 n hn

/-- **C46 fails** for the timeslot computer: `optimize_pulse` does not pass on `tslot_type` and
`tslot_params`; whatever they are, the outcome is the same. -/
theorem C46_violated_tslot (W : World) (args : Dict Val) (h : Heap) (v w : Val) :
    Entry.optimize.call W (("tslot_type", v) :: ("tslot_params", w) :: args) h =
      Entry.optimize.call W args h := by
  obtain ⟨s, hs⟩ : ∃ s : St,
    s = ⟨bind optimizeDefaults (("tslot_type", v) :: ("tslot_params", w) :: args), h⟩ := ⟨_, rfl⟩
  obtain ⟨t, ht⟩ : ∃ t : St, t = ⟨bind optimizeDefaults args, h⟩ := ⟨_, rfl⟩
  show optimize W ⟨bind optimizeDefaults _, h⟩ = optimize W ⟨bind optimizeDefaults args, h⟩
  rw [← hs, ← ht]
  have hag : AgreeOff ["tslot_type", "tslot_params"] s t := by
    rw [hs, ht]
    refine ⟨rfl, fun n hn => ?_⟩
    simp only [List.mem_cons, List.not_mem_nil, or_false, not_or] at hn
    simp [bind, Dict.get, Ne.symm hn.1, Ne.symm hn.2]
  have hd := agree_foldDeprecated hag
  have hcall : optimizeCall s = optimizeCall t := by
    have hkw : kwargs (foldDeprecated s).vars optimizeArgs = kwargs (foldDeprecated t).vars optimizeArgs := by
      unfold kwargs
      refine List.map_congr_left fun p hp => ?_
      have : ∀ p ∈ optimizeArgs, p.2 ∉ ["tslot_type", "tslot_params"] := by decide
      rw [hd.2 p.2 (this p hp)]
    unfold optimizeCall
    rw [hkw, hd.1]
  unfold optimize
  rw [hcall]
  have hst : ∀ o, start W s o = start W t o := by
    intro o
    unfold start
    rw [hd.2 "alg" (by decide), hag.2 "out_file_ext" (by decide)]
  simp only [hst]

/-- **C46 fails** for the scaling of the initial pulse: with GRAPE the entry `scaling` of
`init_pulse_params` is replaced by the default of `pulse_scaling`. -/
theorem C46_violated_pulse_params : ∃ run h' p,
    Entry.optimize.call (plainWorld 2) (("init_pulse_params", .dict 1) :: slotArgs) twoDicts =
      (.ok run, h') ∧ run.optim.gens.at 0 = some p ∧
    (twoDicts.dicts 1).get "scaling" = some (.num 2) ∧ p.attrs "scaling" = some (.num 1) :=
  ⟨_, _, _, rfl, rfl, rfl, rfl⟩

end QTrl.PO
