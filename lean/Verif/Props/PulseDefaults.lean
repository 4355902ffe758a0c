import Verif.Props.PulseForward
import Verif.Spec.PulseDefaults

/-
C46: what the convenience functions do when parameters are left out.
-/

namespace QTrl.PO

open QTrl.Opt (Dict Attrs setattr setAll Cls Conf)

theorem optimizeCall_params {s : St} (h : ∀ n ∈ methodNames, s.vars n = .none) :
    (optimizeCall s).vars "method_params" = .none := by
  have h1 : (foldAlg s).vars "max_metric_corr" = .none :=
    (foldAlg_vars s (by decide)).trans (h _ (by decide))
  have h2 : (foldAlg s).vars "accuracy_factor" = .none :=
    (foldAlg_vars s (by decide)).trans (h _ (by decide))
  have h3 : foldMethod (foldAlg s) = foldAlg s := by
    unfold foldMethod
    rw [foldKw_none h1, foldKw_none h2]
  show (foldDeprecated s).vars "method_params" = _
  unfold foldDeprecated
  rw [foldAmpMode_vars _ (by decide), foldKw_vars _ (by decide), foldKw_vars _ (by decide), h3,
    foldAlg_vars s (by decide)]
  exact h _ (by decide)

theorem unitaryFold_params {s t : St} (h : ∀ n ∈ methodNames, s.vars n = .none)
    (ht : unitaryFold s = .ok t) : t.vars "method_params" = .none := by
  have h1 : (foldAlg s).vars "max_metric_corr" = .none :=
    (foldAlg_vars s (by decide)).trans (h _ (by decide))
  have h2 : (foldAlg s).vars "accuracy_factor" = .none :=
    (foldAlg_vars s (by decide)).trans (h _ (by decide))
  have h3 : foldMethod (foldAlg s) = foldAlg s := by
    unfold foldMethod
    rw [foldKw_none h1, foldKw_none h2]
  rw [foldPhase_vars ht (by decide), foldAmpMode_vars _ (by decide), h3,
    foldAlg_vars s (by decide)]
  exact h _ (by decide)

/-- Nothing about the method arrives at `create_pulse_optimizer` if nothing is given. -/
theorem reached_params {e : Entry} {s s' : St} (h : ∀ n ∈ methodNames, s.vars n = .none)
    (hr : e.reached s = .ok s') :
    s'.vars "method_params" = .none := by
  cases e with
  | optimize =>
    simp only [Entry.reached] at hr
    cases hr
    exact optimizeCall_params h
  | unitary =>
    obtain ⟨c, hc, rfl⟩ := map_ok hr
    obtain ⟨t, ht, rfl⟩ := map_ok hc
    refine optimizeCall_params (forall_cons ?_ (forall_cons rfl (forall_cons rfl forall_nil)))
    exact Eq.trans (b := t.vars "method_params") rfl (unitaryFold_params h ht)
  | crab =>
    simp only [Entry.reached] at hr
    cases hr
    refine optimizeCall_params (forall_cons ?_ (forall_cons rfl (forall_cons rfl forall_nil)))
    exact Eq.trans (b := (crabFold s).vars "method_params") rfl
      ((crabFold_vars s (by decide) (by decide)).trans (h _ (by decide)))
  | crabUnitary =>
    obtain ⟨c, hc, rfl⟩ := map_ok hr
    obtain ⟨t, ht, rfl⟩ := map_ok hc
    refine optimizeCall_params (forall_cons ?_ (forall_cons rfl (forall_cons rfl forall_nil)))
    refine Eq.trans (b := t.vars "method_params") rfl (unitaryFold_params ?_ ht)
    refine forall_cons ?_ (forall_cons rfl (forall_cons rfl forall_nil))
    exact Eq.trans (b := (crabFold s).vars "method_params") rfl
      ((crabFold_vars s (by decide) (by decide)).trans (h _ (by decide)))

/-- The deprecated name of the method does not reach `create_pulse_optimizer`. -/
theorem reached_alg {e : Entry} {s s' : St} (hr : e.reached s = .ok s') :
    s'.vars "optim_alg" = .none := by
  cases e with
  | optimize => simp only [Entry.reached] at hr; cases hr; rfl
  | unitary => obtain ⟨c, hc, rfl⟩ := map_ok hr; rfl
  | crab => simp only [Entry.reached] at hr; cases hr; rfl
  | crabUnitary => obtain ⟨c, hc, rfl⟩ := map_ok hr; rfl

/-- **C46.** Parameters left out.  If neither an algorithm nor a method is given, the general
functions use L-BFGS-B and the CRAB functions Nelder-Mead.  Without parameters for the method,
every limit that is left out has its default: the target 1e-10 for the general and 1e-5 for
the CRAB functions, 500 iterations, 180 seconds, and for the general functions the gradient
norm 1e-10. -/
theorem C46_defaults (e : Entry) (W : World) (args : Dict Val) (h h' : Heap) (run : Run)
    (hk : Known (bind e.defaults args) h) (hu : h.Uniq)
    (hc : e.call W args h = (.ok run, h')) :
    (args.get "alg" = none → args.get "optim_method" = none → args.get "optim_alg" = none →
      run.optim.cls = e.defaultCls) ∧
    ((∀ n ∈ methodNames, args.get n = none) →
      ∀ p ∈ e.limits, args.get p.2.1 = none → run.optim.conf.tc p.1 = some (.num p.2.2)) := by
  obtain ⟨s, h1, h2, h3, h4⟩ := call_ok hc
  obtain ⟨n, -, -, h5⟩ := create_ok h2
  obtain ⟨a, s', hb⟩ := build_ok h5
  have hm := built_matches hb
  rw [reached_folded h1] at hb
  have heff := built_effective (reached_uniq h1 hu) hb
  have hbind : ∀ k, args.get k = none → bind e.defaults args k = (e.defaults.get k).getD .none := by
    intro k hk
    unfold bind
    rw [hk]
  constructor
  · intro ha hmeth hoa
    have q1 := hm.method
    have q2 := hm.alg
    unfold methodAsked at q1
    rw [if_pos (reached_alg h1), reached_method h1] at q1
    have up1 : pyUpper "GRAPE" = "GRAPE" := by decide +kernel
    have up2 : pyUpper "CRAB" = "CRAB" := by decide +kernel
    have up3 : pyUpper "DEF" = "DEF" := by decide +kernel
    have up4 : pyUpper "fmin" = "FMIN" := by decide +kernel
    have hspell : ∀ {t u : String}, Spells (.str t) u → pyUpper t = u := fun hs => spells_str.1 hs
    have grape : (e = .optimize ∨ e = .unitary) → a = .grape ∧ e.methodAsked (bind e.defaults args) = .str "DEF" := by
      intro he
      have p1 : s.vars "alg" = .str "GRAPE" := by
        have := reached_plain h1 ("alg", "alg") (by rcases he with rfl | rfl <;> decide)
        rw [this]
        show bind e.defaults args "alg" = _
        rw [hbind _ ha]
        rcases he with rfl | rfl <;> rfl
      constructor
      · rw [p1] at q2
        cases a with
        | grape => rfl
        | crab => have := hspell q2; rw [up1] at this; exact absurd this (by decide)
      · have p2 : bind e.defaults args "optim_alg" = .none := by
          rw [hbind _ hoa]; rcases he with rfl | rfl <;> rfl
        have p3 : bind e.defaults args "optim_method" = .str "DEF" := by
          rw [hbind _ hmeth]; rcases he with rfl | rfl <;> rfl
        have : e.methodAsked (bind e.defaults args) = PO.methodAsked (bind e.defaults args) := by
          rcases he with rfl | rfl <;> rfl
        rw [this, methodAsked_eq p2, p3]
    have crab : (e = .crab ∨ e = .crabUnitary) → a = .crab ∧ e.methodAsked (bind e.defaults args) = .str "fmin" := by
      intro he
      have p1 : s.vars "alg" = .str "CRAB" :=
        reached_fixed h1 ("alg", .str "CRAB") (by rcases he with rfl | rfl <;> simp [Entry.fixed])
      constructor
      · rw [p1] at q2
        cases a with
        | crab => rfl
        | grape => have := hspell q2; rw [up2] at this; exact absurd this (by decide)
      · have p3 : bind e.defaults args "optim_method" = .str "fmin" := by
          rw [hbind _ hmeth]; rcases he with rfl | rfl <;> rfl
        have : e.methodAsked (bind e.defaults args) = bind e.defaults args "optim_method" := by
          rcases he with rfl | rfl <;> rfl
        rw [this, p3]
    have fin1 : ∀ c, MethodFor .grape (.str "DEF") c → c = .lbfgsb := by
      intro c hc
      cases hc with
      | defaultGrape => rfl
      | bfgs hs => have := hspell hs; rw [up3] at this; exact absurd this (by decide)
      | lbfgsb => rfl
      | scipyGrape hs => exact absurd (spells_str.2 up3) (hs "DEF" (by simp))
    have fin2 : ∀ c, MethodFor .crab (.str "fmin") c → c = .crabFmin := by
      intro c hc
      cases hc with
      | defaultCrab => rfl
      | bfgs hs => have := hspell hs; rw [up4] at this; exact absurd this (by decide)
      | lbfgsb hs =>
        rcases hs with hs | hs
        · have := hspell hs; rw [up4] at this; exact absurd this (by decide)
        · have := hspell hs; rw [up4] at this; exact absurd this (by decide)
      | fmin => rfl
      | scipyCrab hs => exact absurd (spells_str.2 up4) (hs "FMIN" (by simp))
    cases e with
    | optimize => obtain ⟨rfl, e2⟩ := grape (.inl rfl); rw [e2] at q1; exact fin1 _ q1
    | unitary => obtain ⟨rfl, e2⟩ := grape (.inr rfl); rw [e2] at q1; exact fin1 _ q1
    | crab => obtain ⟨rfl, e2⟩ := crab (.inl rfl); rw [e2] at q1; exact fin2 _ q1
    | crabUnitary => obtain ⟨rfl, e2⟩ := crab (.inr rfl); rw [e2] at q1; exact fin2 _ q1
  · intro hn p hp hpn
    have hv : ∀ k ∈ methodNames, bind e.defaults args k = .none := by
      intro k hk'
      rw [hbind k (hn k hk')]
      revert k
      cases e <;> decide
    have hno : s.vars "method_params" = .none := reached_params hv h1
    have hl := heff.limits
    have hdict : ∀ k, (entries s.heap (s.vars "method_params")).get k = none := by
      intro k
      rw [hno]
      rfl
    have hin : (p.1, p.2.1) ∈ [("fid_err_targ", "fid_err_targ"), ("min_gradient_norm", "min_grad"),
        ("max_iterations", "max_iter"), ("max_wall_time", "max_wall_time")] ∧
        (p.2.1, p.2.1) ∈ e.plain ∧ (e.defaults.get p.2.1).getD .none = .num p.2.2 := by
      clear hpn
      revert p
      cases e <;> decide +kernel
    have := hl (p.1, p.2.1) hin.1 (hdict _)
    rw [this, reached_plain h1 _ hin.2.1]
    show some (bind e.defaults args p.2.1) = _
    rw [hbind _ hpn, hin.2.2]

/-- Non-vacuity: calls without parameters other than the number of slots and the time. -/
example : (∃ run h', Entry.unitary.call (plainWorld 2) slotArgs noDicts = (.ok run, h')) ∧
    (∃ run h', Entry.crab.call (plainWorld 2) slotArgs noDicts = (.ok run, h')) ∧
    (∀ n ∈ ["alg", "optim_method", "optim_alg", "fid_err_targ", "max_iter"] ++ methodNames,
      Dict.get slotArgs n = none) := ⟨⟨_, _, rfl⟩, ⟨_, _, rfl⟩, by decide⟩

end QTrl.PO
