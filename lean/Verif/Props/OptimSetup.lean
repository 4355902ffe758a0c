import Verif.Model.OptimSetup
import Mathlib.Tactic.NormNum
import Mathlib.Tactic.Linarith

/-
C32: method options.  C33: checks before a run.
-/

namespace QTrl.Opt

variable {V : Type}

/-! ### Dictionaries -/

namespace Dict

theorem get_set (d : Dict V) (k : String) (v : V) (n : String) :
    (d.set k v).get n = if n = k then some v else d.get n := by
  induction d with
  | nil => simp only [set, get]; by_cases h : n = k <;> simp [h, Ne.symm]
  | cons p r ih =>
    obtain ⟨k', v'⟩ := p
    simp only [set]
    by_cases h : k' = k
    · subst h
      rw [if_pos rfl]
      simp only [get]
      by_cases hn : n = k'
      · subst hn; simp
      · simp [hn, Ne.symm hn]
    · rw [if_neg h]
      simp only [get, ih]
      by_cases hn : n = k
      · subst hn; simp [h]
      · simp [hn]

/-- The last value given to a key in a list of assignments. -/
def last : Dict V → String → Option V
  | [], _ => none
  | (k, v) :: r, n => (last r n).or (if k = n then some v else none)

theorem get_update (e : Dict V) : ∀ (d : Dict V) (n : String),
    (d.update e).get n = (last e n).or (d.get n) := by
  induction e with
  | nil => intro d n; simp [update, last]
  | cons p r ih =>
    intro d n
    obtain ⟨k, v⟩ := p
    simp only [update, last, ih, get_set]
    cases last r n with
    | some w => simp
    | none =>
      by_cases h : n = k
      · simp [h]
      · simp [h, Ne.symm h]

/-- A Python dictionary has each key once. -/
def Uniq (d : Dict V) : Prop := (d.map Prod.fst).Nodup

theorem last_eq_get {d : Dict V} (h : Uniq d) (n : String) : last d n = d.get n := by
  induction d with
  | nil => rfl
  | cons p r ih =>
    obtain ⟨k, v⟩ := p
    simp only [Uniq, List.map_cons, List.nodup_cons] at h
    simp only [last, get]
    rw [ih h.2]
    by_cases hk : k = n
    · subst hk
      have : Dict.get r k = none := by
        clear ih
        obtain ⟨h1, -⟩ := h
        induction r with
        | nil => rfl
        | cons q r ih =>
          simp only [List.map_cons, List.mem_cons, not_or] at h1
          simp only [get]
          rw [if_neg (Ne.symm h1.1)]
          exact ih h1.2
      simp [this]
    · simp [hk]

theorem get_eq_none {d : Dict V} {k : String} (h : k ∉ d.map Prod.fst) : d.get k = none := by
  induction d with
  | nil => rfl
  | cons q r ih =>
    simp only [List.map_cons, List.mem_cons, not_or] at h
    simp only [get]
    rw [if_neg (Ne.symm h.1)]
    exact ih h.2

theorem set_keys (d : Dict V) (k : String) (v : V) :
    (d.set k v).map Prod.fst = if k ∈ d.map Prod.fst then d.map Prod.fst else d.map Prod.fst ++ [k] := by
  induction d with
  | nil => simp [set]
  | cons q r ih =>
    obtain ⟨k', v'⟩ := q
    simp only [set]
    by_cases h : k' = k
    · subst h; simp
    · rw [if_neg h]
      simp only [List.map_cons, ih, List.mem_cons, Ne.symm h, false_or]
      split <;> simp

theorem set_uniq {d : Dict V} (h : Uniq d) (k : String) (v : V) : Uniq (d.set k v) := by
  unfold Uniq
  rw [set_keys]
  split
  · exact h
  · rename_i hk
    exact List.nodup_append.2 ⟨h, by simp, by
      intro a ha b hb; simp at hb; subst hb; rintro rfl; exact hk ha⟩

end Dict

/-! ### C32: method parameters -/

/-- What a method parameter should do: set the attribute of the optimiser if there is one,
otherwise that of the termination conditions if there is one, otherwise be an option. -/
theorem sortParams_spec (p : Dict V) : ∀ (s : Conf V) (u : Dict V), Dict.Uniq p → Dict.Uniq u →
    Dict.Uniq (sortParams s u p).2 ∧
    (sortParams s u p).1.options = s.options ∧ (sortParams s u p).1.params = s.params ∧
    ∀ n, ((sortParams s u p).1.attrs n = match p.get n with
          | some v => if (s.attrs n).isSome then some v else none
          | none => s.attrs n) ∧
      ((sortParams s u p).1.tc n = match p.get n with
          | some v => if (s.attrs n).isSome then s.tc n else if (s.tc n).isSome then some v else none
          | none => s.tc n) ∧
      ((sortParams s u p).2.get n = match p.get n with
          | some v => if (s.attrs n).isSome ∨ (s.tc n).isSome then u.get n else some v
          | none => u.get n) := by
  induction p with
  | nil => intro s u _ hu; exact ⟨hu, rfl, rfl, fun n => ⟨rfl, rfl, rfl⟩⟩
  | cons q r ih =>
    intro s u hp hu
    obtain ⟨k, v⟩ := q
    have hk : Dict.get r k = none := Dict.get_eq_none (by
      simp only [Dict.Uniq, List.map_cons, List.nodup_cons] at hp; exact hp.1)
    have hr : Dict.Uniq r := by
      simp only [Dict.Uniq, List.map_cons, List.nodup_cons] at hp; exact hp.2
    simp only [sortParams]
    by_cases h1 : (s.attrs k).isSome
    · rw [if_pos h1]
      obtain ⟨i0, i1, i2, i3⟩ := ih { s with attrs := setattr s.attrs k v } u hr hu
      refine ⟨i0, i1, i2, fun n => ?_⟩
      obtain ⟨j1, j2, j3⟩ := i3 n
      rw [j1, j2, j3]
      simp only [Dict.get, setattr]
      by_cases hn : k = n
      · subst hn
        simp [hk, h1]
      · simp [hn, Ne.symm hn]
    · rw [if_neg h1]
      by_cases h2 : (s.tc k).isSome
      · rw [if_pos h2]
        obtain ⟨i0, i1, i2, i3⟩ := ih { s with tc := setattr s.tc k v } u hr hu
        refine ⟨i0, i1, i2, fun n => ?_⟩
        obtain ⟨j1, j2, j3⟩ := i3 n
        rw [j1, j2, j3]
        simp only [Dict.get, setattr]
        by_cases hn : k = n
        · subst hn
          simp only [Bool.not_eq_true, Option.isSome_eq_false_iff, Option.isNone_iff_eq_none] at h1
          simp [hk, h1, h2]
        · simp [hn, Ne.symm hn]
      · rw [if_neg h2]
        obtain ⟨i0, i1, i2, i3⟩ := ih s (u.set k v) hr (Dict.set_uniq hu k v)
        refine ⟨i0, i1, i2, fun n => ?_⟩
        obtain ⟨j1, j2, j3⟩ := i3 n
        rw [j1, j2, j3]
        simp only [Dict.get, Dict.get_set]
        by_cases hn : k = n
        · subst hn
          simp only [Bool.not_eq_true, Option.isSome_eq_false_iff, Option.isNone_iff_eq_none] at h1 h2
          simp [hk, h1, h2]
        · simp [hn, Ne.symm hn]

/-- **C32.** Applying method parameters: a parameter naming an attribute of the optimiser sets
that attribute; otherwise, if it names one of the termination conditions it sets that;
otherwise it becomes a method option with the given value.  Nothing else changes. -/
theorem C32_params (s : Conf V) (p : Dict V) (hp : Dict.Uniq p) (hne : p ≠ []) (n : String) :
    let s' := applyMethodParams s (some p)
    (s'.attrs n = match p.get n with
      | some v => if (s.attrs n).isSome then some v else none
      | none => s.attrs n) ∧
    (s'.tc n = match p.get n with
      | some v => if (s.attrs n).isSome then s.tc n else if (s.tc n).isSome then some v else none
      | none => s.tc n) ∧
    ((s'.options.getD []).get n = match p.get n with
      | some v => if (s.attrs n).isSome ∨ (s.tc n).isSome then (s.options.getD []).get n else some v
      | none => (s.options.getD []).get n) := by
  obtain ⟨q, r, rfl⟩ := List.exists_cons_of_ne_nil hne
  obtain ⟨i0, i1, i2, i3⟩ := sortParams_spec (q :: r) { s with params := some (q :: r) } [] hp
    (by simp [Dict.Uniq])
  obtain ⟨j1, j2, j3⟩ := i3 n
  simp only [applyMethodParams]
  generalize sortParams { s with params := some (q :: r) } [] (q :: r) = w at *
  obtain ⟨t, u⟩ := w
  have hopt : (u.length > 0 → ((match t.options with
          | none => some u
          | some o => some (o.update u)).getD []).get n = (u.get n).or ((s.options.getD []).get n)) ∧
      (¬ u.length > 0 → (t.options.getD []).get n = (u.get n).or ((s.options.getD []).get n)) := by
    constructor
    · intro _
      dsimp only at i1 i0
      rw [i1]
      cases s.options with
      | none => simp [Dict.get]
      | some o => simp only [Option.getD_some]; rw [Dict.get_update, Dict.last_eq_get i0]
    · intro h
      have : u = [] := List.length_eq_zero_iff.1 (by omega)
      subst this
      dsimp only at i1
      rw [i1]
      simp [Dict.get]
  have hu : (u.get n).or ((s.options.getD []).get n) = match Dict.get (q :: r) n with
      | some v => if (s.attrs n).isSome ∨ (s.tc n).isSome then (s.options.getD []).get n else some v
      | none => (s.options.getD []).get n := by
    dsimp only at j3
    rw [j3]
    cases Dict.get (q :: r) n with
    | none => simp [Dict.get]
    | some v => dsimp only; split <;> simp [Dict.get]
  by_cases hl : u.length > 0
  · rw [if_pos hl]
    exact ⟨j1, j2, (hopt.1 hl).trans hu⟩
  · rw [if_neg hl]
    exact ⟨j1, j2, (hopt.2 hl).trans hu⟩

/-! ### C32: options -/

theorem addAlias_get (obj : Attrs V) (old new : String) (mo : Dict V) (n : String) :
    (addAlias obj old new mo).get n =
      if n = new then ((mo.get new).or ((mo.get old).or (obj old))) else mo.get n := by
  unfold addAlias Dict.has
  cases h1 : mo.get old <;> cases h2 : mo.get new <;> cases h3 : obj old <;>
    by_cases hn : n = new <;> simp_all [Dict.get_set]

theorem addLimit_get {pos : V → Except PyErr Bool} {tc : Attrs V} {name key : String}
    {mo mo' : Dict V} (h : addLimit pos tc name key mo = .ok mo') :
    ∃ v b, tc name = some v ∧ pos v = .ok b ∧ ∀ n, mo'.get n =
      if n = key then (mo.get key).or (if b then some v else none) else mo.get n := by
  unfold addLimit at h
  cases hv : tc name with
  | none => rw [hv] at h; cases h
  | some v =>
    rw [hv] at h
    dsimp only at h
    cases hb : pos v with
    | error e => rw [hb] at h; cases h
    | ok b =>
      rw [hb] at h
      injection h with h
      subst h
      refine ⟨v, b, rfl, hb, fun n => ?_⟩
      unfold Dict.has
      cases b <;> cases h2 : mo.get key <;> by_cases hn : n = key <;> simp_all [Dict.get_set]

/-- **C32.** The options after `_build_method_options`: every option already given is kept
unchanged; the only keys added are `maxcor`, `ftol`, `maxiter`, `maxfev`, `gtol` and `disp`,
each with the value documented for it. -/
theorem C32_options (pos : V → Except PyErr Bool) (s s' : Conf V)
    (h : buildMethodOptions pos s = .ok s') :
    s'.attrs = s.attrs ∧ s'.tc = s.tc ∧ ∃ vi vf vg bi bf bg,
      s.tc "max_iterations" = some vi ∧ pos vi = .ok bi ∧
      s.tc "max_fid_func_calls" = some vf ∧ pos vf = .ok bf ∧
      s.tc "min_gradient_norm" = some vg ∧ pos vg = .ok bg ∧
      ∀ n, (s'.options.getD []).get n = match (s.options.getD []).get n with
        | some v => some v
        | none =>
            if n = "maxcor" then ((s.options.getD []).get "max_metric_corr").or (s.attrs "max_metric_corr")
            else if n = "ftol" then ((s.options.getD []).get "accuracy_factor").or (s.tc "accuracy_factor")
            else if n = "maxiter" then (if bi then some vi else none)
            else if n = "maxfev" then (if bf then some vf else none)
            else if n = "gtol" then (if bg then some vg else none)
            else if n = "disp" then s.attrs "disp_conv_msg"
            else none := by
  unfold buildMethodOptions at h
  dsimp only at h
  generalize s.options.getD [] = mo at h ⊢
  cases h1 : addLimit pos s.tc "max_iterations" "maxiter"
      (addAlias s.tc "accuracy_factor" "ftol" (addAlias s.attrs "max_metric_corr" "maxcor" mo)) with
  | error e => rw [h1] at h; cases h
  | ok m1 =>
    rw [h1] at h
    dsimp only at h
    cases h2 : addLimit pos s.tc "max_fid_func_calls" "maxfev" m1 with
    | error e => rw [h2] at h; cases h
    | ok m2 =>
      rw [h2] at h
      dsimp only at h
      cases h3 : addLimit pos s.tc "min_gradient_norm" "gtol" m2 with
      | error e => rw [h3] at h; cases h
      | ok m3 =>
        rw [h3] at h
        dsimp only at h
        obtain ⟨vi, bi, a1, a2, a3⟩ := addLimit_get h1
        obtain ⟨vf, bf, b1, b2, b3⟩ := addLimit_get h2
        obtain ⟨vg, bg, c1, c2, c3⟩ := addLimit_get h3
        have key : ∀ n, n ≠ "disp" → m3.get n = match mo.get n with
          | some v => some v
          | none =>
            if n = "maxcor" then (mo.get "max_metric_corr").or (s.attrs "max_metric_corr")
            else if n = "ftol" then (mo.get "accuracy_factor").or (s.tc "accuracy_factor")
            else if n = "maxiter" then (if bi then some vi else none)
            else if n = "maxfev" then (if bf then some vf else none)
            else if n = "gtol" then (if bg then some vg else none)
            else if n = "disp" then s.attrs "disp_conv_msg"
            else none := by
          intro n hd
          simp only [c3, b3, a3, addAlias_get]
          by_cases e1 : n = "maxcor"
          · subst e1; simp; cases mo.get "maxcor" <;> rfl
          by_cases e2 : n = "ftol"
          · subst e2; simp; cases mo.get "ftol" <;> rfl
          by_cases e3 : n = "maxiter"
          · subst e3; simp; cases mo.get "maxiter" <;> rfl
          by_cases e4 : n = "maxfev"
          · subst e4; simp; cases mo.get "maxfev" <;> rfl
          by_cases e5 : n = "gtol"
          · subst e5; simp; cases mo.get "gtol" <;> rfl
          simp only [e1, e2, e3, e4, e5, hd, if_false]
          cases mo.get n <;> rfl
        have hdisp : m3.get "disp" = mo.get "disp" := by
          simp only [c3, b3, a3, addAlias_get]; simp
        split at h
        · rename_i hd
          injection h with h
          subst h
          refine ⟨rfl, rfl, vi, vf, vg, bi, bf, bg, a1, a2, b1, b2, c1, c2, fun n => ?_⟩
          by_cases hn : n = "disp"
          · subst hn
            simp only [Option.getD_some, hdisp]
            unfold Dict.has at hd
            rw [hdisp] at hd
            cases hm : mo.get "disp" with
            | none => rw [hm] at hd; cases hd
            | some v => rfl
          · exact key n hn
        · rename_i hd
          cases hv : s.attrs "disp_conv_msg" with
          | none => rw [hv] at h; cases h
          | some v =>
            rw [hv] at h
            injection h with h
            subst h
            refine ⟨rfl, rfl, vi, vf, vg, bi, bf, bg, a1, a2, b1, b2, c1, c2, fun n => ?_⟩
            simp only [Option.getD_some, Dict.get_set]
            by_cases hn : n = "disp"
            · subst hn
              rw [if_pos rfl]
              unfold Dict.has at hd
              rw [hdisp] at hd
              cases hm : mo.get "disp" with
              | none => simp
              | some w => rw [hm] at hd; simp at hd
            · rw [if_neg hn, key n hn]
              simp only [if_neg hn]

/-- **C32.** With `minimize` (base class, and CRAB with a method) every option of the user
reaches the minimiser unchanged. -/
theorem C32_minimize (c : Cls) (hc : c = .base ∨ c = .crab) (pos : V → Except PyErr Bool)
    (seven ten true' : V) (s s' : Conf V) (h : buildMethodOptions pos s = .ok s') (n : String) (v : V)
    (hv : (s.options.getD []).get n = some v) :
    ∃ o, passed c seven ten true' s' = .ok o ∧ o.get n = some v := by
  obtain ⟨_, _, _, _, _, _, _, _, _, _, _, _, _, _, hget⟩ := C32_options pos s s' h
  refine ⟨s'.options.getD [], by rcases hc with rfl | rfl <;> rfl, ?_⟩
  rw [hget, hv]

/-- A whole run: the method parameters are applied and the options built, and the class's
minimiser is called. -/
def options (c : Cls) (pos : V → Except PyErr Bool) (seven ten true' : V) (s : Conf V) :
    Except PyErr (Conf V × Dict V) :=
  match buildMethodOptions pos (applyMethodParams s none) with
  | .error e => .error e
  | .ok s' => (passed c seven ten true' s').map fun o => (s', o)

theorem kw_ok {o : Attrs V} {attr key : String} {v : V} {r : Dict V} (h : o attr = some v) :
    kw o attr key (.ok r) = .ok ((key, v) :: r) := by simp [kw, h, Except.map]

/-- L-BFGS-B, partial: its memory size and accuracy factor come from the user's options when
given there (under either name), then from the attributes. -/
theorem C32_lbfgsb_partial (pos : V → Except PyErr Bool) (seven ten true' : V) (s s' : Conf V)
    (h : buildMethodOptions pos s = .ok s') :
    ∃ o, passed .lbfgsb seven ten true' s' = .ok o ∧
      (∀ v, (s.options.getD []).get "max_metric_corr" = some v → o.get "m" = some v) ∧
      ((s.options.getD []).get "max_metric_corr" = none →
        o.get "m" = some (firstOf [(s.options.getD []).get "maxcor", s.attrs "max_metric_corr"] ten)) ∧
      (∀ v, (s.options.getD []).get "accuracy_factor" = some v → o.get "factr" = some v) ∧
      ((s.options.getD []).get "accuracy_factor" = none →
        o.get "factr" = some (firstOf [(s.options.getD []).get "ftol", s.tc "accuracy_factor"] seven)) := by
  obtain ⟨ea, et, vi, vf, vg, bi, bf, bg, a1, _, b1, _, c1, _, hget⟩ := C32_options pos s s' h
  have gm := hget "max_metric_corr"
  have gc := hget "maxcor"
  have ga := hget "accuracy_factor"
  have gf := hget "ftol"
  simp only [passed, ea, et, kw_ok a1, kw_ok b1, kw_ok c1]
  simp only [gm, gc, ga, gf]
  refine ⟨_, rfl, ?_, ?_, ?_, ?_⟩
  · intro v hv; simp [Dict.get, hv, firstOf]
  · intro hv
    cases hc : (s.options.getD []).get "maxcor" with
    | some w => simp [Dict.get, hv, firstOf]
    | none => cases hx : s.attrs "max_metric_corr" <;> simp [Dict.get, hv, firstOf]
  · intro v hv; simp [Dict.get, hv, firstOf]
  · intro hv
    cases hc : (s.options.getD []).get "ftol" with
    | some w => simp [Dict.get, hv, firstOf]
    | none => cases hx : s.tc "accuracy_factor" <;> simp [Dict.get, hv, firstOf]

/-- **C32 fails** for BFGS, L-BFGS-B and Nelder-Mead: the iteration, evaluation and gradient
limits they get are those of the termination conditions whatever the user's options say, and
no other option is passed on. -/
theorem C32_violated_ignored (c : Cls) (hc : c = .bfgs ∨ c = .crabFmin) (seven ten true' : V)
    (s : Conf V) (o : Option (Dict V)) :
    passed c seven ten true' { s with options := o } = passed c seven ten true' s := by
  rcases hc with rfl | rfl <;> rfl

/-- The same for L-BFGS-B and the three limits. -/
theorem C32_violated_lbfgsb (seven ten true' : V) (s : Conf V) (o : Dict V) (k : String) (v : V)
    (hk : k ≠ "max_metric_corr" ∧ k ≠ "maxcor" ∧ k ≠ "accuracy_factor" ∧ k ≠ "ftol") :
    passed .lbfgsb seven ten true' { s with options := some (o.set k v) } =
      passed .lbfgsb seven ten true' { s with options := some o } := by
  obtain ⟨h1, h2, h3, h4⟩ := hk
  simp only [passed, Option.getD_some, Dict.get_set, if_neg (Ne.symm h1), if_neg (Ne.symm h2),
    if_neg (Ne.symm h3), if_neg (Ne.symm h4)]

/-- Numbers as Python values. -/
def natConf : Conf ℕ where
  attrs n := if n = "disp_conv_msg" then some 0 else if n = "max_metric_corr" then some 10 else none
  tc n := if n = "max_iterations" then some 100 else if n = "max_fid_func_calls" then some 50
    else if n = "min_gradient_norm" then some 3 else none
  params := some [("gtol", 8), ("maxiter", 7), ("max_metric_corr", 20), ("max_fid_func_calls", 60)]
  options := none

def natPos (n : ℕ) : Except PyErr Bool := .ok (decide (0 < n))

/-- **C32 is violated:** the user asks for `gtol=8` and `maxiter=7`; `minimize` gets them, but
L-BFGS-B gets the termination conditions' 3 and 100. -/
theorem C32_violated :
    (options .base natPos 7 10 1 natConf).toOption.map (fun r =>
      (r.2.get "gtol", r.2.get "maxiter", r.2.get "maxfev", r.1.attrs "max_metric_corr")) =
        some (some 8, some 7, some 60, some 20) ∧
    (options .lbfgsb natPos 7 10 1 natConf).toOption.map (fun r =>
      (r.2.get "pgtol", r.2.get "maxiter", r.2.get "m")) = some (some 3, some 100, some 20) := by
  constructor <;> decide

/-- **C32 is violated in a second run:** the default `maxiter=100` derived from the termination
conditions in a first run stays in the options, and the second run passes it on although the
termination conditions now say 200 and the user never gave that option. -/
theorem C32_violated_second_run :
    (options .base natPos 7 10 1 { natConf with params := none }).toOption.bind (fun r =>
      (options .base natPos 7 10 1
        { r.1 with tc := setattr r.1.tc "max_iterations" 200 }).toOption.map fun q =>
          (q.1.tc "max_iterations", q.2.get "maxiter")) = some (some 200, some 100) := by
  decide

/-- The parameters given at construction become attributes of a base class or BFGS optimiser,
and of the others unless the class has its own default for them. -/
theorem C32_construct_partial (c : Cls) (base : Attrs V) (ten tol zero : V) (p : Dict V)
    (n : String) (hc : c = .base ∨ c = .bfgs ∨
      (n ≠ "max_metric_corr" ∧ n ≠ "num_optim_vars" ∧ n ≠ "xtol" ∧ n ≠ "ftol")) :
    construct c base ten tol zero p n = (Dict.last p n).or (base n) := by
  have hset : ∀ (p : Dict V) (o : Attrs V), setAll o p n = (Dict.last p n).or (o n) := by
    intro p
    induction p with
    | nil => intro o; simp [setAll, Dict.last]
    | cons q r ih =>
      intro o
      obtain ⟨k, v⟩ := q
      simp only [setAll, Dict.last, ih, setattr]
      cases Dict.last r n with
      | some w => simp
      | none =>
        by_cases h : n = k
        · simp [h]
        · simp [h, Ne.symm h]
  rcases hc with rfl | rfl | ⟨h1, h2, h3, h4⟩
  · exact hset p base
  · exact hset p base
  · cases c <;> simp [construct, setattr, h1, h2, h3, h4, hset]

/-- **C32 is violated at construction:** a memory size or tolerance given among the optimiser
parameters is overwritten by the class's default. -/
theorem C32_violated_construct (base : Attrs V) (ten tol zero v : V) :
    construct .lbfgsb base ten tol zero [("max_metric_corr", v)] "max_metric_corr" = some ten ∧
    construct .crabFmin base ten tol zero [("xtol", v), ("ftol", v)] "xtol" = some tol ∧
    construct .crabFmin base ten tol zero [("xtol", v), ("ftol", v)] "ftol" = some tol := by
  refine ⟨rfl, ?_, rfl⟩
  simp [construct, setattr]

/-! ### C33 -/

/-- The termination conditions a run would use: those given, otherwise those of the object. -/
def Setup.conds (s : Setup) : TC → TC
  | .none => s.tc
  | t => t

/-- The configured targets, method parameters included. -/
def Setup.targets (s : Setup) (given : TC) : Option ℝ × Option ℝ :=
  match s.conds given with
  | .conds t g => (s.paramErrTarg.getD t, s.paramGoal.getD g)
  | _ => (none, none)

/-- What is missing in a configuration. -/
inductive Missing (c : Cls) (s : Setup) (given : TC) : Prop where
  | conds (h : ∀ t g, s.conds given ≠ .conds t g)
  | dynamics (h : s.isDynamics = false)
  | controls (h : s.ctrlsInitialized = false)
  | target (h : s.targets given = (none, none))
  | gens (hc : c = .crab ∨ c = .crabFmin) (h : ∀ gs, s.gens = .list gs → gs.length ≠ s.numCtrls ∨ .other ∈ gs)

theorem countVars_spec (gs : List PGen) : ∀ n, (countVars gs n = none ↔ PGen.other ∈ gs) ∧
    ∀ k, countVars gs n = some k → k = n + (gs.map fun | .crab v => v | .other => 0).sum := by
  induction gs with
  | nil => intro n; simp [countVars, eq_comm]
  | cons g gs ih =>
    intro n
    cases g with
    | crab v =>
      obtain ⟨h1, h2⟩ := ih (n + v)
      refine ⟨by simp [countVars, h1], fun k hk => ?_⟩
      have := h2 k hk
      simp only [List.map_cons, List.sum_cons]
      omega
    | other => simp [countVars]

theorem initBase_spec (s : Setup) (given : TC) :
    (initBase s given = .error .usageError ∧ ((∀ t g, s.conds given ≠ .conds t g) ∨
      s.isDynamics = false ∨ s.ctrlsInitialized = false ∨ s.targets given = (none, none))) ∨
    (∃ t g, initBase s given = .ok { s with tc := .conds (some t) (some g) } ∧
      (∃ t g, s.conds given = .conds t g) ∧ s.isDynamics = true ∧ s.ctrlsInitialized = true ∧
      s.targets given ≠ (none, none) ∧
      (∀ x, (s.targets given).1 = some x → t = x) ∧
      ((s.targets given).1 = none → ∀ x, (s.targets given).2 = some x → t = |1 - x|) ∧
      (∀ x, (s.targets given).2 = some x → g = x) ∧
      ((s.targets given).2 = none → g = 1 - t)) := by
  have hcond : given.pick s.tc = s.conds given := by
    cases given <;> rfl
  unfold initBase
  rw [hcond]
  unfold Setup.targets
  cases hc : s.conds given with
  | none => left; exact ⟨rfl, Or.inl fun t g h => by cases h⟩
  | other => left; exact ⟨rfl, Or.inl fun t g h => by cases h⟩
  | conds targ goal =>
    dsimp only
    cases hd : s.isDynamics with
    | false => left; exact ⟨rfl, Or.inr (Or.inl rfl)⟩
    | true =>
      cases hi : s.ctrlsInitialized with
      | false => left; exact ⟨rfl, Or.inr (Or.inr (Or.inl rfl))⟩
      | true =>
        simp only [Bool.not_true, Bool.false_eq_true, if_false]
        cases h1 : s.paramErrTarg.getD targ with
        | none =>
          cases h2 : s.paramGoal.getD goal with
          | none => left; exact ⟨rfl, Or.inr (Or.inr (Or.inr rfl))⟩
          | some g =>
            right
            exact ⟨_, _, rfl, ⟨_, _, rfl⟩, by simp, by simp, by simp, by simp, by simp, by simp, by simp⟩
        | some t =>
          cases h2 : s.paramGoal.getD goal with
          | none =>
            right
            exact ⟨_, _, rfl, ⟨_, _, rfl⟩, by simp, by simp, by simp, by simp, by simp, by simp, by simp⟩
          | some g =>
            right
            exact ⟨_, _, rfl, ⟨_, _, rfl⟩, by simp, by simp, by simp, by simp, by simp, by simp, by simp⟩

/-- **C33.** For every class (L-BFGS-B without the backward-compatible `config.accuracy_factor`)
and every configuration: if anything is missing, a usage error is raised; otherwise the run
starts. -/
theorem C33_checks (c : Cls) (s : Setup) (given : TC) (hc : c = .lbfgsb → s.cfgAccuracy = false) :
    (Missing c s given → initOptim c s given = .error .usageError) ∧
    (¬ Missing c s given → ∃ s', initOptim c s given = .ok s') := by
  have base : (∀ h : (∀ t g, s.conds given ≠ .conds t g) ∨ s.isDynamics = false ∨
      s.ctrlsInitialized = false ∨ s.targets given = (none, none),
        initBase s given = .error .usageError) ∧
      (¬ ((∀ t g, s.conds given ≠ .conds t g) ∨ s.isDynamics = false ∨
      s.ctrlsInitialized = false ∨ s.targets given = (none, none)) →
        ∃ t g, initBase s given = .ok { s with tc := .conds (some t) (some g) }) := by
    rcases initBase_spec s given with ⟨h1, h2⟩ | ⟨t, g, h1, ⟨t', g', h2⟩, h3, h4, h5, _⟩
    · exact ⟨fun _ => h1, fun h => absurd h2 h⟩
    · refine ⟨fun h => ?_, fun _ => ⟨t, g, h1⟩⟩
      rcases h with h | h | h | h
      · exact absurd h2 (h _ _)
      · rw [h3] at h; cases h
      · rw [h4] at h; cases h
      · exact absurd h h5
  have grape : (c = .base ∨ c = .bfgs ∨ c = .lbfgsb) → initOptim c s given = initBase s given := by
    rintro (rfl | rfl | rfl)
    · rfl
    · rfl
    · have h := hc rfl
      simp only [initOptim]
      rw [h]
      have : ∀ t, initBase s (t.pick s.tc) = initBase s t := by
        intro t
        cases t with
        | none => simp only [initBase, TC.pick]; cases s.tc <;> rfl
        | other => rfl
        | conds a b => rfl
      split
      · rename_i h' _; cases h'
      · exact this given
  by_cases hb : (∀ t g, s.conds given ≠ .conds t g) ∨ s.isDynamics = false ∨
      s.ctrlsInitialized = false ∨ s.targets given = (none, none)
  · have he := base.1 hb
    have hm : Missing c s given := by
      rcases hb with h | h | h | h
      · exact .conds h
      · exact .dynamics h
      · exact .controls h
      · exact .target h
    refine ⟨fun _ => ?_, fun h => absurd hm h⟩
    cases c with
    | base => exact he
    | bfgs => exact he
    | lbfgsb => rw [grape (by simp)]; exact he
    | crab => simp only [initOptim, he]
    | crabFmin => simp only [initOptim, he]
  · obtain ⟨t, g, ho⟩ := base.2 hb
    have nb : ¬ (∀ t g, s.conds given ≠ .conds t g) ∧ s.isDynamics ≠ false ∧
        s.ctrlsInitialized ≠ false ∧ s.targets given ≠ (none, none) := by
      simp only [not_or] at hb; exact hb
    by_cases hg : c = .crab ∨ c = .crabFmin
    · have hcr : initOptim c s given = checkGens { s with tc := .conds (some t) (some g) } := by
        rcases hg with rfl | rfl <;> simp only [initOptim, ho]
      rw [hcr]
      unfold checkGens
      dsimp only
      cases hgs : s.gens with
      | none => exact ⟨fun _ => rfl, fun h => absurd (.gens hg (by intro gs h; rw [hgs] at h; cases h)) h⟩
      | notIterable => exact ⟨fun _ => rfl, fun h => absurd (.gens hg (by intro gs h; rw [hgs] at h; cases h)) h⟩
      | list gs =>
        dsimp only
        by_cases hl : gs.length ≠ s.numCtrls
        · rw [if_pos hl]
          exact ⟨fun _ => rfl, fun h => absurd (.gens hg (by
            intro gs' h; rw [hgs] at h; cases h; exact Or.inl hl)) h⟩
        · rw [if_neg hl]
          cases hn : countVars gs 0 with
          | none =>
            exact ⟨fun _ => rfl, fun h => absurd (.gens hg (by
              intro gs' h; rw [hgs] at h; cases h; exact Or.inr ((countVars_spec gs 0).1.1 hn))) h⟩
          | some n =>
            refine ⟨fun h => ?_, fun _ => ⟨_, rfl⟩⟩
            exfalso
            cases h with
            | conds h => exact nb.1 h
            | dynamics h => exact nb.2.1 h
            | controls h => exact nb.2.2.1 h
            | target h => exact nb.2.2.2 h
            | gens _ h =>
              rcases h gs hgs with h | h
              · exact hl h
              · rw [(countVars_spec gs 0).1.2 h] at hn; cases hn
    · have hgr : initOptim c s given = initBase s given := grape (by
        cases c <;> simp at hg ⊢)
      rw [hgr]
      refine ⟨fun h => ?_, fun _ => ⟨_, ho⟩⟩
      exfalso
      cases h with
      | conds h => exact nb.1 h
      | dynamics h => exact nb.2.1 h
      | controls h => exact nb.2.2.1 h
      | target h => exact nb.2.2.2 h
      | gens hc _ => exact hg hc

/-- **C33.** When the run starts, the stopping target is the configured `fid_err_targ`; if there
is none, the distance of the configured `fid_goal` from 1.  CRAB's number of variables is the
sum of the generators'. -/
theorem C33_target (c : Cls) (s s' : Setup) (given : TC) (h : initOptim c s given = .ok s') :
    (∀ x, (s.targets given).1 = some x → s'.target = some x) ∧
    ((s.targets given).1 = none → ∀ x, (s.targets given).2 = some x → s'.target = some |1 - x|) ∧
    ((c = .crab ∨ c = .crabFmin) → ∃ gs, s.gens = .list gs ∧ gs.length = s.numCtrls ∧
      s'.numOptimVars = (gs.map fun | .crab v => v | .other => 0).sum) := by
  have core : ∀ (u : TC) (s1 : Setup), s.conds u = s.conds given → initBase s u = .ok s1 →
      (∀ x, (s.targets given).1 = some x → s1.target = some x) ∧
      ((s.targets given).1 = none → ∀ x, (s.targets given).2 = some x → s1.target = some |1 - x|) ∧
      s1.gens = s.gens ∧ s1.numCtrls = s.numCtrls := by
    intro u s1 hu hi
    have ht : s.targets u = s.targets given := by unfold Setup.targets; rw [hu]
    rcases initBase_spec s u with ⟨h1, _⟩ | ⟨t, g, h1, _, _, _, _, h5, h6, _⟩
    · rw [h1] at hi; cases hi
    · rw [h1] at hi
      injection hi with hi
      subst hi
      rw [ht] at h5 h6
      exact ⟨fun x hx => by rw [← h5 x hx]; rfl, fun hn x hx => by rw [← h6 hn x hx]; rfl, rfl, rfl⟩
  have crab : ∀ s1, initBase s given = .ok s1 → checkGens s1 = .ok s' →
      (∀ x, (s.targets given).1 = some x → s'.target = some x) ∧
      ((s.targets given).1 = none → ∀ x, (s.targets given).2 = some x → s'.target = some |1 - x|) ∧
      ∃ gs, s.gens = .list gs ∧ gs.length = s.numCtrls ∧
        s'.numOptimVars = (gs.map fun | .crab v => v | .other => 0).sum := by
    intro s1 h1 h2
    obtain ⟨k1, k2, k3, k4⟩ := core given s1 rfl h1
    unfold checkGens at h2
    rw [k3, k4] at h2
    cases hg : s.gens with
    | none => rw [hg] at h2; cases h2
    | notIterable => rw [hg] at h2; cases h2
    | list gs =>
      rw [hg] at h2
      dsimp only at h2
      split at h2
      · cases h2
      · rename_i hl
        cases hn : countVars gs 0 with
        | none => rw [hn] at h2; cases h2
        | some n =>
          rw [hn] at h2
          injection h2 with h2
          subst h2
          have := (countVars_spec gs 0).2 n hn
          exact ⟨k1, k2, gs, rfl, by omega, by simpa using this⟩
  cases c with
  | base =>
    obtain ⟨k1, k2, _⟩ := core given s' rfl h
    exact ⟨k1, k2, fun hc => by simp at hc⟩
  | bfgs =>
    obtain ⟨k1, k2, _⟩ := core given s' rfl h
    exact ⟨k1, k2, fun hc => by simp at hc⟩
  | lbfgsb =>
    simp only [initOptim] at h
    have hu : ∀ t, s.conds (t.pick s.tc) = s.conds t := by
      intro t
      cases t with
      | none => cases h : s.tc <;> simp [Setup.conds, TC.pick, h]
      | other => rfl
      | conds a b => rfl
    split at h
    · cases h
    · obtain ⟨k1, k2, _⟩ := core _ s' (hu given) h
      exact ⟨k1, k2, fun hc => by simp at hc⟩
  | crab =>
    simp only [initOptim] at h
    cases h1 : initBase s given with
    | error e => rw [h1] at h; cases h
    | ok s1 =>
      rw [h1] at h
      obtain ⟨a, b, c'⟩ := crab s1 h1 h
      exact ⟨a, b, fun _ => c'⟩
  | crabFmin =>
    simp only [initOptim] at h
    cases h1 : initBase s given with
    | error e => rw [h1] at h; cases h
    | ok s1 =>
      rw [h1] at h
      obtain ⟨a, b, c'⟩ := crab s1 h1 h
      exact ⟨a, b, fun _ => c'⟩

/-- A fresh, complete GRAPE set-up without termination conditions. -/
def readySetup : Setup where
  tc := .none
  isDynamics := true
  ctrlsInitialized := true
  numCtrls := 2
  gens := .list [.crab 4, .crab 6]
  paramErrTarg := none
  paramGoal := none
  cfgAccuracy := false
  numOptimVars := 0

/-- The hypotheses are met by complete and incomplete set-ups. -/
example : ¬ Missing .crab readySetup (.conds none (some 0.9)) ∧ Missing .crab readySetup .none ∧
    Missing .crab readySetup (.conds none none) := by
  refine ⟨fun h => ?_, .conds (by intro t g h; cases h), .target rfl⟩
  cases h with
  | conds h => exact h _ _ rfl
  | dynamics h => cases h
  | controls h => cases h
  | target h => simp [Setup.targets, Setup.conds, readySetup] at h
  | gens _ h =>
    rcases h _ rfl with h | h
    · exact h rfl
    · simp at h

/-- **C33 is violated (goal ignored).** On a new `TerminationConditions` object (error target
`1e-5`, no goal) the user sets only `fid_goal = 0.9`: the run still uses `1e-5`. -/
theorem C33_violated_goal : ∃ s', initOptim .base readySetup (.conds (some 1e-5) (some 0.9)) = .ok s' ∧
    s'.target = some 1e-5 ∧ (1e-5 : ℝ) ≠ |1 - 0.9| := by
  refine ⟨_, rfl, rfl, ?_⟩
  rw [abs_of_pos (by norm_num)]
  norm_num

/-- **C33 is violated (second run).** A run with only `fid_goal = 0.9` configured writes the
error target `0.1` into the user's object; when the user then sets `fid_goal = 0.99`, the next
run still uses `0.1`. -/
theorem C33_violated_second_run : ∃ s1 s2,
    initOptim .base readySetup (.conds none (some 0.9)) = .ok s1 ∧
    s1.target = some |1 - 0.9| ∧
    (∀ t g, s1.tc = .conds t g → initOptim .base s1 (.conds t (some 0.99)) = .ok s2) ∧
    s2.target = some |1 - 0.9| ∧ |(1 : ℝ) - 0.9| ≠ |1 - 0.99| := by
  refine ⟨_, { readySetup with tc := .conds (some |1 - 0.9|) (some 0.99) }, rfl, rfl, ?_, rfl, ?_⟩
  · intro t g h
    injection h with h1 h2
    subst h1
    rfl
  · rw [abs_of_pos (by norm_num), abs_of_pos (by norm_num)]
    norm_num

/-- **C33 is violated (L-BFGS-B).** With `config.accuracy_factor` set and no termination
conditions, the error is AttributeError and not a usage error. -/
theorem C33_violated_lbfgsb :
    initOptim .lbfgsb { readySetup with cfgAccuracy := true } .none = .error .attributeError := rfl

end QTrl.Opt
