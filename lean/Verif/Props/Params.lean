import Verif.Proofs.Params

/-
C55: what the dictionary of parameters given to an object does to its configuration.
-/

namespace QTrl.Par

/-- **C55, partial**: an object constructed with a dictionary has every attribute named there at
the value given there.  Missing: the names `freqs`, `randomize_freqs`, `fix_freqs` and
`num_basis_funcs` of the CRAB generator, see `C55_violated_randomize_freqs` and
`C55_violated_fix_freqs`. -/
theorem C55_construct_partial {c : Cls} {p : Option Parent} {d : Dict} {o : Obj} (hd : d.Valid)
    (h : c.construct p (some d) = some o) {k : String} {v : PV} (hk : (k, v) ∈ d)
    (hl : k ∉ lostByReset c) (ho : k ∉ ownByConstructor c) : o.attrs k = some v := by
  have hval : ∀ e, some d = some e → e.Valid := fun e he => by injection he with he; rw [← he]; exact hd
  obtain ⟨o1, o2, p1, h2, _, _, h5⟩ := construct_parts hval h
  rw [h5 k hl ho]
  refine reset_named (fun e he => hval e (by rw [← p1, he])) h2 hl ?_
  simp only [Obj.given, p1, Option.bind_some]
  exact get_of_mem hd hk

/-- **C55**: what the dictionary does not name has its documented default, where the defaults
that are fractions of the pulse time refer to the pulse time of the object, whether this was
itself given or not. -/
theorem C55_defaults {c : Cls} {p : Option Parent} {params : Option Dict} {o : Obj}
    (hval : ∀ d, params = some d → d.Valid) (h : c.construct p params = some o)
    {k : String} {df : Default} (hk : (k, df) ∈ defaults p c)
    (hn : ∀ d, params = some d → k ∉ d.map Prod.fst) :
    df.Is (o.attrs "pulse_time") (o.attrs k) := by
  obtain ⟨o1, o2, p1, h2, _, _, h5⟩ := construct_parts hval h
  have hnames : ∀ kd ∈ defaults p c, kd.1 ∉ lostByReset c ∧ kd.1 ∉ ownByConstructor c := by
    cases c <;> first
      | exact fun _ _ => ⟨List.not_mem_nil, List.not_mem_nil⟩
      | (cases p <;> simp [defaults, commonDefaults, lostByReset, ownByConstructor])
  have e1 := h5 k (hnames _ hk).1 (hnames _ hk).2
  have e2 : o.attrs "pulse_time" = o2.attrs "pulse_time" := by
    apply h5 <;> cases c <;> simp [lostByReset, ownByConstructor]
  rw [e1, e2]
  refine reset_default (fun e he => hval e (by rw [← p1, he])) h2 hk ?_
  simp only [Obj.given, p1]
  cases hp : params with
  | none => rfl
  | some d => exact get_none (hn d hp)

/-- **C55**: `apply_params` with a dictionary that is not empty gives every attribute named there
the value given there, and changes no other attribute. -/
theorem C55_apply {o : Obj} {d : Dict} (hd : d.Valid) (hne : d ≠ []) (k : String) :
    (∀ v, (k, v) ∈ d → (o.applyParams (some d)).attrs k = some v) ∧
      (k ∉ d.map Prod.fst → (o.applyParams (some d)).attrs k = o.attrs k) := by
  have e : (o.applyParams (some d)).attrs k = (Dict.get d k).or (o.attrs k) := by
    rw [← setAll_get hd]
    cases d with
    | nil => exact (hne rfl).elim
    | cons x r => rfl
  refine ⟨fun v hv => ?_, fun hk => ?_⟩
  · rw [e, get_of_mem hd hv]; rfl
  · rw [e, get_none hk]; rfl

/-- **C55, partial**: whatever was done to the object before, a `reset` gives every attribute
named in the dictionary in force (the last one given, to the constructor or to `apply_params`)
the value given there, and every other attribute its documented default.  Missing: the names
`freqs` and `randomize_freqs` of the CRAB generator. -/
theorem C55_reset_partial {c : Cls} {p : Option Parent} {params : Option Dict} {o o1 o2 : Obj}
    {l : List Act} (hval : ∀ d, params = some d → d.Valid) (hl : Acts.Valid l Dict.Valid)
    (h : c.construct p params = some o) (h1 : c.acts p o l = some o1)
    (h2 : c.act p o1 .reset = some o2) :
    (∀ d k v, inForce params l = some d → (k, v) ∈ d → k ∉ lostByReset c →
      o2.attrs k = some v) ∧
    (∀ k df, (k, df) ∈ defaults p c → (∀ d, inForce params l = some d → k ∉ d.map Prod.fst) →
      df.Is (o2.attrs "pulse_time") (o2.attrs k)) := by
  obtain ⟨_, _, _, _, p0, _, _⟩ := construct_parts hval h
  have p1 : o1.params = inForce params l := by rw [acts_params h1, p0]
  have hv1 : o1.Valid := fun d hd => inForce_valid hval hl d (by rw [← p1, hd])
  refine ⟨fun d k v hd hk hlost => ?_, fun k df hk hn => ?_⟩
  · refine reset_named hv1 h2 hlost ?_
    simp only [Obj.given, p1, hd, Option.bind_some]
    exact get_of_mem (inForce_valid hval hl d hd) hk
  · refine reset_default hv1 h2 hk ?_
    simp only [Obj.given, p1]
    cases hp : inForce params l with
    | none => rfl
    | some d => exact get_none (hn d hp)

/-- **C55**: the number of coefficients given to the constructor of the CRAB generator holds
unless the dictionary names another. -/
theorem C55_num_coeffs {n : PV} {f : Bool} {p : Option Parent} {params : Option Dict} {o : Obj}
    (hval : ∀ d, params = some d → d.Valid)
    (h : (Cls.crabFourier n f).construct p params = some o)
    (hn : ∀ d, params = some d → "num_coeffs" ∉ d.map Prod.fst) :
    o.attrs "num_coeffs" = some n := by
  obtain ⟨o1, o2, p1, h2, _, h4, h5⟩ := construct_parts hval h
  rw [h5 "num_coeffs" (by simp [lostByReset]) (by simp [ownByConstructor])]
  rw [← h4 n f rfl]
  refine settled_keep (fun e he => hval e (by rw [← p1, he])) (fun v hg => ?_) h2 ?_
  · simp only [Obj.given, p1] at hg
    cases hp : params with
    | none => rw [hp] at hg; cases hg
    | some d =>
      rw [hp] at hg
      simp only [Option.bind_some, get_none (hn d hp)] at hg
      cases hg
  · cases p <;> simp [Cls.reset, crabReset, pulseGenReset, Op.target]

/-- The parameters of the examples. -/
def exParams : Dict := [("pulse_time", .num 4), ("variance", .num 3), ("scaling", .num 2)]

/-- A Gaussian generator: the mean follows the given pulse time, the variance is the given one. -/
example : ∃ o, Cls.gaussian.construct Option.none (some exParams) = some o ∧
    o.attrs "variance" = some (.num 3) ∧ o.attrs "mean" = some (.num 2) ∧
    o.attrs "offset" = some (.num 0) := by
  refine ⟨_, rfl, rfl, ?_, rfl⟩
  show some (PV.num (4 * (1 / 2))) = _
  norm_num

example : exParams.Valid := by
  unfold Dict.Valid exParams
  decide

/-- The hypotheses of `C55_reset_partial` in a history with an assignment and a second
dictionary. -/
example : ∃ o o1 o2, Cls.gaussian.construct Option.none (some exParams) = some o ∧
    Cls.gaussian.acts Option.none o
      [.assign "mean" (.num 7), .applyParams (some [("offset", .num 5)])] = some o1 ∧
    Cls.gaussian.act Option.none o1 .reset = some o2 ∧ o2.attrs "offset" = some (.num 5) ∧
    o1.attrs "mean" = some (.num 7) := ⟨_, _, _, rfl, rfl, rfl, rfl, rfl⟩

/-- **C55 is violated**: the CRAB generator ignores `randomize_freqs` and `freqs` in the
dictionary, whatever their values. -/
theorem C55_violated_randomize_freqs {n : PV} {f : Bool} {p : Option Parent} {d : Dict} {o : Obj}
    (h : (Cls.crabFourier n f).construct p (some d) = some o) :
    o.attrs "randomize_freqs" = some (.bool true) ∧ o.attrs "freqs" = some .none := by
  unfold Cls.construct at h
  split at h
  · cases h
  · rename_i o3 h3
    rw [List.append_assoc] at h3
    obtain ⟨o1, _, h4⟩ := runOps_append h3
    obtain ⟨o2, h2, h5⟩ := runOps_append h4
    obtain ⟨o4, _, h6⟩ := runOps_append h2
    simp only [runOps, Op.run] at h6
    injection h6 with h6
    have e3 : ∀ k, k ≠ "fix_freqs" → o3.attrs k = o2.attrs k := by
      intro k hk
      cases f <;> simp only [Cls.after, runOps, Op.run] at h5 <;> injection h5 with h5 <;>
        rw [← h5] <;> simp [Attrs.set, hk]
    have e4 : ∀ k, k ≠ "num_basis_funcs" → o.attrs k = o3.attrs k := by
      intro k hk
      unfold Cls.extraBasis at h
      split at h
      · split at h
        · injection h with h
          rw [← h]
          simp [Attrs.set, hk]
        · cases h
      · injection h with h
        rw [h]
    rw [e4 _ (by decide), e4 _ (by decide), e3 _ (by decide), e3 _ (by decide), ← h6]
    constructor <;> simp [Attrs.set]

example : ∃ o, (Cls.crabFourier (.num 3) true).construct Option.none
    (some [("randomize_freqs", .bool false)]) = some o := ⟨_, rfl⟩

/-- **C55 is violated**: the CRAB generator takes `fix_freqs` from the argument of the constructor
(by default true), whatever the dictionary says. -/
theorem C55_violated_fix_freqs {n : PV} {f : Bool} {p : Option Parent} {d : Dict} {o : Obj}
    (h : (Cls.crabFourier n f).construct p (some d) = some o) :
    o.attrs "fix_freqs" = some (.bool f) := by
  unfold Cls.construct at h
  split at h
  · cases h
  · rename_i o3 h3
    obtain ⟨o2, _, h5⟩ := runOps_append h3
    have e3 : o3.attrs "fix_freqs" = some (.bool f) := by
      cases f <;> simp only [Cls.after, runOps, Op.run] at h5 <;> injection h5 with h5 <;>
        rw [← h5] <;> simp [Attrs.set]
    rw [← e3]
    unfold Cls.extraBasis at h
    split at h
    · split at h
      · injection h with h
        rw [← h]
        simp [Attrs.set]
      · cases h
    · injection h with h
      rw [h]

example : ∃ o, (Cls.crabFourier (.num 3) true).construct Option.none
    (some [("fix_freqs", .bool false)]) = some o := ⟨_, rfl⟩

/-- **C55 is violated**: `apply_params` with an empty dictionary is not without effect: it applies
the earlier dictionary again, undoing an assignment made since. -/
theorem C55_violated_empty : ∃ o o1 o2,
    Cls.random.construct Option.none (some [("scaling", .num 2)]) = some o ∧
    Cls.random.act Option.none o (.assign "scaling" (.num 3)) = some o1 ∧
    Cls.random.act Option.none o1 (.applyParams (some [])) = some o2 ∧
    o1.attrs "scaling" = some (.num 3) ∧ o2.attrs "scaling" = some (.num 2) :=
  ⟨_, _, _, rfl, rfl, rfl, rfl, rfl⟩

/-- **C55 is violated**: a second dictionary makes `reset` forget the one given to the
constructor. -/
theorem C55_violated_forgotten : ∃ o o1 o2,
    Cls.random.construct Option.none (some [("scaling", .num 2)]) = some o ∧
    Cls.random.act Option.none o (.applyParams (some [("offset", .num 5)])) = some o1 ∧
    Cls.random.act Option.none o1 .reset = some o2 ∧
    o1.attrs "scaling" = some (.num 2) ∧ o2.attrs "scaling" = some (.num 1) :=
  ⟨_, _, _, rfl, rfl, rfl, rfl, rfl⟩

/-- **C55 is violated**: `reset` of a CRAB generator with optimised frequencies does not bring back
the state after construction: the number of basis functions drops from three to two while the
frequencies are still to be optimised. -/
theorem C55_violated_reset_basis : ∃ o o1,
    (Cls.crabFourier (.num 3) false).construct Option.none Option.none = some o ∧
    (Cls.crabFourier (.num 3) false).act Option.none o .reset = some o1 ∧
    o.attrs "num_basis_funcs" = some (.num (2 + 1)) ∧
    o1.attrs "num_basis_funcs" = some (.num 2) ∧
    o1.attrs "fix_freqs" = some (.bool false) :=
  ⟨_, _, rfl, rfl, rfl, rfl, rfl⟩

end QTrl.Par
