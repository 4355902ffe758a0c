import Verif.Spec.Params

/-
What a sequence of assignments and `apply_params` calls leaves behind.
-/

namespace QTrl.Par

/-- The value a dictionary has for a name. -/
def Dict.get (d : Dict) (k : String) : Option PV :=
  match d with
  | [] => Option.none
  | (n, v) :: r => if n = k then some v else Dict.get r k

theorem get_of_mem {d : Dict} {k : String} {v : PV} (hv : d.Valid) (h : (k, v) ∈ d) :
    Dict.get d k = some v := by
  induction d with
  | nil => cases h
  | cons x r ih =>
    obtain ⟨n, w⟩ := x
    rw [Dict.Valid, List.map_cons, List.nodup_cons] at hv
    rcases List.mem_cons.1 h with h | h
    · cases h
      simp [Dict.get]
    · have : n ≠ k := by
        rintro rfl
        exact hv.1 (List.mem_map.2 ⟨_, h, rfl⟩)
      simp only [Dict.get, if_neg this]
      exact ih hv.2 h

theorem get_none {d : Dict} {k : String} (h : k ∉ d.map Prod.fst) : Dict.get d k = Option.none := by
  induction d with
  | nil => rfl
  | cons x r ih =>
    obtain ⟨n, w⟩ := x
    simp only [List.map_cons, List.mem_cons, not_or] at h
    simp only [Dict.get, if_neg (Ne.symm h.1)]
    exact ih h.2

theorem setAll_get {d : Dict} (hv : d.Valid) (a : Attrs) (k : String) :
    setAll a d k = (Dict.get d k).or (a k) := by
  induction d generalizing a with
  | nil => rfl
  | cons x r ih =>
    obtain ⟨n, w⟩ := x
    rw [Dict.Valid, List.map_cons, List.nodup_cons] at hv
    simp only [setAll, ih hv.2, Dict.get]
    by_cases h : n = k
    · subst h
      have : Dict.get r n = Option.none := get_none hv.1
      simp [this, Attrs.set]
    · simp [if_neg h, Attrs.set, Ne.symm h]

/-- The name a statement assigns to. -/
def Op.target : Op → Option String
  | .set k _ => some k
  | .scale k _ _ => some k
  | .apply => Option.none

/-- The parameters of an object have distinct names. -/
def Obj.Valid (o : Obj) : Prop := ∀ d, o.params = some d → d.Valid

/-- What the parameters of the object say about a name. -/
def Obj.given (o : Obj) (k : String) : Option PV := o.params.bind fun d => Dict.get d k

theorem apply_get {o : Obj} (hv : o.Valid) (k : String) :
    (o.applyParams Option.none).attrs k = (o.given k).or (o.attrs k) := by
  unfold Obj.applyParams Obj.given
  cases h : o.params with
  | none => simp
  | some d => simp [setAll_get (hv d h)]

theorem apply_params (o : Obj) : (o.applyParams Option.none).params = o.params := by
  unfold Obj.applyParams
  cases h : o.params <;> simp [h]

theorem run_params {o o' : Obj} {x : Op} (h : x.run o = some o') : o'.params = o.params := by
  cases x with
  | set k v => injection h with h; rw [← h]
  | scale k s q =>
    simp only [Op.run] at h
    split at h
    · injection h with h; rw [← h]
    · cases h
  | apply => injection h with h; rw [← h, apply_params]

theorem runOps_params {ops : List Op} {o o' : Obj} (h : runOps o ops = some o') :
    o'.params = o.params := by
  induction ops generalizing o with
  | nil => injection h with h; rw [h]
  | cons x r ih =>
    simp only [runOps] at h
    split at h
    · cases h
    · rename_i o1 h1
      rw [ih h, run_params h1]

theorem runOps_append {a b : List Op} {o o' : Obj} (h : runOps o (a ++ b) = some o') :
    ∃ o1, runOps o a = some o1 ∧ runOps o1 b = some o' := by
  induction a generalizing o with
  | nil => exact ⟨o, rfl, h⟩
  | cons x r ih =>
    simp only [List.cons_append, runOps] at h
    split at h
    · cases h
    · rename_i o1 h1
      obtain ⟨o2, h2, h3⟩ := ih h
      exact ⟨o2, by simp only [runOps, h1, h2], h3⟩

/-- The attribute has the value of the parameters, if these mention it. -/
def Settled (o : Obj) (k : String) : Prop := ∀ v, o.given k = some v → o.attrs k = some v

theorem given_congr {o o' : Obj} (h : o'.params = o.params) (k : String) :
    o'.given k = o.given k := by
  simp only [Obj.given, h]

theorem run_other {o o' : Obj} {x : Op} {k : String} (h : x.run o = some o')
    (hx : x.target ≠ some k) : o'.attrs k = o.attrs k ∨ x = .apply := by
  cases x with
  | set n v =>
    injection h with h
    left
    rw [← h]
    have : k ≠ n := fun e => hx (by rw [e]; rfl)
    simp [Attrs.set, this]
  | scale n s q =>
    simp only [Op.run] at h
    split at h
    · injection h with h
      left
      rw [← h]
      have : k ≠ n := fun e => hx (by rw [e]; rfl)
      simp [Attrs.set, this]
    · cases h
  | apply => exact .inr rfl

/-- A settled attribute that is not assigned to keeps its value. -/
theorem settled_keep {ops : List Op} {o o' : Obj} {k : String} (hv : o.Valid)
    (hs : Settled o k) (h : runOps o ops = some o') (ht : ∀ x ∈ ops, x.target ≠ some k) :
    o'.attrs k = o.attrs k := by
  induction ops generalizing o with
  | nil => injection h with h; rw [h]
  | cons x r ih =>
    simp only [runOps] at h
    split at h
    · cases h
    · rename_i o1 h1
      have hp := run_params h1
      have he : o1.attrs k = o.attrs k := by
        rcases run_other h1 (ht x (by simp)) with e | rfl
        · exact e
        · injection h1 with h1
          rw [← h1, apply_get hv]
          cases hg : o.given k with
          | none => simp
          | some v => simp [hs v hg]
      rw [ih (fun d hd => hv d (by rw [← hp, hd])) (fun v hg => by
        rw [he]; exact hs v (by rw [← given_congr hp, hg])) h (fun y hy => ht y (by simp [hy])), he]

theorem settled_apply {o : Obj} (hv : o.Valid) (k : String) :
    Settled (o.applyParams Option.none) k := by
  intro v hg
  rw [given_congr (apply_params o)] at hg
  rw [apply_get hv, hg]
  rfl

/-- After an `apply_params` an attribute not assigned to later has the value given. -/
theorem applied {a b : List Op} {o o' : Obj} {k : String} {v : PV} (hv : o.Valid)
    (h : runOps o (a ++ .apply :: b) = some o') (ht : ∀ x ∈ b, x.target ≠ some k)
    (hg : o.given k = some v) : o'.attrs k = some v := by
  obtain ⟨o1, h1, h2⟩ := runOps_append h
  have hp := runOps_params h1
  have hv1 : o1.Valid := fun d hd => hv d (by rw [← hp, hd])
  simp only [runOps, Op.run] at h2
  rw [settled_keep (fun d hd => hv1 d (by rw [← apply_params o1, hd])) (settled_apply hv1 k) h2 ht]
  exact settled_apply hv1 k v (by rw [given_congr (apply_params o1), given_congr hp, hg])

/-- An attribute the parameters do not mention has the value last assigned. -/
theorem unmentioned {a b : List Op} {o o' : Obj} {k : String} {v : PV} (hv : o.Valid)
    (h : runOps o (a ++ .set k v :: b) = some o') (ht : ∀ x ∈ b, x.target ≠ some k)
    (hg : o.given k = Option.none) : o'.attrs k = some v := by
  obtain ⟨o1, h1, h2⟩ := runOps_append h
  have hp := runOps_params h1
  simp only [runOps, Op.run] at h2
  have hg1 : Obj.given { o1 with attrs := o1.attrs.set k v } k = Option.none := by
    rw [given_congr (o := o) (by exact hp), hg]
  rw [settled_keep (fun d hd => hv d (by rw [← hp]; exact hd)) (fun w hw => by
    rw [hg1] at hw; cases hw) h2 ht]
  simp [Attrs.set]

/-- The same for a multiple of another attribute, which is settled. -/
theorem unmentioned_scale {a b c : List Op} {o o' : Obj} {k s : String} {q : ℚ} (hv : o.Valid)
    (h : runOps o (a ++ .apply :: (b ++ .scale k s q :: c)) = some o')
    (ht : ∀ x ∈ c, x.target ≠ some k) (hb : ∀ x ∈ b, x.target ≠ some s)
    (hc : ∀ x ∈ c, x.target ≠ some s) (hks : k ≠ s)
    (hg : o.given k = Option.none) :
    ∃ x, o'.attrs s = some (.num x) ∧ o'.attrs k = some (.num (x * q)) := by
  obtain ⟨o1, h1, h2⟩ := runOps_append h
  simp only [runOps, Op.run] at h2
  obtain ⟨o2, h3, h4⟩ := runOps_append h2
  have hp1 := runOps_params h1
  have hv1 : o1.Valid := fun d hd => hv d (by rw [← hp1, hd])
  have hv1' : (o1.applyParams Option.none).Valid :=
    fun d hd => hv1 d (by rw [← apply_params o1, hd])
  have hp2 : o2.params = o.params := by
    rw [runOps_params h3, apply_params, hp1]
  have hs2 : o2.attrs s = (o1.applyParams Option.none).attrs s :=
    settled_keep hv1' (settled_apply hv1 s) h3 hb
  have hset2 : Settled o2 s := by
    intro v hgv
    rw [hs2]
    exact settled_apply hv1 s v (by rw [given_congr (o := o2) (by rw [apply_params, hp1, hp2]), hgv])
  simp only [runOps, Op.run] at h4
  split at h4
  · cases h4
  · rename_i o3 h5
    split at h5
    · rename_i x hx
      injection h5 with h5
      have hv3 : o3.Valid := fun d hd => hv d (by rw [← hp2, ← hd, ← h5])
      have hp3 : o3.params = o2.params := by rw [← h5]
      refine ⟨x, ?_, ?_⟩
      · rw [settled_keep hv3 ?_ h4 hc, ← h5]
        · simp [Attrs.set, Ne.symm hks, hx]
        · intro v hgv
          rw [given_congr hp3] at hgv
          rw [← h5]
          simp [Attrs.set, Ne.symm hks, hset2 v hgv]
      · rw [settled_keep hv3 ?_ h4 ht, ← h5]
        · simp [Attrs.set]
        · intro v hgv
          rw [given_congr (hp3.trans hp2), hg] at hgv
          cases hgv
    · cases h5

/-- The value a statement assigns to a name. -/
def Op.setVal (k : String) : Op → Option PV
  | .set n v => if n = k then some v else Option.none
  | _ => Option.none

/-- The value last assigned to a name. -/
def lastSet (k : String) : List Op → Option PV
  | [] => Option.none
  | x :: r => if r.all (fun y => y.target != some k) then x.setVal k else lastSet k r

theorem lastSet_split {k : String} {v : PV} {ops : List Op} (h : lastSet k ops = some v) :
    ∃ a b, ops = a ++ .set k v :: b ∧ ∀ x ∈ b, x.target ≠ some k := by
  induction ops with
  | nil => cases h
  | cons x r ih =>
    simp only [lastSet] at h
    split at h
    · rename_i hall
      cases x with
      | set n w =>
        simp only [Op.setVal] at h
        split at h
        · rename_i e
          injection h with h
          subst e; subst h
          refine ⟨[], r, rfl, fun y hy => ?_⟩
          have := List.all_eq_true.1 hall y hy
          simpa using this
        · cases h
      | scale => cases h
      | apply => cases h
    · obtain ⟨a, b, e, hb⟩ := ih h
      exact ⟨x :: a, b, by rw [e]; rfl, hb⟩

theorem last_apply {ops : List Op} (h : ops.getLast? = some .apply) :
    ∃ a, ops = a ++ [.apply] := by
  obtain ⟨a, e⟩ := List.getLast?_eq_some_iff.1 h
  exact ⟨a, e⟩

theorem pulseGen_last (p : Option Parent) : (pulseGenReset p).getLast? = some .apply := by
  cases p <;> rfl

/-- `reset` keeps what the parameters say. -/
theorem reset_named {c : Cls} {p : Option Parent} {o o' : Obj} {k : String} {v : PV}
    (hv : o.Valid) (h : runOps o (c.reset p) = some o') (hk : k ∉ lostByReset c)
    (hg : o.given k = some v) : o'.attrs k = some v := by
  have key : ∀ ops, ops.getLast? = some Op.apply → runOps o ops = some o' →
      o'.attrs k = some v := by
    intro ops hl h
    obtain ⟨a, rfl⟩ := last_apply hl
    exact applied (b := []) hv h (fun x hx => by cases hx) hg
  by_cases hc : ∃ n f, c = .crabFourier n f
  · obtain ⟨n, f, rfl⟩ := hc
    have hl : (crabReset p).getLast? = some Op.apply := by cases p <;> rfl
    obtain ⟨a, ha⟩ := last_apply hl
    simp only [Cls.reset, ha, List.append_assoc, List.singleton_append] at h
    refine applied hv h ?_ hg
    intro x hx e
    simp only [List.mem_cons, List.not_mem_nil, or_false] at hx
    simp only [lostByReset, List.mem_cons, List.not_mem_nil, or_false, not_or] at hk
    rcases hx with rfl | rfl
    · injection e with e; exact hk.1 e.symm
    · injection e with e; exact hk.2 e.symm
  · refine key _ ?_ h
    cases c with
    | crabFourier n f => exact (hc ⟨n, f, rfl⟩).elim
    | _ => cases p <;> rfl

/-- All values of a list of defaults are as computed. -/
macro "all_vals" : tactic => `(tactic|
  repeat' first
    | exact fun _ h => absurd h List.not_mem_nil
    | refine And.intro ?_ ?_
    | exact ⟨_, rfl, rfl⟩)

/-- `reset` gives the default to what the parameters do not mention. -/
theorem reset_default {c : Cls} {p : Option Parent} {o o' : Obj} {k : String} {d : Default}
    (hv : o.Valid) (h : runOps o (c.reset p) = some o') (hd : (k, d) ∈ defaults p c)
    (hg : o.given k = Option.none) : d.Is (o'.attrs "pulse_time") (o'.attrs k) := by
  have val : ∀ v, lastSet k (c.reset p) = some v → o'.attrs k = some v := by
    intro v hl
    obtain ⟨a, b, e, hb⟩ := lastSet_split hl
    rw [e] at h
    exact unmentioned hv h hb hg
  obtain ⟨a, ha⟩ := last_apply (pulseGen_last p)
  have scl : ∀ (b r : List Op) (q : ℚ),
      c.reset p = a ++ .apply :: (b ++ .scale k "pulse_time" q :: r) →
      (∀ x ∈ r, x.target ≠ some k) → (∀ x ∈ b, x.target ≠ some "pulse_time") →
      (∀ x ∈ r, x.target ≠ some "pulse_time") → k ≠ "pulse_time" →
      Default.Is (.times q) (o'.attrs "pulse_time") (o'.attrs k) := by
    intro b r q e h1 h2 h3 h4
    rw [e] at h
    obtain ⟨x, e1, e2⟩ := unmentioned_scale hv h h1 h2 h3 h4 hg
    exact ⟨x, e1, by rw [e2, mul_comm]⟩
  have fin : ∀ l : List (String × Default), (∀ kd ∈ l, ∃ v, kd.2 = .val v ∧
      lastSet kd.1 (c.reset p) = some v) → (k, d) ∈ l →
      d.Is (o'.attrs "pulse_time") (o'.attrs k) := by
    intro l hl hm
    obtain ⟨v, e1, e2⟩ := hl _ hm
    simp only at e1 e2
    rw [e1]
    exact val v e2
  cases c with
  | rndFourier =>
    rcases List.mem_cons.1 hd with e | hd
    · cases e
      exact scl [.set "random" (.bool true), .set "_uses_time" (.bool true)] [.apply] _
        (by simp [Cls.reset, ha]) (by decide) (by decide) (by decide) (by decide)
    · refine fin _ ?_ hd
      cases p <;> simp only [commonDefaults, List.forall_mem_cons] <;> all_vals
  | rndWaves =>
    rcases List.mem_cons.1 hd with e | hd
    · cases e; exact val _ (by cases p <;> rfl)
    rcases List.mem_cons.1 hd with e | hd
    · cases e
      exact scl [.set "random" (.bool true), .set "_uses_time" (.bool true),
        .set "num_comp_waves" (.num 20)] [.scale "max_wavelen" "pulse_time" 2, .apply] _
        (by simp [Cls.reset, ha]) (by decide) (by decide) (by decide) (by decide)
    rcases List.mem_cons.1 hd with e | hd
    · cases e
      exact scl [.set "random" (.bool true), .set "_uses_time" (.bool true),
        .set "num_comp_waves" (.num 20), .scale "min_wavelen" "pulse_time" (1 / 10)] [.apply] _
        (by simp [Cls.reset, ha]) (by decide) (by decide) (by decide) (by decide)
    · refine fin _ ?_ hd
      cases p <;> simp only [commonDefaults, List.forall_mem_cons] <;> all_vals
  | gaussian =>
    rcases List.mem_cons.1 hd with e | hd
    · cases e
      exact scl [.set "_uses_time" (.bool true)]
        [.scale "variance" "pulse_time" (1 / 2), .apply] _
        (by simp [Cls.reset, ha]) (by decide) (by decide) (by decide) (by decide)
    rcases List.mem_cons.1 hd with e | hd
    · cases e
      exact scl [.set "_uses_time" (.bool true), .scale "mean" "pulse_time" (1 / 2)] [.apply] _
        (by simp [Cls.reset, ha]) (by decide) (by decide) (by decide) (by decide)
    · refine fin _ ?_ hd
      cases p <;> simp only [commonDefaults, List.forall_mem_cons] <;> all_vals
  | gaussianEdge =>
    rcases List.mem_cons.1 hd with e | hd
    · cases e
      exact scl [.set "_uses_time" (.bool true)] [.apply] _
        (by simp [Cls.reset, ha]) (by decide) (by decide) (by decide) (by decide)
    · refine fin _ ?_ hd
      cases p <;> simp only [commonDefaults, List.forall_mem_cons] <;> all_vals
  | _ =>
    refine fin _ ?_ hd
    cases p <;> simp only [defaults, commonDefaults, List.forall_mem_cons] <;> all_vals

/-- The constructor: something before `reset`, and nothing after it for most names. -/
theorem construct_parts {c : Cls} {p : Option Parent} {params : Option Dict} {o : Obj}
    (hval : ∀ d, params = some d → d.Valid) (h : c.construct p params = some o) :
    ∃ o1 o2 : Obj, o1.params = params ∧ runOps o1 (c.reset p) = some o2 ∧ o.params = params ∧
      (∀ n f, c = .crabFourier n f → o1.attrs "num_coeffs" = some n) ∧
      (∀ k, k ∉ lostByReset c → k ∉ ownByConstructor c → o.attrs k = o2.attrs k) := by
  unfold Cls.construct at h
  split at h
  · cases h
  · rename_i o3 h3
    rw [List.append_assoc] at h3
    obtain ⟨o1, h1, h4⟩ := runOps_append h3
    obtain ⟨o2, h2, h5⟩ := runOps_append h4
    have p1 : o1.params = params := runOps_params h1
    have p2 : o2.params = params := (runOps_params h2).trans p1
    have p3 : o3.params = params := (runOps_params h5).trans p2
    have hx : o.params = o3.params ∧
        (∀ k, k ∉ ownByConstructor c → o.attrs k = o3.attrs k) := by
      unfold Cls.extraBasis at h
      split at h
      · split at h
        · injection h with h
          rw [← h]
          refine ⟨rfl, fun k hk => ?_⟩
          have : k ≠ "num_basis_funcs" := fun e => hk (by simp [ownByConstructor, e])
          simp [Attrs.set, this]
        · cases h
      · injection h with h
        rw [h]
        exact ⟨rfl, fun _ _ => rfl⟩
    refine ⟨o1, o2, p1, h2, hx.1.trans p3, ?_, ?_⟩
    · rintro n f rfl
      simp only [Cls.before, runOps, Op.run] at h1
      injection h1 with h1
      rw [← h1]
      simp [Attrs.set]
    · intro k hk ho
      rw [hx.2 k ho]
      have hv1 : o1.Valid := fun d hd => hval d (by rw [← p1, hd])
      have hv2 : o2.Valid := fun d hd => hval d (by rw [← p2, hd])
      refine settled_keep hv2 (fun v hg => reset_named hv1 h2 hk (by
        rw [← given_congr (o' := o2) (p2.trans p1.symm), hg])) h5 ?_
      intro x hx e
      unfold Cls.after at hx
      split at hx
      · simp only [List.mem_singleton] at hx
        subst hx
        injection e with e
        exact ho (by simp [ownByConstructor, ← e])
      · simp only [List.mem_singleton] at hx
        subst hx
        injection e with e
        exact ho (by simp [ownByConstructor, ← e])
      · cases hx

theorem applyParams_params (o : Obj) (d : Option Dict) :
    (o.applyParams d).params = inForce o.params [.applyParams d] := by
  unfold Obj.applyParams
  match d with
  | Option.none => cases h : o.params <;> simp [inForce, h]
  | some [] => cases h : o.params <;> simp [inForce, h]
  | some (x :: r) => simp [inForce]

theorem act_params {c : Cls} {p : Option Parent} {o o' : Obj} {a : Act}
    (h : c.act p o a = some o') : o'.params = inForce o.params [a] := by
  cases a with
  | applyParams d => injection h with h; rw [← h, applyParams_params]
  | reset => exact runOps_params h
  | assign k v => injection h with h; rw [← h]; rfl

theorem inForce_cons (d : Option Dict) (a : Act) (l : List Act) :
    inForce d (a :: l) = inForce (inForce d [a]) l := by
  cases a with
  | applyParams e =>
    match e with
    | Option.none => rfl
    | some [] => rfl
    | some (x :: r) => rfl
  | reset => rfl
  | assign k v => rfl

theorem acts_params {c : Cls} {p : Option Parent} {l : List Act} {o o' : Obj}
    (h : c.acts p o l = some o') : o'.params = inForce o.params l := by
  induction l generalizing o with
  | nil => injection h with h; rw [h]; rfl
  | cons a r ih =>
    simp only [Cls.acts] at h
    split at h
    · cases h
    · rename_i o1 h1
      rw [ih h, act_params h1, ← inForce_cons]

theorem inForce_valid {l : List Act} {d : Option Dict} (hd : ∀ x, d = some x → x.Valid)
    (hl : Acts.Valid l Dict.Valid) : ∀ x, inForce d l = some x → x.Valid := by
  induction l generalizing d with
  | nil => exact hd
  | cons a r ih =>
    rw [inForce_cons]
    refine ih ?_ (fun e he => hl e (List.mem_cons_of_mem _ he))
    cases a with
    | applyParams e =>
      match e with
      | Option.none => exact hd
      | some [] => exact hd
      | some (x :: s) =>
        intro y hy
        injection hy with hy
        rw [← hy]
        exact hl _ (List.mem_cons_self ..)
    | reset => exact hd
    | assign k v => exact hd

end QTrl.Par
