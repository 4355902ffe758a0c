import Verif.Spec.Settings
import Verif.Proofs.Params

/-
Lemmas about the attributes of configurations, termination conditions and optimisers.
-/

namespace QTrl.Settings

open Par

theorem copyBound_cases {obj : ℕ → Option Bool} {cfg : Attrs} {k : String} {l : List Op}
    (h : copyBound obj cfg k = some l) :
    (l = [] ∧ boundOf obj cfg k = .none) ∨ l = [.set k (boundOf obj cfg k)] := by
  unfold copyBound at h
  unfold boundOf
  cases hc : cfg k with
  | none => rw [hc] at h; injection h with h; exact .inl ⟨h.symm, rfl⟩
  | some v =>
    rw [hc] at h
    dsimp only at h ⊢
    cases ht : truth obj v with
    | none => rw [ht] at h; cases h
    | some b =>
      rw [ht] at h
      cases b with
      | true =>
        injection h with h
        subst h
        right
        cases v <;> simp_all [truth]
      | false =>
        injection h with h
        refine .inl ⟨h.symm, ?_⟩
        cases v <;> simp_all [truth]

/-- The assignments of the base class before the bounds of the configuration. -/
def plain : List Op :=
  [.set "id_text" (.str "OPTIM"), .set "termination_conditions" .none,
   .set "pulse_generator" .none, .set "disp_conv_msg" (.bool false),
   .set "iteration_steps" .none, .set "record_iteration_steps" (.bool false),
   .set "alg" (.str "GRAPE"), .set "alg_params" .none, .set "method" (.str "l_bfgs_b"),
   .set "method_params" .none, .set "method_options" .none,
   .set "approx_grad" (.bool false), .set "amp_lbound" .none, .set "amp_ubound" .none,
   .set "bounds" .none, .set "num_iter" (.num 0), .set "num_fid_func_calls" (.num 0),
   .set "num_grad_func_calls" (.num 0), .set "stats" .none,
   .set "wall_time_optim_start" (.num 0), .set "dump_to_file" (.bool false),
   .set "dump" .none, .set "iter_summary" .none]

theorem reset_optim {obj : ℕ → Option Bool} {cfg : Attrs} {c : Kind} (hc : c.isOptim = true)
    {ops : List Op} (h : c.reset obj cfg = some ops) :
    ∃ l u, copyBound obj cfg "amp_lbound" = some l ∧ copyBound obj cfg "amp_ubound" = some u ∧
      ops = plain ++ (l ++ (u ++ [.apply])) ++ c.own := by
  have h' : (match optimReset obj cfg with
      | Option.none => Option.none
      | some l => some (l ++ c.own)) = some ops := by
    cases c <;> first | exact h | cases hc
  unfold optimReset at h'
  cases hl : copyBound obj cfg "amp_lbound" with
  | none => rw [hl] at h'; cases h'
  | some l =>
    cases hu : copyBound obj cfg "amp_ubound" with
    | none => rw [hl, hu] at h'; cases h'
    | some u =>
      rw [hl, hu] at h'
      injection h' with h'
      exact ⟨l, u, rfl, rfl, h'.symm⟩

/-- Statements without `apply_params` leave a name alone that they do not assign to. -/
theorem untouched {ops : List Op} {o o' : Obj} {k : String} (h : runOps o ops = some o')
    (ht : ∀ x ∈ ops, x.target ≠ some k ∧ x ≠ .apply) : o'.attrs k = o.attrs k := by
  induction ops generalizing o with
  | nil => injection h with h; rw [h]
  | cons x r ih =>
    simp only [runOps] at h
    split at h
    · cases h
    · rename_i o1 h1
      rw [ih h fun y hy => ht y (by simp [hy])]
      rcases run_other h1 (ht x (by simp)).1 with e | e
      · exact e
      · exact absurd e (ht x (by simp)).2

/-- The last assignment counts if no `apply_params` follows. -/
theorem assigned {a b : List Op} {o o' : Obj} {k : String} {v : PV}
    (h : runOps o (a ++ .set k v :: b) = some o')
    (ht : ∀ x ∈ b, x.target ≠ some k ∧ x ≠ .apply) : o'.attrs k = some v := by
  obtain ⟨o1, -, h2⟩ := runOps_append h
  simp only [runOps, Op.run] at h2
  rw [untouched h2 ht]
  simp [Attrs.set]

/-- Parameters. -/
theorem reset_given {obj : ℕ → Option Bool} {cfg : Attrs} {c : Kind} (hc : c.isOptim = true)
    {o o' : Obj} (hv : o.Valid) (h : c.runReset obj cfg o = some o') {k : String} {v : PV}
    (hk : k ∉ late c) (hg : o.given k = some v) : o'.attrs k = some v := by
  unfold Kind.runReset at h
  cases hr : c.reset obj cfg with
  | none => rw [hr] at h; cases h
  | some ops =>
    rw [hr] at h
    obtain ⟨l, u, -, -, rfl⟩ := reset_optim hc hr
    have e : plain ++ (l ++ (u ++ [Op.apply])) ++ c.own =
        (plain ++ l ++ u) ++ .apply :: c.own := by simp
    dsimp only at h
    rw [e] at h
    refine applied hv h (fun x hx => ?_) hg
    cases c <;> simp only [Kind.own, late, List.mem_cons, List.not_mem_nil, or_false, not_or] at hx hk
    all_goals first
      | exact hx.elim
      | (rcases hx with rfl | rfl | rfl | rfl | rfl <;> simp [Op.target] <;> tauto)
      | (rcases hx with rfl | rfl <;> simp [Op.target] <;> tauto)
      | (subst hx; simp [Op.target]; tauto)

theorem lastSet_append {k : String} {v : PV} : ∀ {a b : List Op},
    lastSet k a = some v → (∀ x ∈ b, x.target ≠ some k) → lastSet k (a ++ b) = some v := by
  intro a b h hb
  induction a with
  | nil => cases h
  | cons x r ih =>
    simp only [lastSet, List.cons_append] at h ⊢
    have hb' : b.all (fun y => y.target != some k) = true :=
      List.all_eq_true.2 fun y hy => by simpa using hb y hy
    rw [List.all_append, hb', Bool.and_true]
    split
    · rename_i ha; rw [if_pos ha] at h; exact h
    · rename_i ha; rw [if_neg ha] at h; exact ih h

/-- Defaults of names that are not among the parameters. -/
theorem reset_plain {obj : ℕ → Option Bool} {cfg : Attrs} {c : Kind} (hc : c.isOptim = true)
    {o o' : Obj} (hv : o.Valid) (h : c.runReset obj cfg o = some o') {k : String} {v : PV}
    (hk : lastSet k plain = some v) (hl : k ≠ "amp_lbound") (hu : k ≠ "amp_ubound")
    (ho : ∀ x ∈ c.own, x.target ≠ some k) (hg : o.given k = Option.none) :
    o'.attrs k = some v := by
  unfold Kind.runReset at h
  cases hr : c.reset obj cfg with
  | none => rw [hr] at h; cases h
  | some ops =>
    rw [hr] at h
    obtain ⟨l, u, h1, h2, rfl⟩ := reset_optim hc hr
    have hx : ∀ x ∈ l ++ (u ++ [Op.apply]) ++ c.own, x.target ≠ some k := by
      intro x hx
      simp only [List.mem_append, List.mem_singleton] at hx
      rcases hx with (hx | hx | rfl) | hx
      · rcases copyBound_cases h1 with ⟨rfl, -⟩ | rfl
        · cases hx
        · rw [List.mem_singleton.1 hx]
          exact fun e => hl (Option.some.inj e).symm
      · rcases copyBound_cases h2 with ⟨rfl, -⟩ | rfl
        · cases hx
        · rw [List.mem_singleton.1 hx]
          exact fun e => hu (Option.some.inj e).symm
      · simp [Op.target]
      · exact ho x hx
    obtain ⟨a, b, e, hb⟩ := lastSet_split (lastSet_append hk hx)
    rw [List.append_assoc, e] at h
    exact unmentioned hv h hb hg

/-- The bounds of names that are not among the parameters. -/
theorem reset_bound {obj : ℕ → Option Bool} {cfg : Attrs} {c : Kind} (hc : c.isOptim = true)
    {o o' : Obj} (hv : o.Valid) (h : c.runReset obj cfg o = some o') {k : String}
    (hk : k = "amp_lbound" ∨ k = "amp_ubound") (hg : o.given k = Option.none) :
    o'.attrs k = some (boundOf obj cfg k) := by
  unfold Kind.runReset at h
  cases hr : c.reset obj cfg with
  | none => rw [hr] at h; cases h
  | some ops =>
    rw [hr] at h
    obtain ⟨l, u, h1, h2, rfl⟩ := reset_optim hc hr
    have hown : ∀ x ∈ c.own, x.target ≠ some k := by
      rcases hk with rfl | rfl <;> cases c <;> simp [Kind.own, Op.target]
    have key : lastSet k (plain ++ (l ++ (u ++ [.apply])) ++ c.own) =
        some (boundOf obj cfg k) := by
      refine lastSet_append ?_ hown
      rcases hk with rfl | rfl <;> rcases copyBound_cases h1 with ⟨rfl, e1⟩ | rfl <;>
        rcases copyBound_cases h2 with ⟨rfl, e2⟩ | rfl <;>
        simp [plain, lastSet, Op.setVal, Op.target, *]
    obtain ⟨a, b, e, hb⟩ := lastSet_split key
    dsimp only at h
    rw [e] at h
    exact unmentioned hv h hb hg

theorem runReset_params {obj : ℕ → Option Bool} {cfg : Attrs} {c : Kind} {o o' : Obj}
    (h : c.runReset obj cfg o = some o') : o'.params = o.params := by
  unfold Kind.runReset at h
  split at h
  · cases h
  · exact runOps_params h

/-- What was last given as parameters. -/
theorem acts_inForce {obj : ℕ → Option Bool} {cfg : Attrs} {c : Kind} :
    ∀ (l : List Act) (o o' : Obj), c.acts obj cfg o l = some o' →
      o'.params = inForce o.params l := by
  intro l
  induction l with
  | nil => intro o o' h; injection h with h; rw [h]; rfl
  | cons a r ih =>
    intro o o' h
    simp only [Kind.acts] at h
    split at h
    · cases h
    · rename_i o1 h1
      rw [ih _ _ h]
      cases a with
      | applyParams d =>
        have e : o1 = o.applyParams d := by
          cases c <;> first | (cases h1; done) | (injection h1 with h1; exact h1.symm)
        rw [e, applyParams_params, ← inForce_cons]
      | reset => rw [runReset_params h1]; rfl
      | assign k v => injection h1 with h1; rw [← h1]; rfl

/-- Statements that assign and apply do not raise. -/
theorem runOps_some {ops : List Op} (h : ∀ x ∈ ops, ∀ k s q, x ≠ .scale k s q) :
    ∀ o, ∃ o', runOps o ops = some o' := by
  induction ops with
  | nil => exact fun o => ⟨o, rfl⟩
  | cons x r ih =>
    intro o
    have hr := ih fun y hy => h y (by simp [hy])
    cases x with
    | set k v => exact hr _
    | scale k s q => exact absurd rfl (h _ (by simp) k s q)
    | apply => exact hr _

theorem reset_some {c : Kind} (hc : c.isOptim = true) {obj : ℕ → Option Bool} {cfg : Attrs}
    (hb : ∀ k v, k = "amp_lbound" ∨ k = "amp_ubound" → cfg k = some v → (truth obj v).isSome)
    (o : Obj) : ∃ o', c.runReset obj cfg o = some o' := by
  have hcopy : ∀ k, k = "amp_lbound" ∨ k = "amp_ubound" → ∃ l, copyBound obj cfg k = some l := by
    intro k hk
    unfold copyBound
    cases hv : cfg k with
    | none => exact ⟨_, rfl⟩
    | some v =>
      have := hb k v hk hv
      dsimp only
      cases ht : truth obj v with
      | none => rw [ht] at this; cases this
      | some b => cases b <;> exact ⟨_, rfl⟩
  obtain ⟨l, hl⟩ := hcopy "amp_lbound" (.inl rfl)
  obtain ⟨u, hu⟩ := hcopy "amp_ubound" (.inr rfl)
  have hr : ∃ ops, c.reset obj cfg = some ops := by
    have : ∃ l', optimReset obj cfg = some l' := by
      unfold optimReset
      rw [hl, hu]
      exact ⟨_, rfl⟩
    obtain ⟨l', h'⟩ := this
    cases c <;> first | (cases hc; done) | exact ⟨_, by simp only [Kind.reset, h']; rfl⟩
  obtain ⟨ops, hr⟩ := hr
  have h1 := hr
  obtain ⟨l1, u1, e1, e2, e⟩ := reset_optim hc h1
  unfold Kind.runReset
  rw [hr]
  refine runOps_some (fun x hx k s q => ?_) o
  rw [e] at hx
  simp only [List.mem_append, List.mem_singleton] at hx
  rcases hx with (hx | hx | hx | rfl) | hx
  · revert x
    simp [plain]
  · rcases copyBound_cases e1 with ⟨rfl, -⟩ | rfl
    · cases hx
    · rw [List.mem_singleton.1 hx]; simp
  · rcases copyBound_cases e2 with ⟨rfl, -⟩ | rfl
    · cases hx
    · rw [List.mem_singleton.1 hx]; simp
  · simp
  · revert x
    cases c <;> simp [Kind.own]

end QTrl.Settings
