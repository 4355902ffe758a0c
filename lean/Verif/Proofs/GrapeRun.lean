import Verif.Proofs.Grape
import Verif.Spec.Grape

/-
The stand-alone GRAPE functions: what a run returns.
-/

set_option linter.unusedSectionVars false

namespace QTrl.Grape

variable {d : Type} [Fintype d] [DecidableEq d]

/-- The state after the loop. -/
noncomputable def Args.final (a : Args d) (i : Impl) (eps : ℝ) (lim : Option (ℝ × ℝ)) (u0 : Arr) :
    Loop d :=
  forRange (a.nIter - 1) (a.iter i eps lim) ⟨u0, none⟩

theorem run_ok (a : Args d) (i : Impl) (res : Result d) (h : a.run i = .ok res) :
    ∃ eps lim u0, a.epsVal = .ok eps ∧ a.limits = .ok lim ∧ a.init lim = .ok u0 ∧
      2 ≤ a.nIter ∧ 2 ≤ a.M ∧ res.u = (a.final i eps lim u0).u ∧
      res.uf = evo (a.slot ((a.final i eps lim u0).u (a.nIter - 2))) (a.M - 1) ∧
      res.ht = (a.final i eps lim u0).u (a.nIter - 1) := by
  unfold Args.run at h
  generalize h1 : a.epsVal = x1 at h
  rcases x1 with e | eps
  · cases h
  simp only at h
  generalize h2 : a.limits = x2 at h
  rcases x2 with e | lim
  · cases h
  simp only at h
  generalize h3 : a.init lim = x3 at h
  rcases x3 with e | u0
  · cases h
  simp only at h
  split_ifs at h with c1 c2
  by_cases hn : 2 ≤ a.nIter
  · have hM : 2 ≤ a.M := by
      by_contra hM; exact c1 ⟨hn, by omega⟩
    obtain ⟨-, -, s3⟩ := loop_spec a i eps lim hM u0 (a.nIter - 1)
    rw [if_neg (by omega)] at s3
    have s3' := s3
    rw [s3'] at h
    simp only [show a.nIter - 1 - 1 = a.nIter - 2 by omega] at h
    rw [fList_last a _ hM] at h
    simp only at h
    cases h
    exact ⟨eps, lim, u0, rfl, rfl, h3, hn, hM, rfl, rfl, rfl⟩
  · have : a.nIter - 1 = 0 := by omega
    rw [this] at h
    simp [forRange] at h

theorem run_eq (a : Args d) (i : Impl) (eps : ℝ) (lim : Option (ℝ × ℝ)) (u0 : Arr)
    (h1 : a.epsVal = .ok eps) (h2 : a.limits = .ok lim) (h3 : a.init lim = .ok u0)
    (hn : 2 ≤ a.nIter) (hM : 2 ≤ a.M) :
    a.run i = .ok ⟨(a.final i eps lim u0).u,
      evo (a.slot ((a.final i eps lim u0).u (a.nIter - 2))) (a.M - 1),
      (a.final i eps lim u0).u (a.nIter - 1)⟩ := by
  unfold Args.run
  rw [h1, h2]
  simp only
  rw [h3]
  simp only
  rw [if_neg (by omega), if_neg (by omega)]
  obtain ⟨-, -, s3⟩ := loop_spec a i eps lim hM u0 (a.nIter - 1)
  rw [if_neg (by omega)] at s3
  rw [s3]
  simp only [show a.nIter - 1 - 1 = a.nIter - 2 by omega]
  rw [fList_last a _ hM]
  rfl

/-- Whether amplitudes at the given times are the values themselves: without interpolation, or
with an interpolation that passes through its points. -/
def Args.Exact (a : Args d) : Prop :=
  a.useInterp = true → ∀ (f : Nat → ℝ) (m : Nat), m < a.M →
    a.interp a.times f (a.times.getD m 0) = f m

theorem ham_eq (a : Args d) (h : a.Exact) (v : Nat → Nat → ℝ) (m : Nat) (hm : m < a.M) :
    a.ham v m = Spec.Grape.hamiltonian a.h0 a.hOps fun j => v j m := by
  have hv : ∀ j, a.amp v j m = v j m := by
    intro j
    unfold Args.amp
    split_ifs with hi
    · exact h hi _ m hm
    · rfl
  unfold Args.ham Spec.Grape.hamiltonian
  simp only [hv]
  rfl

theorem evo_eq (a : Args d) (h : a.Exact) (v : Nat → Nat → ℝ) (n : Nat) (hn : n ≤ a.M) :
    evo (a.slot v) n = Spec.Grape.propagator a.expm a.h0 a.hOps a.dt v n := by
  induction n with
  | zero => rfl
  | succ n ih =>
    rw [evo, Spec.Grape.propagator, ih (by omega), Args.slot, ham_eq a h v n (by omega)]

/-- The rows of a start pulse. -/
theorem fillRows_row (nIter J M : Nat) (rows : List Row) (idx : Nat) (u v : Arr)
    (h : fillRows nIter J M rows idx u = .ok v) :
    (∀ j m, j < idx → v 0 j m = u 0 j m) ∧
    (∀ j m, idx + rows.length ≤ j → v 0 j m = u 0 j m) ∧
    (∀ k m, k < rows.length → m < M → match rows[k]? with
      | some (.scalar x) => v 0 (idx + k) m = x
      | some (.vec l) => v 0 (idx + k) m ∈ l
      | none => False) := by
  induction rows generalizing idx u with
  | nil =>
    simp only [fillRows] at h
    cases h
    exact ⟨fun _ _ _ => rfl, fun _ _ _ => rfl, fun k m hk => by simp at hk⟩
  | cons row rows ih =>
    have key : ∀ w : Arr, fillRows nIter J M rows (idx + 1) w = .ok v →
        (∀ j m, j ≠ idx → w 0 j m = u 0 j m) →
        (∀ m, m < M → match row with
          | .scalar x => w 0 idx m = x
          | .vec l => w 0 idx m ∈ l) → 
        (∀ j m, j < idx → v 0 j m = u 0 j m) ∧
        (∀ j m, idx + (row :: rows).length ≤ j → v 0 j m = u 0 j m) ∧
        (∀ k m, k < (row :: rows).length → m < M → match (row :: rows)[k]? with
          | some (.scalar x) => v 0 (idx + k) m = x
          | some (.vec l) => v 0 (idx + k) m ∈ l
          | none => False) := by
      intro w hw hu hr
      obtain ⟨a1, a2, a3⟩ := ih (idx + 1) w hw
      refine ⟨fun j m hj => ?_, fun j m hj => ?_, fun k m hk hm => ?_⟩
      · rw [a1 j m (by omega), hu j m (by omega)]
      · rw [a2 j m (by simp at hj; omega), hu j m (by simp at hj; omega)]
      · cases k with
        | zero =>
          simp only [List.getElem?_cons_zero, Nat.add_zero]
          have := hr m hm
          rw [← a1 idx m (by omega)] at this
          cases row <;> exact this
        | succ k =>
          have := a3 k m (by simpa using hk) hm
          simp only [List.getElem?_cons_succ]
          rw [show idx + (k + 1) = idx + 1 + k by omega]
          exact this
    simp only [fillRows] at h
    split_ifs at h
    cases row with
    | scalar x =>
      refine key _ h ?_ ?_
      · intro j m hj; simp [hj]
      · intro m _; simp
    | vec l =>
      simp only at h
      split_ifs at h with c1 c2
      · refine key _ h ?_ ?_
        · intro j m hj; simp [hj]
        · intro m hm
          simp only [and_self, if_true]
          rw [List.getD_eq_getElem?_getD, List.getElem?_eq_getElem (by omega), Option.getD_some]
          exact List.getElem_mem _
      · refine key _ h ?_ ?_
        · intro j m hj; simp [hj]
        · intro m hm
          simp only [and_self, if_true]
          rw [List.getD_eq_getElem?_getD, List.getElem?_eq_getElem (by omega), Option.getD_some]
          exact List.getElem_mem _

theorem clip_length (int : Bool) (lo hi : ℝ) (rows : List Row) :
    (rows.map (Row.clip int lo hi)).length = rows.length := List.length_map _

theorem start_list (a : Args d) (lo hi : ℝ) (r0 : Row) (rs : List Row)
    (hs : a.uStart = some (.list (r0 :: rs))) :
    a.start (some (lo, hi)) =
      if homogeneous (r0 :: rs) then .ok (some ((r0 :: rs).map (Row.clip a.startInt lo hi)))
      else .error .valueError := by
  unfold Args.start
  rw [hs]
  rfl

/-- A clipped start pulse is within the limits. -/
theorem init_within (a : Args d) (lo hi : ℝ) (hle : lo ≤ hi) (rows : List Row) (u0 : Arr)
    (hs : a.uStart = some (.list rows)) (hi' : a.startInt = false)
    (h : a.init (some (lo, hi)) = .ok u0) :
    Spec.Grape.Within lo hi rows.length a.M (u0 0) := by
  intro j hj m hm
  unfold Args.init at h
  cases hr : rows with
  | nil => rw [hr] at hj; simp at hj
  | cons r0 rs =>
    rw [start_list a lo hi r0 rs (by rw [hs, hr]), ← hr] at h
    by_cases hh : homogeneous rows = true
    · rw [if_pos hh] at h
      simp only at h
      obtain ⟨-, -, h3⟩ := fillRows_row _ _ _ _ _ _ _ h
      have := h3 j m (by rw [clip_length]; exact hj) hm
      rw [List.getElem?_map, List.getElem?_eq_getElem hj, Option.map_some, Nat.zero_add] at this
      cases hx : rows[j] with
      | scalar x =>
        rw [hx] at this
        simp only [Row.clip, hi'] at this
        rw [this]
        exact clipSeq_mem lo hi x hle
      | vec l =>
        rw [hx] at this
        simp only [Row.clip, hi', List.mem_map] at this
        obtain ⟨x, -, e⟩ := this
        rw [← e]
        exact clipSeq_mem lo hi x hle
    · rw [if_neg hh] at h
      cases h

theorem limits_some (a : Args d) (lo hi : ℝ) (h : a.uLimits = some [lo, hi]) :
    a.limits = .ok (some (lo, hi)) := by
  unfold Args.limits; rw [h]

/-- Rows after the first are within the limits. -/
theorem final_within (a : Args d) (i : Impl) (eps lo hi : ℝ) (hle : lo ≤ hi) (hM : 2 ≤ a.M)
    (u0 : Arr) (r : Nat) (hr : r + 1 < a.nIter) :
    Spec.Grape.Within lo hi a.J a.M ((a.final i eps (some (lo, hi)) u0).u (r + 1)) := by
  intro j hj m hm
  obtain ⟨-, s2, -⟩ := loop_spec a i eps (some (lo, hi)) hM u0 (a.nIter - 1)
  have := s2 r (by omega) j m hj hm
  unfold Args.final
  rw [this]
  exact clipElif_mem lo hi _ hle

/-- When the two increments are the same. -/
theorem incr_eq (a : Args d) (hb : ¬ truthy a.beta) (ha : ∀ x, a.alpha = some x → 0 ≤ x)
    (p : Props d) (j m : Nat) (x : ℝ) : a.incr .py p j m x = a.incr .cy p j m x := by
  unfold Args.incr orZero
  simp only
  have hb' : ¬ (a.beta.getD 0 ≠ 0) := by
    intro h
    apply hb
    cases e : a.beta with
    | none => rw [e] at h; exact absurd rfl h
    | some b => rw [e] at h; exact ⟨b, rfl, h⟩
  rw [if_neg hb, if_neg hb']
  have : truthy a.alpha ↔ a.alpha.getD 0 > 0 := by
    constructor
    · rintro ⟨v, hv, h0⟩
      have := ha v hv
      rw [hv]
      exact lt_of_le_of_ne this (Ne.symm h0)
    · intro h
      cases e : a.alpha with
      | none => rw [e] at h; exact absurd h (lt_irrefl _)
      | some b => rw [e] at h; exact ⟨b, rfl, ne_of_gt h⟩
  by_cases c : truthy a.alpha
  · rw [if_pos c, if_pos (this.1 c)]
  · rw [if_neg c, if_neg (fun h => c (this.2 h))]

theorem forRange_congr' {σ : Type} (n : Nat) (f g : Nat → σ → σ) (s : σ)
    (h : ∀ k, f k = g k) : forRange n f s = forRange n g s := by
  have : f = g := funext h
  rw [this]

theorem final_eq (a : Args d) (eps : ℝ) (lim : Option (ℝ × ℝ)) (u0 : Arr) (hM : 2 ≤ a.M)
    (hb : ¬ truthy a.beta) (ha : ∀ x, a.alpha = some x → 0 ≤ x) :
    a.final .py eps lim u0 = a.final .cy eps lim u0 := by
  refine forRange_congr' _ _ _ _ fun r => funext fun s => ?_
  unfold Args.iter
  simp only
  rw [step_eq a .py _ _ _ _ _ hM, step_eq a .cy _ _ _ _ _ hM]
  have : ∀ p, a.newVal .py eps lim p = a.newVal .cy eps lim p := by
    intro p
    funext j m x
    unfold Args.newVal
    rw [incr_eq a hb ha]
  rw [this]

/-- The step size used is the documented one. -/
theorem epsVal_ok {d : Type} {a : Args d} {e : ℝ} (h : a.epsVal = .ok e) :
    e = Spec.Grape.stepSize a.eps a.times := by
  unfold Args.epsVal at h
  unfold Spec.Grape.stepSize
  cases ha : a.eps with
  | some x => rw [ha] at h; cases h; rfl
  | none =>
    rw [ha] at h
    cases hl : a.times.getLast? with
    | none => rw [hl] at h; cases h
    | some t =>
      rw [hl] at h
      cases h
      rw [Option.getD_none, List.getLastD_eq_getLast?, hl, Option.getD_some]
      ring

end QTrl.Grape
