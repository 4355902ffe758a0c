import Verif.Model.Timeslots
import Verif.Spec.Timeslots
import Verif.Proofs.Loop
import Mathlib.Algebra.CharZero.Defs
import Mathlib.Algebra.BigOperators.Group.List.Basic
import Mathlib.Data.Nat.Cast.Basic
import Mathlib.Tactic.FieldSimp

namespace QTrl.Timeslots

variable {K : Type*} [Field K]

theorem cumTime_spec (tau : List K) :
    (cumTime tau tau.length).length = tau.length + 1 ∧
    ∀ k, k ≤ tau.length → (cumTime tau tau.length)[k]? = some (tau.take k).sum := by
  have h := forRange_inv (n := tau.length)
    (b := fun t (time : List K) => time.set (t + 1) (time.getD t 0 + tau.getD t 0))
    (s := List.replicate (tau.length + 1) 0)
    (fun m time => time.length = tau.length + 1 ∧
      ∀ k, k ≤ m → time[k]? = some (tau.take k).sum)
    (by simp) (by
      rintro m time hm ⟨hl, hk⟩
      refine ⟨by simpa using hl, ?_⟩
      intro k hkm
      rcases Nat.lt_or_ge k (m + 1) with h | h
      · rw [List.getElem?_set_ne (by omega)]
        exact hk k (by omega)
      · have : k = m + 1 := by omega
        subst this
        rw [List.getElem?_set_self (by omega)]
        have h1 := hk m (by omega)
        rw [List.getD_eq_getElem?_getD, h1, List.getD_eq_getElem?_getD,
          List.getElem?_eq_getElem hm]
        simp [List.sum_take_succ tau m hm])
  exact h

/-- The invariant behind C01: an initialised object agrees with itself; an
uninitialised one has no slot data yet and no bad slot count. -/
def Inv (s : TS K) : Prop :=
  (s.initialized = true → ∃ n e tau time, s.numTslots = some n ∧ s.evoTime = some e ∧
    s.tau = some tau ∧ s.time = some time ∧ 0 < n ∧ Spec.TimeslotsAgree n e tau time) ∧
  (s.initialized = false → s.tau = none ∧ s.time = none ∧
    ∀ n, s.numTslots = some n → 0 < n)

theorem initTimeslots_inv [CharZero K] (s : TS K)
    (hn : s.tau = none → ∀ n, s.numTslots = some n → 0 < n)
    (ht0 : s.tau ≠ some []) :
    (initTimeslots s).2 = .ok () ∧ (initTimeslots s).1.initialized = true ∧
      Inv (initTimeslots s).1 := by
  unfold initTimeslots
  cases ht : s.tau with
  | none =>
    have hpos : 0 < s.numTslots.getD defNumTslots := by
      cases h : s.numTslots with
      | none => simp [defNumTslots]
      | some n => simpa using hn ht n h
    generalize s.numTslots.getD defNumTslots = n at hpos
    generalize s.evoTime.getD (defEvoTime : K) = e
    obtain ⟨m, rfl⟩ := Int.eq_ofNat_of_zero_le (le_of_lt hpos)
    have hm : (m : K) ≠ 0 := by
      have : m ≠ 0 := by omega
      exact_mod_cast this
    simp only [show ¬ ((m : Int) < 0) by omega, if_false, Int.toNat_natCast]
    refine ⟨trivial, trivial, ?_, by simp⟩
    intro _
    have hl : (List.replicate m (e / ((m : Int) : K))).length = m := by simp
    have hc := cumTime_spec (List.replicate m (e / ((m : Int) : K)))
    rw [hl] at hc
    refine ⟨_, _, _, _, rfl, rfl, rfl, rfl, hpos, by simp, ?_, by simpa using hc.1, ?_⟩
    · simp only [List.sum_replicate, Int.cast_natCast, nsmul_eq_mul]
      field_simp
    · simpa [hl] using hc.2
  | some tau =>
    refine ⟨rfl, rfl, ?_, by simp⟩
    intro _
    have hc := cumTime_spec tau
    have hpos : 0 < (tau.length : Int) := by
      have : tau ≠ [] := fun h => ht0 (by rw [ht, h])
      have := List.length_pos_iff.mpr this
      omega
    exact ⟨_, _, _, _, rfl, rfl, rfl, rfl, hpos, rfl, rfl, hc.1, hc.2⟩

theorem ensureInit_inv [CharZero K] (s : TS K) (h : Inv s) :
    (ensureInit s).2 = .ok () ∧ (ensureInit s).1.initialized = true ∧ Inv (ensureInit s).1 := by
  unfold ensureInit
  cases hi : s.initialized with
  | true => simpa [hi] using h
  | false =>
    simp only [Bool.false_eq_true, if_false]
    exact initTimeslots_inv s (fun _ => (h.2 hi).2.2) (by rw [(h.2 hi).1]; simp)

theorem Inv.num_pos {s : TS K} (h : Inv s) : ∀ n, s.numTslots = some n → 0 < n := by
  intro n hn
  cases hi : s.initialized with
  | true =>
    obtain ⟨n', _, _, _, h1, _, _, _, hp, _⟩ := h.1 hi
    rw [h1] at hn; cases hn; exact hp
  | false => exact (h.2 hi).2.2 n hn

theorem assign_inv [CharZero K] (s s' : TS K) (h : Inv s) (hi : s'.initialized = s.initialized)
    (ht : s'.tau = s.tau) (htm : s'.time = s.time)
    (hn : ∀ n, s'.numTslots = some n → 0 < n) :
    Inv (if s'.initialized then initTimeslots { s' with tau := none }
      else (s', Except.ok ())).1 := by
  cases hsi : s.initialized with
  | true =>
    rw [if_pos (by rw [hi, hsi])]
    exact (initTimeslots_inv { s' with tau := none } (fun _ => hn) (by simp)).2.2
  | false =>
    rw [if_neg (by rw [hi, hsi]; simp)]
    have h2 := h.2 hsi
    refine ⟨fun hc => ?_, fun _ => ⟨ht.trans h2.1, htm.trans h2.2.1, hn⟩⟩
    rw [hi, hsi] at hc; cases hc

/-- Guard of C01: assigned slot counts are positive and assigned `tau` are non-empty. -/
def OpPos : Op K → Prop
  | .setNum (some v) => 0 < v
  | .setTau (some l) => l ≠ []
  | _ => True

theorem step_inv [CharZero K] (s : TS K) (op : Op K) (hop : OpPos op) (h : Inv s) :
    Inv (step s op) := by
  cases op with
  | setNum v =>
    refine assign_inv s { s with numTslots := v } h rfl rfl rfl ?_
    intro n hn
    have : v = some n := hn
    subst this; exact hop
  | setEvo v => exact assign_inv s { s with evoTime := v } h rfl rfl rfl h.num_pos
  | setTau v =>
    refine (initTimeslots_inv { s with tau := v } (fun _ => h.num_pos) ?_).2.2
    intro hc
    have : v = some [] := hc
    subst this; exact hop rfl
  | readNum => exact (ensureInit_inv s h).2.2
  | readEvo => exact (ensureInit_inv s h).2.2
  | readTau => exact (ensureInit_inv s h).2.2
  | initTslots =>
    refine (initTimeslots_inv s (fun _ => h.num_pos) ?_).2.2
    intro hc
    cases hi : s.initialized with
    | true =>
      obtain ⟨n', _, _, _, _, _, h3, _, hp, h4, _⟩ := h.1 hi
      rw [hc] at h3; cases h3; simp at h4; omega
    | false => rw [(h.2 hi).1] at hc; cases hc
  | ampTimes =>
    have h1 := ensureInit_inv s h
    have : step s .ampTimes = (ensureInit s).1 := by
      simp only [step, getAmpTimes]
      revert h1
      rcases ensureInit s with ⟨s', r⟩
      rintro ⟨h1, -, -⟩
      simp only at h1
      subst h1
      cases s.time <;> rfl
    rw [this]; exact h1.2.2

theorem run_inv [CharZero K] (ops : List (Op K)) (h : ∀ op ∈ ops, OpPos op) : Inv (run ops) := by
  suffices ∀ s : TS K, Inv s → Inv (ops.foldl step s) from
    this _ ⟨by simp [TS.fresh], by simp [TS.fresh]⟩
  induction ops with
  | nil => intro s hs; exact hs
  | cons op ops ih =>
    intro s hs
    exact ih (fun o ho => h o (List.mem_cons_of_mem _ ho)) _ (step_inv s op (h op (by simp)) hs)

end QTrl.Timeslots
