import Verif.Model.Controls
import Verif.Proofs.Recompute

/-
C48: validation of the control container.  C50: the combined generator and the two names
for generators of unitary dynamics.
-/

set_option linter.unusedSectionVars false

open Matrix

namespace QTrl.Ctrl

variable {d : Type}

/-- `l` consists of the operators `f 0`, …, `f (n-1)`. -/
def IsOps (l : List (PyVal d)) (n : Nat) (f : Nat → Matrix d d ℂ) : Prop :=
  l.length = n ∧ ∀ j, j < n → l[j]? = some (.qobj (f j))

theorem isOps_all {l : List (PyVal d)} {n : Nat} {f : Nat → Matrix d d ℂ} (h : IsOps l n f) :
    l.all PyVal.isQobj = true := by
  rw [List.all_eq_true]
  intro x hx
  obtain ⟨i, hi, rfl⟩ := List.getElem_of_mem hx
  have := h.2 i (h.1 ▸ hi)
  rw [List.getElem?_eq_getElem hi] at this
  rw [Option.some.inj this]
  rfl

/-- **C48.** A list (or tuple) of operators is accepted, the number of controls is its
length and control `j` is its entry `j` in every slot. -/
theorem C48_list (odd : PyVal d → Nat → Except PyErr (Nat → PyVal d)) {l : List (PyVal d)}
    {n : Nat} {f : Nat → Matrix d d ℂ} (h : IsOps l n f) :
    checkCtrls odd (.list l) = .ok (.list l) ∧ numCtrls (.list l) = (n, false) ∧
      ∀ k j, j < n → ctrlAt (.list l) k j = some (f j) := by
  refine ⟨?_, by simp [numCtrls, h.1], fun k j hj => by simp [ctrlAt, h.2 j hj]⟩
  have ha := isOps_all h
  unfold checkCtrls
  split
  · rename_i r0 rs heq
    cases heq
    simp [PyVal.isQobj] at ha
  · simp [checkElems, ha]

theorem assignRows_ok (odd : PyVal d → Nat → Except PyErr (Nat → PyVal d)) {c : Nat}
    (rows : List (List (PyVal d))) (f : Nat → Nat → Matrix d d ℂ)
    (h : ∀ k r, rows[k]? = some r → IsOps r c (f k)) :
    ∃ a, assignRows odd c (rows.map .list) = .ok a ∧
      ∀ k j, k < rows.length → j < c → a k j = .qobj (f k j) := by
  induction rows generalizing f with
  | nil => exact ⟨_, rfl, fun k j hk => absurd hk (by simp)⟩
  | cons r rs ih =>
    obtain ⟨a, ha, hv⟩ := ih (fun k => f (k + 1)) (fun k r' hr => h (k + 1) r' hr)
    have hr := h 0 r rfl
    refine ⟨consRow (fun j => (r[j]?).getD .other) a, ?_, ?_⟩
    · simp only [List.map_cons, assignRows, assignRow, hr.1, if_true, ha]
    · intro k j hk hj
      cases k with
      | zero => simp [consRow, hr.2 j hj]
      | succ k => exact hv k j (by simpa using hk) hj

/-- **C48.** A rectangular list of lists of operators (slots × controls) is accepted; the
number of controls is the number of columns and the control of slot `k` is the entry
`[k][j]`. -/
theorem C48_rectangular (odd : PyVal d → Nat → Except PyErr (Nat → PyVal d)) {c : Nat}
    (rows : List (List (PyVal d))) (f : Nat → Nat → Matrix d d ℂ) (hne : rows ≠ [])
    (h : ∀ k r, rows[k]? = some r → IsOps r c (f k)) :
    ∃ w, checkCtrls odd (.list (rows.map .list)) = .ok w ∧ numCtrls w = (c, true) ∧
      ∀ k j, k < rows.length → j < c → ctrlAt w k j = some (f k j) := by
  obtain ⟨a, ha, hv⟩ := assignRows_ok odd rows f h
  obtain ⟨r0, rs, rfl⟩ := List.exists_cons_of_ne_nil hne
  have hl : r0.length = c := (h 0 r0 rfl).1
  refine ⟨.array [rs.length + 1, c] a, ?_, rfl, ?_⟩
  · simp only [List.map_cons] at ha
    simp only [List.map_cons, checkCtrls, hl, ha, checkElems, List.length_map]
    rw [if_pos]
    intro k hk j hj
    rw [hv k j (by simpa using hk) hj]
    rfl
  · intro k j hk hj
    simp [ctrlAt, hv k j hk hj]

/-- **C48.** A two-dimensional array is accepted exactly if all its elements are operators;
the number of controls is the number of its columns. -/
theorem C48_array (odd : PyVal d → Nat → Except PyErr (Nat → PyVal d)) (n c : Nat)
    (elem : Nat → Nat → PyVal d) :
    ((∃ w, checkCtrls odd (.array [n, c] elem) = .ok w) ↔
      ∀ k, k < n → ∀ j, j < c → ∃ A, elem k j = .qobj A) ∧
    ∀ w, checkCtrls odd (.array [n, c] elem) = .ok w →
      w = .array [n, c] elem ∧ numCtrls w = (c, true) := by
  have hq : ∀ v : PyVal d, v.isQobj = true ↔ ∃ A, v = .qobj A := by
    intro v
    cases v <;> simp [PyVal.isQobj]
  simp only [← hq, checkCtrls, checkElems]
  by_cases h : ∀ k, k < n → ∀ j, j < c → (elem k j).isQobj = true
  · rw [if_pos h]
    refine ⟨⟨fun _ => h, fun _ => ⟨_, rfl⟩⟩, fun w hw => ?_⟩
    cases hw
    exact ⟨rfl, rfl⟩
  · rw [if_neg h]
    exact ⟨⟨fun ⟨w, hw⟩ => (by cases hw), fun h' => absurd h' h⟩, fun w hw => (by cases hw)⟩

/-- **C48.** Everything else is rejected with `TypeError`: anything that is not a list or an
array (including a single operator), arrays of another dimension, and lists containing
something that is neither an operator nor (in first position) a list. -/
theorem C48_rejected (odd : PyVal d → Nat → Except PyErr (Nat → PyVal d)) :
    (∀ A, checkCtrls odd (.qobj A : PyVal d) = .error .typeError) ∧
    checkCtrls odd (.other : PyVal d) = .error .typeError ∧
    (∀ shape elem, shape.length ≠ 2 → checkCtrls odd (.array shape elem) = .error .typeError) ∧
    ∀ l : List (PyVal d), (∀ r, l.head? ≠ some (.list r)) → (∃ v ∈ l, v.isQobj = false) →
      checkCtrls odd (.list l) = .error .typeError := by
  refine ⟨fun _ => rfl, rfl, fun shape elem hs => ?_, fun l hl ⟨v, hv, hq⟩ => ?_⟩
  · unfold checkCtrls checkElems
    rcases shape with _ | ⟨a, _ | ⟨b, _ | ⟨c, r⟩⟩⟩
    · rfl
    · rfl
    · exact absurd rfl hs
    · rfl
  · unfold checkCtrls
    split
    · rename_i r0 rs heq
      cases heq
      exact absurd rfl (hl r0)
    · have : ¬ l.all PyVal.isQobj = true := by
        rw [List.all_eq_true]
        intro h
        rw [h v hv] at hq
        cases hq
      simp [checkElems, this]

/-- **C48.** A drift is accepted exactly if it is an operator or a list of operators, and refused
with `TypeError` otherwise: so is an array, although one is accepted for the controls. -/
theorem C48_drift (v : PyVal d) :
    (checkDrift v = .ok () ↔ (∃ A, v = .qobj A) ∨
      ∃ l, v = .list l ∧ ∀ w ∈ l, ∃ A, w = .qobj A) ∧
    (checkDrift v ≠ .ok () → checkDrift v = .error .typeError) := by
  have hq : ∀ v : PyVal d, v.isQobj = true ↔ ∃ A, v = .qobj A := by
    intro v
    cases v <;> simp [PyVal.isQobj]
  cases v with
  | qobj A => simp [checkDrift]
  | list l =>
    have hc : checkDrift (.list l) = if l.all PyVal.isQobj then .ok () else .error .typeError := rfl
    rw [hc]
    by_cases h : l.all PyVal.isQobj = true
    · rw [if_pos h]
      rw [List.all_eq_true] at h
      exact ⟨⟨fun _ => .inr ⟨l, rfl, fun w hw => (hq w).1 (h w hw)⟩, fun _ => rfl⟩,
        fun h => absurd rfl h⟩
    · rw [if_neg h]
      refine ⟨⟨fun h => (by cases h), ?_⟩, fun _ => rfl⟩
      rintro (⟨A, hA⟩ | ⟨l', hl, hw⟩)
      · cases hA
      · cases hl
        exact absurd (List.all_eq_true.2 fun w hw' => (hq w).2 (hw w hw')) h
  | array shape elem => simp [checkDrift]
  | other => simp [checkDrift]

/-- A list of two operators is accepted, one with a number in it is not. -/
example (A B : Matrix d d ℂ) : checkDrift (.list [.qobj A, .qobj B]) = .ok () ∧
    checkDrift (.list [.qobj A, .other] : PyVal d) = .error .typeError := ⟨rfl, rfl⟩

/-- A list of lists is accepted only if every row has as many entries as the first or
exactly one entry. -/
theorem C48_rows_partial (odd : PyVal d → Nat → Except PyErr (Nat → PyVal d))
    (rows : List (List (PyVal d))) (r0 : List (PyVal d)) (w : PyVal d)
    (h : checkCtrls odd (.list (.list r0 :: rows.map .list)) = .ok w) :
    (∀ r ∈ rows, r.length = r0.length ∨ r.length = 1) ∧
      numCtrls w = (r0.length, true) := by
  unfold checkCtrls at h
  simp only at h
  have key : ∀ (rs : List (List (PyVal d))) c a, assignRows odd c (rs.map .list) = .ok a →
      ∀ r ∈ rs, r.length = c ∨ r.length = 1 := by
    intro rs c
    induction rs with
    | nil => intro a _ r hr; cases hr
    | cons r1 rs ih =>
      intro a ha r hr
      simp only [List.map_cons, assignRows] at ha
      split at ha
      · cases ha
      · rename_i row hrow
        split at ha
        · cases ha
        · rename_i rs' hrs
          rcases List.mem_cons.1 hr with rfl | hr
          · unfold assignRow at hrow
            simp only at hrow
            split at hrow
            · left; assumption
            · split at hrow
              · right; rfl
              · cases hrow
          · exact ih _ hrs r hr
  split at h
  · cases h
  · rename_i a ha
    have ha' := key (r0 :: rows) r0.length a ha
    refine ⟨fun r hr => ha' r (List.mem_cons_of_mem _ hr), ?_⟩
    simp only [checkElems] at h
    split at h
    · cases h; rfl
    · cases h

/-- **C48 is violated** for ragged lists: a later row with a single operator is silently
used for all controls of that slot. -/
theorem C48_violated_ragged (odd : PyVal d → Nat → Except PyErr (Nat → PyVal d))
    (A B C : Matrix d d ℂ) :
    ∃ w, checkCtrls odd (.list [.list [.qobj A, .qobj B], .list [.qobj C]]) = .ok w ∧
      numCtrls w = (2, true) ∧ ctrlAt w 1 0 = some C ∧ ctrlAt w 1 1 = some C := by
  refine ⟨.array [2, 2] (consRow (fun j => ([PyVal.qobj A, .qobj B][j]?).getD .other)
    (consRow (fun _ => .qobj C) fun _ _ => .other)), ?_, rfl, rfl, rfl⟩
  simp only [checkCtrls, assignRows, assignRow, List.length_cons, List.length_nil, if_true,
    checkElems]
  simp only [show ¬ 0 + 1 = 0 + 1 + 1 by omega, if_false]
  rw [if_pos]
  intro k hk j hj
  match k, j, hk, hj with
  | 0, 0, _, _ => rfl
  | 0, 1, _, _ => rfl
  | 1, _, _, _ => rfl

/-- A list without controls is accepted. -/
theorem C48_empty_accepted (odd : PyVal d → Nat → Except PyErr (Nat → PyVal d)) :
    checkCtrls odd (.list [] : PyVal d) = .ok (.list []) ∧ (numCtrls (.list [] : PyVal d)).1 = 0 :=
  ⟨rfl, rfl⟩

/-- **C48 is violated** on reconfiguration: the number of controls is computed once.  After
an initialisation with one control, an object given two controls and initialised again
still has one. -/
theorem C48_violated_stale (odd : PyVal d → Nat → Except PyErr (Nat → PyVal d))
    (A B C : Matrix d d ℂ) :
    let s : CtrlState d := { ctrls := .list [.qobj A] }
    let s := ((s.init odd).1.set (.list [.qobj B, .qobj C]))
    (s.init odd).2 = .ok 1 ∧ numCtrls s.ctrls = (2, false) := by
  simp [CtrlState.init, CtrlState.readNum, CtrlState.set, checkCtrls, checkElems, PyVal.isQobj,
    numCtrls]

/-- The first initialisation does use the number of controls of the container. -/
theorem C48_first_init (odd : PyVal d → Nat → Except PyErr (Nat → PyVal d)) (v w : PyVal d)
    (h : checkCtrls odd v = .ok w) (h2 : checkCtrls odd w = .ok w) :
    (CtrlState.init odd { ctrls := v }).2 = .ok (numCtrls w).1 := by
  simp [CtrlState.init, CtrlState.readNum, h, h2]

/-! ### C50 -/

section
open QTrl.Dyn
variable {m D : Type} [Fintype d] [DecidableEq d] [Fintype m] [DecidableEq m]

/-- **C50.** The generator of a slot is the drift plus the controls weighted with the
amplitudes. -/
theorem C50_generator (S : Sys d m D) (amps : Amps) (k : Nat) :
    combineDynGen S amps k =
      S.drift k + ∑ j ∈ Finset.range S.nCtrls, (amps k j : ℂ) • S.ctrl k j :=
  combineDynGen_spec S amps k

/-- **C50.** It is affine in the amplitudes. -/
theorem C50_affine (S : Sys d m D) (a b : Amps) (t : ℝ) (k : Nat) :
    combineDynGen S (fun k j => (1 - t) * a k j + t * b k j) k =
      ((1 - t : ℝ) : ℂ) • combineDynGen S a k + (t : ℂ) • combineDynGen S b k := by
  simp only [C50_generator, smul_add, Finset.smul_sum, smul_smul]
  rw [add_add_add_comm, ← add_smul, ← Finset.sum_add_distrib]
  congr 1
  · push_cast; simp
  · refine Finset.sum_congr rfl fun j _ => ?_
    rw [← add_smul]
    push_cast
    rfl

end

/-- **C50.** With either name alone, the first initialisation uses the value set last, and
both names then show it. -/
theorem C50_interchangeable_partial {V : Type} (vs : List V) (v : V) :
    (namesRun ((vs.map .setHam) ++ [.setHam v, .init])).used = some v ∧
    (namesRun ((vs.map .setDynGen) ++ [.setDynGen v, .init])).used = some v ∧
    (namesRun ((vs.map .setHam) ++ [.setHam v, .init])).dynGen = some v ∧
    (namesRun ((vs.map .setDynGen) ++ [.setDynGen v, .init])).ham = some v := by
  have h1 : ∀ (vs : List V) (s : Names V), s.dynGen = none →
      ((vs.map NameOp.setHam).foldl Names.step s).dynGen = none := by
    intro vs
    induction vs with
    | nil => intro s h; exact h
    | cons v vs ih => intro s h; exact ih _ h
  unfold namesRun
  simp only [List.foldl_append, List.foldl_cons, List.foldl_nil]
  have h2 := h1 vs {} rfl
  generalize List.foldl Names.step {} (vs.map NameOp.setHam) = s at h2
  refine ⟨?_, rfl, ?_, rfl⟩ <;> simp [Names.step, Names.map, h2]

/-- With the generator names, every later initialisation uses the value set last. -/
theorem C50_dyn_gen_partial {V : Type} (ops : List (NameOp V)) (v : V) :
    (namesRun (ops ++ [.setDynGen v, .init])).used = some v := by
  unfold namesRun
  simp only [List.foldl_append, List.foldl_cons, List.foldl_nil]
  rfl

/-- **C50 is violated** by the Hamiltonian names on reconfiguration: once an initialisation
has happened, a newly set Hamiltonian is ignored (and overwritten). -/
theorem C50_violated {V : Type} (v w : V) :
    (namesRun [.setHam v, .init, .setHam w, .init]).used = some v ∧
    (namesRun [.setHam v, .init, .setHam w, .init]).ham = some v ∧
    (namesRun [.setDynGen v, .init, .setDynGen w, .init]).used = some w := ⟨rfl, rfl, rfl⟩

/-! ### Non-vacuity -/

example (A B : Matrix (Fin 2) (Fin 2) ℂ) :
    IsOps [.qobj A, .qobj B] 2 (fun j => if j = 0 then A else B) :=
  ⟨rfl, fun j hj => by match j, hj with
    | 0, _ => rfl
    | 1, _ => rfl⟩

end QTrl.Ctrl
