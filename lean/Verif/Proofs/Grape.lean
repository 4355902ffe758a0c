import Verif.Model.Grape
import Verif.Proofs.Loop

/-
The stand-alone GRAPE functions: closed forms of the loops.
-/

set_option linter.unusedSectionVars false

namespace QTrl.Grape

variable {d : Type} [Fintype d] [DecidableEq d]

/-! ### Updates -/

open Classical in
/-- The increment as a function of the present amplitude. -/
noncomputable def Args.incr (a : Args d) (i : Impl) (p : Props d) (j m : Nat) (x : ℝ) : ℂ :=
  match i with
  | .py =>
      let du := a.du0 p j m
      let du := if truthy a.alpha then
          du + ((-2 * a.alpha.getD 0 * x * a.dt : ℝ) : ℂ) else du
      if truthy a.beta then du + ((-2 * a.beta.getD 0 * (m : ℝ) * x * a.dt : ℝ) : ℂ) else du
  | .cy =>
      let alpha := orZero a.alpha
      let beta := orZero a.beta
      let du := a.du0 p j m
      let du := if alpha > 0 then du + ((-2 * alpha * x * a.dt : ℝ) : ℂ) else du
      if beta ≠ 0 then du + ((-2 * beta * (m : ℝ) ^ 2 * x * a.dt : ℝ) : ℂ) else du

/-- The new amplitude as a function of the present one. -/
noncomputable def Args.newVal (a : Args d) (i : Impl) (eps : ℝ) (lim : Option (ℝ × ℝ))
    (p : Props d) (j m : Nat) (x : ℝ) : ℝ :=
  clipElif lim (x + eps * (a.incr i p j m x).re)

theorem set_set (u : Arr) (r j m : Nat) (x : ℝ) (f : ℝ → ℝ) :
    (u.set r j m x).set r j m (f ((u.set r j m x) r j m)) = u.set r j m (f x) := by
  funext r' j' m'
  simp only [Arr.set]
  split_ifs <;> simp_all

theorem inner_loop (r j n : Nat) (f : Nat → ℝ → ℝ) (u : Arr) :
    forRange n (fun m (u : Arr) => u.set (r + 1) j m (f m (u r j m))) u
      = fun r' j' m' => if r' = r + 1 ∧ j' = j ∧ m' < n then f m' (u r j m') else u r' j' m' := by
  induction n with
  | zero => funext r' j' m'; simp
  | succ n ih =>
    rw [forRange_succ, ih]
    funext r' j' m'
    simp only [Arr.set]
    rw [if_neg (show ¬ (r = r + 1 ∧ True ∧ n < n) by omega)]
    by_cases h : r' = r + 1 ∧ j' = j ∧ m' = n
    · obtain ⟨rfl, rfl, rfl⟩ := h
      simp
    · rw [if_neg h]
      by_cases h2 : r' = r + 1 ∧ j' = j ∧ m' < n
      · rw [if_pos h2, if_pos (by omega)]
      · rw [if_neg h2, if_neg (by omega)]

/-- The array after an iteration whose new amplitudes are `f j m` of the old ones. -/
def nextArr (J M r : Nat) (f : Nat → Nat → ℝ → ℝ) (u : Arr) : Arr := fun r' j m =>
  if r' = r + 1 ∧ j < J ∧ m < M then f j (min m (M - 2)) (u r j (min m (M - 2))) else u r' j m

theorem py_loop (r J M : Nat) (hM : 2 ≤ M) (f : Nat → Nat → ℝ → ℝ) (u : Arr) :
    forRange J (fun j (u : Arr) =>
      let u := forRange (M - 1) (fun m (u : Arr) => u.set (r + 1) j m (f j m (u r j m))) u
      u.set (r + 1) j (M - 1) (u (r + 1) j (M - 2))) u = nextArr J M r f u := by
  induction J with
  | zero => funext r' j' m'; simp [nextArr]
  | succ J ih =>
    rw [forRange_succ, ih, inner_loop]
    funext r' j' m'
    simp only [Arr.set, nextArr]
    have e0 : ∀ m, ¬ (r = r + 1 ∧ J < J ∧ m < M) := by intro m; omega
    simp only [e0, if_false, true_and]
    rw [if_pos (show M - 2 < M - 1 by omega)]
    by_cases h : r' = r + 1 ∧ j' = J ∧ m' = M - 1
    · obtain ⟨rfl, rfl, rfl⟩ := h
      rw [if_pos ⟨rfl, rfl, rfl⟩, if_pos ⟨rfl, by omega, by omega⟩,
        show min (M - 1) (M - 2) = M - 2 by omega]
    · rw [if_neg h]
      by_cases h2 : r' = r + 1 ∧ j' = J ∧ m' < M - 1
      · obtain ⟨rfl, rfl, h2⟩ := h2
        rw [if_pos ⟨rfl, rfl, h2⟩, if_pos ⟨rfl, by omega, by omega⟩,
          show min m' (M - 2) = m' by omega]
      · rw [if_neg h2]
        by_cases h3 : r' = r + 1 ∧ j' < J ∧ m' < M
        · rw [if_pos h3, if_pos (by omega)]
        · rw [if_neg h3, if_neg (by omega)]

theorem inner_loop_j (r m J : Nat) (f : Nat → ℝ → ℝ) (u : Arr) :
    forRange J (fun j (u : Arr) => u.set (r + 1) j m (f j (u r j m))) u
      = fun r' j' m' => if r' = r + 1 ∧ j' < J ∧ m' = m then f j' (u r j' m) else u r' j' m' := by
  induction J with
  | zero => funext r' j' m'; simp
  | succ J ih =>
    rw [forRange_succ, ih]
    funext r' j' m'
    simp only [Arr.set]
    rw [if_neg (show ¬ (r = r + 1 ∧ J < J ∧ True) by omega)]
    by_cases h : r' = r + 1 ∧ j' = J ∧ m' = m
    · obtain ⟨rfl, rfl, rfl⟩ := h
      simp
    · rw [if_neg h]
      by_cases h2 : r' = r + 1 ∧ j' < J ∧ m' = m
      · rw [if_pos h2, if_pos (by omega)]
      · rw [if_neg h2, if_neg (by omega)]

theorem cy_main (r J n : Nat) (f : Nat → Nat → ℝ → ℝ) (u : Arr) :
    forRange n (fun m (u : Arr) =>
      forRange J (fun j (u : Arr) => u.set (r + 1) j m (f j m (u r j m))) u) u
      = fun r' j' m' => if r' = r + 1 ∧ j' < J ∧ m' < n then f j' m' (u r j' m')
          else u r' j' m' := by
  induction n with
  | zero => funext r' j' m'; simp
  | succ n ih =>
    rw [forRange_succ, ih, inner_loop_j r n J (fun j x => f j n x)]
    funext r' j' m'
    have e0 : ∀ j, ¬ (r = r + 1 ∧ j < J ∧ n < n) := by intro j; omega
    simp only [e0, if_false]
    by_cases h : r' = r + 1 ∧ j' < J ∧ m' = n
    · obtain ⟨rfl, h1, rfl⟩ := h
      simp [h1]
    · rw [if_neg h]
      by_cases h2 : r' = r + 1 ∧ j' < J ∧ m' < n
      · rw [if_pos h2, if_pos (by omega)]
      · rw [if_neg h2, if_neg (by omega)]

theorem cy_tail (r J M : Nat) (hM : 2 ≤ M) (u : Arr) :
    forRange J (fun j (u : Arr) => u.set (r + 1) j (M - 1) (u (r + 1) j (M - 2))) u
      = fun r' j' m' => if r' = r + 1 ∧ j' < J ∧ m' = M - 1 then u (r + 1) j' (M - 2)
          else u r' j' m' := by
  induction J with
  | zero => funext r' j' m'; simp
  | succ J ih =>
    rw [forRange_succ, ih]
    funext r' j' m'
    simp only [Arr.set]
    rw [if_neg (show ¬ (True ∧ J < J ∧ M - 2 = M - 1) by omega)]
    by_cases h : r' = r + 1 ∧ j' = J ∧ m' = M - 1
    · obtain ⟨rfl, rfl, rfl⟩ := h
      simp
    · rw [if_neg h]
      by_cases h2 : r' = r + 1 ∧ j' < J ∧ m' = M - 1
      · rw [if_pos h2, if_pos (by omega)]
      · rw [if_neg h2, if_neg (by omega)]

theorem cy_loop (r J M : Nat) (hM : 2 ≤ M) (f : Nat → Nat → ℝ → ℝ) (u : Arr) :
    (let u := forRange (M - 1) (fun m (u : Arr) =>
      forRange J (fun j (u : Arr) => u.set (r + 1) j m (f j m (u r j m))) u) u
    forRange J (fun j (u : Arr) => u.set (r + 1) j (M - 1) (u (r + 1) j (M - 2))) u)
      = nextArr J M r f u := by
  simp only
  rw [cy_main, cy_tail _ _ _ hM]
  funext r' j' m'
  simp only [nextArr]
  by_cases h : r' = r + 1 ∧ j' < J ∧ m' = M - 1
  · obtain ⟨rfl, h1, rfl⟩ := h
    rw [if_pos ⟨rfl, h1, rfl⟩, if_pos ⟨trivial, h1, by omega⟩, if_pos ⟨rfl, h1, by omega⟩,
      show min (M - 1) (M - 2) = M - 2 by omega]
  · rw [if_neg h]
    by_cases h2 : r' = r + 1 ∧ j' < J ∧ m' < M - 1
    · rw [if_pos h2, if_pos (by omega), show min m' (M - 2) = m' by omega]
    · rw [if_neg h2, if_neg (by omega)]

/-- One iteration of either function. -/
theorem step_eq (a : Args d) (i : Impl) (eps : ℝ) (lim : Option (ℝ × ℝ)) (p : Props d) (r : Nat)
    (u : Arr) (hM : 2 ≤ a.M) :
    a.step i eps lim p r u = nextArr a.J a.M r (a.newVal i eps lim p) u := by
  cases i with
  | py =>
    rw [← py_loop r a.J a.M hM]
    unfold Args.step Args.update
    simp only [set_set _ _ _ _ _ (clipElif lim)]
    rfl
  | cy =>
    rw [← cy_loop r a.J a.M hM]
    unfold Args.step Args.cyUpdate
    simp only [set_set _ _ _ _ _ (clipElif lim)]
    rfl

theorem clipElif_mem (lo hi x : ℝ) (h : lo ≤ hi) :
    lo ≤ clipElif (some (lo, hi)) x ∧ clipElif (some (lo, hi)) x ≤ hi := by
  simp only [clipElif]
  split_ifs <;> constructor <;> linarith

theorem clipSeq_mem (lo hi x : ℝ) (h : lo ≤ hi) :
    lo ≤ clipSeq false lo hi x ∧ clipSeq false lo hi x ≤ hi := by
  unfold clipSeq stored
  simp only [Bool.false_eq_true, if_false]
  split_ifs <;> constructor <;> linarith

/-! ### Iterations -/

/-- The loop over the iterations leaves earlier rows alone. -/
theorem loop_spec (a : Args d) (i : Impl) (eps : ℝ) (lim : Option (ℝ × ℝ)) (hM : 2 ≤ a.M)
    (u : Arr) (n : Nat) :
    let s := forRange n (a.iter i eps lim) ⟨u, none⟩
    (s.u 0 = u 0) ∧
    (∀ r, r < n → ∀ j m, j < a.J → m < a.M →
      s.u (r + 1) j m = a.newVal i eps lim (a.propagators (a.uList (s.u r))) j (min m (a.M - 2))
        (s.u r j (min m (a.M - 2)))) ∧
    (s.fList = if n = 0 then none
      else some (a.propagators (a.uList (s.u (n - 1)))).fList) := by
  induction n with
  | zero => refine ⟨rfl, ?_, rfl⟩; intro r hr; omega
  | succ n ih =>
    rw [forRange_succ]
    obtain ⟨h1, h2, h3⟩ := ih
    generalize forRange n (a.iter i eps lim) ⟨u, none⟩ = s at h1 h2 h3 ⊢
    have keep : ∀ r, r ≤ n → (a.iter i eps lim n s).u r = s.u r := by
      intro r hr
      funext j m
      simp only [Args.iter, step_eq a i eps lim _ n s.u hM, nextArr]
      rw [if_neg (by omega)]
    refine ⟨by rw [keep 0 (by omega), h1], ?_, ?_⟩
    · intro r hr j m hj hm
      rw [keep r (by omega)]
      by_cases hrn : r = n
      · subst hrn
        simp only [Args.iter, step_eq a i eps lim _ r s.u hM, nextArr]
        rw [if_pos ⟨trivial, hj, hm⟩]
      · rw [keep (r + 1) (by omega)]
        exact h2 r (by omega) j m hj hm
    · simp only [Nat.add_sub_cancel]
      rw [keep n (le_refl n)]
      simp [Args.iter]

/-! ### Propagators -/

/-- The product of the first `n` propagators, the last one leftmost. -/
noncomputable def evo (U : Nat → Matrix d d ℂ) : Nat → Matrix d d ℂ
  | 0 => 1
  | n + 1 => U n * evo U n

/-- The product of the propagators from `N - n` to `N - 1`, the last one leftmost. -/
noncomputable def tailEvo (U : Nat → Matrix d d ℂ) (N : Nat) : Nat → Matrix d d ℂ
  | 0 => 1
  | n + 1 => tailEvo U N n * U (N - 1 - n)

theorem evo_split (U : Nat → Matrix d d ℂ) (N n : Nat) (h : n ≤ N) :
    tailEvo U N n * evo U (N - n) = evo U N := by
  induction n with
  | zero => simp [tailEvo]
  | succ n ih =>
    rw [tailEvo, Matrix.mul_assoc, ← ih (by omega)]
    congr 1
    rw [show N - n = (N - (n + 1)) + 1 by omega, evo, show N - 1 - n = N - (n + 1) by omega]

theorem evo_congr (U V : Nat → Matrix d d ℂ) (n : Nat) (h : ∀ k, k < n → U k = V k) :
    evo U n = evo V n := by
  induction n with
  | zero => rfl
  | succ n ih => rw [evo, evo, h n (by omega), ih (fun k hk => h k (by omega))]

theorem tailEvo_congr (U V : Nat → Matrix d d ℂ) (N n : Nat) (hn : n ≤ N)
    (h : ∀ k, k < N → U k = V k) : tailEvo U N n = tailEvo V N n := by
  induction n with
  | zero => rfl
  | succ n ih => rw [tailEvo, tailEvo, h (N - 1 - n) (by omega), ih (by omega)]

theorem uList_getD (a : Args d) (v : Nat → Nat → ℝ) (n : Nat) (h : n < a.M - 1) :
    (a.uList v).getD n 0 = a.slot v n := by
  simp [Args.uList, h]

/-- Forward and backward lists. -/
theorem propagators_spec (a : Args d) (v : Nat → Nat → ℝ) :
    let p := a.propagators (a.uList v)
    let U := a.slot v
    let N := a.M - 1
    p.fList.length = N ∧ p.bList.length = N ∧
    (∀ m, m < N → p.fList[m]? = some (evo U (m + 1))) ∧
    (∀ m, m < N → p.bList[m]? = some (tailEvo U N (N - 1 - m)).conjTranspose) := by
  intro p U N
  have key : ∀ n, n ≤ N →
      let q := forRange n (fun n (p : Props d) =>
        let uf := (a.uList v).getD n 0 * p.uf
        ({ uf := uf
           fList := p.fList ++ [uf]
           bList := p.ub :: p.bList
           ub := ((a.uList v).getD (a.M - 2 - n) 0).conjTranspose * p.ub } : Props d))
        ⟨1, 1, [], []⟩
      q.uf = evo U n ∧ q.ub = (tailEvo U N n).conjTranspose ∧
      q.fList = (List.range n).map (fun k => evo U (k + 1)) ∧
      q.bList = ((List.range n).map (fun k => (tailEvo U N k).conjTranspose)).reverse := by
    intro n
    induction n with
    | zero => intro _; simp [evo, tailEvo]
    | succ n ih =>
      intro hn
      obtain ⟨h1, h2, h3, h4⟩ := ih (by omega)
      rw [forRange_succ]
      generalize forRange n _ _ = q at h1 h2 h3 h4 ⊢
      have e1 : (a.uList v).getD n 0 = U n := uList_getD a v n (by omega)
      have e2 : (a.uList v).getD (a.M - 2 - n) 0 = U (N - 1 - n) := by
        rw [show N - 1 - n = a.M - 2 - n by omega]
        exact uList_getD a v _ (by omega)
      refine ⟨?_, ?_, ?_, ?_⟩
      · simp only [e1, h1, evo]
      · simp only [e2, h2, tailEvo, Matrix.conjTranspose_mul]
      · simp only [e1, h1, h3, List.range_succ, List.map_append, List.map_cons, List.map_nil, evo]
      · simp only [h2, h4, List.range_succ, List.map_append, List.map_cons, List.map_nil,
          List.reverse_append, List.reverse_cons, List.reverse_nil, List.nil_append,
          List.singleton_append]
  obtain ⟨-, -, h3, h4⟩ := key N (le_refl N)
  have e3 : p.fList = (List.range N).map (fun k => evo U (k + 1)) := h3
  have e4 : p.bList = ((List.range N).map (fun k => (tailEvo U N k).conjTranspose)).reverse := h4
  refine ⟨by rw [e3]; simp, by rw [e4]; simp, ?_, ?_⟩
  · intro m hm
    rw [e3]
    simp [hm]
  · intro m hm
    rw [e4, List.getElem?_reverse (by simpa using hm)]
    simp only [List.length_map, List.length_range, List.getElem?_map]
    rw [List.getElem?_range (by omega)]
    rfl

theorem fList_last (a : Args d) (v : Nat → Nat → ℝ) (hM : 2 ≤ a.M) :
    (a.propagators (a.uList v)).fList.getLast? = some (evo (a.slot v) (a.M - 1)) := by
  obtain ⟨h1, -, h3, -⟩ := propagators_spec a v
  rw [List.getLast?_eq_getElem?, h1, h3 (a.M - 1 - 1) (by omega),
    show a.M - 1 - 1 + 1 = a.M - 1 by omega]

end QTrl.Grape
