import Verif.Spec.StatsReport
import Mathlib.Tactic.Linarith
import Mathlib.Tactic.Ring
import Mathlib.Tactic.FieldSimp
import Mathlib.Tactic.Positivity
import Mathlib.Algebra.Order.Round
import Mathlib.Tactic.NormNum

/-
Reading back what the report prints.
-/

namespace QTrl.Stats

open QTrl.Spec.StatsReport

theorem cut_found {c : Char} {a b : Text} (h : c ∉ a) : cut c (a ++ c :: b) = (a, some b) := by
  induction a with
  | nil => simp [cut]
  | cons x xs ih =>
    simp only [List.mem_cons, not_or] at h
    simp [cut, ih h.2, Ne.symm h.1]

theorem cut_missing {c : Char} {a : Text} (h : c ∉ a) : cut c a = (a, none) := by
  induction a with
  | nil => simp [cut]
  | cons x xs ih =>
    simp only [List.mem_cons, not_or] at h
    simp [cut, ih h.2, Ne.symm h.1]

theorem isDigit_dec {n : Nat} {c : Char} (h : c ∈ dec n) : c.isDigit :=
  Nat.isDigit_of_mem_toDigits (by decide) (by decide) h

theorem isDigit_padZero {w n : Nat} {c : Char} (h : c ∈ padZero w (dec n)) : c.isDigit := by
  rcases List.mem_append.1 h with h | h
  · rw [(List.mem_replicate.1 h).2]; decide
  · exact isDigit_dec h

theorem not_mem_dec {c : Char} (hc : c.isDigit = false) (n : Nat) : c ∉ dec n := fun h => by
  rw [isDigit_dec h] at hc; cases hc

theorem not_mem_padZero {c : Char} (hc : c.isDigit = false) (w n : Nat) :
    c ∉ padZero w (dec n) := fun h => by
  rw [isDigit_padZero h] at hc; cases hc

theorem dec_ne_nil (n : Nat) : dec n ≠ [] := Nat.toDigits_ne_nil

theorem readNat_padZero (w n : Nat) : readNat (padZero w (dec n)) = some n := by
  have h : padZero w (dec n) ≠ [] ∧ (padZero w (dec n)).all Char.isDigit := by
    refine ⟨by simp [padZero, dec_ne_nil], List.all_eq_true.2 fun c hc => isDigit_padZero hc⟩
  unfold readNat
  rw [if_pos h, ← Nat.ofDigitChars_eq_foldl]
  unfold padZero dec
  rw [Nat.ofDigitChars_append, Nat.ofDigitChars_replicate_zero, Nat.mul_zero,
    Nat.ofDigitChars_toDigits (by decide) (by decide)]

theorem readNat_dec (n : Nat) : readNat (dec n) = some n := by
  have := readNat_padZero 0 n
  simpa [padZero] using this

theorem readInt_decInt (n : Int) : readInt (decInt n) = some n := by
  unfold decInt
  split
  · rename_i h
    simp only [readInt, readNat_dec, Option.map_some, Option.some.injEq, Int.ofNat_eq_natCast]
    omega
  · rename_i h
    have : readInt (dec n.natAbs) = (readNat (dec n.natAbs)).map Int.ofNat := by
      cases hd : dec n.natAbs with
      | nil => exact absurd hd (dec_ne_nil _)
      | cons x xs =>
        have hx : x.isDigit := isDigit_dec (n := n.natAbs) (by rw [hd]; simp)
        unfold readInt
        split
        · rename_i he
          cases he
          exact absurd hx (by decide)
        · rfl
    rw [this, readNat_dec]
    simp only [Option.map_some, Option.some.injEq, Int.ofNat_eq_natCast]
    omega

theorem length_padZero {w n : Nat} (hw : 0 < w) (h : n < 10 ^ w) :
    (padZero w (dec n)).length = w := by
  have : (dec n).length ≤ w := (Nat.length_toDigits_le_iff (by decide) hw).2 h
  simp [padZero]
  omega

/-- The clock part of a duration. -/
def clock (secs us : Nat) : Text :=
  let s := dec (secs / 60 / 60) ++ ':' :: padZero 2 (dec (secs / 60 % 60)) ++
    ':' :: padZero 2 (dec (secs % 60))
  if us ≠ 0 then s ++ '.' :: padZero 6 (dec us) else s

theorem strTimedelta_eq (d : Int × Nat × Nat) : strTimedelta d =
    (if d.1 ≠ 0 then
      decInt d.1 ++ (if d.1.natAbs = 1 then " day, ".toList else " days, ".toList) else []) ++
    clock d.2.1 d.2.2 := by
  obtain ⟨n, s, u⟩ := d
  unfold strTimedelta clock
  generalize " day, ".toList = a
  generalize " days, ".toList = b
  simp only
  by_cases h1 : n = 0
  · by_cases h2 : u = 0
    · rw [if_neg (not_not.2 h1), if_neg (not_not.2 h2), if_neg (not_not.2 h1), List.nil_append]
    · rw [if_neg (not_not.2 h1), if_pos h2, if_neg (not_not.2 h1), List.nil_append]
  · by_cases h2 : u = 0
    · rw [if_pos h1, if_neg (not_not.2 h2), if_pos h1, if_neg (not_not.2 h2)]
    · rw [if_pos h1, if_pos h2, if_pos h1, if_pos h2, List.append_assoc]

theorem readClock_clock (secs us : Nat) (h : us < 1000000) :
    readClock (clock secs us) = some (secs * 1000000 + us) := by
  have n1 : ':' ∉ dec (secs / 60 / 60) := not_mem_dec (by decide) _
  have n2 : ':' ∉ padZero 2 (dec (secs / 60 % 60)) := not_mem_padZero (by decide) _ _
  have n3 : '.' ∉ padZero 2 (dec (secs % 60)) := not_mem_padZero (by decide) _ _
  have e : (secs / 60 / 60 * 60 + secs / 60 % 60) * 60 + secs % 60 = secs := by omega
  by_cases hu : us = 0
  · have : clock secs us = dec (secs / 60 / 60) ++ ':' :: (padZero 2 (dec (secs / 60 % 60)) ++
        ':' :: padZero 2 (dec (secs % 60))) := by simp [clock, hu]
    unfold readClock
    rw [this, cut_found n1]
    simp only
    rw [cut_found n2]
    simp only [cut_missing n3, readNat_dec, readNat_padZero, e]
    rw [hu, Nat.add_zero]
  · have : clock secs us = dec (secs / 60 / 60) ++ ':' :: (padZero 2 (dec (secs / 60 % 60)) ++
        ':' :: (padZero 2 (dec (secs % 60)) ++ '.' :: padZero 6 (dec us))) := by simp [clock, hu]
    unfold readClock
    rw [this, cut_found n1]
    simp only
    rw [cut_found n2]
    simp only [cut_found n3, readNat_dec, readNat_padZero, e, length_padZero (w := 6) (by decide) h,
      if_true, Option.map_some]

theorem not_mem_clock {c : Char} (hc : c.isDigit = false) (h1 : c ≠ ':') (h2 : c ≠ '.')
    (secs us : Nat) : c ∉ clock secs us := by
  unfold clock
  split <;> simp [not_mem_dec hc, not_mem_padZero hc, h1, h2]

theorem not_mem_decInt {c : Char} (hc : c.isDigit = false) (h : c ≠ '-') (n : Int) :
    c ∉ decInt n := by
  unfold decInt
  split <;> simp [not_mem_dec hc, h]

theorem readDuration_str (d : Int × Nat × Nat) (h : d.2.2 < 1000000) :
    readDuration (strTimedelta d) = some (d.1 * 86400000000 + d.2.1 * 1000000 + d.2.2) := by
  rw [strTimedelta_eq]
  by_cases h0 : d.1 = 0
  · simp only [h0, ne_eq, not_true_eq_false, if_false, List.nil_append, readDuration]
    rw [cut_missing (not_mem_clock (by decide) (by decide) (by decide) _ _)]
    simp only [readClock_clock _ _ h, Option.map_some, Option.some.injEq, Int.ofNat_eq_natCast]
    push_cast
    ring
  · have : ∃ w : Text, ',' ∉ w ∧
        (if d.1 ≠ 0 then
          decInt d.1 ++ (if d.1.natAbs = 1 then " day, ".toList else " days, ".toList) else []) ++
          clock d.2.1 d.2.2 = (decInt d.1 ++ ' ' :: w) ++ ',' :: ' ' :: clock d.2.1 d.2.2 := by
      by_cases h1 : d.1.natAbs = 1
      · exact ⟨"day".toList, by decide, by simp [h0, h1]⟩
      · exact ⟨"days".toList, by decide, by simp [h0, h1]⟩
    obtain ⟨w, hw, e⟩ := this
    have hn : ',' ∉ decInt d.1 ++ ' ' :: w := by
      simp [not_mem_decInt, hw]
    have hs : ' ' ∉ decInt d.1 := not_mem_decInt (by decide) (by decide) _
    unfold readDuration
    rw [e, cut_found hn]
    simp only [cut_found hs, readInt_decInt, List.drop_succ_cons, List.drop_zero,
      readClock_clock _ _ h, Option.some.injEq]
    push_cast
    ring

/-! ### Rounding -/

theorem roundEven_near (q : Rat) : |q - roundEven q| ≤ 1 / 2 := by
  have h0 := Int.floor_le q
  have h1 := Int.lt_floor_add_one q
  unfold roundEven
  simp only
  split_ifs with a b c <;> rw [abs_le] <;> push_cast <;> constructor <;> linarith

theorem roundEven_nonneg {q : Rat} (h : 0 ≤ q) : 0 ≤ roundEven q := by
  have := Int.floor_nonneg.2 h
  unfold roundEven
  simp only
  split_ifs <;> omega

theorem timedelta_ok {t : Rat} {d : Int × Nat × Nat} (h : timedelta t = .ok d) :
    d.2.2 < 1000000 ∧ d.2.1 < 86400 ∧
      d.1 * 86400000000 + d.2.1 * 1000000 + d.2.2 = roundEven (t * 1000000) := by
  unfold timedelta at h
  simp only at h
  split_ifs at h
  cases h
  simp only
  generalize roundEven (t * 1000000) = u
  have h1 := Int.emod_nonneg u (b := 86400000000) (by decide)
  have h2 := Int.emod_lt_of_pos u (b := 86400000000) (by decide)
  have h3 := Int.mul_ediv_add_emod u 86400000000
  obtain ⟨r, hr⟩ := Int.eq_ofNat_of_zero_le h1
  rw [hr] at h2 h3 ⊢
  simp only [Int.toNat_natCast]
  refine ⟨Nat.mod_lt _ (by decide), ?_, ?_⟩
  · omega
  · omega

theorem timedelta_inRange {t : Rat} (h : InRange t) : ∃ d, timedelta t = .ok d := by
  have h1 := roundEven_near (t * 1000000)
  have h2 := roundEven_nonneg (q := t * 1000000) (by have := h.1; positivity)
  have h3 : roundEven (t * 1000000) ≤ 86399999999999000000 := by
    have := (abs_le.1 h1).1
    have h4 : (roundEven (t * 1000000) : Rat) < 86399999999999000001 := by
      have := h.2
      linarith
    have : roundEven (t * 1000000) < 86399999999999000001 := by exact_mod_cast h4
    omega
  unfold timedelta
  simp only
  rw [if_neg (by omega)]
  exact ⟨_, rfl⟩

theorem near_of_ok {t : Rat} {d : Int × Nat × Nat} (h : timedelta t = .ok d) :
    ∃ us : Int, readDuration (strTimedelta d) = some us ∧ |t - us / 1000000| ≤ 1 / 2000000 := by
  obtain ⟨h1, -, h3⟩ := timedelta_ok h
  refine ⟨_, readDuration_str d h1, ?_⟩
  rw [h3]
  have h4 := abs_le.1 (roundEven_near (t * 1000000))
  rw [abs_le]
  constructor
  · have := h4.1; linarith
  · have := h4.2; linarith

/-! ### Percentages -/

theorem readHundredths_fixed2 (q : Rat) :
    ∃ x, readHundredths (fixed2 q) = some x ∧ |q - x| ≤ 1 / 200 := by
  have hn := roundEven_nonneg (q := |q| * 100) (by positivity)
  have hr := abs_le.1 (roundEven_near (|q| * 100))
  obtain ⟨h, hh⟩ := Int.eq_ofNat_of_zero_le hn
  have e : ((h / 100 : Nat) : Rat) + ((h % 100 : Nat) : Rat) / 100 = h / 100 := by
    have : ((h : Nat) : Rat) = 100 * (h / 100 : Nat) + (h % 100 : Nat) := by
      exact_mod_cast (Nat.div_add_mod h 100).symm
    rw [this]
    ring
  have hm : h % 100 < 100 := Nat.mod_lt _ (by decide)
  have n1 : '.' ∉ dec (h / 100) := not_mem_dec (by decide) _
  have n2 : '-' ∉ dec (h / 100) := not_mem_dec (by decide) _
  rw [hh] at hr
  simp only [Int.cast_natCast] at hr
  by_cases hq : q < 0
  · refine ⟨-((h : Rat) / 100), ?_, ?_⟩
    · unfold fixed2 readHundredths readUnsigned
      simp only [hh, if_pos hq, List.cons_append, List.nil_append, Int.toNat_natCast]
      rw [cut_found n1]
      simp only [readNat_dec, readNat_padZero, if_pos hm, e, Option.map_some]
    · rw [abs_of_neg hq] at hr
      rw [abs_le]
      constructor <;> linarith [hr.1, hr.2]
  · refine ⟨(h : Rat) / 100, ?_, ?_⟩
    · have : fixed2 q = dec (h / 100) ++ '.' :: padZero 2 (dec (h % 100)) := by
        unfold fixed2
        simp only [hh, if_neg hq, List.nil_append, Int.toNat_natCast]
      rw [this]
      unfold readHundredths
      split
      · rename_i t' he
        exfalso
        cases hd : dec (h / 100) with
        | nil => exact dec_ne_nil _ hd
        | cons x xs =>
          rw [hd] at he n2
          simp only [List.cons_append, List.cons.injEq] at he
          exact n2 (by simp [he.1])
      · unfold readUnsigned
        rw [cut_found n1]
        simp only [readNat_dec, readNat_padZero, if_pos hm, e]
    · rw [abs_of_nonneg (not_lt.1 hq)] at hr
      rw [abs_le]
      constructor <;> linarith [hr.1, hr.2]

theorem not_mem_fixed2 {c : Char} (hc : c.isDigit = false) (h1 : c ≠ '-') (h2 : c ≠ '.')
    (q : Rat) : c ∉ fixed2 q := by
  unfold fixed2
  simp only
  split <;> simp [not_mem_dec hc, not_mem_padZero hc, h1, h2]

theorem not_mem_str (d : Int × Nat × Nat) : '(' ∉ strTimedelta d := by
  rw [strTimedelta_eq]
  simp only [List.mem_append, not_or]
  refine ⟨?_, not_mem_clock (by decide) (by decide) (by decide) _ _⟩
  split
  · simp only [List.mem_append, not_or]
    refine ⟨not_mem_decInt (by decide) (by decide) _, ?_⟩
    split <;> decide
  · simp

theorem parts_share (d : Int × Nat × Nat) (q : Rat) :
    parts (strTimedelta d ++ " (".toList ++ fixed2 q ++ "%)".toList) =
      (strTimedelta d, some (fixed2 q)) := by
  have e : strTimedelta d ++ " (".toList ++ fixed2 q ++ "%)".toList =
      (strTimedelta d ++ [' ']) ++ '(' :: (fixed2 q ++ '%' :: [')']) := by simp
  have n1 : '(' ∉ strTimedelta d ++ [' '] := by simp [not_mem_str]
  unfold parts
  rw [e, cut_found n1]
  simp only [List.dropLast_concat, cut_found (not_mem_fixed2 (c := '%') (by decide) (by decide)
    (by decide) q)]

theorem parts_plain (d : Int × Nat × Nat) :
    parts (strTimedelta d) = (strTimedelta d, none) := by
  unfold parts
  rw [cut_missing (not_mem_str d)]

theorem formatDatetime_shows {t tot : Rat} {x : Text} (h : formatDatetime t tot = .ok x) :
    ShowsTime t tot x := by
  unfold formatDatetime at h
  split at h
  · cases h
  · rename_i d hd
    split at h
    · rename_i ht
      cases h
      refine ⟨?_, ?_, ?_⟩
      · rw [parts_share]
        exact near_of_ok hd
      · rw [parts_share]
        exact ⟨fun _ => ht, fun _ => rfl⟩
      · rw [parts_share]
        rintro p ⟨⟩
        exact readHundredths_fixed2 _
    · rename_i ht
      cases h
      refine ⟨?_, ?_, ?_⟩
      · rw [parts_plain]
        exact near_of_ok hd
      · rw [parts_plain]
        exact ⟨fun h => absurd h (by simp), fun h => absurd h ht⟩
      · rw [parts_plain]
        rintro p ⟨⟩

theorem formatDatetime_inRange {t : Rat} (h : InRange t) (tot : Rat) :
    ∃ x, formatDatetime t tot = .ok x := by
  obtain ⟨d, hd⟩ := timedelta_inRange h
  unfold formatDatetime
  rw [hd]
  simp only
  split <;> exact ⟨_, rfl⟩

/-! ### Labels -/

/-- Two texts differ within their common length. -/
def clash : Text → Text → Bool
  | x :: xs, y :: ys => x != y || clash xs ys
  | _, _ => false

theorem clash_append : ∀ {a b : Text}, clash a b = true → ∀ x : Text, a.isPrefixOf (b ++ x) = false
  | [], _, h, _ => by simp [clash] at h
  | _ :: _, [], h, _ => by simp [clash] at h
  | p :: ps, q :: qs, h, x => by
    simp only [clash, Bool.or_eq_true, bne_iff_ne, ne_eq] at h
    simp only [List.cons_append, List.isPrefixOf, Bool.and_eq_false_iff]
    rcases h with h | h
    · left; simpa using h
    · right; exact clash_append h x

/-- A line that cannot be taken for one with the label. -/
def apart (k : Text) (e : Text × Text) : Bool := clash k e.1 || (e.1.isEmpty && e.2.isEmpty)

/-- If only one line of a list is not apart from a label, then the list shows its value. -/
theorem shows_of_apart {l : List (Text × Text)} {k : Text} (hk : k ≠ []) {v : Text}
    (h : l.filter (fun e => !apart k e) = [(k, v)]) :
    (l.map fun e => e.1 ++ e.2).filter (k.isPrefixOf ·) = [k ++ v] := by
  have h1 : ∀ e : Text × Text, k.isPrefixOf (e.1 ++ e.2) = true → apart k e = false := by
    intro e he
    by_contra ha
    rw [Bool.not_eq_false, apart, Bool.or_eq_true] at ha
    rcases ha with ha | ha
    · rw [clash_append ha] at he; cases he
    · rw [Bool.and_eq_true, List.isEmpty_iff, List.isEmpty_iff] at ha
      rw [ha.1, ha.2] at he
      cases k with
      | nil => exact hk rfl
      | cons x xs => simp at he
  have h2 : l.filter ((k.isPrefixOf ·) ∘ fun e => e.1 ++ e.2) =
      (l.filter fun e => !apart k e).filter ((k.isPrefixOf ·) ∘ fun e => e.1 ++ e.2) := by
    rw [List.filter_filter]
    apply List.filter_congr
    intro e _
    by_cases he : k.isPrefixOf (e.1 ++ e.2) = true
    · simp [he, h1 e he]
    · simp [he]
  rw [List.filter_map, h2, h]
  have : k.isPrefixOf (k ++ v) = true := by simp
  simp [this]

theorem printAll_none (ls out : List Text) : printAll ls (out, none) = (out ++ ls, none) := rfl

theorem printTime_none (label : String) (t tot : Rat) (out : List Text) {x : Text}
    (h : formatDatetime t tot = .ok x) :
    printTime label t tot (out, none) = (out ++ [line label x], none) := by
  simp [printTime, h]

end QTrl.Stats
