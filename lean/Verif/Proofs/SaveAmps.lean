import Verif.Spec.SaveAmps
import Mathlib.Tactic.FieldSimp
import Mathlib.Tactic.Linarith
import Mathlib.Tactic.Ring
import Mathlib.Tactic.NormNum

namespace QTrl.Save

theorem fmt_near {rnd : ℝ → ℤ} (hr : Nearest rnd) (x : ℝ) : Near (fmt rnd x) x := by
  unfold Near fmt
  split
  · rename_i h; simp [h]
  · rename_i h
    have hx : 0 < |x| := abs_pos.2 h
    have hlog : ((10 : ℕ) : ℝ) ^ Int.log 10 |x| ≤ |x| := Int.zpow_log_le_self (by norm_num) hx
    set e := Int.log 10 |x| with he
    have hs : (0 : ℝ) < 10 ^ (e - 5) := zpow_pos (by norm_num) _
    have hsplit : (10 : ℝ) ^ (e - 5) = 10 ^ e / 100000 := by
      rw [zpow_sub₀ (by norm_num)]; norm_num
    have h1 := hr (x / 10 ^ (e - 5))
    have h2 : (rnd (x / 10 ^ (e - 5)) : ℝ) * 10 ^ (e - 5) - x =
        ((rnd (x / 10 ^ (e - 5)) : ℝ) - x / 10 ^ (e - 5)) * 10 ^ (e - 5) := by
      field_simp
    rw [h2, abs_mul, abs_of_pos hs]
    have h3 : |(rnd (x / 10 ^ (e - 5)) : ℝ) - x / 10 ^ (e - 5)| * 10 ^ (e - 5) ≤
        1 / 2 * 10 ^ (e - 5) := mul_le_mul_of_nonneg_right h1 hs.le
    have h4 : (10 : ℝ) ^ e ≤ |x| := by simpa using hlog
    rw [hsplit] at h3
    have h5 : (1 : ℝ) / 2 * (10 ^ e / 100000) ≤ 5 / 1000000 * |x| := by
      have := mul_le_mul_of_nonneg_left h4 (by norm_num : (0 : ℝ) ≤ 5 / 1000000)
      linarith
    rw [hsplit] at *
    exact h3.trans h5

theorem fmt_row {rnd : ℝ → ℤ} (hr : Nearest rnd) (r : List ℝ) :
    List.Forall₂ Near (r.map (fmt rnd)) r := by
  induction r with
  | nil => exact .nil
  | cons x r ih => exact .cons (fmt_near hr x) ih

theorem fmt_table {rnd : ℝ → ℤ} (hr : Nearest rnd) (t : List (List ℝ)) :
    Holds (t.map fun r => r.map (fmt rnd)) t := by
  refine ⟨by simp, fun k h h' => ?_⟩
  simp only [List.getElem_map]
  exact fmt_row hr _

theorem fmt_pulse {rnd : ℝ → ℤ} (hr : Nearest rnd) {s : List ℝ} {a : List (List ℝ)}
    (h : s.length = a.length) :
    HoldsPulse ((List.zipWith List.cons s a).map fun r => r.map (fmt rnd)) s a := by
  refine ⟨by simp [h], h, fun k h1 h2 h3 => ?_⟩
  simp only [List.getElem_map, List.getElem_zipWith]
  exact fmt_row hr _

theorem column_list {l : List ℝ} {n : ℕ} (h : l.length = n) : column n (.list l) = some l := by
  match l, h with
  | [], h => simp only [column, List.length_nil] at *; rw [if_pos h]
  | [x], h =>
    simp only [List.length_cons, List.length_nil] at h
    subst h
    rfl
  | x :: y :: r, h => simp only [column, if_pos h]

theorem ampTimes_length {d : Dyn} (h : d.Ready) : d.ampTimes.length = d.ctrlAmps.rows.length := by
  rw [Dyn.ampTimes, List.length_take, h.time, h.rows]
  omega

theorem save_current (rnd : ℝ → ℤ) {d : Dyn} (hd : d.Ready) (fs : Files) (n : String)
    (hw : fs.writable n = true) : save rnd d fs (some n) .none .none =
      .ok (fs.write n ((List.zipWith List.cons d.ampTimes d.ctrlAmps.rows).map fun r =>
        r.map (fmt rnd)), false) := by
  simp only [save, hd.init, if_true, pickTimes, table, column_list (ampTimes_length hd),
    Option.map_some, hw, Option.getD_some]

end QTrl.Save
