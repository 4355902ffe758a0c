import Verif.Proofs.PulseGen
import Verif.Spec.Pulse

/-
The wave shapes.
-/

namespace QTrl.Pulse

open QTrl.Spec

theorem cycles (x : ℝ) : 2 * Real.pi * x / (2 * Real.pi) = x := by
  have := Real.pi_pos
  field_simp

theorem square_spec : IsSquareWave (waveAt .square) := by
  intro n u
  have key : ∀ m : ℤ, 0 ≤ u → u < 1 → (m : ℝ) ≤ 2 * u → 2 * u < m + 1 →
      waveAt .square (2 * Real.pi * (n + u)) = 1 - 2 * m := by
    intro m h0 h1 h2 h3
    have e1 : ⌊(n : ℝ) + u⌋ = n := by
      rw [Int.floor_eq_iff]; constructor <;> linarith
    have e2 : ⌊2 * ((n : ℝ) + u)⌋ = 2 * n + m := by
      rw [Int.floor_eq_iff]; push_cast; constructor <;> linarith
    simp only [waveAt, cycles, e1, e2]
    push_cast; ring
  constructor
  · intro h0 h1
    rw [key 0 h0 (by linarith) (by norm_num; linarith) (by norm_num; linarith)]; norm_num
  · intro h0 h1
    rw [key 1 (by linarith) h1 (by norm_num; linarith) (by norm_num; linarith)]; norm_num

theorem saw_spec : IsSawWave (waveAt .saw) := by
  intro n u h0 h1
  have e1 : ⌊(0.5 : ℝ) + (n + u)⌋ = n := by
    rw [Int.floor_eq_iff]; norm_num; constructor <;> linarith
  simp only [waveAt, cycles, e1]
  ring

theorem triangle_spec : IsTriangleWave (waveAt .triangle) := by
  intro n u
  have hx : (2 * Real.pi * (n + u) + Real.pi / 2) / (2 * Real.pi) = n + u + 1 / 4 := by
    have := Real.pi_pos
    field_simp; ring
  have up : -1 / 4 ≤ u → u < 1 / 4 → waveAt .triangle (2 * Real.pi * (n + u)) = 4 * u := by
    intro h0 h1
    have e1 : ⌊(0.5 : ℝ) + (n + u + 1 / 4)⌋ = n := by
      rw [Int.floor_eq_iff]; norm_num; constructor <;> linarith
    simp only [waveAt, hx, e1]
    rw [abs_of_nonneg (by linarith)]; ring
  have down : 1 / 4 ≤ u → u ≤ 3 / 4 → waveAt .triangle (2 * Real.pi * (n + u)) = 2 - 4 * u := by
    intro h0 h1
    have e1 : ⌊(0.5 : ℝ) + (n + u + 1 / 4)⌋ = n + 1 := by
      rw [Int.floor_eq_iff]; push_cast; norm_num; constructor <;> linarith
    simp only [waveAt, hx, e1]
    push_cast
    rw [abs_of_nonpos (by linarith)]; ring
  refine ⟨fun h0 h1 => ?_, down⟩
  rcases h1.lt_or_eq with h | h
  · exact up h0 h
  · rw [down (le_of_eq h.symm) (by linarith)]; linarith

/-- Every phase is an integer number of cycles plus a fraction in any given unit
interval. -/
theorem phase_split (p c : ℝ) : ∃ (n : ℤ) (u : ℝ), c ≤ u ∧ u < c + 1 ∧ p = 2 * Real.pi * (n + u) := by
  refine ⟨⌊p / (2 * Real.pi) - c⌋, p / (2 * Real.pi) - ⌊p / (2 * Real.pi) - c⌋, ?_, ?_, ?_⟩
  · have := Int.floor_le (p / (2 * Real.pi) - c); linarith
  · have := Int.lt_floor_add_one (p / (2 * Real.pi) - c); linarith
  · have := Real.pi_pos
    field_simp; ring

theorem square_values (p : ℝ) : waveAt .square p = 1 ∨ waveAt .square p = -1 := by
  obtain ⟨n, u, h0, h1, rfl⟩ := phase_split p 0
  by_cases h : u < 1 / 2
  · exact .inl ((square_spec n u).1 h0 h)
  · exact .inr ((square_spec n u).2 (not_lt.1 h) (by linarith))

theorem wave_range (w : Wave) (p : ℝ) : |waveAt w p| ≤ 1 := by
  cases w with
  | sine => exact Real.abs_sin_le_one p
  | square => rcases square_values p with h | h <;> simp [h]
  | saw =>
    obtain ⟨n, u, h0, h1, rfl⟩ := phase_split p (-1 / 2)
    rw [saw_spec n u h0 (by linarith), abs_le]; constructor <;> linarith
  | triangle =>
    obtain ⟨n, u, h0, h1, rfl⟩ := phase_split p (-1 / 4)
    by_cases h : u ≤ 1 / 4
    · rw [(triangle_spec n u).1 h0 h, abs_le]; constructor <;> linarith
    · rw [(triangle_spec n u).2 (not_le.1 h).le (by linarith), abs_le]; constructor <;> linarith

theorem wave_periodic (w : Wave) (p : ℝ) : waveAt w (p + 2 * Real.pi) = waveAt w p := by
  have hp := Real.pi_pos
  have hx : (p + 2 * Real.pi) / (2 * Real.pi) = p / (2 * Real.pi) + 1 := by field_simp
  have hy : (p + 2 * Real.pi + Real.pi / 2) / (2 * Real.pi) =
      (p + Real.pi / 2) / (2 * Real.pi) + 1 := by field_simp; ring
  cases w with
  | sine => exact Real.sin_add_two_pi p
  | square =>
    simp only [waveAt, hx, Int.floor_add_one, mul_add, mul_one]
    have : ⌊2 * (p / (2 * Real.pi)) + 2⌋ = ⌊2 * (p / (2 * Real.pi))⌋ + 2 :=
      mod_cast Int.floor_add_intCast (2 * (p / (2 * Real.pi))) 2
    rw [this]; push_cast; ring
  | saw =>
    simp only [waveAt, hx, ← add_assoc, Int.floor_add_one]; push_cast; ring
  | triangle =>
    simp only [waveAt, hy, ← add_assoc, Int.floor_add_one]; push_cast
    congr 2; congr 1; ring

end QTrl.Pulse
