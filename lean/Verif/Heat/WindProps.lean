import Mathlib.Tactic.NormNum
import Mathlib.Tactic.Linarith
import Mathlib.Tactic.Ring
import Mathlib.Tactic.FieldSimp
import Mathlib.Analysis.Real.Pi.Bounds
import Verif.Heat.WindModel

/-! # C63: the direction of the wind -/

namespace Simple.Heat.Wind

open Geometry

/-- C63, the part that holds: given the direction of the wind in radians, a wall that faces the azimuth `azimuth`
is windward exactly when the wind comes from less than a quarter of a turn of it.  (What is missing is that the
direction given is that of the weather: see `C63_violated_twice`.) -/
theorem C63_windward_partial (wind azimuth : ℝ) (k : ℤ) (hw : |wind - azimuth - k * (2 * Real.pi)| ≤ Real.pi) :
    isWindward wind 0 ⟨Real.sin azimuth, Real.cos azimuth, 0⟩ = true ↔
      |wind - azimuth - k * (2 * Real.pi)| < Real.pi / 2 := by
  have hd : (⟨Real.sin azimuth, Real.cos azimuth, 0⟩ : V3 ℝ).dot ⟨Real.sin wind, Real.cos wind, 0⟩ =
      Real.cos |wind - azimuth - k * (2 * Real.pi)| := by
    rw [Real.cos_abs, Real.cos_sub_int_mul_two_pi, Real.cos_sub]
    simp only [V3.dot]
    ring
  unfold isWindward
  rw [if_pos (by norm_num), decide_eq_true_iff, hd]
  have h0 := abs_nonneg (wind - azimuth - k * (2 * Real.pi))
  generalize |wind - azimuth - k * (2 * Real.pi)| = x at hw h0 ⊢
  constructor
  · intro h
    by_contra hc
    rw [not_lt] at hc
    have := Real.cos_nonpos_of_pi_div_two_le_of_le hc (by linarith [Real.pi_pos])
    linarith
  · intro h
    exact Real.cos_pos_of_mem_Ioo ⟨by linarith [Real.pi_pos], h⟩

/-- C63 fails: the direction of the weather is in radians already, and it is converted again; so it is the right
one only when it is zero, and whatever the wind it is less than seven degrees from the north. -/
theorem C63_violated_twice (weather : ℝ) :
    (marchDirection weather = weather ↔ weather = 0) ∧
    (0 ≤ weather → weather ≤ 2 * Real.pi →
      0 ≤ marchDirection weather ∧ marchDirection weather < 7 * Real.pi / 180) := by
  have hp := Real.pi_pos
  have hp4 := Real.pi_lt_d2
  unfold marchDirection Weather.Sun.toRadians
  refine ⟨⟨fun h => ?_, fun h => by rw [h]; simp⟩, fun h0 h1 => ⟨by positivity, ?_⟩⟩
  · have : weather * (Real.pi / 180 - 1) = 0 := by linarith
    rcases mul_eq_zero.1 this with h | h
    · exact h
    · linarith
  · have : weather * Real.pi ≤ 2 * Real.pi * Real.pi := by nlinarith
    nlinarith

/-- C63 fails: a wall that faces south is never windward, not even when the wind comes straight from the south. -/
theorem C63_violated_south (weather : ℝ) (h0 : 0 ≤ weather) (h1 : weather ≤ 2 * Real.pi) :
    windwardInStep weather 0 ⟨0, -1, 0⟩ = false ∧ isWindward Real.pi 0 ⟨0, -1, 0⟩ = true := by
  have hp := Real.pi_pos
  obtain ⟨ha, hb⟩ := (C63_violated_twice weather).2 h0 h1
  unfold windwardInStep isWindward
  rw [if_pos (by norm_num), if_pos (by norm_num), decide_eq_false_iff_not, decide_eq_true_iff]
  simp only [V3.dot, Real.cos_pi]
  have := Real.cos_pos_of_mem_Ioo (x := marchDirection weather) ⟨by linarith, by linarith⟩
  constructor <;> linarith

/-- A wind from the south-west and a wall that faces west. -/
example : |(5 / 4 * Real.pi - 3 / 2 * Real.pi - (0 : ℤ) * (2 * Real.pi))| ≤ Real.pi := by
  have hp := Real.pi_pos
  rw [abs_le]
  push_cast
  constructor <;> linarith

end Simple.Heat.Wind
