import Verif.Geometry.QuickModel
import Mathlib.Tactic.Linarith
import Mathlib.Tactic.NormNum
import Mathlib.Tactic.Ring
import Mathlib.Tactic.Positivity
import Mathlib.Tactic.FieldSimp
import Mathlib.Tactic.Push

/-! C115: the build with the feature `quick_inv_sqrt`. -/

namespace Simple.Geometry.Quick

open Simple.Round

/-! ## Rounding -/

theorem round24_error (q : ℚ) : |round24 q - q| ≤ |q| / 2 ^ 24 := by
  unfold round24
  split_ifs with h
  · rw [h]; simp
  obtain ⟨h1, h2⟩ := exponent_spec q h
  simp only [pow2_eq]
  generalize exponent q = e at *
  have hu : (0 : ℚ) < 2 ^ (e - 23) := zp _
  obtain ⟨s, hs⟩ : ∃ s, s = q / 2 ^ (e - 23) := ⟨_, rfl⟩
  have hq : q = s * 2 ^ (e - 23) := by rw [hs]; field_simp
  rw [← hs]
  have hn := nearestEven_near s
  calc |(nearestEven s : ℚ) * 2 ^ (e - 23) - q| = |(nearestEven s : ℚ) - s| * 2 ^ (e - 23) := by
        rw [← abs_of_pos hu, ← abs_mul, abs_of_pos hu]; congr 1; rw [hq]; ring
    _ ≤ 1 / 2 * 2 ^ (e - 23) := by apply mul_le_mul_of_nonneg_right hn hu.le
    _ = 2 ^ e / 2 ^ 24 := by
      rw [zpow_sub₀ (by norm_num)]; norm_num; ring
    _ ≤ _ := by apply div_le_div_of_nonneg_right h1 (by positivity)

theorem rel_of_error {r q b : ℚ} (hb : 0 ≤ b) (h : |r - q| ≤ |q| * b) : ∃ d, |d| ≤ b ∧ r = q * (1 + d) := by
  by_cases hq : q = 0
  · refine ⟨0, by simpa using hb, ?_⟩
    rw [hq] at h ⊢
    simp at h ⊢
    exact h
  · refine ⟨(r - q) / q, ?_, by field_simp; ring⟩
    rw [abs_div, div_le_iff₀ (abs_pos.2 hq), mul_comm]
    exact h

theorem rel24 (q : ℚ) : ∃ d, |d| ≤ 1 / 2 ^ 24 ∧ round24 q = q * (1 + d) :=
  rel_of_error (by norm_num) (by rw [mul_one_div]; exact round24_error q)

theorem rel53 (q : ℚ) : ∃ d, |d| ≤ 1 / 2 ^ 53 ∧ round53 q = q * (1 + d) :=
  rel_of_error (by norm_num) (by rw [mul_one_div]; exact round53_error q)

theorem f32_fin (q : ℚ) (h : |q| ≤ 2 ^ 127) : ∃ d, |d| ≤ 1 / 2 ^ 24 ∧ f32 (.fin q) = .fin (q * (1 + d)) := by
  obtain ⟨d, h1, h2⟩ := rel24 q
  refine ⟨d, h1, ?_⟩
  unfold f32
  dsimp only
  rw [if_neg, h2]
  rw [h2, abs_mul, not_le]
  have h3 : |1 + d| ≤ 1 + 1 / 2 ^ 24 := by
    rw [abs_le] at h1 ⊢
    constructor <;> linarith [h1.1, h1.2]
  calc |q| * |1 + d| ≤ 2 ^ 127 * (1 + 1 / 2 ^ 24) := mul_le_mul h h3 (abs_nonneg _) (by positivity)
    _ < 2 ^ 128 := by norm_num

theorem f64_fin (q : ℚ) : ∃ d, |d| ≤ 1 / 2 ^ 53 ∧ f64 (.fin q) = .fin (q * (1 + d)) := by
  obtain ⟨d, h1, h2⟩ := rel53 q
  exact ⟨d, h1, by rw [← h2]; rfl⟩

/-! ## One iteration -/

private theorem newton (u P Q ε : ℝ) (hε : 0 ≤ ε) (hε' : ε ≤ 1 / 20) (hu : |u - 1| ≤ ε) (hP : |P - 1| ≤ 1 / 5000000)
    (hQ : |Q - 1| ≤ 1 / 5000000) : |u * (3 / 2 - u ^ 2 / 2 * P) * Q - 1| ≤ ε ^ 2 * (3 + ε) / 2 + 1 / 2000000 := by
  rw [abs_le] at hu
  have u1 : 19 / 20 ≤ u := by linarith [hu.1]
  have u2 : u ≤ 21 / 20 := by linarith [hu.2]
  have h0 : u ^ 2 ≤ 9 / 8 := by nlinarith
  have e : u * (3 / 2 - u ^ 2 / 2 * P) * Q - 1 =
      -((u - 1) ^ 2 * (u + 2) / 2) + u * u ^ 2 / 2 * (1 - P) + (Q - 1) * (u * (3 / 2 - u ^ 2 / 2 * P)) := by ring
  have a1 : |-((u - 1) ^ 2 * (u + 2) / 2)| ≤ ε ^ 2 * (3 + ε) / 2 := by
    rw [abs_neg, abs_of_nonneg (by positivity)]
    have : (u - 1) ^ 2 ≤ ε ^ 2 := by nlinarith [hu.1, hu.2]
    have : (u - 1) ^ 2 * (u + 2) ≤ ε ^ 2 * (3 + ε) := mul_le_mul this (by linarith [hu.2]) (by linarith) (by positivity)
    linarith
  have a2 : |u * u ^ 2 / 2 * (1 - P)| ≤ 3 / 5 * (1 / 5000000) := by
    rw [abs_mul, abs_sub_comm 1 P]
    apply mul_le_mul _ hP (abs_nonneg _) (by norm_num)
    rw [abs_of_nonneg (by positivity)]
    nlinarith
  have a3 : |(Q - 1) * (u * (3 / 2 - u ^ 2 / 2 * P))| ≤ 1 / 5000000 * (3 / 2) := by
    rw [abs_mul]
    apply mul_le_mul hQ _ (abs_nonneg _) (by norm_num)
    rw [abs_le] at hP
    have p1 : 0 ≤ u ^ 2 / 2 * P := by
      apply mul_nonneg (by positivity); linarith [hP.1]
    have p2 : u ^ 2 / 2 * P ≤ 9 / 16 * (6 / 5) := mul_le_mul (by linarith) (by linarith [hP.2]) (by linarith [hP.1]) (by norm_num)
    have p3 : (361 / 400) / 2 * (9 / 10) ≤ u ^ 2 / 2 * P := mul_le_mul (by nlinarith) (by linarith [hP.1]) (by norm_num) (by positivity)
    rw [abs_of_nonneg (mul_nonneg (by linarith) (by linarith))]
    calc u * (3 / 2 - u ^ 2 / 2 * P) ≤ 21 / 20 * (3 / 2 - (361 / 400) / 2 * (9 / 10)) :=
          mul_le_mul u2 (by linarith) (by linarith) (by norm_num)
      _ ≤ 3 / 2 := by norm_num
  rw [e]
  calc _ ≤ |-((u - 1) ^ 2 * (u + 2) / 2)| + |u * u ^ 2 / 2 * (1 - P)| + |(Q - 1) * (u * (3 / 2 - u ^ 2 / 2 * P))| := abs_add_three _ _ _
    _ ≤ ε ^ 2 * (3 + ε) / 2 + 3 / 5 * (1 / 5000000) + 1 / 5000000 * (3 / 2) := by linarith
    _ ≤ _ := by linarith

private theorem near_cast {d : ℚ} (h : |d| ≤ 1 / 2 ^ 24) : |(d : ℝ)| ≤ 1 / 2 ^ 24 := by
  have : ((|d| : ℚ) : ℝ) ≤ ((1 / 2 ^ 24 : ℚ) : ℝ) := by exact_mod_cast h
  simpa using this

private theorem prod3 {a b c : ℝ} (ha : |a| ≤ 1 / 2 ^ 24) (hb : |b| ≤ 1 / 2 ^ 24) (hc : |c| ≤ 1 / 2 ^ 24) :
    |(1 + a) * (1 + b) * (1 + c) - 1| ≤ 1 / 5000000 := by
  have e : (1 + a) * (1 + b) * (1 + c) - 1 = a + b + c + (a * b + a * c + b * c) + a * b * c := by ring
  have m : ∀ {x y : ℝ}, |x| ≤ 1 / 2 ^ 24 → |y| ≤ 1 / 2 ^ 24 → |x * y| ≤ 1 / 2 ^ 48 := by
    intro x y hx hy
    rw [abs_mul]
    calc |x| * |y| ≤ 1 / 2 ^ 24 * (1 / 2 ^ 24) := mul_le_mul hx hy (abs_nonneg _) (by norm_num)
      _ = _ := by norm_num
  have m3 : |a * b * c| ≤ 1 / 2 ^ 72 := by
    rw [abs_mul]
    calc |a * b| * |c| ≤ 1 / 2 ^ 48 * (1 / 2 ^ 24) := mul_le_mul (m ha hb) hc (abs_nonneg _) (by norm_num)
      _ = _ := by norm_num
  have m1 := m ha hb
  have m2 := m ha hc
  have m4 := m hb hc
  rw [abs_le] at *
  rw [e]
  norm_num at *
  constructor <;> linarith [ha.1, ha.2, hb.1, hb.2, hc.1, hc.2, m1.1, m1.2, m2.1, m2.2, m4.1, m4.2, m3.1, m3.2]

/-- The product of a number and the square root of another, which is one if the first is the inverse of that square root. -/
noncomputable def ratio (x y : ℚ) : ℝ := y * Real.sqrt x

theorem iteration_near (x y d2 : ℚ) (hx : 1 / 2 ^ 101 ≤ x) (hx' : x ≤ 2 ^ 127) (hd : |d2| ≤ 1 / 2 ^ 24) (ε : ℝ) (hε : 0 ≤ ε)
    (hε' : ε ≤ 1 / 20) (h : |ratio x y - 1| ≤ ε) :
    ∃ y', iteration (.fin (x * (1 / 2) * (1 + d2))) (.fin y) = .fin y' ∧ |ratio x y' - 1| ≤ ε ^ 2 * (3 + ε) / 2 + 1 / 2000000 := by
  have hxp : 0 < x := lt_of_lt_of_le (by norm_num) hx
  have hxr : (0 : ℝ) < x := by exact_mod_cast hxp
  have hs := Real.sq_sqrt hxr.le
  have hs0 := Real.sqrt_pos.2 hxr
  -- how large `y` is
  have hu : 19 / 20 ≤ ratio x y ∧ ratio x y ≤ 21 / 20 := by
    rw [abs_le] at h
    constructor <;> linarith [h.1, h.2]
  have hyr : (0 : ℝ) < y := by
    by_contra hc
    have : ratio x y ≤ 0 := mul_nonpos_of_nonpos_of_nonneg (not_lt.1 hc) hs0.le
    linarith [hu.1]
  have hy : 0 < y := by exact_mod_cast hyr
  have hxy : x * y ^ 2 ≤ 9 / 8 := by
    have : ((x * y ^ 2 : ℚ) : ℝ) ≤ ((9 / 8 : ℚ) : ℝ) := by
      have : ((x * y ^ 2 : ℚ) : ℝ) = ratio x y ^ 2 := by unfold ratio; rw [mul_pow, hs]; push_cast; ring
      rw [this]
      push_cast
      nlinarith [hu.1, hu.2]
    exact Rat.cast_le.1 this
  have hyb : y ≤ 2 ^ 52 := by
    by_contra hc
    rw [not_le] at hc
    have : (2 ^ 52) ^ 2 < y ^ 2 := by
      apply pow_lt_pow_left₀ hc (by norm_num) (by norm_num)
    have : (1 / 2 ^ 101) * (2 ^ 52) ^ 2 ≤ x * y ^ 2 := mul_le_mul hx this.le (by norm_num) hxp.le
    have : (1 / 2 ^ 101 : ℚ) * (2 ^ 52) ^ 2 ≤ 9 / 8 := le_trans this hxy
    norm_num at this
  have hxyb : x * y ≤ 2 ^ 70 := by
    by_contra hc
    rw [not_le] at hc
    have h1 : (2 ^ 70) ^ 2 < (x * y) ^ 2 := by
      apply pow_lt_pow_left₀ hc (by norm_num) (by norm_num)
    have h2 : (x * y) ^ 2 = x * (x * y ^ 2) := by ring
    have h3 : x * (x * y ^ 2) ≤ 2 ^ 127 * (9 / 8) := mul_le_mul hx' hxy (by positivity) (by positivity)
    rw [h2] at h1
    have h4 := lt_of_lt_of_le h1 h3
    norm_num at h4
  have hone : ∀ {d : ℚ}, |d| ≤ 1 / 2 ^ 24 → 0 ≤ 1 + d ∧ 1 + d ≤ 2 := by
    intro d hd
    rw [abs_le] at hd
    norm_num at hd
    constructor <;> linarith [hd.1, hd.2]
  obtain ⟨k1, k2⟩ := hone hd
  have hxy0 : 0 ≤ x * y := by positivity
  obtain ⟨d3, hd3, e3⟩ := f32_fin (x * (1 / 2) * (1 + d2) * y) (by
    rw [show x * (1 / 2) * (1 + d2) * y = (x * y) * ((1 + d2) / 2) by ring, abs_of_nonneg (mul_nonneg hxy0 (by linarith))]
    calc x * y * ((1 + d2) / 2) ≤ 2 ^ 70 * 1 := mul_le_mul hxyb (by linarith) (by linarith) (by norm_num)
      _ ≤ _ := by norm_num)
  obtain ⟨k3, k4⟩ := hone hd3
  have hb4 : 0 ≤ x * (1 / 2) * (1 + d2) * y * (1 + d3) * y ∧ x * (1 / 2) * (1 + d2) * y * (1 + d3) * y ≤ 5 := by
    rw [show x * (1 / 2) * (1 + d2) * y * (1 + d3) * y = (x * y ^ 2) * ((1 + d2) * (1 + d3) / 2) by ring]
    have m0 : 0 ≤ (1 + d2) * (1 + d3) := mul_nonneg k1 k3
    have m1 : (1 + d2) * (1 + d3) ≤ 2 * 2 := mul_le_mul k2 k4 k3 (by norm_num)
    refine ⟨mul_nonneg (by positivity) (by linarith), ?_⟩
    calc (x * y ^ 2) * ((1 + d2) * (1 + d3) / 2) ≤ 9 / 8 * 2 := mul_le_mul hxy (by linarith) (by linarith) (by norm_num)
      _ ≤ 5 := by norm_num
  obtain ⟨d4, hd4, e4⟩ := f32_fin (x * (1 / 2) * (1 + d2) * y * (1 + d3) * y) (by
    rw [abs_of_nonneg hb4.1]; exact le_trans hb4.2 (by norm_num))
  obtain ⟨k5, k6⟩ := hone hd4
  have hb5 : |3 / 2 + -(x * (1 / 2) * (1 + d2) * y * (1 + d3) * y * (1 + d4))| ≤ 20 := by
    have m0 := mul_nonneg hb4.1 k5
    have m1 : x * (1 / 2) * (1 + d2) * y * (1 + d3) * y * (1 + d4) ≤ 5 * 2 := mul_le_mul hb4.2 k6 k5 (by norm_num)
    rw [abs_le]
    constructor <;> linarith
  obtain ⟨d5, hd5, e5⟩ := f32_fin (3 / 2 + -(x * (1 / 2) * (1 + d2) * y * (1 + d3) * y * (1 + d4))) (le_trans hb5 (by norm_num))
  obtain ⟨k7, k8⟩ := hone hd5
  obtain ⟨d6, hd6, e6⟩ := f32_fin (y * ((3 / 2 + -(x * (1 / 2) * (1 + d2) * y * (1 + d3) * y * (1 + d4))) * (1 + d5))) (by
    rw [abs_mul, abs_mul, abs_of_pos hy, abs_of_nonneg k7]
    calc _ ≤ (2 ^ 52 : ℚ) * (20 * 2) := mul_le_mul hyb (mul_le_mul hb5 k8 k7 (by norm_num)) (by positivity) (by norm_num)
      _ ≤ _ := by norm_num)
  refine ⟨y * ((3 / 2 + -(x * (1 / 2) * (1 + d2) * y * (1 + d3) * y * (1 + d4))) * (1 + d5)) * (1 + d6), ?_, ?_⟩
  · unfold iteration
    change f32 (.fin y * f32 (.fin (3 / 2) - f32 (f32 (.fin (x * (1 / 2) * (1 + d2) * y)) * .fin y))) = _
    rw [e3]
    change f32 (.fin y * f32 (.fin (3 / 2) - f32 (.fin (x * (1 / 2) * (1 + d2) * y * (1 + d3) * y)))) = _
    rw [e4]
    change f32 (.fin y * f32 (.fin (3 / 2 + -(x * (1 / 2) * (1 + d2) * y * (1 + d3) * y * (1 + d4))))) = _
    rw [e5]
    change f32 (.fin (y * ((3 / 2 + -(x * (1 / 2) * (1 + d2) * y * (1 + d3) * y * (1 + d4))) * (1 + d5)))) = _
    rw [e6]
  · have hq := prod3 (near_cast hd5) (near_cast hd6) (c := 0) (by norm_num)
    have hp := prod3 (near_cast hd) (near_cast hd3) (near_cast hd4)
    have := newton (ratio x y) _ _ ε hε hε' h hp hq
    convert this using 2
    unfold ratio
    push_cast
    rw [mul_pow, hs]
    ring

/-! ## The first guess -/

private theorem even_low (t m : ℝ) (h0 : 0 ≤ t) (h1 : t ≤ 3627487 / 2 ^ 23) (h2 : 2 * t ≤ m) (h3 : m ≤ 2 * t + 1 / 2 ^ 22) :
    931225 / 10 ^ 6 ≤ (1 + m) * (1 + 3627487 / 2 ^ 23 - t) ^ 2 / 2 ∧ (1 + m) * (1 + 3627487 / 2 ^ 23 - t) ^ 2 / 2 ≤ 1071225 / 10 ^ 6 := by
  have hsq : 0 ≤ (1 + 3627487 / 2 ^ 23 - t) ^ 2 := sq_nonneg _
  have a1 : (1 + 2 * t) * (1 + 3627487 / 2 ^ 23 - t) ^ 2 ≤ (1 + m) * (1 + 3627487 / 2 ^ 23 - t) ^ 2 :=
    mul_le_mul_of_nonneg_right (by linarith) hsq
  have a2 : (1 + m) * (1 + 3627487 / 2 ^ 23 - t) ^ 2 ≤ (1 + 2 * t + 1 / 2 ^ 22) * (1 + 3627487 / 2 ^ 23 - t) ^ 2 :=
    mul_le_mul_of_nonneg_right (by linarith) hsq
  norm_num at *
  constructor
  · nlinarith [mul_nonneg h0 (sub_nonneg.2 h1), mul_nonneg (mul_nonneg h0 h0) (sub_nonneg.2 h1), mul_nonneg h0 (mul_nonneg (sub_nonneg.2 h1) (sub_nonneg.2 h1))]
  · nlinarith [mul_nonneg (sq_nonneg (t - 3627487 / 8388608 / 3)) (show (0 : ℝ) ≤ 1 - t by linarith), sq_nonneg (t - 3627487 / 8388608 / 3)]

private theorem even_high (t m : ℝ) (h0 : 3627487 / 2 ^ 23 ≤ t) (h1 : t ≤ 1 / 2) (h2 : 2 * t ≤ m) (h3 : m ≤ 2 * t + 1 / 2 ^ 22) :
    931225 / 10 ^ 6 ≤ (1 + m) * (2 + 3627487 / 2 ^ 23 - t) ^ 2 / 8 ∧ (1 + m) * (2 + 3627487 / 2 ^ 23 - t) ^ 2 / 8 ≤ 1071225 / 10 ^ 6 := by
  have hsq : 0 ≤ (2 + 3627487 / 2 ^ 23 - t) ^ 2 := sq_nonneg _
  have a1 : (1 + 2 * t) * (2 + 3627487 / 2 ^ 23 - t) ^ 2 ≤ (1 + m) * (2 + 3627487 / 2 ^ 23 - t) ^ 2 :=
    mul_le_mul_of_nonneg_right (by linarith) hsq
  have a2 : (1 + m) * (2 + 3627487 / 2 ^ 23 - t) ^ 2 ≤ (1 + 2 * t + 1 / 2 ^ 22) * (2 + 3627487 / 2 ^ 23 - t) ^ 2 :=
    mul_le_mul_of_nonneg_right (by linarith) hsq
  norm_num at *
  constructor
  · nlinarith [mul_nonneg (sub_nonneg.2 h0) (sub_nonneg.2 h1), mul_nonneg (sub_nonneg.2 h0) (mul_nonneg (sub_nonneg.2 h0) (sub_nonneg.2 h1)), mul_nonneg (sub_nonneg.2 h0) (mul_nonneg (sub_nonneg.2 h1) (sub_nonneg.2 h1))]
  · nlinarith [mul_nonneg (sub_nonneg.2 h0) (sub_nonneg.2 h1), mul_nonneg (sub_nonneg.2 h0) (mul_nonneg (sub_nonneg.2 h0) (sub_nonneg.2 h1)), mul_nonneg (sub_nonneg.2 h0) (mul_nonneg (sub_nonneg.2 h1) (sub_nonneg.2 h1))]

private theorem odd_guess (t m : ℝ) (h0 : 0 ≤ t) (h1 : t ≤ 1 / 2) (h2 : 2 * t ≤ m) (h3 : m ≤ 2 * t + 1 / 2 ^ 22) :
    931225 / 10 ^ 6 ≤ (1 + m) * (1 + 7821791 / 2 ^ 23 - t) ^ 2 / 4 ∧ (1 + m) * (1 + 7821791 / 2 ^ 23 - t) ^ 2 / 4 ≤ 1071225 / 10 ^ 6 := by
  have hsq : 0 ≤ (1 + 7821791 / 2 ^ 23 - t) ^ 2 := sq_nonneg _
  have a1 : (1 + 2 * t) * (1 + 7821791 / 2 ^ 23 - t) ^ 2 ≤ (1 + m) * (1 + 7821791 / 2 ^ 23 - t) ^ 2 :=
    mul_le_mul_of_nonneg_right (by linarith) hsq
  have a2 : (1 + m) * (1 + 7821791 / 2 ^ 23 - t) ^ 2 ≤ (1 + 2 * t + 1 / 2 ^ 22) * (1 + 7821791 / 2 ^ 23 - t) ^ 2 :=
    mul_le_mul_of_nonneg_right (by linarith) hsq
  norm_num at *
  constructor
  · nlinarith [mul_nonneg h0 (sub_nonneg.2 h1), mul_nonneg (mul_nonneg h0 h0) (sub_nonneg.2 h1), mul_nonneg h0 (mul_nonneg (sub_nonneg.2 h1) (sub_nonneg.2 h1))]
  · nlinarith [mul_nonneg (sq_nonneg (t - 7821791 / 8388608 / 3)) (show (0 : ℝ) ≤ 1 - t by linarith), sq_nonneg (t - 7821791 / 8388608 / 3)]

private theorem near_of_sq (u : ℝ) (h0 : 0 ≤ u) (h1 : 931225 / 10 ^ 6 ≤ u ^ 2) (h2 : u ^ 2 ≤ 1071225 / 10 ^ 6) : |u - 1| ≤ 7 / 200 := by
  rw [abs_le]
  norm_num at h1 h2
  constructor
  · by_contra hc
    nlinarith
  · by_contra hc
    nlinarith

theorem guess_near (x : ℚ) (hx : 1 / 2 ^ 101 ≤ x) (hx' : x < 2 ^ 128) :
    ∃ y, ofBits (0x5f3759df - bits (.fin x) / 2) = .fin y ∧ |ratio x y - 1| ≤ 7 / 200 := by
  have hxp : 0 < x := lt_of_lt_of_le (by norm_num) hx
  obtain ⟨e1, e2⟩ := exponent_spec x hxp.ne'
  rw [abs_of_pos hxp] at e1 e2
  unfold bits
  dsimp only
  rw [pow2_eq]
  generalize exponent x = e at *
  have hp : (0 : ℚ) < 2 ^ (e - 23) := zp _
  have he1 : -102 ≤ e := by
    by_contra hc
    have h1 : (2 : ℚ) ^ (e + 1) ≤ 2 ^ (-102 : ℤ) := zpow_le_zpow_right₀ (by norm_num) (by omega)
    have h2 := lt_of_le_of_lt hx (lt_of_lt_of_le e2 h1)
    norm_num at h2
  have he2 : e ≤ 127 := by
    by_contra hc
    have h1 : (2 : ℚ) ^ (128 : ℤ) ≤ 2 ^ e := zpow_le_zpow_right₀ (by norm_num) (by omega)
    have h2 := lt_of_le_of_lt (le_trans h1 e1) hx'
    norm_num at h2
  have s1 : (8388608 : ℚ) * 2 ^ (e - 23) = 2 ^ e := by
    rw [show (8388608 : ℚ) = 2 ^ (23 : ℤ) by norm_num, ← zpow_add₀ (by norm_num)]
    congr 1; ring
  have s2 : (16777216 : ℚ) * 2 ^ (e - 23) = 2 ^ (e + 1) := by
    rw [show (16777216 : ℚ) = 2 ^ (24 : ℤ) by norm_num, ← zpow_add₀ (by norm_num)]
    congr 1; ring
  have n1 : 8388608 ≤ ⌊x / 2 ^ (e - 23)⌋ := by
    rw [Int.le_floor, le_div_iff₀ hp]
    push_cast
    rw [s1]; exact e1
  have n2 : ⌊x / 2 ^ (e - 23)⌋ < 16777216 := by
    rw [Int.floor_lt, div_lt_iff₀ hp]
    push_cast
    rw [s2]; exact e2
  have f1 := Int.floor_le (x / 2 ^ (e - 23))
  have f2 := Int.lt_floor_add_one (x / 2 ^ (e - 23))
  obtain ⟨w, hw⟩ : ∃ w, w = x / 2 ^ (e - 23) := ⟨_, rfl⟩
  have hxw : x = w * 2 ^ (e - 23) := by rw [hw]; field_simp
  rw [← hw] at n1 n2 f1 f2 ⊢
  obtain ⟨M, hM⟩ : ∃ M : ℕ, ⌊w⌋ = 8388608 + M := ⟨(⌊w⌋ - 8388608).toNat, by omega⟩
  have hM' : M < 8388608 := by omega
  rw [hM] at f1 f2 ⊢
  push_cast at f1 f2
  obtain ⟨E, hE⟩ : ∃ E : ℕ, e = (E : ℤ) - 127 := ⟨(e + 127).toNat, by omega⟩
  have hE' : E ≤ 254 := by omega
  have hbits : ((e + 127) * 2 ^ 23 + (8388608 + (M : ℤ) - 2 ^ 23)).toNat = E * 8388608 + M := by omega
  rw [hbits]
  refine ⟨_, rfl, ?_⟩
  rw [pow2_eq]
  -- the excess over a power of two
  obtain ⟨m, hm⟩ : ∃ m : ℚ, m = w / 8388608 - 1 := ⟨_, rfl⟩
  have hm1 : (2 * (M / 2 : ℕ) : ℚ) / 8388608 ≤ m := by
    have : (2 * (M / 2 : ℕ) : ℚ) ≤ M := by exact_mod_cast Nat.mul_div_le M 2
    rw [hm]; linarith
  have hm2 : m ≤ (2 * (M / 2 : ℕ) : ℚ) / 8388608 + 1 / 2 ^ 22 := by
    have : (M : ℚ) ≤ 2 * (M / 2 : ℕ) + 1 := by
      have : M ≤ 2 * (M / 2) + 1 := by omega
      exact_mod_cast this
    rw [hm]
    norm_num
    linarith
  have hxm : x = (1 + m) * 2 ^ e := by rw [hm, hxw, ← s1]; ring
  have hsq : ∀ y : ℚ, 0 ≤ y → (931225 / 10 ^ 6 : ℝ) ≤ ((x * y ^ 2 : ℚ) : ℝ) → ((x * y ^ 2 : ℚ) : ℝ) ≤ 1071225 / 10 ^ 6 → |ratio x y - 1| ≤ 7 / 200 := by
    intro y hy h1 h2
    have hxr : (0 : ℝ) < x := by exact_mod_cast hxp
    have : ratio x y ^ 2 = ((x * y ^ 2 : ℚ) : ℝ) := by unfold ratio; rw [mul_pow, Real.sq_sqrt hxr.le]; push_cast; ring
    apply near_of_sq
    · exact mul_nonneg (by exact_mod_cast hy) (Real.sqrt_nonneg _)
    · rw [this]; exact h1
    · rw [this]; exact h2
  obtain ⟨h, hh⟩ : ∃ h, h = M / 2 := ⟨_, rfl⟩
  have hhb : h < 4194304 := by omega
  rw [← hh] at hm1 hm2
  have hmr1 : (2 * ((h : ℝ) / 8388608)) ≤ (m : ℝ) := by
    have : (((2 * (h : ℕ) : ℚ) / 8388608 : ℚ) : ℝ) ≤ m := Rat.cast_le.2 hm1
    push_cast at this
    linarith
  have hmr2 : (m : ℝ) ≤ 2 * ((h : ℝ) / 8388608) + 1 / 2 ^ 22 := by
    have : (m : ℝ) ≤ (((2 * (h : ℕ) : ℚ) / 8388608 + 1 / 2 ^ 22 : ℚ) : ℝ) := Rat.cast_le.2 hm2
    push_cast at this
    linarith
  have h0r : (0 : ℝ) ≤ (h : ℝ) / 8388608 := by positivity
  have h1r : (h : ℝ) / 8388608 ≤ 1 / 2 := by
    have : (h : ℝ) ≤ 4194304 := by exact_mod_cast hhb.le
    rw [div_le_iff₀ (by norm_num)]
    linarith
  rcases Nat.even_or_odd' E with ⟨k, hk | hk⟩
  · by_cases hc : h ≤ 3627487
    · have q1 : (0x5f3759df - (E * 8388608 + M) / 2) / 2 ^ 23 = 190 - k := by omega
      have q2 : (0x5f3759df - (E * 8388608 + M) / 2) % 2 ^ 23 = 3627487 - h := by omega
      rw [q1, q2]
      apply hsq
      · have := (zp (((190 - k : ℕ) : ℤ) - 127)).le
        positivity
      all_goals
        have hy : x * ((2 : ℚ) ^ (((190 - k : ℕ) : ℤ) - 127) * (1 + (3627487 - h : ℕ) / 2 ^ 23)) ^ 2 =
            (1 + m) * (1 + 3627487 / 2 ^ 23 - h / 8388608) ^ 2 / 2 := by
          have hz : (2 : ℚ) ^ e * ((2 : ℚ) ^ (((190 - k : ℕ) : ℤ) - 127)) ^ 2 = 1 / 2 := by
            rw [← zpow_natCast, ← zpow_mul, ← zpow_add₀ (by norm_num), show (1 / 2 : ℚ) = 2 ^ (-1 : ℤ) by norm_num]
            congr 1
            push_cast
            omega
          rw [hxm, Nat.cast_sub hc, mul_pow]
          push_cast
          linear_combination (1 + m) * (1 + (3627487 - (h : ℚ)) / 2 ^ 23) ^ 2 * hz
        rw [hy]
        push_cast
        have := even_low ((h : ℝ) / 8388608) m h0r (by
          have : (h : ℝ) ≤ 3627487 := by exact_mod_cast hc
          norm_num
          linarith) hmr1 hmr2
      · exact this.1
      · exact this.2
    · have q1 : (0x5f3759df - (E * 8388608 + M) / 2) / 2 ^ 23 = 189 - k := by omega
      have q2 : (0x5f3759df - (E * 8388608 + M) / 2) % 2 ^ 23 = 12016095 - h := by omega
      rw [q1, q2]
      apply hsq
      · have := (zp (((189 - k : ℕ) : ℤ) - 127)).le
        positivity
      all_goals
        have hy : x * ((2 : ℚ) ^ (((189 - k : ℕ) : ℤ) - 127) * (1 + (12016095 - h : ℕ) / 2 ^ 23)) ^ 2 =
            (1 + m) * (2 + 3627487 / 2 ^ 23 - h / 8388608) ^ 2 / 8 := by
          have hz : (2 : ℚ) ^ e * ((2 : ℚ) ^ (((189 - k : ℕ) : ℤ) - 127)) ^ 2 = 1 / 8 := by
            rw [← zpow_natCast, ← zpow_mul, ← zpow_add₀ (by norm_num), show (1 / 8 : ℚ) = 2 ^ (-3 : ℤ) by norm_num]
            congr 1
            push_cast
            omega
          rw [hxm, Nat.cast_sub (show h ≤ 12016095 by omega), mul_pow]
          push_cast
          linear_combination (1 + m) * (1 + (12016095 - (h : ℚ)) / 2 ^ 23) ^ 2 * hz
        rw [hy]
        push_cast
        have := even_high ((h : ℝ) / 8388608) m (by
          have : (3627487 : ℝ) ≤ h := by exact_mod_cast (not_le.1 hc).le
          norm_num
          linarith) h1r hmr1 hmr2
      · exact this.1
      · exact this.2
  · have q1 : (0x5f3759df - (E * 8388608 + M) / 2) / 2 ^ 23 = 189 - k := by omega
    have q2 : (0x5f3759df - (E * 8388608 + M) / 2) % 2 ^ 23 = 7821791 - h := by omega
    rw [q1, q2]
    apply hsq
    · have := (zp (((189 - k : ℕ) : ℤ) - 127)).le
      positivity
    all_goals
      have hy : x * ((2 : ℚ) ^ (((189 - k : ℕ) : ℤ) - 127) * (1 + (7821791 - h : ℕ) / 2 ^ 23)) ^ 2 =
          (1 + m) * (1 + 7821791 / 2 ^ 23 - h / 8388608) ^ 2 / 4 := by
        have hz : (2 : ℚ) ^ e * ((2 : ℚ) ^ (((189 - k : ℕ) : ℤ) - 127)) ^ 2 = 1 / 4 := by
          rw [← zpow_natCast, ← zpow_mul, ← zpow_add₀ (by norm_num), show (1 / 4 : ℚ) = 2 ^ (-2 : ℤ) by norm_num]
          congr 1
          push_cast
          omega
        rw [hxm, Nat.cast_sub (show h ≤ 7821791 by omega), mul_pow]
        push_cast
        linear_combination (1 + m) * (1 + (7821791 - (h : ℚ)) / 2 ^ 23) ^ 2 * hz
      rw [hy]
      push_cast
      have := odd_guess ((h : ℝ) / 8388608) m h0r h1r hmr1 hmr2
    · exact this.1
    · exact this.2

/-! ## The inverse of the square root -/

theorem sqrt_rel (q t b : ℝ) (hq : 0 < q) (ht : |t| ≤ b) (hb : b ≤ 1 / 2) : ∃ c, |c - 1| ≤ b ∧ Real.sqrt (q * (1 + t)) = Real.sqrt q * c := by
  rw [abs_le] at ht
  have h0 : 0 ≤ 1 + t := by linarith [ht.1]
  refine ⟨Real.sqrt (1 + t), ?_, Real.sqrt_mul hq.le _⟩
  have hs := Real.sq_sqrt h0
  have hs0 := Real.sqrt_nonneg (1 + t)
  rw [abs_le]
  constructor <;> by_contra hc <;> nlinarith [ht.1, ht.2]

private theorem combine (v c a b r : ℝ) (h : |v * c - 1| ≤ a) (hc : |c - 1| ≤ b) (hb : b ≤ 1 / 2) (hr : 0 ≤ r) (hab : a + b ≤ r * (1 - b)) :
    |v - 1| ≤ r := by
  rw [abs_le] at *
  have c0 : 0 < c := by linarith [hc.1]
  constructor <;> by_contra hn <;> rw [not_le] at hn
  · nlinarith [mul_lt_mul_of_pos_right hn c0, mul_nonneg hr (show 0 ≤ c - (1 - b) by linarith [hc.1])]
  · nlinarith [mul_lt_mul_of_pos_right hn c0, mul_nonneg hr (show 0 ≤ c - (1 - b) by linarith [hc.1])]

theorem quick_near (q : ℚ) (h1 : 1 / 2 ^ 100 ≤ q) (h2 : q ≤ 10 ^ 38) : ∃ y, quickInvSqrt q = .fin y ∧ |ratio q y - 1| ≤ 6 / 10 ^ 6 := by
  have hq : 0 < q := lt_of_lt_of_le (by norm_num) h1
  obtain ⟨d, hd, e⟩ := f32_fin q (by rw [abs_of_pos hq]; exact le_trans h2 (by norm_num))
  have hd' := near_cast hd
  have hdd := abs_le.1 hd
  have l1 : 1 / 2 ^ 101 ≤ q * (1 + d) := by
    calc (1 / 2 ^ 101 : ℚ) ≤ 1 / 2 ^ 100 * (1 + -(1 / 2 ^ 24)) := by norm_num
      _ ≤ q * (1 + d) := mul_le_mul h1 (by linarith [hdd.1]) (by norm_num) hq.le
  have l2 : q * (1 + d) ≤ 2 ^ 127 := by
    calc q * (1 + d) ≤ 10 ^ 38 * (1 + 1 / 2 ^ 24) := mul_le_mul h2 (by linarith [hdd.2]) (by norm_num at hdd; linarith [hdd.1]) (by norm_num)
      _ ≤ _ := by norm_num
  have l0 : 0 < q * (1 + d) := lt_of_lt_of_le (by norm_num) l1
  obtain ⟨d2, hd2, e2⟩ := f32_fin (q * (1 + d) * (1 / 2)) (by
    rw [abs_of_pos (by linarith)]; linarith)
  obtain ⟨y0, g1, g2⟩ := guess_near _ l1 (lt_of_le_of_lt l2 (by norm_num))
  obtain ⟨y1, i1, i2⟩ := iteration_near _ y0 d2 l1 l2 hd2 (7 / 200) (by norm_num) (by norm_num) g2
  obtain ⟨y2, j1, j2⟩ := iteration_near _ y1 d2 l1 l2 hd2 (187 / 100000) (by norm_num) (by norm_num) (le_trans i2 (by norm_num))
  refine ⟨y2, ?_, ?_⟩
  · unfold quickInvSqrt
    rw [e]
    dsimp only
    change iteration (f32 (.fin (q * (1 + d) * (1 / 2)))) (iteration (f32 (.fin (q * (1 + d) * (1 / 2)))) _) = _
    rw [e2, g1, i1, j1]
  · have hqr : (0 : ℝ) < q := by exact_mod_cast hq
    obtain ⟨c, hc, ec⟩ := sqrt_rel q d (1 / 2 ^ 24) hqr hd' (by norm_num)
    have er : ratio (q * (1 + d)) y2 = ratio q y2 * c := by
      unfold ratio
      push_cast
      rw [ec]; ring
    rw [er] at j2
    exact combine _ c _ (1 / 2 ^ 24) _ j2 hc (by norm_num) (by norm_num) (by norm_num)

namespace Spec

/-- A number that is neither infinite nor NaN, and that is within seven millionths of the given one. -/
def Near (f : XF) (v : ℝ) : Prop := ∃ q : ℚ, f = .fin q ∧ |(q : ℝ) - v| ≤ |v| * (7 / 10 ^ 6)

/-- The square of the length. -/
def squared (a : V3 ℚ) : ℚ := a.x ^ 2 + a.y ^ 2 + a.z ^ 2

end Spec

/-- C115, in part: the fast inverse square root is within six millionths of the inverse of the square root.  Missing: numbers over
`10 ^ 38`, for which it fails (`C115_violated_long`), and those under `2 ^ -100`. -/
theorem C115_inverse_root_partial (q : ℚ) (h1 : 1 / 2 ^ 100 ≤ q) (h2 : q ≤ 10 ^ 38) :
    ∃ y : ℚ, quickInvSqrt q = .fin y ∧ |(y : ℝ) - 1 / Real.sqrt q| ≤ 6 / 10 ^ 6 * (1 / Real.sqrt q) := by
  obtain ⟨y, e, h⟩ := quick_near q h1 h2
  refine ⟨y, e, ?_⟩
  have hq : (0 : ℝ) < q := by exact_mod_cast lt_of_lt_of_le (by norm_num) h1
  have hs := Real.sqrt_pos.2 hq
  have : (y : ℝ) - 1 / Real.sqrt q = (ratio q y - 1) * (1 / Real.sqrt q) := by
    unfold ratio; field_simp
  rw [this, abs_mul, abs_of_pos (show 0 < 1 / Real.sqrt (q : ℝ) by positivity)]
  exact mul_le_mul_of_nonneg_right h (by positivity)

/-! ## Vectors -/

private theorem cast53 {d : ℚ} (h : |d| ≤ 1 / 2 ^ 53) : |(d : ℝ)| ≤ 1 / 2 ^ 53 := by
  have : ((|d| : ℚ) : ℝ) ≤ ((1 / 2 ^ 53 : ℚ) : ℝ) := by exact_mod_cast h
  simpa using this

private theorem prod53 {a b c : ℝ} (ha : |a| ≤ 1 / 2 ^ 53) (hb : |b| ≤ 1 / 2 ^ 53) (hc : |c| ≤ 1 / 2 ^ 53) :
    |(1 + a) * (1 + b) * (1 + c) - 1| ≤ 1 / 10 ^ 8 := by
  have e : (1 + a) * (1 + b) * (1 + c) - 1 = a + b + c + (a * b + a * c + b * c) + a * b * c := by ring
  have m : ∀ {x y : ℝ}, |x| ≤ 1 / 2 ^ 53 → |y| ≤ 1 / 2 ^ 53 → |x * y| ≤ 1 / 2 ^ 53 := by
    intro x y hx hy
    rw [abs_mul]
    calc |x| * |y| ≤ 1 / 2 ^ 53 * (1 / 2 ^ 53) := mul_le_mul hx hy (abs_nonneg _) (by norm_num)
      _ ≤ _ := by norm_num
  have m1 := m ha hb
  have m2 := m ha hc
  have m4 := m hb hc
  have m3 := m m1 hc
  rw [abs_le] at *
  rw [e]
  norm_num at *
  constructor <;> linarith [ha.1, ha.2, hb.1, hb.2, hc.1, hc.2, m1.1, m1.2, m2.1, m2.2, m4.1, m4.2, m3.1, m3.2]

/-- Rounded sums of positive numbers. -/
private theorem sum_rel {a b a' b' t : ℚ} (ha : 0 ≤ a) (hb : 0 ≤ b) (ht : 0 ≤ t) (ht' : t ≤ 1 / 2) (h1 : |a' - a| ≤ a * t) (h2 : |b' - b| ≤ b * t) :
    |round53 (a' + b') - (a + b)| ≤ (a + b) * (t + 1 / 2 ^ 52) := by
  obtain ⟨d, hd, e⟩ := rel53 (a' + b')
  have h3 : |a' + b' - (a + b)| ≤ (a + b) * t := by
    rw [show a' + b' - (a + b) = (a' - a) + (b' - b) by ring]
    calc _ ≤ |a' - a| + |b' - b| := abs_add_le _ _
      _ ≤ _ := by linarith
  have h4 : |a' + b'| ≤ (a + b) * 2 := by
    have := abs_le.1 h3
    have : (a + b) * t ≤ (a + b) * (1 / 2) := mul_le_mul_of_nonneg_left ht' (by linarith)
    rw [abs_le]
    constructor <;> linarith [(abs_le.1 h3).1, (abs_le.1 h3).2]
  rw [e, show (a' + b') * (1 + d) - (a + b) = (a' + b' - (a + b)) + (a' + b') * d by ring]
  calc _ ≤ |a' + b' - (a + b)| + |(a' + b') * d| := abs_add_le _ _
    _ ≤ (a + b) * t + (a + b) * 2 * (1 / 2 ^ 53) := by
      rw [abs_mul]
      exact add_le_add h3 (mul_le_mul h4 hd (abs_nonneg _) (by linarith))
    _ = _ := by ring

private theorem sq_rel (x : ℚ) : |round53 (x * x) - x ^ 2| ≤ x ^ 2 * (1 / 2 ^ 52) := by
  have := round53_error (x * x)
  rw [abs_of_nonneg (mul_self_nonneg x)] at this
  rw [← pow_two] at this ⊢
  refine le_trans this ?_
  rw [div_eq_mul_one_div]
  exact mul_le_mul_of_nonneg_left (by norm_num) (sq_nonneg x)

private theorem two_rel (x y : ℚ) : |round53 (round53 (x * x) + round53 (y * y)) - (x ^ 2 + y ^ 2)| ≤ (x ^ 2 + y ^ 2) * (1 / 2 ^ 51) := by
  have := sum_rel (sq_nonneg x) (sq_nonneg y) (by norm_num) (by norm_num) (sq_rel x) (sq_rel y)
  norm_num at this ⊢
  exact this

private theorem three_rel (a : V3 ℚ) : |lengthSquared a - Spec.squared a| ≤ Spec.squared a * (1 / 2 ^ 50) := by
  have := sum_rel (a := a.x ^ 2 + a.y ^ 2) (b := a.z ^ 2) (t := 1 / 2 ^ 51) (by positivity) (sq_nonneg _) (by norm_num) (by norm_num) (two_rel a.x a.y)
    (le_trans (sq_rel a.z) (mul_le_mul_of_nonneg_left (by norm_num) (sq_nonneg _)))
  refine le_trans this ?_
  exact mul_le_mul_of_nonneg_left (by norm_num) (by positivity)

/-- What is computed with the inverse of the root of a sum of squares. -/
private theorem parts {L l : ℚ} (hl : |l - L| ≤ L * (1 / 2 ^ 50)) (h1 : 1 / 2 ^ 99 ≤ L) (h2 : L ≤ 10 ^ 37) :
    ∃ y : ℚ, quickInvSqrt l = .fin y ∧ ∀ (x : ℚ) (d1 d2 d3 : ℚ), |d1| ≤ 1 / 2 ^ 53 → |d2| ≤ 1 / 2 ^ 53 → |d3| ≤ 1 / 2 ^ 53 →
      |((x * y * (1 + d1) * (1 + d2) * (1 + d3) : ℚ) : ℝ) - x / Real.sqrt L| ≤ |(x : ℝ) / Real.sqrt L| * (7 / 10 ^ 6) := by
  have hL : 0 < L := lt_of_lt_of_le (by norm_num) h1
  obtain ⟨t, ht, el⟩ := rel_of_error (by norm_num) (show |l - L| ≤ |L| * (1 / 2 ^ 50) by rw [abs_of_pos hL]; exact hl)
  have hl' := abs_le.1 hl
  have htt := abs_le.1 ht
  obtain ⟨y, e, h⟩ := quick_near l (by
    rw [el]
    calc (1 / 2 ^ 100 : ℚ) ≤ 1 / 2 ^ 99 * (1 + -(1 / 2 ^ 50)) := by norm_num
      _ ≤ L * (1 + t) := mul_le_mul h1 (by linarith [htt.1]) (by norm_num) hL.le) (by
    rw [el]
    calc L * (1 + t) ≤ 10 ^ 37 * (1 + 1 / 2 ^ 50) := mul_le_mul h2 (by linarith [htt.2]) (by norm_num at htt; linarith [htt.1]) (by norm_num)
      _ ≤ _ := by norm_num)
  refine ⟨y, e, ?_⟩
  intro x d1 d2 d3 hd1 hd2 hd3
  have hLr : (0 : ℝ) < L := by exact_mod_cast hL
  have hs := Real.sqrt_pos.2 hLr
  have htr : |(t : ℝ)| ≤ 1 / 2 ^ 50 := by
    have : ((|t| : ℚ) : ℝ) ≤ ((1 / 2 ^ 50 : ℚ) : ℝ) := by exact_mod_cast ht
    simpa using this
  obtain ⟨c, hc, ec⟩ := sqrt_rel L t (1 / 2 ^ 50) hLr htr (by norm_num)
  have er : ratio l y = ratio L y * c := by
    unfold ratio
    rw [el]
    push_cast
    rw [ec]; ring
  rw [er] at h
  have h' := combine _ c _ (1 / 2 ^ 50) (61 / 10 ^ 7) h hc (by norm_num) (by norm_num) (by norm_num)
  have hP := prod53 (cast53 hd1) (cast53 hd2) (cast53 hd3)
  have hv : |ratio L y * ((1 + d1) * (1 + d2) * (1 + d3)) - 1| ≤ 7 / 10 ^ 6 := by
    rw [abs_le] at h' hP ⊢
    norm_num at h' hP ⊢
    constructor <;> nlinarith [h'.1, h'.2, hP.1, hP.2]
  have : ((x * y * (1 + d1) * (1 + d2) * (1 + d3) : ℚ) : ℝ) - x / Real.sqrt L =
      (x : ℝ) / Real.sqrt L * (ratio L y * ((1 + d1) * (1 + d2) * (1 + d3)) - 1) := by
    unfold ratio
    push_cast
    field_simp
  rw [this, abs_mul]
  exact mul_le_mul_of_nonneg_left hv (abs_nonneg _)

/-- C115, in part: normalising a vector gives the vector of length one in its direction, within seven millionths in each of its
components.  Missing: vectors whose length is over `3 · 10 ^ 18`, for which it fails (`C115_violated_long`); those under
`1.5 · 10 ^ -10` are about to be refused. -/
theorem C115_normalize_partial (a : V3 ℚ) (h1 : 2 / 10 ^ 20 ≤ Spec.squared a) (h2 : Spec.squared a ≤ 10 ^ 37) :
    ∃ r, normalize a = .ok r ∧ Spec.Near r.x (a.x / Real.sqrt (Spec.squared a)) ∧ Spec.Near r.y (a.y / Real.sqrt (Spec.squared a)) ∧
      Spec.Near r.z (a.z / Real.sqrt (Spec.squared a)) := by
  have hl := three_rel a
  obtain ⟨y, e, h⟩ := parts hl (le_trans (by norm_num) h1) h2
  have hlow : round53 (1 / 10 ^ 20) < lengthSquared a := by
    have b1 := abs_le.1 (round53_error (1 / 10 ^ 20))
    have b2 := abs_le.1 hl
    norm_num at b1 b2 h1 ⊢
    linarith [b1.2, b2.1]
  refine ⟨⟨f64 (.fin a.x * .fin y), f64 (.fin a.y * .fin y), f64 (.fin a.z * .fin y)⟩, ?_, ?_⟩
  · unfold normalize
    dsimp only
    rw [if_pos hlow, e]
  · have : ∀ x : ℚ, Spec.Near (f64 (.fin x * .fin y)) (x / Real.sqrt (Spec.squared a)) := by
      intro x
      obtain ⟨d, hd, ed⟩ := f64_fin (x * y)
      refine ⟨_, ed, ?_⟩
      have := h x d 0 0 hd (by norm_num) (by norm_num)
      simpa using this
    exact ⟨this _, this _, this _⟩

private theorem near_zero : Spec.Near (.fin 0) 0 := ⟨0, rfl, by simp⟩

private theorem div_fin (p q : ℚ) (hq : q ≠ 0) : (XF.fin p / XF.fin q) = .fin (p / q) := by
  change (if q = 0 then XF.infOf p else .fin (p / q)) = _
  rw [if_neg hq]

private theorem perp_parts (p q l : ℚ) (hp : tiny < |p|) (hl : |l - (p ^ 2 + q ^ 2)| ≤ (p ^ 2 + q ^ 2) * (1 / 2 ^ 50)) (h2 : p ^ 2 + q ^ 2 ≤ 10 ^ 37) :
    Spec.Near (f64 (.fin p * quickInvSqrt l)) (p / Real.sqrt (p ^ 2 + q ^ 2)) ∧
    Spec.Near (f64 (f64 (.fin (-q) * f64 (.fin p * quickInvSqrt l)) / .fin p)) (-q / Real.sqrt (p ^ 2 + q ^ 2)) := by
  have hp0 : p ≠ 0 := by
    rintro rfl
    norm_num [tiny] at hp
  have hlow : 1 / 2 ^ 99 ≤ p ^ 2 + q ^ 2 := by
    have h1 : tiny ^ 2 < |p| ^ 2 := pow_lt_pow_left₀ hp (by norm_num [tiny]) (by norm_num)
    rw [sq_abs] at h1
    norm_num [tiny] at h1 ⊢
    nlinarith [sq_nonneg q]
  obtain ⟨y, e, h⟩ := parts hl hlow h2
  rw [e]
  obtain ⟨d1, hd1, e1⟩ := f64_fin (p * y)
  obtain ⟨d2, hd2, e2⟩ := f64_fin (-q * (p * y * (1 + d1)))
  obtain ⟨d3, hd3, e3⟩ := f64_fin (-q * (p * y * (1 + d1)) * (1 + d2) / p)
  have k1 : f64 (.fin p * .fin y) = .fin (p * y * (1 + d1)) := e1
  have k2 : f64 (.fin (-q) * .fin (p * y * (1 + d1))) = .fin (-q * (p * y * (1 + d1)) * (1 + d2)) := e2
  rw [k1, k2, div_fin _ _ hp0, e3]
  constructor
  · refine ⟨_, rfl, ?_⟩
    have := h p d1 0 0 hd1 (by norm_num) (by norm_num)
    simpa using this
  · refine ⟨_, rfl, ?_⟩
    have := h (-q) d1 d2 d3 hd1 hd2 hd3
    have e4 : -q * (p * y * (1 + d1)) * (1 + d2) / p * (1 + d3) = -q * y * (1 + d1) * (1 + d2) * (1 + d3) := by
      field_simp
    rw [e4]
    push_cast at this ⊢
    exact this

private theorem unit_of (p q : ℝ) (h : 0 < p ^ 2 + q ^ 2) : (p / Real.sqrt (p ^ 2 + q ^ 2)) ^ 2 + (-q / Real.sqrt (p ^ 2 + q ^ 2)) ^ 2 = 1 := by
  have hs := Real.sq_sqrt h.le
  have h0 := Real.sqrt_pos.2 h
  rw [div_pow, div_pow, hs]
  field_simp

private theorem pos_of {p : ℚ} (q : ℚ) (h : tiny < |p|) : (0 : ℝ) < (p : ℝ) ^ 2 + (q : ℝ) ^ 2 := by
  have hp0 : p ≠ 0 := by
    rintro rfl
    norm_num [tiny] at h
  have : (0 : ℚ) < p ^ 2 + q ^ 2 := by positivity
  exact_mod_cast this

/-- C115, in part: the perpendicular of a vector is a vector of length one which is perpendicular to it, within seven millionths in
each of its components.  Missing: vectors whose length is over `3 · 10 ^ 18`, as in `C115_normalize_partial`. -/
theorem C115_perpendicular_partial (a : V3 ℚ) (h : tiny < |a.x| ∨ tiny < |a.y| ∨ tiny < |a.z|) (h2 : Spec.squared a ≤ 10 ^ 37) :
    ∃ r, ∃ w : V3 ℝ, getPerpendicular a = .ok r ∧ w.x ^ 2 + w.y ^ 2 + w.z ^ 2 = 1 ∧ w.x * a.x + w.y * a.y + w.z * a.z = 0 ∧
      Spec.Near r.x w.x ∧ Spec.Near r.y w.y ∧ Spec.Near r.z w.z := by
  unfold Spec.squared at h2
  have wide : ∀ {l L : ℚ}, 0 ≤ L → |l - L| ≤ L * (1 / 2 ^ 51) → |l - L| ≤ L * (1 / 2 ^ 50) :=
    fun h0 hl => le_trans hl (mul_le_mul_of_nonneg_left (by norm_num) h0)
  by_cases hx : tiny < |a.x|
  · obtain ⟨n1, n2⟩ := perp_parts a.x a.y _ hx (wide (by positivity) (two_rel a.x a.y)) (by nlinarith [sq_nonneg a.z])
    have hpos := pos_of a.y hx
    refine ⟨_, ⟨-a.y / Real.sqrt (a.x ^ 2 + a.y ^ 2), a.x / Real.sqrt (a.x ^ 2 + a.y ^ 2), 0⟩, if_pos hx, ?_, ?_, n2, n1, near_zero⟩
    · have := unit_of a.x a.y hpos
      dsimp only
      linarith
    · dsimp only
      ring
  · by_cases hy : tiny < |a.y|
    · obtain ⟨n1, n2⟩ := perp_parts a.y a.x (round53 (round53 (a.x * a.x) + round53 (a.y * a.y))) hy (by
        rw [add_comm (a.y ^ 2)]
        exact wide (by positivity) (two_rel a.x a.y)) (by nlinarith [sq_nonneg a.z])
      have hpos := pos_of a.x hy
      refine ⟨_, ⟨a.y / Real.sqrt (a.y ^ 2 + a.x ^ 2), -a.x / Real.sqrt (a.y ^ 2 + a.x ^ 2), 0⟩, (if_neg hx).trans (if_pos hy), ?_, ?_, n1, n2, near_zero⟩
      · have := unit_of a.y a.x hpos
        dsimp only
        linarith
      · dsimp only
        ring
    · have hz : tiny < |a.z| := by tauto
      obtain ⟨n1, n2⟩ := perp_parts a.z a.x _ hz (wide (by positivity) (two_rel a.z a.x)) (by nlinarith [sq_nonneg a.y])
      have hpos := pos_of a.x hz
      refine ⟨_, ⟨a.z / Real.sqrt (a.z ^ 2 + a.x ^ 2), 0, -a.x / Real.sqrt (a.z ^ 2 + a.x ^ 2)⟩, (if_neg hx).trans ((if_neg hy).trans (if_pos hz)), ?_, ?_, n1, near_zero, n2⟩
      · have := unit_of a.z a.x hpos
        dsimp only
        linarith
      · dsimp only
        ring

/-- C115, violated by long vectors: the square of the length is infinite as `f32`, and the vector returned is infinite or NaN in each of
its components, though that of length one is `(1, 0, 0)`. -/
theorem C115_violated_long : normalize ⟨10 ^ 20, 0, 0⟩ = .ok ⟨.pinf, .nan, .nan⟩ ∧
    getPerpendicular ⟨10 ^ 20, 0, 0⟩ = .ok ⟨.nan, .pinf, .fin 0⟩ := by decide +kernel

/-- A vector which meets the hypotheses of the theorems above, and what is computed for it: its length is five, and the components are
0.6 and 0.8 less four millionths of them. -/
example : (2 / 10 ^ 20 ≤ Spec.squared ⟨3, 4, 0⟩ ∧ Spec.squared ⟨3, 4, 0⟩ ≤ 10 ^ 37) ∧
    normalize ⟨3, 4, 0⟩ = .ok ⟨.fin (10066293 / 16777216), .fin (3355431 / 4194304), .fin 0⟩ := by
  refine ⟨?_, ?_⟩
  · norm_num [Spec.squared]
  · decide +kernel

end Simple.Geometry.Quick
