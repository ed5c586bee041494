import Mathlib.Analysis.Real.Pi.Bounds
import Verif.Weather.SunProps

/-! # C66: the declination and the equation of time -/

namespace Simple.Weather.Sun

namespace Spec

/-- What the Earth has turned around the sun on day `n` since the equinox of March, day 81. -/
noncomputable def sinceEquinox (n : ℝ) : ℝ := 2 * Real.pi * (n - 81) / 365

end Spec

/-- From the start of the year to the equinox. -/
private noncomputable def psi : ℝ := Real.pi / 2 - 9 * Real.pi / 146

private theorem since (n : ℝ) : Spec.sinceEquinox n = dayAngle n - psi := by
  unfold Spec.sinceEquinox dayAngle psi
  ring

private theorem psi_bounds : (0.9811 ≤ Real.sin psi ∧ Real.sin psi ≤ 0.9814) ∧ 0.19235 ≤ Real.cos psi ∧ Real.cos psi ≤ 0.19255 := by
  have p1 := Real.pi_gt_d6
  have p2 := Real.pi_lt_d6
  have h1 : (0.19365 : ℝ) ≤ 9 * Real.pi / 146 := by linarith
  have h2 : 9 * Real.pi / 146 ≤ (0.19367 : ℝ) := by linarith
  unfold psi
  rw [Real.sin_pi_div_two_sub, Real.cos_pi_div_two_sub]
  generalize 9 * Real.pi / 146 = x at h1 h2
  have hx : |x| ≤ 1 := by rw [abs_le]; constructor <;> linarith
  have hx4 : |x| ^ 4 * (5 / 96) ≤ 0.00008 := by
    rw [abs_of_nonneg (by linarith)]
    have : x ^ 4 ≤ 0.19367 ^ 4 := pow_le_pow_left₀ (by linarith) h2 4
    norm_num at this ⊢
    linarith
  have hx5 : |x| ^ 5 / 100 ≤ 0.00001 := by
    rw [abs_of_nonneg (by linarith)]
    have : x ^ 5 ≤ 0.19367 ^ 5 := pow_le_pow_left₀ (by linarith) h2 5
    norm_num at this ⊢
    linarith
  have c := abs_le.1 (Real.cos_bound hx)
  have s := abs_le.1 (Real.sin_bound hx)
  have e1 : (0.19365 : ℝ) ^ 2 ≤ x ^ 2 := pow_le_pow_left₀ (by norm_num) h1 2
  have e2 : x ^ 2 ≤ (0.19367 : ℝ) ^ 2 := pow_le_pow_left₀ (by linarith) h2 2
  have e3 : (0.19365 : ℝ) ^ 3 ≤ x ^ 3 := pow_le_pow_left₀ (by norm_num) h1 3
  have e4 : x ^ 3 ≤ (0.19367 : ℝ) ^ 3 := pow_le_pow_left₀ (by linarith) h2 3
  norm_num at e1 e2 e3 e4
  refine ⟨⟨?_, ?_⟩, ?_, ?_⟩ <;> linarith [c.1, c.2, s.1, s.2]

private theorem term {a x : ℝ} (e : ℝ) (h1 : -e ≤ a) (h2 : a ≤ e) (hx : |x| ≤ 1) : -e ≤ a * x ∧ a * x ≤ e := by
  have : |a * x| ≤ e := by
    rw [abs_mul]
    calc |a| * |x| ≤ |a| * 1 := mul_le_mul_of_nonneg_left hx (abs_nonneg a)
      _ = |a| := mul_one _
      _ ≤ e := abs_le.2 ⟨h1, h2⟩
  exact abs_le.1 this

/-- C66: the declination is, within two degrees, that of a sun that goes around a circle tilted by 23.45 degrees; so it is at its highest by the
solstice of June, on day 172, at its lowest by that of December, and about zero by the equinoxes. -/
theorem C66_seasons (n : ℝ) : |declination n - toRadians 23.45 * Real.sin (Spec.sinceEquinox n)| ≤ toRadians 2 := by
  obtain ⟨⟨s1, s2⟩, c1, c2⟩ := psi_bounds
  have p1 := Real.pi_gt_d6
  have p2 := Real.pi_lt_d6
  rw [since, Real.sin_sub]
  unfold declination toRadians
  simp only
  generalize dayAngle n = b
  have r1 : (0.40927 : ℝ) ≤ 23.45 * Real.pi / 180 := by linarith
  have r2 : 23.45 * Real.pi / 180 ≤ (0.40929 : ℝ) := by linarith
  generalize 23.45 * Real.pi / 180 = r at r1 r2
  have q1 : (0.4015 : ℝ) ≤ r * Real.sin psi ∧ r * Real.sin psi ≤ 0.4017 := by
    constructor <;> nlinarith
  have q2 : (0.0787 : ℝ) ≤ r * Real.cos psi ∧ r * Real.cos psi ≤ 0.0789 := by
    constructor <;> nlinarith
  have t1 := term (a := r * Real.sin psi - 0.399912) 0.0018 (by linarith [q1.1]) (by linarith [q1.2]) (Real.abs_cos_le_one b)
  have t2 := term (a := 0.070257 - r * Real.cos psi) 0.0087 (by linarith [q2.2]) (by linarith [q2.1]) (Real.abs_sin_le_one b)
  have t3 := term (a := -0.006758) 0.006758 (by norm_num) (by norm_num) (Real.abs_cos_le_one (2 * b))
  have t4 := term (a := 0.000907) 0.000907 (by norm_num) (by norm_num) (Real.abs_sin_le_one (2 * b))
  have t5 := term (a := -0.002697) 0.002697 (by norm_num) (by norm_num) (Real.abs_cos_le_one (3 * b))
  have t6 := term (a := 0.001480) 0.001480 (by norm_num) (by norm_num) (Real.abs_sin_le_one (3 * b))
  have e : (0.006918 - 0.399912 * Real.cos b + 0.070257 * Real.sin b - 0.006758 * Real.cos (2 * b)
    + 0.000907 * Real.sin (2 * b) - 0.002697 * Real.cos (3 * b) + 0.001480 * Real.sin (3 * b)) -
      r * (Real.sin b * Real.cos psi - Real.cos b * Real.sin psi) = 0.006918 + (r * Real.sin psi - 0.399912) * Real.cos b +
      (0.070257 - r * Real.cos psi) * Real.sin b + -0.006758 * Real.cos (2 * b) + 0.000907 * Real.sin (2 * b) + -0.002697 * Real.cos (3 * b) +
      0.001480 * Real.sin (3 * b) := by ring
  rw [e, abs_le]
  constructor <;> linarith [t1.1, t1.2, t2.1, t2.2, t3.1, t3.2, t4.1, t4.2, t5.1, t5.2, t6.1, t6.2]

/-- C66: the equation of time is, within a minute and a half, the sum of what the tilt of the axis of the Earth and the ellipse of its orbit do. -/
theorem C66_equation_of_time (n : ℝ) : |equationOfTime n - (9.87 * Real.sin (2 * Spec.sinceEquinox n) - 7.53 * Real.cos (Spec.sinceEquinox n) -
    1.5 * Real.sin (Spec.sinceEquinox n))| ≤ 1.5 := by
  obtain ⟨⟨s1, s2⟩, c1, c2⟩ := psi_bounds
  have hs : Real.sin (2 * psi) = 2 * Real.sin psi * Real.cos psi := Real.sin_two_mul _
  have hc : Real.cos (2 * psi) = 2 * Real.cos psi ^ 2 - 1 := Real.cos_two_mul _
  rw [since, mul_sub, Real.sin_sub, Real.sin_sub, Real.cos_sub, hs, hc]
  unfold equationOfTime
  simp only
  generalize dayAngle n = b
  generalize Real.sin psi = S at *
  generalize Real.cos psi = C at *
  have q1 : (0.3774 : ℝ) ≤ 2 * S * C ∧ 2 * S * C ≤ 0.378 := by constructor <;> nlinarith
  have q2 : (-0.9261 : ℝ) ≤ 2 * C ^ 2 - 1 ∧ 2 * C ^ 2 - 1 ≤ -0.9258 := by constructor <;> nlinarith
  have t1 := term (a := 229.2 * 0.001868 + 7.53 * C - 1.5 * S) 0.41 (by linarith) (by linarith) (Real.abs_cos_le_one b)
  have t2 := term (a := -(229.2 * 0.032077) + 7.53 * S + 1.5 * C) 0.33 (by linarith) (by linarith) (Real.abs_sin_le_one b)
  have t3 := term (a := -(229.2 * 0.014615) + 9.87 * (2 * S * C)) 0.39 (by linarith [q1.1]) (by linarith [q1.2]) (Real.abs_cos_le_one (2 * b))
  have t4 := term (a := -(229.2 * 0.04089) - 9.87 * (2 * C ^ 2 - 1)) 0.24 (by linarith [q2.2]) (by linarith [q2.1]) (Real.abs_sin_le_one (2 * b))
  rw [abs_le]
  constructor <;> linarith [t1.1, t1.2, t2.1, t2.2, t3.1, t3.2, t4.1, t4.2]

end Simple.Weather.Sun
