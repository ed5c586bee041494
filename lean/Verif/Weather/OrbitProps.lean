import Verif.Weather.RadiationProps

/-! # C98: the radiation outside the atmosphere through the year, and how the estimates of radiation depend on the weather -/

namespace Simple.Weather.Radiation

namespace Spec

/-- What the Earth has turned around the sun on day `n` since it was closest to it, on day 3. -/
noncomputable def sincePerihelion (n : ℝ) : ℝ := 2 * Real.pi * (n - 3) / 365

/-- The distance to the sun is inverse to this, for the eccentricity of the orbit. -/
noncomputable def nearness (n : ℝ) : ℝ := 1 + 0.0167 * Real.cos (sincePerihelion n)

end Spec

private theorem small : (0.9994 ≤ Real.cos (4 * Real.pi / 365) ∧ Real.cos (4 * Real.pi / 365) ≤ 0.9995) ∧
    0.0344 ≤ Real.sin (4 * Real.pi / 365) ∧ Real.sin (4 * Real.pi / 365) ≤ 0.0345 := by
  have p1 := Real.pi_gt_d6
  have p2 := Real.pi_lt_d6
  have h1 : (0.03442 : ℝ) ≤ 4 * Real.pi / 365 := by linarith
  have h2 : 4 * Real.pi / 365 ≤ (0.03443 : ℝ) := by linarith
  generalize 4 * Real.pi / 365 = x at h1 h2
  have hx : |x| ≤ 1 := by rw [abs_le]; constructor <;> linarith
  have hx4 : |x| ^ 4 * (5 / 96) ≤ 0.000001 := by
    rw [abs_of_nonneg (by linarith)]
    have : x ^ 4 ≤ 0.03443 ^ 4 := pow_le_pow_left₀ (by linarith) h2 4
    norm_num at this ⊢
    linarith
  have hx5 : |x| ^ 5 / 100 ≤ 0.000001 := by
    rw [abs_of_nonneg (by linarith)]
    have : x ^ 5 ≤ 0.03443 ^ 5 := pow_le_pow_left₀ (by linarith) h2 5
    norm_num at this ⊢
    linarith
  have c := abs_le.1 (Real.cos_bound hx)
  have s := abs_le.1 (Real.sin_bound hx)
  have e1 : (0.03442 : ℝ) ^ 2 ≤ x ^ 2 := pow_le_pow_left₀ (by norm_num) h1 2
  have e2 : x ^ 2 ≤ (0.03443 : ℝ) ^ 2 := pow_le_pow_left₀ (by linarith) h2 2
  have e3 : (0.03442 : ℝ) ^ 3 ≤ x ^ 3 := pow_le_pow_left₀ (by norm_num) h1 3
  have e4 : x ^ 3 ≤ (0.03443 : ℝ) ^ 3 := pow_le_pow_left₀ (by linarith) h2 3
  norm_num at e1 e2 e3 e4
  refine ⟨⟨?_, ?_⟩, ?_, ?_⟩ <;> linarith [c.1, c.2, s.1, s.2]

private theorem term {a x : ℝ} (e : ℝ) (h1 : -e ≤ a) (h2 : a ≤ e) (hx : |x| ≤ 1) : -e ≤ a * x ∧ a * x ≤ e := by
  have : |a * x| ≤ e := by
    rw [abs_mul]
    calc |a| * |x| ≤ |a| * 1 := mul_le_mul_of_nonneg_left hx (abs_nonneg a)
      _ = |a| := mul_one _
      _ ≤ e := abs_le.2 ⟨h1, h2⟩
  exact abs_le.1 this

/-- C98: the radiation outside the atmosphere follows, within 3 W/m², the inverse of the square of the distance to the sun, which is closest in the first
days of January. -/
theorem C98_inverse_square (n : ℝ) : |extraterrestrial n - 1367.7 * Spec.nearness n ^ 2| ≤ 3 := by
  obtain ⟨⟨c1, c2⟩, s1, s2⟩ := small
  have hx : Spec.sincePerihelion n = Sun.dayAngle n - 4 * Real.pi / 365 := by
    unfold Spec.sincePerihelion Sun.dayAngle
    ring
  unfold Spec.nearness extraterrestrial solarConstant
  rw [hx]
  simp only
  generalize Sun.dayAngle n = b
  generalize 4 * Real.pi / 365 = y at *
  have hsq : Real.cos (b - y) ^ 2 = 1 / 2 + (Real.cos (2 * b) * (2 * Real.cos y ^ 2 - 1) + Real.sin (2 * b) * (2 * Real.sin y * Real.cos y)) / 2 := by
    rw [Real.cos_sq, mul_sub, Real.cos_sub, Real.cos_two_mul y, Real.sin_two_mul y]
  have e : (1 + 0.0167 * Real.cos (b - y)) ^ 2 = 1 + 0.0334 * (Real.cos b * Real.cos y + Real.sin b * Real.sin y) + 0.00027889 * (1 / 2 +
      (Real.cos (2 * b) * (2 * Real.cos y ^ 2 - 1) + Real.sin (2 * b) * (2 * Real.sin y * Real.cos y)) / 2) := by
    rw [← hsq, ← Real.cos_sub]
    ring
  rw [e]
  generalize Real.cos y = C at *
  generalize Real.sin y = S at *
  have t1 := term (a := 0.034221 - 0.0334 * C) 0.00085 (by linarith) (by linarith) (Real.abs_cos_le_one b)
  have t2 := term (a := 0.001280 - 0.0334 * S) 0.00014 (by linarith) (by linarith) (Real.abs_sin_le_one b)
  have t3 := term (a := 0.000719 - 0.000139445 * (2 * C ^ 2 - 1)) 0.0006 (by nlinarith) (by nlinarith) (Real.abs_cos_le_one (2 * b))
  have t4 := term (a := 0.000077 - 0.000139445 * (2 * S * C)) 0.0001 (by nlinarith) (by nlinarith) (Real.abs_sin_le_one (2 * b))
  rw [abs_le]
  constructor <;> linarith [t1.1, t1.2, t2.1, t2.2, t3.1, t3.2, t4.1, t4.2]

/-! ## The estimates -/

/-- C98: the two parts of the correlations for direct radiation, for cloudy and for clear skies, meet where one gives way to the other. -/
theorem C98_disc_joined (kt : ℝ) (h1 : 0.6 < kt) (h2 : kt ≤ 0.601) :
    |discA kt - discA 0.6| ≤ 0.002 ∧ |discB kt - discB 0.6| ≤ 0.03 ∧ |discC kt - discC 0.6| ≤ 0.015 := by
  obtain ⟨d, rfl⟩ : ∃ d, kt = 0.6 + d := ⟨kt - 0.6, by ring⟩
  have d1 : 0 < d := by linarith
  have d2 : d ≤ 0.001 := by norm_num at h2 ⊢; linarith
  have d3 : d ^ 2 ≤ 0.001 * d := by nlinarith
  have d4 : 0 ≤ d ^ 2 := sq_nonneg d
  have d5 : d ^ 3 ≤ 0.001 * d ^ 2 := by nlinarith
  have d6 : 0 ≤ d ^ 3 := by positivity
  have n : ¬ (0.6 : ℝ) < 0.6 := lt_irrefl _
  unfold discA discB discC
  rw [if_pos h1, if_pos h1, if_pos h1, if_neg n, if_neg n, if_neg n, show (222.0 : ℝ) = 222 by norm_num]
  refine ⟨abs_le.2 ⟨?_, ?_⟩, abs_le.2 ⟨?_, ?_⟩, abs_le.2 ⟨?_, ?_⟩⟩ <;> ring_nf <;> linarith

/-- C98: with the sun up, and in weather that is not extreme, the estimated global radiation is not more than what reaches the atmosphere. -/
theorem C98_global_bound (z cover temperature prior wind humidity : ℝ) (hz : 0 ≤ z) (ht : |temperature - prior| ≤ 10)
    (hw : 0 ≤ wind ∧ wind ≤ 20) (hh : 0 ≤ humidity) : estimateGlobal z cover temperature prior wind humidity ≤ 1367.7 * z := by
  have ht := abs_le.1 ht
  have hz' : 0 ≤ 1367.7 * z := by positivity
  unfold estimateGlobal solarConstant
  simp only
  split_ifs
  · have : 0.749833333 + 0.043947778 * cover + (-0.28806125) * cover ^ 2 + 0.016512222 * (temperature - prior)
      + (-0.0029925) * (humidity * 100) + 0.003777778 * wind ≤ 1 := by
      nlinarith [sq_nonneg (cover - 0.0763), ht.1, ht.2, hw.2]
    nlinarith [mul_le_mul_of_nonneg_left this hz']
  · exact hz'

/-- C98: the more clouds, but for the first tenth of the sky, and the more humid, the less global radiation is estimated; the more it has warmed up, the
more. -/
theorem C98_cloudier (z cover cover' temperature temperature' prior wind humidity humidity' : ℝ) (hz : 0 ≤ z) (h0 : 0.1 ≤ cover) (hc : cover ≤ cover')
    (ht : temperature' ≤ temperature) (hh : humidity ≤ humidity') :
    estimateGlobal z cover' temperature' prior wind humidity' ≤ estimateGlobal z cover temperature prior wind humidity := by
  have hz' : 0 ≤ 1367.7 * z := by positivity
  have key : 1367.7 * z * (0.749833333 + 0.043947778 * cover' + (-0.28806125) * cover' ^ 2 + 0.016512222 * (temperature' - prior)
      + (-0.0029925) * (humidity' * 100) + 0.003777778 * wind) + (-5.949946667) ≤
      1367.7 * z * (0.749833333 + 0.043947778 * cover + (-0.28806125) * cover ^ 2 + 0.016512222 * (temperature - prior)
      + (-0.0029925) * (humidity * 100) + 0.003777778 * wind) + (-5.949946667) := by
    have : 0.749833333 + 0.043947778 * cover' + (-0.28806125) * cover' ^ 2 + 0.016512222 * (temperature' - prior)
      + (-0.0029925) * (humidity' * 100) + 0.003777778 * wind ≤ 0.749833333 + 0.043947778 * cover + (-0.28806125) * cover ^ 2 +
      0.016512222 * (temperature - prior) + (-0.0029925) * (humidity * 100) + 0.003777778 * wind := by
      nlinarith [mul_nonneg (sub_nonneg.2 hc) (by linarith : 0 ≤ cover' + cover - 0.2)]
    linarith [mul_le_mul_of_nonneg_left this hz']
  unfold estimateGlobal solarConstant
  simp only
  split_ifs with a b b
  · exact key
  · exact absurd (lt_of_lt_of_le a key) b
  · exact b.le
  · exact le_rfl

/-- They are not vacuous: an overcast and humid morning, and a dry one with some clouds. -/
example : estimateGlobal 0.5 1 15 12 3 0.9 ≤ estimateGlobal 0.5 0.2 18 12 3 0.4 :=
  C98_cloudier _ _ _ _ _ _ _ _ _ (by norm_num) (by norm_num) (by norm_num) (by norm_num) (by norm_num)

end Simple.Weather.Radiation
