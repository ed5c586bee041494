import Mathlib.Analysis.Real.Pi.Bounds
import Mathlib.Analysis.SpecialFunctions.Trigonometric.Bounds
import Mathlib.Analysis.Complex.ExponentialBounds
import Verif.Weather.RadiationModel
import Verif.Weather.PerezProps
import Verif.Weather.SunProps
import Verif.Weather.EpwModel

/-! The radiation of the sun and the sky estimated from the clouds (C98), and the infrared radiation of the sky
(C99). -/

namespace Simple.Weather.Radiation

open Sun (Solar Time)
open Perez (clamp)

/-! ## The radiation that reaches the atmosphere, and a clear sky -/

/-- C98: the radiation that reaches the atmosphere is positive, and within 4% of the solar constant all year. -/
theorem C98_extraterrestrial (n : ℝ) : 1318 < extraterrestrial n ∧ extraterrestrial n < 1418 := by
  unfold extraterrestrial solarConstant
  simp only
  generalize Sun.dayAngle n = b
  have h1 := Real.cos_le_one b
  have h2 := Real.neg_one_le_cos b
  have h3 := Real.sin_le_one b
  have h4 := Real.neg_one_le_sin b
  have h5 := Real.cos_le_one (2 * b)
  have h6 := Real.neg_one_le_cos (2 * b)
  have h7 := Real.sin_le_one (2 * b)
  have h8 := Real.neg_one_le_sin (2 * b)
  norm_num
  constructor <;> linarith

private theorem extra_pos (n : ℝ) : 0 < extraterrestrial n := by linarith [(C98_extraterrestrial n).1]

/-- C98: up to ten kilometres high and with the sun above the horizon, the atmosphere lets a part of the beam
through, and the radiation of a clear sky on the ground is positive and less than what reaches the atmosphere. -/
theorem C98_clear_sky (s : Solar) (n : Time) (z elevation : ℝ) (hz : 0 < z) (he : 0 ≤ elevation)
    (he' : elevation ≤ 10000) :
    0 < beamTransmittance z elevation ∧ beamTransmittance z elevation < 1 ∧
    0 < clearSkyGlobal s n z elevation ∧
    clearSkyGlobal s n z elevation < extraterrestrial (Sun.unwrapSolar s n) * z := by
  have hb : 0 < beamTransmittance z elevation ∧ beamTransmittance z elevation < 1 := by
    unfold beamTransmittance
    simp only
    generalize hed : elevation / 1000 = e
    have e0 : 0 ≤ e := by rw [← hed]; positivity
    have e1 : e ≤ 10 := by rw [← hed]; linarith
    have hk : 0 < (0.2711 : ℝ) + 0.01858 * (2.5 - e) ^ 2 := by positivity
    have hexp : Real.exp (-(0.2711 + 0.01858 * (2.5 - e) ^ 2) / z) < 1 := by
      rw [Real.exp_lt_one_iff]
      exact div_neg_of_neg_of_pos (by linarith) hz
    have hpos := Real.exp_pos (-(0.2711 + 0.01858 * (2.5 - e) ^ 2) / z)
    generalize Real.exp (-(0.2711 + 0.01858 * (2.5 - e) ^ 2) / z) = x at hexp hpos
    norm_num at *
    have ha1 : (0 : ℝ) < 1011 / 2000 + 119 / 20000 * (13 / 2 - e) ^ 2 := by positivity
    constructor
    · have : 0 < 4237 / 10000 - 821 / 100000 * (6 - e) ^ 2 := by nlinarith
      have := mul_pos ha1 hpos
      linarith
    · have := mul_lt_of_lt_one_right ha1 hexp
      nlinarith [sq_nonneg (e - 4)]
  refine ⟨hb.1, hb.2, ?_, ?_⟩ <;> unfold clearSkyGlobal <;> simp only <;>
    generalize beamTransmittance z elevation = t at hb ⊢ <;>
    have hx := extra_pos (Sun.unwrapSolar s n) <;>
    generalize extraterrestrial (Sun.unwrapSolar s n) = x at hx ⊢
  · refine mul_pos (mul_pos hx ?_) hz
    norm_num
    linarith
  · refine mul_lt_mul_of_pos_right ?_ hz
    refine mul_lt_of_lt_one_right hx ?_
    norm_num
    linarith

/-- Hypotheses of `C98_clear_sky` are met at sea level with the sun at 30 degrees. -/
example (s : Solar) (n : Time) : 0 < clearSkyGlobal s n (1 / 2) 0 :=
  (C98_clear_sky s n (1 / 2) 0 (by norm_num) le_rfl (by norm_num)).2.2.1

/-! ## The direct radiation -/

private theorem clamp_range (x : ℝ) : 0 ≤ clamp x 0 1 ∧ clamp x 0 1 ≤ 1 := by
  unfold clamp
  split_ifs with h1 h2
  · norm_num
  · norm_num
  · exact ⟨not_lt.1 h1, not_lt.1 h2⟩

private theorem discA_ge {k : ℝ} (h0 : 0 ≤ k) (h1 : k ≤ 1) : -0.1 ≤ discA k := by
  unfold discA
  by_cases h : 0.6 < k
  · rw [if_pos h]
    norm_num at *
    obtain ⟨t, rfl⟩ : ∃ t, k = 3 / 5 + t := ⟨k - 3 / 5, by ring⟩
    have ht : 0 ≤ t := by linarith
    nlinarith [mul_nonneg ht (sq_nonneg (t - 1 / 5)), sq_nonneg (t - 1 / 5), mul_nonneg ht ht]
  · rw [if_neg h]
    rw [not_lt] at h
    norm_num at *
    nlinarith [mul_nonneg h0 (sub_nonneg.2 h), mul_nonneg (mul_nonneg h0 h0) (sub_nonneg.2 h), sq_nonneg (k - 3 / 5)]

private theorem discB_nonneg {k : ℝ} (h0 : 0 ≤ k) : 0 ≤ discB k := by
  unfold discB
  by_cases h : 0.6 < k
  · rw [if_pos h]
    norm_num at *
    obtain ⟨t, rfl⟩ : ∃ t, k = 3 / 5 + t := ⟨k - 3 / 5, by ring⟩
    have ht : 0 ≤ t := by linarith
    nlinarith [pow_nonneg ht 3, sq_nonneg (t - 1 / 40)]
  · rw [if_neg h]
    norm_num
    linarith

private theorem discClear_le {m : ℝ} (h0 : 0 ≤ m) (h1 : m ≤ 10) : discClear m ≤ 0.886 := by
  unfold discClear
  norm_num
  have h2 : 0 ≤ 10 - m := by linarith
  nlinarith [mul_nonneg h0 h2, mul_nonneg (pow_nonneg h0 2) h2, mul_nonneg (pow_nonneg h0 3) h2, pow_nonneg h0 2,
    pow_nonneg h0 3]

private theorem cos_eighty : (0.17 : ℝ) < Real.cos (80 * Real.pi / 180) := by
  have h : 80 * Real.pi / 180 = Real.pi / 2 - Real.pi / 18 := by ring
  rw [h, Real.cos_pi_div_two_sub]
  have p1 := Real.pi_gt_d2
  have p2 := Real.pi_lt_d2
  have hs := Real.sin_gt_sub_cube (x := Real.pi / 18) (by linarith)
  have : (Real.pi / 18) ^ 3 ≤ 0.0054 := by
    calc (Real.pi / 18) ^ 3 ≤ (3.15 / 18) ^ 3 := by gcongr
      _ ≤ 0.0054 := by norm_num
  norm_num at *
  linarith

/-- The air mass of a sun that is ten degrees high or more. -/
theorem airMass_bounds {t : ℝ} (h0 : 0 ≤ t) (h : t ≤ 80 * Real.pi / 180) :
    0 < airMass t ∧ airMass t < 6 := by
  have hpi := Real.pi_pos
  have hc : Real.cos (80 * Real.pi / 180) ≤ Real.cos t :=
    Real.cos_le_cos_of_nonneg_of_le_pi h0 (by linarith) h
  have hd : Sun.toDegrees t ≤ 80 := by
    unfold Sun.toDegrees
    rw [div_le_iff₀ hpi]
    linarith
  have hb : 0 ≤ (93.885 - Sun.toDegrees t) ^ (-1.253 : ℝ) := Real.rpow_nonneg (by norm_num; linarith) _
  have hp : (0.17 : ℝ) < Real.cos t + 0.15 * (93.885 - Sun.toDegrees t) ^ (-1.253 : ℝ) := by
    have := cos_eighty
    have : 0 ≤ 0.15 * (93.885 - Sun.toDegrees t) ^ (-1.253 : ℝ) := mul_nonneg (by norm_num) hb
    linarith
  unfold airMass
  generalize Real.cos t + 0.15 * (93.885 - Sun.toDegrees t) ^ (-1.253 : ℝ) = x at hp
  have hx : 0 < x := lt_trans (by norm_num) hp
  refine ⟨by positivity, ?_⟩
  rw [div_lt_iff₀ hx]
  norm_num at hp
  linarith

/-- C98: with the sun less than ten degrees high, or under the horizon, there is no direct radiation.  Otherwise,
from any global radiation that is positive and any pressure up to 150 kPa, the direct one is not negative, and not
more than what reaches the atmosphere. -/
theorem C98_disc (s : Solar) (n : Time) (z globalNormal pressure : ℝ) (hg : 0 < globalNormal) (hp : 0 ≤ pressure)
    (hp' : pressure ≤ 150000) :
    ∃ d, discDirect s n z globalNormal pressure = some d ∧ 0 ≤ d ∧ d ≤ extraterrestrial (Sun.unwrapSolar s n) ∧
      (80 * Real.pi / 180 < Real.arccos z → d = 0) := by
  have hx := extra_pos (Sun.unwrapSolar s n)
  have hkt : 0 < clearnessIndex s n globalNormal := div_pos hg hx
  unfold discDirect
  simp only
  rw [if_neg (not_lt.2 hkt.le)]
  by_cases hlow : 80 * Real.pi / 180 < Real.arccos z
  · rw [if_pos hlow]
    exact ⟨0, rfl, le_rfl, hx.le, fun _ => rfl⟩
  rw [if_neg hlow, if_neg hkt.ne']
  have hback : globalNormal / clearnessIndex s n globalNormal = extraterrestrial (Sun.unwrapSolar s n) := by
    unfold clearnessIndex
    field_simp
  rw [hback]
  obtain ⟨m0, m1⟩ := airMass_bounds (Real.arccos_nonneg z) (not_lt.1 hlow)
  obtain ⟨k0, k1⟩ := clamp_range (clearnessIndex s n globalNormal)
  have hm0 : 0 ≤ airMass (Real.arccos z) * pressure / 101300 := by positivity
  have hm1 : airMass (Real.arccos z) * pressure / 101300 ≤ 10 := by
    rw [div_le_iff₀ (by norm_num)]
    nlinarith
  simp only [Option.map_some]
  refine ⟨_, rfl, ?_, ?_, fun h => absurd h hlow⟩
  · split_ifs with h
    · exact le_rfl
    · exact not_lt.1 h
  · split_ifs with h
    · exact hx.le
    · refine mul_le_of_le_one_right hx.le ?_
      have ha := discA_ge k0 k1
      have hb := mul_nonneg (discB_nonneg k0) (Real.exp_pos
        (discC (clamp (clearnessIndex s n globalNormal) 0 1) * (airMass (Real.arccos z) * pressure / 101300))).le
      have hc := discClear_le hm0 hm1
      norm_num at ha hc
      linarith

/-- Hypotheses of `C98_disc` are met by a usual day. -/
example (s : Solar) (n : Time) : ∃ d, discDirect s n (1 / 2) 600 101300 = some d ∧ 0 ≤ d :=
  let ⟨d, h, h', _⟩ := C98_disc s n (1 / 2) 600 101300 (by norm_num) (by norm_num) (by norm_num)
  ⟨d, h, h'⟩

/-- The direct radiation is the estimate of `C98_disc` multiplied by a coefficient that is positive, and zero when
the sun is low. -/
private theorem perezDirect_eq (s : Solar) (z : ℝ) (r : Reading) (next prev : Option Reading) :
    (80 * Real.pi / 180 < Real.arccos z ∧ perezDirect s z r next prev = .ok (some 0)) ∨
    (¬ 80 * Real.pi / 180 < Real.arccos z ∧ ∃ x : ℝ, 0 < x ∧ perezDirect s z r next prev =
      .ok ((discDirect s (.standard r.day) z (r.global / z) r.pressure).map (x * ·))) := by
  unfold perezDirect
  simp only
  generalize 0.5 * (|clamp (independentKt _ _) 0 1 - _| + |_ - _|) = delta
  generalize clamp (independentKt _ _) 0 1 = ktP
  by_cases h : 80 * Real.pi / 180 < Real.arccos z
  · left
    refine ⟨h, ?_⟩
    unfold Perez.directNormalCoefficient
    simp only
    rw [if_pos h]
    rfl
  · right
    refine ⟨h, ?_⟩
    rcases Perez.C38_direct_partial z ktP delta r.dewPoint with ⟨h', _⟩ | ⟨c, hc, hpos⟩
    · exact absurd h' h
    · rw [hc]
      exact ⟨(c : ℝ) / 10 ^ 6, by positivity, rfl⟩

/-- The vertical component of the direction of a sun that is ten degrees high or more. -/
private theorem z_pos {z : ℝ} (h : ¬ 80 * Real.pi / 180 < Real.arccos z) : 0 < z := by
  have hpi := Real.pi_pos
  by_contra hz
  have := Real.arccos_nonneg (-z)
  have h2 : Real.pi / 2 ≤ Real.arccos z := by
    rw [← Real.arccos_zero]
    exact Real.arccos_le_arccos (not_lt.1 hz)
  apply h
  linarith

/-! ## Direct, diffuse and global radiation from the clouds -/

/-- C98: the estimated global radiation is never negative, whatever the weather. -/
theorem C98_global (z cover temperature prior wind humidity : ℝ) :
    0 ≤ estimateGlobal z cover temperature prior wind humidity := by
  unfold estimateGlobal
  simp only
  split_ifs with h
  · exact h.le
  · exact le_rfl

/-- C98, as far as it holds: whatever the weather, estimating the radiation does not panic; the direct radiation is
a number unless the estimated global radiation is zero and the sun is ten degrees high or more; and when it is a
number, the direct and the diffuse radiation are not negative, and the diffuse one is what is left of the global
one, or zero if the beam alone is more than that.  Missing: that the beam is not more than the global radiation
(`C98_violated_beam`), and the case of no radiation (`C98_violated_nan`). -/
theorem C98_from_clouds_partial (s : Solar) (z : ℝ) (r : Reading) (next prev : Option Reading) (prior : Reading)
    (hp : 0 ≤ r.pressure) (hp' : r.pressure ≤ 150000) :
    ∃ direct diffuse global, fromClouds s z r next prev prior = .ok (direct, diffuse, global) ∧
      0 ≤ global ∧ 0 ≤ diffuse ∧
      (80 * Real.pi / 180 < Real.arccos z → direct = some 0 ∧ diffuse = global) ∧
      (direct = none → global = 0) ∧
      (∀ d, direct = some d → 0 ≤ d ∧ (d * z ≤ global → d * z + diffuse = global) ∧
        (global < d * z → diffuse = 0)) := by
  unfold fromClouds
  simp only
  have hg := C98_global z r.cover r.dryBulb prior.dryBulb r.windSpeed r.humidity
  generalize estimateGlobal z r.cover r.dryBulb prior.dryBulb r.windSpeed r.humidity = g at hg ⊢
  have hdiff : ∀ d : ℝ, (d * z ≤ g → d * z + max (g - d * z) 0 = g) ∧ (g < d * z → max (g - d * z) 0 = 0) := by
    intro d
    constructor
    · intro h
      rw [max_eq_left (by linarith)]
      ring
    · intro h
      exact max_eq_right (by linarith)
  rcases perezDirect_eq s z { r with global := g } next prev with ⟨hlow, h⟩ | ⟨hhigh, x, hx, h⟩
  · rw [h]
    refine ⟨_, _, _, rfl, hg, le_max_right _ _, ?_, ?_, ?_⟩
    · intro _
      refine ⟨rfl, ?_⟩
      simp only
      rw [zero_mul, sub_zero, max_eq_left hg]
    · intro h; cases h
    · intro d hd
      cases hd
      exact ⟨le_rfl, hdiff 0⟩
  · have hz := z_pos hhigh
    rw [h]
    simp only
    rcases hg.eq_or_lt with hg0 | hgpos
    · refine ⟨_, _, _, rfl, hg, ?_, fun h => absurd h hhigh, fun _ => hg0.symm, ?_⟩
      · split
        · exact le_rfl
        · exact le_max_right _ _
      · intro d hd
        exfalso
        rw [← hg0, zero_div] at hd
        unfold discDirect clearnessIndex at hd
        simp only [zero_div, lt_irrefl, if_false, if_true, if_neg hhigh, Option.map_none] at hd
        cases hd
    · obtain ⟨d, hd, hd0, -, -⟩ := C98_disc s (.standard r.day) z (g / z) r.pressure (div_pos hgpos hz) hp hp'
      rw [hd]
      refine ⟨_, _, _, rfl, hg, le_max_right _ _, fun h => absurd h hhigh, ?_, ?_⟩
      · intro h; cases h
      · intro d' hd'
        cases hd'
        exact ⟨mul_nonneg hx.le hd0, hdiff _⟩

/-- Hypotheses of `C98_from_clouds_partial` are met by any weather at the pressure of the sea. -/
example : (0 : ℝ) ≤ 101300 ∧ (101300 : ℝ) ≤ 150000 := by norm_num

/-- C98 is violated: after the air cools down by twenty degrees in three hours under a full cover of clouds and in
moist and still air, the estimated global radiation is zero in the middle of the day, and the direct radiation is
not a number.  The test that should replace it is never met. -/
theorem C98_violated_nan (s : Solar) (z : ℝ) (r : Reading) (next prev : Option Reading) (prior : Reading)
    (hhigh : ¬ 80 * Real.pi / 180 < Real.arccos z) (hc : r.cover = 1) (hh : r.humidity = 1)
    (hw : r.windSpeed = 0) (ht : r.dryBulb = prior.dryBulb - 20) :
    fromClouds s z r next prev prior = .ok (none, 0, 0) := by
  have hz0 := z_pos hhigh
  have hg : estimateGlobal z r.cover r.dryBulb prior.dryBulb r.windSpeed r.humidity = 0 := by
    unfold estimateGlobal solarConstant
    simp only
    rw [if_neg]
    rw [hc, hh, hw, ht]
    norm_num
    nlinarith
  unfold fromClouds
  simp only
  rw [hg]
  rcases perezDirect_eq s z { r with global := 0 } next prev with ⟨hlow, h⟩ | ⟨_, x, hx, h⟩
  · exact absurd hlow hhigh
  · rw [h]
    have : discDirect s (.standard r.day) z (0 / z) r.pressure = none := by
      unfold discDirect clearnessIndex
      simp only [zero_div, lt_irrefl, if_false, if_true, if_neg hhigh, Option.map_none]
    simp only [this]
    rfl

/-- Hypotheses of `C98_violated_nan` are met by the sun at the vertical. -/
example : ¬ 80 * Real.pi / 180 < Real.arccos 1 := by
  rw [Real.arccos_one, not_lt]
  have := Real.pi_pos
  positivity

/-- C98 is violated: under the horizon the radiation is not zero.  With the sun at its lowest and the same weather
as before, there is a global radiation of 160 W/m2 and more. -/
theorem C98_violated_night : 160 < estimateGlobal (-1) 1 0 20 0 1 := by
  unfold estimateGlobal solarConstant
  norm_num

/-! ## The beam and the global radiation -/

private theorem mass_sixty : 1.98 < airMass (Real.pi / 3) ∧ airMass (Real.pi / 3) ≤ 2 := by
  have hpi := Real.pi_pos
  have hd : Sun.toDegrees (Real.pi / 3) = 60 := by
    unfold Sun.toDegrees
    field_simp
    norm_num
  have hb : 0 ≤ (33.885 : ℝ) ^ (-1.253 : ℝ) := Real.rpow_nonneg (by norm_num) _
  have hb' : (33.885 : ℝ) ^ (-1.253 : ℝ) ≤ 1 / 33.885 := by
    have : (33.885 : ℝ) ^ (-1.253 : ℝ) ≤ (33.885 : ℝ) ^ (-1 : ℝ) :=
      Real.rpow_le_rpow_of_exponent_le (by norm_num) (by norm_num)
    rw [Real.rpow_neg_one] at this
    rw [one_div]
    exact this
  unfold airMass
  rw [hd, Real.cos_pi_div_three, show (93.885 : ℝ) - 60 = 33.885 by norm_num]
  generalize (33.885 : ℝ) ^ (-1.253 : ℝ) = y at hb hb'
  norm_num at hb'
  constructor
  · rw [lt_div_iff₀ (by norm_num; positivity)]
    norm_num
    linarith
  · rw [div_le_iff₀ (by norm_num; positivity)]
    norm_num
    linarith

private theorem arccos_half : Real.arccos (1 / 2) = Real.pi / 3 := by
  have hpi := Real.pi_pos
  rw [← Real.cos_pi_div_three, Real.arccos_cos (by positivity) (by linarith)]

private theorem coefficient_wet (ktP delta : ℝ) (h0 : 0 ≤ ktP) (h1 : ktP ≤ 0.24) (d0 : 0.3 < delta) :
    Perez.directNormalCoefficient (1 / 2) ktP delta 20 = .ok (some 12494170) := by
  have hpi := Real.pi_pos
  norm_num at h1 d0
  have hk : clamp ktP 0 1 = ktP := by
    unfold clamp
    rw [if_neg (by linarith), if_neg (by linarith)]
  have hkb : Perez.ktBin ktP = .ok 0 := by
    unfold Perez.ktBin
    rw [if_neg (by rw [not_not]; constructor <;> linarith), if_pos (by linarith)]
  have hd : Perez.deltaKtBin (clamp delta 0 1) = .ok 5 := by
    have hr := clamp_range delta
    have hlt : 3 / 10 < clamp delta 0 1 := by
      unfold clamp
      split_ifs with h2 h3
      · linarith
      · norm_num
      · exact d0
    generalize clamp delta 0 1 = x at hr hlt
    unfold Perez.deltaKtBin
    rw [if_neg (by rw [not_not]; exact hr), if_neg (by linarith), if_neg (by linarith), if_neg (by linarith),
      if_neg (by linarith), if_neg (by linarith), if_pos hr.2]
  have hz : Perez.zetaBin (Real.pi / 3) = .ok 3 := by
    unfold Perez.zetaBin
    rw [if_neg (by rw [not_not]; constructor <;> linarith), if_neg (by linarith), if_neg (by linarith),
      if_neg (by linarith), if_pos (by linarith)]
  have hw : Perez.wBin (Real.exp (7 / 100 * 20 - 75 / 1000)) = .ok 3 := by
    have hlt : 3 < Real.exp (7 / 100 * 20 - 75 / 1000) := by
      have e : (7 / 100 * 20 - 75 / 1000 : ℝ) = 1 + 325 / 1000 := by norm_num
      rw [e, Real.exp_add]
      have h1 := Real.exp_one_gt_d9
      have h2 := Real.add_one_le_exp (325 / 1000 : ℝ)
      nlinarith
    unfold Perez.wBin
    rw [if_neg (by linarith), if_neg (by linarith), if_neg (by linarith), if_neg (by linarith)]
  unfold Perez.directNormalCoefficient
  simp only
  rw [arccos_half, if_neg (by rw [not_lt]; linarith), hk, hkb, hz, hw, hd]
  rfl

private theorem independent_bounds {m : ℝ} (m0 : 1.78 < m) (m1 : m ≤ 1.8) :
    0 ≤ independentKt 0.21 m ∧ independentKt 0.21 m ≤ 0.24 ∧ 0.88 ≤ independentKt 1 m := by
  norm_num at m0 m1
  have hm : 0 < m := by linarith
  have hq : (5.2 : ℝ) ≤ 9.4 / m := by
    rw [le_div_iff₀ hm]
    norm_num
    linarith
  have hx : (-0.23 : ℝ) ≤ -1.4 / (0.9 + 9.4 / m) := by
    have hp : (0 : ℝ) < 0.9 + 9.4 / m := by positivity
    rw [le_div_iff₀ hp]
    norm_num at hq ⊢
    linarith
  have hneg : -1.4 / (0.9 + 9.4 / m) ≤ 0 := div_nonpos_of_nonpos_of_nonneg (by norm_num) (by positivity)
  have he1 := Real.add_one_le_exp (-1.4 / (0.9 + 9.4 / m))
  have he2 := Real.exp_le_one_iff.2 hneg
  unfold independentKt
  generalize -1.4 / (0.9 + 9.4 / m) = y at hx he1 he2
  generalize Real.exp y = w at he1 he2
  norm_num at *
  have hd : (0 : ℝ) < 1031 / 1000 * w + 1 / 10 := by linarith
  refine ⟨by positivity, ?_, ?_⟩
  · rw [div_le_iff₀ hd]
    linarith
  · rw [← one_div, le_div_iff₀ hd]
    linarith

private theorem kn_bound {m : ℝ} (m0 : 1.78 < m) (m1 : m ≤ 1.8) :
    0.01685 < discClear m - (discA 0.21 + discB 0.21 * Real.exp (discC 0.21 * m)) := by
  have hc : discC 0.21 * m ≤ 2 * (-0.155) := by
    unfold discC
    rw [if_neg (by norm_num)]
    norm_num at *
    linarith
  have hexp : Real.exp (discC 0.21 * m) ≤ Real.exp (-0.155) ^ 2 := by
    rw [← Real.exp_nat_mul]
    refine Real.exp_le_exp.2 ?_
    norm_num at *
    linarith
  have hb : Real.exp (-0.155) ≤ 0.857 := by
    have h2 : (1 : ℝ) / 0.857 ≤ Real.exp 0.155 := by
      have := Real.quadratic_le_exp_of_nonneg (x := 0.155) (by norm_num)
      refine le_trans ?_ this
      norm_num
    rw [Real.exp_neg]
    rw [inv_le_comm₀ (Real.exp_pos _) (by norm_num)]
    simpa using h2
  have hpos := Real.exp_pos (-0.155)
  have hsq : Real.exp (-0.155) ^ 2 ≤ 0.857 ^ 2 := by gcongr
  have hE : Real.exp (discC 0.21 * m) ≤ 0.857 ^ 2 := le_trans hexp hsq
  have hclear : 0.7018 ≤ discClear m := by
    unfold discClear
    norm_num at *
    have h0 : 0 < m := by linarith
    nlinarith [sq_nonneg (m - 9 / 5), pow_pos h0 3, pow_pos h0 4, mul_pos h0 h0]
  generalize Real.exp (discC 0.21 * m) = w at hE
  unfold discA discB
  rw [if_neg (by norm_num), if_neg (by norm_num)]
  norm_num at *
  linarith

private theorem clearness_of (s : Solar) (n : Time) (k : ℝ) :
    clearnessIndex s n (k / 2 * extraterrestrial (Sun.unwrapSolar s n) / (1 / 2)) = k := by
  have hx := extra_pos (Sun.unwrapSolar s n)
  unfold clearnessIndex
  field_simp

/-- An hour with this global radiation, in moist air at the pressure of a kilometre high. -/
noncomputable def Spec.moist (day wind global : ℝ) : Reading where
  day := day
  dryBulb := 22
  dewPoint := 20
  global := global
  direct := some 0
  diffuse := 0
  windSpeed := wind
  cover := 1
  humidity := 1
  pressure := 91170

private theorem beam_sixty (s : Solar) (day wind : ℝ) :
    ∃ d, perezDirect s (1 / 2)
        (Spec.moist day wind (0.21 / 2 * extraterrestrial (Sun.unwrapSolar s (.standard day))))
        (some (Spec.moist day wind (1 / 2 * extraterrestrial (Sun.unwrapSolar s (.standard day)))))
        (some (Spec.moist day wind (1 / 2 * extraterrestrial (Sun.unwrapSolar s (.standard day))))) = .ok (some d) ∧
      0.21 / 2 * extraterrestrial (Sun.unwrapSolar s (.standard day)) < d * (1 / 2) := by
  have hpi := Real.pi_pos
  have hx := extra_pos (Sun.unwrapSolar s (.standard day))
  obtain ⟨a0, a1⟩ := mass_sixty
  have hm0 : 1.78 < airMass (Real.pi / 3) * 91170 / 101300 := by norm_num at *; linarith
  have hm1 : airMass (Real.pi / 3) * 91170 / 101300 ≤ 1.8 := by norm_num at *; linarith
  have hkn := kn_bound hm0 hm1
  obtain ⟨i0, i1, i2⟩ := independent_bounds hm0 hm1
  have hcl : clamp 0.21 0 1 = 0.21 := by
    unfold clamp
    rw [if_neg (by norm_num), if_neg (by norm_num)]
  have hci : clamp (independentKt 0.21 (airMass (Real.pi / 3) * 91170 / 101300)) 0 1 =
      independentKt 0.21 (airMass (Real.pi / 3) * 91170 / 101300) := by
    unfold clamp
    rw [if_neg (by linarith), if_neg (by norm_num at *; linarith)]
  have hk1 := clearness_of s (.standard day) 0.21
  have hk2 := clearness_of s (.standard day) 1
  have hdisc : discDirect s (.standard day) (1 / 2)
      (0.21 / 2 * extraterrestrial (Sun.unwrapSolar s (.standard day)) / (1 / 2)) 91170 =
      some (extraterrestrial (Sun.unwrapSolar s (.standard day)) *
        (discClear (airMass (Real.pi / 3) * 91170 / 101300) - (discA 0.21 + discB 0.21 *
          Real.exp (discC 0.21 * (airMass (Real.pi / 3) * 91170 / 101300))))) := by
    unfold discDirect
    simp only
    rw [hk1, if_neg (by norm_num), arccos_half, if_neg (by rw [not_lt]; linarith), if_neg (by norm_num), hcl]
    simp only [Option.map_some]
    rw [if_neg]
    · congr 2
      norm_num
      ring
    · rw [not_lt]
      refine mul_nonneg ?_ (by norm_num at hkn ⊢; linarith)
      norm_num
      linarith
  generalize hxe : extraterrestrial (Sun.unwrapSolar s (.standard day)) = x at *
  unfold perezDirect neighbourKt Spec.moist
  simp only
  rw [arccos_half, hk1, hk2, hcl, hci, coefficient_wet _ _ i0 i1 ?_, hdisc]
  · refine ⟨_, rfl, ?_⟩
    generalize discClear (airMass (Real.pi / 3) * 91170 / 101300) - (discA 0.21 + discB 0.21 *
          Real.exp (discC 0.21 * (airMass (Real.pi / 3) * 91170 / 101300))) = k at hkn
    norm_num at *
    nlinarith
  · generalize independentKt 0.21 (airMass (Real.pi / 3) * 91170 / 101300) = u at *
    generalize independentKt 1 (airMass (Real.pi / 3) * 91170 / 101300) = v at *
    rw [abs_of_nonpos (by norm_num at *; linarith)]
    norm_num at *
    linarith

/-- C98 is violated: at every place and on every day, with the sun 30 degrees high, there is a breeze of 1 to 6 m/s
under which the estimated beam is more than the estimated global radiation that it is a part of, if the hours
before and after are clear.  The diffuse radiation is then zero under a full cover of clouds. -/
theorem C98_violated_beam (s : Solar) (day : ℝ) :
    ∃ wind global direct : ℝ, 1 < wind ∧ wind < 6 ∧
      fromClouds s (1 / 2) (Spec.moist day wind 0)
        (some (Spec.moist day wind (1 / 2 * extraterrestrial (Sun.unwrapSolar s (.standard day)))))
        (some (Spec.moist day wind (1 / 2 * extraterrestrial (Sun.unwrapSolar s (.standard day)))))
        (Spec.moist day wind 0) = .ok (some direct, 0, global) ∧
      0 < global ∧ global < direct * (1 / 2) := by
  obtain ⟨e0, e1⟩ := C98_extraterrestrial (Sun.unwrapSolar s (.standard day))
  have hx := extra_pos (Sun.unwrapSolar s (.standard day))
  obtain ⟨wind, hw⟩ : ∃ wind : ℝ, solarConstant * (1 / 2) * (0.749833333 + 0.043947778 * 1 + (-0.28806125) * 1 ^ 2 +
      0.016512222 * (22 - 22) + (-0.0029925) * (1 * 100) + 0.003777778 * wind) + (-5.949946667) =
      0.21 / 2 * extraterrestrial (Sun.unwrapSolar s (.standard day)) := by
    refine ⟨((0.21 / 2 * extraterrestrial (Sun.unwrapSolar s (.standard day)) + 5.949946667) / (solarConstant * (1 / 2))
      - (0.749833333 + 0.043947778 * 1 + (-0.28806125) * 1 ^ 2 + 0.016512222 * (22 - 22) + (-0.0029925) * (1 * 100)))
      / 0.003777778, ?_⟩
    unfold solarConstant
    generalize extraterrestrial (Sun.unwrapSolar s (.standard day)) = x
    norm_num
    ring
  have hg : estimateGlobal (1 / 2) 1 22 22 wind 1 =
      0.21 / 2 * extraterrestrial (Sun.unwrapSolar s (.standard day)) := by
    unfold estimateGlobal
    simp only
    rw [hw, if_pos (by positivity)]
  obtain ⟨d, hd, hlt⟩ := beam_sixty s day wind
  refine ⟨wind, _, d, ?_, ?_, ?_, ?_, hlt⟩
  · unfold solarConstant at hw
    norm_num at hw
    linarith
  · unfold solarConstant at hw
    norm_num at hw
    linarith
  · unfold fromClouds
    simp only [Spec.moist] at hd ⊢
    rw [hg, hd]
    simp only [Outcome.map]
    rw [max_eq_right (by linarith)]
  · positivity

/-! ## The lines of a weather file -/

private theorem line_ok (s : Solar) (data : List Reading) (i : ℕ) (r : Reading) (hp : 0 ≤ r.pressure)
    (hp' : r.pressure ≤ 150000) :
    ∃ c, lineRadiation s data i r = .ok c ∧ 0 ≤ c.2.2 ∧ 0 ≤ c.2.1 ∧ (c.1 = none → c.2.2 = 0) ∧
      (∀ d, c.1 = some d → 0 ≤ d) ∧ (Sun.sunPosition s (.standard r.day) = none → c = (some 0, 0, 0)) := by
  unfold lineRadiation
  cases h : Sun.sunPosition s (.standard r.day) with
  | none =>
    refine ⟨_, rfl, le_rfl, le_rfl, ?_, ?_, fun _ => rfl⟩
    · intro h; cases h
    · intro d h; cases h; exact le_rfl
  | some sun =>
    simp only
    obtain ⟨direct, diffuse, global, h1, h2, h3, -, h5, h6⟩ := C98_from_clouds_partial s sun.z r data[i + 1]?
      (if 1 ≤ i then data[i - 1]? else none) (if 3 ≤ i then data[i - 3]?.getD r else r) hp hp'
    exact ⟨_, h1, h2, h3, h5, fun d hd => (h6 d hd).1, fun h => by cases h⟩

private theorem lines_ok (s : Solar) (data : List Reading) (rest : List Reading) :
    ∀ i, (∀ r ∈ rest, 0 ≤ r.pressure ∧ r.pressure ≤ 150000) →
      ∃ cs, linesRadiation s data i rest = .ok cs ∧ List.Forall₂ (fun (r : Reading) (c : Option ℝ × ℝ × ℝ) =>
        0 ≤ c.2.2 ∧ 0 ≤ c.2.1 ∧ (c.1 = none → c.2.2 = 0) ∧ (∀ d, c.1 = some d → 0 ≤ d) ∧
        (Sun.sunPosition s (.standard r.day) = none → c = (some 0, 0, 0))) rest cs := by
  induction rest with
  | nil => intro i _; exact ⟨[], rfl, .nil⟩
  | cons r rest ih =>
    intro i h
    obtain ⟨c, hc, hprop⟩ := line_ok s data i r (h r (by simp)).1 (h r (by simp)).2
    obtain ⟨cs, hcs, hall⟩ := ih (i + 1) (fun r hr => h r (by simp [hr]))
    refine ⟨c :: cs, ?_, .cons hprop hall⟩
    unfold linesRadiation
    rw [hc]
    simp only [Outcome.bind]
    rw [hcs]
    rfl

/-- What filling in the radiation may do to a line: everything else is as it was, the radiation is not negative
(the direct one may be NaN when there is no global radiation), and there is none while the sun is under the
horizon. -/
def Spec.Filled (s : Solar) (before after : Reading) : Prop :=
  after = { before with direct := after.direct, diffuse := after.diffuse, global := after.global } ∧
  0 ≤ after.global ∧ 0 ≤ after.diffuse ∧ (after.direct = none → after.global = 0) ∧
  (∀ d, after.direct = some d → 0 ≤ d) ∧
  let n := Sun.unwrapSolar s (.standard before.day)
  ((Sun.Spec.sun s.latitude (Sun.declination n) (Sun.Spec.hourAngle n)).z < 0 →
    after.direct = some 0 ∧ after.diffuse = 0 ∧ after.global = 0)

/-- C98, as far as it holds: filling in the radiation of weather data never panics, keeps every line and
everything else on them, leaves no negative radiation, and none while the sun is under the horizon.  Missing: that
the direct radiation is a number (`C98_violated_nan`). -/
theorem C98_fill_partial (s : Solar) (data : List Reading) (hlat : |s.latitude| < Real.pi / 2)
    (h : ∀ r ∈ data, 0 ≤ r.pressure ∧ r.pressure ≤ 150000 ∧ 0 ≤ Sun.unwrapSolar s (.standard r.day)) :
    ∃ data', fillRadiation s data = .ok data' ∧ List.Forall₂ (Spec.Filled s) data data' := by
  obtain ⟨cs, hcs, hall⟩ := lines_ok s data data 0 (fun r hr => ⟨(h r hr).1, (h r hr).2.1⟩)
  unfold fillRadiation
  rw [hcs]
  refine ⟨_, rfl, ?_⟩
  have h' : ∀ r ∈ data, 0 ≤ Sun.unwrapSolar s (.standard r.day) := fun r hr => (h r hr).2.2
  clear hcs h
  induction hall with
  | nil => exact .nil
  | @cons r c rs cs hrc _ ih =>
    refine .cons ?_ (ih (fun r hr => h' r (by simp [hr])))
    obtain ⟨h1, h2, h3, h4, h5⟩ := hrc
    refine ⟨rfl, h1, h2, h3, h4, ?_⟩
    intro n hz
    have := h5 (((Sun.C66_sun_position s (.standard r.day) hlat (h' r (by simp))).1).2 hz)
    rw [this]
    exact ⟨rfl, rfl, rfl⟩

/-- Hypotheses of `C98_fill_partial` are met by an hour at noon of the second day, at the equator and on the
standard meridian. -/
example : |(⟨0, 0, 0⟩ : Solar).latitude| < Real.pi / 2 ∧ ∀ r ∈ [Spec.moist 2.5 1 0],
    0 ≤ r.pressure ∧ r.pressure ≤ 150000 ∧ 0 ≤ Sun.unwrapSolar ⟨0, 0, 0⟩ (.standard r.day) := by
  have hpi := Real.pi_pos
  refine ⟨by simpa using by positivity, ?_⟩
  intro r hr
  rw [List.mem_singleton] at hr
  subst hr
  refine ⟨by norm_num [Spec.moist], by norm_num [Spec.moist], ?_⟩
  unfold Sun.unwrapSolar Sun.timeDifference Sun.equationOfTime Sun.toDegrees Spec.moist
  simp only
  generalize Sun.dayAngle 2.5 = b
  have h1 := Real.cos_le_one b
  have h2 := Real.neg_one_le_cos b
  have h3 := Real.sin_le_one b
  have h4 := Real.neg_one_le_sin b
  have h5 := Real.cos_le_one (2 * b)
  have h6 := Real.neg_one_le_cos (2 * b)
  have h7 := Real.sin_le_one (2 * b)
  have h8 := Real.neg_one_le_sin (2 * b)
  norm_num
  linarith

/-! ## The infrared radiation of the sky -/

/-- Clark and Allen's emissivity of a clear sky and EnergyPlus' correction for `tenths` of the sky that are covered,
as the documentation of `derive_horizontal_ir` gives them. -/
noncomputable def Spec.infrared (dryBulb dewPoint tenths : ℝ) : ℝ :=
  5.670374419e-8 * ((0.787 + 0.764 * Real.log ((dewPoint + 273.15) / 273)) *
    (1 + 0.0224 * tenths - 0.0035 * tenths ^ 2 + 0.00028 * tenths ^ 3)) * (dryBulb + 273.15) ^ 4

private theorem clear_bounds {dp : ℝ} (h : -100 ≤ dp) :
    0.34 < 0.787 + 0.764 * Real.log ((dp + 273.15) / 273) := by
  have hpos : 0 < (dp + 273.15) / 273 := by norm_num at *; linarith
  have hl := Real.one_sub_inv_le_log_of_pos hpos
  have : ((dp + 273.15) / 273)⁻¹ ≤ 1.58 := by
    rw [inv_div, div_le_iff₀ (by norm_num; linarith)]
    norm_num
    linarith
  generalize Real.log ((dp + 273.15) / 273) = l at hl
  generalize ((dp + 273.15) / 273)⁻¹ = i at *
  norm_num at *
  linarith

private theorem cloud_mono {x y : ℝ} (h : x < y) :
    1 + 0.0224 * x - 0.0035 * x ^ 2 + 0.00028 * x ^ 3 < 1 + 0.0224 * y - 0.0035 * y ^ 2 + 0.00028 * y ^ 3 := by
  norm_num
  have hd : 0 < y - x := sub_pos.2 h
  have hq : 0 < 14 / 625 - 7 / 2000 * (x + y) + 7 / 25000 * (x ^ 2 + x * y + y ^ 2) := by
    nlinarith [sq_nonneg (x + y - 25 / 3), sq_nonneg (x - y)]
  have := mul_pos hd hq
  nlinarith

/-- C99, in part: with dew points above -100 C, the infrared radiation of the sky is positive, and it grows with the
cover of clouds; with a cover that is a fraction and a dew point up to 45 C, it is less than that of a black body at
the temperature of the air.  Missing: that a cover has the effect that it has in the formula
(`C99_violated_units`). -/
theorem C99_infrared_partial (dryBulb dewPoint c c' : ℝ) (h : -100 ≤ dewPoint) (ht : -273.15 < dryBulb) (hc : 0 ≤ c) :
    0 < deriveHorizontalIr dryBulb dewPoint c ∧
    (c < c' → deriveHorizontalIr dryBulb dewPoint c < deriveHorizontalIr dryBulb dewPoint c') ∧
    (c ≤ 1 → dewPoint ≤ 45 → deriveHorizontalIr dryBulb dewPoint c < 5.670374419e-8 * (dryBulb + 273.15) ^ 4) := by
  have hcl := clear_bounds h
  have hcl0 : 0 < 0.787 + 0.764 * Real.log ((dewPoint + 273.15) / 273) := lt_trans (by norm_num) hcl
  have ht' : 0 < (dryBulb + 273.15) ^ 4 := pow_pos (by linarith) 4
  have h1 : 1 ≤ 1 + 0.0224 * c - 0.0035 * c ^ 2 + 0.00028 * c ^ 3 := by
    rcases hc.eq_or_lt with rfl | hc
    · norm_num
    · have := cloud_mono hc
      simp only [mul_zero, ne_eq, OfNat.ofNat_ne_zero, not_false_eq_true, zero_pow] at this
      linarith
  unfold deriveHorizontalIr
  simp only
  refine ⟨?_, ?_, ?_⟩
  · exact mul_pos (mul_pos (by norm_num) (mul_pos hcl0 (lt_of_lt_of_le one_pos h1))) ht'
  · intro hlt
    refine mul_lt_mul_of_pos_right (mul_lt_mul_of_pos_left ?_ (by norm_num)) ht'
    exact mul_lt_mul_of_pos_left (cloud_mono hlt) hcl0
  · intro hc1 hdp
    refine mul_lt_mul_of_pos_right ?_ ht'
    refine mul_lt_of_lt_one_right (by norm_num) ?_
    have hlog : Real.log ((dewPoint + 273.15) / 273) ≤ 0.1654 := by
      have := Real.log_le_sub_one_of_pos (x := (dewPoint + 273.15) / 273) (by norm_num; linarith)
      refine le_trans this ?_
      norm_num
      linarith
    have hcloud : 1 + 0.0224 * c - 0.0035 * c ^ 2 + 0.00028 * c ^ 3 ≤ 1.02 := by
      rcases hc1.eq_or_lt with rfl | hc1
      · norm_num
      · have := cloud_mono hc1
        norm_num at this ⊢
        linarith
    generalize 1 + 0.0224 * c - 0.0035 * c ^ 2 + 0.00028 * c ^ 3 = q at *
    generalize Real.log ((dewPoint + 273.15) / 273) = l at *
    norm_num at *
    nlinarith

/-- Hypotheses of `C99_infrared_partial` are met by a mild and overcast day. -/
example : 0 < deriveHorizontalIr 20 10 1 :=
  (C99_infrared_partial 20 10 1 1 (by norm_num) (by norm_num) (by norm_num)).1

/-- A cover of clouds given in tenths has the effect that it has in the formula. -/
example (dryBulb dewPoint tenths : ℝ) :
    deriveHorizontalIr dryBulb dewPoint tenths = Spec.infrared dryBulb dewPoint tenths := rfl

/-- C99 is violated: the cover of clouds of the weather is a fraction, and so it is read from weather files.  The
infrared radiation derived for a line of a file is less than that of the formula for the cover of that line; for an
overcast sky, it is less than 89% of it. -/
theorem C99_violated_units (toRadians : ℚ → ℚ) (l : Epw.Line) (h : -100 ≤ l.dewPoint) (ht : -273.15 < (l.dryBulb : ℝ))
    (hc : 0 < l.opaqueSkyCover) :
    deriveHorizontalIr ((Epw.toCurrentWeather toRadians l).dryBulb : ℝ) ((Epw.toCurrentWeather toRadians l).dewPoint : ℝ)
      ((Epw.toCurrentWeather toRadians l).opaqueSkyCover : ℝ) <
      Spec.infrared l.dryBulb l.dewPoint l.opaqueSkyCover ∧
    (l.opaqueSkyCover = 10 →
      deriveHorizontalIr ((Epw.toCurrentWeather toRadians l).dryBulb : ℝ)
        ((Epw.toCurrentWeather toRadians l).dewPoint : ℝ) ((Epw.toCurrentWeather toRadians l).opaqueSkyCover : ℝ) <
        0.89 * Spec.infrared l.dryBulb l.dewPoint l.opaqueSkyCover) := by
  have h' : (-100 : ℝ) ≤ (l.dewPoint : ℝ) := by exact_mod_cast h
  have hc' : (0 : ℝ) < (l.opaqueSkyCover : ℝ) := by exact_mod_cast hc
  have hcl0 : 0 < 0.787 + 0.764 * Real.log (((l.dewPoint : ℝ) + 273.15) / 273) :=
    lt_trans (by norm_num) (clear_bounds h')
  have ht' : 0 < ((l.dryBulb : ℝ) + 273.15) ^ 4 := pow_pos (by linarith) 4
  have hcov : ((Epw.toCurrentWeather toRadians l).opaqueSkyCover : ℝ) = (l.opaqueSkyCover : ℝ) / 10 := by
    simp [Epw.toCurrentWeather]
  constructor
  · rw [hcov]
    exact (C99_infrared_partial l.dryBulb l.dewPoint ((l.opaqueSkyCover : ℝ) / 10) l.opaqueSkyCover h' ht
      (by positivity)).2.1 (by linarith)
  · intro hten
    rw [hcov, hten]
    unfold deriveHorizontalIr Spec.infrared
    simp only [Epw.toCurrentWeather]
    generalize 0.787 + 0.764 * Real.log (((l.dewPoint : ℝ) + 273.15) / 273) = e at *
    generalize ((l.dryBulb : ℝ) + 273.15) ^ 4 = w at *
    have := mul_pos hcl0 ht'
    norm_num
    nlinarith

/-- Hypotheses of `C99_violated_units` are met by any line with these values. -/
example (l : Epw.Line) : let l := { l with dewPoint := 10, dryBulb := 20, opaqueSkyCover := 10 };
    (-100 ≤ l.dewPoint ∧ -273.15 < (l.dryBulb : ℝ) ∧ 0 < l.opaqueSkyCover) := by norm_num

/-- C99 is violated: a missing value of a weather file, which is written 9999, is taken for the infrared radiation
of the sky; nothing is derived. -/
theorem C99_violated_missing (toRadians : ℚ → ℚ) (l : Epw.Line) (h : l.infrared = 9999) :
    horizontalIr ((Epw.toCurrentWeather toRadians l).infrared.map (fun x : ℚ => (x : ℝ)))
      ((Epw.toCurrentWeather toRadians l).dryBulb : ℝ) ((Epw.toCurrentWeather toRadians l).dewPoint : ℝ)
      ((Epw.toCurrentWeather toRadians l).opaqueSkyCover : ℝ) = 9999 := by
  simp [Epw.toCurrentWeather, horizontalIr, h]

end Simple.Weather.Radiation
