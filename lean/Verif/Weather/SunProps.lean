import Mathlib.Tactic.NormNum
import Mathlib.Tactic.Linarith
import Mathlib.Tactic.Ring
import Mathlib.Tactic.FieldSimp
import Mathlib.Tactic.Positivity
import Mathlib.Analysis.Real.Pi.Bounds
import Verif.Weather.SunModel

/-! # C66: the position of the sun -/

namespace Simple.Weather.Sun

open Geometry

namespace Spec

/-- The sun in the frame of the equator, seen from a place whose meridian is at hour angle zero: `x` points to
the meridian on the equator, `y` to the west and `z` to the north pole. -/
noncomputable def equatorial (declination hourAngle : ℝ) : V3 ℝ :=
  ⟨Real.cos declination * Real.cos hourAngle, Real.cos declination * Real.sin hourAngle, Real.sin declination⟩

/-- A vector of the frame of the equator in that of the horizon at a latitude: `x` points east, `y` north and `z`
up. -/
noncomputable def horizon (latitude : ℝ) (v : V3 ℝ) : V3 ℝ :=
  ⟨-v.y, -Real.sin latitude * v.x + Real.cos latitude * v.z, Real.cos latitude * v.x + Real.sin latitude * v.z⟩

/-- The direction of the sun. -/
noncomputable def sun (latitude declination hourAngle : ℝ) : V3 ℝ := horizon latitude (equatorial declination hourAngle)

/-- The hour angle: a whole turn a day, zero at noon. -/
noncomputable def hourAngle (solarTime : ℝ) : ℝ := 2 * Real.pi * (solarTime - ⌊solarTime⌋ - 1 / 2)

end Spec

/-- The direction of the sun has length one. -/
theorem C66_unit (latitude declination hourAngle : ℝ) :
    (Spec.sun latitude declination hourAngle).lengthSquared = 1 := by
  simp only [Spec.sun, Spec.horizon, Spec.equatorial, V3.lengthSquared]
  have h1 := Real.sin_sq_add_cos_sq latitude
  have h2 := Real.sin_sq_add_cos_sq declination
  have h3 := Real.sin_sq_add_cos_sq hourAngle
  generalize Real.sin latitude = a at *
  generalize Real.cos latitude = b at *
  generalize Real.sin declination = c at *
  generalize Real.cos declination = d at *
  generalize Real.sin hourAngle = e at *
  generalize Real.cos hourAngle = f at *
  have : -(d * e) * -(d * e) + (-a * (d * f) + b * c) * (-a * (d * f) + b * c) +
      (b * (d * f) + a * c) * (b * (d * f) + a * c) = d ^ 2 * e ^ 2 + (a ^ 2 + b ^ 2) * (d ^ 2 * f ^ 2 + c ^ 2) := by
    ring
  rw [this, h1, one_mul, show d ^ 2 * e ^ 2 + (d ^ 2 * f ^ 2 + c ^ 2) = d ^ 2 * (e ^ 2 + f ^ 2) + c ^ 2 by ring, h3]
  linarith

/-- The declination stays well within a quarter of a turn. -/
theorem C66_declination (n : ℝ) : |declination n| < 1 / 2 := by
  unfold declination
  simp only
  rw [abs_lt]
  constructor <;>
  nlinarith [Real.neg_one_le_cos (dayAngle n), Real.cos_le_one (dayAngle n), Real.neg_one_le_sin (dayAngle n),
    Real.sin_le_one (dayAngle n), Real.neg_one_le_cos (2 * dayAngle n), Real.cos_le_one (2 * dayAngle n),
    Real.neg_one_le_sin (2 * dayAngle n), Real.sin_le_one (2 * dayAngle n), Real.neg_one_le_cos (3 * dayAngle n),
    Real.cos_le_one (3 * dayAngle n), Real.neg_one_le_sin (3 * dayAngle n), Real.sin_le_one (3 * dayAngle n)]

private theorem hourAngle_eq (s : Solar) {n : ℝ} (hn : 0 ≤ n) : hourAngle s (.solar n) = Spec.hourAngle n := by
  unfold hourAngle unwrapSolar remOne toRadians Spec.hourAngle
  simp only
  rw [if_pos hn, Int.fract]
  ring

private theorem hourAngle_range (n : ℝ) : -Real.pi ≤ Spec.hourAngle n ∧ Spec.hourAngle n < Real.pi := by
  unfold Spec.hourAngle
  have h1 := Int.floor_le n
  have h2 := Int.lt_floor_add_one n
  have hp := Real.pi_pos
  constructor <;> nlinarith

private theorem cos_declination (n : ℝ) : 0 < Real.cos (declination n) := by
  have := abs_lt.1 (C66_declination n)
  have hp := Real.pi_gt_three
  exact Real.cos_pos_of_mem_Ioo ⟨by linarith [this.1], by linarith [this.2]⟩

/-- The first test finds the night, when there is a sunrise. -/
private theorem isNight_iff (s : Solar) {n : ℝ} (hlat : |s.latitude| < Real.pi / 2) (h : isNight s n = true) :
    (Spec.sun s.latitude (declination n) (Spec.hourAngle n)).z < 0 := by
  unfold isNight sunriseSunset acos at h
  simp only at h
  split at h
  · cases h
  · rename_i sunrise sunset heq
    by_cases hc : -1 ≤ -Real.tan s.latitude * Real.tan (declination n) ∧ -Real.tan s.latitude * Real.tan (declination n) ≤ 1
    · rw [if_pos hc] at heq
      simp only [Option.map_some, Option.some.injEq, Prod.mk.injEq] at heq
      rw [← heq.1, ← heq.2] at h
      replace h := of_decide_eq_true h
      simp only [unwrapSolar, toDegrees] at h
      have hp := Real.pi_pos
      obtain ⟨hr1, hr2⟩ := hourAngle_range n
      have hw : Real.arccos (-Real.tan s.latitude * Real.tan (declination n)) < |Spec.hourAngle n| := by
        generalize Real.arccos (-Real.tan s.latitude * Real.tan (declination n)) = w at h ⊢
        have key : w * 180 / Real.pi / 15 / 24 = w / (2 * Real.pi) := by field_simp; ring
        rw [key] at h
        have hmul : 2 * Real.pi * (w / (2 * Real.pi)) = w := by field_simp
        rcases h with h | h
        · refine lt_of_lt_of_le ?_ (neg_le_abs _)
          unfold Spec.hourAngle
          nlinarith
        · refine lt_of_lt_of_le ?_ (le_abs_self _)
          unfold Spec.hourAngle
          nlinarith
      have hcos : Real.cos (Spec.hourAngle n) < -Real.tan s.latitude * Real.tan (declination n) := by
        rw [← Real.cos_abs, ← Real.cos_arccos hc.1 hc.2]
        apply Real.cos_lt_cos_of_nonneg_of_le_pi (Real.arccos_nonneg _) _ hw
        rw [abs_le]
        exact ⟨hr1, hr2.le⟩
      have hlat' := abs_lt.1 hlat
      have hcl : 0 < Real.cos s.latitude := Real.cos_pos_of_mem_Ioo ⟨by linarith [hlat'.1], hlat'.2⟩
      have hcd := cos_declination n
      rw [Real.tan_eq_sin_div_cos, Real.tan_eq_sin_div_cos] at hcos
      simp only [Spec.sun, Spec.horizon, Spec.equatorial]
      have hm := mul_lt_mul_of_pos_left hcos (mul_pos hcl hcd)
      have : Real.cos s.latitude * Real.cos (declination n) *
          (-(Real.sin s.latitude / Real.cos s.latitude) * (Real.sin (declination n) / Real.cos (declination n))) =
          -(Real.sin s.latitude * Real.sin (declination n)) := by field_simp
      rw [this] at hm
      linarith
    · rw [if_neg hc] at heq
      cases heq

/-- C66: away from the poles, there is no sun position exactly when the sun is below the horizon; otherwise, the
position is exactly the direction of the sun, except that less than a degree from the vertical it is the
vertical. -/
theorem C66_sun_position (s : Solar) (time : Time) (hlat : |s.latitude| < Real.pi / 2)
    (hn : 0 ≤ unwrapSolar s time) :
    let n := unwrapSolar s time
    let sun := Spec.sun s.latitude (declination n) (Spec.hourAngle n)
    (sunPosition s time = none ↔ sun.z < 0) ∧
    (0 ≤ sun.z → sun.z ≤ 0.9999 → sunPosition s time = some sun) ∧
    (0.9999 < sun.z → sunPosition s time = some ⟨0, 0, 1⟩ ∧ 0.9999 < (⟨0, 0, 1⟩ : V3 ℝ).dot sun) := by
  intro n sun
  have hn' : 0 ≤ n := hn
  have hz : sun.z = Real.cos s.latitude * Real.cos (declination n) * Real.cos (Spec.hourAngle n) +
      Real.sin s.latitude * Real.sin (declination n) := by
    simp only [sun, Spec.sun, Spec.horizon, Spec.equatorial]; ring
  have hunit := C66_unit s.latitude (declination n) (Spec.hourAngle n)
  change sun.lengthSquared = 1 at hunit
  have hlat' := abs_lt.1 hlat
  have hcl : 0 < Real.cos s.latitude := Real.cos_pos_of_mem_Ioo ⟨by linarith [hlat'.1], hlat'.2⟩
  -- the three cases
  have hbelow : sun.z < 0 → sunPosition s time = none := by
    intro h
    unfold sunPosition
    simp only
    by_cases hN : isNight s (unwrapSolar s time) = true
    · rw [if_pos hN]
    · rw [if_neg hN, hourAngle_eq s hn, if_pos (by rw [← hz]; exact h)]
  have hday : 0 ≤ sun.z → ¬ isNight s (unwrapSolar s time) = true := by
    intro h hN
    have := isNight_iff s hlat hN
    exact absurd this (not_lt.2 h)
  have hmid : 0 ≤ sun.z → sun.z ≤ 0.9999 → sunPosition s time = some sun := by
    intro h0 h1
    unfold sunPosition
    simp only
    rw [if_neg (hday h0), hourAngle_eq s hn]
    change (if Real.cos s.latitude * Real.cos (declination n) * Real.cos (Spec.hourAngle n) +
      Real.sin s.latitude * Real.sin (declination n) < 0 then none else _) = _
    rw [← hz, if_neg (not_lt.2 h0), if_neg (not_lt.2 h1)]
    have hsq : 0 < 1 - sun.z ^ 2 := by norm_num at h1; nlinarith
    have hsin : Real.sin (Real.arccos sun.z) = Real.sqrt (1 - sun.z ^ 2) := Real.sin_arccos _
    have hS : 0 < Real.sqrt (1 - sun.z ^ 2) := Real.sqrt_pos.2 hsq
    have hS2 : Real.sqrt (1 - sun.z ^ 2) ^ 2 = 1 - sun.z ^ 2 := Real.sq_sqrt hsq.le
    rw [hsin]
    generalize Real.sqrt (1 - sun.z ^ 2) = S at hS hS2 ⊢
    have hxy : sun.x ^ 2 + sun.y ^ 2 = S ^ 2 := by
      unfold V3.lengthSquared at hunit
      rw [hS2]; linarith
    have hy : (sun.z * Real.sin s.latitude - Real.sin (declination n)) / (S * Real.cos s.latitude) = -sun.y / S := by
      have : sun.z * Real.sin s.latitude - Real.sin (declination n) = -sun.y * Real.cos s.latitude := by
        rw [hz]
        simp only [sun, Spec.sun, Spec.horizon, Spec.equatorial]
        have := Real.sin_sq_add_cos_sq s.latitude
        linear_combination Real.sin (declination n) * this
      rw [this]
      field_simp
    rw [hy]
    have hyS : |sun.y| ≤ S := abs_le_of_sq_le_sq (by nlinarith [sq_nonneg sun.x]) hS.le
    obtain ⟨hy1, hy2⟩ := abs_le.1 hyS
    have hclamp : clamp (-sun.y / S) (-1) 1 = -sun.y / S := by
      unfold clamp
      rw [if_neg (not_lt.2 (by rw [le_div_iff₀ hS]; linarith)), if_neg (not_lt.2 (by rw [div_le_iff₀ hS]; linarith))]
    rw [hclamp, Real.sin_arccos]
    have hx : Real.sqrt (1 - (-sun.y / S) ^ 2) * S = |sun.x| := by
      have : 1 - (-sun.y / S) ^ 2 = (sun.x / S) ^ 2 := by
        rw [div_pow, div_pow]
        field_simp
        linarith
      rw [this, Real.sqrt_sq_eq_abs, abs_div, abs_of_pos hS, div_mul_cancel₀ _ hS.ne']
    have hy' : -(-sun.y / S) * S = sun.y := by field_simp
    rw [hx, hy']
    have hsx : sun.x = -(Real.cos (declination n) * Real.sin (Spec.hourAngle n)) := rfl
    have hcd := cos_declination n
    obtain ⟨hr1, hr2⟩ := hourAngle_range n
    congr 1
    ext
    · simp only
      split_ifs with ho
      · have : 0 ≤ Real.sin (Spec.hourAngle n) := Real.sin_nonneg_of_nonneg_of_le_pi ho.le hr2.le
        rw [abs_of_nonpos (by rw [hsx]; have := mul_nonneg hcd.le this; linarith)]
        ring
      · have : Real.sin (Spec.hourAngle n) ≤ 0 := Real.sin_nonpos_of_nonpos_of_neg_pi_le (not_lt.1 ho) hr1
        rw [abs_of_nonneg (by rw [hsx]; have := mul_nonneg hcd.le (neg_nonneg.2 this); linarith)]
    · rfl
    · rfl
  have htop : 0.9999 < sun.z → sunPosition s time = some ⟨0, 0, 1⟩ := by
    intro h
    have h0 : 0 ≤ sun.z := by norm_num at h; linarith
    unfold sunPosition
    simp only
    rw [if_neg (hday h0), hourAngle_eq s hn]
    change (if Real.cos s.latitude * Real.cos (declination n) * Real.cos (Spec.hourAngle n) +
      Real.sin s.latitude * Real.sin (declination n) < 0 then none else _) = _
    rw [← hz, if_neg (not_lt.2 h0), if_pos h]
  refine ⟨⟨fun h => ?_, hbelow⟩, hmid, fun h => ⟨htop h, ?_⟩⟩
  · by_contra hc
    rw [not_lt] at hc
    by_cases h1 : sun.z ≤ 0.9999
    · rw [hmid hc h1] at h; cases h
    · rw [htop (not_le.1 h1)] at h; cases h
  · simp only [V3.dot]; linarith

/-- C66: whenever there is a sun position it is a unit vector, not below the horizon. -/
theorem C66_length (s : Solar) (time : Time) (v : V3 ℝ) (hlat : |s.latitude| < Real.pi / 2)
    (hn : 0 ≤ unwrapSolar s time) (hv : sunPosition s time = some v) : v.lengthSquared = 1 ∧ 0 ≤ v.z := by
  obtain ⟨h1, h2, h3⟩ := C66_sun_position s time hlat hn
  by_cases hz : (Spec.sun s.latitude (declination (unwrapSolar s time)) (Spec.hourAngle (unwrapSolar s time))).z < 0
  · rw [h1.2 hz] at hv; cases hv
  rw [not_lt] at hz
  by_cases ht : (Spec.sun s.latitude (declination (unwrapSolar s time)) (Spec.hourAngle (unwrapSolar s time))).z ≤ 0.9999
  · rw [h2 hz ht] at hv
    cases hv
    exact ⟨C66_unit _ _ _, hz⟩
  · rw [(h3 (not_le.1 ht)).1] at hv
    cases hv
    norm_num [V3.lengthSquared]

/-- C66: before solar noon the sun is to the east, after it to the west, and at noon in the plane of the
meridian. -/
theorem C66_east_west (s : Solar) (time : Time) (v : V3 ℝ) (hlat : |s.latitude| < Real.pi / 2)
    (hn : 0 ≤ unwrapSolar s time) (hv : sunPosition s time = some v) (hvert : v.z ≤ 0.9999) :
    (0 < Int.fract (unwrapSolar s time) → Int.fract (unwrapSolar s time) < 1 / 2 → 0 < v.x) ∧
    (Int.fract (unwrapSolar s time) = 1 / 2 → v.x = 0) ∧
    (1 / 2 < Int.fract (unwrapSolar s time) → v.x < 0) := by
  obtain ⟨h1, h2, h3⟩ := C66_sun_position s time hlat hn
  by_cases hz : (Spec.sun s.latitude (declination (unwrapSolar s time)) (Spec.hourAngle (unwrapSolar s time))).z < 0
  · rw [h1.2 hz] at hv; cases hv
  rw [not_lt] at hz
  by_cases ht : (Spec.sun s.latitude (declination (unwrapSolar s time)) (Spec.hourAngle (unwrapSolar s time))).z ≤ 0.9999
  · rw [h2 hz ht] at hv
    cases hv
    have hcd := cos_declination (unwrapSolar s time)
    have ho : Spec.hourAngle (unwrapSolar s time) = 2 * Real.pi * (Int.fract (unwrapSolar s time) - 1 / 2) := rfl
    have hlt := Int.fract_lt_one (unwrapSolar s time)
    have hp := Real.pi_pos
    simp only [Spec.sun, Spec.horizon, Spec.equatorial]
    rw [ho]
    generalize Int.fract (unwrapSolar s time) = t at hlt
    refine ⟨fun h0 h => ?_, fun h => ?_, fun h => ?_⟩
    · have := Real.sin_neg_of_neg_of_neg_pi_lt (x := 2 * Real.pi * (t - 1 / 2)) (by nlinarith) (by nlinarith)
      have := mul_pos hcd (neg_pos.2 this)
      linarith
    · rw [h]; simp
    · have := Real.sin_pos_of_pos_of_lt_pi (x := 2 * Real.pi * (t - 1 / 2)) (by nlinarith) (by nlinarith)
      have := mul_pos hcd this
      linarith
  · rw [(h3 (not_le.1 ht)).1] at hv
    cases hv
    norm_num at hvert

/-- C66: where there is a sunrise, sunrise and sunset are at the same distance of noon, on either side, and the
sun is at the horizon at both. -/
theorem C66_sunrise (s : Solar) (n : ℝ) (sunrise sunset : Time) (hlat : |s.latitude| < Real.pi / 2)
    (h : sunriseSunset s n = some (sunrise, sunset)) :
    unwrapSolar s sunrise + unwrapSolar s sunset = 2 * (⌊n⌋ + 1 / 2) ∧ unwrapSolar s sunrise ≤ unwrapSolar s sunset ∧
    ∀ t ∈ [sunrise, sunset],
      (Spec.sun s.latitude (declination n) (2 * Real.pi * (unwrapSolar s t - ⌊n⌋ - 1 / 2))).z = 0 := by
  unfold sunriseSunset acos at h
  simp only at h
  by_cases hc : -1 ≤ -Real.tan s.latitude * Real.tan (declination n) ∧ -Real.tan s.latitude * Real.tan (declination n) ≤ 1
  · rw [if_pos hc] at h
    simp only [Option.map_some, Option.some.injEq, Prod.mk.injEq] at h
    rw [← h.1, ← h.2]
    have hp := Real.pi_pos
    have hlat' := abs_lt.1 hlat
    have hcl : 0 < Real.cos s.latitude := Real.cos_pos_of_mem_Ioo ⟨by linarith [hlat'.1], hlat'.2⟩
    have hcd := cos_declination n
    have hcos := Real.cos_arccos hc.1 hc.2
    have hw0 := Real.arccos_nonneg (-Real.tan s.latitude * Real.tan (declination n))
    generalize Real.arccos (-Real.tan s.latitude * Real.tan (declination n)) = w at hcos hw0 ⊢
    have hzero : Real.cos s.latitude * (Real.cos (declination n) * Real.cos w) + Real.sin s.latitude * Real.sin (declination n) = 0 := by
      rw [hcos, Real.tan_eq_sin_div_cos, Real.tan_eq_sin_div_cos]
      field_simp
      ring
    simp only [unwrapSolar, toDegrees]
    refine ⟨by ring, ?_, ?_⟩
    · have : 0 ≤ w * 180 / Real.pi / 15 / 24 := by positivity
      linarith
    · intro t ht
      simp only [List.mem_cons, List.not_mem_nil, or_false] at ht
      simp only [Spec.sun, Spec.horizon, Spec.equatorial]
      rcases ht with rfl | rfl
      · rw [show 2 * Real.pi * ((⌊n⌋ : ℝ) + 0.5 - w * 180 / Real.pi / 15 / 24 - ⌊n⌋ - 1 / 2) = -w by
          field_simp; ring, Real.cos_neg]
        exact hzero
      · rw [show 2 * Real.pi * ((⌊n⌋ : ℝ) + 0.5 + w * 180 / Real.pi / 15 / 24 - ⌊n⌋ - 1 / 2) = w by
          field_simp; ring]
        exact hzero
  · rw [if_neg hc] at h
    cases h

/-- C66: going from standard to solar time and back, or the other way round, changes the time only by what the
equation of time changes meanwhile. -/
theorem C66_times (s : Solar) (t : ℝ) :
    unwrapStandard s (.solar (unwrapSolar s (.standard t))) =
      t + (equationOfTime t - equationOfTime (unwrapSolar s (.standard t))) / 1440 := by
  simp only [unwrapStandard, unwrapSolar, timeDifference]
  ring

/-- Noon at the equator, on day zero: a place and a time that meet the hypotheses. -/
example : |(⟨0, 0, 0⟩ : Solar).latitude| < Real.pi / 2 ∧ 0 ≤ unwrapSolar ⟨0, 0, 0⟩ (.solar (1 / 2)) ∧
    ∃ v, sunPosition ⟨0, 0, 0⟩ (.solar (1 / 2)) = some v := by
  have hp := Real.pi_pos
  have h1 : |(⟨0, 0, 0⟩ : Solar).latitude| < Real.pi / 2 := by simp; linarith
  have h2 : 0 ≤ unwrapSolar ⟨0, 0, 0⟩ (.solar (1 / 2)) := by norm_num [unwrapSolar]
  refine ⟨h1, h2, ?_⟩
  obtain ⟨h, -⟩ := C66_sun_position ⟨0, 0, 0⟩ (.solar (1 / 2)) h1 h2
  simp only at h
  cases hv : sunPosition ⟨0, 0, 0⟩ (.solar (1 / 2)) with
  | some v => exact ⟨v, rfl⟩
  | none =>
    have := h.1 hv
    simp only [Spec.sun, Spec.horizon, Spec.equatorial, Spec.hourAngle, unwrapSolar] at this
    rw [show ⌊(1 / 2 : ℝ)⌋ = 0 by norm_num [Int.floor_eq_iff]] at this
    have hcd := cos_declination (1 / 2)
    norm_num at this
    linarith

end Simple.Weather.Sun
