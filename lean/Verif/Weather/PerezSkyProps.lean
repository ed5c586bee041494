import Mathlib.Analysis.Real.Pi.Bounds
import Mathlib.Tactic.IntervalCases
import Mathlib.Analysis.SpecialFunctions.Trigonometric.Bounds
import Verif.Weather.PerezSkyModel
import Verif.Weather.PerezProps
import Verif.Weather.RadiationProps
import Verif.Weather.SkyVecProps

/-! # C100: the radiance of the sky -/

namespace Simple.Weather.Perez

open Geometry

/-! ## The indices of the sky -/

/-- C100: the clearness of a sky is at least one, it is one exactly when there is no direct radiation, and it grows
with the direct radiation; the brightness is at least a hundredth, and grows with the diffuse radiation; the water
of the air is positive and grows with the dew point. -/
theorem C100_indices (diffuse direct direct' zenith airMass extra dewPoint dewPoint' : ℝ) (hd : 0 < diffuse)
    (hb : 0 ≤ direct) (hz : 0 ≤ zenith) (hm : 0 < airMass) (he : 0 < extra) :
    1 ≤ skyClearness diffuse direct zenith ∧ (skyClearness diffuse direct zenith = 1 ↔ direct = 0) ∧
    (direct < direct' → skyClearness diffuse direct zenith < skyClearness diffuse direct' zenith) ∧
    0.01 ≤ skyBrightness diffuse airMass extra ∧
    (∀ diffuse', diffuse ≤ diffuse' → skyBrightness diffuse airMass extra ≤ skyBrightness diffuse' airMass extra) ∧
    0 < waterContent dewPoint ∧ (dewPoint < dewPoint' → waterContent dewPoint < waterContent dewPoint') := by
  have hk : 0 < 1 + 1.041 * zenith ^ 3 := by positivity
  have key : ∀ x, skyClearness diffuse x zenith = 1 + x / diffuse / (1 + 1.041 * zenith ^ 3) := by
    intro x
    unfold skyClearness
    simp only
    field_simp
    ring
  refine ⟨?_, ?_, ?_, ?_, ?_, Real.exp_pos _, ?_⟩
  · rw [key]
    have : 0 ≤ direct / diffuse / (1 + 1.041 * zenith ^ 3) := by positivity
    linarith
  · rw [key]
    constructor
    · intro h
      have h0 : direct / diffuse / (1 + 1.041 * zenith ^ 3) = 0 := by linarith
      rcases div_eq_zero_iff.1 h0 with h1 | h1
      · rcases div_eq_zero_iff.1 h1 with h2 | h2
        · exact h2
        · exact absurd h2 hd.ne'
      · exact absurd h1 hk.ne'
    · rintro rfl
      simp
  · intro h
    rw [key, key]
    have := div_lt_div_of_pos_right (div_lt_div_of_pos_right h hd) hk
    linarith
  · unfold skyBrightness
    simp only
    split_ifs with h
    · exact le_rfl
    · exact not_lt.1 h
  · intro diffuse' h
    have h1 : diffuse * airMass / extra ≤ diffuse' * airMass / extra := by gcongr
    unfold skyBrightness
    simp only
    split_ifs with h2 h3 h3
    · exact le_rfl
    · exact not_lt.1 h3
    · linarith
    · exact h1
  · intro h
    unfold waterContent
    refine Real.exp_lt_exp.2 ?_
    norm_num
    linarith

/-- Hypotheses of `C100_indices` are met by 100 W/m2 of diffuse and 500 of direct radiation. -/
example : 1 ≤ skyClearness 100 500 1 :=
  (C100_indices 100 500 500 1 1 1367 10 10 (by norm_num) (by norm_num) (by norm_num) (by norm_num) (by norm_num)).1

/-- C100: for every category of sky, the luminous efficacy of the diffuse radiation is positive, with a sun above the
horizon, a brightness between a hundredth and two, and up to 10 cm of water. -/
theorem C100_diffuse_ratio (water cosZenith brightness clearness : ℝ) (hw : 0 ≤ water) (hw' : water ≤ 10)
    (hc : 0 ≤ cosZenith) (hc' : cosZenith ≤ 1) (hb : 0 < brightness) (hb' : brightness ≤ 2) :
    ∃ r, diffuseIlluminanceRatio water cosZenith brightness (clearnessCategory clearness) = .ok r ∧ 0 < r := by
  have h := (C38_clearness clearness 0).2.1
  have hl : Real.log brightness ≤ 1 := by
    have := Real.log_le_sub_one_of_pos hb
    linarith
  unfold diffuseIlluminanceRatio
  rw [if_neg (by omega)]
  generalize clearnessCategory clearness = i at h
  have h8 : i < 8 := by omega
  interval_cases i <;> refine ⟨_, rfl, ?_⟩ <;> norm_num <;> nlinarith

/-- Hypotheses of `C100_diffuse_ratio` are met by a usual day. -/
example : ∃ r, diffuseIlluminanceRatio 1.5 0.5 0.2 (clearnessCategory 3) = .ok r ∧ 0 < r :=
  C100_diffuse_ratio 1.5 0.5 0.2 3 (by norm_num) (by norm_num) (by norm_num) (by norm_num) (by norm_num) (by norm_num)

/-! ## Overcast skies -/

private theorem overcast_params (zenith delta : ℝ) (hz : 0 ≤ zenith) (hz' : zenith ≤ 1.58) (hd : 0 ≤ delta)
    (hd' : delta ≤ 0.5) :
    let p := calcParams zenith 1 delta
    p.b ≤ 0 ∧ -0.5 ≤ p.a ∧ 0 ≤ p.c ∧ -0.5 ≤ p.e := by
  have hcat : clearnessCategory 1 = 0 := by
    unfold clearnessCategory
    rw [if_pos (by norm_num)]
  have hx : ∀ i j, param 0 i j = (((paramTable.getD 0 []).getD (4 * i + j) 0 : ℤ) : ℝ) / 10000 := fun _ _ => rfl
  have hzd : 0 ≤ zenith * delta := mul_nonneg hz hd
  have hzd' : zenith * delta ≤ 1.58 * delta := by gcongr
  unfold calcParams
  simp only [hcat]
  rw [if_neg (by norm_num), if_neg (by norm_num)]
  simp only [hx, paramTable]
  refine ⟨?_, ?_, ?_, ?_⟩
  · norm_num at *
    nlinarith
  · norm_num at *
    nlinarith
  · norm_num at *
    refine Real.rpow_nonneg ?_ _
    positivity
  · norm_num at *
    nlinarith

/-- C100: with no direct radiation and a brightness up to a half, the relative radiance of the sky is positive in
every direction.

Missing: skies that are not overcast (`C100_violated_negative`). -/
theorem C100_overcast_positive_partial (zenith delta : ℝ) (sun dir : V3 ℝ) (hz : 0 ≤ zenith) (hz' : zenith ≤ Real.pi / 2)
    (hd : 0 ≤ delta) (hd' : delta ≤ 0.5) (hs : sun.lengthSquared = 1) (hdir : dir.lengthSquared = 1) :
    0.25 ≤ relativeRadiance (calcParams zenith 1 delta) sun dir := by
  obtain ⟨hb, ha, hc, he⟩ := overcast_params zenith delta hz (by have := Real.pi_lt_d2; norm_num at *; linarith) hd hd'
  generalize calcParams zenith 1 delta = p at *
  have hdot : (sun.dot dir) * (sun.dot dir) ≤ 1 := by
    unfold V3.lengthSquared at hs hdir
    unfold V3.dot
    nlinarith [sq_nonneg (sun.x * dir.y - sun.y * dir.x), sq_nonneg (sun.y * dir.z - sun.z * dir.y),
      sq_nonneg (sun.z * dir.x - sun.x * dir.z)]
  unfold relativeRadiance
  simp only
  have hzeta : 0 < (if dir.z < 0.01 then (0.01 : ℝ) else dir.z) := by
    split_ifs with h
    · norm_num
    · exact lt_of_lt_of_le (by norm_num) (not_lt.1 h)
  generalize (if dir.z < 0.01 then (0.01 : ℝ) else dir.z) = zeta at hzeta
  have he1 : Real.exp (p.b / zeta) ≤ 1 := Real.exp_le_one_iff.2 (div_nonpos_of_nonpos_of_nonneg hb hzeta.le)
  have he0 := Real.exp_pos (p.b / zeta)
  have hf : 0 ≤ p.c * Real.exp (p.d * Real.arccos (sun.dot dir)) := mul_nonneg hc (Real.exp_pos _).le
  have h1 : 0.5 ≤ 1 + p.a * Real.exp (p.b / zeta) := by
    generalize Real.exp (p.b / zeta) = x at he0 he1
    norm_num at *
    nlinarith
  have hsq : 0 ≤ (sun.dot dir) * (sun.dot dir) := mul_self_nonneg _
  have h2 : 0.5 ≤ 1 + p.c * Real.exp (p.d * Real.arccos (sun.dot dir)) + p.e * sun.dot dir * sun.dot dir := by
    rw [mul_assoc]
    generalize sun.dot dir * sun.dot dir = q at hsq hdot
    generalize p.c * Real.exp (p.d * Real.arccos (sun.dot dir)) = w at hf
    norm_num at *
    nlinarith
  calc (0.25 : ℝ) = 0.5 * 0.5 := by norm_num
    _ ≤ _ := mul_le_mul h1 h2 (by norm_num) (le_trans (by norm_num) h1)

/-- The bins of the sky are not under the horizon. -/
private theorem bin_up {r : Reinhart.Sky} (hr : Reinhart.new 1 = .ok r) {angle : ℕ → ℝ} {dir : ℕ → V3 ℝ}
    (hb : Spec.Bins r angle dir) {b : ℕ} (h1 : 1 ≤ b) (h2 : b < r.nBins) : 0 ≤ (dir b).z := by
  obtain ⟨d, e1, -, e3⟩ := Reinhart.C36_round_trip 1 b r hr h2
  rw [(hb.dir b h2).1] at e1
  cases e1
  by_contra hneg
  unfold Reinhart.dirToBin at e3
  rw [if_pos (not_le.1 hneg)] at e3
  cases e3
  omega

/-- The bin around the zenith, which is a cone of six degrees. -/
private theorem cap_bin {r : Reinhart.Sky} (hr : Reinhart.new 1 = .ok r) {angle : ℕ → ℝ} {dir : ℕ → V3 ℝ}
    (hb : Spec.Bins r angle dir) :
    2 ≤ r.nBins ∧ dir (r.nBins - 1) = ⟨0, 0, 1⟩ ∧ 0.01 ≤ angle (r.nBins - 1) := by
  obtain ⟨s, e1, e2, -, e4⟩ := (Reinhart.C36_count 1).1 one_pos
  rw [hr] at e1
  cases e1
  have hn : r.nBins = 146 := by rw [e2]; norm_num
  have h := hb.dir (r.nBins - 1) (by omega)
  have ha := hb.angle (r.nBins - 1) (by omega)
  unfold Reinhart.binDir at h
  rw [if_neg (by omega), if_pos rfl] at h
  unfold Reinhart.binSolidAngle at ha
  rw [if_neg (by omega), if_pos rfl] at ha
  refine ⟨by omega, by injection h.1 with h; exact h.symm, ?_⟩
  have ha' : Reinhart.coneSolidAngle (Reinhart.rowHeight r.mf / 2) = angle (r.nBins - 1) := by
    injection ha.1
  rw [← ha', e4]
  have hrow : Reinhart.rowHeight 1 / 2 = Real.pi / 30 := by
    unfold Reinhart.rowHeight Reinhart.tnaz
    norm_num
    ring
  rw [hrow]
  have hpi := Real.pi_gt_three
  have hq := Real.cos_le_one_sub_mul_cos_sq (x := Real.pi / 30) (by rw [abs_of_pos (by positivity)]; linarith)
  have hq' : 2 / Real.pi ^ 2 * (Real.pi / 30) ^ 2 = 1 / 450 := by
    field_simp
    norm_num
  rw [hq'] at hq
  unfold Reinhart.coneSolidAngle
  have : (1 : ℝ) / 450 ≤ 1 - Real.cos (Real.pi / 30) := by linarith
  calc (0.01 : ℝ) ≤ 2 * 3 * (1 / 450) := by norm_num
    _ ≤ 2 * Real.pi * (1 - Real.cos (Real.pi / 30)) := by gcongr

private theorem sunZenith_range {z : ℝ} : 0 ≤ sunZenith z ∧ sunZenith z ≤ Real.pi / 2 := by
  have hpi := Real.pi_pos
  unfold sunZenith Sun.toRadians
  split_ifs with h1 h2
  · constructor <;> linarith
  · constructor <;> linarith
  · exact ⟨Real.arccos_nonneg _, Real.arccos_le_pi_div_two.2 (not_le.1 h1).le⟩

private theorem clamp_id {x lo hi : ℝ} (h1 : lo ≤ x) (h2 : x ≤ hi) : clamp x lo hi = x := by
  unfold clamp
  rw [if_neg (not_lt.2 h1), if_neg (not_lt.2 h2)]

/-- C100, for overcast skies: with no direct radiation and a brightness up to a half, the radiance of the sky is
positive in every direction, and the horizontal irradiance that its 145 bins give is exactly the diffuse radiation
given. -/
theorem C100_overcast (sun : V3 ℝ) (day dewPoint diffuse : ℝ) (r : Reinhart.Sky) (angle : ℕ → ℝ) (dir : ℕ → V3 ℝ)
    (hr : Reinhart.new 1 = .ok r) (hb : Spec.Bins r angle dir) (hs : sun.lengthSquared = 1) (hd : 0 < diffuse)
    (hdim : diffuse * Radiation.airMass (sunZenith sun.z) / Radiation.extraterrestrial day ≤ 0.5) :
    ∃ sky, perezSky .solar sun day dewPoint diffuse 0 = .ok sky ∧
      (∀ d : V3 ℝ, d.lengthSquared = 1 → 0 < sky d) ∧
      ∑ b ∈ Finset.Ico 1 r.nBins, sky (dir b) * angle b * (dir b).z = diffuse := by
  obtain ⟨z0, z1⟩ := sunZenith_range (z := sun.z)
  have hclear : clamp (skyClearness diffuse 0 (sunZenith sun.z)) (-9 * 10 ^ 9) 11.9 = 1 := by
    have := ((C100_indices diffuse 0 0 (sunZenith sun.z) 1 1 0 0 hd le_rfl z0 one_pos one_pos).2.1).2 rfl
    rw [this]
    exact clamp_id (by norm_num) (by norm_num)
  obtain ⟨delta, hdelta, d0, d1⟩ : ∃ delta, clamp (skyBrightness diffuse (Radiation.airMass (sunZenith sun.z))
      (Radiation.extraterrestrial day)) 0.01 (9 * 10 ^ 9) = delta ∧ 0 ≤ delta ∧ delta ≤ 0.5 := by
    refine ⟨_, rfl, ?_⟩
    unfold skyBrightness
    simp only
    split_ifs with h
    · rw [clamp_id le_rfl (by norm_num)]
      norm_num
    · rw [clamp_id (not_lt.1 h) (le_trans hdim (by norm_num))]
      exact ⟨le_trans (by norm_num) (not_lt.1 h), hdim⟩
  obtain ⟨h2, hcap, hangle⟩ := cap_bin hr hb
  have hpos : ∀ d : V3 ℝ, d.lengthSquared = 1 →
      0.25 ≤ relativeRadiance (calcParams (sunZenith sun.z) 1 delta) sun d := fun d hd =>
    C100_overcast_positive_partial _ _ _ _ z0 z1 d0 d1 hs hd
  have hdark : 1 / 10 ^ 4 < ∑ b ∈ Finset.Ico 1 r.nBins,
      relativeRadiance (calcParams (sunZenith sun.z) 1 delta) sun (dir b) * angle b * (dir b).z := by
    have hle := Finset.single_le_sum (f := fun b =>
      relativeRadiance (calcParams (sunZenith sun.z) 1 delta) sun (dir b) * angle b * (dir b).z)
      (s := Finset.Ico 1 r.nBins) (a := r.nBins - 1) (fun b hb' => by
        rw [Finset.mem_Ico] at hb'
        have h1 := hpos _ (hb.dir b hb'.2).2
        exact mul_nonneg (mul_nonneg (le_trans (by norm_num) h1) (hb.angle b hb'.2).2.le) (bin_up hr hb hb'.1 hb'.2))
      (by rw [Finset.mem_Ico]; omega)
    refine lt_of_lt_of_le ?_ hle
    have h1 := hpos _ (hb.dir (r.nBins - 1) (by omega)).2
    rw [hcap] at h1 ⊢
    simp only [mul_one]
    generalize relativeRadiance _ _ _ = x at h1 ⊢
    calc (1 / 10 ^ 4 : ℝ) < 0.25 * 0.01 := by norm_num
      _ ≤ _ := mul_le_mul h1 hangle (by norm_num) (le_trans (by norm_num) h1)
  have hcat := (C38_clearness 1 0).2.1
  obtain ⟨sky, e, ⟨k, k1, -, k3⟩, hsum⟩ := C39_sky_partial r angle dir
    (relativeRadiance (calcParams (sunZenith sun.z) 1 delta) sun) (diffuse * 179) hr hb
    (fun b h1 h2 => le_trans (by norm_num) (hpos _ (hb.dir b h2).2)) hdark
  refine ⟨sky, ?_, ?_, ?_⟩
  · unfold perezSky
    simp only
    rw [hclear, hdelta]
    unfold diffuseIlluminanceRatio
    rw [if_neg (by omega), Outcome.index_of_lt (by simp [diffuseTable]; omega)]
    exact e
  · intro d hd'
    rw [k3]
    exact mul_pos (lt_of_lt_of_le (by norm_num) (hpos d hd')) (k1 (by positivity))
  · rw [hsum]
    ring

/-- Hypotheses of `C100_overcast` are met by 100 W/m2 of diffuse radiation with the sun at the vertical. -/
example (day : ℝ) : (∃ r angle dir, Reinhart.new 1 = .ok r ∧ Spec.Bins r angle dir) ∧
    (⟨0, 0, 1⟩ : V3 ℝ).lengthSquared = 1 ∧
    100 * Radiation.airMass (sunZenith 1) / Radiation.extraterrestrial day ≤ 0.5 := by
  refine ⟨?_, by simp [V3.lengthSquared], ?_⟩
  · obtain ⟨r, hr, -⟩ := (Reinhart.C36_count 1).1 one_pos
    obtain ⟨angle, dir, hb⟩ := bins_exist hr
    exact ⟨r, angle, dir, hr, hb⟩
  · have hpi := Real.pi_pos
    have hz : sunZenith 1 = Sun.toRadians 3 := by
      unfold sunZenith
      rw [if_neg (by norm_num), if_pos (Real.cos_le_one _)]
    obtain ⟨h0, h1⟩ := Radiation.airMass_bounds (t := Sun.toRadians 3) (by unfold Sun.toRadians; positivity)
      (by unfold Sun.toRadians; linarith)
    have hx := (Radiation.C98_extraterrestrial day).1
    rw [hz, div_le_iff₀ (by linarith)]
    norm_num
    linarith

/-! ## Negative radiance -/

private theorem bright_params {zenith : ℝ} (hz : 0.1744 < zenith) (hz' : zenith < 0.175) :
    let p := calcParams zenith 1.6 0.6
    (p.b < -2 ∧ -0.8 < p.a ∧ p.a < 0) ∧ (p.c < -1.7 ∧ -1.8 < p.c) ∧ p.d < -2.7 ∧ 0.34 < p.e ∧ p.e < 0.36 := by
  have hcat : clearnessCategory 1.6 = 3 := by
    unfold clearnessCategory
    rw [if_neg (by norm_num), if_neg (by norm_num), if_neg (by norm_num), if_pos (by norm_num)]
  have hx : ∀ i j, param 3 i j = (((paramTable.getD 3 []).getD (4 * i + j) 0 : ℤ) : ℝ) / 10000 := fun _ _ => rfl
  unfold calcParams
  simp only [hcat]
  rw [if_pos (by norm_num), if_neg (by norm_num)]
  simp only [hx, paramTable]
  norm_num at *
  refine ⟨⟨?_, ?_, ?_⟩, ⟨?_, ?_⟩, ?_, ?_, ?_⟩ <;> linarith

private theorem bright_sun (p : Params) (x z : ℝ) (hb : p.b < -2) (ha : -0.8 < p.a) (ha' : p.a < 0) (hc : p.c < -1.7)
    (he' : p.e < 0.36) (hdot : (⟨x, 0, z⟩ : V3 ℝ).dot ⟨x, 0, z⟩ = 1) (hz : 0.984 < z) :
    relativeRadiance p ⟨x, 0, z⟩ ⟨x, 0, z⟩ < 0 := by
  unfold relativeRadiance
  simp only
  rw [hdot, Real.arccos_one, if_neg (by rw [not_lt]; norm_num at hz ⊢; linarith), mul_zero, Real.exp_zero]
  have e0 := Real.exp_pos (p.b / z)
  have e1 : Real.exp (p.b / z) ≤ 1 := Real.exp_le_one_iff.2 (div_nonpos_of_nonpos_of_nonneg (by linarith) (by linarith))
  generalize Real.exp (p.b / z) = x at e0 e1
  norm_num at *
  refine mul_neg_of_pos_of_neg ?_ ?_
  · nlinarith
  · linarith

private theorem bright_zenith (p : Params) (t : ℝ) (hz1 : 0.1744 < t) (hz2 : t < 0.175) (hcos : 0.984 < Real.cos t)
    (hb : p.b < -2) (ha : -0.8 < p.a) (ha' : p.a < 0) (hc' : -1.8 < p.c) (hd : p.d < -2.7) (he : 0.34 < p.e)
    (hpi : t ≤ Real.pi) (hdot : (⟨Real.sin t, 0, Real.cos t⟩ : V3 ℝ).dot ⟨0, 0, 1⟩ = Real.cos t) :
    0.02 < relativeRadiance p ⟨Real.sin t, 0, Real.cos t⟩ ⟨0, 0, 1⟩ := by
  unfold relativeRadiance
  simp only
  rw [hdot, Real.arccos_cos (by linarith) hpi, if_neg (by norm_num), div_one]
  have e0 := Real.exp_pos p.b
  have e1 : Real.exp p.b ≤ 1 := Real.exp_le_one_iff.2 (by linarith)
  have f0 := Real.exp_pos (p.d * t)
  have f1 : Real.exp (p.d * t) ≤ 0.64 := by
    have h1 : p.d * t ≤ -0.47 := by
      norm_num at hd hz1 ⊢
      nlinarith
    have h2 := Real.quadratic_le_exp_of_nonneg (x := 0.47) (by norm_num)
    have h3 : Real.exp (-0.47) ≤ 0.64 := by
      rw [Real.exp_neg, inv_le_comm₀ (Real.exp_pos _) (by norm_num)]
      refine le_trans ?_ h2
      norm_num
    exact le_trans (Real.exp_le_exp.2 h1) h3
  have hcc : 0.96 < Real.cos t * Real.cos t := by
    norm_num at hcos ⊢
    nlinarith
  have g1 : 0.2 < 1 + p.a * Real.exp p.b := by
    generalize Real.exp p.b = x at e0 e1
    norm_num at ha ⊢
    nlinarith
  have g2 : 0.1 < 1 + p.c * Real.exp (p.d * t) + p.e * Real.cos t * Real.cos t := by
    rw [mul_assoc]
    generalize Real.cos t * Real.cos t = w at hcc
    generalize Real.exp (p.d * t) = x at f0 f1
    norm_num at hcc f1 hc' he ⊢
    nlinarith
  calc (0.02 : ℝ) = 0.2 * 0.1 := by norm_num
    _ < _ := mul_lt_mul g1 g2.le (by norm_num) (le_trans (by norm_num) g1.le)

/-- The radiation of `C100_violated_negative` is less than what reaches the atmosphere. -/
private theorem bright_possible {q k c : ℝ} (q0 : c ≤ q) (q1 : q ≤ c + 0.0018) (hk : k < 1.006) (hk0 : 0 < k)
    (hc : 0.984 < c) (hc1 : c ≤ 1) : 0.6 * q * (1 + 0.6 * k * c) < c := by
  norm_num at *
  have hkc : k * c ≤ 503 / 500 * c := by gcongr
  have : q * (1 + 3 / 5 * (k * c)) ≤ (c + 9 / 5000) * (1 + 3 / 5 * (503 / 500 * c)) := by gcongr
  nlinarith

set_option maxHeartbeats 400000 in
/-- C100 is violated: on every day and with any dew point, there is a sky with a negative radiance.  The sun is ten
degrees from the vertical, more diffuse radiation than direct, and less of both than what reaches the atmosphere;
the radiance around the sun is negative. -/
theorem C100_violated_negative (day dewPoint : ℝ) :
    ∃ (sun : V3 ℝ) (diffuse direct : ℝ) (sky : V3 ℝ → ℝ), sun.lengthSquared = 1 ∧ 0 < sun.z ∧ 0 < diffuse ∧
      0 < direct ∧ diffuse + direct * sun.z < Radiation.extraterrestrial day * sun.z ∧
      perezSky .solar sun day dewPoint diffuse direct = .ok sky ∧ sky sun < 0 := by
  have p1 := Real.pi_gt_d2
  have p2 := Real.pi_lt_d2
  have hz1 : 0.1744 < Real.pi / 18 := by norm_num at p1 ⊢; linarith
  have hz2 : Real.pi / 18 < 0.175 := by norm_num at p2 ⊢; linarith
  obtain ⟨⟨hb, ha, ha'⟩, ⟨hc, hc'⟩, hd, he, he'⟩ := bright_params hz1 hz2
  have hcos : 0.984 < Real.cos (Real.pi / 18) := by
    have := Real.one_sub_sq_div_two_le_cos (x := Real.pi / 18)
    norm_num at hz1 hz2 this ⊢
    nlinarith
  have hcos1 := Real.cos_le_one (Real.pi / 18)
  have hx := (Radiation.C98_extraterrestrial day).1
  have hzen : sunZenith (Real.cos (Real.pi / 18)) = Real.pi / 18 := by
    unfold sunZenith
    rw [if_neg (by linarith), if_neg, Real.arccos_cos (by linarith) (by linarith)]
    rw [not_le]
    unfold Sun.toRadians
    exact Real.cos_lt_cos_of_nonneg_of_le_pi (by linarith) (by linarith) (by linarith)
  obtain ⟨q, hq, q0, q1⟩ : ∃ q, Radiation.airMass (Real.pi / 18) = 1 / q ∧ Real.cos (Real.pi / 18) ≤ q ∧
      q ≤ Real.cos (Real.pi / 18) + 0.0018 := by
    have hdeg : Sun.toDegrees (Real.pi / 18) = 10 := by
      unfold Sun.toDegrees
      field_simp
      norm_num
    have hr0 : 0 ≤ (83.885 : ℝ) ^ (-1.253 : ℝ) := Real.rpow_nonneg (by norm_num) _
    have hr1 : (83.885 : ℝ) ^ (-1.253 : ℝ) ≤ 1 / 83.885 := by
      have : (83.885 : ℝ) ^ (-1.253 : ℝ) ≤ (83.885 : ℝ) ^ (-1 : ℝ) :=
        Real.rpow_le_rpow_of_exponent_le (by norm_num) (by norm_num)
      rw [Real.rpow_neg_one] at this
      rw [one_div]
      exact this
    unfold Radiation.airMass
    rw [hdeg, show (93.885 : ℝ) - 10 = 83.885 by norm_num]
    refine ⟨_, rfl, ?_, ?_⟩ <;> generalize (83.885 : ℝ) ^ (-1.253 : ℝ) = y at hr0 hr1 <;> norm_num at hr0 hr1 ⊢ <;> linarith
  have hqpos : 0 < q := by linarith
  have hE : 0 < Radiation.extraterrestrial day := by linarith
  have hk : 1 + 1.041 * (Real.pi / 18) ^ 3 < 1.006 := by
    have : (Real.pi / 18) ^ 3 ≤ 0.175 ^ 3 := by gcongr
    norm_num at this ⊢
    linarith
  have hk0 : 0 < 1 + 1.041 * (Real.pi / 18) ^ 3 := by positivity
  obtain ⟨r, hr, -, -⟩ := (Reinhart.C36_count 1).1 one_pos
  obtain ⟨angle, dir, hbins⟩ := bins_exist hr
  obtain ⟨h2, hcap, hangle⟩ := cap_bin hr hbins
  have hunit : (⟨Real.sin (Real.pi / 18), 0, Real.cos (Real.pi / 18)⟩ : V3 ℝ).lengthSquared = 1 := by
    unfold V3.lengthSquared
    nlinarith [Real.sin_sq_add_cos_sq (Real.pi / 18)]
  have hdot1 : (⟨Real.sin (Real.pi / 18), 0, Real.cos (Real.pi / 18)⟩ : V3 ℝ).dot
      ⟨Real.sin (Real.pi / 18), 0, Real.cos (Real.pi / 18)⟩ = 1 := by
    unfold V3.dot
    nlinarith [Real.sin_sq_add_cos_sq (Real.pi / 18)]
  have hdot2 : (⟨Real.sin (Real.pi / 18), 0, Real.cos (Real.pi / 18)⟩ : V3 ℝ).dot ⟨0, 0, 1⟩ =
      Real.cos (Real.pi / 18) := by
    unfold V3.dot
    simp
  have hclear : clamp (skyClearness (0.6 * Radiation.extraterrestrial day * q)
      (0.6 * (1 + 1.041 * (Real.pi / 18) ^ 3) * (0.6 * Radiation.extraterrestrial day * q)) (Real.pi / 18))
      (-9 * 10 ^ 9) 11.9 = 1.6 := by
    have : skyClearness (0.6 * Radiation.extraterrestrial day * q)
      (0.6 * (1 + 1.041 * (Real.pi / 18) ^ 3) * (0.6 * Radiation.extraterrestrial day * q)) (Real.pi / 18) = 1.6 := by
      unfold skyClearness
      simp only
      rw [div_eq_iff hk0.ne']
      field_simp
      norm_num
      ring
    rw [this]
    exact clamp_id (by norm_num) (by norm_num)
  have hbright : clamp (skyBrightness (0.6 * Radiation.extraterrestrial day * q) (Radiation.airMass (Real.pi / 18))
      (Radiation.extraterrestrial day)) 0.01 (9 * 10 ^ 9) = 0.6 := by
    have : skyBrightness (0.6 * Radiation.extraterrestrial day * q) (Radiation.airMass (Real.pi / 18))
      (Radiation.extraterrestrial day) = 0.6 := by
      unfold skyBrightness
      simp only
      have : 0.6 * Radiation.extraterrestrial day * q * Radiation.airMass (Real.pi / 18) /
          Radiation.extraterrestrial day = 0.6 := by
        rw [hq]
        field_simp
      rw [this, if_neg (by norm_num)]
    rw [this]
    exact clamp_id (by norm_num) (by norm_num)
  generalize hp : calcParams (Real.pi / 18) 1.6 0.6 = p at *
  have hneg := bright_sun p _ _ hb ha ha' hc he' hdot1 hcos
  have hup := bright_zenith p _ hz1 hz2 hcos hb ha ha' hc' hd he (by linarith) hdot2
  -- the sky is not dark
  have hn : 1 + (r.nBins - 1) = r.nBins := by omega
  have hdark : 1 / 10 ^ 4 < 0 + ∑ i ∈ Finset.range (r.nBins - 1),
      max (relativeRadiance p ⟨Real.sin (Real.pi / 18), 0, Real.cos (Real.pi / 18)⟩ (dir (1 + i))) 0 * angle (1 + i) *
        (dir (1 + i)).z := by
    have hle := Finset.single_le_sum (f := fun i =>
      max (relativeRadiance p ⟨Real.sin (Real.pi / 18), 0, Real.cos (Real.pi / 18)⟩ (dir (1 + i))) 0 * angle (1 + i) *
        (dir (1 + i)).z) (s := Finset.range (r.nBins - 1)) (a := r.nBins - 2) (fun i hi => by
        rw [Finset.mem_range] at hi
        exact mul_nonneg (mul_nonneg (le_max_right _ _) (hbins.angle (1 + i) (by omega)).2.le)
          (bin_up hr hbins (by omega) (by omega)))
      (by rw [Finset.mem_range]; omega)
    rw [zero_add]
    refine lt_of_lt_of_le ?_ hle
    rw [show 1 + (r.nBins - 2) = r.nBins - 1 by omega, hcap]
    simp only [mul_one]
    have hm := le_trans hup.le (le_max_left _ 0)
    calc (1 / 10 ^ 4 : ℝ) < 0.02 * 0.01 := by norm_num
      _ ≤ _ := mul_le_mul hm hangle (by norm_num) (le_max_right _ _)
  obtain ⟨sum, hS⟩ : ∃ x, x = 0 + ∑ i ∈ Finset.range (r.nBins - 1),
      max (relativeRadiance p ⟨Real.sin (Real.pi / 18), 0, Real.cos (Real.pi / 18)⟩ (dir (1 + i))) 0 * angle (1 + i) *
        (dir (1 + i)).z := ⟨_, rfl⟩
  rw [← hS] at hdark
  have hsky : perezSky .solar ⟨Real.sin (Real.pi / 18), 0, Real.cos (Real.pi / 18)⟩ day dewPoint
      (0.6 * Radiation.extraterrestrial day * q)
      (0.6 * (1 + 1.041 * (Real.pi / 18) ^ 3) * (0.6 * Radiation.extraterrestrial day * q)) =
      .ok fun d => relativeRadiance p ⟨Real.sin (Real.pi / 18), 0, Real.cos (Real.pi / 18)⟩ d *
        (0.6 * Radiation.extraterrestrial day * q * 179 / (sum * 179)) := by
    unfold perezSky
    simp only
    rw [hzen, hclear, hbright, hp]
    unfold diffuseIlluminanceRatio
    have hcat := (C38_clearness 1.6 0).2.1
    rw [if_neg (by omega), Outcome.index_of_lt (by simp [diffuseTable]; omega)]
    simp only [Outcome.bind]
    unfold skyFunction
    rw [hr]
    simp only [Outcome.bind]
    rw [normLoop_eq hbins _ _ _ _ hn.le]
    simp only
    rw [← hS, if_pos hdark]
  refine ⟨⟨Real.sin (Real.pi / 18), 0, Real.cos (Real.pi / 18)⟩, 0.6 * Radiation.extraterrestrial day * q,
    0.6 * (1 + 1.041 * (Real.pi / 18) ^ 3) * (0.6 * Radiation.extraterrestrial day * q), _, hunit, by linarith,
    by positivity, by positivity, ?_, hsky, ?_⟩
  rotate_left
  · have hs : 0 < sum := lt_trans (by norm_num) hdark
    exact mul_neg_of_neg_of_pos hneg (by positivity)
  · generalize 1 + 1.041 * (Real.pi / 18) ^ 3 = k at hk hk0
    generalize Real.cos (Real.pi / 18) = c at *
    have : 0.6 * q * (1 + 0.6 * k * c) < c := bright_possible q0 q1 hk hk0 hcos hcos1
    calc 0.6 * Radiation.extraterrestrial day * q + 0.6 * k * (0.6 * Radiation.extraterrestrial day * q) * c =
        Radiation.extraterrestrial day * (0.6 * q * (1 + 0.6 * k * c)) := by ring
      _ < _ := mul_lt_mul_of_pos_left this hE

end Simple.Weather.Perez
