import Verif.Render.SkySceneModel
import Verif.Render.LightProps
import Verif.Weather.SunProps
import Verif.Weather.PerezSkyProps

/-! C102: the sky and the sun of a scene. -/

namespace Simple.Render.Stage

open Geometry Weather
open Weather.Perez (clamp skyBrightness skyClearness clearnessCategory waterContent directIlluminanceRatio)

namespace Spec

/-- The place and the time, from angles in degrees. -/
noncomputable def place (latitude longitude standardMeridian : ℝ) : Sun.Solar :=
  ⟨latitude * (Real.pi / 180), longitude * (Real.pi / 180), standardMeridian * (Real.pi / 180)⟩

/-- The luminous efficacy of the direct radiation, according to the model of Perez, when the sun is at an angle `zenith`
from the vertical and the dew point is 11 °C. -/
def Efficacy (zenith day diffuse direct r : ℝ) : Prop :=
  directIlluminanceRatio (waterContent 11) zenith
    (clamp (skyBrightness diffuse (Radiation.airMass zenith) (Radiation.extraterrestrial day)) 0.01 (9 * 10 ^ 9))
    (clearnessCategory (clamp (skyClearness diffuse direct zenith) (-9 * 10 ^ 9) 11.9)) = .ok r

/-- The scene has got a light, and nothing else: a material that emits `L` in every channel, and a distant source with
it. -/
def SunAdded (s s' : Stage) (source : DistantSource) (L : ℝ) : Prop :=
  s'.materials = s.materials ++ [.light fun _ => L] ∧
  s'.distantLights = s.distantLights ++ [⟨.source source, s.materials.length, s.materials.length⟩] ∧
  s'.triangles = s.triangles ∧ s'.normals = s.normals ∧ s'.frontMaterials = s.frontMaterials ∧
  s'.backMaterials = s.backMaterials ∧ s'.lights = s.lights

/-- The width of the sun. -/
noncomputable def sunAngle : ℝ := 0.533 * (Real.pi / 180)

/-- The source is hit by exactly the rays which go to the disk of a sun in this direction. -/
def IsSun (source : DistantSource) (sun : V3 ℝ) : Prop :=
  ∀ ray : Ray ℝ, 1 / 10 ^ 20 < ray.direction.lengthSquared →
    ∃ b, source.hits ray = .ok b ∧ (b = true ↔ Lights.Spec.angle ray.direction sun ≤ sunAngle / 2)

end Spec

theorem place_eq (a b c : ℝ) : (⟨Sun.toRadians a, Sun.toRadians b, Sun.toRadians c⟩ : Sun.Solar) = Spec.place a b c := by
  unfold Sun.toRadians Spec.place
  simp only [mul_div_assoc]

theorem sunAngle_eq : Sun.toRadians 0.533 = Spec.sunAngle := by
  unfold Sun.toRadians Spec.sunAngle
  ring

theorem perezSky_ok (units : Perez.Units) (sun : V3 ℝ) (day dewPoint diffuse direct : ℝ) :
    ∃ sky, Perez.perezSky units sun day dewPoint diffuse direct = .ok sky := by
  obtain ⟨r, hr, -⟩ := (Reinhart.C36_count 1).1 one_pos
  obtain ⟨angle, dir, hb⟩ := Perez.bins_exist hr
  unfold Perez.perezSky Perez.diffuseIlluminanceRatio
  simp only
  generalize clamp (skyClearness diffuse direct (Perez.sunZenith sun.z)) (-9 * 10 ^ 9) 11.9 = clearness
  have hcat := (Perez.C38_clearness clearness 0).2.1
  rw [if_neg (by omega), Outcome.index_of_lt (by simp [Perez.diffuseTable]; omega)]
  simp only [Outcome.bind]
  unfold Perez.skyFunction
  rw [hr]
  simp only [Outcome.bind]
  have h1 : 1 ≤ r.nBins := by
    by_contra h
    have := Perez.normLoop_eq hb (fun _ => 0) 0 0 0 (by omega)
    have hn := Reinhart.C36_count 1
    obtain ⟨r', hr', hn'⟩ := hn.1 one_pos
    rw [hr] at hr'
    cases hr'
    omega
  rw [Perez.normLoop_eq hb _ _ _ _ (by omega)]
  exact ⟨_, rfl⟩

/-- The solid angle that the source stores, and that of the directions that hit it. -/
theorem omega_cone :
    Lights.Spec.cone (Spec.sunAngle / 2) ≤ Real.tan (Spec.sunAngle / 2) * Real.tan (Spec.sunAngle / 2) * Real.pi ∧
    (1 - 1 / 10 ^ 4) * (Real.tan (Spec.sunAngle / 2) * Real.tan (Spec.sunAngle / 2) * Real.pi) ≤ Lights.Spec.cone (Spec.sunAngle / 2) ∧
    0 < Lights.Spec.cone (Spec.sunAngle / 2) := by
  have hp := Real.pi_pos
  have hp2 := Real.pi_lt_d2
  have ha0 : 0 < Spec.sunAngle / 2 := by unfold Spec.sunAngle; positivity
  have ha1 : Spec.sunAngle / 2 < 0.005 := by unfold Spec.sunAngle; linarith
  rw [Lights.cone_eq, Real.tan_eq_sin_div_cos]
  have hc := Real.one_sub_sq_div_two_le_cos (x := Spec.sunAngle / 2)
  have hc1 : Real.cos (Spec.sunAngle / 2) < 1 := by
    rw [← Real.cos_zero]
    exact Real.cos_lt_cos_of_nonneg_of_le_pi (le_refl _) (by norm_num at ha1; linarith [Real.pi_gt_three]) ha0
  have hs := Real.sin_sq_add_cos_sq (Spec.sunAngle / 2)
  have hsq : (Spec.sunAngle / 2) ^ 2 ≤ 0.000025 := by nlinarith
  generalize Real.sin (Spec.sunAngle / 2) = t at *
  generalize Real.cos (Spec.sunAngle / 2) = c at *
  have hc2 : 0.99998 < c := by linarith
  have hc0 : 0 < c := by linarith
  have e : t / c * (t / c) * Real.pi = Real.pi * (1 - c) * ((1 + c) / c ^ 2) := by
    field_simp
    nlinarith
  rw [e]
  have h1c : 0 < 1 - c := by linarith
  have hk : 0 < Real.pi * (1 - c) := mul_pos hp h1c
  have k1 : 2 ≤ (1 + c) / c ^ 2 := by rw [le_div_iff₀ (by positivity)]; nlinarith
  have k2 : (1 - 1 / 10 ^ 4) * ((1 + c) / c ^ 2) ≤ 2 := by
    rw [← mul_div_assoc, div_le_iff₀ (by positivity)]
    nlinarith
  refine ⟨?_, ?_, ?_⟩
  · calc 2 * Real.pi * (1 - c) = Real.pi * (1 - c) * 2 := by ring
      _ ≤ _ := mul_le_mul_of_nonneg_left k1 hk.le
  · calc _ = Real.pi * (1 - c) * ((1 - 1 / 10 ^ 4) * ((1 + c) / c ^ 2)) := by ring
      _ ≤ Real.pi * (1 - c) * 2 := mul_le_mul_of_nonneg_left k2 hk.le
      _ = _ := by ring
  · positivity

/-- What is added, whatever the zenith that is used. -/
theorem added (s : Stage) (day latitude longitude standardMeridian diffuse direct : ℝ) (sun : V3 ℝ)
    (hsun : Sun.sunPosition (Spec.place latitude longitude standardMeridian) (.standard day) = some sun)
    (hu : sun.lengthSquared = 1) (hd : 0 ≤ direct) :
    ∃ s' sky source L r,
      s.addPerezSky day latitude longitude standardMeridian diffuse direct = .ok (s', sky) ∧
      Perez.perezSky .visible sun (Sun.unwrapSolar (Spec.place latitude longitude standardMeridian) (.standard day)) 11 diffuse direct = .ok sky ∧
      Spec.SunAdded s s' source L ∧ Spec.IsSun source sun ∧
      Spec.Efficacy (sceneZenith sun.z) (Sun.unwrapSolar (Spec.place latitude longitude standardMeridian) (.standard day)) diffuse direct r ∧
      0 ≤ r ∧
      (1 - 1 / 10 ^ 4) * (direct * r) ≤ 179 * L * Lights.Spec.cone (Spec.sunAngle / 2) ∧
      179 * L * Lights.Spec.cone (Spec.sunAngle / 2) ≤ direct * r := by
  have hp := Real.pi_pos
  have hp4 := Real.pi_lt_d2
  obtain ⟨sky, hsky⟩ := perezSky_ok .visible sun (Sun.unwrapSolar (Spec.place latitude longitude standardMeridian) (.standard day)) 11 diffuse direct
  obtain ⟨r, hr, r0⟩ := Perez.C38_direct_ratio (waterContent 11) (sceneZenith sun.z)
    (clamp (skyBrightness diffuse (Radiation.airMass (sceneZenith sun.z)) (Radiation.extraterrestrial
      (Sun.unwrapSolar (Spec.place latitude longitude standardMeridian) (.standard day)))) 0.01 (9 * 10 ^ 9))
    (clamp (skyClearness diffuse direct (sceneZenith sun.z)) (-9 * 10 ^ 9) 11.9)
  obtain ⟨source, hsource⟩ : ∃ source, DistantSource.new sun Spec.sunAngle = .ok source := by
    unfold DistantSource.new V3.normalize
    rw [if_pos (by rw [hu]; norm_num)]
    exact ⟨_, rfl⟩
  obtain ⟨hits, -⟩ := Lights.C73_source sun Spec.sunAngle (by unfold Spec.sunAngle; positivity)
    (by unfold Spec.sunAngle; nlinarith) source hsource
  obtain ⟨o1, o2, o3⟩ := omega_cone
  set omega := Real.tan (Spec.sunAngle / 2) * Real.tan (Spec.sunAngle / 2) * Real.pi with homega
  have ho : 0 < omega := lt_of_lt_of_le o3 o1
  set L := direct * r / omega / 179 with hL
  have hdr : 0 ≤ direct * r := mul_nonneg hd r0
  have hLc : 179 * L * Lights.Spec.cone (Spec.sunAngle / 2) = direct * r * (Lights.Spec.cone (Spec.sunAngle / 2) / omega) := by
    rw [hL]; field_simp
  have hdir : directIlluminance (sceneZenith sun.z) (Sun.unwrapSolar (Spec.place latitude longitude standardMeridian) (.standard day)) 11 diffuse direct
      = .ok (direct * r) := by
    unfold directIlluminance
    simp only
    rw [hr]
    rfl
  have hpush : ∀ m : Stage × ℕ, ∃ s', ((s.pushMaterial (.light fun _ => L)).2.pushObject (s.pushMaterial (.light fun _ => L)).1
      (s.pushMaterial (.light fun _ => L)).1 (.source source)) = .ok s' ∧ Spec.SunAdded s s' source L := by
    intro _
    unfold Stage.pushObject Stage.pushMaterial
    simp only [List.length_append, List.length_singleton, Nat.add_sub_cancel]
    rw [if_neg (by omega), if_neg (by omega), Outcome.index_of_lt (by simp)]
    simp only [Outcome.bind, List.getElem_append_right (le_refl s.materials.length), Nat.sub_self,
      List.getElem_cons_zero, Material.emitsDirectLight, Bool.or_self, if_true, Primitive.isSource, meshOf, Bool.not_true,
      Bool.false_eq_true, if_false]
    refine ⟨_, rfl, ?_⟩
    simp [Spec.SunAdded]
  obtain ⟨s', hs', hadd⟩ := hpush (s, 0)
  refine ⟨s', sky, source, L, r, ?_, hsky, hadd, hits, hr, r0, ?_, ?_⟩
  · unfold Stage.addPerezSky
    simp only
    rw [place_eq, hsun, sunAngle_eq]
    simp only
    rw [hsky]
    simp only [Outcome.bind]
    rw [hdir]
    simp only
    rw [hsource]
    simp only
    rw [← homega, ← hL, hs']
  · rw [hLc, mul_comm]
    apply mul_le_mul_of_nonneg_left _ hdr
    rw [le_div_iff₀ ho]
    exact o2
  · rw [hLc]
    have : Lights.Spec.cone (Spec.sunAngle / 2) / omega ≤ 1 := by rw [div_le_one ho]; exact o1
    nlinarith

/-- C102: by day, when the sun is more than three degrees away from the vertical, the scene gets the sky of the model of
Perez for the place, the time and the radiation, and one light: a distant source with the place and the width of the
sun, which brings, on a surface that faces it, the direct radiation times its luminous efficacy, less at most one part
in ten thousand. -/
theorem C102_sun_partial (s : Stage) (day latitude longitude standardMeridian diffuse direct : ℝ) (sun : V3 ℝ)
    (hlat : |latitude| < 90) (ht : 0 ≤ Sun.unwrapSolar (Spec.place latitude longitude standardMeridian) (.standard day))
    (hsun : Sun.sunPosition (Spec.place latitude longitude standardMeridian) (.standard day) = some sun)
    (hz : sun.z < 0.9986295347545738) (hd : 0 ≤ direct) :
    ∃ s' sky source L r,
      s.addPerezSky day latitude longitude standardMeridian diffuse direct = .ok (s', sky) ∧
      Perez.perezSky .visible sun (Sun.unwrapSolar (Spec.place latitude longitude standardMeridian) (.standard day)) 11 diffuse direct = .ok sky ∧
      Spec.SunAdded s s' source L ∧ Spec.IsSun source sun ∧
      Spec.Efficacy (Real.arccos sun.z) (Sun.unwrapSolar (Spec.place latitude longitude standardMeridian) (.standard day)) diffuse direct r ∧
      (1 - 1 / 10 ^ 4) * (direct * r) ≤ 179 * L * Lights.Spec.cone (Spec.sunAngle / 2) ∧
      179 * L * Lights.Spec.cone (Spec.sunAngle / 2) ≤ direct * r := by
  have hp := Real.pi_pos
  have hl : |(Spec.place latitude longitude standardMeridian).latitude| < Real.pi / 2 := by
    change |latitude * (Real.pi / 180)| < _
    rw [abs_mul, abs_of_pos (by positivity : 0 < Real.pi / 180)]
    nlinarith
  obtain ⟨hu, hz0⟩ := Sun.C66_length _ _ sun hl ht hsun
  have hzen : sceneZenith sun.z = Real.arccos sun.z := by
    unfold sceneZenith
    by_cases h : sun.z ≤ 0
    · rw [if_pos h, le_antisymm h hz0, Real.arccos_zero]
    · rw [if_neg h, if_neg (not_le.2 hz)]
  obtain ⟨s', sky, source, L, r, h1, h2, h3, h4, h5, -, h6⟩ := added s day latitude longitude standardMeridian diffuse direct sun hsun hu hd
  rw [hzen] at h5
  exact ⟨s', sky, source, L, r, h1, h2, h3, h4, h5, h6⟩

/-- There are such places and times: noon, at sixty degrees north. -/
example (k : ℕ) : ∃ longitude sun, |(60 : ℝ)| < 90 ∧
    0 ≤ Sun.unwrapSolar (Spec.place 60 longitude 0) (.standard (k + 1 / 2)) ∧
    Sun.sunPosition (Spec.place 60 longitude 0) (.standard (k + 1 / 2)) = some sun ∧ sun.z < 0.9986295347545738 := by
  have hp := Real.pi_pos
  have hp3 := Real.pi_gt_d2
  have hp4 := Real.pi_lt_d2
  have hd := abs_lt.1 (Sun.C66_declination (k + 1 / 2))
  have hs : Sun.unwrapSolar (Spec.place 60 (Sun.equationOfTime (k + 1 / 2) / 4) 0) (.standard (k + 1 / 2)) = k + 1 / 2 := by
    unfold Sun.unwrapSolar Sun.timeDifference Spec.place Sun.toDegrees
    simp only
    field_simp
    ring
  have hlat : (Spec.place 60 (Sun.equationOfTime (k + 1 / 2) / 4) 0).latitude = Real.pi / 3 := by
    unfold Spec.place
    simp only
    ring
  have h0 : (0 : ℝ) ≤ k + 1 / 2 := by positivity
  obtain ⟨-, h, -⟩ := Sun.C66_sun_position (Spec.place 60 (Sun.equationOfTime (k + 1 / 2) / 4) 0) (.standard (k + 1 / 2))
    (by rw [hlat, abs_of_pos (by positivity)]; linarith) (by rw [hs]; exact h0)
  rw [hs, hlat] at h
  have hf : ⌊(k : ℝ) + 1 / 2⌋ = k := by
    rw [Int.floor_eq_iff]
    constructor <;> push_cast <;> linarith
  have hw : Sun.Spec.hourAngle (k + 1 / 2) = 0 := by
    unfold Sun.Spec.hourAngle
    rw [hf]
    push_cast
    ring
  have hz : (Sun.Spec.sun (Real.pi / 3) (Sun.declination (k + 1 / 2)) (Sun.Spec.hourAngle (k + 1 / 2))).z
      = Real.cos (Real.pi / 3 - Sun.declination (k + 1 / 2)) := by
    unfold Sun.Spec.sun Sun.Spec.horizon Sun.Spec.equatorial
    simp only [hw, Real.cos_zero, mul_one]
    rw [Real.cos_sub]
  norm_num at hp3 hp4
  have z0 : 0 < Real.cos (Real.pi / 3 - Sun.declination (k + 1 / 2)) :=
    Real.cos_pos_of_mem_Ioo ⟨by linarith [hd.2], by linarith [hd.1]⟩
  have z1 : Real.cos (Real.pi / 3 - Sun.declination (k + 1 / 2)) < 0.9 := by
    have hs1 : 0.47 < Real.sin (Real.pi / 3 - Sun.declination (k + 1 / 2)) := by
      have h1 := Real.sin_gt_sub_cube (x := 0.5) (by norm_num)
      have h2 : Real.sin 0.5 ≤ Real.sin (Real.pi / 3 - Sun.declination (k + 1 / 2)) :=
        Real.sin_le_sin_of_le_of_le_pi_div_two (by norm_num; linarith) (by linarith [hd.1]) (by norm_num; linarith [hd.2])
      norm_num at h1 h2 ⊢
      linarith
    have := Real.sin_sq_add_cos_sq (Real.pi / 3 - Sun.declination (k + 1 / 2))
    norm_num at hs1 ⊢
    nlinarith
  refine ⟨_, _, by norm_num, by rw [hs]; exact h0, h (by rw [hz]; exact z0.le) (by rw [hz]; norm_num at z1 ⊢; linarith), ?_⟩
  rw [hz]
  norm_num at z1 ⊢
  linarith

/-- C102 fails at night: the program panics, because it asks for the sky before it knows whether there is a sun. -/
theorem C102_violated_night (s : Stage) (day latitude longitude standardMeridian diffuse direct : ℝ)
    (hsun : Sun.sunPosition (Spec.place latitude longitude standardMeridian) (.standard day) = none) :
    s.addPerezSky day latitude longitude standardMeridian diffuse direct = .panic := by
  unfold Stage.addPerezSky
  simp only
  rw [place_eq, hsun]

/-- There are nights: at midnight, on the equator. -/
theorem night (k : ℕ) : Sun.sunPosition (Spec.place 0 0 0) (.standard (k + 1)) = none := by
  have hp := Real.pi_pos
  have hp3 := Real.pi_gt_three
  obtain ⟨e, he, hs⟩ : ∃ e, |e| ≤ 0.02 ∧ Sun.unwrapSolar (Spec.place 0 0 0) (.standard (k + 1)) = k + 1 + e := by
    refine ⟨Sun.equationOfTime (k + 1) / 24 / 60, ?_, ?_⟩
    · unfold Sun.equationOfTime
      simp only
      generalize Sun.dayAngle _ = b
      have h1 := Real.cos_le_one b
      have h2 := Real.neg_one_le_cos b
      have h3 := Real.sin_le_one b
      have h4 := Real.neg_one_le_sin b
      have h5 := Real.cos_le_one (2 * b)
      have h6 := Real.neg_one_le_cos (2 * b)
      have h7 := Real.sin_le_one (2 * b)
      have h8 := Real.neg_one_le_sin (2 * b)
      rw [abs_le]
      constructor <;> norm_num <;> linarith
    · unfold Sun.unwrapSolar Sun.timeDifference Spec.place Sun.toDegrees
      simp
  have hl : |(Spec.place 0 0 0).latitude| < Real.pi / 2 := by
    unfold Spec.place; simp; linarith
  have he' := abs_le.1 he
  have h0 : 0 ≤ Sun.unwrapSolar (Spec.place 0 0 0) (.standard (k + 1)) := by
    rw [hs]
    have : (0 : ℝ) ≤ k := Nat.cast_nonneg k
    norm_num at he'
    linarith
  obtain ⟨h, -⟩ := Sun.C66_sun_position (Spec.place 0 0 0) (.standard (k + 1)) hl h0
  rw [h, hs]
  unfold Sun.Spec.sun Sun.Spec.horizon Sun.Spec.equatorial Spec.place
  simp only [zero_mul, Real.cos_zero, Real.sin_zero, one_mul, add_zero]
  have hd := abs_lt.1 (Sun.C66_declination (k + 1 + e))
  have hcd : 0 < Real.cos (Sun.declination (k + 1 + e)) := Real.cos_pos_of_mem_Ioo ⟨by linarith [hd.1], by linarith [hd.2]⟩
  have hw : Real.cos (Sun.Spec.hourAngle (k + 1 + e)) = -Real.cos (2 * Real.pi * e) := by
    unfold Sun.Spec.hourAngle
    rw [show 2 * Real.pi * ((k : ℝ) + 1 + e - ⌊(k : ℝ) + 1 + e⌋ - 1 / 2)
      = 2 * Real.pi * e + ((k + 1 - ⌊(k : ℝ) + 1 + e⌋ : ℤ) : ℝ) * (2 * Real.pi) - Real.pi by push_cast; ring]
    rw [Real.cos_sub_pi, Real.cos_add_int_mul_two_pi]
  have hc : 0 < Real.cos (2 * Real.pi * e) := by
    norm_num at he'
    apply Real.cos_pos_of_mem_Ioo
    constructor <;> nlinarith [he'.1, he'.2]
  rw [hw]
  nlinarith

/-- A sky that is so clear is in the last category, however high the sun is. -/
theorem clear_category {z : ℝ} (h0 : 0 ≤ z) (h1 : z ≤ 1.6) :
    clearnessCategory (clamp (skyClearness 10 900 z) (-9 * 10 ^ 9) 11.9) = 7 := by
  have hz : z ^ 3 ≤ 1.6 ^ 3 := pow_le_pow_left₀ h0 h1 3
  have hz0 : 0 ≤ z ^ 3 := pow_nonneg h0 3
  have hc : 11.9 < skyClearness 10 900 z := by
    unfold skyClearness
    simp only
    rw [lt_div_iff₀ (by positivity)]
    norm_num at hz ⊢
    linarith
  have : clamp (skyClearness 10 900 z) (-9 * 10 ^ 9) 11.9 = 11.9 := by
    unfold clamp
    rw [if_neg (not_lt.2 (le_trans (by norm_num) hc.le)), if_pos hc]
  rw [this]
  unfold clearnessCategory
  norm_num

theorem ratio_seven (water zenith brightness r : ℝ) :
    directIlluminanceRatio water zenith brightness 7 = .ok r ↔
    r = clamp (101.18 + 1.58 * water - 1.10 * Real.exp (5.73 * zenith - 5) - 8.29 * brightness) 0 (9 * 10 ^ 9) := by
  unfold directIlluminanceRatio
  rw [if_neg (by norm_num), Outcome.index_of_lt (by simp [Perez.directTable])]
  simp only [Outcome.bind, Perez.directTable, List.getElem_cons_succ, List.getElem_cons_zero, Outcome.ok.injEq]
  constructor
  · intro h
    rw [← h]
    norm_num
    ring_nf
  · intro h
    rw [h]
    norm_num
    ring_nf

theorem low_sun : (1.5 : ℝ) ≤ Real.arccos (3 * Real.pi / 180) := by
  have h1 := Real.pi_gt_d2
  have h2 := Real.pi_lt_d2
  rw [← Real.arccos_cos (x := 1.5) (by norm_num) (by norm_num at h1; linarith)]
  apply Real.arccos_le_arccos
  rw [← Real.sin_pi_div_two_sub]
  have h3 := Real.sin_gt_sub_cube (x := Real.pi / 2 - 1.5) (by norm_num at h1 ⊢; linarith)
  have h4 : (Real.pi / 2 - 1.5) ^ 3 ≤ 0.075 ^ 3 := by
    apply pow_le_pow_left₀
    · norm_num at h1 ⊢; linarith
    · norm_num at h2 ⊢; linarith
  norm_num at h1 h2 h3 h4 ⊢
  linarith

theorem efficacy_lost (day zenith r r' : ℝ) (h0 : 0 ≤ zenith) (h1 : zenith ≤ 3 * (Real.pi / 180))
    (hr : Spec.Efficacy zenith day 10 900 r) (hr' : Spec.Efficacy (Real.arccos (3 * Real.pi / 180)) day 10 900 r') :
    r' ≤ r - 20 := by
  have p1 := Real.pi_gt_d2
  have p2 := Real.pi_lt_d2
  have hlow := low_sun
  have hup : Real.arccos (3 * Real.pi / 180) ≤ 1.6 := by
    refine le_trans (Real.arccos_le_pi_div_two.2 (by positivity)) ?_
    norm_num at p2 ⊢; linarith
  unfold Spec.Efficacy at hr hr'
  rw [clear_category h0 (by norm_num at p2 ⊢; linarith), ratio_seven] at hr
  rw [clear_category (le_trans (by norm_num) hlow) hup, ratio_seven] at hr'
  have hw : 0 < waterContent 11 := Real.exp_pos _
  have hw' : waterContent 11 < 2.7182818286 := by
    refine lt_of_le_of_lt ?_ Real.exp_one_lt_d9
    unfold waterContent
    exact Real.exp_le_exp.2 (by norm_num)
  have hb : clamp (skyBrightness 10 (Radiation.airMass zenith) (Radiation.extraterrestrial day)) 0.01 (9 * 10 ^ 9) ≤ 0.05 := by
    obtain ⟨m0, m1⟩ := Radiation.airMass_bounds h0 (by linarith)
    have hx := (Radiation.C98_extraterrestrial day).1
    have : 10 * Radiation.airMass zenith / Radiation.extraterrestrial day ≤ 0.05 := by
      rw [div_le_iff₀ (by linarith)]
      norm_num
      linarith
    unfold skyBrightness
    simp only
    generalize 10 * Radiation.airMass zenith / Radiation.extraterrestrial day = y at this
    have hy : (if y < 0.01 then 0.01 else y) ≤ 0.05 := by
      split_ifs
      · norm_num
      · exact this
    generalize (if y < 0.01 then 0.01 else y) = y' at hy
    unfold clamp
    split_ifs with c1 c2
    · norm_num
    · exact absurd c2 (not_lt.2 (le_trans hy (by norm_num)))
    · exact hy
  have hcl : ∀ y : ℝ, 0.01 ≤ clamp y 0.01 (9 * 10 ^ 9) := by
    intro y
    unfold clamp
    split_ifs with h h'
    · exact le_refl _
    · norm_num
    · exact not_lt.1 h
  have hb' := hcl (skyBrightness 10 (Radiation.airMass (Real.arccos (3 * Real.pi / 180))) (Radiation.extraterrestrial day))
  have hb0 := hcl (skyBrightness 10 (Radiation.airMass zenith) (Radiation.extraterrestrial day))
  have e1 : Real.exp (5.73 * zenith - 5) ≤ 1 := by
    rw [Real.exp_le_one_iff]
    norm_num at p2 ⊢
    linarith
  have e2 : (20 : ℝ) ≤ Real.exp (5.73 * Real.arccos (3 * Real.pi / 180) - 5) := by
    have : Real.exp 3 ≤ Real.exp (5.73 * Real.arccos (3 * Real.pi / 180) - 5) :=
      Real.exp_le_exp.2 (by norm_num at hlow ⊢; linarith)
    refine le_trans ?_ this
    have h3 : Real.exp 3 = Real.exp 1 ^ 3 := by rw [← Real.exp_nat_mul]; norm_num
    rw [h3]
    calc (20 : ℝ) ≤ 2.7182818283 ^ 3 := by norm_num
      _ ≤ _ := pow_le_pow_left₀ (by norm_num) Real.exp_one_gt_d9.le 3
  generalize clamp (skyBrightness 10 (Radiation.airMass zenith) (Radiation.extraterrestrial day)) 0.01 (9 * 10 ^ 9) = b at *
  generalize clamp (skyBrightness 10 (Radiation.airMass (Real.arccos (3 * Real.pi / 180)))
      (Radiation.extraterrestrial day)) 0.01 (9 * 10 ^ 9) = b' at *
  have e3 := Real.exp_pos (5.73 * zenith - 5)
  generalize Real.exp (5.73 * zenith - 5) = x at *
  generalize Real.exp (5.73 * Real.arccos (3 * Real.pi / 180) - 5) = x' at *
  generalize waterContent 11 = w at *
  have b0 : b < 1 := lt_of_le_of_lt hb (by norm_num)
  have hX : 99 ≤ 101.18 + 1.58 * w - 1.10 * x - 8.29 * b := by
    norm_num at hb ⊢; linarith
  have hX' : 101.18 + 1.58 * w - 1.10 * x' - 8.29 * b' ≤ 101.18 + 1.58 * w - 1.10 * x - 8.29 * b - 20 := by
    norm_num at hb hb' ⊢; linarith
  have hbig : 101.18 + 1.58 * w - 1.10 * x - 8.29 * b ≤ 9 * 10 ^ 9 := by
    norm_num at hb0 hw' ⊢; linarith
  generalize 101.18 + 1.58 * w - 1.10 * x - 8.29 * b = X at *
  generalize 101.18 + 1.58 * w - 1.10 * x' - 8.29 * b' = X' at *
  rw [hr, hr']
  unfold clamp
  rw [if_neg (by linarith : ¬X < 0), if_neg (not_lt.2 hbig)]
  split_ifs
  · linarith
  · linarith
  · exact hX'

/-- C102 fails when the sun is at most three degrees away from the vertical.  Its direction is then taken to be 87
degrees away from it (`acos`, where three degrees are meant), and it brings less light.  With 10 W/m2 of diffuse
radiation and 900 W/m2 of direct one, whatever the day, it brings at least 18000 lx less than it should. -/
theorem C102_violated_zenith (s : Stage) (day latitude longitude standardMeridian : ℝ) (sun : V3 ℝ)
    (hlat : |latitude| < 90) (ht : 0 ≤ Sun.unwrapSolar (Spec.place latitude longitude standardMeridian) (.standard day))
    (hsun : Sun.sunPosition (Spec.place latitude longitude standardMeridian) (.standard day) = some sun)
    (hz : 0.9986295347545738 ≤ sun.z) :
    ∃ s' sky source L, s.addPerezSky day latitude longitude standardMeridian 10 900 = .ok (s', sky) ∧
      Spec.SunAdded s s' source L ∧ Spec.IsSun source sun ∧
      ∀ zenith r, 0 ≤ zenith → zenith ≤ 3 * (Real.pi / 180) →
        Spec.Efficacy zenith (Sun.unwrapSolar (Spec.place latitude longitude standardMeridian) (.standard day)) 10 900 r →
        179 * L * Lights.Spec.cone (Spec.sunAngle / 2) ≤ 900 * r - 18000 := by
  have hp := Real.pi_pos
  have hl : |(Spec.place latitude longitude standardMeridian).latitude| < Real.pi / 2 := by
    change |latitude * (Real.pi / 180)| < _
    rw [abs_mul, abs_of_pos (by positivity : 0 < Real.pi / 180)]
    nlinarith
  obtain ⟨hu, hz0⟩ := Sun.C66_length _ _ sun hl ht hsun
  obtain ⟨s', sky, source, L, r', h1, -, h3, h4, h5, -, -, h6⟩ :=
    added s day latitude longitude standardMeridian 10 900 sun hsun hu (by norm_num)
  refine ⟨s', sky, source, L, h1, h3, h4, fun zenith r e0 e1 hr => ?_⟩
  have hzen : sceneZenith sun.z = Real.arccos (3 * Real.pi / 180) := by
    unfold sceneZenith
    rw [if_neg (not_le.2 (lt_of_lt_of_le (by norm_num) hz)), if_pos hz]
  rw [hzen] at h5
  have := efficacy_lost _ _ _ _ e0 e1 hr h5
  linarith

/-- There are such places and times: noon, under the sun. -/
example (k : ℕ) : ∃ latitude longitude, |latitude| < 90 ∧
    0 ≤ Sun.unwrapSolar (Spec.place latitude longitude 0) (.standard (k + 1 / 2)) ∧
    Sun.sunPosition (Spec.place latitude longitude 0) (.standard (k + 1 / 2)) = some ⟨0, 0, 1⟩ := by
  have hp := Real.pi_pos
  have hp3 := Real.pi_gt_three
  have hd := abs_lt.1 (Sun.C66_declination (k + 1 / 2))
  refine ⟨Sun.declination (k + 1 / 2) * (180 / Real.pi), Sun.equationOfTime (k + 1 / 2) / 4, ?_, ?_⟩
  · rw [abs_mul, abs_of_pos (by positivity : 0 < 180 / Real.pi)]
    have := Sun.C66_declination (k + 1 / 2)
    rw [← mul_div_assoc, div_lt_iff₀ hp]
    nlinarith
  have hs : Sun.unwrapSolar (Spec.place (Sun.declination (k + 1 / 2) * (180 / Real.pi)) (Sun.equationOfTime (k + 1 / 2) / 4) 0)
      (.standard (k + 1 / 2)) = k + 1 / 2 := by
    unfold Sun.unwrapSolar Sun.timeDifference Spec.place Sun.toDegrees
    simp only
    field_simp
    ring
  have hlat : (Spec.place (Sun.declination (k + 1 / 2) * (180 / Real.pi)) (Sun.equationOfTime (k + 1 / 2) / 4) 0).latitude
      = Sun.declination (k + 1 / 2) := by
    unfold Spec.place
    simp only
    field_simp
  have h0 : (0 : ℝ) ≤ k + 1 / 2 := by positivity
  refine ⟨by rw [hs]; exact h0, ?_⟩
  obtain ⟨-, -, h⟩ := Sun.C66_sun_position (Spec.place (Sun.declination (k + 1 / 2) * (180 / Real.pi))
    (Sun.equationOfTime (k + 1 / 2) / 4) 0) (.standard (k + 1 / 2)) (by rw [hlat, abs_lt]; constructor <;> linarith [hd.1, hd.2])
    (by rw [hs]; exact h0)
  rw [hs, hlat] at h
  refine (h ?_).1
  have hf : ⌊(k : ℝ) + 1 / 2⌋ = k := by
    rw [Int.floor_eq_iff]
    constructor <;> push_cast <;> linarith
  have hw : Sun.Spec.hourAngle (k + 1 / 2) = 0 := by
    unfold Sun.Spec.hourAngle
    rw [hf]
    push_cast
    ring
  unfold Sun.Spec.sun Sun.Spec.horizon Sun.Spec.equatorial
  simp only [hw, Real.cos_zero, mul_one]
  have := Real.sin_sq_add_cos_sq (Sun.declination (k + 1 / 2))
  nlinarith

end Simple.Render.Stage
