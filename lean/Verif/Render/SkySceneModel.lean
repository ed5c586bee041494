import Verif.Render.StageModel
import Verif.Weather.PerezSkyModel

/-! Model of the sky and the sun of a scene: `/repo/rendering/src/scene.rs:121-204`.  `Float` is `ℝ`; the diffuse
radiation is not zero, and no number is NaN. -/

namespace Simple.Render.Stage

open Geometry Weather
open Weather.Perez (clamp skyBrightness skyClearness clearnessCategory waterContent directIlluminanceRatio)

/-- `scene.rs:158-173`, the zenith of the sun. -/
noncomputable def sceneZenith (cosZenith : ℝ) : ℝ :=
  if cosZenith ≤ 0 then Real.pi / 2
  else if 0.9986295347545738 ≤ cosZenith then Real.arccos (3 * Real.pi / 180)
  else Real.arccos cosZenith

/-- `scene.rs:174-192`, `dir_illum`. -/
noncomputable def directIlluminance (zenith day dewPoint diffuse direct : ℝ) : Outcome ℝ :=
  let apwc := waterContent dewPoint
  let airMass := Radiation.airMass zenith
  let extra := Radiation.extraterrestrial day
  let brightness := clamp (skyBrightness diffuse airMass extra) 0.01 (9 * 10 ^ 9)
  let clearness := clamp (skyClearness diffuse direct zenith) (-9 * 10 ^ 9) 11.9
  (directIlluminanceRatio apwc zenith brightness (clearnessCategory clearness)).bind fun ratio => .ok (direct * ratio)

/-- `scene.rs:124-204`, `add_perez_sky`: the scene and its sky.  The latitude, the longitude and the standard meridian
are in degrees; `day` is the day of the year, in standard time.  Without a position of the sun, the `unwrap` of
`perez.rs:287` panics. -/
noncomputable def Stage.addPerezSky (s : Stage) (day latitude longitude standardMeridian diffuse direct : ℝ) :
    Outcome (Stage × (V3 ℝ → ℝ)) :=
  let dewPoint := 11
  let solar : Sun.Solar := ⟨Sun.toRadians latitude, Sun.toRadians longitude, Sun.toRadians standardMeridian⟩
  match Sun.sunPosition solar (.standard day) with
  | none => .panic
  | some sun =>
    (Perez.perezSky .visible sun (Sun.unwrapSolar solar (.standard day)) dewPoint diffuse direct).bind fun sky =>
    let angle := Sun.toRadians 0.533
    let tanHalfAlpha := Real.tan (angle / 2)
    let omega := tanHalfAlpha * tanHalfAlpha * Real.pi
    (directIlluminance (sceneZenith sun.z) (Sun.unwrapSolar solar (.standard day)) dewPoint diffuse direct).bind fun dirIllum =>
    let sunBrightness := dirIllum / omega / 179
    let m := s.pushMaterial (.light fun _ => sunBrightness)
    (DistantSource.new sun angle).bind fun source =>
    (m.2.pushObject m.1 m.1 (.source source)).bind fun s => .ok (s, sky)

end Simple.Render.Stage
