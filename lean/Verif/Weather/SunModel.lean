import Mathlib.Analysis.SpecialFunctions.Trigonometric.Inverse
import Mathlib.Algebra.Order.Floor.Ring
import Verif.Geometry.VecModel

/-! Model of the position of the sun, `/repo/weather/src/solar/mod.rs:40-285`.  `Float` is `ℝ`; the arc cosine
of a number that is not a cosine is NaN, which is `none` here. -/

namespace Simple.Weather.Sun

open Geometry

/-- `mod.rs:44-60`, `struct Solar`: angles in radians. -/
structure Solar where
  latitude : ℝ
  longitude : ℝ
  standardMeridian : ℝ

/-- `mod.rs:66-73`, `enum Time`. -/
inductive Time where
  | solar (t : ℝ)
  | standard (t : ℝ)

/-- `Float::to_degrees`. -/
noncomputable def toDegrees (x : ℝ) : ℝ := x * 180 / Real.pi

/-- `Float::to_radians`. -/
noncomputable def toRadians (x : ℝ) : ℝ := x * Real.pi / 180

/-- `Float::acos`: NaN outside of [-1, 1]. -/
noncomputable def acos (x : ℝ) : Option ℝ := if -1 ≤ x ∧ x ≤ 1 then some (Real.arccos x) else none

/-- `mod.rs:156-158`, `b`. -/
noncomputable def dayAngle (n : ℝ) : ℝ := (n - 1) * 2 * Real.pi / 365

/-- `mod.rs:128-135`, `equation_of_time`. -/
noncomputable def equationOfTime (n : ℝ) : ℝ :=
  let b := dayAngle n
  229.2 * (0.000075 + 0.001868 * Real.cos b - 0.032077 * Real.sin b - 0.014615 * Real.cos (2 * b)
    - 0.04089 * Real.sin (2 * b))

/-- `mod.rs:141-149`, `declination`. -/
noncomputable def declination (n : ℝ) : ℝ :=
  let b := dayAngle n
  0.006918 - 0.399912 * Real.cos b + 0.070257 * Real.sin b - 0.006758 * Real.cos (2 * b)
    + 0.000907 * Real.sin (2 * b) - 0.002697 * Real.cos (3 * b) + 0.001480 * Real.sin (3 * b)

/-- `mod.rs:92-94`, `solar_standard_time_difference`. -/
noncomputable def timeDifference (s : Solar) (n : ℝ) : ℝ :=
  4 * toDegrees (s.standardMeridian - s.longitude) + equationOfTime n

/-- `mod.rs:98-108`, `unwrap_solar_time`. -/
noncomputable def unwrapSolar (s : Solar) : Time → ℝ
  | .solar t => t
  | .standard t => t + timeDifference s t / 24 / 60

/-- `mod.rs:112-122`, `unwrap_standard_time`. -/
noncomputable def unwrapStandard (s : Solar) : Time → ℝ
  | .solar t => t - timeDifference s t / 24 / 60
  | .standard t => t

/-- `x % 1.`, which has the sign of `x`. -/
noncomputable def remOne (x : ℝ) : ℝ := if 0 ≤ x then Int.fract x else -Int.fract (-x)

/-- `mod.rs:177-185`, `hour_angle`. -/
noncomputable def hourAngle (s : Solar) (n : Time) : ℝ :=
  let n := unwrapSolar s n
  let solarHour := 24 * remOne n
  toRadians ((solarHour - 12) * 15)

/-- `mod.rs:190-202`, `sunrise_sunset`: `none` when both are NaN. -/
noncomputable def sunriseSunset (s : Solar) (n : ℝ) : Option (Time × Time) :=
  let delta := declination n
  let cosW := -Real.tan s.latitude * Real.tan delta
  (acos cosW).map fun w =>
    let halfN := toDegrees w / 15
    let midday := (⌊n⌋ : ℝ) + 0.5
    (.solar (midday - halfN / 24), .solar (midday + halfN / 24))

/-- `Float::clamp`. -/
noncomputable def clamp (x lo hi : ℝ) : ℝ := if x < lo then lo else if hi < x then hi else x

/-- `mod.rs:226-230`: comparisons with NaN are false. -/
noncomputable def isNight (s : Solar) (n : ℝ) : Bool :=
  match sunriseSunset s n with
  | none => false
  | some (sunrise, sunset) => decide (n < unwrapSolar s sunrise ∨ unwrapSolar s sunset < n)

/-- `mod.rs:219-281`, `sun_position`.  Within its calls `acos` is only given cosines, by the tests before it. -/
noncomputable def sunPosition (s : Solar) (n : Time) : Option (V3 ℝ) :=
  let n := unwrapSolar s n
  if isNight s n then none
  else
    let cosPhi := Real.cos s.latitude
    let sinPhi := Real.sin s.latitude
    let delta := declination n
    let cosDelta := Real.cos delta
    let sinDelta := Real.sin delta
    let omega := hourAngle s (.solar n)
    let cosOmega := Real.cos omega
    let cosZenith := cosPhi * cosDelta * cosOmega + sinPhi * sinDelta
    let sinZenith := Real.sin (Real.arccos cosZenith)
    if cosZenith < 0 then none
    else if cosZenith > 0.9999 then some ⟨0, 0, 1⟩
    else
      let z := cosZenith
      let cosAzimuth := (cosZenith * sinPhi - sinDelta) / (sinZenith * cosPhi)
      let cosAzimuth := clamp cosAzimuth (-1) 1
      let sinAzimuth := Real.sin (Real.arccos cosAzimuth)
      let x := sinAzimuth * sinZenith
      let y := -cosAzimuth * sinZenith
      let x := if 0 < omega then x * -1 else x
      some ⟨x, y, z⟩

end Simple.Weather.Sun
