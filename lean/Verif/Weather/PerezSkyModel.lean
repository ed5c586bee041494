import Verif.Weather.RadiationModel

/-! Model of the function of the sky of `/repo/weather/src/solar/perez.rs:52-85` and
`/repo/weather/src/solar/perez.rs:154-382`.  `Float` is `ℝ`; the diffuse radiation is not zero, and no number is
NaN. -/

namespace Simple.Weather.Perez

open Geometry

/-- `perez.rs:52-61`, `sky_clearness`. -/
noncomputable def skyClearness (diffuse direct zenith : ℝ) : ℝ :=
  let z3 := zenith ^ 3
  ((diffuse + direct) / diffuse + 1.041 * z3) / (1 + 1.041 * z3)

/-- `perez.rs:66-77`, `sky_brightness`. -/
noncomputable def skyBrightness (diffuse airMass extraterrestrial : ℝ) : ℝ :=
  let ret := diffuse * airMass / extraterrestrial
  if ret < 0.01 then 0.01 else ret

/-- `perez.rs:83-85`, `precipitable_water_content`. -/
noncomputable def waterContent (dewPoint : ℝ) : ℝ := Real.exp (0.07 * dewPoint - 0.075)

/-- `perez.rs:164-173`, the table of `diffuse_illuminance_ratio`, in hundredths. -/
def diffuseTable : List (ℤ × ℤ × ℤ × ℤ) := [
  (9724, -46, 1200, -891), (10722, 115, 59, -395), (10497, 296, -553, -877), (10239, 559, -1395, -1390),
  (10071, 594, -2275, -2374), (10642, 383, -3615, -2883), (14188, 190, -5324, -1403), (15223, 35, -4527, -798)]

/-- `perez.rs:154-180`, `diffuse_illuminance_ratio`. -/
noncomputable def diffuseIlluminanceRatio (water cosZenith brightness : ℝ) (index : ℕ) : Outcome ℝ :=
  if 7 < index then .panic
  else (Outcome.index diffuseTable index).bind fun t =>
    .ok ((t.1 : ℝ) / 100 + t.2.1 / 100 * water + t.2.2.1 / 100 * cosZenith + t.2.2.2 / 100 * Real.log brightness)

/-- `perez.rs:184-233`, the table of `calc_params`, in ten-thousandths. -/
def paramTable : List (List ℤ) := [
  [13525, -2576, -2690, -14366, -7670, 7, 12734, -1233, 28000, 6004, 12375, 10000, 18734, 6297, 9738, 2809, 356, -1246, -5718, 9938],
  [-12219, -7730, 14148, 11016, -2054, 367, -39128, 9156, 69750, 1774, 64477, -1239, -15798, -5081, -17812, 1080, 2624, 672, -2190, -4285],
  [-11000, -2515, 8952, 156, 2782, -1812, -45000, 11766, 247219, -130812, -377000, 348438, -50000, 15218, 39229, -26204, -156, 1597, 4199, -5562],
  [-5484, -6654, -2672, 7117, 7234, -6219, -56812, 26297, 333389, -183000, -622500, 520781, -35000, 16, 11477, 1062, 4659, -3296, -876, -329],
  [-6000, -3566, -25000, 23250, 2937, 496, -56812, 18415, 210000, -47656, -215906, 72492, -35000, -1554, 14062, 3988, 32, 766, -656, -1294],
  [-10156, -3670, 10078, 14051, 2875, -5328, -38500, 33750, 140000, -9999, -71406, 75469, -34000, -1078, -10750, 15702, -672, 4016, 3017, -4844],
  [-10000, 211, 5025, -5119, -3000, 1922, 7023, -16317, 190000, -50000, 12438, -19094, -40000, 250, 3844, 2656, 10468, -3788, -24517, 14656],
  [-10500, 289, 4260, 3590, -3250, 1156, 7781, 25, 310625, -145000, -461148, 553750, -72312, 4050, 133500, 6234, 15000, -6426, 18564, 5636]]

/-- An entry of the table, `x[i][j]` of `perez.rs:242-247`. -/
noncomputable def param (index i j : ℕ) : ℝ := (((paramTable.getD index []).getD (4 * i + j) 0 : ℤ) : ℝ) / 10000

/-- `perez.rs:183-271`, the five values of `calc_params`. -/
structure Params where
  a : ℝ
  b : ℝ
  c : ℝ
  d : ℝ
  e : ℝ

/-- `perez.rs:183-271`, `calc_params`.  Categories are below 8 (C38), so the lookup is not out of the table. -/
noncomputable def calcParams (zenith epsilon delta : ℝ) : Params :=
  let index := clearnessCategory epsilon
  let delta := if 1.065 < epsilon ∧ epsilon < 2.8 ∧ delta < 0.2 then 0.2 else delta
  let linear (i : ℕ) : ℝ :=
    param index i 0 + param index i 1 * zenith + delta * (param index i 2 + param index i 3 * zenith)
  if index ≠ 0 then ⟨linear 0, linear 1, linear 2, linear 3, linear 4⟩
  else
    ⟨linear 0, linear 1,
      Real.exp ((delta * (param index 2 0 + param index 2 1 * zenith)) ^ param index 2 2) - param index 2 3,
      -Real.exp (delta * (param index 3 0 + param index 3 1 * zenith)) + param index 3 2 + delta * param index 3 3,
      linear 4⟩

/-- `perez.rs:336-354`, the relative radiance of the sky. -/
noncomputable def relativeRadiance (p : Params) (sun dir : V3 ℝ) : ℝ :=
  let cosgamma := sun.dot dir
  let gamma := Real.arccos cosgamma
  let cosZeta := if dir.z < 0.01 then 0.01 else dir.z
  (1 + p.a * Real.exp (p.b / cosZeta)) * (1 + p.c * Real.exp (p.d * gamma) + p.e * cosgamma * cosgamma)

/-- `perez.rs:298-306`, the zenith of the sun, which is kept three degrees from the vertical. -/
noncomputable def sunZenith (cosZenith : ℝ) : ℝ :=
  if cosZenith ≤ 0 then Real.pi / 2
  else if Real.cos (Sun.toRadians 3) ≤ cosZenith then Sun.toRadians 3
  else Real.arccos cosZenith

/-- `perez.rs:31-37`, `enum SkyUnits`. -/
inductive Units where
  | solar
  | visible

/-- `perez.rs:277-382`, `get_sky_func_standard_time`, from the position of the sun and the day in solar time of
lines 286-290. -/
noncomputable def perezSky (units : Units) (sun : V3 ℝ) (day dewPoint diffuse direct : ℝ) :
    Outcome (V3 ℝ → ℝ) :=
  let zenith := sunZenith sun.z
  let water := waterContent dewPoint
  let mass := Radiation.airMass zenith
  let extra := Radiation.extraterrestrial day
  let brightness := clamp (skyBrightness diffuse mass extra) 0.01 (9 * 10 ^ 9)
  let clearness := clamp (skyClearness diffuse direct zenith) (-9 * 10 ^ 9) 11.9
  (diffuseIlluminanceRatio water sun.z brightness (clearnessCategory clearness)).bind fun ratio =>
    let diffIllum := match units with
      | .solar => diffuse * 179
      | .visible => diffuse * ratio
    skyFunction (relativeRadiance (calcParams zenith clearness brightness) sun) diffIllum

end Simple.Weather.Perez
