import Mathlib.Analysis.SpecialFunctions.Pow.Real
import Mathlib.Analysis.SpecialFunctions.Log.Basic
import Verif.Weather.PerezModel
import Verif.Weather.SunModel

/-! Model of the estimates of the radiation of the sun and the sky: `/repo/weather/src/solar/mod.rs:36-38`,
`/repo/weather/src/solar/mod.rs:165-173`, `/repo/weather/src/solar/mod.rs:290-625`,
`/repo/weather/src/lib.rs:146-204` and `/repo/weather/src/current_weather.rs:125-137`.  `Float` is `ℝ`, without
infinities; NaN is `none` where the division of zero by zero may give it.  Directions to the sun are given by
their vertical component, the cosine of the zenith, which is within [-1, 1]. -/

namespace Simple.Weather.Radiation

open Sun (Solar Time)
open Perez (clamp)

/-- `mod.rs:62`, `SOLAR_CONSTANT`. -/
noncomputable def solarConstant : ℝ := 1367.7

/-- `mod.rs:36-38`, `air_mass`. -/
noncomputable def airMass (zenith : ℝ) : ℝ :=
  1 / (Real.cos zenith + 0.15 * (93.885 - Sun.toDegrees zenith) ^ (-1.253 : ℝ))

/-- `mod.rs:165-173`, `normal_extraterrestrial_radiation`. -/
noncomputable def extraterrestrial (n : ℝ) : ℝ :=
  let b := Sun.dayAngle n
  solarConstant * (1.000110 + 0.034221 * Real.cos b + 0.001280 * Real.sin b + 0.000719 * Real.cos (2 * b)
    + 0.000077 * Real.sin (2 * b))

/-- `mod.rs:290-303`, `beam_atmosphere_transmittance`. -/
noncomputable def beamTransmittance (z elevation : ℝ) : ℝ :=
  let e := elevation / 1000
  let a0 := 0.4237 - 0.00821 * (6 - e) ^ 2
  let a1 := 0.5055 + 0.00595 * (6.5 - e) ^ 2
  let k := 0.2711 + 0.01858 * (2.5 - e) ^ 2
  a0 + a1 * Real.exp (-k / z)

/-- `mod.rs:309-325`, `clear_sky_global_horizontal_rad`. -/
noncomputable def clearSkyGlobal (s : Solar) (n : Time) (z elevation : ℝ) : ℝ :=
  let tb := beamTransmittance z elevation
  let td := 0.271 - 0.294 * tb
  let tau := tb + td
  extraterrestrial (Sun.unwrapSolar s n) * tau * z

/-- `mod.rs:378-463`, `estimate_global_horizontal_radiation`; its `debug_assert!`s are left out. -/
noncomputable def estimateGlobal (z cover temperature prior wind humidity : ℝ) : ℝ :=
  let humidity := humidity * 100
  let rad := solarConstant * z *
    (0.749833333 + 0.043947778 * cover + (-0.28806125) * cover ^ 2 + 0.016512222 * (temperature - prior)
      + (-0.0029925) * humidity + 0.003777778 * wind) + (-5.949946667)
  if 0 < rad then rad else 0

/-- `mod.rs:466-469`, `hourly_clearness_index`. -/
noncomputable def clearnessIndex (s : Solar) (n : Time) (globalNormal : ℝ) : ℝ :=
  globalNormal / extraterrestrial (Sun.unwrapSolar s n)

/-- `mod.rs:500-504`, the value `a` of `disc_direct_solar`. -/
noncomputable def discA (kt : ℝ) : ℝ :=
  if 0.6 < kt then -5.743 + 21.77 * kt - 27.49 * kt ^ 2 + 11.56 * kt ^ 3
  else 0.512 - 1.56 * kt + 2.286 * kt ^ 2 - 2.222 * kt ^ 3

/-- `mod.rs:506-510`, the value `b` of `disc_direct_solar`. -/
noncomputable def discB (kt : ℝ) : ℝ :=
  if 0.6 < kt then 41.4 - 118.5 * kt + 66.05 * kt ^ 2 + 31.9 * kt ^ 3 else 0.37 + 0.962 * kt

/-- `mod.rs:512-516`, the value `c` of `disc_direct_solar`. -/
noncomputable def discC (kt : ℝ) : ℝ :=
  if 0.6 < kt then -47.01 + 184.2 * kt - 222.0 * kt ^ 2 + 73.81 * kt ^ 3
  else -0.28 + 0.932 * kt - 2.048 * kt ^ 2

/-- `mod.rs:520-522`, the value `knc` of `disc_direct_solar`. -/
noncomputable def discClear (m : ℝ) : ℝ :=
  0.886 - 0.122 * m + 0.0121 * m ^ 2 - 0.000653 * m ^ 3 + 0.000014 * m ^ 4

/-- `mod.rs:477-531`, `disc_direct_solar`.  The extraterrestrial radiation is taken to be the global one divided
by the clearness index, which is NaN when both are zero. -/
noncomputable def discDirect (s : Solar) (n : Time) (z globalNormal pressure : ℝ) : Option ℝ :=
  let kt := clearnessIndex s n globalNormal
  let extra : Option ℝ := if kt = 0 then none else some (globalNormal / kt)
  if kt < 0 then some 0
  else
    let kt := clamp kt 0 1
    let zenith := Real.arccos z
    if 80 * Real.pi / 180 < zenith then some 0
    else
      let m := airMass zenith * pressure / 101300
      let deltaKn := discA kt + discB kt * Real.exp (discC kt * m)
      extra.map fun e =>
        let ret := e * (discClear m - deltaKn)
        if ret < 0 then 0 else ret

/-- `current_weather.rs:27-64`, the fields of `struct CurrentWeather` of these functions: the day of the year of
its date, with the fraction of the day, and the radiation, of which the direct one may be NaN. -/
structure Reading where
  day : ℝ
  dryBulb : ℝ
  dewPoint : ℝ
  global : ℝ
  direct : Option ℝ
  diffuse : ℝ
  windSpeed : ℝ
  cover : ℝ
  humidity : ℝ
  pressure : ℝ

/-- `mod.rs:567-569`, `aux` of `perez_direct_normal_radiation`.  With no pressure at all, `9.4 / m` is an infinity
there and zero here. -/
noncomputable def independentKt (kt m : ℝ) : ℝ := kt / (1.031 * Real.exp (-1.4 / (0.9 + 9.4 / m)) + 0.1)

/-- `mod.rs:587-595` and `mod.rs:597-605`, the clearness of the next or the previous hour. -/
noncomputable def neighbourKt (s : Solar) (z m own : ℝ) : Option Reading → ℝ
  | some r => independentKt (clearnessIndex s (.standard r.day) (r.global / z)) m
  | none => own

/-- `mod.rs:555-625`, `perez_direct_normal_radiation`. -/
noncomputable def perezDirect (s : Solar) (z : ℝ) (current : Reading) (next prev : Option Reading) :
    Outcome (Option ℝ) :=
  let n := Time.standard current.day
  let globalNormal := current.global / z
  let m := airMass (Real.arccos z) * current.pressure / 101300
  let kt := clamp (clearnessIndex s n globalNormal) 0 1
  let ktP := clamp (independentKt kt m) 0 1
  let nextKtP := neighbourKt s z m ktP next
  let prevKtP := neighbourKt s z m ktP prev
  let deltaKtP := 0.5 * (|ktP - nextKtP| + |ktP - prevKtP|)
  (Perez.directNormalCoefficient z ktP deltaKtP current.dewPoint).map fun x =>
    match x with
    | none => some 0
    | some x => (discDirect s n z globalNormal current.pressure).map fun d => (x : ℝ) / 10 ^ 6 * d

/-- `mod.rs:331-371`, `direct_diffuse_from_cloud_generic`: direct, diffuse and global.  A direct radiation that is
NaN is kept, since the test of line 361 is for numbers that are NaN and infinite; `f64::max` of NaN and zero is
zero. -/
noncomputable def fromClouds (s : Solar) (z : ℝ) (current : Reading) (next prev : Option Reading)
    (threeHoursPrior : Reading) : Outcome (Option ℝ × ℝ × ℝ) :=
  let global := estimateGlobal z current.cover current.dryBulb threeHoursPrior.dryBulb current.windSpeed
    current.humidity
  (perezDirect s z { current with global } next prev).map fun direct =>
    let diffuse := match direct with
      | none => 0
      | some d => max (global - d * z) 0
    (direct, diffuse, global)

/-- `lib.rs:149-194`, the radiation of one line in `fill_solar_radiation_data`. -/
noncomputable def lineRadiation (s : Solar) (data : List Reading) (i : ℕ) (r : Reading) :
    Outcome (Option ℝ × ℝ × ℝ) :=
  match Sun.sunPosition s (.standard r.day) with
  | none => .ok (some 0, 0, 0)
  | some sun =>
    let prior := if 3 ≤ i then data[i - 3]?.getD r else r
    let prev := if 1 ≤ i then data[i - 1]? else none
    let next := data[i + 1]?
    fromClouds s sun.z r next prev prior

/-- The loop of `lib.rs:149-194`, from line `i` on. -/
noncomputable def linesRadiation (s : Solar) (data : List Reading) : ℕ → List Reading →
    Outcome (List (Option ℝ × ℝ × ℝ))
  | _, [] => .ok []
  | i, r :: rest =>
    (lineRadiation s data i r).bind fun x => (linesRadiation s data (i + 1) rest).map (x :: ·)

/-- `lib.rs:146-204`, `fill_solar_radiation_data`. -/
noncomputable def fillRadiation (s : Solar) (data : List Reading) : Outcome (List Reading) :=
  (linesRadiation s data 0 data).map fun calculated =>
    List.zipWith (fun r (c : Option ℝ × ℝ × ℝ) => { r with direct := c.1, diffuse := c.2.1, global := c.2.2 })
      data calculated

/-- `current_weather.rs:125-137`, `derive_horizontal_ir`. -/
noncomputable def deriveHorizontalIr (dryBulb dewPoint cover : ℝ) : ℝ :=
  let dp := dewPoint + 273.15
  let temp := dryBulb + 273.15
  let clear := 0.787 + 0.764 * Real.log (dp / 273)
  let sky := clear * (1 + 0.0224 * cover - 0.0035 * cover ^ 2 + 0.00028 * cover ^ 3)
  5.670374419e-8 * sky * temp ^ 4

/-- `/repo/light/src/solar_model.rs:76-80`, the infrared radiation of the sky that a simulation uses. -/
noncomputable def horizontalIr (infrared : Option ℝ) (dryBulb dewPoint cover : ℝ) : ℝ :=
  match infrared with
  | some v => v
  | none => deriveHorizontalIr dryBulb dewPoint cover

end Simple.Weather.Radiation
