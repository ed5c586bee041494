import Verif.Weather.LineModel

/-! Model of how weather is put together: `AddAssign` and `sort_data` of `/repo/weather/src/lib.rs`, and
`/repo/weather/src/synthetic_weather.rs`.  `Float` is `ℚ`. -/

namespace Simple.Weather

open Calendar

/-- `lib.rs:88-98`, `struct Weather`.  Locations (`location.rs:25-60`) are any type with equality; that of the code derives its own, and is
reflexive unless a coordinate is not a number. -/
structure Weather (L : Type) where
  data : List CurrentWeather
  location : L
deriving DecidableEq

/-- `lib.rs:203-211`, `add_assign`. -/
def Weather.addAssign {L : Type} [DecidableEq L] (self rhs : Weather L) : Outcome (Weather L) :=
  if self.location = rhs.location then .ok { self with data := self.data ++ rhs.data } else .panic

/-- `lib.rs:139-141`, `sort_data`. -/
def Weather.sort {L : Type} (self : Weather L) : Weather L := { self with data := sortData self.data }

/-- What a user does to weather. -/
inductive WeatherOp (L : Type)
  | add (rhs : Weather L)
  | sort

/-- One of those. -/
def Weather.step {L : Type} [DecidableEq L] (self : Weather L) : WeatherOp L → Outcome (Weather L)
  | .add rhs => self.addAssign rhs
  | .sort => .ok self.sort

/-- Some of those, in order. -/
def Weather.run {L : Type} [DecidableEq L] (self : Weather L) : List (WeatherOp L) → Outcome (Weather L)
  | [] => .ok self
  | op :: ops => (self.step op).bind fun w => w.run ops

/-- `lib.rs:213-217`, `get_weather_data`. -/
def Weather.getWeatherData {L : Type} (self : Weather L) (date : Date) : Outcome CurrentWeather := findWeatherLine self.data date

/-- `synthetic_weather.rs:33-72`, `struct SyntheticWeather`.  A schedule is what its `get` says (`schedule_trait.rs:24-27`). -/
structure SyntheticWeather where
  dryBulb : Date → Option ℚ
  dewPoint : Date → Option ℚ
  globalHorizontal : Date → Option ℚ
  directNormal : Date → Option ℚ
  diffuseHorizontal : Date → Option ℚ
  windSpeed : Date → Option ℚ
  windDirection : Date → Option ℚ
  infrared : Date → Option ℚ
  opaqueSkyCover : Date → Option ℚ
  relativeHumidity : Date → Option ℚ
  pressure : Date → Option ℚ

/-- `synthetic_weather.rs:74-91`, `default`: schedules that say nothing. -/
def SyntheticWeather.default : SyntheticWeather :=
  let empty : Date → Option ℚ := fun _ => none
  ⟨empty, empty, empty, empty, empty, empty, empty, empty, empty, empty, empty⟩

/-- `synthetic_weather.rs:93-116`, `get_weather_data`. -/
def SyntheticWeather.getWeatherData (self : SyntheticWeather) (date : Date) : CurrentWeather where
  date := date
  dryBulb := (self.dryBulb date).getD 0
  dewPoint := (self.dewPoint date).getD 0
  globalHorizontal := (self.globalHorizontal date).getD 0
  directNormal := (self.directNormal date).getD 0
  diffuseHorizontal := (self.diffuseHorizontal date).getD 0
  windSpeed := (self.windSpeed date).getD 0
  windDirection := (self.windDirection date).getD 0
  infrared := self.infrared date
  opaqueSkyCover := (self.opaqueSkyCover date).getD 0
  relativeHumidity := (self.relativeHumidity date).getD (1 / 2)
  pressure := (self.pressure date).getD 101300

end Simple.Weather
