import Verif.Calendar.Model
import Verif.Prelude

/-! Model of `/repo/weather/src/lib.rs` (`Weather`) and of `/repo/weather/src/current_weather.rs`.
`Float` is `ℚ`. -/

namespace Simple.Weather

open Calendar

/-- `current_weather.rs:27-64`, `struct CurrentWeather`. -/
structure CurrentWeather where
  date : Date
  dryBulb : ℚ
  dewPoint : ℚ
  globalHorizontal : ℚ
  directNormal : ℚ
  diffuseHorizontal : ℚ
  windSpeed : ℚ
  windDirection : ℚ
  infrared : Option ℚ
  opaqueSkyCover : ℚ
  relativeHumidity : ℚ
  pressure : ℚ
deriving DecidableEq, Repr

/-- A panic of the calendar. -/
def ofCalendar {α : Type _} : Option α → Outcome α
  | some a => .ok a
  | none => .panic

/-- `current_weather.rs:140-179`, `interpolate`. -/
def CurrentWeather.interpolate (self other : CurrentWeather) (x : ℚ) : Outcome CurrentWeather :=
  let interpOpt (a b : Option ℚ) : Option ℚ :=
    match a, b with
    | some a, some b => some (a + x * (b - a))
    | _, _ => none
  let interp (a b : ℚ) : ℚ := a + x * (b - a)
  (ofCalendar (self.date.interpolate other.date x)).bind fun date =>
    .ok
      { date
        dryBulb := interp self.dryBulb other.dryBulb
        dewPoint := interp self.dewPoint other.dewPoint
        relativeHumidity := interp self.relativeHumidity other.relativeHumidity
        pressure := interp self.pressure other.pressure
        infrared := interpOpt self.infrared other.infrared
        globalHorizontal := interp self.globalHorizontal other.globalHorizontal
        directNormal := interp self.directNormal other.directNormal
        diffuseHorizontal := interp self.diffuseHorizontal other.diffuseHorizontal
        windDirection := interp self.windDirection other.windDirection
        windSpeed := interp self.windSpeed other.windSpeed
        opaqueSkyCover := interp self.opaqueSkyCover other.opaqueSkyCover }

/-- The loop of `slice::binary_search_by` of the Rust standard library: halves `[base, base + size)` while
it has more than one element. -/
def searchLoop (f : ℕ → Ordering) (base size : ℕ) : ℕ :=
  if h : 1 < size then
    let half := size / 2
    let mid := base + half
    searchLoop f (if f mid = .gt then base else mid) (size - half)
  else base
termination_by size
decreasing_by omega

/-- What a search returns: where the element is, or where it would go. -/
inductive Found
  | at (i : ℕ)
  | missing (i : ℕ)
deriving DecidableEq, Repr

/-- `slice::binary_search_by` of the Rust standard library, on a slice of `n` elements that compare as `f`. -/
def binarySearch (f : ℕ → Ordering) (n : ℕ) : Found :=
  if n = 0 then .missing 0
  else
    let base := searchLoop f 0 n
    match f base with
    | .eq => .at base
    | .lt => .missing (base + 1)
    | .gt => .missing base

/-- The comparison of `lib.rs:105`; only used within the data. -/
def compareAt (data : List CurrentWeather) (date : Date) (i : ℕ) : Ordering :=
  match data[i]? with
  | some x => x.date.cmp date
  | none => .gt

/-- `lib.rs:104-136`, `find_weather_line`.  `n - 1` underflows, and `data[0]` panics, without data. -/
def findWeatherLine (data : List CurrentWeather) (date : Date) : Outcome CurrentWeather :=
  match binarySearch (compareAt data date) data.length with
  | .at i => Outcome.index data i
  | .missing i =>
    let n := data.length
    if i = 0 ∨ i = n then
      if n = 0 then .panic
      else
        (Outcome.index data (n - 1)).bind fun last =>
          (Outcome.index data 0).bind fun first =>
            (ofCalendar last.date.dayOfYear).bind fun lastN =>
              (ofCalendar first.date.dayOfYear).bind fun firstDay =>
                (ofCalendar date.dayOfYear).bind fun day =>
                  let firstN := firstDay + 365
                  let dateN := day + 365
                  let x := (dateN - lastN) / (firstN - lastN)
                  last.interpolate first x
    else
      (Outcome.index data (i - 1)).bind fun before =>
        (Outcome.index data i).bind fun after =>
          (ofCalendar before.date.dayOfYear).bind fun beforeN =>
            (ofCalendar after.date.dayOfYear).bind fun afterN =>
              (ofCalendar date.dayOfYear).bind fun dateN =>
                let x := (dateN - beforeN) / (afterN - beforeN)
                before.interpolate after x

/-- `lib.rs:139-141`, `sort_data`; the standard library's `sort_by` is a stable sort. -/
def sortData (data : List CurrentWeather) : List CurrentWeather :=
  data.mergeSort fun a b => a.date.cmp b.date != .gt

end Simple.Weather
