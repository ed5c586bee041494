import Verif.Weather.LineModel

/-! Model of `/repo/weather/src/epw`.  The text is a list of bytes.  `String::from_utf8` and
`str::parse::<Float>` of the standard library are a parameter, `Text`; `Float` is `ℚ`. -/

namespace Simple.Weather.Epw

open Calendar

/-- `,`, `\n`, `\r` and `"`. -/
def comma : UInt8 := 44
def newline : UInt8 := 10
def carriage : UInt8 := 13
def quote : UInt8 := 34

/-- What the standard library does with bytes: are they a string, and the number that it is, if any. -/
structure Text where
  utf8 : List UInt8 → Bool
  parse : List UInt8 → Option ℚ

/-- `scanner.rs:29-46`, `struct EPWScanner`, but for the source. -/
structure Scanner where
  current : ℕ
  start : ℕ
  line : ℕ
  inString : Bool
deriving DecidableEq, Repr

/-- `scanner.rs:50-58`, `new`. -/
def Scanner.new : Scanner := ⟨0, 0, 1, false⟩

/-- `scanner.rs:84-86`, `is_finished`. -/
def isFinished (src : List UInt8) (s : Scanner) : Bool := src.length ≤ s.current

/-- The loop of `scanner.rs:95-117`. -/
def scanLoop (src : List UInt8) (s : Scanner) : Scanner :=
  if h : s.current < src.length then
    let b := src[s.current]
    if !s.inString && b == comma then s
    else if b = newline then { s with line := s.line + 1 }
    else if b = quote then scanLoop src { s with inString := !s.inString, current := s.current + 1 }
    else scanLoop src { s with current := s.current + 1 }
  else s
termination_by src.length - s.current

/-- `scanner.rs:90-130`, `scan_element`; `end - 1` underflows if `end` is zero. -/
def scanElement (src : List UInt8) (s : Scanner) : Outcome (Option (List UInt8) × Scanner) :=
  if isFinished src s then .ok (none, s)
  else
    let s := scanLoop src s
    let fin := s.current
    if fin = 0 then .panic
    else
      let fin := if src[fin - 1]? = some carriage then fin - 1 else fin
      let slice := if s.start ≤ fin ∧ fin ≤ src.length then some ((src.drop s.start).take (fin - s.start)) else none
      .ok (slice, { s with current := s.current + 1, start := s.current + 1 })

/-- `scanner.rs:132-144`, `scan_string`. -/
def scanString (t : Text) : Option (List UInt8) → Outcome (List UInt8)
  | some v => if t.utf8 v then .ok v else .err
  | none => .err

/-- `scanner.rs:154-167`, `scan_number`. -/
def scanNumber (t : Text) (slice : Option (List UInt8)) : Outcome ℚ :=
  match scanString t slice with
  | .ok v =>
    match t.parse v with
    | some x => .ok x
    | none => .panic
  | _ => .err

/-- Something that advances a scanner. -/
abbrev Parser (α : Type) := StateT Scanner Outcome α

/-- `EPWScanner::scan_number(self.scan_element())?`. -/
def number (t : Text) (src : List UInt8) : Parser ℚ := fun s =>
  (scanElement src s).bind fun (slice, s) => (scanNumber t slice).bind fun x => .ok (x, s)

/-- `EPWScanner::scan_string(self.scan_element())?`. -/
def string (t : Text) (src : List UInt8) : Parser (List UInt8) := fun s =>
  (scanElement src s).bind fun (slice, s) => (scanString t slice).bind fun x => .ok (x, s)

/-- `EPWScanner::skip_string(self.scan_element())?`, `scanner.rs:148-151`. -/
def skip (src : List UInt8) : Parser Bool := fun s =>
  (scanElement src s).bind fun (_, s) => .ok (true, s)

/-- `as usize`: saturates below at zero (and above, out of reach here). -/
def asUsize (x : ℚ) : ℕ := ⌊x⌋.toNat

/-- `as u8`: saturates. -/
def asU8 (x : ℚ) : ℕ := min 255 ⌊x⌋.toNat

/-- `as i8`: truncates and saturates. -/
def asI8 (x : ℚ) : ℤ := max (-128) (min 127 (if 0 ≤ x then ⌊x⌋ else ⌈x⌉))

/-- `weather_line.rs:27-157`, `struct EPWWeatherLine`. -/
structure Line where
  year : ℕ
  month : ℕ
  day : ℕ
  hour : ℚ
  minute : ℕ
  uncertaintyFlags : Bool
  dryBulb : ℚ
  dewPoint : ℚ
  relativeHumidity : ℚ
  pressure : ℚ
  extraterrestrialHorizontal : ℚ
  extraterrestrialDirectNormal : ℚ
  infrared : ℚ
  globalHorizontal : ℚ
  directNormal : ℚ
  diffuseHorizontal : ℚ
  globalHorizontalIlluminance : ℚ
  directNormalIlluminance : ℚ
  diffuseHorizontalIlluminance : ℚ
  zenithLuminance : ℚ
  windDirection : ℚ
  windSpeed : ℚ
  totalSkyCover : ℚ
  opaqueSkyCover : ℚ
  visibility : ℚ
  ceilingHeight : ℚ
  presentWeatherObservation : ℚ
  presentWeatherCodes : ℚ
  precipitableWater : ℚ
  aerosolOpticalDepth : ℚ
  snowDepth : ℚ
  lastDaySinceLastSnowfall : ℕ
  albedo : ℚ
  liquidPrecipitationDepth : ℚ
  liquidPrecipitationQuantity : ℚ
deriving DecidableEq, Repr

/-- The body of the loop of `scanner.rs:247-291`. -/
def parseLine (t : Text) (src : List UInt8) : Parser Line := do
  let year ← number t src
  let month ← number t src
  let day ← number t src
  let hour ← number t src
  let minute ← number t src
  let uncertaintyFlags ← skip src
  let dryBulb ← number t src
  let dewPoint ← number t src
  let relativeHumidity ← number t src
  let pressure ← number t src
  let extraterrestrialHorizontal ← number t src
  let extraterrestrialDirectNormal ← number t src
  let infrared ← number t src
  let globalHorizontal ← number t src
  let directNormal ← number t src
  let diffuseHorizontal ← number t src
  let globalHorizontalIlluminance ← number t src
  let directNormalIlluminance ← number t src
  let diffuseHorizontalIlluminance ← number t src
  let zenithLuminance ← number t src
  let windDirection ← number t src
  let windSpeed ← number t src
  let totalSkyCover ← number t src
  let opaqueSkyCover ← number t src
  let visibility ← number t src
  let ceilingHeight ← number t src
  let presentWeatherObservation ← number t src
  let presentWeatherCodes ← number t src
  let precipitableWater ← number t src
  let aerosolOpticalDepth ← number t src
  let snowDepth ← number t src
  let lastDaySinceLastSnowfall ← number t src
  let albedo ← number t src
  let liquidPrecipitationDepth ← number t src
  let liquidPrecipitationQuantity ← number t src
  return {
    year := asUsize year, month := asU8 month, day := asU8 day, hour, minute := asU8 minute, uncertaintyFlags,
    dryBulb, dewPoint, relativeHumidity, pressure, extraterrestrialHorizontal, extraterrestrialDirectNormal,
    infrared, globalHorizontal, directNormal, diffuseHorizontal, globalHorizontalIlluminance,
    directNormalIlluminance, diffuseHorizontalIlluminance, zenithLuminance, windDirection := max windDirection 360,
    windSpeed, totalSkyCover, opaqueSkyCover, visibility, ceilingHeight, presentWeatherObservation,
    presentWeatherCodes, precipitableWater, aerosolOpticalDepth, snowDepth,
    lastDaySinceLastSnowfall := asUsize lastDaySinceLastSnowfall, albedo, liquidPrecipitationDepth,
    liquidPrecipitationQuantity }

/-- The loop of `scanner.rs:246-292`; `fuel` is more than the bytes left, and each line takes some. -/
def parseLines (t : Text) (src : List UInt8) : (fuel : ℕ) → List Line → Parser (List Line)
  | 0, data => pure data
  | fuel + 1, data => fun s =>
    if isFinished src s then .ok (data, s)
    else (do let l ← parseLine t src; parseLines t src fuel (data ++ [l])) s

/-- `scanner.rs:225-293`, `parse_data_periods`. -/
def parseDataPeriods (t : Text) (src : List UInt8) (data : List Line) : Parser (List Line) := do
  let n ← number t src
  if asUsize n ≠ 1 then (fun _ => .panic : Parser Unit)
  let nRecords ← number t src
  if asUsize nRecords ≠ 1 then (fun _ => .panic : Parser Unit)
  let _ ← string t src
  let _ ← string t src
  let _ ← string t src
  let _ ← string t src
  parseLines t src (src.length + 1) data

/-- `location.rs:24-64`, `struct Location`; latitude and longitude in degrees here. -/
structure Location where
  city : List UInt8
  state : List UInt8
  country : List UInt8
  source : List UInt8
  wmo : List UInt8
  latitude : ℚ
  longitude : ℚ
  timezone : ℤ
  elevation : ℚ
deriving DecidableEq, Repr

/-- `scanner.rs:297-310`, `parse_location`; the conversion to radians is left out. -/
def parseLocation (t : Text) (src : List UInt8) : Parser Location := do
  let city ← string t src
  let state ← string t src
  let country ← string t src
  let source ← string t src
  let wmo ← string t src
  let latitude ← number t src
  let longitude ← number t src
  let timezone ← number t src
  let elevation ← number t src
  return { city, state, country, source, wmo, latitude, longitude, timezone := asI8 timezone, elevation }

/-- `scanner.rs:170-188`, `next_is_empty`.  On a newline it looks at the same character again. -/
def nextIsEmpty (src : List UInt8) (s : Scanner) : Bool :=
  match src[s.current]? with
  | none => true
  | some b => if b = comma then true else if b = newline then b == comma else false

/-- `ground_temperature.rs:24-40`. -/
structure Ground where
  depth : ℚ
  conductivity : Option ℚ
  density : Option ℚ
  specificHeat : Option ℚ
  temperatures : List ℚ
deriving DecidableEq, Repr

/-- `scanner.rs:325-329` and the two that follow. -/
def optionalNumber (t : Text) (src : List UInt8) : Parser (Option ℚ) := fun s =>
  if nextIsEmpty src s then (scanElement src s).bind fun (_, s) => .ok (none, s)
  else (number t src s).bind fun (x, s) => .ok (some x, s)

/-- The loop of `scanner.rs:341-344`. -/
def numbers (t : Text) (src : List UInt8) : ℕ → Parser (List ℚ)
  | 0 => pure []
  | n + 1 => do let x ← number t src; let xs ← numbers t src n; return x :: xs

/-- The loop of `scanner.rs:321-347`. -/
def grounds (t : Text) (src : List UInt8) : ℕ → List Ground → Parser (List Ground)
  | 0, gs => pure gs
  | n + 1, gs => do
    let depth ← number t src
    let conductivity ← optionalNumber t src
    let density ← optionalNumber t src
    let specificHeat ← optionalNumber t src
    let temperatures ← numbers t src 12
    grounds t src n (gs ++ [{ depth, conductivity, density, specificHeat, temperatures }])

/-- `weather.rs:29-38`, `struct EPWWeather`. -/
structure File where
  location : Location
  ground : List Ground
  data : List Line
deriving DecidableEq, Repr

/-- `"GROUND TEMPERATURES"`, `"LOCATION"` and `"DATA PERIODS"`. -/
def kwGround : List UInt8 := [71, 82, 79, 85, 78, 68, 32, 84, 69, 77, 80, 69, 82, 65, 84, 85, 82, 69, 83]
def kwLocation : List UInt8 := [76, 79, 67, 65, 84, 73, 79, 78]
def kwData : List UInt8 := [68, 65, 84, 65, 32, 80, 69, 82, 73, 79, 68, 83]

/-- What is done with a keyword, `scanner.rs:204-217` and `parse_ground_temperature`, `scanner.rs:314-349`. -/
def parseKeyword (t : Text) (src : List UInt8) (keyword : List UInt8) (f : File) : Parser File :=
  if keyword = kwGround then do
    let n ← number t src
    let gs ← grounds t src (asUsize n) f.ground
    return { f with ground := gs }
  else if keyword = kwLocation then do
    let l ← parseLocation t src
    return { f with location := l }
  else if keyword = kwData then do
    let d ← parseDataPeriods t src f.data
    return { f with data := d }
  else pure f

/-- The loop of `scanner.rs:193-220`, `parse_file`; `fuel` is more than the elements of the text. -/
def parseFile (t : Text) (src : List UInt8) : (fuel : ℕ) → File → Parser File
  | 0, f => pure f
  | fuel + 1, f => fun s =>
    (scanElement src s).bind fun (slice, s) =>
      if slice.isNone then .ok (f, s)
      else (scanString t slice).bind fun keyword =>
        (do let f ← parseKeyword t src keyword f; parseFile t src fuel f) s

/-- `scanner.rs:71-81`, `build_weather_file`. -/
def buildWeatherFile (t : Text) (src : List UInt8) : Outcome File :=
  (parseFile t src (src.length + 1) ⟨⟨[], [], [], [], [], 0, 0, 0, 0⟩, [], []⟩ Scanner.new).map (·.1)

/-- `weather_line.rs:159-188`, `From<&EPWWeatherLine>`; `to_radians` is given. -/
def toCurrentWeather (toRadians : ℚ → ℚ) (l : Line) : CurrentWeather where
  date := ⟨l.month, l.day, l.hour - 1 / 1000000⟩
  dryBulb := l.dryBulb
  dewPoint := l.dewPoint
  directNormal := l.directNormal
  globalHorizontal := l.globalHorizontal
  diffuseHorizontal := l.diffuseHorizontal
  windSpeed := l.windSpeed
  windDirection := toRadians l.windDirection
  infrared := some l.infrared
  opaqueSkyCover := l.opaqueSkyCover / 10
  relativeHumidity := l.relativeHumidity / 100
  pressure := l.pressure

end Simple.Weather.Epw
