import Verif.Building.StateModel
import Verif.Sim.CsvModel

/-! Model of the names of the elements of the state, and of how requested outputs are matched with them: `stringify` and
`Output`, which `/repo/derive/src/simulation_state_behaviour.rs` generates from
`/repo/model/src/simulation_state_element.rs`, and `/repo/src/run_simulation.rs`.

Texts are lists of characters.  `serde_json::to_string` of an `Output` is modelled by the way in which `serde_json` writes
a variant with one string: `{"Variant":"text"}`, with the text escaped. -/

namespace Simple.Names

open State Csv

/-- The variants of `SimulationStateElement`, `simulation_state_element.rs:29-216`; those of `Output` have the same names,
`simulation_state_behaviour.rs:193-198`. -/
inductive Variant
  | clothing | fenestrationOpenFraction | heatingCoolingPowerConsumption | luminairePowerConsumption
  | surfaceFrontConvectionCoefficient | surfaceBackConvectionCoefficient
  | surfaceFrontConvectiveHeatFlow | surfaceBackConvectiveHeatFlow
  | surfaceFrontSolarIrradiance | surfaceBackSolarIrradiance | surfaceFrontIRIrradiance | surfaceBackIRIrradiance
  | fenestrationFrontConvectionCoefficient | fenestrationBackConvectionCoefficient
  | fenestrationFrontConvectiveHeatFlow | fenestrationBackConvectiveHeatFlow
  | fenestrationFrontSolarIrradiance | fenestrationBackSolarIrradiance
  | fenestrationFrontIRIrradiance | fenestrationBackIRIrradiance
  | spaceDryBulbTemperature | spaceInfiltrationVolume | spaceInfiltrationTemperature
  | spaceVentilationVolume | spaceVentilationTemperature | spaceAirExchangeVolume
  | surfaceNodeTemperature | fenestrationNodeTemperature
deriving DecidableEq

/-- The identifiers, same lines. -/
def Variant.ident : Variant → Text
  | clothing => "Clothing".toList
  | fenestrationOpenFraction => "FenestrationOpenFraction".toList
  | heatingCoolingPowerConsumption => "HeatingCoolingPowerConsumption".toList
  | luminairePowerConsumption => "LuminairePowerConsumption".toList
  | surfaceFrontConvectionCoefficient => "SurfaceFrontConvectionCoefficient".toList
  | surfaceBackConvectionCoefficient => "SurfaceBackConvectionCoefficient".toList
  | surfaceFrontConvectiveHeatFlow => "SurfaceFrontConvectiveHeatFlow".toList
  | surfaceBackConvectiveHeatFlow => "SurfaceBackConvectiveHeatFlow".toList
  | surfaceFrontSolarIrradiance => "SurfaceFrontSolarIrradiance".toList
  | surfaceBackSolarIrradiance => "SurfaceBackSolarIrradiance".toList
  | surfaceFrontIRIrradiance => "SurfaceFrontIRIrradiance".toList
  | surfaceBackIRIrradiance => "SurfaceBackIRIrradiance".toList
  | fenestrationFrontConvectionCoefficient => "FenestrationFrontConvectionCoefficient".toList
  | fenestrationBackConvectionCoefficient => "FenestrationBackConvectionCoefficient".toList
  | fenestrationFrontConvectiveHeatFlow => "FenestrationFrontConvectiveHeatFlow".toList
  | fenestrationBackConvectiveHeatFlow => "FenestrationBackConvectiveHeatFlow".toList
  | fenestrationFrontSolarIrradiance => "FenestrationFrontSolarIrradiance".toList
  | fenestrationBackSolarIrradiance => "FenestrationBackSolarIrradiance".toList
  | fenestrationFrontIRIrradiance => "FenestrationFrontIRIrradiance".toList
  | fenestrationBackIRIrradiance => "FenestrationBackIRIrradiance".toList
  | spaceDryBulbTemperature => "SpaceDryBulbTemperature".toList
  | spaceInfiltrationVolume => "SpaceInfiltrationVolume".toList
  | spaceInfiltrationTemperature => "SpaceInfiltrationTemperature".toList
  | spaceVentilationVolume => "SpaceVentilationVolume".toList
  | spaceVentilationTemperature => "SpaceVentilationTemperature".toList
  | spaceAirExchangeVolume => "SpaceAirExchangeVolume".toList
  | surfaceNodeTemperature => "SurfaceNodeTemperature".toList
  | fenestrationNodeTemperature => "FenestrationNodeTemperature".toList

/-- The names of the objects of a model, in order. -/
structure Names where
  fenestrations : List Text
  hvacs : List Text
  luminaires : List Text
  surfaces : List Text
  spaces : List Text

/-- `{}` of a `usize`. -/
def decimal (n : ℕ) : Text := Nat.toDigits 10 n

/-- `simulation_state_behaviour.rs:258`: `{"Variant":"args"}`. -/
def entry (v : Variant) (args : Text) : Text :=
  ['{', '"'] ++ v.ident ++ ['"', ':', '"'] ++ args ++ ['"', '}']

/-- `format!("{{\"Variant\":\"{}\"}}", model.location[i].name())`. -/
def one (v : Variant) (names : List Text) (i : ℕ) : Outcome Text :=
  (Outcome.index names i).bind fun n => .ok (entry v n)

/-- The same with `{}-{}`, of a name and a number. -/
def numbered (v : Variant) (names : List Text) (i j : ℕ) : Outcome Text :=
  (Outcome.index names i).bind fun n => .ok (entry v (n ++ ['-'] ++ decimal j))

/-- `stringify`, generated by `simulation_state_behaviour.rs:203-274` with the attributes `references` of
`simulation_state_element.rs:29-216`; the index of an object that is not there panics. -/
def stringify (m : Names) : Element → Outcome Text
  | .clothing => .ok (entry .clothing [])
  | .fenestrationOpenFraction i => one .fenestrationOpenFraction m.fenestrations i
  | .heatingCoolingPowerConsumption i => one .heatingCoolingPowerConsumption m.hvacs i
  | .luminairePowerConsumption i => one .luminairePowerConsumption m.luminaires i
  | .surfaceFrontConvectionCoefficient i => one .surfaceFrontConvectionCoefficient m.surfaces i
  | .surfaceBackConvectionCoefficient i => one .surfaceBackConvectionCoefficient m.surfaces i
  | .surfaceFrontConvectiveHeatFlow i => one .surfaceFrontConvectiveHeatFlow m.surfaces i
  | .surfaceBackConvectiveHeatFlow i => one .surfaceBackConvectiveHeatFlow m.surfaces i
  | .surfaceFrontSolarIrradiance i => one .surfaceFrontSolarIrradiance m.surfaces i
  | .surfaceBackSolarIrradiance i => one .surfaceBackSolarIrradiance m.surfaces i
  | .surfaceFrontIRIrradiance i => one .surfaceFrontIRIrradiance m.surfaces i
  | .surfaceBackIRIrradiance i => one .surfaceBackIRIrradiance m.surfaces i
  | .fenestrationFrontConvectionCoefficient i => one .fenestrationFrontConvectionCoefficient m.fenestrations i
  | .fenestrationBackConvectionCoefficient i => one .fenestrationBackConvectionCoefficient m.fenestrations i
  | .fenestrationFrontConvectiveHeatFlow i => one .fenestrationFrontConvectiveHeatFlow m.fenestrations i
  | .fenestrationBackConvectiveHeatFlow i => one .fenestrationBackConvectiveHeatFlow m.fenestrations i
  | .fenestrationFrontSolarIrradiance i => one .fenestrationFrontSolarIrradiance m.fenestrations i
  | .fenestrationBackSolarIrradiance i => one .fenestrationBackSolarIrradiance m.fenestrations i
  | .fenestrationFrontIRIrradiance i => one .fenestrationFrontIRIrradiance m.fenestrations i
  | .fenestrationBackIRIrradiance i => one .fenestrationBackIRIrradiance m.fenestrations i
  | .spaceDryBulbTemperature i => one .spaceDryBulbTemperature m.spaces i
  | .spaceInfiltrationVolume i => one .spaceInfiltrationVolume m.spaces i
  | .spaceInfiltrationTemperature i => one .spaceInfiltrationTemperature m.spaces i
  | .spaceVentilationVolume i => one .spaceVentilationVolume m.spaces i
  | .spaceVentilationTemperature i => one .spaceVentilationTemperature m.spaces i
  | .spaceAirExchangeVolume i j =>
    (Outcome.index m.spaces i).bind fun a => (Outcome.index m.spaces j).bind fun b =>
      .ok (entry .spaceAirExchangeVolume (a ++ ['-'] ++ b))
  | .surfaceNodeTemperature i j => numbered .surfaceNodeTemperature m.surfaces i j
  | .fenestrationNodeTemperature i j => numbered .fenestrationNodeTemperature m.fenestrations i j

/-- Lower-case hexadecimal digits of a control character. -/
def hexDigit (n : ℕ) : Char := Nat.digitChar n

/-- How `serde_json` writes a character of a string. -/
def escapeChar (c : Char) : Text :=
  if c = '"' then ['\\', '"']
  else if c = '\\' then ['\\', '\\']
  else if c = '\n' then ['\\', 'n']
  else if c = '\r' then ['\\', 'r']
  else if c = '\t' then ['\\', 't']
  else if c.toNat = 8 then ['\\', 'b']
  else if c.toNat = 12 then ['\\', 'f']
  else if c.toNat < 32 then ['\\', 'u', '0', '0', hexDigit (c.toNat / 16), hexDigit (c.toNat % 16)]
  else [c]

def escape (t : Text) : Text := t.flatMap escapeChar

/-- `Output`: a variant and a text, `simulation_state_behaviour.rs:193-198` and `306-311`. -/
structure Output where
  variant : Variant
  text : Text

/-- `serde_json::to_string(item)`, `run_simulation.rs:157`. -/
def request (o : Output) : Text := entry o.variant (escape o.text)

/-- `run_simulation.rs:145-149`: the names of all the elements. -/
def fullHeader (m : Names) : List Element → Outcome (List Text)
  | [] => .ok []
  | e :: es => (stringify m e).bind fun t => (fullHeader m es).bind fun ts => .ok (t :: ts)

/-- `run_simulation.rs:145-166`: the positions to report. -/
def reported (m : Names) (elements : List Element) (outputs : List Output) : Outcome (List ℕ) :=
  (fullHeader m elements).bind fun h => .ok (reportIndexes h (outputs.map request))

end Simple.Names
