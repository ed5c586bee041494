import Verif.Prelude
import Verif.Float.Round

/-! Model of what a control script can do to the state: the functions and properties that
`/repo/model/src/rhai_api.rs` registers, which `/repo/derive/src/object_struct.rs`, `/repo/derive/src/object_enum.rs` and
`/repo/derive/src/field.rs` generate, and how `/repo/src/rhai_script_controller.rs` runs a script.

A script is any program that looks up objects, reads properties and sets them, and goes on depending on what it read; an
error goes to its handler, if it has one, or ends the script.  Objects do not change while a script runs, so that a variable
that holds one is the same as looking it up again.  The language itself (`rhai`) is not modelled. -/

namespace Simple.Script

/-- The types that are registered, `rhai_api.rs:36-43`; `HVAC` gives one of the last two. -/
inductive Kind
  | space | surface | fenestration | luminaire | electricHeater | idealHeaterCooler
deriving DecidableEq

/-- The fields of type `StateElementField` of these types, `space.rs:121-147`, `model/src/surface.rs:138-176`,
`fenestration.rs:181-225`, `model/src/luminaire.rs:61-63`, `electric_heater.rs:73-75`, `ideal_heater_cooler.rs:86-88`. -/
inductive Field
  | dryBulbTemperature | brightness | loudness | infiltrationVolume | infiltrationTemperature
  | ventilationVolume | ventilationTemperature
  | firstNodeTemperature | lastNodeTemperature | openFraction
  | frontConvectionCoefficient | backConvectionCoefficient | frontConvectiveHeatFlow | backConvectiveHeatFlow
  | frontIncidentSolarIrradiance | backIncidentSolarIrradiance | frontIRIrradiance | backIRIrradiance
  | powerConsumption | heatingCoolingConsumption
deriving DecidableEq

/-- An object: its type, its name, and the indices that its fields have. -/
structure Obj where
  kind : Kind
  name : String
  index : Field → Option ℕ

/-- The lists of a model in which scripts can look up objects, with the names of the functions. -/
structure Model where
  spaces : List Obj
  surfaces : List Obj
  fenestrations : List Obj
  luminaires : List Obj
  hvacs : List Obj

/-- The functions that are registered: the type's name in lower case, `object_struct.rs:591`, `object_enum.rs:295`. -/
inductive Group
  | space | surface | fenestration | luminaire | hvac
deriving DecidableEq

def Model.objects (m : Model) : Group → List Obj
  | .space => m.spaces
  | .surface => m.surfaces
  | .fenestration => m.fenestrations
  | .luminaire => m.luminaires
  | .hvac => m.hvacs

/-- The properties of surfaces and fenestrations. -/
def wallFields : List (String × Field) :=
  [("front_temperature", .firstNodeTemperature), ("back_temperature", .lastNodeTemperature),
    ("front_convection_coefficient", .frontConvectionCoefficient),
    ("back_convection_coefficient", .backConvectionCoefficient),
    ("front_convective_heat_flow", .frontConvectiveHeatFlow), ("back_convective_heat_flow", .backConvectiveHeatFlow),
    ("front_incident_solar_irradiance", .frontIncidentSolarIrradiance),
    ("back_incident_solar_irradiance", .backIncidentSolarIrradiance),
    ("front_ir_irradiance", .frontIRIrradiance), ("back_ir_irradiance", .backIRIrradiance)]

/-- The properties that are registered for a type: the fields with an attribute `physical` or `operational`, with their
name or the alias of the attribute (`object_struct.rs:495-523`, `field.rs:208-215`; the fields and attributes are in the
lines of `Field`). -/
def properties : Kind → List (String × Field)
  | .space =>
    [("dry_bulb_temperature", .dryBulbTemperature), ("brightness", .brightness), ("loudness", .loudness),
      ("infiltration_volume", .infiltrationVolume), ("infiltration_temperature", .infiltrationTemperature),
      ("ventilation_volume", .ventilationVolume), ("ventilation_temperature", .ventilationTemperature)]
  | .surface => wallFields
  | .fenestration => wallFields ++ [("open_fraction", .openFraction)]
  | .luminaire => [("power_consumption", .powerConsumption)]
  | .electricHeater => [("power_consumption", .heatingCoolingConsumption)]
  | .idealHeaterCooler => [("power_consumption", .heatingCoolingConsumption)]

/-- The field of a property; one that is not registered is an error of the script. -/
def fieldOf (k : Kind) (property : String) : Option Field := (properties k).lookup property

/-- How objects are looked up: `space("name")` or `space(3)`. -/
inductive Selector
  | name (n : String)
  | index (i : ℤ)

/-- `object_struct.rs:615-622` and `object_enum.rs:350-358`: the first object with that name. -/
def byName (l : List Obj) (n : String) : Outcome Obj :=
  match l.find? fun o => o.name = n with
  | some o => .ok o
  | none => .err

/-- `object_struct.rs:626-636` and `object_enum.rs:362-375`.  `checks` tells whether arithmetic overflow panics (builds with
checks), which `len - 1` in the error message does when there are no objects. -/
def byIndex (checks : Bool) (l : List Obj) (i : ℤ) : Outcome Obj :=
  if i < 0 then .err
  else if (l.length : ℤ) ≤ i then
    if checks ∧ l.length = 0 then .panic else .err
  else Outcome.index l i.toNat

def find (checks : Bool) (m : Model) (g : Group) : Selector → Outcome Obj
  | .name n => byName (m.objects g) n
  | .index i => byIndex checks (m.objects g) i

/-- `field.rs:217-238`: reading a property.  No index is an error; an index out of the state panics. -/
def getProperty (o : Obj) (property : String) (state : List ℚ) : Outcome ℚ :=
  match fieldOf o.kind property with
  | none => .err
  | some f =>
    match o.index f with
    | none => .err
    | some i => Outcome.index state i

/-- What scripts assign: a number with decimals or an integer, which is converted to the nearest floating point number. -/
inductive Value
  | float (v : ℚ)
  | int (v : ℤ)

def Value.toFloat : Value → ℚ
  | .float v => v
  | .int v => Round.round53 v

/-- `field.rs:240-294`: setting a property. -/
def setProperty (o : Obj) (property : String) (v : Value) (state : List ℚ) : Outcome (List ℚ) :=
  match fieldOf o.kind property with
  | none => .err
  | some f =>
    match o.index f with
    | none => .err
    | some i => if i < state.length then .ok (state.set i v.toFloat) else .panic

/-- Scripts, with handlers for the errors of each call. -/
inductive Script
  | done
  | fail
  | look (g : Group) (s : Selector) (ok err : Script)
  | get (g : Group) (s : Selector) (property : String) (ok : ℚ → Script) (err : Script)
  | set (g : Group) (s : Selector) (property : String) (v : Value) (ok err : Script)

/-- How a script ends: whether without errors, and the state that it leaves; a panic ends the program. -/
inductive Ended
  | ok (state : List ℚ)
  | err (state : List ℚ)
  | panic
deriving DecidableEq

/-- What follows a call. -/
def handle {α : Type} (r : Outcome α) (ok : α → Ended) (err : Ended) : Ended :=
  match r with
  | .ok a => ok a
  | .err => err
  | .panic => .panic

/-- `rhai_script_controller.rs:74-80`: running a script.  `research` is an argument of the registration
(`rhai_api.rs:30-44`) that nothing uses. -/
def run (checks : Bool) (_research : Bool) (m : Model) : Script → List ℚ → Ended
  | .done, state => .ok state
  | .fail, state => .err state
  | .look g s ok err, state =>
    handle (find checks m g s) (fun _ => run checks _research m ok state) (run checks _research m err state)
  | .get g s p ok err, state =>
    handle ((find checks m g s).bind fun o => getProperty o p state) (fun v => run checks _research m (ok v) state)
      (run checks _research m err state)
  | .set g s p v ok err, state =>
    handle ((find checks m g s).bind fun o => setProperty o p v state) (fun state' => run checks _research m ok state')
      (run checks _research m err state)

end Simple.Script
