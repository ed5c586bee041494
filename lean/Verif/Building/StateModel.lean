import Verif.Prelude
import Mathlib.Data.List.Basic

/-! Model of `/repo/model/src/simulation_state.rs` and of the classification of
`/repo/model/src/simulation_state_element.rs`. -/

namespace Simple.State

/-- `simulation_state_element.rs:29-216`, `enum SimulationStateElement`. -/
inductive Element where
  | clothing
  | fenestrationOpenFraction (i : ℕ)
  | heatingCoolingPowerConsumption (i : ℕ)
  | luminairePowerConsumption (i : ℕ)
  | surfaceFrontConvectionCoefficient (i : ℕ)
  | surfaceBackConvectionCoefficient (i : ℕ)
  | surfaceFrontConvectiveHeatFlow (i : ℕ)
  | surfaceBackConvectiveHeatFlow (i : ℕ)
  | surfaceFrontSolarIrradiance (i : ℕ)
  | surfaceBackSolarIrradiance (i : ℕ)
  | surfaceFrontIRIrradiance (i : ℕ)
  | surfaceBackIRIrradiance (i : ℕ)
  | fenestrationFrontConvectionCoefficient (i : ℕ)
  | fenestrationBackConvectionCoefficient (i : ℕ)
  | fenestrationFrontConvectiveHeatFlow (i : ℕ)
  | fenestrationBackConvectiveHeatFlow (i : ℕ)
  | fenestrationFrontSolarIrradiance (i : ℕ)
  | fenestrationBackSolarIrradiance (i : ℕ)
  | fenestrationFrontIRIrradiance (i : ℕ)
  | fenestrationBackIRIrradiance (i : ℕ)
  | spaceDryBulbTemperature (i : ℕ)
  | spaceInfiltrationVolume (i : ℕ)
  | spaceInfiltrationTemperature (i : ℕ)
  | spaceVentilationVolume (i : ℕ)
  | spaceVentilationTemperature (i : ℕ)
  | spaceAirExchangeVolume (i j : ℕ)
  | surfaceNodeTemperature (i j : ℕ)
  | fenestrationNodeTemperature (i j : ℕ)
deriving DecidableEq, Repr

namespace Element

/-- `is_personal`, generated by `derive/src/simulation_state_behaviour.rs:125-134` from the attribute
`#[personal]`. -/
def isPersonal : Element → Bool
  | clothing => true
  | _ => false

/-- `is_operational`, generated by `derive/src/simulation_state_behaviour.rs:136-145` from the
attribute `#[operational]`. -/
def isOperational : Element → Bool
  | fenestrationOpenFraction _ => true
  | heatingCoolingPowerConsumption _ => true
  | luminairePowerConsumption _ => true
  | _ => false

/-- `is_physical`, generated by `derive/src/simulation_state_behaviour.rs:114-123` from the attribute
`#[physical]`. -/
def isPhysical : Element → Bool
  | surfaceFrontConvectionCoefficient _ => true
  | surfaceBackConvectionCoefficient _ => true
  | surfaceFrontConvectiveHeatFlow _ => true
  | surfaceBackConvectiveHeatFlow _ => true
  | surfaceFrontSolarIrradiance _ => true
  | surfaceBackSolarIrradiance _ => true
  | surfaceFrontIRIrradiance _ => true
  | surfaceBackIRIrradiance _ => true
  | fenestrationFrontConvectionCoefficient _ => true
  | fenestrationBackConvectionCoefficient _ => true
  | fenestrationFrontConvectiveHeatFlow _ => true
  | fenestrationBackConvectiveHeatFlow _ => true
  | fenestrationFrontSolarIrradiance _ => true
  | fenestrationBackSolarIrradiance _ => true
  | fenestrationFrontIRIrradiance _ => true
  | fenestrationBackIRIrradiance _ => true
  | spaceDryBulbTemperature _ => true
  | spaceInfiltrationVolume _ => true
  | spaceInfiltrationTemperature _ => true
  | spaceVentilationVolume _ => true
  | spaceVentilationTemperature _ => true
  | spaceAirExchangeVolume _ _ => true
  | surfaceNodeTemperature _ _ => true
  | fenestrationNodeTemperature _ _ => true
  | _ => false

end Element

/-- `simulation_state.rs:37-68`, `struct SimulationStateHeader`.  `F` is the type of the values. -/
structure Header (F : Type*) where
  nOperational : ℕ
  nIndividual : ℕ
  passedOperational : Bool
  passedPersonal : Bool
  elements : List Element
  defaultValues : Option (List F)
deriving DecidableEq, Repr

namespace Header

variable {F : Type*}

/-- `simulation_state.rs:72-81`, `default` and `new`. -/
def new : Header F := ⟨0, 0, false, false, [], some []⟩

/-- The end of `push`, `simulation_state.rs:120-131`: the element is registered; the value is
registered if the values have not been taken, else there is an error. -/
def register (h : Header F) (e : Element) (v : F) : Outcome ℕ × Header F :=
  match h.defaultValues with
  | some vs => (.ok h.elements.length,
      { h with elements := h.elements ++ [e], defaultValues := some (vs ++ [v]) })
  | none => (.err, { h with elements := h.elements ++ [e] })

/-- `simulation_state.rs:97-132`, `push`. -/
def push (h : Header F) (e : Element) (v : F) : Outcome ℕ × Header F :=
  if e.isPersonal then
    if h.passedPersonal then (.err, h)
    else register { h with nIndividual := h.nIndividual + 1 } e v
  else if e.isOperational then
    if h.passedOperational then (.err, h)
    else register { h with passedPersonal := true, nOperational := h.nOperational + 1 } e v
  else register { h with passedOperational := true, passedPersonal := true } e v

/-- `simulation_state.rs:136-138`, `len`. -/
def len (h : Header F) : ℕ := h.elements.length

/-- `simulation_state.rs:236-238`, `take_values`. -/
def takeValues (h : Header F) : Option (List F) × Header F :=
  (h.defaultValues, { h with defaultValues := none })

/-- `destination[ini..fin].copy_from_slice(&origin[ini..fin])`, which panics if the range is not
within both. -/
def copyRange (ini fin : ℕ) (origin destination : List F) : Outcome Unit × List F :=
  if ini ≤ fin ∧ fin ≤ origin.length ∧ fin ≤ destination.length then
    (.ok (), destination.take ini ++ (origin.drop ini).take (fin - ini) ++ destination.drop fin)
  else (.panic, destination)

/-- The common part of the three partial copies.  `debug` tells whether debug assertions are
compiled in: the lengths are as the header's, and all the elements of the section are of the
expected kind. -/
def copySection (debug : Bool) (h : Header F) (kind : Element → Bool) (ini fin : ℕ)
    (origin destination : List F) : Outcome Unit × List F :=
  if debug ∧ (origin.length ≠ h.len ∨ origin.length ≠ destination.length) then (.panic, destination)
  else if debug ∧ ¬ ((h.elements.drop ini).take (fin - ini)).all kind then (.panic, destination)
  else copyRange ini fin origin destination

/-- `simulation_state.rs:166-185`, `copy_physical_state`. -/
def copyPhysicalState (debug : Bool) (h : Header F) (origin destination : List F) :
    Outcome Unit × List F :=
  copySection debug h Element.isPhysical (h.nIndividual + h.nOperational) h.len origin destination

/-- `simulation_state.rs:190-209`, `copy_operational_state`. -/
def copyOperationalState (debug : Bool) (h : Header F) (origin destination : List F) :
    Outcome Unit × List F :=
  copySection debug h Element.isOperational h.nIndividual (h.nIndividual + h.nOperational)
    origin destination

/-- `simulation_state.rs:214-232`, `copy_individual_state`. -/
def copyIndividualState (debug : Bool) (h : Header F) (origin destination : List F) :
    Outcome Unit × List F :=
  copySection debug h Element.isPersonal 0 h.nIndividual origin destination

/-- The calls which change a header. -/
inductive Op (F : Type*) where
  | push (e : Element) (v : F)
  | takeValues

/-- The effect of one call on the header. -/
def apply (h : Header F) : Op F → Header F
  | .push e v => (h.push e v).2
  | .takeValues => h.takeValues.2

/-- A history of calls. -/
def applyAll (h : Header F) (ops : List (Op F)) : Header F := ops.foldl apply h

end Header
end Simple.State
