import Verif.Building.ModelModel

/-! Model of the default control of a simulation, `/repo/src/occupant_behaviour.rs`. -/

namespace Simple.Control

open Building

variable {P F : Type*}

/-- `space.dry_bulb_temperature(state)` of the space with that name: an error if the space does not
exist or has no temperature; reading outside of the state panics
(`derive/src/object_struct.rs:343-362`). -/
def tempOf (m : Model P F) (name : String) (state : List F) : Outcome F :=
  match m.getSpace name with
  | .ok s =>
    match s.dryBulbIndex with
    | some i => Outcome.index state i
    | none => .err
  | .err => .err
  | .panic => .panic

/-- `set_heating_cooling_consumption` (`derive/src/object_struct.rs:303-317`): an error if the system
has no index, a panic if it is outside of the state. -/
def setConsumption (index : Option ℕ) (v : F) (state : List F) : Outcome (List F) :=
  match index with
  | some i => if i < state.length then .ok (state.set i v) else .panic
  | none => .err

section
variable [LT F] [DecidableLT F] [Zero F] [Neg F]

/-- `occupant_behaviour.rs:52-70`, an electric heater. -/
def controlElectric (m : Model P F) (target : Option String) (setpoint power : Option F)
    (index : Option ℕ) (state : List F) : Outcome (List F) :=
  match target, setpoint, power with
  | some space, some setpoint, some power =>
    (tempOf m space state).bind fun temp =>
      if temp < setpoint then setConsumption index power state
      else setConsumption index 0 state
  | _, _, _ => .ok state

/-- `occupant_behaviour.rs:79-90`, the heating part of an ideal heater and cooler: the new state, and
whether there is heating. -/
def heatingPart (temp : F) (setpoint power : Option F) (index : Option ℕ) (state : List F) :
    Outcome (List F × Bool) :=
  match setpoint, power with
  | some setpoint, some power =>
    (if temp < setpoint then setConsumption index power state
      else setConsumption index 0 state).bind fun s => .ok (s, true)
  | _, _ => .ok (state, false)

/-- `occupant_behaviour.rs:92-101`, the cooling part. -/
def coolingPart (temp : F) (setpoint power : Option F) (index : Option ℕ) (hasHeating : Bool)
    (state : List F) : Outcome (List F) :=
  match setpoint, power with
  | some setpoint, some power =>
    if setpoint < temp then setConsumption index (-power) state
    else if !hasHeating then setConsumption index 0 state
    else .ok state
  | _, _ => .ok state

/-- `occupant_behaviour.rs:51-104`, one system. -/
def controlOne (m : Model P F) (h : Hvac F) (state : List F) : Outcome (List F) :=
  match h with
  | .electricHeater _ target setpoint power index => controlElectric m target setpoint power index state
  | .idealHeaterCooler _ target heating cooling maxHeating maxCooling index =>
    match target with
    | some space =>
      (tempOf m space state).bind fun temp =>
        (heatingPart temp heating maxHeating index state).bind fun (s, hasHeating) =>
          coolingPart temp cooling maxCooling index hasHeating s
    | none => .ok state

/-- `occupant_behaviour.rs:50-106`, the loop over the systems. -/
def controlLoop (m : Model P F) : List (Hvac F) → List F → Outcome (List F)
  | [], state => .ok state
  | h :: hs, state => (controlOne m h state).bind (controlLoop m hs)

/-- `occupant_behaviour.rs:43-107`, `control`.  `.ok` has the state afterwards. -/
def control (m : Model P F) (state : List F) : Outcome (List F) := controlLoop m m.hvacs state

end
end Simple.Control
