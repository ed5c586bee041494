import Verif.Air.Model
import Verif.Heat.WholeModel
import Verif.Light.SolarMarchModel

/-! Model of a step of the whole physics on the state of a building, `march` of `/repo/src/multiphysics_model.rs`, and of the loop
of `/repo/src/run_simulation.rs` that alternates it with the controller: the models of sun (`SolarMarchModel`), air
(`Air/Model`) and heat (`WholeModel`) one after the other, on the same state.

Simplifications: the weather that each model looks up for its dates is given; the controller is any function of the state. -/

namespace Simple.Physics

open Simple.Building

/-- `/repo/src/multiphysics_model.rs:62-83`, `struct MultiphysicsModel`, with what the building has for the models; `tiny`, `cav`,
`index` and `dt` are those of the heat model. -/
structure Models where
  solar : Light.March.Solar
  lit : Light.March.Building
  air : List Air.Prepared
  thermal : Heat.Whole.ThermalModel
  tiny : ℝ
  cav : Heat.CavityU ℝ
  index : String → Option ℕ
  dt : ℝ

/-- What the models take from the weather in a step. -/
structure Moment where
  sky : Light.March.Sky
  air : Air.Weather
  heat : List Heat.StepWeather

/-- `multiphysics_model.rs:150-174`, `march`. -/
noncomputable def march (b : Models) (now : Moment) (mem : Heat.Whole.Memory) (state : List ℝ) : Outcome (Heat.Whole.Memory × List ℝ) :=
  (Light.March.march b.solar b.lit now.sky state).bind fun state =>
  (Air.march now.air b.air state).bind fun state =>
  Heat.Whole.march b.thermal b.tiny b.cav b.index b.dt now.heat mem state

/-- `/repo/src/run_simulation.rs:230-268`: in every step the controller goes first. -/
noncomputable def run (b : Models) (control : List ℝ → Outcome (List ℝ)) : List Moment → Heat.Whole.Memory → List ℝ →
    Outcome (Heat.Whole.Memory × List ℝ)
  | [], mem, state => .ok (mem, state)
  | now :: rest, mem, state => (control state).bind fun state => (march b now mem state).bind fun r => run b control rest r.1 r.2

end Simple.Physics
