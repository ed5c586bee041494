import Mathlib.Analysis.SpecialFunctions.Pow.Real
import Mathlib.Analysis.SpecialFunctions.Sqrt
import Verif.Building.StateModel

/-! Model of the air flow crate, `/repo/air/src`, and of the wind profile of
`/repo/model/src/site_details.rs`, over the reals. -/

namespace Simple.Air

open Simple.State

noncomputable section

/-- The fields of `CurrentWeather` used here. -/
structure Weather where
  dryBulb : ℝ
  windSpeed : ℝ

/-- `model/src/site_details.rs:28-52`, `enum TerrainClass`. -/
inductive Terrain
  | country | suburbs | city | ocean | urban

/-- `site_details.rs:82-97`, `wind_speed_modifier`. -/
def Terrain.windSpeedModifier (t : Terrain) (height : ℝ) : ℝ :=
  if height < 1e-5 then 0
  else
    let p : ℝ × ℝ := match t with
      | .country => (0.14, 270)
      | .suburbs => (0.22, 370)
      | .city => (0.33, 460)
      | .ocean => (0.10, 210)
      | .urban => (0.22, 370)
    (270 / 10) ^ (0.14 : ℝ) * (height / p.2) ^ p.1

/-- `site_details.rs:183-190`, on the optional terrain of the site. -/
def siteModifier (terrain : Option Terrain) (height : ℝ) : ℝ :=
  match terrain with
  | some t => t.windSpeedModifier height
  | none => Terrain.suburbs.windSpeedModifier height

/-- `space.dry_bulb_temperature(state).expect(..)`: panics without an index, and outside of the state. -/
def dryBulbOf (dryBulb : Option ℕ) (state : List ℝ) : Outcome ℝ :=
  match dryBulb with
  | some i => Outcome.index state i
  | none => .panic

/-- `eplus.rs:31-50`, `design_flow_rate`. -/
def designFlowRate (w : Weather) (dryBulb : Option ℕ) (state : List ℝ)
    (designRate a b c d modifier : ℝ) : Outcome ℝ :=
  (dryBulbOf dryBulb state).bind fun tSpace =>
    let tOut := w.dryBulb
    let windSpeed := w.windSpeed * modifier
    .ok (designRate * (a + b * |tSpace - tOut| + c * windSpeed + d * windSpeed * windSpeed))

/-- `eplus.rs:53-71`, `blast_design_flow_rate`. -/
def blastDesignFlowRate (w : Weather) (dryBulb : Option ℕ) (state : List ℝ) (designRate modifier : ℝ) :
    Outcome ℝ :=
  designFlowRate w dryBulb state designRate 0.606 0.03636 0.1177 0 modifier

/-- `eplus.rs:74-92`, `doe2_design_flow_rate`. -/
def doe2DesignFlowRate (w : Weather) (dryBulb : Option ℕ) (state : List ℝ) (designRate modifier : ℝ) :
    Outcome ℝ :=
  designFlowRate w dryBulb state designRate 0 0 0.224 0 modifier

/-- `eplus.rs:95-113`, `effective_leakage_area`. -/
def effectiveLeakageArea (w : Weather) (dryBulb : Option ℕ) (state : List ℝ) (area cw cs : ℝ) :
    Outcome ℝ :=
  (dryBulbOf dryBulb state).bind fun spaceTemp =>
    let deltaT := |w.dryBulb - spaceTemp|
    let ws := w.windSpeed
    let aux := √(cs * deltaT + cw * ws * ws)
    .ok (area * 10 * aux)

/-- `model/src/building.rs`, `enum ShelterClass`. -/
inductive Shelter
  | noObstructions | isolatedRural | urban | largeLotUrban | smallLotUrban

/-- The fields of a `Building` used here. -/
structure Bldg where
  stackCoefficient : Option ℝ
  windCoefficient : Option ℝ
  nStoreys : Option ℕ
  shelter : Option Shelter

/-- `resolvers.rs:118-145`, `resolve_stack_coefficient`. -/
def stackCoefficient (b : Bldg) : Outcome ℝ :=
  match b.stackCoefficient with
  | some v => .ok v
  | none =>
    match b.nStoreys with
    | none => .err
    | some n =>
      if n = 0 then .err
      else if n = 1 then .ok 0.000145
      else if n = 2 then .ok 0.000290
      else if n = 3 then .ok 0.000435
      else .ok 0.000435

/-- The table of `resolvers.rs:158-203`. -/
def shelterTable : Shelter → ℝ × ℝ × ℝ
  | .noObstructions => (0.000319, 0.000420, 0.000494)
  | .isolatedRural => (0.000246, 0.000325, 0.000382)
  | .urban => (0.000172, 0.000231, 0.000271)
  | .largeLotUrban => (0.000104, 0.000137, 0.000161)
  | .smallLotUrban => (0.000032, 0.000042, 0.000049)

/-- `resolvers.rs:147-211`, `resolve_wind_coefficient`. -/
def windCoefficient (b : Bldg) : Outcome ℝ :=
  match b.windCoefficient with
  | some v => .ok v
  | none =>
    match b.nStoreys with
    | none => .err
    | some n =>
      match b.shelter with
      | none => .err
      | some s =>
        let row := shelterTable s
        .ok (if n = 1 then row.1 else if n = 2 then row.2.1 else row.2.2)

/-- `model/src/infiltration.rs:52-110`, `enum Infiltration`. -/
inductive Infiltration
  | constant (flow : ℝ)
  | blast (flow : ℝ)
  | doe2 (flow : ℝ)
  | designFlowRate (a b c d phi : ℝ)
  | leakageArea (area : ℝ)

/-- What matters of a space: its infiltration, its building (`none` if it has no building; `some none` if
the model does not have it) and the index of its temperature. -/
structure Space where
  infiltration : Option Infiltration
  building : Option (Option Bldg)
  dryBulb : Option ℕ

/-- The closures of `resolvers.rs`, as what they capture besides the space. -/
inductive Resolver
  | nothing
  | constant (v : ℝ)
  | blast (modifier v : ℝ)
  | doe2 (modifier v : ℝ)
  | design (modifier a b c d v : ℝ)
  | leakage (cw cs area : ℝ)

/-- `air_model.rs:86-108` and the functions of `resolvers.rs` that return closures. -/
def resolve (terrain : Option Terrain) (s : Space) : Outcome Resolver :=
  match s.infiltration with
  | none => .ok .nothing
  | some (.constant flow) => .ok (.constant flow)
  | some (.blast flow) => .ok (.blast (siteModifier terrain 1) flow)
  | some (.doe2 flow) => .ok (.doe2 (siteModifier terrain 1) flow)
  | some (.designFlowRate a b c d phi) => .ok (.design (siteModifier terrain 1) a b c d phi)
  | some (.leakageArea area) =>
    match s.building with
    | none => .err
    | some none => .err
    | some (some b) =>
      (stackCoefficient b).bind fun cs => (windCoefficient b).bind fun cw => .ok (.leakage cw cs area)

/-- A space after `new`: the indexes of its infiltration in the state, and its closure. -/
structure Prepared where
  dryBulb : Option ℕ
  volumeIndex : ℕ
  temperatureIndex : ℕ
  resolver : Resolver

/-- The loop of `air_model.rs:68-109`. -/
def newLoop (terrain : Option Terrain) : (i : ℕ) → List Space → Header ℝ →
    Outcome (List Prepared × Header ℝ)
  | _, [], h => .ok ([], h)
  | i, s :: rest, h =>
    match h.push (.spaceInfiltrationVolume i) 0 with
    | (.ok volumeIndex, h) =>
      match h.push (.spaceInfiltrationTemperature i) 0 with
      | (.ok temperatureIndex, h) =>
        (resolve terrain s).bind fun resolver =>
          (newLoop terrain (i + 1) rest h).bind fun (ps, h) =>
            .ok ({ dryBulb := s.dryBulb, volumeIndex, temperatureIndex, resolver } :: ps, h)
      | (_, _) => .err
    | (_, _) => .err

/-- `state[i] = v`. -/
def setState (state : List ℝ) (i : ℕ) (v : ℝ) : Outcome (List ℝ) :=
  if i < state.length then .ok (state.set i v) else .panic

/-- The calls to the closures, `resolvers.rs:12-24, 36-57, 68-84, 98-117, 223-238`. -/
def Prepared.run (w : Weather) (p : Prepared) (state : List ℝ) : Outcome (List ℝ) :=
  match p.resolver with
  | .nothing => .ok state
  | .constant v =>
    (setState state p.temperatureIndex w.dryBulb).bind fun state => setState state p.volumeIndex v
  | .blast modifier v =>
    (setState state p.temperatureIndex w.dryBulb).bind fun state =>
      (blastDesignFlowRate w p.dryBulb state v modifier).bind fun volume =>
        setState state p.volumeIndex volume
  | .doe2 modifier v =>
    (setState state p.temperatureIndex w.dryBulb).bind fun state =>
      (doe2DesignFlowRate w p.dryBulb state v modifier).bind fun volume =>
        setState state p.volumeIndex volume
  | .design modifier a b c d v =>
    (setState state p.temperatureIndex w.dryBulb).bind fun state =>
      (designFlowRate w p.dryBulb state v a b c d modifier).bind fun volume =>
        setState state p.volumeIndex volume
  | .leakage cw cs area =>
    (setState state p.temperatureIndex w.dryBulb).bind fun state =>
      (effectiveLeakageArea w p.dryBulb state area cw cs).bind fun volume =>
        setState state p.volumeIndex volume

/-- `air_model.rs:116-131`, `march`. -/
def march (w : Weather) : List Prepared → List ℝ → Outcome (List ℝ)
  | [], state => .ok state
  | p :: ps, state => (p.run w state).bind fun state => march w ps state

end
end Simple.Air
