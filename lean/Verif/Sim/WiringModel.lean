import Verif.Building.StateModel
import Mathlib.Data.Rat.Defs

/-! Model of how the physical quantities of a building get their places in the simulation state: the `add_..._state`
methods of `/repo/model/src/surface.rs` and `/repo/model/src/fenestration.rs`, and the parts of
`/repo/heat/src/heat_model.rs`, `/repo/heat/src/surface.rs`, `/repo/heat/src/zone.rs`, `/repo/air/src/air_model.rs`,
`/repo/light/src/solar_surface.rs` and `/repo/src/multiphysics_model.rs` that call them; and of the getters and setters
that `/repo/derive/src/object_struct.rs` generates.

Simplifications: a mutex is its content; what else can fail while the models are built (missing constructions and
volumes, geometry) is left out; what an error leaves behind is not kept. -/

namespace Simple.Wiring

open State

/-- Sides of a surface. -/
inductive Side
  | front
  | back
deriving DecidableEq

/-- Quantities that a surface has for each side: convection coefficient, convective heat flow, incident solar
irradiance and infrared irradiance. -/
inductive Quantity
  | convection
  | heatFlow
  | sun
  | infrared
deriving DecidableEq

/-- Surfaces and fenestrations have the same fields. -/
inductive Kind
  | surface
  | fenestration
deriving DecidableEq

/-- The fields with places in the state of a surface, `surface.rs:138-176`, and of a fenestration,
`fenestration.rs:181-225` (the open fraction is C61).  `opening` tells whether it is a fenestration of category
`Opening`, and `nodes` how many nodes its discretisation has. -/
structure Wall where
  opening : Bool
  nodes : ℕ
  field : Side → Quantity → Option ℕ
  first : Option ℕ
  last : Option ℕ

/-- The fields of a space that the models assign, `space.rs:121-139`. -/
structure Zone where
  dryBulb : Option ℕ
  infiltrationVolume : Option ℕ
  infiltrationTemperature : Option ℕ

/-- `surface.rs:299-430` and `fenestration.rs:347-470`: the element that is pushed for each field. -/
def element : Kind → Side → Quantity → ℕ → Element
  | .surface, .front, .convection, i => .surfaceFrontConvectionCoefficient i
  | .surface, .back, .convection, i => .surfaceBackConvectionCoefficient i
  | .surface, .front, .heatFlow, i => .surfaceFrontConvectiveHeatFlow i
  | .surface, .back, .heatFlow, i => .surfaceBackConvectiveHeatFlow i
  | .surface, .front, .sun, i => .surfaceFrontSolarIrradiance i
  | .surface, .back, .sun, i => .surfaceBackSolarIrradiance i
  | .surface, .front, .infrared, i => .surfaceFrontIRIrradiance i
  | .surface, .back, .infrared, i => .surfaceBackIRIrradiance i
  | .fenestration, .front, .convection, i => .fenestrationFrontConvectionCoefficient i
  | .fenestration, .back, .convection, i => .fenestrationBackConvectionCoefficient i
  | .fenestration, .front, .heatFlow, i => .fenestrationFrontConvectiveHeatFlow i
  | .fenestration, .back, .heatFlow, i => .fenestrationBackConvectiveHeatFlow i
  | .fenestration, .front, .sun, i => .fenestrationFrontSolarIrradiance i
  | .fenestration, .back, .sun, i => .fenestrationBackSolarIrradiance i
  | .fenestration, .front, .infrared, i => .fenestrationFrontIRIrradiance i
  | .fenestration, .back, .infrared, i => .fenestrationBackIRIrradiance i

/-- The value that is pushed with it, same lines. -/
def initial : Quantity → ℚ
  | .convection => 1739658084820765 / 1000000000000000
  | _ => 0

/-- `object_struct.rs:280-292`, `set_..._index`. -/
def setIndex (field : Option ℕ) (i : ℕ) : Outcome (Option ℕ) :=
  match field with
  | some _ => .err
  | none => .ok (some i)

/-- `state.push(...)?`: an error returns. -/
def pushed (h : Header ℚ) (e : Element) (v : ℚ) : Outcome (ℕ × Header ℚ) :=
  match h.push e v with
  | (.ok i, h) => .ok (i, h)
  | (.err, _) => .err
  | (.panic, _) => .panic

def Wall.withField (w : Wall) (s : Side) (q : Quantity) (i : Option ℕ) : Wall :=
  { w with field := fun s' q' => if s' = s ∧ q' = q then i else w.field s' q' }

/-- Pushing an element and keeping its index in a field that has none. -/
def assign (kind : Kind) (s : Side) (q : Quantity) (i : ℕ) (w : Wall) (h : Header ℚ) : Outcome (Wall × Header ℚ) :=
  (pushed h (element kind s q i) (initial q)).bind fun r =>
    (setIndex (w.field s q) r.1).bind fun f => .ok (w.withField s q f, r.2)

/-- `surface.rs:299-430` and `fenestration.rs:347-470`: `add_front_convection_state` and the seven like it.  The
solar and infrared ones of fenestrations accept a field that is assigned; the others do not. -/
def addState (kind : Kind) (s : Side) (q : Quantity) (i : ℕ) (w : Wall) (h : Header ℚ) : Outcome (Wall × Header ℚ) :=
  if w.field s q = none then assign kind s q i w h
  else if kind = .fenestration ∧ (q = .sun ∨ q = .infrared) then .ok (w, h)
  else .err

/-- The element of a node. -/
def nodeElement : Kind → ℕ → ℕ → Element
  | .surface, i, j => .surfaceNodeTemperature i j
  | .fenestration, i, j => .fenestrationNodeTemperature i j

/-- The loop of `surface.rs:441-446`, from node `j`. -/
def pushNodes (kind : Kind) (i : ℕ) : (j n : ℕ) → Header ℚ → Outcome (Header ℚ)
  | _, 0, h => .ok h
  | j, n + 1, h => (pushed h (nodeElement kind i j) 22).bind fun r => pushNodes kind i (j + 1) n r.2

/-- `surface.rs:432-455` and `fenestration.rs:472-496`, `add_node_temperature_states`. -/
def addNodes (kind : Kind) (i : ℕ) (w : Wall) (h : Header ℚ) : Outcome (Wall × Header ℚ) :=
  if w.first = none then
    (pushNodes kind i 0 w.nodes h).bind fun h' =>
      (setIndex w.first h.len).bind fun f =>
        if h'.len = 0 then .panic
        else (setIndex w.last (h'.len - 1)).bind fun l => .ok ({ w with first := f, last := l }, h')
  else .err

/-- `/repo/heat/src/surface.rs:394-409`, the start of `ThermalSurfaceData::new`. -/
def thermalWall (kind : Kind) (i : ℕ) (w : Wall) (h : Header ℚ) : Outcome (Wall × Header ℚ) :=
  (addState kind .front .convection i w h).bind fun r =>
  (addState kind .back .convection i r.1 r.2).bind fun r =>
  (addState kind .front .heatFlow i r.1 r.2).bind fun r =>
  (addState kind .back .heatFlow i r.1 r.2).bind fun r =>
  (addState kind .front .sun i r.1 r.2).bind fun r =>
  (addState kind .back .sun i r.1 r.2).bind fun r =>
  (addState kind .front .infrared i r.1 r.2).bind fun r =>
  (addState kind .back .infrared i r.1 r.2).bind fun r =>
  addNodes kind i r.1 r.2

/-- `for (i, s) in list.iter().enumerate()`, from index `i`. -/
def each {α : Type} (step : ℕ → α → Header ℚ → Outcome (α × Header ℚ)) :
    ℕ → List α → Header ℚ → Outcome (List α × Header ℚ)
  | _, [], h => .ok ([], h)
  | i, a :: l, h =>
    (step i a h).bind fun r => (each step (i + 1) l r.2).bind fun rs => .ok (r.1 :: rs.1, rs.2)

/-- `/repo/heat/src/zone.rs:38-56`: `from_space` of the thermal zones. -/
def thermalZone (i : ℕ) (z : Zone) (h : Header ℚ) : Outcome (Zone × Header ℚ) :=
  (pushed h (.spaceDryBulbTemperature i) 22).bind fun r =>
    (setIndex z.dryBulb r.1).bind fun f => .ok ({ z with dryBulb := f }, r.2)

/-- `/repo/heat/src/heat_model.rs:334-336`: openings are skipped. -/
def thermalFenestration (i : ℕ) (w : Wall) (h : Header ℚ) : Outcome (Wall × Header ℚ) :=
  if w.opening then .ok (w, h) else thermalWall .fenestration i w h

/-- `/repo/air/src/air_model.rs:71-84`. -/
def airZone (i : ℕ) (z : Zone) (h : Header ℚ) : Outcome (Zone × Header ℚ) :=
  (pushed h (.spaceInfiltrationVolume i) 0).bind fun r =>
  (setIndex z.infiltrationVolume r.1).bind fun f =>
  (pushed r.2 (.spaceInfiltrationTemperature i) 0).bind fun r' =>
  (setIndex z.infiltrationTemperature r'.1).bind fun f' =>
    .ok ({ z with infiltrationVolume := f, infiltrationTemperature := f' }, r'.2)

/-- `/repo/light/src/solar_surface.rs:169-175` and the like: a field that has no index gets one. -/
def ensure (kind : Kind) (s : Side) (q : Quantity) (i : ℕ) (w : Wall) (h : Header ℚ) : Outcome (Wall × Header ℚ) :=
  if w.field s q = none then assign kind s q i w h else .ok (w, h)

/-- `/repo/light/src/solar_surface.rs:168-196` and `222-241`. -/
def solarWall (kind : Kind) (i : ℕ) (w : Wall) (h : Header ℚ) : Outcome (Wall × Header ℚ) :=
  (ensure kind .front .sun i w h).bind fun r =>
  (ensure kind .back .sun i r.1 r.2).bind fun r =>
  (ensure kind .front .infrared i r.1 r.2).bind fun r =>
  ensure kind .back .infrared i r.1 r.2

/-- The objects of a model that have places in the state. -/
structure Objects where
  spaces : List Zone
  surfaces : List Wall
  fenestrations : List Wall

/-- `/repo/heat/src/heat_model.rs:265-373`, `new` of the heat model. -/
def heatNew (o : Objects) (h : Header ℚ) : Outcome (Objects × Header ℚ) :=
  (each thermalZone 0 o.spaces h).bind fun z =>
  (each (thermalWall .surface) 0 o.surfaces z.2).bind fun s =>
  (each thermalFenestration 0 o.fenestrations s.2).bind fun f =>
    .ok (⟨z.1, s.1, f.1⟩, f.2)

/-- `/repo/air/src/air_model.rs:57-110`, `new` of the air model. -/
def airNew (o : Objects) (h : Header ℚ) : Outcome (Objects × Header ℚ) :=
  (each airZone 0 o.spaces h).bind fun z => .ok ({ o with spaces := z.1 }, z.2)

/-- `/repo/light/src/optical_info.rs:89-91`; with the option `calculated` false the optical information is read from a
file, `/repo/light/src/solar_model.rs:346-375`, and nothing is pushed. -/
def solarNew (calculated : Bool) (o : Objects) (h : Header ℚ) : Outcome (Objects × Header ℚ) :=
  if calculated then
    (each (solarWall .surface) 0 o.surfaces h).bind fun s =>
    (each (solarWall .fenestration) 0 o.fenestrations s.2).bind fun f =>
      .ok ({ o with surfaces := s.1, fenestrations := f.1 }, f.2)
  else .ok (o, h)

/-- `/repo/src/multiphysics_model.rs:98-148`, `new` of the multiphysics model. -/
def physicsNew (calculated : Bool) (o : Objects) (h : Header ℚ) : Outcome (Objects × Header ℚ) :=
  (heatNew o h).bind fun r => (airNew r.1 r.2).bind fun r => solarNew calculated r.1 r.2

/-! ## Getters and setters -/

/-- `object_struct.rs:352-363`, the getter of a value (`None` without an index; an index out of the state panics). -/
def getValue (field : Option ℕ) (state : List ℚ) : Outcome (Option ℚ) :=
  match field with
  | none => .ok none
  | some i => (Outcome.index state i).map some

/-- `object_struct.rs:308-319`, the setter of a value. -/
def setValue (field : Option ℕ) (v : ℚ) (state : List ℚ) : Outcome (List ℚ) :=
  match field with
  | none => .err
  | some i => if i < state.length then .ok (state.set i v) else .panic

end Simple.Wiring
