import Verif.Heat.SurfaceModel
import Verif.Sim.WiringModel

/-! Model of a step of the heat model on the simulation state of a whole building, `march` and `iterate_surfaces` of
`/repo/heat/src/heat_model.rs`: where each quantity is read and written, in which order, and what is kept in memory
between steps.  The calculations for one surface and for the zones are those of `SurfaceModel` and `ZoneModel`.

Simplifications: what is read for a surface is read at once; when several surfaces fail, which failure is reported is
not kept; `Float` is `ℝ`. -/

namespace Simple.Heat.Whole

open Simple.Building Wiring

noncomputable section

/-- `surface.rs:281-346`, `ThermalSurfaceData`: what the march uses, and the places that its parent has in the state. -/
structure ThermalWall where
  surf : Surf
  parent : Wiring.Wall

/-- `zone.rs:25-31`, `ThermalZone`, with the places that its space has in the state (`space.rs:121-149`). -/
structure Room where
  places : Wiring.Zone
  ventilationTemperature : Option ℕ
  ventilationVolume : Option ℕ
  volume : ℝ

/-- `heating_cooling.rs:25-45` and `luminaire.rs:26-32`: the space that it is in, and where its power is in the state. -/
structure Appliance where
  space : ℕ
  power : Option ℕ

/-- `heat_model.rs:52-78`, `struct ThermalModel`. -/
structure ThermalModel where
  rooms : List Room
  surfaces : List ThermalWall
  fenestrations : List ThermalWall
  hvacs : List Appliance
  luminaires : List Appliance

/-- `heat_model.rs:43-48`, `struct ThermalModelMemory`. -/
structure Memory where
  surfaces : List SurfaceMemory
  fenestrations : List SurfaceMemory

/-- A getter, `/repo/derive/src/object_struct.rs:352-363`. -/
def get (field : Option ℕ) (state : List ℝ) : Outcome (Option ℝ) :=
  match field with
  | none => .ok none
  | some i => (Outcome.index state i).map some

/-- A getter that must find something: `.expect(..)`. -/
def expect (field : Option ℕ) (state : List ℝ) : Outcome ℝ :=
  match field with
  | none => .panic
  | some i => Outcome.index state i

/-- A setter, `/repo/derive/src/object_struct.rs:308-319`. -/
def set (field : Option ℕ) (v : ℝ) (state : List ℝ) : Outcome (List ℝ) :=
  match field with
  | none => .err
  | some i => if i < state.length then .ok (state.set i v) else .panic

/-- `/repo/model/src/surface_trait.rs:262-271`, `/repo/model/src/surface.rs:252-265` and
`/repo/model/src/fenestration.rs:303-314`: what is read for a surface. -/
def readWall (w : Wiring.Wall) (state : List ℝ) : Outcome Readings :=
  (expect w.first state).bind fun front =>
  (expect w.last state).bind fun back =>
  (expect (w.field .front .infrared) state).bind fun irFront =>
  (expect (w.field .back .infrared) state).bind fun irBack =>
  (expect (w.field .front .sun) state).bind fun solarFront =>
  (expect (w.field .back .sun) state).bind fun solarBack =>
    .ok { front, back, irFront, irBack, solarFront := some solarFront, solarBack := some solarBack }

/-- `get_space(..)?.dry_bulb_temperature(state)`, `heat_model.rs:89-93`. -/
def spaceTemperature (rooms : List Room) (index : String → Option ℕ) (state : List ℝ) (name : String) : Option ℝ :=
  (index name).bind fun i => (rooms[i]?).bind fun z => z.places.dryBulb.bind fun k => state[k]?

/-- The loop of `/repo/model/src/surface_trait.rs:302-305`, with `count` nodes left. -/
def setFrom (temps : List ℝ) : (count j i : ℕ) → List ℝ → Outcome (List ℝ)
  | 0, _, _, state => .ok state
  | count + 1, j, i, state =>
    (Outcome.index temps j).bind fun v =>
      if i < state.length then setFrom temps count (j + 1) (i + 1) (state.set i v) else .panic

/-- `/repo/model/src/surface_trait.rs:298-306`, `set_node_temperatures`. -/
def setNodes (w : Wiring.Wall) (temps state : List ℝ) : Outcome (List ℝ) :=
  match w.first, w.last with
  | some ini, some last => setFrom temps (last + 1 - ini) 0 ini state
  | _, _ => .panic

/-- `heat_model.rs:119-136`: the temperatures at the two sides of a surface. -/
def sides (w : StepWeather) (spaces : String → Option ℝ) (state : List ℝ) (tw : ThermalWall) : Outcome (ℝ × ℝ) :=
  (readWall tw.parent state).bind fun r => sideTemperatures tw.surf r w.tOut spaces

/-- `heat_model.rs:139-159`: a surface marches, in its memory. -/
def marchOne (tiny : ℝ) (cav : CavityU ℝ) (w : StepWeather) (dt : ℝ) (state : List ℝ)
    (x : ThermalWall × SurfaceMemory × ℝ × ℝ) : Outcome SurfaceMemory :=
  (readWall x.1.parent state).bind fun r =>
    x.1.surf.march tiny cav r x.2.2.1 x.2.2.2 w.windDirection w.windSpeed dt x.2.1

/-- `heat_model.rs:167-208`: what its memory has is written in the state, and with it the coefficients and flows. -/
def writeOne (w : StepWeather) (x : ThermalWall × SurfaceMemory × ℝ × ℝ) (state : List ℝ) : Outcome (List ℝ) :=
  (setNodes x.1.parent x.2.1.temperatures state).bind fun state =>
  match x.2.1.temperatures.head?, x.2.1.temperatures.getLast? with
  | some tsFront, some tsBack =>
    (readWall x.1.parent state).bind fun r =>
    (borderConditions x.1.surf r x.2.2.1 x.2.2.2 w.windDirection w.windSpeed).bind fun c =>
    (set (x.1.parent.field .front .convection) c.1.2 state).bind fun state =>
    (set (x.1.parent.field .back .convection) c.2.2 state).bind fun state =>
    (set (x.1.parent.field .front .heatFlow) ((tsFront - x.2.2.1) * c.1.2) state).bind fun state =>
    set (x.1.parent.field .back .heatFlow) ((tsBack - x.2.2.2) * c.2.2) state
  | _, _ => .err

/-- The loop of `heat_model.rs:167-208`. -/
def writeAll (w : StepWeather) : List (ThermalWall × SurfaceMemory × ℝ × ℝ) → List ℝ → Outcome (List ℝ)
  | [], state => .ok state
  | x :: l, state => (writeOne w x state).bind (writeAll w l)

/-- `heat_model.rs:104-214`, `iterate_surfaces`. -/
def iterate (tiny : ℝ) (cav : CavityU ℝ) (w : StepWeather) (dt : ℝ) (spaces : String → Option ℝ) (ws : List ThermalWall)
    (mems : List SurfaceMemory) (state : List ℝ) : Outcome (List SurfaceMemory × List ℝ) :=
  (collect (sides w spaces state) ws).bind fun temps =>
  (collect (marchOne tiny cav w dt state) (ws.zip (mems.zip temps))).bind fun mems =>
  (writeAll w (ws.zip (mems.zip temps)) state).bind fun state => .ok (mems, state)

/-- `heat_model.rs:562-596`: what is read for a zone. -/
def readRoom (state : List ℝ) (z : Room) : Outcome ZoneIn :=
  (get z.places.infiltrationTemperature state).bind fun infTemp =>
  (get z.places.infiltrationVolume state).bind fun infVolume =>
  (get z.ventilationTemperature state).bind fun ventTemp =>
  (get z.ventilationVolume state).bind fun ventVolume =>
  (get z.places.dryBulb state).bind fun temp =>
    .ok { infTemp, infVolume, ventTemp, ventVolume, temp, volume := z.volume }

/-- `heat_model.rs:606-636`: what is read for a surface, for the zones. -/
def readSides (index : String → Option ℕ) (state : List ℝ) (tw : ThermalWall) : Outcome SurfaceIn :=
  (get (tw.parent.field .front .convection) state).bind fun hFront =>
  (get (tw.parent.field .back .convection) state).bind fun hBack =>
  (expect tw.parent.first state).bind fun frontTemp =>
  (expect tw.parent.last state).bind fun backTemp =>
    .ok { hFront, hBack, area := tw.surf.area, front := sideOf index tw.surf.frontBoundary,
          back := sideOf index tw.surf.backBoundary, frontTemp, backTemp }

/-- `heat_model.rs:540-558`: space and power of an appliance. -/
def readPower (state : List ℝ) (a : Appliance) : Outcome (ℕ × Option ℝ) :=
  (get a.power state).bind fun p => .ok (a.space, p)

/-- The loop of `heat_model.rs:455-463`, from zone `i` on. -/
def setRooms (future : List ℝ) : ℕ → List Room → List ℝ → Outcome (List ℝ)
  | _, [], state => .ok state
  | i, z :: rooms, state =>
    (Outcome.index future i).bind fun t => (set z.places.dryBulb t state).bind (setRooms future (i + 1) rooms)

/-- `heat_model.rs:415-463`, a turn of the loop of `march`. -/
def step (m : ThermalModel) (tiny : ℝ) (cav : CavityU ℝ) (index : String → Option ℕ) (w : StepWeather) (dt : ℝ)
    (mem : Memory) (state : List ℝ) : Outcome (Memory × List ℝ) :=
  (collect (fun z => expect z.places.dryBulb state) m.rooms).bind fun current =>
  (iterate tiny cav w dt (spaceTemperature m.rooms index state) m.surfaces mem.surfaces state).bind fun s =>
  (iterate tiny cav w dt (spaceTemperature m.rooms index s.2) m.fenestrations mem.fenestrations s.2).bind fun f =>
  (collect (readPower f.2) m.hvacs).bind fun hvacs =>
  (collect (readPower f.2) m.luminaires).bind fun luminaires =>
  (collect (readRoom f.2) m.rooms).bind fun zones =>
  (collect (readSides index f.2) m.surfaces).bind fun surfaces =>
  (collect (readSides index f.2) m.fenestrations).bind fun fenestrations =>
  (calculateAbc { hvacs, luminaires, zones, surfaces, fenestrations }).bind fun x =>
  (futureTemps current x.1.1 x.1.2 x.2 dt m.rooms.length 0).bind fun future =>
  (setRooms future 0 m.rooms f.2).bind fun state => .ok (⟨s.1, f.1⟩, state)

/-- `heat_model.rs:405-466`, `march`: a turn for the weather of each subdivision of the time step. -/
def march (m : ThermalModel) (tiny : ℝ) (cav : CavityU ℝ) (index : String → Option ℕ) (dt : ℝ) :
    List StepWeather → Memory → List ℝ → Outcome (Memory × List ℝ)
  | [], mem, state => .ok (mem, state)
  | w :: ws, mem, state => (step m tiny cav index w dt mem state).bind fun r => march m tiny cav index dt ws r.1 r.2

/-- `/repo/model/src/surface_trait.rs:274-295`, `get_node_temperatures`. -/
def getNodes (w : Wiring.Wall) (state : List ℝ) : Outcome (List ℝ) :=
  match w.first, w.last with
  | some ini, some last => collect (fun j => Outcome.index state (ini + j)) (List.range (last + 1 - ini))
  | _, _ => .panic

/-- `heat_model.rs:227-257`, `allocate_memory`. -/
def allocate (m : ThermalModel) (state : List ℝ) : Outcome Memory :=
  let one := fun tw : ThermalWall => (getNodes tw.parent state).bind tw.surf.allocate
  (collect one m.surfaces).bind fun s => (collect one m.fenestrations).bind fun f => .ok ⟨s, f⟩

end
end Simple.Heat.Whole
