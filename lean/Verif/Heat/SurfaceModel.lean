import Verif.Building.ModelModel
import Verif.Heat.ConvectionModel
import Verif.Heat.NomassModel
import Verif.Heat.WindModel
import Verif.Heat.ZoneModel

/-! Model of how a surface marches: what is on its two sides, its chunks one after the other, and what is
written in the state.  `/repo/heat/src/surface.rs` and `/repo/heat/src/heat_model.rs`, over the reals.

Temperatures and infrared irradiances are numbers here; so the replacement of convection coefficients that
are not a number (`surface.rs:727-735`) is left out. -/

namespace Simple.Heat

open Simple.Building Simple.Geometry Simple

noncomputable section

/-- `surface.rs:281-346`, `struct ThermalSurfaceData`: what matters to the march. -/
structure Surf where
  frontBoundary : Boundary ℝ
  backBoundary : Boundary ℝ
  cosTilt : ℝ
  normal : V3 ℝ
  area : ℝ
  perimeter : ℝ
  windSpeedModifier : ℝ
  frontHs : Option ℝ
  backHs : Option ℝ
  frontEmissivity : ℝ
  backEmissivity : ℝ
  frontAlphas : List ℝ
  backAlphas : List ℝ
  segments : List (ℝ × UValue ℝ)
  massiveChunks : List (ℕ × ℕ)
  nomassChunks : List (ℕ × ℕ)

/-- What is read in the state for a surface: temperatures of its two sides, infrared and solar irradiance
on them.  `none` is a solar irradiance that is not a number. -/
structure Readings where
  front : ℝ
  back : ℝ
  irFront : ℝ
  irBack : ℝ
  solarFront : Option ℝ
  solarBack : Option ℝ

/-- The coefficient that was given, or else the one that is calculated. -/
def orElse (fixed : Option ℝ) (h : Outcome ℝ) : Outcome ℝ :=
  match fixed with
  | some v => .ok v
  | none => h

/-- `surface.rs:583-655`: what is in front of a surface, and the coefficient there. -/
def frontConditions (s : Surf) (r : Readings) (tFront tBack windDirection windSpeed : ℝ) :
    Outcome (ConvectionParams × ℝ) :=
  let windward := Wind.isWindward windDirection s.cosTilt s.normal
  match s.frontBoundary with
  | .adiabatic =>
    let env : ConvectionParams :=
      { airTemperature := tBack, airSpeed := 0, radTemperature := tBack, surfaceTemperature := r.back,
        roughnessIndex := 1, cosSurfaceTilt := s.cosTilt }
    (orElse s.frontHs env.natural).bind fun h => .ok (env, h)
  | .space _ =>
    let env : ConvectionParams :=
      { airTemperature := tFront, airSpeed := 0, radTemperature := tFront, surfaceTemperature := r.front,
        roughnessIndex := 1, cosSurfaceTilt := s.cosTilt }
    (orElse s.frontHs env.natural).bind fun h => .ok (env, h)
  | .ambientTemperature t =>
    let env : ConvectionParams :=
      { airTemperature := t, airSpeed := 0, radTemperature := t, surfaceTemperature := r.front,
        roughnessIndex := 1, cosSurfaceTilt := s.cosTilt }
    (orElse s.frontHs env.natural).bind fun h => .ok (env, h)
  | .ground => .panic
  | .outdoor =>
    let env : ConvectionParams :=
      { airTemperature := tFront, airSpeed := windSpeed * s.windSpeedModifier,
        radTemperature := (r.irFront / sigma) ^ (0.25 : ℝ) - 273.15, surfaceTemperature := r.front,
        roughnessIndex := 1, cosSurfaceTilt := -s.cosTilt }
    (orElse s.frontHs (env.tarp s.area s.perimeter windward)).bind fun h => .ok (env, h)

/-- `surface.rs:657-719`: what is behind a surface, and the coefficient there. -/
def backConditions (s : Surf) (r : Readings) (front : ConvectionParams × ℝ)
    (tBack windDirection windSpeed : ℝ) : Outcome (ConvectionParams × ℝ) :=
  let windward := Wind.isWindward windDirection s.cosTilt s.normal
  match s.backBoundary with
  | .adiabatic => .ok front
  | .space _ =>
    let env : ConvectionParams :=
      { airTemperature := tBack, airSpeed := 0, radTemperature := tBack, surfaceTemperature := r.back,
        roughnessIndex := 1, cosSurfaceTilt := s.cosTilt }
    (orElse s.backHs env.natural).bind fun h => .ok (env, h)
  | .ambientTemperature t =>
    let env : ConvectionParams :=
      { airTemperature := t, airSpeed := 0, radTemperature := t, surfaceTemperature := r.front,
        roughnessIndex := 1, cosSurfaceTilt := s.cosTilt }
    (orElse s.backHs env.natural).bind fun h => .ok (env, h)
  | .ground => .panic
  | .outdoor =>
    let env : ConvectionParams :=
      { airTemperature := tBack, airSpeed := windSpeed * s.windSpeedModifier,
        radTemperature := (r.irBack / sigma) ^ (0.25 : ℝ) - 273.15, surfaceTemperature := r.back,
        roughnessIndex := 1, cosSurfaceTilt := s.cosTilt }
    (orElse s.backHs (env.tarp s.area s.perimeter windward)).bind fun h => .ok (env, h)

/-- `surface.rs:569-738`, `calc_border_conditions`: conditions and coefficient in front and behind. -/
def borderConditions (s : Surf) (r : Readings) (tFront tBack windDirection windSpeed : ℝ) :
    Outcome ((ConvectionParams × ℝ) × (ConvectionParams × ℝ)) :=
  (frontConditions s r tFront tBack windDirection windSpeed).bind fun front =>
    (backConditions s r front tBack windDirection windSpeed).bind fun back => .ok (front, back)

/-- `heat_model.rs:80-100`, `get_boundary_temperature`; `.unwrap()` follows, so errors are panics. -/
def boundaryTemperature (b : Boundary ℝ) (tOut : ℝ) (spaceTemperature : String → Option ℝ) : Outcome ℝ :=
  match b with
  | .adiabatic => .panic
  | .space name =>
    match spaceTemperature name with
    | some t => .ok t
    | none => .panic
  | .ground => .panic
  | .ambientTemperature t => .ok t
  | .outdoor => .ok tOut

/-- `heat_model.rs:124-127` and `129-132`: the temperature at a side, `other` if it is adiabatic. -/
def temperatureAt (b : Boundary ℝ) (other tOut : ℝ) (spaceTemperature : String → Option ℝ) : Outcome ℝ :=
  match b with
  | .adiabatic => .ok other
  | b => boundaryTemperature b tOut spaceTemperature

/-- `heat_model.rs:121-136`: the temperatures in front and behind. -/
def sideTemperatures (s : Surf) (r : Readings) (tOut : ℝ) (spaceTemperature : String → Option ℝ) :
    Outcome (ℝ × ℝ) :=
  (temperatureAt s.frontBoundary r.back tOut spaceTemperature).bind fun tFront =>
    (temperatureAt s.backBoundary tFront tOut spaceTemperature).bind fun tBack => .ok (tFront, tBack)

/-- `surface.rs:1293-1296` and `1297-1300`: the radiative coefficient of a side. -/
def radHs (emissivity : ℝ) (env : ConvectionParams) : ℝ :=
  4 * emissivity * sigma * (273.15 + (env.radTemperature + env.surfaceTemperature) / 2) ^ 3

/-- `surface.rs:1264-1271`: the irradiances that count, in front and behind. -/
def solarIrradiance (r : Readings) : ℝ × ℝ :=
  let front := match r.solarFront with
    | some v => if v < 0 then 0 else v
    | none => 0
  let back := match r.solarBack with
    | some v => if front < 0 then 0 else v
    | none => 0
  (front, back)

/-- `surface.rs:1277-1283`: the sun that each node absorbs.  `n` is the number of rows of the memory; other
sizes are an error, or a panic for the sum, which does not happen. -/
def absorbedSun (s : Surf) (r : Readings) (n : ℕ) : Outcome (List ℝ) :=
  if s.frontAlphas.length = n then
    if s.backAlphas.length = n then
      .ok (addAssign (scaleList s.frontAlphas (solarIrradiance r).1) (scaleList s.backAlphas (solarIrradiance r).2))
    else .err
  else .err

/-- `surface.rs:48-71` and `107-120`, `struct SurfaceMemory`, but for what each march writes anew. -/
structure SurfaceMemory where
  massiveChunks : List (ChunkMemory ℝ)
  nomassChunks : List (ChunkMemory ℝ)
  temperatures : List ℝ

/-- `surface.rs:84-104`, `new` and `with_capacity` of `ChunkMemory`. -/
def ChunkMemory.fresh (ini fin : ℕ) : Outcome (ChunkMemory ℝ) :=
  let n := fin - ini
  let zeros := List.replicate n (0 : ℝ)
  (Matrix.NDiag.new 3 (0 : ℝ) n n).bind fun k => .ok
    { aux := zeros, k, c := zeros, q := zeros, temps := zeros, k1 := zeros, k2 := zeros, k3 := zeros, k4 := zeros }

/-- One after the other, up to the first that fails. -/
def collect {α β : Type} (f : α → Outcome β) : List α → Outcome (List β)
  | [] => .ok []
  | a :: l => (f a).bind fun b => (collect f l).bind fun r => .ok (b :: r)

/-- `surface.rs:350-376`, `allocate_memory`, and the node temperatures that
`/repo/heat/src/heat_model.rs:227-257` puts in it. -/
def Surf.allocate (s : Surf) (temperatures : List ℝ) : Outcome SurfaceMemory :=
  (collect (fun c => ChunkMemory.fresh c.1 c.2) s.massiveChunks).bind fun massiveChunks =>
    (collect (fun c => ChunkMemory.fresh c.1 c.2) s.nomassChunks).bind fun nomassChunks =>
      .ok { massiveChunks, nomassChunks, temperatures }

/-- What the loops over chunks do with each: the march of the chunk `(ini, fin)` of the temperatures. -/
abbrev MarchChunk := ℕ → ℕ → ChunkMemory ℝ → List ℝ → Outcome (List ℝ × ChunkMemory ℝ)

/-- The loops over chunks, `surface.rs:1302-1317` and `1337-1353`; the memory of a chunk that is missing is
a panic. -/
def chunksLoop (march : MarchChunk) : List (ℕ × ℕ) → List (ChunkMemory ℝ) → List ℝ →
    Outcome (List ℝ × List (ChunkMemory ℝ))
  | [], mems, temps => .ok (temps, mems)
  | _ :: _, [], _ => .panic
  | c :: rest, mem :: mems, temps =>
    (march c.1 c.2 mem temps).bind fun x =>
      (chunksLoop march rest mems x.1).bind fun y => .ok (y.1, x.2 :: y.2)

/-- What is on a side of a wall, for a chunk. -/
def ConvectionParams.env (p : ConvectionParams) : Env ℝ := ⟨p.airTemperature, p.radTemperature⟩

/-- `surface.rs:1254-1354`, `march`.  The border conditions only depend on the arguments, so the code finds
the same ones each time it calculates them. -/
def Surf.march (s : Surf) (tiny : ℝ) (cav : CavityU ℝ) (r : Readings) (tFront tBack windDirection windSpeed dt : ℝ)
    (mem : SurfaceMemory) : Outcome SurfaceMemory :=
  (absorbedSun s r mem.temperatures.length).bind fun solar =>
    (borderConditions s r tFront tBack windDirection windSpeed).bind fun x =>
      let front := x.1.1
      let back := x.2.1
      (chunksLoop (fun ini fin m t => marchNomass tiny cav s.segments t solar front.env x.1.2
          (radHs s.frontEmissivity front) back.env x.2.2 (radHs s.backEmissivity back) ini fin m)
          s.nomassChunks mem.nomassChunks mem.temperatures).bind fun y =>
        (chunksLoop (fun ini fin m t => marchMass cav s.segments t solar dt front.env x.1.2
            (radHs s.frontEmissivity front) back.env x.2.2 (radHs s.backEmissivity back) ini fin m)
            s.massiveChunks mem.massiveChunks y.1).bind fun z =>
          .ok { temperatures := z.1, nomassChunks := y.2, massiveChunks := z.2 }

/-- What is written in the state for a surface, `heat_model.rs:176-208`: node temperatures, convection
coefficients and convective heat flows in front and behind. -/
structure Written where
  temperatures : List ℝ
  frontHs : ℝ
  backHs : ℝ
  frontFlow : ℝ
  backFlow : ℝ

/-- `heat_model.rs:104-214`, `iterate_surfaces`, for one surface: with the new node temperatures in the
state, the coefficients are calculated again. -/
def Surf.step (s : Surf) (tiny : ℝ) (cav : CavityU ℝ) (r : Readings) (tOut : ℝ)
    (spaceTemperature : String → Option ℝ) (windDirection windSpeed dt : ℝ) (mem : SurfaceMemory) :
    Outcome (Written × SurfaceMemory) :=
  (sideTemperatures s r tOut spaceTemperature).bind fun t =>
    (s.march tiny cav r t.1 t.2 windDirection windSpeed dt mem).bind fun mem =>
      match mem.temperatures.head?, mem.temperatures.getLast? with
      | some tsFront, some tsBack =>
        (borderConditions s { r with front := tsFront, back := tsBack } t.1 t.2 windDirection windSpeed).bind
          fun x => .ok
            ({ temperatures := mem.temperatures, frontHs := x.1.2, backHs := x.2.2,
               frontFlow := (tsFront - t.1) * x.1.2, backFlow := (tsBack - t.2) * x.2.2 }, mem)
      | _, _ => .err

/-! ## The whole model -/

/-- A surface or fenestration, with what the state has for it and its memory. -/
structure Part where
  surf : Surf
  readings : Readings
  mem : SurfaceMemory

/-- The space that a boundary leads to, as `calculate_zones_abc` has it. -/
def sideOf (index : String → Option ℕ) : Boundary ℝ → Side
  | .space name => .space (index name)
  | _ => .other

/-- What a part leaves in the state, for the zones: coefficients and temperatures of its sides. -/
def Part.toZones (p : Part) (index : String → Option ℕ) (w : Written) : SurfaceIn where
  hFront := some w.frontHs
  hBack := some w.backHs
  area := p.surf.area
  front := sideOf index p.surf.frontBoundary
  back := sideOf index p.surf.backBoundary
  frontTemp := w.temperatures.head?.getD 0
  backTemp := w.temperatures.getLast?.getD 0

/-- A part in a step: the part with the new temperatures, and what it leaves for the zones. -/
def Part.step (p : Part) (tiny : ℝ) (cav : CavityU ℝ) (index : String → Option ℕ) (spaces : String → Option ℝ)
    (tOut windDirection windSpeed dt : ℝ) : Outcome (Part × SurfaceIn) :=
  (p.surf.step tiny cav p.readings tOut spaces windDirection windSpeed dt p.mem).bind fun x =>
    .ok ({ p with
            readings := { p.readings with front := x.1.temperatures.head?.getD 0,
                                          back := x.1.temperatures.getLast?.getD 0 }
            mem := x.2 }, p.toZones index x.1)

/-- Everything that the heat model reads and writes. -/
structure HeatState where
  rooms : List ZoneIn
  hvacs : List (ℕ × Option ℝ)
  luminaires : List (ℕ × Option ℝ)
  surfaces : List Part
  fenestrations : List Part

/-- The weather of a step: temperature, direction (as it is passed on) and speed of the wind. -/
structure StepWeather where
  tOut : ℝ
  windDirection : ℝ
  windSpeed : ℝ

/-- `heat_model.rs:415-463`, a turn of the loop of `march`: surfaces, fenestrations and zones.  A surface
only reads and writes what is its own and the temperatures of the spaces. -/
def HeatState.step (st : HeatState) (tiny : ℝ) (cav : CavityU ℝ) (index : String → Option ℕ)
    (w : StepWeather) (dt : ℝ) : Outcome HeatState :=
  let spaces := fun name => (index name).bind fun i => (st.rooms[i]?).bind fun z => z.temp
  let one := fun p : Part => p.step tiny cav index spaces w.tOut w.windDirection w.windSpeed dt
  (collect one st.surfaces).bind fun surfaces =>
    (collect one st.fenestrations).bind fun fenestrations =>
      (zonesStep { hvacs := st.hvacs, luminaires := st.luminaires, zones := st.rooms,
                   surfaces := surfaces.map Prod.snd, fenestrations := fenestrations.map Prod.snd } dt).bind
        fun temps => .ok
          { st with
            rooms := List.zipWith (fun z t => { z with temp := some t }) st.rooms temps
            surfaces := surfaces.map Prod.fst
            fenestrations := fenestrations.map Prod.fst }

/-- `heat_model.rs:405-466`, `march`: a turn for the weather of each subdivision of the time step. -/
def HeatState.march (tiny : ℝ) (cav : CavityU ℝ) (index : String → Option ℕ) (dt : ℝ) :
    List StepWeather → HeatState → Outcome HeatState
  | [], st => .ok st
  | w :: ws, st => (st.step tiny cav index w dt).bind (HeatState.march tiny cav index dt ws)

end
end Simple.Heat
