import Verif.Light.IncidentModel
import Verif.Matrix.Model
import Verif.Sim.WiringModel
import Verif.Weather.ReinhartModel

/-! Model of `SolarModel` in `/repo/light/src/solar_model.rs`: where its optical data come from, and a time step for a
whole building and its state.

Simplifications: `Float` is `ℝ`; the ray tracing that calculates the optical data and the sky vector are arguments;
optical data that were written to a file are read as they were written; what an error leaves behind is not kept. -/

namespace Simple.Light.March

open Simple.Light Wiring Matrix

/-- `optical_info.rs:48-72`, `struct OpticalInfo`: view factors and daylight coefficients, for the front and the back
of the surfaces and of the fenestrations. -/
structure OpticalInfo where
  viewFactors : Kind → Side → List ViewFactors
  dc : Kind → Side → GMatrix ℝ

/-- What there is at the path of the optical data: no path is given, nothing is there, something else than a file, a
file that cannot be read or parsed, or optical data. -/
inductive Source
  | noPath
  | absent
  | notFile
  | corrupt
  | data (info : OpticalInfo)

/-- `solar_model.rs:346-395`: the optical data, and what is at the path afterwards.  `calculate` is `OpticalInfo::new`. -/
def opticalInfo (calculate : Outcome OpticalInfo) : Source → Outcome (OpticalInfo × Source)
  | .data info => .ok (info, .data info)
  | .notFile => .err
  | .corrupt => .err
  | .absent => calculate.map fun info => (info, .data info)
  | .noPath => calculate.map fun info => (info, .noPath)

/-- `solar_model.rs:420-430`, the loop that derives the subdivision of the sky, from `mf` on; `fuel` counts the turns that
are left until `mf >= 9`. -/
def deriveFrom (ncols : ℕ) : (fuel mf : ℕ) → Outcome ℕ
  | 0, _ => .err
  | fuel + 1, mf => if mf ≥ 9 then .err else if Weather.Reinhart.nBins mf = ncols then .ok mf else deriveFrom ncols fuel (mf + 1)

/-- `solar_model.rs:403-430`: the subdivision of the sky. -/
def derive (nSurfaces : ℕ) (info : OpticalInfo) : Outcome ℕ :=
  if nSurfaces = 0 then .ok 1
  else
    let ncols := (info.dc .surface .back).size.2
    if ncols = 0 then .err else deriveFrom ncols 9 1

/-- What a `SolarModel` keeps, `solar_model.rs:43-59`, without the position of the sun. -/
structure Solar where
  info : OpticalInfo
  mf : ℕ

/-- `solar_model.rs:338-437`, `SolarModel::new`; also gives what is at the path of the optical data afterwards.  If the
subdivision cannot be derived the file has been written nevertheless; this is not kept. -/
def new (calculate : Outcome OpticalInfo) (nSurfaces : ℕ) (source : Source) : Outcome (Solar × Source) :=
  (opticalInfo calculate source).bind fun r => (derive nSurfaces r.1).map fun mf => (⟨r.1, mf⟩, r.2)

/-! ## A time step -/

/-- The surfaces and fenestrations of a building: their places in the state, and what each side faces. -/
structure Building where
  walls : Kind → List Wall
  boundary : Kind → ℕ → Side → Boundary

/-- The getter of a value (`object_struct.rs:352-363`), as in `Wiring.getValue`, for numbers in `ℝ`. -/
def get (field : Option ℕ) (state : List ℝ) : Outcome (Option ℝ) :=
  match field with
  | none => .ok none
  | some i => (Outcome.index state i).map some

/-- The setter of a value (`object_struct.rs:308-319`), as in `Wiring.setValue`, for numbers in `ℝ`. -/
def set (field : Option ℕ) (v : ℝ) (state : List ℝ) : Outcome (List ℝ) :=
  match field with
  | none => .err
  | some i => if i < state.length then .ok (state.set i v) else .panic

/-- The node at a side. -/
def node (w : Wall) : Side → Option ℕ
  | .front => w.first
  | .back => w.last

/-- `solar_model.rs:85-119`, `122-153`, `162-179` and `182-199`: infrared radiation for one side. -/
noncomputable def irSide (b : Boundary) (views : List ViewFactors) (index : ℕ) (db horizontalIr : ℝ) (w : Wall) (s : Side)
    (state : List ℝ) : Outcome (List ℝ) :=
  match b with
  | .space => (get (node w s) state).bind fun t => set (w.field s .infrared) (ir (t.getD 22) 1) state
  | .ambientTemperature t => set (w.field s .infrared) (ir t 1) state
  | .ground => .ok state
  | .adiabatic => .ok state
  | .outdoor => (Outcome.index views index).bind fun v =>
      set (w.field s .infrared) ((v.ground + v.air) * ir db 1 + v.sky * horizontalIr) state

/-- Does the model pass over this one? `solar_model.rs:158-160`, `222-224`, `287-289` and `305-307`. -/
def skips (kind : Kind) (w : Wall) : Bool :=
  match kind with
  | .surface => false
  | .fenestration => w.opening

/-- `solar_model.rs:83-154` and `157-200`: the loop over surfaces and the one over fenestrations, from number `i` on. -/
noncomputable def irLoop (kind : Kind) (b : Building) (info : OpticalInfo) (db horizontalIr : ℝ) :
    ℕ → List Wall → List ℝ → Outcome (List ℝ)
  | _, [], state => .ok state
  | i, w :: ws, state =>
    if skips kind w then irLoop kind b info db horizontalIr (i + 1) ws state
    else
      (irSide (b.boundary kind i .front) (info.viewFactors kind .front) i db horizontalIr w .front state).bind fun state =>
      (irSide (b.boundary kind i .back) (info.viewFactors kind .back) i db horizontalIr w .back state).bind fun state =>
      irLoop kind b info db horizontalIr (i + 1) ws state

/-- `solar_model.rs:64-203`, `update_ir_radiation`. -/
noncomputable def updateIr (b : Building) (info : OpticalInfo) (db horizontalIr : ℝ) (state : List ℝ) : Outcome (List ℝ) :=
  (irLoop .surface b info db horizontalIr 0 (b.walls .surface) state).bind fun state =>
  irLoop .fenestration b info db horizontalIr 0 (b.walls .fenestration) state

/-- `solar_model.rs:217-227`: the loops of the night. -/
def nightLoop (kind : Kind) : List Wall → List ℝ → Outcome (List ℝ)
  | [], state => .ok state
  | w :: ws, state =>
    if skips kind w then nightLoop kind ws state
    else
      (set (w.field .front .sun) 0 state).bind fun state => (set (w.field .back .sun) 0 state).bind fun state =>
      nightLoop kind ws state

/-- `solar_model.rs:247-259`, `266-278`, `290-299` and `308-316`, for one side: negative values count as none for
surfaces only. -/
noncomputable def daySide (kind : Kind) (b : Boundary) (irradiance : GMatrix ℝ) (i : ℕ) (w : Wall) (s : Side) (state : List ℝ) :
    Outcome (List ℝ) :=
  (if receivesSun b then .ok state else set (w.field s .sun) 0 state).bind fun state =>
  (irradiance.get i 0).bind fun v =>
  let v := if kind = .surface ∧ v < 0 then 0 else v
  (get (w.field s .sun) state).bind fun old =>
  match old with
  | none => .err
  | some old => set (w.field s .sun) ((v + old) / 2) state

/-- The loop over one kind and side, from number `i` on. -/
noncomputable def dayLoop (kind : Kind) (s : Side) (b : Building) (irradiance : GMatrix ℝ) : ℕ → List Wall → List ℝ → Outcome (List ℝ)
  | _, [], state => .ok state
  | i, w :: ws, state =>
    if skips kind w then dayLoop kind s b irradiance (i + 1) ws state
    else (daySide kind (b.boundary kind i s) irradiance i w s state).bind (dayLoop kind s b irradiance (i + 1) ws)

/-- `solar_model.rs:243-261` and the like: nothing is done if the matrix is empty. -/
noncomputable def dayPart (kind : Kind) (s : Side) (b : Building) (info : OpticalInfo) (sky : GMatrix ℝ) (state : List ℝ) :
    Outcome (List ℝ) :=
  if (info.dc kind s).isEmpty then .ok state
  else (GMatrix.mul (info.dc kind s) sky).bind fun irradiance => dayLoop kind s b irradiance 0 (b.walls kind) state

/-- What of the weather the model uses, and the sky vector that it gives for each subdivision of the sky. -/
structure Sky where
  directNormal : ℝ
  diffuseHorizontal : ℝ
  dryBulb : ℝ
  horizontalIr : ℝ
  vector : ℕ → Outcome (GMatrix ℝ)

/-- `solar_model.rs:205-320`, `update_solar_radiation`. -/
noncomputable def updateSun (m : Solar) (b : Building) (sky : Sky) (state : List ℝ) : Outcome (List ℝ) :=
  if ¬(sky.directNormal + sky.diffuseHorizontal ≥ 1 / 10 ^ 4) then
    (nightLoop .surface (b.walls .surface) state).bind (nightLoop .fenestration (b.walls .fenestration))
  else
    (sky.vector m.mf).bind fun vec =>
    (dayPart .surface .front b m.info vec state).bind fun state =>
    (dayPart .surface .back b m.info vec state).bind fun state =>
    (dayPart .fenestration .front b m.info vec state).bind fun state =>
    dayPart .fenestration .back b m.info vec state

/-- `solar_model.rs:439-456`, `march`. -/
noncomputable def march (m : Solar) (b : Building) (sky : Sky) (state : List ℝ) : Outcome (List ℝ) :=
  (updateIr b m.info sky.dryBulb sky.horizontalIr state).bind (updateSun m b sky)

end Simple.Light.March
