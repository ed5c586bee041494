import Mathlib.Analysis.SpecialFunctions.Exp
import Verif.Heat.GasModel

/-! Model of the heat balance of the zones, `/repo/heat/src/heat_model.rs:483-725`, over the reals.  The
values that the code reads from the state are fields here, `none` if the state does not have them. -/

namespace Simple.Heat

noncomputable section

/-- What is read for a zone: temperature and volume of infiltration and of ventilation, temperature of its
air, and its volume. -/
structure ZoneIn where
  infTemp : Option ℝ
  infVolume : Option ℝ
  ventTemp : Option ℝ
  ventVolume : Option ℝ
  temp : Option ℝ
  volume : ℝ

/-- What a side of a surface leads to: a space, with the index that was found for it, or anything else. -/
inductive Side
  | other
  | space (index : Option ℕ)

/-- What is read for a surface or fenestration. -/
structure SurfaceIn where
  hFront : Option ℝ
  hBack : Option ℝ
  area : ℝ
  front : Side
  back : Side
  frontTemp : ℝ
  backTemp : ℝ

/-- `l[i] += v`. -/
def addAt (l : List ℝ) (i : ℕ) (v : ℝ) : Outcome (List ℝ) :=
  if i < l.length then .ok (l.modify i (· + v)) else .panic

/-- The loops over HVACs and luminaires, `heat_model.rs:540-558`: space and power of each.  An HVAC without
power is an error (`heating_cooling.rs:84-122`), and a luminaire a panic: that is `missing`. -/
def addPowers (missing : Outcome (List ℝ)) : List (ℕ × Option ℝ) → List ℝ → Outcome (List ℝ)
  | [], a => .ok a
  | (_, none) :: _, _ => missing
  | (i, some p) :: rest, a => (addAt a i p).bind (addPowers missing rest)

/-- `heat_model.rs:566-576` and `579-587`. -/
def addFlow (i : ℕ) (temp volume : Option ℝ) (ab : List ℝ × List ℝ) : Outcome (List ℝ × List ℝ) :=
  match temp with
  | none => .ok ab
  | some t =>
    match volume with
    | none => .panic
    | some v =>
      let cp := evalPoly air.heatCapacity (t + 273.15)
      let rho := air.density (t + 273.15)
      (addAt ab.1 i (rho * v * cp * t)).bind fun a =>
        (addAt ab.2 i (rho * v * cp)).bind fun b => .ok (a, b)

/-- `zone.rs:58-64`, `mcp`. -/
def mcp (volume temp : ℝ) : ℝ :=
  volume * air.density (temp + 273.15) * evalPoly air.heatCapacity (temp + 273.15) / 1

/-- The loop over zones, `heat_model.rs:562-596`, from zone `i` on; the capacities are those of the zones
from `i` on. -/
def zoneLoop : (i : ℕ) → List ZoneIn → List ℝ × List ℝ → Outcome ((List ℝ × List ℝ) × List ℝ)
  | _, [], ab => .ok (ab, [])
  | i, z :: rest, ab =>
    (addFlow i z.infTemp z.infVolume ab).bind fun ab =>
      (addFlow i z.ventTemp z.ventVolume ab).bind fun ab =>
        match z.temp with
        | none => .panic
        | some t => (zoneLoop (i + 1) rest ab).bind fun r => .ok (r.1, mcp z.volume t :: r.2)

/-- `heat_model.rs:617-625` and `628-636`. -/
def addSide (side : Side) (h area temp : ℝ) (ab : List ℝ × List ℝ) : Outcome (List ℝ × List ℝ) :=
  match side with
  | .other => .ok ab
  | .space none => .err
  | .space (some z) =>
    (addAt ab.1 z (h * area * temp)).bind fun a =>
      (addAt ab.2 z (h * area)).bind fun b => .ok (a, b)

/-- `heat_model.rs:596-635`, `iterate_surfaces`. -/
def surfaceLoop : List SurfaceIn → List ℝ × List ℝ → Outcome (List ℝ × List ℝ)
  | [], ab => .ok ab
  | s :: rest, ab =>
    match s.hFront, s.hBack with
    | some hf, some hb =>
      (addSide s.front hf s.area s.frontTemp ab).bind fun ab =>
        (addSide s.back hb s.area s.backTemp ab).bind (surfaceLoop rest)
    | _, _ => .err

/-- What the heat balance depends on. -/
structure Inputs where
  hvacs : List (ℕ × Option ℝ)
  luminaires : List (ℕ × Option ℝ)
  zones : List ZoneIn
  surfaces : List SurfaceIn
  fenestrations : List SurfaceIn

/-- `heat_model.rs:529-645`, `calculate_zones_abc`. -/
def calculateAbc (x : Inputs) : Outcome ((List ℝ × List ℝ) × List ℝ) :=
  (addPowers .err x.hvacs (List.replicate x.zones.length 0)).bind fun a =>
    (addPowers .panic x.luminaires a).bind fun a =>
      (zoneLoop 0 x.zones (a, List.replicate x.zones.length 0)).bind fun (ab, c) =>
        (surfaceLoop x.surfaces ab).bind fun ab =>
          (surfaceLoop x.fenestrations ab).bind fun ab => .ok (ab, c)

/-- The body of the loop of `heat_model.rs:709-719`. -/
def futureTemp (t a b c futureTime : ℝ) : ℝ :=
  if |b| > 1e-9 then a / b + (t - a / b) * Real.exp (-b * futureTime / c) else t

/-- The body of the loop of `heat_model.rs:677-689`. -/
def meanFutureTemp (t a b c futureTime : ℝ) : ℝ :=
  if |b| > 1e-9 then
    a / b + (c * (t - a / b) / futureTime / b) * (1 - Real.exp (-b * futureTime / c))
  else t

/-- `heat_model.rs:698-722`, `estimate_zones_future_temperatures`, from zone `i` on. -/
def futureTemps (t a b c : List ℝ) (futureTime : ℝ) : (n i : ℕ) → Outcome (List ℝ)
  | 0, _ => .ok []
  | n + 1, i =>
    (Outcome.index t i).bind fun ti => (Outcome.index a i).bind fun ai => (Outcome.index b i).bind fun bi =>
      (Outcome.index c i).bind fun ci =>
        (futureTemps t a b c futureTime n (i + 1)).bind fun r => .ok (futureTemp ti ai bi ci futureTime :: r)

/-- `get_current_zones_temperatures`, `heat_model.rs:654-663`, which panics without a temperature. -/
def currentTemps : List ZoneIn → Outcome (List ℝ)
  | [] => .ok []
  | z :: rest =>
    match z.temp with
    | none => .panic
    | some t => (currentTemps rest).bind fun r => .ok (t :: r)

/-- The update of the zones of `march`, `heat_model.rs:449-463`: the new temperatures. -/
def zonesStep (x : Inputs) (dt : ℝ) : Outcome (List ℝ) :=
  (currentTemps x.zones).bind fun t =>
    (calculateAbc x).bind fun (ab, c) => futureTemps t ab.1 ab.2 c dt x.zones.length 0

end
end Simple.Heat
