import Verif.Geometry.TriangleModel
import Verif.Render.SamplerModel

/-! Model of the view factors in `/repo/light/src/solar_surface.rs` and of the irradiance that
`/repo/light/src/solar_model.rs` stores for each side of a surface.  `Float` is `ℝ`; the random numbers are arguments, and
what a ray meets is a function of the ray. -/

namespace Simple.Light

open Geometry Render.Sampler

/-- `solar_surface.rs:58-63`, `struct SolarSurface`, without the flags. -/
structure Surface where
  points : List (V3 ℝ)
  normal : V3 ℝ

/-- `solar_surface.rs:259-267`, `front_rays`. -/
noncomputable def frontRays (s : Surface) : List (Ray ℝ) :=
  s.points.map fun p => ⟨p + s.normal.scale (1 / 1000), s.normal⟩

/-- `solar_surface.rs:270-278`, `back_rays`. -/
noncomputable def backRays (s : Surface) : List (Ray ℝ) :=
  s.points.map fun p => ⟨p - s.normal.scale (1 / 1000), s.normal.scale (-1)⟩

/-- `optical_info.rs:33-43`, `struct IRViewFactorSet`. -/
structure ViewFactors where
  sky : ℝ
  ground : ℝ
  air : ℝ

/-- `solar_surface.rs:318-329`, the samples of one ray.  `blocked` says whether `scene.cast_ray` finds something. -/
noncomputable def castSamples (checks : Bool) (blocked : Ray ℝ → Bool) (ray : Ray ℝ) (e1 e2 : V3 ℝ) (sky ground : ℝ) :
    List (ℝ × ℝ) → Outcome (ℝ × ℝ)
  | [] => .ok (sky, ground)
  | u :: us => (tiltedHemisphere checks u e1 e2 ray.direction).bind fun dir =>
      if !blocked ray then
        if dir.z > 0 then castSamples checks blocked ray e1 e2 (sky + 1) ground us
        else castSamples checks blocked ray e1 e2 sky (ground + 1) us
      else castSamples checks blocked ray e1 e2 sky ground us

/-- `solar_surface.rs:313-330`, the loop of `calc_view_factors` over the rays, each with its random numbers. -/
noncomputable def castRays (checks : Bool) (blocked : Ray ℝ → Bool) (sky ground : ℝ) : List (Ray ℝ × List (ℝ × ℝ)) → Outcome (ℝ × ℝ)
  | [] => .ok (sky, ground)
  | (ray, us) :: rays => ray.direction.getPerpendicular.bind fun e1 =>
      (castSamples checks blocked ray e1 (ray.direction.cross e1) sky ground us).bind fun acc => castRays checks blocked acc.1 acc.2 rays

/-- `solar_surface.rs:295-341`, `calc_view_factors` (the numbers of samples, 10000, is `nSamples`).  Without rays the
factors are `NaN`, here `none`. -/
noncomputable def calcViewFactors (checks : Bool) (blocked : Ray ℝ → Bool) (rays : List (Ray ℝ × List (ℝ × ℝ))) (nSamples : ℕ) :
    Outcome (Option ViewFactors) :=
  (castRays checks blocked 0 0 rays).bind fun acc =>
    let n : ℝ := nSamples * rays.length
    if n = 0 then .ok none
    else
      let ground := acc.2 / n
      let sky := acc.1 / n
      let beta := Real.sqrt sky
      .ok (some { sky := sky * beta, ground := ground, air := sky * (1 - beta) })

/-! ### Irradiance -/

/-- `model/src/boundary.rs`, what matters of `enum Boundary`. -/
inductive Boundary
  | space
  | ambientTemperature (temperature : ℝ)
  | ground
  | adiabatic
  | outdoor

/-- `solar_model.rs:70-74`, `ir`. -/
noncomputable def ir (temp emissivity : ℝ) : ℝ := emissivity * (5670374419 / 10 ^ 17) * (temp + 27315 / 100) ^ 4

/-- `solar_model.rs:83-151`, the infrared irradiance stored for one side: `node` is the temperature of the node at that side,
when there is one, and `old` is what was stored before. -/
noncomputable def irIrradiance (b : Boundary) (node : Option ℝ) (db horizontalIr : ℝ) (v : ViewFactors) (old : ℝ) : ℝ :=
  match b with
  | .space => ir (node.getD 22) 1
  | .ambientTemperature t => ir t 1
  | .ground => old
  | .adiabatic => old
  | .outdoor => (v.ground + v.air) * ir db 1 + v.sky * horizontalIr

/-- `solar_surface.rs:108-110`, `boundary_receives_sun`. -/
def receivesSun : Boundary → Bool
  | .space => true
  | .outdoor => true
  | _ => false

/-- A time step, for one side: the night, or the product of its daylight coefficients and the sky. -/
inductive Step
  | night
  | day (v : ℝ)

/-- `solar_model.rs:215-229` and `solar_model.rs:246-260`, the solar irradiance stored for one side of a surface. -/
noncomputable def solarSurface (b : Boundary) (old : ℝ) : Step → ℝ
  | .night => 0
  | .day v =>
    let old := if receivesSun b then old else 0
    let v := if v < 0 then 0 else v
    (v + old) / 2

/-- `solar_model.rs:215-229` and `solar_model.rs:286-300`, the same for a fenestration which is not an opening. -/
noncomputable def solarFenestration (b : Boundary) (old : ℝ) : Step → ℝ
  | .night => 0
  | .day v =>
    let old := if receivesSun b then old else 0
    (v + old) / 2

end Simple.Light
