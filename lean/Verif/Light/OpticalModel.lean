import Verif.Light.SolarMarchModel
import Verif.Render.DaylightModel

/-! Model of how `/repo/light/src/optical_info.rs` and `/repo/light/src/solar_surface.rs` calculate the optical data of a
whole building, from the points that were sampled on its surfaces.

Simplifications: `Float` is `ℝ`; what rays meet and the random numbers are arguments; the places in the state that
`make_surfaces` and `make_fenestrations` reserve are those of `Wiring.solarNew`; how points are sampled on polygons is modelled
in `Render.Sampler`; the progress bar is left out; values are collected one after the other, as without the feature
`parallel`. -/

namespace Simple.Light.Optical

open Simple.Light Light.March Wiring Matrix Render.Daylight
open Geometry (Ray)

/-- `solar_surface.rs:58-63`, `struct SolarSurface`, with the boundaries that its flags come from (`198-199` and `243-244`).  `solar` and
`views` are the random numbers (and what the rays meet) for each side and each of its points. -/
structure Patch where
  surface : Surface
  boundary : Side → Boundary
  solar : Side → ℕ → List ((ℝ × ℝ) × Course)
  views : Side → ℕ → List (ℝ × ℝ)

/-- `solar_surface.rs:259-278` and `140-144`: the rays of a side. -/
noncomputable def raysOf (p : Patch) : Side → List (Ray ℝ)
  | .front => frontRays p.surface
  | .back => backRays p.surface

/-- Each ray with its random numbers. -/
def withNumbers {α : Type} (f : ℕ → α) (rays : List (Ray ℝ)) : List (Ray ℝ × α) := rays.zipIdx.map fun r => (r.1, f r.2)

/-- `solar_surface.rs:129-146`: the row of one of the list.  The depth is that of `optical_info.rs:99`. -/
noncomputable def rowOf (checks : Bool) (sky : Weather.Reinhart.Sky) (s : Side) (p : Patch) : Outcome (GMatrix ℝ) :=
  if receivesSun (p.boundary s) then solarIrradiance checks sky 1 (withNumbers (p.solar s) (raysOf p s))
  else .ok (GMatrix.new 0 1 sky.nBins)

/-- `solar_surface.rs:151-154`: the loop that puts the rows below one another. -/
def stack : GMatrix ℝ → List (GMatrix ℝ) → Outcome (GMatrix ℝ)
  | m, [] => .ok m
  | m, r :: rows =>
    match m.concatRows r with
    | (.ok _, m') => stack m' rows
    | (.err, _) => .err
    | (.panic, _) => .panic

/-- `solar_surface.rs:116-157`, `calc_solar_dc_matrix`. -/
noncomputable def calcSolarDc (checks : Bool) (sky : Weather.Reinhart.Sky) (s : Side) (list : List Patch) : Outcome (GMatrix ℝ) :=
  if list.isEmpty then .ok GMatrix.empty
  else (collect (rowOf checks sky s) list).bind fun dcs =>
    match dcs with
    | [] => .ok GMatrix.empty
    | m :: rest => stack m rest

/-- `optical_info.rs:162-176`: the view factors of a side; `unwrap` panics for errors.  Factors that are `NaN` are not followed: they
count as a panic. -/
noncomputable def viewOf (checks : Bool) (blocked : Ray ℝ → Bool) (nSamples : ℕ) (s : Side) (p : Patch) : Outcome ViewFactors :=
  match calcViewFactors checks blocked (withNumbers (p.views s) (raysOf p s)) nSamples with
  | .ok (some v) => .ok v
  | _ => .panic

/-- `optical_info.rs:78-188`, `OpticalInfo::new`, from the sampled points on; `mf` is the subdivision of the sky, `blocked` says
whether a ray hits something and `nSamples` is 10000 (`solar_surface.rs:311`). -/
noncomputable def calculate (checks : Bool) (mf : ℕ) (blocked : Ray ℝ → Bool) (nSamples : ℕ) (patches : Kind → List Patch) :
    Outcome OpticalInfo :=
  (Weather.Reinhart.new mf).bind fun sky =>
  (calcSolarDc checks sky .front (patches .surface)).bind fun fs =>
  (calcSolarDc checks sky .back (patches .surface)).bind fun bs =>
  (calcSolarDc checks sky .front (patches .fenestration)).bind fun ff =>
  (calcSolarDc checks sky .back (patches .fenestration)).bind fun bf =>
  (collect (viewOf checks blocked nSamples .front) (patches .surface)).bind fun vfs =>
  (collect (viewOf checks blocked nSamples .back) (patches .surface)).bind fun vbs =>
  (collect (viewOf checks blocked nSamples .front) (patches .fenestration)).bind fun vff =>
  (collect (viewOf checks blocked nSamples .back) (patches .fenestration)).bind fun vbf =>
  .ok {
    viewFactors := fun kind s => match kind, s with
      | .surface, .front => vfs
      | .surface, .back => vbs
      | .fenestration, .front => vff
      | .fenestration, .back => vbf
    dc := fun kind s => match kind, s with
      | .surface, .front => fs
      | .surface, .back => bs
      | .fenestration, .front => ff
      | .fenestration, .back => bf }

end Simple.Light.Optical
