import Verif.Matrix.Model
import Verif.Weather.ReinhartModel
import Verif.Render.SamplerModel
import Verif.Render.TracerModel

/-! Model of `/repo/rendering/src/daylight_coefficients.rs` and of the averages of `/repo/rendering/src/colour_matrix.rs`.
`Float` is `ℝ`.  What rays hit, the samples of materials and the random numbers are arguments.  The progress bar is left
out.  Rays are traced one after the other; with the feature `parallel` the same independent values are collected. -/

namespace Simple.Render.Daylight

open Geometry Materials Sampler Matrix

/-- What one ray meets: whether a ray hits something (and then if it is parallel to it, and the normal), the sample (in world
coordinates, with the point where the ray goes on) after some bounces, and the number drawn for the roulette. -/
structure Course where
  cast : Ray ℝ → Option (Bool × V3 ℝ)
  sample : ℕ → Ray ℝ → Option (Sample × V3 ℝ)
  draw : ℕ → ℝ

/-- `daylight_coefficients.rs:171-228`: the loop of `trace_ray`; `left` is `max_depth - depth`.  The result is the direction
in which the ray leaves the scene and what it then carries. -/
noncomputable def leaves (c : Course) : (left depth : ℕ) → Ray ℝ → Spectrum → Option (V3 ℝ × Spectrum)
  | left, depth, ray, beta =>
    match c.cast ray with
    | none => some (ray.direction, beta)
    | some (parallel, normal) =>
      if parallel then none
      else
        match left with
        | 0 => none
        | left + 1 =>
          match c.sample depth ray with
          | none => none
          | some (s, point) =>
            match Tracer.roulette (fun i => beta i * (s.spectrum i * |normal.dot s.wi| / s.pdf)) (c.draw depth) with
            | none => none
            | some beta => leaves c left (depth + 1) ⟨point, s.wi⟩ beta

/-- `daylight_coefficients.rs:159-229`, `trace_ray`: adds to the patch of the sky that the ray reaches. -/
noncomputable def traceRay (sky : Weather.Reinhart.Sky) (nAmbient maxDepth : ℕ) (c : Course) (ray : Ray ℝ) (m : GMatrix Spectrum) :
    Outcome (GMatrix Spectrum) :=
  match leaves c maxDepth 0 ray (gray Real.pi) with
  | none => .ok m
  | some (direction, beta) =>
    (Weather.Reinhart.dirToBin sky direction).bind fun bin =>
      match m.addToElement 0 bin fun i => 1 * beta i / nAmbient with
      | (.ok _, m') => .ok m'
      | _ => .panic

/-- `iter().map(f).collect()` where `f` may panic. -/
def collect {α β : Type} (f : α → Outcome β) : List α → Outcome (List β)
  | [] => .ok []
  | a :: l => (f a).bind fun b => (collect f l).bind fun bs => .ok (b :: bs)

/-- `ret += v` for each of the matrices (`daylight_coefficients.rs:134-137`; `generic_matrix.rs:415-426`). -/
def addAll {T : Type} [Add T] : GMatrix T → List (GMatrix T) → Outcome (GMatrix T)
  | m, [] => .ok m
  | m, v :: l => (m.add v).bind fun m => addAll m l

/-- `daylight_coefficients.rs:75-140`: the row of one sensor.  Each sample has its random numbers and its course; `checks`
says whether the debug assertions are compiled. -/
noncomputable def sensor (checks : Bool) (sky : Weather.Reinhart.Sky) (maxDepth : ℕ) (ray : Ray ℝ) (samples : List ((ℝ × ℝ) × Course)) :
    Outcome (GMatrix Spectrum) :=
  match ray.direction.getPerpendicular with
  | .ok e2 =>
    let e1 := e2.cross ray.direction
    (collect (fun s =>
      let v := cosineHemisphere s.1
      (localToWorld checks e1 e2 ray.direction 0 v.x v.y v.z).bind fun d =>
        if checks ∧ ¬ |1 - d.length| < 1 / 10 ^ 7 then .panic
        else traceRay sky samples.length maxDepth s.2 ⟨ray.origin, d⟩ (GMatrix.new 0 1 sky.nBins)) samples).bind fun contributions =>
      addAll (GMatrix.new 0 1 sky.nBins) contributions
  | _ => .panic

/-- `for col in cols { ret.set(row, col, f(col).unwrap()).unwrap() }`. -/
def fillRow {T : Type} (row : ℕ) (f : ℕ → Outcome T) : List ℕ → GMatrix T → Outcome (GMatrix T)
  | [], m => .ok m
  | col :: cols, m =>
    match f col with
    | .ok v =>
      match m.set row col v with
      | (.ok _, m') => fillRow row f cols m'
      | _ => .panic
    | _ => .panic

/-- The same for each row. -/
def fillRows {T : Type} (ncols : ℕ) (f : ℕ → ℕ → Outcome T) : List ℕ → GMatrix T → Outcome (GMatrix T)
  | [], m => .ok m
  | row :: rows, m => (fillRow row (f row) (List.range ncols) m).bind fun m => fillRows ncols f rows m

/-- `daylight_coefficients.rs:57-154`, `calc_dc`. -/
noncomputable def calcDc (checks : Bool) (sky : Weather.Reinhart.Sky) (maxDepth : ℕ) (rays : List (Ray ℝ × List ((ℝ × ℝ) × Course))) :
    Outcome (GMatrix Spectrum) :=
  (collect (fun r => sensor checks sky maxDepth r.1 r.2) rays).bind fun dcs =>
    fillRows sky.nBins (fun i j => (Outcome.index dcs i).bind fun c => c.get 0 j) (List.range rays.length)
      (GMatrix.new 0 rays.length sky.nBins)

/-- `colour_matrix.rs:36-46`, `colour_matrix_to_radiance`. -/
noncomputable def toRadiance (cm : GMatrix Spectrum) : Outcome (GMatrix ℝ) :=
  fillRows cm.ncols (fun i j => (cm.get i j).map Spectrum.radiance) (List.range cm.nrows) (GMatrix.new 0 cm.nrows cm.ncols)

/-- `colour_matrix.rs:48-58`, `colour_matrix_to_luminance`, and `colour.rs:101-105`, `luminance`. -/
noncomputable def toLuminance (cm : GMatrix Spectrum) : Outcome (GMatrix ℝ) :=
  fillRows cm.ncols (fun i j => (cm.get i j).map fun c => c.radiance * 179) (List.range cm.nrows) (GMatrix.new 0 cm.nrows cm.ncols)

/-- `colour_matrix.rs:29-34`, `average_matrix`. -/
noncomputable def average (dc : GMatrix ℝ) : Outcome (GMatrix ℝ) := (GMatrix.new (1 / (dc.nrows : ℝ)) 1 dc.nrows).mul dc

/-- `solar_surface.rs:281-292`, `solar_irradiance` (in `/repo/light/src`). -/
noncomputable def solarIrradiance (checks : Bool) (sky : Weather.Reinhart.Sky) (maxDepth : ℕ) (rays : List (Ray ℝ × List ((ℝ × ℝ) × Course))) :
    Outcome (GMatrix ℝ) :=
  (calcDc checks sky maxDepth rays).bind fun dc => (toRadiance dc).bind average

end Simple.Render.Daylight
