import Verif.Geometry.ShapeModel
import Verif.Geometry.TriangleModel
import Verif.Render.SamplerModel

/-! Model of the densities and of the directions towards lights of `/repo/rendering/src/primitive_samplers.rs`,
`/repo/rendering/src/primitive.rs` and `/repo/rendering/src/triangle/mod.rs`.  `Float` is `ℝ` and the random numbers are
arguments.  Cylinders are not lights: the code has `unimplemented!()`. -/

namespace Simple.Render.Lights

open Geometry

/-- `primitive_samplers.rs:32-35`, `uniform_cone_pdf`. -/
noncomputable def conePdf (cosTheta : ℝ) : ℝ := 1 / (2 * Real.pi * (1 - cosTheta))

/-- `primitive_samplers.rs:53-68`, `triangle_solid_angle_pdf`: `p` and `normal` are those of the intersection. -/
noncomputable def trianglePdf (tr : Triangle ℝ) (p normal : V3 ℝ) (ray : Ray ℝ) : ℝ :=
  let d2 := (p - ray.origin).lengthSquared
  let cosTheta := ray.origin.dot normal
  if cosTheta < 1 / 10 ^ 7 then 0 else d2 / |cosTheta| / tr.area

/-- `triangle/mod.rs:70-84`, `triangle_area`. -/
noncomputable def meshTriangleArea (a b c : V3 ℝ) : ℝ :=
  let ab := Real.sqrt ((b.x - a.x) ^ 2 + (b.y - a.y) ^ 2 + (b.z - a.z) ^ 2)
  let bc := Real.sqrt ((c.x - b.x) ^ 2 + (c.y - b.y) ^ 2 + (c.z - b.z) ^ 2)
  let ca := Real.sqrt ((a.x - c.x) ^ 2 + (a.y - c.y) ^ 2 + (a.z - c.z) ^ 2)
  Real.sqrt ((ca + bc + ab) * ((ca + bc + ab) / 2 - ab) * ((ca + bc + ab) / 2 - bc) * ((ca + bc + ab) / 2 - ca) / 2)

/-- `triangle/mod.rs:86-102`, `triangle_solid_angle_pdf`. -/
noncomputable def meshTrianglePdf (a b c p normal : V3 ℝ) (ray : Ray ℝ) : ℝ :=
  let d2 := (p - ray.origin).lengthSquared
  let cosTheta := ray.origin.dot normal
  if cosTheta < 1 / 10 ^ 7 then 0 else d2 / |cosTheta| / meshTriangleArea a b c

/-- `primitive_samplers.rs:73-79`, `sphere_solid_angle_pdf`. -/
noncomputable def spherePdf (centre : V3 ℝ) (radius : ℝ) (ray : Ray ℝ) : ℝ :=
  let d2 := (centre - ray.origin).lengthSquared
  let sinTheta2 := radius * radius / d2
  conePdf (Real.sqrt (Sampler.clamp (1 - sinTheta2) 0 1))

/-- `primitive_samplers.rs:114-121`, `source_solid_angle_pdf`. -/
noncomputable def sourcePdf (s : DistantSource) : ℝ := conePdf s.cosHalfAlpha

/-- `primitive.rs:111-127`, `sample_direction` of a sphere. -/
noncomputable def aimSphere (u : ℝ × ℝ) (centre : V3 ℝ) (radius : ℝ) (point : V3 ℝ) : Outcome (V3 ℝ) :=
  (Sampler.sphereSurface u centre radius - point).normalize

/-- `primitive.rs:111-127`, `sample_direction` of a triangle. -/
noncomputable def aimTriangle (u : ℝ × ℝ) (a b c point : V3 ℝ) : Outcome (V3 ℝ) :=
  (Sampler.triangle u a b c - point).normalize

/-- `primitive.rs:111-127`, `sample_direction` of a distant source. -/
noncomputable def aimSource (checks : Bool) (u : ℝ × ℝ) (s : DistantSource) (point : V3 ℝ) : Outcome (V3 ℝ) :=
  s.direction.normalize.bind fun normal =>
    (Sampler.tiltedDisc checks u (Real.tan (s.angle / 2)) (point + normal) normal).bind fun p => (p - point).normalize

end Simple.Render.Lights
