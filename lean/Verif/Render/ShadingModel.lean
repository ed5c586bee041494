import Verif.Geometry.TriangleModel
import Verif.Render.MaterialModel
import Verif.Render.MeshModel

/-! Model of `interpolate_normal` of `/repo/rendering/src/interaction.rs`, with the hit that it changes, as in
`/repo/rendering/src/ray_tracer.rs:135-136` (feature `textures`).  `Float` is `ℝ`. -/

namespace Simple.Render.Shading

open Geometry Materials Meshing

/-- `interaction.rs:67-82`, `interpolate_normal`: the new normal.  `get_normalized` panics when there is no direction. -/
noncomputable def interpolateNormal (normals : Normals) (u v : ℝ) (side : Side) : Outcome (V3 ℝ) :=
  (normals.1.scale u + normals.2.1.scale v + normals.2.2.scale (1 - u - v)).normalize.bind fun n =>
    match side with
    | .back => .ok (n.scale (-1))
    | _ => .ok n

/-- `triangle/fallback.rs:11-51` and `triangle/mod.rs:147-185`, `baricentric_coordinates` and `new_info` (as `scene.rs:256-258` calls them), then `interpolate_normal`:
the normal, the side and the other two axes where a ray hits a triangle of a scene.  Only the normal is replaced. -/
noncomputable def shadedFrame (tr : Triangle ℝ) (normals : Normals) (ray : Ray ℝ) :
    Outcome (Option (V3 ℝ × Side × V3 ℝ × V3 ℝ)) :=
  match Triangle.baricentric ray tr with
  | none => .ok none
  | some (_, u, v) =>
    (hitFrame tr.a tr.b tr.c ray.direction).bind fun f =>
      (interpolateNormal normals u v f.2.1).bind fun n => .ok (some (n, f.2.1, f.2.2.1, f.2.2.2))

end Simple.Render.Shading
