import Mathlib.Analysis.SpecialFunctions.Trigonometric.Basic
import Verif.Geometry.VecModel

/-! Model of `/repo/rendering/src/samplers.rs`, of the parts of `/repo/rendering/src/primitive_samplers.rs` about triangles
and spheres, and of the choice of triangles in `/repo/light/src/solar_surface.rs`.  The random numbers are arguments.
`Float` is `ℝ`; in the choice of triangles it is any field, and `rnd` rounds the result of each operation (`id`: exact). -/

namespace Simple.Render.Sampler

open Geometry

/-- `f64::clamp`, for `lo ≤ hi`. -/
noncomputable def clamp (x lo hi : ℝ) : ℝ := if x < lo then lo else if hi < x then hi else x

/-- `samplers.rs:24-37`, `uniform_sample_triangle`. -/
noncomputable def triangle (u : ℝ × ℝ) (a b c : V3 ℝ) : V3 ℝ :=
  let rand1 := clamp u.1 (1 / 10 ^ 8) (1 - 1 / 10 ^ 8)
  let rand2 := clamp u.2 (1 / 10 ^ 8) (1 - 1 / 10 ^ 8)
  let aux := Real.sqrt rand1
  a + (b - a).scale (1 - aux) + (c - a).scale (rand2 * aux)

/-- `samplers.rs:39-49`, `uniform_sample_horizontal_disc`. -/
noncomputable def horizontalDisc (u : ℝ × ℝ) (radius : ℝ) : ℝ × ℝ :=
  let r := radius * Real.sqrt u.1
  let theta := 2 * Real.pi * u.2
  (r * Real.sin theta, r * Real.cos theta)

/-- `samplers.rs:53-72`, `local_to_world`.  `checks` says whether the debug assertions are compiled. -/
noncomputable def localToWorld (checks : Bool) (e1 e2 normal centre : V3 ℝ) (x y z : ℝ) : Outcome (V3 ℝ) :=
  if checks ∧ ¬ (|1 - e1.lengthSquared| < 1 / 10 ^ 4 ∧ |1 - e2.lengthSquared| < 1 / 10 ^ 4 ∧ |1 - normal.lengthSquared| < 1 / 10 ^ 4)
  then .panic
  else .ok ⟨centre.x + x * e1.x + y * e2.x + z * normal.x, centre.y + x * e1.y + y * e2.y + z * normal.y,
    centre.z + x * e1.z + y * e2.z + z * normal.z⟩

/-- `samplers.rs:76-81`, `sample_cosine_weighted_horizontal_hemisphere`. -/
noncomputable def cosineHemisphere (u : ℝ × ℝ) : V3 ℝ :=
  let p := horizontalDisc u 1
  let aux := clamp (p.1 * p.1 + p.2 * p.2) 0 1
  ⟨p.1, p.2, Real.sqrt (1 - aux)⟩

/-- `samplers.rs:84-95`, `sample_uniform_hemisphere`. -/
noncomputable def uniformHemisphere (u : ℝ × ℝ) : V3 ℝ :=
  let r := Real.sqrt (1 - u.1 * u.1)
  let pie2 := 2 * Real.pi * u.2
  ⟨Real.cos pie2 * r, Real.sin pie2 * r, u.1⟩

/-- `samplers.rs:98-115`, `uniform_sample_tilted_hemisphere`. -/
noncomputable def tiltedHemisphere (checks : Bool) (u : ℝ × ℝ) (e1 e2 normal : V3 ℝ) : Outcome (V3 ℝ) :=
  let v := uniformHemisphere u
  (localToWorld checks e1 e2 normal 0 v.x v.y v.z).bind fun d =>
    if checks ∧ ¬ |d.length - 1| < 1 / 10 ^ 5 then .panic else .ok d

/-- `samplers.rs:117-131`, `uniform_sample_sphere`. -/
noncomputable def sphere (u : ℝ × ℝ) : V3 ℝ :=
  let rand1 := clamp u.1 (1 / 10 ^ 7) (1 - 1 / 10 ^ 7)
  let rand2 := clamp u.2 (1 / 10 ^ 7) (1 - 1 / 10 ^ 7)
  let z := 1 - 2 * rand1
  let aux := Real.sqrt (1 - z * z)
  ⟨Real.cos (2 * Real.pi * rand2) * aux, Real.sin (2 * Real.pi * rand2) * aux, z⟩

/-- `samplers.rs:133-154`, `uniform_sample_tilted_disc`. -/
noncomputable def tiltedDisc (checks : Bool) (u : ℝ × ℝ) (radius : ℝ) (centre normal : V3 ℝ) : Outcome (V3 ℝ) :=
  let p := horizontalDisc u radius
  match normal.getPerpendicular with
  | .ok e2 => localToWorld checks (e2.cross normal) e2 normal centre p.1 p.2 0
  | _ => .panic

/-- `primitive_samplers.rs:44-51`, `triangle_direction`. -/
noncomputable def triangleDirection (a b c point : V3 ℝ) : ℝ × V3 ℝ :=
  let direction := (a + b + c).scale (1 / 3) - point
  (direction.length, direction.div direction.length)

/-- `primitive_samplers.rs:81-85`, `sphere_direction`. -/
noncomputable def sphereDirection (centre : V3 ℝ) (radius : ℝ) (point : V3 ℝ) : ℝ × V3 ℝ :=
  let direction := centre - point
  (direction.length - radius, direction.div direction.length)

/-- `primitive_samplers.rs:87-106`, `sample_sphere_surface` (double precision). -/
noncomputable def sphereSurface (u : ℝ × ℝ) (centre : V3 ℝ) (radius : ℝ) : V3 ℝ :=
  let p := sphere u
  ⟨p.x * (radius * (1 - 1 / 10 ^ 5)) + centre.x, p.y * (radius * (1 - 1 / 10 ^ 5)) + centre.y,
    p.z * (radius * (1 - 1 / 10 ^ 5)) + centre.z⟩

section Pick

variable {K : Type*} [Field K] [LinearOrder K]

/-- `solar_surface.rs:38`, the total area in `get_sampler`. -/
def total (rnd : K → K) (areas : List K) : K := areas.foldl (fun acc a => rnd (acc + a)) 0

/-- `solar_surface.rs:43-50`, the loop of `get_sampler`. -/
def pickFrom (rnd : K → K) (r acc : K) (i : ℕ) : List K → Outcome ℕ
  | [] => .panic
  | a :: areas => if r ≤ rnd (acc + a) then .ok i else pickFrom rnd r (rnd (acc + a)) (i + 1) areas

/-- `solar_surface.rs:37-52`, `get_sampler`, with the random number `r`. -/
def pick (rnd : K → K) (areas : List K) (r : K) : Outcome ℕ := pickFrom rnd (rnd (r * total rnd areas)) 0 0 areas

end Pick

/-- `solar_surface.rs:89-96`, one point of `SolarSurface::new`: `r` chooses the triangle and `u` the point in it. -/
noncomputable def surfacePoint (triangles : List (V3 ℝ × V3 ℝ × V3 ℝ)) (areas : List ℝ) (r : ℝ) (u : ℝ × ℝ) : Outcome (V3 ℝ) :=
  (pick id areas r).bind fun i => (Outcome.index triangles i).bind fun t => .ok (triangle u t.1 t.2.1 t.2.2)

end Simple.Render.Sampler
