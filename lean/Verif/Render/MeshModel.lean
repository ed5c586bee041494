import Verif.Geometry.ShapeModel

/-! Model of `mesh_triangle` and `mesh_sphere` of `/repo/rendering/src/triangle/mod.rs`.  `Float` is `ℝ`. -/

namespace Simple.Render.Meshing

open Geometry

/-- The three normals that a scene keeps for a triangle: `scene.rs:50`. -/
abbrev Normals := V3 ℝ × V3 ℝ × V3 ℝ

/-- `mod.rs:188-210`, `mesh_triangle`. -/
noncomputable def meshTriangle (tr : Triangle ℝ) : Outcome (List (Triangle ℝ) × List Normals) :=
  let s1 := tr.b - tr.a
  let s2 := tr.c - tr.a
  (s1.cross s2).normalize.bind fun normal => .ok ([⟨tr.a, tr.b, tr.c⟩], [(normal, normal, normal)])

/-- `to_radians`. -/
noncomputable def toRadians (a : ℝ) : ℝ := a * (Real.pi / 180)

/-- `mod.rs:228`: the height of the upper ring of vertices. -/
noncomputable def midHeight (r : ℝ) : ℝ := r * Real.cos (toRadians 60)
/-- `mod.rs:229`: the radius of the rings of vertices. -/
noncomputable def midRadius (r : ℝ) : ℝ := r * Real.sin (toRadians 60)

/-- `mod.rs:234-243`: the upper ring. -/
noncomputable def upper (r : ℝ) (c : V3 ℝ) (angle : ℝ) : V3 ℝ :=
  ⟨midRadius r * Real.sin (toRadians angle), midRadius r * Real.cos (toRadians angle), midHeight r⟩ + c

/-- `mod.rs:244-253`: the lower ring. -/
noncomputable def lower (r : ℝ) (c : V3 ℝ) (angle : ℝ) : V3 ℝ :=
  ⟨midRadius r * Real.sin (toRadians angle), midRadius r * Real.cos (toRadians angle), -midHeight r⟩ + c

/-- `mod.rs:227-281`: the twenty triangles to start with. -/
noncomputable def start (r : ℝ) (c : V3 ℝ) : List (Triangle ℝ) :=
  let top := (⟨0, 0, r⟩ : V3 ℝ) + c
  let bottom := (⟨0, 0, -r⟩ : V3 ℝ) + c
  let t0 := upper r c 36
  let t1 := upper r c (3 * 36)
  let t2 := upper r c (5 * 36)
  let t3 := upper r c (7 * 36)
  let t4 := upper r c (9 * 36)
  let b0 := lower r c 0
  let b1 := lower r c 72
  let b2 := lower r c (2 * 72)
  let b3 := lower r c (3 * 72)
  let b4 := lower r c (4 * 72)
  [⟨t0, t4, top⟩, ⟨t4, t3, top⟩, ⟨t3, t2, top⟩, ⟨t2, t1, top⟩, ⟨t1, t0, top⟩,
   ⟨b0, b1, bottom⟩, ⟨b1, b2, bottom⟩, ⟨b2, b3, bottom⟩, ⟨b3, b4, bottom⟩, ⟨b4, b0, bottom⟩,
   ⟨t4, t0, b0⟩, ⟨t0, t1, b1⟩, ⟨t1, t2, b2⟩, ⟨t2, t3, b3⟩, ⟨t3, t4, b4⟩,
   ⟨b1, b0, t0⟩, ⟨b2, b1, t1⟩, ⟨b3, b2, t2⟩, ⟨b4, b3, t3⟩, ⟨b0, b4, t4⟩]

/-- `mod.rs:290-296`: the middle of a side, moved onto the sphere. -/
noncomputable def middle (r : ℝ) (centre p q : V3 ℝ) : Outcome (V3 ℝ) :=
  ((p + q).div 2 - centre).normalize.bind fun n => .ok (centre + n.scale r)

/-- `mod.rs:288-304`, what the loop in `refine` makes of one triangle: the one that replaces it, and the three that are
pushed at the end of the vector. -/
noncomputable def split (r : ℝ) (centre : V3 ℝ) (t : Triangle ℝ) : Outcome (Triangle ℝ × List (Triangle ℝ)) :=
  (middle r centre t.a t.b).bind fun ab =>
  (middle r centre t.a t.c).bind fun ac =>
  (middle r centre t.b t.c).bind fun bc =>
  .ok (⟨t.a, ab, ac⟩, [⟨ab, t.b, bc⟩, ⟨bc, t.c, ac⟩, ⟨ab, bc, ac⟩])

/-- A loop that computes something for each element of a vector, which may panic. -/
def mapAll {α β : Type} (f : α → Outcome β) : List α → Outcome (List β)
  | [] => .ok []
  | x :: xs => (f x).bind fun y => (mapAll f xs).bind fun ys => .ok (y :: ys)

/-- `mod.rs:285-306`, `refine`. -/
noncomputable def refine (r : ℝ) (centre : V3 ℝ) (ts : List (Triangle ℝ)) : Outcome (List (Triangle ℝ)) :=
  (mapAll (split r centre) ts).bind fun l => .ok (l.map Prod.fst ++ l.flatMap Prod.snd)

/-- `mod.rs:308-310`: the refinements. -/
noncomputable def refineTimes (r : ℝ) (centre : V3 ℝ) : ℕ → List (Triangle ℝ) → Outcome (List (Triangle ℝ))
  | 0, ts => .ok ts
  | n + 1, ts => (refine r centre ts).bind (refineTimes r centre n)

/-- `mod.rs:313-321`: the normals at the vertices of a triangle. -/
noncomputable def normalsOf (centre : V3 ℝ) (t : Triangle ℝ) : Outcome Normals :=
  (t.a - centre).normalize.bind fun n0 =>
  (t.b - centre).normalize.bind fun n1 =>
  (t.c - centre).normalize.bind fun n2 => .ok (n0, n1, n2)

/-- `mod.rs:212-332`, `mesh_sphere`, without the warning. -/
noncomputable def meshSphere (s : Sphere) : Outcome (List (Triangle ℝ) × List Normals) :=
  (refineTimes s.radius s.centre 5 (start s.radius s.centre)).bind fun ts =>
  (mapAll (normalsOf s.centre) ts).bind fun ns => .ok (ts, ns)

end Simple.Render.Meshing
