import Verif.Geometry.BBoxModel

/-! Model of `/repo/geometry/src/triangle3d.rs`, `/repo/geometry/src/ray3d.rs` and
`/repo/rendering/src/triangle/fallback.rs`.  `Float` is an ordered field `K`, or `ℝ` where a square root is taken. -/

namespace Simple.Geometry

/-- `ray3d.rs:29-37`, `struct Ray3D`. -/
@[ext] structure Ray (K : Type*) where
  origin : V3 K
  direction : V3 K
deriving DecidableEq, Repr

/-- `ray3d.rs:42-44`, `project`. -/
def Ray.project {K : Type*} [Field K] (r : Ray K) (t : K) : V3 K := r.origin + r.direction.scale t

/-- `triangle3d.rs:71-83`, `struct Triangle3D`, without the cached normal and area. -/
@[ext] structure Triangle (K : Type*) where
  a : V3 K
  b : V3 K
  c : V3 K
deriving DecidableEq, Repr

/-- `triangle3d.rs:85-106`, `enum PointInTriangle`. -/
inductive PointInTriangle where
  | vertexA | vertexB | vertexC | edgeAB | edgeBC | edgeAC | inside | outside
deriving DecidableEq, Repr

namespace Triangle

section Ordered

variable {K : Type*} [Field K] [LinearOrder K]

/-- `triangle3d.rs:37-68`, `intersect_triangle`. -/
def intersectTriangle (ray : Ray K) (vertex0 vertex1 vertex2 : V3 K) : Option (V3 K × K × K) :=
  let edge1 := vertex1 - vertex0
  let edge2 := vertex2 - vertex0
  let h := ray.direction.cross edge2
  let a := edge1.dot h
  if a > -V3.tiny ∧ a < V3.tiny then none
  else
    let f := 1 / a
    let s := ray.origin - vertex0
    let u := f * s.dot h
    if ¬ (0 ≤ u ∧ u ≤ 1) then none
    else
      let q := s.cross edge1
      let v := f * ray.direction.dot q
      if ¬ (0 ≤ v ∧ v ≤ 1) then none
      else
        let t := f * edge2.dot q
        if t > V3.tiny then some (ray.project t, u, v) else none

/-- `triangle3d.rs:376-426`, `test_point`. -/
def testPoint (tr : Triangle K) (p : V3 K) : PointInTriangle :=
  let e1 := tr.b - tr.a
  let e2 := tr.c - tr.a
  let pMinusA := p - tr.a
  let e2e2 := e2.dot e2
  let e1e2 := e2.dot e1
  let e1e1 := e1.dot e1
  let left1 := e1.dot pMinusA
  let left2 := e2.dot pMinusA
  let det := e1e1 * e2e2 - e1e2 * e1e2
  let alpha := (e2e2 * left1 - e1e2 * left2) / det
  let beta := (-e1e2 * left1 + e1e1 * left2) / det
  let w := 1 - alpha - beta
  if alpha ≥ -V3.tiny ∧ beta ≥ -V3.tiny ∧ w ≥ -V3.tiny then
    if alpha ≤ V3.tiny ∧ beta ≤ V3.tiny then .vertexA
    else if alpha ≤ V3.tiny ∧ w ≤ V3.tiny then .vertexC
    else if beta ≤ V3.tiny ∧ w ≤ V3.tiny then .vertexB
    else if alpha ≤ V3.tiny then .edgeAC
    else if w ≤ V3.tiny then .edgeBC
    else if beta ≤ V3.tiny then .edgeAB
    else .inside
  else .outside

/-- `triangle3d.rs:492-496`, `bounds`. -/
def bounds (tr : Triangle K) : BBox K :=
  BBox.fromUnionPoint (BBox.fromUnionPoint (BBox.fromPoint tr.a) tr.b) tr.c

/-- `triangle3d.rs:247-253`, `centroid`. -/
def centroid (tr : Triangle K) : V3 K :=
  ⟨(tr.a.x + tr.b.x + tr.c.x) / 3, (tr.a.y + tr.b.y + tr.c.y) / 3, (tr.a.z + tr.b.z + tr.c.z) / 3⟩

/-- `triangle3d.rs:450-452`, `has_vertex`. -/
def hasVertex (tr : Triangle K) (p : V3 K) : Bool := tr.a.compare p || tr.b.compare p || tr.c.compare p

/-- `triangle3d.rs:460-472`, `compare`. -/
def compare (tr t : Triangle K) : Bool := t.hasVertex tr.a && t.hasVertex tr.b && t.hasVertex tr.c

/-- `fallback.rs:11-51`, `baricentric_coordinates`. -/
def baricentric (ray : Ray K) (tr : Triangle K) : Option (V3 K × K × K) :=
  let edge1 := tr.b - tr.a
  let edge2 := tr.c - tr.a
  let h := ray.direction.cross edge2
  let a := edge1.dot h
  if a < 1 / 100000 ∧ a > -(1 / 100000) then none
  else
    let f := 1 / a
    let s := ray.origin - tr.a
    let u := f * s.dot h
    if ¬ (-(1 / 2 ^ 52) ≤ u ∧ u ≤ 1 + 1 / 2 ^ 52) then none
    else
      let q := s.cross edge1
      let v := f * ray.direction.dot q
      if u + v > 1 + 1 / 2 ^ 52 ∨ v < -(1 / 2 ^ 52) then none
      else
        let t := f * edge2.dot q
        if t > 1 / 100000 then some (ray.project t, u, v) else none

end Ordered

section Real

/-- `triangle3d.rs:130-157`, `Triangle3D::new`; the cached normal and area are `normal` and `area` below. -/
noncomputable def new (a b c : V3 ℝ) : Outcome (Triangle ℝ) :=
  if a.compare b || a.compare c || b.compare c then .err
  else (a.isCollinear b c).bind fun col => if col then .err else .ok ⟨a, b, c⟩

/-- `triangle3d.rs:162-167`, `set_normal`: the panic is that of `normalize` in debug builds. -/
noncomputable def normal (tr : Triangle ℝ) : Outcome (V3 ℝ) := ((tr.b - tr.a).cross (tr.c - tr.b)).normalize

/-- `triangle3d.rs:177-188`, `set_area`. -/
noncomputable def area (tr : Triangle ℝ) : ℝ :=
  let ab := tr.a.distance tr.b
  let bc := tr.b.distance tr.c
  let ca := tr.c.distance tr.a
  Real.sqrt ((ca + bc + ab) * ((ca + bc + ab) / 2 - ab) * ((ca + bc + ab) / 2 - bc) * ((ca + bc + ab) / 2 - ca) / 2)

/-- `triangle3d.rs:198-209`, `circumradius` (without the feature `quick_inv_sqrt`). -/
noncomputable def circumradius (tr : Triangle ℝ) : ℝ :=
  let a := tr.a.distance tr.b
  let b := tr.b.distance tr.c
  let c := tr.c.distance tr.a
  let s := (a + b + c) * (b + c - a) * (c + a - b) * (a + b - c)
  a * b * c / Real.sqrt s

/-- `triangle3d.rs:213-223`, `aspect_ratio`. -/
noncomputable def aspectRatio (tr : Triangle ℝ) : ℝ :=
  let shortest := [tr.a.distance tr.b, tr.b.distance tr.c, tr.c.distance tr.a].foldl
    (fun m s => if s < m then s else m) (10 ^ 19)
  tr.circumradius / shortest

/-- `triangle3d.rs:226-242`, `circumcenter`. -/
noncomputable def circumcenter (tr : Triangle ℝ) : V3 ℝ :=
  let ab := tr.b - tr.a
  let ac := tr.c - tr.a
  let abCrossAc := ab.cross ac
  let acSq := ac.length * ac.length
  let abSq := ab.length * ab.length
  let nSq := abCrossAc.length * abCrossAc.length
  tr.a + ((abCrossAc.cross ab).scale acSq + (ac.cross abCrossAc).scale abSq).div (2 * nSq)

end Real

end Triangle

end Simple.Geometry
