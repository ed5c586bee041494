import Verif.Geometry.VecModel
import Verif.Float.Ext

/-! Model of `/repo/geometry/src/bbox3d.rs`.  `Float` is an ordered field, and `XF` (exact numbers with
infinities and NaN) in the intersection with a ray, where infinities do occur. -/

namespace Simple.Geometry

/-- `bbox3d.rs:46-53`, `struct BBox3D`. -/
structure BBox (K : Type*) where
  min : V3 K
  max : V3 K

/-- `bbox3d.rs:33-41`, `enum BBoxAxis`. -/
inductive Axis where
  | x | y | z
deriving DecidableEq, Repr

namespace BBox

section Ordered

variable {K : Type*} [Field K] [LinearOrder K]

/-- `bbox3d.rs:57-78`, `get_mins_maxs`: the lowest and the highest of each coordinate. -/
def getMinsMaxs (a b : V3 K) : V3 K × V3 K :=
  let (x1, x2) := if b.x < a.x then (b.x, a.x) else (a.x, b.x)
  let (y1, y2) := if b.y < a.y then (b.y, a.y) else (a.y, b.y)
  let (z1, z2) := if b.z < a.z then (b.z, a.z) else (a.z, b.z)
  (⟨x1, y1, z1⟩, ⟨x2, y2, z2⟩)

/-- `bbox3d.rs:84-91`, `new`. -/
def new (a b : V3 K) : BBox K :=
  let (min, max) := getMinsMaxs a b
  ⟨min, max⟩

/-- `bbox3d.rs:95-97`, `from_point`. -/
def fromPoint (p : V3 K) : BBox K := ⟨p, p⟩

/-- `bbox3d.rs:101-110`, `from_union_point`. -/
def fromUnionPoint (b : BBox K) (p : V3 K) : BBox K := ⟨(getMinsMaxs b.min p).1, (getMinsMaxs b.max p).2⟩

/-- `bbox3d.rs:113-134`, `from_union`. -/
def fromUnion (a b : BBox K) : BBox K := ⟨(getMinsMaxs a.min b.min).1, (getMinsMaxs a.max b.max).2⟩

/-- `bbox3d.rs:137-158`, `from_intersection`. -/
def fromIntersection (a b : BBox K) : BBox K := ⟨(getMinsMaxs a.min b.min).2, (getMinsMaxs a.max b.max).1⟩

/-- `bbox3d.rs:161-166`, `overlaps`. -/
def overlaps (a b : BBox K) : Bool :=
  let x := decide (b.min.x ≤ a.max.x) && decide (a.min.x ≤ b.max.x)
  let y := decide (b.min.y ≤ a.max.y) && decide (a.min.y ≤ b.max.y)
  let z := decide (b.min.z ≤ a.max.z) && decide (a.min.z ≤ b.max.z)
  x && y && z

/-- `bbox3d.rs:169-176`, `point_inside`. -/
def pointInside (b : BBox K) (p : V3 K) : Bool :=
  decide (b.min.x ≤ p.x) && decide (p.x ≤ b.max.x) && decide (b.min.y ≤ p.y) && decide (p.y ≤ b.max.y) &&
    decide (b.min.z ≤ p.z) && decide (p.z ≤ b.max.z)

/-- `bbox3d.rs:181-188`, `point_inside_exclusive`. -/
def pointInsideExclusive (b : BBox K) (p : V3 K) : Bool :=
  decide (b.min.x ≤ p.x) && decide (p.x < b.max.x) && decide (b.min.y ≤ p.y) && decide (p.y < b.max.y) &&
    decide (b.min.z ≤ p.z) && decide (p.z < b.max.z)

/-- `bbox3d.rs:191-200`, `max_extent`. -/
def maxExtent (b : BBox K) : Axis :=
  let d := b.max - b.min
  if d.y < d.x ∧ d.z < d.x then .x else if d.z < d.y then .y else .z

/-- `bbox3d.rs:203-206`, `surface_area`. -/
def surfaceArea (b : BBox K) : K :=
  let d := b.max - b.min
  2 * (d.x * d.y + d.x * d.z + d.y * d.z)

end Ordered

/-- `/repo/geometry/src/round_error.rs`, `gamma!(3)`. -/
def gamma3 : ℚ := 3 * (1 / 2 ^ 53) / (1 - 3 * (1 / 2 ^ 53))

/-- `1. + 2. * gamma!(3.)`. -/
def widening : ℚ := 1 + 2 * gamma3

/-- `std::mem::swap` of two times when the first is greater. -/
def ordered (a b : XF) : XF × XF := if b < a then (b, a) else (a, b)

/-- `bbox3d.rs:243-314`, `intersect`, with the box and the origin of the ray finite. -/
def intersect (b : BBox ℚ) (origin : V3 ℚ) (invDir : V3 XF) : Bool :=
  let txMin := XF.fin (b.min.x - origin.x) * invDir.x
  let tyMin := XF.fin (b.min.y - origin.y) * invDir.y
  let tzMin := XF.fin (b.min.z - origin.z) * invDir.z
  let txMax := XF.fin (b.max.x - origin.x) * invDir.x
  let tyMax := XF.fin (b.max.y - origin.y) * invDir.y
  let tzMax := XF.fin (b.max.z - origin.z) * invDir.z
  let (txMin, txMax) := ordered txMin txMax
  if txMax < 0 then false
  else
    let (tyMin, tyMax) := ordered tyMin tyMax
    if tyMax < 0 then false
    else
      let txMax := txMax * XF.fin widening
      let tyMax := tyMax * XF.fin widening
      if tyMax < txMin ∨ txMax < tyMin then false
      else
        let txMin := if txMin < tyMin then tyMin else txMin
        let txMax := if tyMax < txMax then tyMax else txMax
        let (tzMin, tzMax) := ordered tzMin tzMax
        if tzMax < 0 then false
        else
          let tzMax := tzMax * XF.fin widening
          if tzMax < txMin ∨ txMax < tzMin then false
          else
            let txMin := if txMin < tzMin then tzMin else txMin
            let txMax := if tzMax < txMax then tzMax else txMax
            decide (txMin < txMax ∧ 0 < txMax)

end BBox

end Simple.Geometry
