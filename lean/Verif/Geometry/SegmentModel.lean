import Verif.Geometry.VecModel

/-! Model of `/repo/geometry/src/segment3d.rs`. -/

namespace Simple.Geometry

/-- `segment3d.rs:31-38`, `struct Segment3D`; the length is a function of the ends (see `new`, 42-49). -/
@[ext] structure Segment (K : Type*) where
  start : V3 K
  fin : V3 K
deriving DecidableEq, Repr

namespace Segment

section Ordered

variable {K : Type*} [Field K] [LinearOrder K]

/-- `segment3d.rs:82-86`, `compare`. -/
def compare (s other : Segment K) : Bool :=
  (s.start.compare other.start && s.fin.compare other.fin) || (s.fin.compare other.start && s.start.compare other.fin)

/-- `segment3d.rs:140-178`, `get_intersection_pt`. -/
def getIntersectionPt (s input : Segment K) : Option (K × K) :=
  let dir1 := s.fin - s.start
  let dir2 := input.fin - input.start
  if dir1.isParallel dir2 then none
  else
    let normal := dir1.cross dir2
    let delta := s.start - input.start
    let dot := delta.dot normal
    if |dot| > 1 / 100000 then none
    else if |normal.z| > 1 / 100000 then
      let det := dir1.y * dir2.x - dir1.x * dir2.y
      some ((dir2.y * delta.x - dir2.x * delta.y) / det, (dir1.y * delta.x - dir1.x * delta.y) / det)
    else if |normal.x| > 1 / 100000 then
      let det := dir1.y * dir2.z - dir1.z * dir2.y
      some ((dir2.y * delta.z - dir2.z * delta.y) / det, (dir1.y * delta.z - dir1.z * delta.y) / det)
    else if |normal.y| > 1 / 100000 then
      let det := dir1.x * dir2.z - dir1.z * dir2.x
      some ((dir2.x * delta.z - dir2.z * delta.x) / det, (dir1.x * delta.z - dir1.z * delta.x) / det)
    else none

/-- `segment3d.rs:182-198`, `intersect`; the output is `none` where the code leaves it unchanged and returns `false`. -/
def intersect (s input : Segment K) : Option (V3 K) :=
  match s.getIntersectionPt input with
  | some (ta, tb) =>
    if (-(1 / 10 ^ 12) ≤ ta ∧ ta < 1 + 1 / 10 ^ 7) ∧ (1 / 10 ^ 8 ≤ tb ∧ tb < 1 - 1 / 10 ^ 8) then
      some (s.start + (s.fin - s.start).scale ta)
    else none
  | none => none

/-- `segment3d.rs:202-216`, `touches`; the output as in `intersect`. -/
def touches (s input : Segment K) : Option (V3 K) :=
  match s.getIntersectionPt input with
  | some (ta, tb) =>
    if (0 ≤ ta ∧ ta ≤ 1) ∧ (0 ≤ tb ∧ tb ≤ 1) then some (s.start + (s.fin - s.start).scale ta) else none
  | none => none

/-- `segment3d.rs:219-221`, `midpoint`. -/
def midpoint (s : Segment K) : V3 K := (s.start + s.fin).scale (1 / 2)

end Ordered

/-- `segment3d.rs:89-106`, `contains_point`. -/
noncomputable def containsPoint (s : Segment ℝ) (p : V3 ℝ) : Outcome Bool :=
  if s.start.distance s.fin < 1 / 100 then .ok false
  else (p.isCollinear s.start s.fin).bind fun col =>
    if !col then .ok false
    else
      let v0 := s.fin.x - s.start.x
      let v1 := s.fin.y - s.start.y
      let v2 := s.fin.z - s.start.z
      let dot00 := v0 * v0 + v1 * v1 + v2 * v2
      let dot01 := v0 * (p.x - s.start.x) + v1 * (p.y - s.start.y) + v2 * (p.z - s.start.z)
      .ok (decide (dot01 ≥ -(1 / 10 ^ 9) ∧ dot01 ≤ dot00))

/-- `segment3d.rs:112-114`, `contains`. -/
noncomputable def contains (s input : Segment ℝ) : Outcome Bool :=
  (s.containsPoint input.start).bind fun a =>
    if a then s.containsPoint input.fin else .ok false

end Segment

end Simple.Geometry
