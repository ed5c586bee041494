import Verif.Geometry.SegmentModel
import Verif.Geometry.BBoxModel

/-! Model of `/repo/geometry/src/loop3d.rs`.  `Float` is `ℝ`.  A method that takes `&mut self` and returns a
`Result` is a function that returns the outcome and the loop as it is left, also when it fails.  The methods
`mut_vertices` and `remove`, which let the caller change the vertices without any check, are not modelled here
(`remove` is in the model of the triangulation). -/

namespace Simple.Geometry

/-- `loop3d.rs:74-89`, `struct Loop3D`. -/
@[ext] structure Loop where
  vertices : List (V3 ℝ)
  normal : V3 ℝ
  closed : Bool
  area : ℝ
  perimeter : ℝ

namespace Loop

/-- `loop3d.rs:212-220`, `new`, and `with_capacity` (368-376). -/
noncomputable def new : Loop := ⟨[], 0, false, -1, -1⟩

/-- `loop3d.rs:321-324`, `reverse`. -/
noncomputable def reverse (l : Loop) : Loop := { l with normal := l.normal.scale (-1), vertices := l.vertices.reverse }

/-- `loop3d.rs:592-594`, `open`. -/
def open_ (l : Loop) : Loop := { l with closed := false }

/-- `loop3d.rs:686-704`, `is_coplanar`. -/
noncomputable def isCoplanar (l : Loop) (p : V3 ℝ) : Outcome Bool :=
  match l.vertices with
  | [] => .err
  | first :: _ =>
    if l.normal.isZero then .err
    else .ok (decide (|l.normal.dot (first - p)| < 1 / 10 ^ 7))

/-- The segments between consecutive points. -/
def consecutive : List (V3 ℝ) → List (Segment ℝ)
  | a :: b :: t => ⟨a, b⟩ :: consecutive (b :: t)
  | _ => []

/-- `loop3d.rs:460-494`, `valid_to_add`.  The segments tested are those from vertex `i` to `i + 1` for `i` below
`n - 2`. -/
noncomputable def validToAdd (l : Loop) (point : V3 ℝ) : Outcome Unit :=
  if l.closed then .err
  else
    (if !l.normal.isZero then
      (l.isCoplanar point).bind fun c => if !c then .err else .ok ()
    else .ok ()).bind fun _ =>
      match l.vertices.getLast? with
      | none => .ok ()
      | some last =>
        if 3 ≤ l.vertices.length then
          if ((consecutive l.vertices).take (l.vertices.length - 2)).any
              (fun s => ((⟨last, point⟩ : Segment ℝ).intersect s).isSome) then .err
          else .ok ()
        else .ok ()

/-- `loop3d.rs:643-672`, `set_normal`: the normal of the first triangle with the first two vertices that is not
flat. -/
noncomputable def setNormal (l : Loop) : Outcome Unit × Loop :=
  if l.normal.lengthSquared > 1 / 10 ^ 15 then (.ok (), l)
  else
    match l.vertices with
    | a :: b :: c :: t =>
      match (c :: t).find? (fun c => decide (((b - a).cross (c - b)).lengthSquared > 1 / 10 ^ 15)) with
      | none => (.ok (), l)
      | some c =>
        match ((b - a).cross (c - b)).normalize with
        | .ok n => (.ok (), { l with normal := n })
        | .err => (.err, l)
        | .panic => (.panic, { l with normal := (b - a).cross (c - b) })
    | _ => (.err, l)

/-- `loop3d.rs:511-525`: whether the point replaces the last one. -/
noncomputable def replacesLast (l : Loop) (point : V3 ℝ) (avoidCollinear : Bool) : Outcome Bool :=
  if 2 ≤ l.vertices.length then
    if avoidCollinear then
      (Outcome.index l.vertices (l.vertices.length - 2)).bind fun a =>
        (Outcome.index l.vertices (l.vertices.length - 1)).bind fun b => a.isCollinear b point
    else .ok false
  else .ok false

/-- `loop3d.rs:498-531`, `push_collinear`. -/
noncomputable def pushCollinear (l : Loop) (point : V3 ℝ) (avoidCollinear : Bool) : Outcome Unit × Loop :=
  match l.validToAdd point with
  | .err => (.err, l)
  | .panic => (.panic, l)
  | .ok () =>
    if (l.vertices.getLast?.map fun last => last.compare point) = some true then (.ok (), l)
    else
      match l.replacesLast point avoidCollinear with
      | .err => (.err, l)
      | .panic => (.panic, l)
      | .ok r =>
        let vertices := if r then l.vertices.dropLast ++ [point] else l.vertices ++ [point]
        let l' := { l with vertices := vertices }
        if 3 ≤ vertices.length then l'.setNormal else (.ok (), l')

/-- `loop3d.rs:543-545`, `push`. -/
noncomputable def push (l : Loop) (point : V3 ℝ) : Outcome Unit × Loop := l.pushCollinear point true

/-- Consecutive pairs around the loop, the last one with the first: the vertices `i` and `(i + 1) % n`. -/
def around : List (V3 ℝ) → List (V3 ℝ × V3 ℝ)
  | [] => []
  | a :: t => (a :: t).zip (t ++ [a])

/-- `loop3d.rs:796-834`, `set_area`. -/
noncomputable def setArea (l : Loop) : Outcome ℝ × Loop :=
  if !l.closed then (.err, l)
  else if l.normal.isZero then (.err, l)
  else if l.vertices.length < 3 then (.err, l)
  else
    let rhs := (around l.vertices).foldl (fun acc p => acc + p.1.cross p.2) 0
    let area := l.normal.dot rhs / 2
    let l' := if area < 0 then { l with normal := l.normal.scale (-1) } else l
    (.ok |area|, { l' with area := |area| })

/-- `loop3d.rs:766-793`, `set_perimeter`. -/
noncomputable def setPerimeter (l : Loop) : Outcome ℝ × Loop :=
  if !l.closed then (.err, l)
  else if l.normal.isZero then (.err, l)
  else if l.vertices.length < 3 then (.err, l)
  else
    let per := (around l.vertices).foldl (fun acc p => acc + (p.1 - p.2).length) 0
    (.ok per, { l with perimeter := per })

/-- `loop3d.rs:605-610`: whether the last vertex is in line with the one before it and the first. -/
noncomputable def lastInLine (l : Loop) : Outcome Bool :=
  (Outcome.index l.vertices (l.vertices.length - 2)).bind fun a =>
    (Outcome.index l.vertices (l.vertices.length - 1)).bind fun b =>
      (Outcome.index l.vertices 0).bind fun c => a.isCollinear b c

/-- `loop3d.rs:619-624`: whether the first vertex is in line with the last and the second. -/
noncomputable def firstInLine (l : Loop) : Outcome Bool :=
  (Outcome.index l.vertices (l.vertices.length - 1)).bind fun a =>
    (Outcome.index l.vertices 0).bind fun b => (Outcome.index l.vertices 1).bind fun c => a.isCollinear b c

/-- `loop3d.rs:629-639`, the end of `close`. -/
noncomputable def finish (l : Loop) : Outcome Unit × Loop :=
  if l.normal.lengthSquared < 1 / 10 ^ 14 then (.err, l)
  else
    match ({ l with closed := true } : Loop).setArea with
    | (.err, l3) => (.err, l3)
    | (.panic, l3) => (.panic, l3)
    | (.ok _, l3) =>
      match l3.setPerimeter with
      | (.err, l4) => (.err, l4)
      | (.panic, l4) => (.panic, l4)
      | (.ok _, l4) => (.ok (), l4)

/-- `loop3d.rs:598-640`, `close`. -/
noncomputable def close (l : Loop) : Outcome Unit × Loop :=
  if l.vertices.length < 3 then (.err, l)
  else
    match l.lastInLine with
    | .err => (.err, l)
    | .panic => (.panic, l)
    | .ok col =>
      let l1 := if col then { l with vertices := l.vertices.dropLast } else l
      match (Outcome.index l1.vertices 0).bind fun v => l1.validToAdd v with
      | .err => (.err, l1)
      | .panic => (.panic, l1)
      | .ok () =>
        match l1.firstInLine with
        | .err => (.err, l1)
        | .panic => (.panic, l1)
        | .ok col2 => (if col2 then { l1 with vertices := l1.vertices.tail } else l1 : Loop).finish

/-- `loop3d.rs:837-843`, `area`. -/
noncomputable def getArea (l : Loop) : Outcome ℝ := if !l.closed then .err else .ok l.area

/-- `loop3d.rs:846-852`, `perimeter`. -/
noncomputable def getPerimeter (l : Loop) : Outcome ℝ := if !l.closed then .err else .ok l.perimeter

/-- `loop3d.rs:855-869`, `centroid`. -/
noncomputable def getCentroid (l : Loop) : Outcome (V3 ℝ) :=
  if !l.closed then .err
  else
    let s := l.vertices.foldl (fun acc v => acc + v) 0
    .ok (s.div l.vertices.length)

/-- `loop3d.rs:384-396`, `bbox`. -/
noncomputable def bbox (l : Loop) : Outcome (BBox ℝ) :=
  match l.vertices with
  | [] => .err
  | first :: t => .ok (t.foldl BBox.fromUnionPoint (BBox.fromPoint first))

/-- `loop3d.rs:422-431`, `sanitize`. -/
noncomputable def sanitize (l : Loop) : Outcome Loop :=
  let rec pushAll (r : Loop) : List (V3 ℝ) → Outcome Loop
    | [] => .ok r
    | v :: t =>
      match r.push v with
      | (.ok (), r') => pushAll r' t
      | (.err, _) => .err
      | (.panic, _) => .panic
  (pushAll new l.vertices).bind fun r =>
    if l.closed && decide (3 ≤ r.vertices.length) then
      match r.close with
      | (.ok (), r') => .ok r'
      | (.err, _) => .err
      | (.panic, _) => .panic
    else .ok r

/-- `loop3d.rs:708-763`, `test_point`. -/
noncomputable def testPoint (l : Loop) (point : V3 ℝ) : Outcome Bool :=
  if !l.closed then .err
  else (l.isCoplanar point).bind fun cop =>
    if !cop then .ok false
    else (Outcome.index l.vertices 0).bind fun v0 => (Outcome.index l.vertices 1).bind fun v1 =>
      let d := (point - (v0 + v1).scale (1 / 2)).scale 1000
      let ray : Segment ℝ := ⟨point, point + d⟩
      -- `none` is the early return of `true`; otherwise the number of crossings
      let rec count (k : Nat) : List (V3 ℝ × V3 ℝ) → Outcome (Option Nat)
        | [] => .ok (some k)
        | (a, b) :: t =>
          let seg : Segment ℝ := ⟨a, b⟩
          (seg.containsPoint point).bind fun c =>
            if c then .ok none
            else
              match seg.getIntersectionPt ray with
              | none => count k t
              | some (ta, tb) =>
                if (0 ≤ tb ∧ tb ≤ 1) ∧ (0 ≤ ta ∧ ta ≤ 1) then
                  if ta < 1 / 2 ^ 52 then
                    count (if (d.cross (b - a)).isSameDirection l.normal then k + 1 else k) t
                  else if ta < 1 then count (k + 1) t
                  else count (if (d.cross (a - b)).isSameDirection l.normal then k + 1 else k) t
                else count k t
      (count 0 (around l.vertices)).bind fun r =>
        match r with
        | none => .ok true
        | some k => .ok (decide (k ≠ 0 ∧ k % 2 ≠ 0))

end Loop

end Simple.Geometry
