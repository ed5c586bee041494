import Verif.Geometry.PolygonModel

/-! Model of the functions of `/repo/geometry/src/loop3d.rs` that compare loops and that move their vertices, and of
those of `/repo/geometry/src/polygon3d.rs` that call them.  `Float` is `ℝ`. -/

namespace Simple.Geometry

namespace Loop

/-- `loop3d.rs:277-288`: the vertices one by one, against those of the other loop from `i` on. -/
noncomputable def matches_ (other : List (V3 ℝ)) (eps : ℝ) (reversed : Bool) (n : ℕ) : ℕ → List (V3 ℝ) → Outcome Bool
  | _, [] => .ok true
  | i, v :: t =>
    (Outcome.index other i).bind fun w =>
      if !v.compareBy w eps then .ok false
      else matches_ other eps reversed n (if reversed then (i + n - 1) % n else (i + 1) % n) t

/-- `loop3d.rs:251-291`, `is_equal`. -/
noncomputable def isEqual (l other : Loop) (eps : ℝ) : Outcome Bool :=
  if !l.closed || !other.closed then .err
  else if l.vertices.length ≠ other.vertices.length ∨ |l.area - other.area| > 1 / 1000 then .ok false
  else
    match l.vertices with
    -- then the other loop has no vertices either
    | [] => .ok false
    | first :: _ =>
      match other.vertices.findIdx? fun p => p.compareBy first eps with
      | none => .ok false
      | some anchor =>
        matches_ other.vertices eps (decide (l.normal.dot other.normal < 0)) l.vertices.length anchor l.vertices

/-- `loop3d.rs:991`, 996-999: a vertex after all the points, and how often it moved. -/
noncomputable def snapVertex (d2 : ℝ) (points : List (V3 ℝ)) (p : V3 ℝ) : V3 ℝ × ℕ :=
  points.foldl (fun s q => if s.1.squaredDistance q ≤ d2 then (q, s.2 + 1) else s) (p, 0)

/-- `loop3d.rs:990-1008`, `snap`. -/
noncomputable def snap (l : Loop) (points : List (V3 ℝ)) (distance : ℝ) : Option ℕ × Loop :=
  let moved := l.vertices.map (snapVertex (distance ^ 2) points)
  let count := (moved.map Prod.snd).sum
  (if count = 0 then none else some count, { l with vertices := moved.map Prod.fst })

/-- `loop3d.rs:915-941`, `project_into_plane`. -/
noncomputable def projectIntoPlane (l other : Loop) : Outcome Unit × Loop :=
  if l.vertices = [] then (.err, l)
  else
    match other.vertices with
    | [] => (.err, l)
    | anchor :: _ =>
      if !l.closed then (.err, l)
      else if !other.closed then (.err, l)
      else (.ok (), { l with
        vertices := l.vertices.map fun p => p.projectIntoPlane anchor other.normal
        normal := if l.normal.dot other.normal > 0 then other.normal else -other.normal })

/-- `loop3d.rs:947-981`, `normal_distance`. -/
noncomputable def normalDistance (l other : Loop) : Outcome ℝ :=
  match l.vertices, other.vertices with
  | [], _ => .err
  | _, [] => .err
  | p :: _, anchor :: _ =>
    if !l.closed then .err
    else if !other.closed then .err
    else if !l.normal.isParallel other.normal then .err
    else .ok (p.distanceToPlane anchor l.normal)

/-- `loop3d.rs:891-893`, `contains_vertex`. -/
noncomputable def containsVertex (l : Loop) (v : V3 ℝ) (eps : ℝ) : Bool := l.vertices.any fun p => p.compareBy v eps

/-- `loop3d.rs:1425-1436`, `segments`. -/
def segments (l : Loop) : List (Segment ℝ) := (around l.vertices).map fun p => ⟨p.1, p.2⟩

/-- `loop3d.rs:899-910`, `containing_segment`. -/
noncomputable def containingSegment (l : Loop) (point : V3 ℝ) : Option ℕ :=
  l.segments.findIdx? fun s => s.containsPoint point matches .ok true

end Loop

namespace Polygon

/-- `polygon3d.rs:395-397`: the holes one by one, up to the first that fails. -/
noncomputable def projectAll (other : Loop) : List Loop → Outcome Unit × List Loop
  | [] => (.ok (), [])
  | l :: t =>
    match l.projectIntoPlane other with
    | (.ok (), l') => let r := projectAll other t; (r.1, l' :: r.2)
    | (o, l') => (o, l' :: t)

/-- `polygon3d.rs:392-401`, `project_into_plane`. -/
noncomputable def projectIntoPlane (p : Polygon) (other : Loop) : Outcome Unit × Polygon :=
  match p.outer.projectIntoPlane other with
  | (.ok (), outer) =>
    let r := projectAll other p.inner
    (r.1, { p with outer := outer, inner := r.2 })
  | (o, outer) => (o, { p with outer := outer })

/-- `polygon3d.rs:409-427`, `snap`. -/
noncomputable def snap (p : Polygon) (points : List (V3 ℝ)) (distance : ℝ) : Option ℕ × Polygon :=
  let outer := p.outer.snap points distance
  let inner := p.inner.map fun l => l.snap points distance
  let count := outer.1.getD 0 + (inner.map fun r => r.1.getD 0).sum
  (if count = 0 then none else some count, { p with outer := outer.2, inner := inner.map Prod.snd })

end Polygon

end Simple.Geometry
