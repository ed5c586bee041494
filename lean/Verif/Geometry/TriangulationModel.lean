import Verif.Geometry.PolygonModel
import Verif.Geometry.TriangleModel
import Verif.Act

/-! Model of `/repo/geometry/src/triangulation3d.rs`.  `Float` is `ℝ`.  An edge of a triangle is an `Edge` also where
the code uses the numbers 0, 1 and 2, so the failures for other numbers are not there. -/

namespace Simple.Geometry

/-- `triangulation3d.rs:38-44`, `enum Edge`. -/
inductive Edge where
  | ab | bc | ca
deriving DecidableEq, Repr

/-- `triangulation3d.rs:68-75`, `add`, of one. -/
def Edge.next : Edge → Edge
  | .ab => .bc
  | .bc => .ca
  | .ca => .ab

/-- `triangulation3d.rs:47-56`, `from_i`, for 0, 1 and 2. -/
def Edge.all : List Edge := [.ab, .bc, .ca]

namespace Triangle

variable {K : Type*}

/-- `triangle3d.rs:257-267`, `vertex`. -/
def vertex (t : Triangle K) : Edge → V3 K
  | .ab => t.a
  | .bc => t.b
  | .ca => t.c

/-- `triangle3d.rs:309-319`, `segment`, and `ab`, `bc`, `ca` (322-334). -/
def segment (t : Triangle K) (e : Edge) : Segment K := ⟨t.vertex e, t.vertex e.next⟩

/-- `triangle3d.rs:430-440`, `get_edge_index_from_segment`, and `get_edge_index_from_points` (443-446). -/
def edgeOf [Field K] [LinearOrder K] (t : Triangle K) (s : Segment K) : Option Edge :=
  if s.compare (t.segment .ab) then some .ab
  else if s.compare (t.segment .bc) then some .bc
  else if s.compare (t.segment .ca) then some .ca
  else none

/-- `triangulation3d.rs:449-470`, `get_opposite_vertex`. -/
def opposite [Field K] [LinearOrder K] (t : Triangle K) (s : Segment K) : Outcome (V3 K) :=
  match t.edgeOf s with
  | some e => .ok (t.vertex e.next.next)
  | none => .err

end Triangle

/-- `triangulation3d.rs:77-109`, `struct TriPiece`.  The aspect ratio, the circumcenter and the centroid are functions
of the triangle. -/
structure TriPiece where
  triangle : Triangle ℝ
  n0 : Option ℕ
  n1 : Option ℕ
  n2 : Option ℕ
  c0 : Bool
  c1 : Bool
  c2 : Bool
  valid : Bool
  index : ℕ

namespace TriPiece

/-- `triangulation3d.rs:127-159`, `TriPiece::new`. -/
noncomputable def new (a b c : V3 ℝ) (i : ℕ) : Outcome TriPiece :=
  (Triangle.new a b c).bind fun t => .ok ⟨t, none, none, none, false, false, false, true, i⟩

/-- `triangulation3d.rs:165-171`, `set_neighbour`. -/
def setNeighbour (t : TriPiece) (e : Edge) (i : ℕ) : TriPiece :=
  match e with
  | .ab => { t with n0 := some i }
  | .bc => { t with n1 := some i }
  | .ca => { t with n2 := some i }

/-- `triangulation3d.rs:173-179`, `neighbour`. -/
def neighbour (t : TriPiece) : Edge → Option ℕ
  | .ab => t.n0
  | .bc => t.n1
  | .ca => t.n2

/-- `triangulation3d.rs:181-187`, `constrain`. -/
def constrain (t : TriPiece) (e : Edge) : TriPiece :=
  match e with
  | .ab => { t with c0 := true }
  | .bc => { t with c1 := true }
  | .ca => { t with c2 := true }

/-- `triangulation3d.rs:189-195`, `is_constrained`. -/
def isConstrained (t : TriPiece) : Edge → Bool
  | .ab => t.c0
  | .bc => t.c1
  | .ca => t.c2

end TriPiece

/-- `triangulation3d.rs:113-124`, `struct Triangulation3D`. -/
structure Mesh where
  triangles : List TriPiece
  nValid : ℕ

namespace Mesh

/-- `triangulation3d.rs:277-282`, `new`, and `with_capacity` (285-290). -/
def new : Mesh := ⟨[], 0⟩

/-- `self.triangles[i]`. -/
def piece (i : ℕ) : Act Mesh TriPiece := fun m => (Outcome.index m.triangles i, m)

/-- A change of `self.triangles[i]`, which is known to exist. -/
def update (i : ℕ) (f : TriPiece → TriPiece) : Act Mesh Unit :=
  Act.modify fun m => { m with triangles := m.triangles.modify i f }

/-- `triangulation3d.rs:354-366`, `invalidate`.  The subtraction panics at zero, as it does in debug builds. -/
def invalidate (i : ℕ) : Act Mesh Unit := fun m =>
  if i < m.triangles.length then
    let m' := { m with triangles := m.triangles.modify i fun t => { t with valid := false } }
    if m.nValid = 0 then (.panic, m') else (.ok (), { m' with nValid := m.nValid - 1 })
  else (.err, m)

/-- `triangulation3d.rs:368-378`, `get_first_invalid`. -/
def firstInvalid (m : Mesh) (start : ℕ) : Option ℕ :=
  (m.triangles.zipIdx.find? fun t => decide (start ≤ t.2) && !t.1.valid).map Prod.snd

/-- `triangulation3d.rs:381-411`, `mark_as_neighbours`. -/
noncomputable def markAsNeighbours (i1 : ℕ) (e1 : Edge) (i2 : ℕ) : Act Mesh Unit :=
  if i1 = i2 then Act.err
  else do
    let t1 ← piece i1
    if !t1.valid then Act.err
    else
      let t2 ← piece i2
      if !t2.valid then Act.err
      else
        match t2.triangle.edgeOf (t1.triangle.segment e1) with
        | none => Act.err
        | some e2 => do
          update i1 fun t => t.setNeighbour e1 i2
          update i2 fun t => t.setNeighbour e2 i1

/-- `triangulation3d.rs:430-443`: the new piece takes the place `n`, or is added at the end. -/
def place (m : Mesh) (t : TriPiece) (n : ℕ) : Mesh :=
  ⟨if n < m.triangles.length then m.triangles.set n t else m.triangles ++ [t], m.nValid + 1⟩

/-- `triangulation3d.rs:414-446`, `push`. -/
noncomputable def push (a b c : V3 ℝ) (lastAdded : ℕ) : Act Mesh ℕ := fun m =>
  let n := (m.firstInvalid lastAdded).getD m.triangles.length
  match TriPiece.new a b c n with
  | .ok t => (.ok n, m.place t n)
  | .err => (.err, m)
  | .panic => (.panic, m)

/-- `triangulation3d.rs:528-674`, `flip_diagonal`. -/
noncomputable def flipDiagonal (index : ℕ) (edge : Edge) : Act Mesh Unit := do
  let t ← piece index
  if !t.valid then Act.err
  else
    match t.neighbour edge with
    | none => Act.err
    | some ni => do
      let n ← piece ni
      if !n.valid then Act.err
      else
        let a := t.triangle.vertex edge
        let b := t.triangle.vertex edge.next
        let c := t.triangle.vertex edge.next.next
        let o ← Act.lift (n.triangle.opposite ⟨a, b⟩)
        match t.triangle.edgeOf ⟨a, c⟩, t.triangle.edgeOf ⟨c, b⟩, n.triangle.edgeOf ⟨b, o⟩, n.triangle.edgeOf ⟨a, o⟩ with
        | some ac, some cb, some bo, some ao => do
          invalidate index
          invalidate ni
          let aoc ← push a o c index
          let cob ← push c o b ni
          Act.whenSome (n.neighbour ao) fun i => markAsNeighbours index .ab i
          Act.when (n.isConstrained ao) (update aoc fun t => t.constrain .ab)
          markAsNeighbours aoc .bc cob
          Act.whenSome (t.neighbour ac) fun i => markAsNeighbours index .ca i
          Act.when (t.isConstrained ac) (update aoc fun t => t.constrain .ca)
          Act.whenSome (n.neighbour bo) fun i => markAsNeighbours cob .bc i
          Act.when (n.isConstrained bo) (update cob fun t => t.constrain .bc)
          Act.whenSome (t.neighbour cb) fun i => markAsNeighbours cob .ca i
          Act.when (t.isConstrained cb) (update cob fun t => t.constrain .ca)
        | _, _, _, _ => Act.err

/-- `triangulation3d.rs:709-790`, the closure within `split_edge`.  The lookup of the edge is done twice in the
code, the second time for the segment found in the first. -/
noncomputable def hemisphere (s : Segment ℝ) (p : V3 ℝ) (index : ℕ) : Act Mesh (ℕ × ℕ) := do
  let t ← piece index
  match t.triangle.edgeOf s with
  | none => Act.err
  | some e0 => do
    let ab := t.triangle.segment e0
    match t.triangle.edgeOf ab with
    | none => Act.err
    | some e => do
      let c ← Act.lift (t.triangle.opposite ab)
      invalidate index
      let apc ← push ab.start p c index
      let pbc ← push p ab.fin c 0
      Act.when (t.isConstrained e) (update apc fun t => t.constrain .ab)
      markAsNeighbours apc .bc pbc
      Act.whenSome (t.neighbour e.next.next) fun i => markAsNeighbours apc .ca i
      Act.when (t.isConstrained e.next.next) (update apc fun t => t.constrain .ca)
      Act.when (t.isConstrained e) (update pbc fun t => t.constrain .ab)
      Act.whenSome (t.neighbour e.next) fun i => markAsNeighbours pbc .bc i
      Act.when (t.isConstrained e.next) (update pbc fun t => t.constrain .bc)
      pure (apc, pbc)

/-- `triangulation3d.rs:678-810`, `split_edge`. -/
noncomputable def splitEdge (index : ℕ) (edge : Edge) (p : V3 ℝ) : Act Mesh Unit := do
  let t ← piece index
  if !t.valid then Act.err
  else
    let s := t.triangle.segment edge
    let top ← hemisphere s p index
    Act.whenSome (t.neighbour edge) fun ni => do
      let bottom ← hemisphere s p ni
      markAsNeighbours top.1 .ab bottom.2
      markAsNeighbours top.2 .ab bottom.1

/-- `triangulation3d.rs:814-901`, `split_triangle`. -/
noncomputable def splitTriangle (i : ℕ) (p : V3 ℝ) : Act Mesh Unit := do
  let t ← piece i
  if !t.valid then Act.err
  else
    let a := t.triangle.a
    let b := t.triangle.b
    let c := t.triangle.c
    match t.triangle.edgeOf ⟨a, b⟩, t.triangle.edgeOf ⟨b, c⟩, t.triangle.edgeOf ⟨c, a⟩ with
    | some ab, some bc, some ca => do
      invalidate i
      let cap ← push c a p 0
      let abp ← push a b p 0
      let bcp ← push b c p 0
      markAsNeighbours cap .bc abp
      markAsNeighbours abp .bc bcp
      markAsNeighbours bcp .bc cap
      Act.when (t.isConstrained ca) (update cap fun t => t.constrain .ab)
      Act.whenSome (t.neighbour ca) fun i => markAsNeighbours cap .ab i
      Act.when (t.isConstrained ab) (update abp fun t => t.constrain .ab)
      Act.whenSome (t.neighbour ab) fun i => markAsNeighbours abp .ab i
      Act.when (t.isConstrained bc) (update bcp fun t => t.constrain .ab)
      Act.whenSome (t.neighbour bc) fun i => markAsNeighbours bcp .ab i
    | _, _, _ => Act.err

/-- `triangulation3d.rs:1100-1150`, `is_convex`. -/
noncomputable def isConvex (a b c d : V3 ℝ) : Bool :=
  let abc := (b - a).cross (c - b)
  let bcd := (c - b).cross (d - c)
  let cda := (d - c).cross (a - d)
  let dab := (a - d).cross (b - a)
  !abc.isZero && (!bcd.isZero && abc.isSameDirection bcd) && (!cda.isZero && abc.isSameDirection cda) &&
    (!dab.isZero && abc.isSameDirection dab)

/-- `triangulation3d.rs:474-526`, `get_flipped_aspect_ratio`. -/
noncomputable def flippedAspectRatio (index : ℕ) (edge : Edge) : Act Mesh (Option ℝ) := do
  let t ← piece index
  if !t.valid then Act.err
  else if t.isConstrained edge then pure none
  else
    match t.neighbour edge with
    | none => pure none
    | some ni => do
      let n ← piece ni
      if !n.valid then Act.err
      else if n.index = t.index then Act.err
      else
        let a := t.triangle.vertex edge
        let b := t.triangle.vertex edge.next
        let c := t.triangle.vertex edge.next.next
        let o ← Act.lift (n.triangle.opposite ⟨a, b⟩)
        if !isConvex a o b c then pure none
        else
          let f1 ← Act.lift (TriPiece.new a o c 0)
          let f2 ← Act.lift (TriPiece.new o b c 0)
          if f1.triangle.aspectRatio > f2.triangle.aspectRatio then pure (some f1.triangle.aspectRatio)
          else pure (some f2.triangle.aspectRatio)

/-- `triangulation3d.rs:937-951`: the edge whose flip gives the best aspect ratio.  The state is the edge and its
ratio; all ratios are below `Float::MAX`, the initial value (`none`). -/
noncomputable def bestFlip (i : ℕ) (current : ℝ) : List Edge → Option (Edge × ℝ) → Act Mesh (Option (Edge × ℝ))
  | [], best => pure best
  | e :: es, best => do
    match ← flippedAspectRatio i e with
    | none => bestFlip i current es best
    | some ar =>
      if current > ar ∧ (∀ b ∈ best, b.2 > ar) then bestFlip i current es (some (e, ar))
      else bestFlip i current es best

/-- `triangulation3d.rs:921-959`: one round over the triangles; whether anything changed. -/
noncomputable def delaunayRound (maxAspectRatio : ℝ) : List ℕ → Bool → Act Mesh Bool
  | [], changed => pure changed
  | i :: is, changed => do
    let t ← piece i
    if !t.valid then delaunayRound maxAspectRatio is changed
    else if t.triangle.aspectRatio < maxAspectRatio then delaunayRound maxAspectRatio is changed
    else
      match ← bestFlip i t.triangle.aspectRatio Edge.all none with
      | none => delaunayRound maxAspectRatio is changed
      | some best => do
        flipDiagonal i best.1
        delaunayRound maxAspectRatio is true

/-- `triangulation3d.rs:914-960`: at most `k` rounds. -/
noncomputable def delaunayRounds (maxAspectRatio : ℝ) (n : ℕ) : ℕ → Act Mesh Unit
  | 0 => pure ()
  | k + 1 => do
    if ← delaunayRound maxAspectRatio (List.range n) false then delaunayRounds maxAspectRatio n k else pure ()

/-- `triangulation3d.rs:906-963`, `restore_delaunay`. -/
noncomputable def restoreDelaunay (maxAspectRatio : ℝ) : Act Mesh Unit := do
  let m ← Act.get
  delaunayRounds maxAspectRatio m.triangles.length 30

/-- `triangulation3d.rs:967-1000`, `add_point_to_triangle`. -/
noncomputable def addPointToTriangle (index : ℕ) (p : V3 ℝ) (location : PointInTriangle) : Act Mesh Bool := do
  let t ← piece index
  if !t.valid then Act.err
  else
    match location with
    | .vertexA | .vertexB | .vertexC => pure false
    | .edgeAB => do splitEdge index .ab p; pure true
    | .edgeBC => do splitEdge index .bc p; pure true
    | .edgeAC => do splitEdge index .ca p; pure true
    | .inside => do splitTriangle index p; pure true
    | .outside => Act.panic

/-- `triangulation3d.rs:1008-1018`: the first valid triangle that the point is not outside of. -/
noncomputable def locate (m : Mesh) (p : V3 ℝ) : Option ℕ :=
  (m.triangles.zipIdx.find? fun t => t.1.valid && decide (t.1.triangle.testPoint p ≠ .outside)).map Prod.snd

/-- `triangulation3d.rs:1005-1024`, `add_point`. -/
noncomputable def addPoint (p : V3 ℝ) : Act Mesh Bool := do
  let m ← Act.get
  match m.locate p with
  | none => Act.err
  | some i => do
    let t ← piece i
    addPointToTriangle i p (t.triangle.testPoint p)

/-- `triangulation3d.rs:1045-1060`: the longest edge. -/
noncomputable def longestEdge (t : Triangle ℝ) : Edge :=
  let len := fun e => (t.segment e).start.distance (t.segment e).fin
  let e := if len .ab < len .bc then .bc else .ab
  if len e < len .ca then .ca else e

/-- `match self.add_point(..)`: the outcome as a value; a panic goes on. -/
def attempt {α : Type} (f : Act Mesh α) : Act Mesh (Option α) := fun m =>
  match f m with
  | (.ok a, m') => (.ok (some a), m')
  | (.err, m') => (.ok none, m')
  | (.panic, m') => (.panic, m')

/-- `triangulation3d.rs:1069-1090`: the circumcenter is added, or else the centroid. -/
noncomputable def refineArea (maxAspectRatio : ℝ) (i : ℕ) : Act Mesh Bool := do
  let t ← piece i
  match ← attempt (addPoint t.triangle.circumcenter) with
  | some true => do restoreDelaunay maxAspectRatio; pure true
  | some false => pure false
  | none => do
    let t ← piece i
    if ← addPointToTriangle i t.triangle.centroid .inside then
      restoreDelaunay maxAspectRatio
      pure true
    else pure false

/-- `triangulation3d.rs:1033-1091`: what is done with the triangle `i`; whether anything changed. -/
noncomputable def refineOne (maxArea maxAspectRatio : ℝ) (i : ℕ) : Act Mesh Bool := do
  let t ← piece i
  if !t.valid then Act.panic
  else if t.triangle.area < 1 / 1000 then pure false
  else if t.triangle.aspectRatio > maxAspectRatio then do
    let e := longestEdge t.triangle
    splitEdge i e (t.triangle.segment e).midpoint
    restoreDelaunay maxAspectRatio
    pure true
  else if t.triangle.area > maxArea then refineArea maxAspectRatio i
  else pure false

/-- `triangulation3d.rs:1032-1091`: one round over the triangles. -/
noncomputable def refineRound (maxArea maxAspectRatio : ℝ) : List ℕ → Bool → Act Mesh Bool
  | [], changed => pure changed
  | i :: is, changed => do
    let c ← refineOne maxArea maxAspectRatio i
    refineRound maxArea maxAspectRatio is (changed || c)

/-- `triangulation3d.rs:1028-1097`, `refine`.  The code calls itself as long as anything changes, without a bound; here
at most `k` rounds are made, and `none` says that they were not enough. -/
noncomputable def refine (maxArea maxAspectRatio : ℝ) : ℕ → Act Mesh (Option Unit)
  | 0 => pure none
  | k + 1 => do
    let m ← Act.get
    if ← refineRound maxArea maxAspectRatio (List.range m.triangles.length) false then refine maxArea maxAspectRatio k
    else pure (some ())

/-- `triangulation3d.rs:322-341`: the first edge of the triangle that the other one has too. -/
noncomputable def sharedEdge (t other : TriPiece) : Option Edge :=
  Edge.all.find? fun e => (other.triangle.edgeOf (t.triangle.segment e)).isSome

/-- `triangulation3d.rs:325-339`: the pair `this_i`, `other_i`. -/
noncomputable def markPair (p : ℕ × ℕ) : Act Mesh Unit := do
  let t ← piece p.1
  let other ← piece p.2
  match sharedEdge t other with
  | none => pure ()
  | some e => markAsNeighbours p.1 e p.2

/-- The pairs `this_i < other_i` in the order of the loops. -/
def pairs (n : ℕ) : List (ℕ × ℕ) := (List.range n).flatMap fun i => (List.range (n - (i + 1))).map fun k => (i, i + 1 + k)

/-- `triangulation3d.rs:322-341`, `mark_neighbourhouds`. -/
noncomputable def markNeighbourhoods : Act Mesh Unit := do
  let m ← Act.get
  Act.each markPair (pairs m.triangles.length)

end Mesh

namespace Loop

/-- `loop3d.rs:568-581`: whether the segment crosses, contains or is one of the sides. -/
noncomputable def touchesSide (s : Segment ℝ) (side : Segment ℝ) : Outcome Bool :=
  let differentLength := decide (|s.start.distance s.fin - side.start.distance side.fin| > 1 / 10 ^ 7)
  (s.contains side).bind fun c =>
    .ok ((s.intersect side).isSome || (c && differentLength) || s.compare side)

/-- `loop3d.rs:565-582`: none of the sides. -/
noncomputable def clearOf (s : Segment ℝ) : List (V3 ℝ × V3 ℝ) → Outcome Bool
  | [] => .ok true
  | e :: es => (touchesSide s ⟨e.1, e.2⟩).bind fun b => if b then .ok false else clearOf s es

/-- `loop3d.rs:559-589`, `is_diagonal`.  The first side is tested once more at the end (`0..=n`), which changes
nothing. -/
noncomputable def isDiagonal (l : Loop) (s : Segment ℝ) : Outcome Bool :=
  if s.start.distance s.fin < 1 / 100000 then .ok false
  else (clearOf s (around l.vertices)).bind fun clear =>
    if !clear then .ok false
    else l.testPoint s.midpoint

/-- `loop3d.rs:449-451`, `remove`, of a vertex that exists. -/
def remove (l : Loop) (i : ℕ) : Loop := { l with vertices := l.vertices.eraseIdx i }

end Loop

namespace Mesh

/-- `triangulation3d.rs:239-251`: the edges that belong to the polygon are constrained. -/
noncomputable def constrainEdges (poly : Polygon) (i : ℕ) (v0 v1 v2 : V3 ℝ) : Act Mesh Unit := do
  Act.when (poly.containsSegment ⟨v0, v1⟩) (update i fun t => t.constrain .ab)
  Act.when (poly.containsSegment ⟨v1, v2⟩) (update i fun t => t.constrain .bc)
  Act.when (poly.containsSegment ⟨v2, v0⟩) (update i fun t => t.constrain .ca)

/-- `triangulation3d.rs:228-234`: whether the corner after `anchor` is cut off. -/
noncomputable def isEar (l : Loop) (v0 v1 v2 : V3 ℝ) : Outcome Bool :=
  (v0.isCollinear v1 v2).bind fun line => (l.isDiagonal ⟨v0, v2⟩).bind fun diag =>
    .ok (decide (l.vertices.length = 3) || (!line && diag))

/-- `triangulation3d.rs:207-264`, the loop of `try_from`.  `k` is the number of iterations that are left. -/
noncomputable def clip (poly : Polygon) : (k : ℕ) → (l : Loop) → (anchor : ℕ) → Act Mesh Unit
  | 0, _, _ => Act.err
  | k + 1, l, anchor => do
    let m ← Act.get
    let n := l.vertices.length
    if n = 2 then markNeighbourhoods
    else
      let v0 ← Act.lift (Outcome.index l.vertices (anchor % n))
      let v1 ← Act.lift (Outcome.index l.vertices ((anchor + 1) % n))
      let v2 ← Act.lift (Outcome.index l.vertices ((anchor + 2) % n))
      if ← Act.lift (isEar l v0 v1 v2) then
        let _ ← push v0 v1 v2 m.triangles.length
        constrainEdges poly m.triangles.length v0 v1 v2
        clip poly k (l.remove ((anchor + 1) % n)) anchor
      else clip poly k l (anchor + 1)

/-- `triangulation3d.rs:207-264`, `try_from`.  At most 220 iterations are made. -/
noncomputable def ofPolygon (poly : Polygon) : Outcome Mesh :=
  poly.getClosedLoop.bind fun l =>
    match l.close with
    | (.ok (), l') =>
      match clip poly 220 l' 0 new with
      | (.ok (), m) => .ok m
      | (.err, _) => .err
      | (.panic, _) => .panic
    | (.err, _) => .err
    | (.panic, _) => .panic

/-- `triangulation3d.rs:310-318`, `mesh_polygon`, with at most `k` rounds of refinement. -/
noncomputable def meshPolygon (k : ℕ) (poly : Polygon) (maxArea maxAspectRatio : ℝ) : Outcome (Option Mesh) :=
  (ofPolygon poly).bind fun m =>
    match refine maxArea maxAspectRatio k m with
    | (.ok (some ()), m') => .ok (some m')
    | (.ok none, _) => .ok none
    | (.err, _) => .err
    | (.panic, _) => .panic

end Mesh

end Simple.Geometry
