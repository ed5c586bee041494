import Verif.Geometry.LoopModel

/-! Model of `/repo/geometry/src/polygon3d.rs`.  `Float` is `ℝ`.  The methods that lend a mutable reference to one of
the loops (`mut_outer`, `mut_inner`) are not modelled. -/

namespace Simple.Geometry

/-- `polygon3d.rs:34-47`, `struct Polygon3D`. -/
@[ext] structure Polygon where
  outer : Loop
  inner : List Loop
  area : ℝ
  normal : V3 ℝ

namespace Polygon

/-- `polygon3d.rs:95-109`, `new`. -/
noncomputable def new (outer : Loop) : Outcome Polygon :=
  if !outer.closed then .err
  else outer.getArea.bind fun area => .ok ⟨outer, [], area, outer.normal⟩

/-- `polygon3d.rs:115-121`, `reverse`. -/
noncomputable def reverse (p : Polygon) : Polygon :=
  { p with outer := p.outer.reverse, inner := p.inner.map Loop.reverse, normal := p.outer.reverse.normal }

/-- `polygon3d.rs:191-205`: whether the point is in one of the holes, up to the first that has it. -/
noncomputable def inSome (point : V3 ℝ) : List Loop → Outcome Bool
  | [] => .ok false
  | l :: t => (l.testPoint point).bind fun isIn => if isIn then .ok true else inSome point t

/-- `polygon3d.rs:184-208`, `test_point`. -/
noncomputable def testPoint (p : Polygon) (point : V3 ℝ) : Outcome Bool :=
  (p.outer.testPoint point).bind fun isIn =>
    if !isIn then .ok false
    else (inSome point p.inner).bind fun b => if b then .ok false else .ok true

/-- `polygon3d.rs:220-226`: all the points of the hole are inside the polygon. -/
noncomputable def allInside (p : Polygon) : List (V3 ℝ) → Outcome Unit
  | [] => .ok ()
  | v :: t => (p.testPoint v).bind fun b => if !b then .err else p.allInside t

/-- `polygon3d.rs:233-239`: none of the points is inside the hole. -/
noncomputable def noneInside (hole : Loop) : List (V3 ℝ) → Outcome Unit
  | [] => .ok ()
  | v :: t => (hole.testPoint v).bind fun b => if b then .err else noneInside hole t

/-- `polygon3d.rs:229-240`: the same for all the holes that are there. -/
noncomputable def noneContained (hole : Loop) : List Loop → Outcome Unit
  | [] => .ok ()
  | l :: t => (noneInside hole l.vertices).bind fun _ => noneContained hole t

/-- `polygon3d.rs:211-243`: the checks of `cut_hole`; gives the area of the hole. -/
noncomputable def checkHole (p : Polygon) (hole : Loop) : Outcome ℝ :=
  if !p.normal.isParallel hole.normal then .err
  else (p.allInside hole.vertices).bind fun _ => (noneContained hole p.inner).bind fun _ => hole.getArea

/-- `polygon3d.rs:211-252`, `cut_hole`. -/
noncomputable def cutHole (p : Polygon) (hole : Loop) : Outcome Unit × Polygon :=
  match p.checkHole hole with
  | .err => (.err, p)
  | .panic => (.panic, p)
  | .ok a => (.ok (), { p with area := p.area - a, inner := p.inner ++ [hole] })

/-- `polygon3d.rs:345-351`: the index of the `j`-th vertex of the hole to add, starting at `id`.  The difference is an
`i32` that is cast to `usize`, which makes it `2^64` larger if it is negative.  Numbers of vertices of `2^31` or more,
which do not fit in an `i32`, are not modelled. -/
def bridgeIndex (same : Bool) (id j n : ℕ) : ℕ :=
  ((if same then (id : ℤ) - j else (id : ℤ) + j) % 2 ^ 64).toNat % n

/-- `polygon3d.rs:344-360`: the vertices of a hole in the order in which they are added. -/
def walk {α : Type*} (same : Bool) (id : ℕ) (l : List α) : Outcome (List α) :=
  if l.length = 0 then
    -- the remainder by zero
    .panic
  else
    (List.range (l.length + 1)).foldr
      (fun j acc => (Outcome.index l (bridgeIndex same id j l.length)).bind fun v => acc.bind fun t => .ok (v :: t))
      (.ok [])

/-- `polygon3d.rs:282-292`: what the search for the closest vertices finds. -/
structure Nearest (K : Type*) where
  dist : Option K
  /-- `min_ext_vertex_id` -/
  ext : ℕ
  /-- `min_inner_loop_id` -/
  hole : ℕ
  /-- `inner_loop_id`, which is kept from one hole to the next -/
  lastHole : ℕ
  /-- `inner_vertex_id`, which is kept from one hole to the next -/
  vertex : ℕ

/-- `polygon3d.rs:295-323`: the squared distance, the exterior vertex, the hole and its vertex, in the order in which
they are visited. -/
def candidates {K : Type*} [Field K] (ext : List (V3 K)) (inner : List (List (V3 K))) (processed : List ℕ) :
    List (K × ℕ × ℕ × ℕ) :=
  ext.zipIdx.flatMap fun e => (inner.zipIdx.filter fun k => !processed.contains k.2).flatMap fun k =>
    k.1.zipIdx.map fun v => (e.1.squaredDistance v.1, e.2, k.2, v.2)

/-- `polygon3d.rs:309-320`.  All distances are below `Float::MAX`, the initial value (`none`). -/
def Nearest.visit {K : Type*} [LinearOrder K] (s : Nearest K) (c : K × ℕ × ℕ × ℕ) : Nearest K :=
  match s.dist with
  | some m => if c.1 < m then ⟨some c.1, c.2.1, c.2.2.1, c.2.2.1, c.2.2.2⟩ else s
  | none => ⟨some c.1, c.2.1, c.2.2.1, c.2.2.1, c.2.2.2⟩

/-- Adding points one by one, with `unwrap`. -/
noncomputable def pushAll (l : Loop) : List (V3 ℝ) → Outcome Loop
  | [] => .ok l
  | v :: t =>
    match l.pushCollinear v false with
    | (.ok (), l') => pushAll l' t
    | _ => .panic

/-- `polygon3d.rs:327-365`: the vertices that are added to the new loop when the hole is joined. -/
def joined {α : Type*} (ext : List α) (at_ : ℕ) (hole : List α) : List α :=
  ext.zipIdx.flatMap fun e => if e.2 = at_ then e.1 :: (hole ++ [e.1]) else [e.1]

/-- `polygon3d.rs:286-371`: the holes, one by one.  `k` is the number of holes that are left. -/
noncomputable def joinAll (p : Polygon) : (k : ℕ) → (ret : Loop) → (processed : List ℕ) → (lastHole vertex : ℕ) → Outcome Loop
  | 0, ret, _, _, _ => .ok ret
  | k + 1, ret, processed, lastHole, vertex =>
    let s := (candidates ret.vertices (p.inner.map Loop.vertices) processed).foldl Nearest.visit ⟨none, 0, 0, lastHole, vertex⟩
    (Outcome.index p.inner s.hole).bind fun hole =>
      (walk (p.outer.normal.isSameDirection hole.normal) s.vertex hole.vertices).bind fun w =>
        (pushAll Loop.new (joined ret.vertices s.ext w)).bind fun aux =>
          joinAll p k aux (processed ++ [s.lastHole]) s.lastHole s.vertex

/-- `polygon3d.rs:268-373`, `get_closed_loop`.  With an empty loop the hole is not read; this makes no difference for
loops that have been closed. -/
noncomputable def getClosedLoop (p : Polygon) : Outcome Loop := p.joinAll p.inner.length p.outer.open_ [] 0 0

end Polygon

namespace Loop

/-- `loop3d.rs:877-887`, `contains_segment`. -/
noncomputable def containsSegment (l : Loop) (s : Segment ℝ) : Bool :=
  (around l.vertices).any fun e => (⟨e.1, e.2⟩ : Segment ℝ).compare s

end Loop

namespace Polygon

/-- `polygon3d.rs:377-387`, `contains_segment`. -/
noncomputable def containsSegment (p : Polygon) (s : Segment ℝ) : Bool :=
  p.outer.containsSegment s || p.inner.any fun l => l.containsSegment s

end Polygon

end Simple.Geometry
