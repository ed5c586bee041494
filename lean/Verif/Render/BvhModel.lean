import Mathlib.Data.Rat.Floor
import Verif.Geometry.TriangleModel

/-! Model of `/repo/rendering/src/bvh.rs`, of `/repo/rendering/src/triangle/fallback.rs` and of the parts of
`/repo/rendering/src/scene.rs` that use them.  `Float` is `ℚ`, and `XF` where a division by zero is possible.
A slice `primitives_info[start..end]` that is reordered in place is a list of its own, as the two halves of it are never
looked at together again. -/

namespace Simple.Render

open Geometry

/-- `scene.rs:46-80`, `struct Scene`: the vectors that hold something for each triangle. -/
structure Scene where
  triangles : List (Triangle ℚ)
  normals : List (V3 ℚ × V3 ℚ × V3 ℚ)
  frontMaterials : List ℕ
  backMaterials : List ℕ
deriving DecidableEq, Repr

namespace Bvh

/-- `bvh.rs:65-69`, `struct ObjectInfo`. -/
structure Info where
  index : ℕ
  bounds : BBox ℚ
  centroid : V3 ℚ

/-- `triangle/mod.rs:104-113`, `world_bounds`. -/
def worldBounds (t : Triangle ℚ) : BBox ℚ :=
  BBox.fromUnionPoint (BBox.fromUnionPoint (BBox.fromPoint t.a) t.b) t.c

/-- `bvh.rs:72-80`, `ObjectInfo::new`. -/
def Info.new (t : Triangle ℚ) (index : ℕ) : Info :=
  ⟨index, worldBounds t, ((worldBounds t).max + (worldBounds t).min).scale (1 / 2)⟩

/-- The component of a vector along an axis: the `match split_axis` of `get_bucket_index` and of `recursive_build`. -/
def along (a : Axis) (v : V3 ℚ) : ℚ :=
  match a with
  | .x => v.x
  | .y => v.y
  | .z => v.z

/-- What the standard library's `select_nth_unstable_by` and `sort_unstable_by` leave of a slice that is compared by the
component of the centroids along an axis.  Only what their documentation says is known of them: the order of elements
that compare equal is not. -/
structure Sorting where
  select : ℕ → Axis → List Info → List Info
  select_perm : ∀ k a l, (select k a l).Perm l
  select_mid : ∀ k a l, k < l.length → ∀ x ∈ (select k a l).take k, ∀ y ∈ (select k a l).drop k,
    along a x.centroid ≤ along a y.centroid
  sort : Axis → List Info → List Info
  sort_perm : ∀ a l, (sort a l).Perm l
  sort_sorted : ∀ a l, (sort a l).Pairwise fun x y => along a x.centroid ≤ along a y.centroid

/-- `bvh.rs:231-233`: `N_BUCKETS` is 12, `RELATIVE_TRANSVERSAL_COST` 10 and `TOO_FEW_TO_BUCKET` 4. -/
def nBuckets : ℕ := 12

/-- `triangle/mod.rs:10`, `LEAF_SIZE`. -/
def leafSize : ℕ := 24

/-- `Float::MAX`. -/
def floatMax : ℚ := (2 ^ 53 - 1) * 2 ^ 971

/-- `bvh.rs:54`: the number of the bucket before it is limited. -/
def rawBucket (c : V3 ℚ) (len : ℚ) (a : Axis) (min : V3 ℚ) : ℕ :=
  ⌊(along a c - along a min) * nBuckets / len⌋.toNat

/-- `bvh.rs:41-62`, `get_bucket_index`.  (The assertion on debug builds is `C52_bucket`.) -/
def bucketIndex (c : V3 ℚ) (len : ℚ) (a : Axis) (min : V3 ℚ) : ℕ :=
  if nBuckets ≤ rawBucket c len a min then nBuckets - 1 else rawBucket c len a min

/-- `bvh.rs:36-39`, `struct BucketInfo`. -/
structure Bucket where
  count : ℕ
  bounds : Option (BBox ℚ)

/-- `bvh.rs:281-291`: one more centroid in the bucket. -/
def Bucket.register (b : Bucket) (c : V3 ℚ) : Bucket :=
  ⟨b.count + 1, match b.bounds with
    | some x => some (BBox.fromUnionPoint x c)
    | none => some (BBox.fromPoint c)⟩

/-- `bvh.rs:262-292`: all centroids in their buckets. -/
def fill (infos : List Info) (len : ℚ) (a : Axis) (min : V3 ℚ) : List Bucket :=
  infos.foldl (fun bs i => bs.modify (bucketIndex i.centroid len a min) fun b => b.register i.centroid)
    (List.replicate nBuckets ⟨0, none⟩)

/-- `bvh.rs:302-307` and `312-317`: the box and the number of centroids, with those of one more bucket. -/
def absorb (s : BBox ℚ × ℕ) (b : Bucket) : BBox ℚ × ℕ :=
  match b.bounds with
  | some x => (BBox.fromUnion s.1 x, s.2 + b.count)
  | none => s

/-- `Option::unwrap`. -/
def unwrap {α : Type} : Option α → Outcome α
  | some a => .ok a
  | none => .panic

/-- `bvh.rs:298-322`: the cost of splitting after the bucket `i`. -/
def splitCost (buckets : List Bucket) (bounds : BBox ℚ) (i : ℕ) : Outcome XF :=
  (Outcome.index buckets 0).bind fun first =>
  (unwrap first.bounds).bind fun b0 =>
  let before := ((buckets.take (i + 1)).drop 1).foldl absorb (b0, first.count)
  (Outcome.index buckets (nBuckets - 1)).bind fun last =>
  (unwrap last.bounds).bind fun b1 =>
  let after := ((buckets.take (nBuckets - 1)).drop (i + 1)).foldl absorb (b1, last.count)
  .ok (.fin 10 + .fin (before.2 * before.1.surfaceArea + after.2 * after.1.surfaceArea) / .fin bounds.surfaceArea)

/-- `bvh.rs:323-326`: the least cost so far, and where. -/
def keepCheaper (s : XF × ℕ) (i : ℕ) (c : XF) : XF × ℕ := if c < s.1 then (c, i) else s

/-- `bvh.rs:294-327`: the least cost of the splits `i`, `i + 1`, … -/
def cheapest (buckets : List Bucket) (bounds : BBox ℚ) : List ℕ → XF × ℕ → Outcome (XF × ℕ)
  | [], s => .ok s
  | i :: is, s => (splitCost buckets bounds i).bind fun c => cheapest buckets bounds is (keepCheaper s i c)

/-- `bvh.rs:251-365`: the order that the slice is left in and where it is cut, or nothing if it becomes a leaf.
`mid.unwrap()` (368) panics when nothing is in the first part. -/
def plan (lib : Sorting) (infos : List Info) (bounds : BBox ℚ) (a : Axis) (len : ℚ) (min : V3 ℚ) :
    Outcome (Option (List Info × ℕ)) :=
  if infos.length ≤ 4 then .ok (some (lib.select (infos.length / 2) a infos, infos.length / 2))
  else
    (cheapest (fill infos len a min) bounds (List.range (nBuckets - 1)) (.fin floatMax, 0)).bind fun best =>
    if leafSize < infos.length ∨ best.1 < .fin infos.length then
      let sorted := lib.sort a infos
      let mid := (sorted.takeWhile fun i => decide (bucketIndex i.centroid len a min ≤ best.2)).length
      if mid = 0 then .panic else .ok (some (sorted, mid))
    else .ok none

/-- `bvh.rs:83-92`, `struct Interior` and `enum Node`, and 398-402, `struct Leaf`. -/
inductive Node where
  | leaf (bounds : BBox ℚ) (first n : ℕ)
  | interior (bounds : BBox ℚ) (axis : Axis) (child1 child2 : Node)

/-- `bvh.rs:130-135`, `bounds`. -/
def Node.bounds : Node → BBox ℚ
  | .leaf b _ _ => b
  | .interior b _ _ _ => b

/-- `bvh.rs:145-153`, `new_interior`. -/
def Node.newInterior (a : Axis) (child1 child2 : Node) : Node :=
  .interior (BBox.fromUnion child1.bounds child2.bounds) a child1 child2

/-- `bvh.rs:180-184`: the box of everything in scope. -/
def boundsOf (first : Info) (rest : List Info) : BBox ℚ :=
  rest.foldl (fun b i => BBox.fromUnion b i.bounds) first.bounds

/-- `bvh.rs:201-204`: the box of the centroids. -/
def centroidsOf (first : Info) (rest : List Info) : BBox ℚ :=
  rest.foldl (fun b i => BBox.fromUnionPoint b i.centroid) (BBox.fromPoint first.centroid)

/-- `bvh.rs:156-394`, `recursive_build`: the node and the numbers of the triangles in the order that they are pushed;
`offset` is `ordered_triangles.len()`.  The fuel bounds the depth of the recursion: when it is used up, the program is
taken to panic (that of a stack that overflows). -/
def build (lib : Sorting) : ℕ → ℕ → List Info → Outcome (Node × List ℕ)
  | 0, _, _ => .panic
  | _ + 1, _, [] => .panic
  | fuel + 1, offset, first :: rest =>
    let infos := first :: rest
    let bounds := boundsOf first rest
    let leaf := Outcome.ok (Node.leaf bounds offset infos.length, infos.map Info.index)
    if infos.length = 1 then leaf
    else
      let cb := centroidsOf first rest
      let a := cb.maxExtent
      let len := along a cb.max - along a cb.min
      if len < 1 / 10 ^ 8 then leaf
      else
        (plan lib infos bounds a len cb.min).bind fun
        | none => leaf
        | some (order, mid) =>
          (build lib fuel offset (order.take mid)).bind fun l =>
          (build lib fuel (offset + l.2.length) (order.drop mid)).bind fun r =>
          .ok (Node.newInterior a l.1 r.1, l.2 ++ r.2)

/-- `bvh.rs:405-418`, `struct FlatNode`; `n_prims` is an `i16` and `next` an `i32`. -/
structure FlatNode where
  bounds : BBox ℚ
  nPrims : ℤ
  axis : Axis
  next : ℤ

/-- `bvh.rs:421-423`, `is_leaf`. -/
def FlatNode.isLeaf (n : FlatNode) : Bool := decide (0 < n.nPrims)

/-- `x as i16`. -/
def asI16 (n : ℕ) : ℤ := Int.bmod n (2 ^ 16)

/-- `x as i32`. -/
def asI32 (n : ℕ) : ℤ := Int.bmod n (2 ^ 32)

/-- `x as usize`, of an `i16` or an `i32`. -/
def asUsize (i : ℤ) : ℕ := (i % 2 ^ 64).toNat

/-- `bvh.rs:490-521`, `flatten_node`: what is pushed for the node, from the position `offset` of the vector on. -/
def flatten (offset : ℕ) : Node → List FlatNode
  | .leaf b first n => [⟨b, asI16 n, .x, asI32 first⟩]
  | .interior b a c1 c2 =>
    let l := flatten (offset + 1) c1
    ⟨b, 0, a, asI32 (offset + 1 + l.length)⟩ :: (l ++ flatten (offset + 1 + l.length) c2)

/-- `bvh.rs:187-195`: the elements with these numbers, in this order; indexing panics out of range. -/
def gather {α : Type} (l : List α) : List ℕ → Outcome (List α)
  | [] => .ok []
  | i :: is => (Outcome.index l i).bind fun a => (gather l is).bind fun as => .ok (a :: as)

/-- `bvh.rs:443-445`. -/
def infosOf (triangles : List (Triangle ℚ)) : List Info := triangles.zipIdx.map fun t => Info.new t.1 t.2

/-- `bvh.rs:432-488`, `BoundingVolumeTree::new`: the nodes, the mapping and the scene that is left. -/
def new (lib : Sorting) (scene : Scene) : Outcome (List FlatNode × List ℕ × Scene) :=
  if scene.triangles.length = 0 then .ok ([], [], scene)
  else
    (build lib scene.triangles.length 0 (infosOf scene.triangles)).bind fun root =>
    (gather scene.triangles root.2).bind fun triangles =>
    (gather scene.normals root.2).bind fun normals =>
    (gather scene.frontMaterials root.2).bind fun front =>
    (gather scene.backMaterials root.2).bind fun back =>
    .ok (flatten 0 root.1, root.2, ⟨triangles, normals, front, back⟩)

/-! ## Tracing rays -/

/-- The closest hit so far: the number of the triangle and the point, and the square of the distance. -/
abbrev Best := Option (ℕ × V3 ℚ) × ℚ

/-- `fallback.rs:99-105` and `bvh.rs:584-590`: the hit is kept if it is not too near and nearer than the one so far. -/
def keepCloser (origin : V3 ℚ) (best : Best) (i : ℕ) (p : V3 ℚ) : Best :=
  let d := (p - origin).lengthSquared
  if 1 / 10 ^ 7 < d ∧ d < best.2 then (some (i, p), d) else best

/-- `fallback.rs:97-106`: one triangle of the slice. -/
def tryTriangle (ray : Ray ℚ) (best : Best) (t : Triangle ℚ × ℕ) : Best :=
  match Triangle.baricentric ray t.1 with
  | some h => keepCloser ray.origin best t.2 h.1
  | none => best

/-- `fallback.rs:84-110`, `simple_intersect_triangle_slice`, and `triangle/mod.rs:137-144`, `simple_triangle_intersect`. -/
def intersectSlice (triangles : List (Triangle ℚ)) (ray : Ray ℚ) (ini fin : ℕ) : Option (ℕ × V3 ℚ) :=
  (((triangles.zipIdx.drop ini).take (fin - ini)).foldl (tryTriangle ray) (none, floatMax)).1

/-- `bvh.rs:563-567`: the reciprocals of the components of the direction. -/
def inverse (d : V3 ℚ) : V3 XF := ⟨.fin 1 / .fin d.x, .fin 1 / .fin d.y, .fin 1 / .fin d.z⟩

/-- `bvh.rs:568` and `602-606`: the direction is negative along the axis. -/
def isNeg (inv : V3 XF) : Axis → Bool
  | .x => decide (inv.x < 0)
  | .y => decide (inv.y < 0)
  | .z => decide (inv.z < 0)

/-- `bvh.rs:582-591`: the triangles of a leaf. -/
def visitLeaf (triangles : List (Triangle ℚ)) (ray : Ray ℚ) (best : Best) (ini fin : ℕ) : Best :=
  match intersectSlice triangles ray ini fin with
  | some h => keepCloser ray.origin best h.1 h.2
  | none => best

/-- `bvh.rs:572-620`, the loop of `intersect`.  The stack is an array of `cap` numbers, and `push_node` (539-542) panics
when it is full.  The fuel bounds the number of rounds: when it is used up, the program is taken to panic. -/
def traverse (nodes : List FlatNode) (triangles : List (Triangle ℚ)) (ray : Ray ℚ) (inv : V3 XF) (cap : ℕ) :
    ℕ → ℕ → List ℕ → Best → Outcome (Option (ℕ × V3 ℚ))
  | 0, _, _, _ => .panic
  | fuel + 1, current, stack, best =>
    let resume := fun (b : Best) => match stack with
      | [] => Outcome.ok b.1
      | i :: rest => traverse nodes triangles ray inv cap fuel i rest b
    (Outcome.index nodes current).bind fun node =>
    if node.bounds.intersect ray.origin inv then
      if node.isLeaf then
        let ini := asUsize node.next
        resume (visitLeaf triangles ray best ini (ini + asUsize node.nPrims))
      else if cap ≤ stack.length then .panic
      else if isNeg inv node.axis then
        traverse nodes triangles ray inv cap fuel (asUsize node.next) ((current + 1) :: stack) best
      else traverse nodes triangles ray inv cap fuel (current + 1) (asUsize node.next :: stack) best
    else resume best

/-- `bvh.rs:547-629`, `intersect`.  No node of a tree
is visited twice, so that there are as many rounds as nodes at most; there are some more in case what is stored is not a
tree. -/
def intersect (nodes : List FlatNode) (triangles : List (Triangle ℚ)) (ray : Ray ℚ) (cap : ℕ) : Outcome (Option (ℕ × V3 ℚ)) :=
  if nodes.length = 0 then .ok none
  else traverse nodes triangles ray (inverse ray.direction) cap (cap + 1 + nodes.length) 0 [] (none, floatMax)

/-- `bvh.rs:669-679`: a triangle of the leaf is in the way. -/
def leafBlocks (triangles : List (Triangle ℚ)) (ray : Ray ℚ) (dist2 : ℚ) (ini fin : ℕ) : Bool :=
  match intersectSlice triangles ray ini fin with
  | some h =>
    let d := (h.2 - ray.origin).lengthSquared
    decide (1 / 10 ^ 6 < d) && decide (d + 1 / 10 ^ 6 < dist2) && decide (1 / 10 ^ 4 < |dist2 - d|)
  | none => false

/-- `bvh.rs:657-706`, the loop of `unobstructed_distance`. -/
def probe (nodes : List FlatNode) (triangles : List (Triangle ℚ)) (ray : Ray ℚ) (inv : V3 XF) (dist2 : ℚ) (cap : ℕ) :
    ℕ → ℕ → List ℕ → Outcome Bool
  | 0, _, _ => .panic
  | fuel + 1, current, stack =>
    let resume := match stack with
      | [] => Outcome.ok true
      | i :: rest => probe nodes triangles ray inv dist2 cap fuel i rest
    (Outcome.index nodes current).bind fun node =>
    if node.bounds.intersect ray.origin inv then
      if node.isLeaf then
        let ini := asUsize node.next
        if leafBlocks triangles ray dist2 ini (ini + asUsize node.nPrims) then .ok false else resume
      else if cap ≤ stack.length then .panic
      else if isNeg inv node.axis then
        probe nodes triangles ray inv dist2 cap fuel (asUsize node.next) ((current + 1) :: stack)
      else probe nodes triangles ray inv dist2 cap fuel (current + 1) (asUsize node.next :: stack)
    else resume

/-- `bvh.rs:632-710`, `unobstructed_distance`. -/
def unobstructed (nodes : List FlatNode) (triangles : List (Triangle ℚ)) (ray : Ray ℚ) (dist2 : ℚ) (cap : ℕ) : Outcome Bool :=
  if nodes.length = 0 then .ok true
  else probe nodes triangles ray (inverse ray.direction) dist2 cap (cap + 1 + nodes.length) 0 []

/-- `scene.rs:243-270`, `cast_ray`, in a scene with an acceleration structure: the number of the triangle, the point and
the coordinates in the triangle, from which the interaction is made. -/
def castRay (nodes : List FlatNode) (triangles : List (Triangle ℚ)) (ray : Ray ℚ) (cap : ℕ) : Outcome (Option (ℕ × V3 ℚ × ℚ × ℚ)) :=
  (intersect nodes triangles ray cap).bind fun
  | some (i, _) =>
    (Outcome.index triangles i).bind fun t =>
    (unwrap (Triangle.baricentric ray t)).bind fun h => .ok (some (i, h))
  | none => .ok none

end Bvh

end Simple.Render
