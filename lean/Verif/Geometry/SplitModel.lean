import Verif.Geometry.PolygonModel

/-! Model of the functions of `/repo/geometry/src/loop3d.rs` that cut loops with segments and with other loops.
`Float` is `ℝ`; the parts that only add, multiply, divide and compare are over any ordered field.  Lengths are compared
through their squares. -/

namespace Simple.Geometry

namespace Cut

section Generic

variable {K : Type*} [Field K] [LinearOrder K]

/-- `loop3d.rs:1024-1035`, `add_pt`: an intersection is added unless one that is close is there. -/
def addPt (ret : List (ℕ × V3 K)) (i : ℕ) (p : V3 K) : List (ℕ × V3 K) :=
  if ret.any fun q => p.compare q.2 then ret else ret ++ [(i, p)]

/-- `loop3d.rs:1037-1046`: one edge. -/
def visit (s : Segment K) (len2 : K) (ret : List (ℕ × V3 K)) (e : (V3 K × V3 K) × ℕ) : List (ℕ × V3 K) :=
  if e.1.1.squaredDistance e.1.2 < 1 / 10 ^ 4 ∨ len2 < 1 / 10 ^ 4 then ret
  else
    match (⟨e.1.1, e.1.2⟩ : Segment K).intersect s with
    | some p => addPt ret e.2 p
    | none => ret

/-- `loop3d.rs:1014-1049`, `intersect`: the edges of the loop and the square of the length that the segment has on
record. -/
def cuts (edges : List (V3 K × V3 K)) (s : Segment K) (len2 : K) : List (ℕ × V3 K) :=
  if len2 < 1 / 10 ^ 6 then [] else edges.zipIdx.foldl (visit s len2) []

/-- `loop3d.rs:1333-1340`: the first intersection of each edge. -/
def firstOfEdge (l : List (ℕ × V3 K)) : List (ℕ × V3 K) :=
  l.foldl (fun acc c => if acc.any (fun a => a.1 = c.1) then acc else acc ++ [c]) []

/-- `loop3d.rs:1371-1387`: what is pushed to the left loop at step `i`. -/
def toLeft (vs : List (V3 K)) (b m : ℕ) (bp mp : V3 K) (i : ℕ) : List (V3 K) :=
  match vs[i % vs.length]? with
  | none => []
  | some c =>
    if i ≤ b then [c]
    else if i = b + 1 then [bp]
    else if i < m + 1 then []
    else if i = m + 1 then [mp, c]
    else [c]

/-- `loop3d.rs:1371-1387`: what is pushed to the right loop at step `i`. -/
def toRight (vs : List (V3 K)) (b m : ℕ) (bp mp : V3 K) (i : ℕ) : List (V3 K) :=
  match vs[i % vs.length]? with
  | none => []
  | some c =>
    if i ≤ b then []
    else if i = b + 1 then [bp, c]
    else if i < m + 1 then [c]
    else if i = m + 1 then [mp]
    else []

/-- `loop3d.rs:1370-1387`: the points that are pushed to the left loop. -/
def leftPoints (vs : List (V3 K)) (b m : ℕ) (bp mp : V3 K) : List (V3 K) :=
  (List.range (vs.length + 1)).flatMap (toLeft vs b m bp mp)

/-- `loop3d.rs:1370-1387`: the points that are pushed to the right loop. -/
def rightPoints (vs : List (V3 K)) (b m : ℕ) (bp mp : V3 K) : List (V3 K) :=
  (List.range (vs.length + 1)).flatMap (toRight vs b m bp mp)

/-- `loop3d.rs:1342-1366`: where to branch and where to merge, if the segment cuts the loop. -/
def branch (l : List (ℕ × V3 K)) : Option ((ℕ × V3 K) × (ℕ × V3 K)) :=
  match l with
  | p :: q :: _ =>
    if p.1 = q.1 then none
    else if p.2.compare q.2 then none
    else if p.1 > q.1 then some (q, p) else some (p, q)
  | _ => none

/-- `loop3d.rs:1051-1067`, `get_closest_intersection_pt`; `min_d` starts above every distance. -/
def closest (l : List (ℕ × V3 K)) (last : V3 K) : Option (ℕ × V3 K) :=
  (l.foldl (fun (best : Option (K × ℕ × V3 K)) c =>
    let d := c.2.squaredDistance last
    if d > 1 / 10 ^ 9 ∧ (best.all fun b => d < b.1) then some (d, c) else best) none).map Prod.snd

end Generic

end Cut

namespace Loop

/-- `loop3d.rs:1014-1049`, `intersect`. -/
noncomputable def intersect (l : Loop) (s : Segment ℝ) : List (ℕ × V3 ℝ) :=
  Cut.cuts (around l.vertices) s (s.start.squaredDistance s.fin)

/-- `push(..)?` of points one after the other. -/
noncomputable def pushEach (l : Loop) : List (V3 ℝ) → Outcome Loop
  | [] => .ok l
  | v :: t =>
    match l.push v with
    | (.ok (), l') => pushEach l' t
    | (.err, _) => .err
    | (.panic, _) => .panic

/-- `loop3d.rs:1389-1397`: a piece is closed and kept if it has more than two vertices. -/
noncomputable def keep (l : Loop) : Outcome (List Loop) :=
  if l.vertices.length > 2 then
    match l.close with
    | (.ok (), l') => .ok [l']
    | (.err, _) => .err
    | (.panic, _) => .panic
  else .ok []

/-- `loop3d.rs:1318-1326`: the segment in the plane of the loop, if it is very close to it. -/
noncomputable def snapSegment (anchor normal : V3 ℝ) (seg : Segment ℝ) : Segment ℝ :=
  if |seg.start.distanceToPlane anchor normal| < 1 / 1000 ∧ |seg.fin.distanceToPlane anchor normal| < 1 / 1000 then
    ⟨seg.start.projectIntoPlane anchor normal, seg.fin.projectIntoPlane anchor normal⟩
  else seg

/-- `loop3d.rs:1308-1399`, `split`.  The length of the segment is the one it had before it was moved into the plane.  A
push never panics, so the two pieces can be made one after the other. -/
noncomputable def split (l : Loop) (seg : Segment ℝ) : Outcome (List Loop) :=
  if !l.closed then .err
  else
    match l.vertices with
    | [] => .panic
    | anchor :: _ =>
      let s := snapSegment anchor l.normal seg
      let len2 := seg.start.squaredDistance seg.fin
      if l.containsSegment s ∨ len2 < 1 / 10 ^ 12 then .ok [l]
      else
        match Cut.branch (Cut.firstOfEdge (Cut.cuts (around l.vertices) s len2)) with
        | none => .ok [l]
        | some ((b, bp), (m, mp)) =>
          (pushEach new (Cut.leftPoints l.vertices b m bp mp)).bind fun left =>
            (pushEach new (Cut.rightPoints l.vertices b m bp mp)).bind fun right =>
              left.keep.bind fun a => right.keep.bind fun b => .ok (a ++ b)

/-- `loop3d.rs:1412-1416`: all the loops, cut with one segment. -/
noncomputable def splitEach (seg : Segment ℝ) : List Loop → Outcome (List Loop)
  | [] => .ok []
  | l :: t => (l.split seg).bind fun a => (splitEach seg t).bind fun b => .ok (a ++ b)

/-- `loop3d.rs:1404-1422`, `split_from_slice`. -/
noncomputable def splitFromSlice (l : Loop) (segments : List (Segment ℝ)) : Outcome (List Loop) :=
  segments.foldl (fun ret s => ret.bind (splitEach s)) (.ok [l])

/-- `loop3d.rs:1201-1204`, 1207-1232: the first of the points, from the given index on, that the loop contains. -/
noncomputable def firstIn (l : Loop) : ℕ → List (V3 ℝ) → Outcome (Option (ℕ × V3 ℝ))
  | _, [] => .ok none
  | i, v :: t => (l.testPoint v).bind fun b => if b then .ok (some (i, v)) else firstIn l (i + 1) t

/-- `self.test_point(p)? && other.test_point(p)?`. -/
noncomputable def inBoth (l o : Loop) (p : V3 ℝ) : Outcome Bool :=
  (l.testPoint p).bind fun a => if a then o.testPoint p else .ok false

/-- `push(..)?` of one point. -/
noncomputable def pushOne (r : Loop) (p : V3 ℝ) : Outcome Loop :=
  match r.push p with
  | (.ok (), r') => .ok r'
  | (.err, _) => .err
  | (.panic, _) => .panic

/-- `loop3d.rs:1241-1294`: the rounds of `intersection`; `none` when it gives up.  The first number is how many rounds
are left. -/
noncomputable def meetWalk (l o : Loop) : ℕ → Loop → Bool → ℕ → Outcome (Option Loop)
  | 0, _, _, _ => .ok none
  | k + 1, r, onSelf, index =>
    let (mine, theirs) := if onSelf then (l.vertices, o.vertices) else (o.vertices, l.vertices)
    (Outcome.index mine (index % mine.length)).bind fun candidate =>
      (Outcome.index r.vertices 0).bind fun first =>
        (Outcome.index r.vertices (r.vertices.length - 1)).bind fun last =>
          if r.vertices.length > 2 ∧ (first.compare candidate ∨ first.compare last) then .ok (some r)
          else
            let found := Cut.cuts (around theirs) ⟨last, candidate⟩ (last.squaredDistance candidate)
            if found = [] then
              (inBoth l o candidate).bind fun b =>
                if b then (r.pushOne candidate).bind fun r' => meetWalk l o k r' onSelf ((index + 1) % mine.length)
                else .ok none
            else
              match Cut.closest found last with
              | some (j, p) => (r.pushOne p).bind fun r' => meetWalk l o k r' (!onSelf) ((j + 1) % theirs.length)
              | none =>
                (inBoth l o candidate).bind fun b =>
                  if b then (r.pushOne candidate).bind fun r' => meetWalk l o k r' onSelf index
                  else .ok none

/-- `loop3d.rs:1296-1303`: the loop without repeated vertices, closed. -/
noncomputable def finishMeet (r : Loop) : Outcome (Option Loop) :=
  r.sanitize.bind fun r' =>
    if r'.vertices.length < 3 then .ok none
    else
      match r'.close with
      | (.ok (), c) => .ok (some c)
      | (.err, _) => .err
      | (.panic, _) => .panic

/-- `loop3d.rs:1206-1232`: a vertex of one loop that the other contains, whether it is of the first loop, and its
index. -/
noncomputable def meetStart (l o : Loop) : Outcome (Option (Bool × ℕ × V3 ℝ)) :=
  (o.firstIn 0 l.vertices).bind fun
    | some c => .ok (some (true, c))
    | none => (l.firstIn 0 o.vertices).map fun r => r.map fun c => (false, c)

/-- `loop3d.rs:1200-1204`: the other loop, going around in the same direction. -/
noncomputable def along (l o : Loop) : Loop := if o.normal.isSameDirection l.normal then o else o.reverse

/-- `loop3d.rs:1185-1304`, `intersection`.  The debug assertions are left out. -/
noncomputable def intersection (l other : Loop) : Outcome (Option Loop) :=
  if !l.closed || !other.closed then .err
  else if |l.normal.dot other.normal| < 999 / 1000 then .ok none
  else
    (Outcome.index other.vertices 0).bind fun v => (l.isCoplanar v).bind fun cop =>
      if !cop then .ok none
      else
        (meetStart l (l.along other)).bind fun
          | none => .ok none
          | some (onSelf, i, v) =>
            (new.pushOne v).bind fun r =>
              (meetWalk l (l.along other) 99 r onSelf (i + 1)).bind fun
                | none => .ok none
                | some r => finishMeet r

/-- `loop3d.rs:1106-1118`: the first of the points, from the given index on, that the loop does not contain. -/
noncomputable def firstOut (l : Loop) : ℕ → List (V3 ℝ) → Outcome (Option (ℕ × V3 ℝ))
  | _, [] => .ok none
  | i, v :: t => (l.testPoint v).bind fun b => if b then firstOut l (i + 1) t else .ok (some (i, v))

/-- `loop3d.rs:1127-1175`: the rounds of `bite`; `none` when it gives up. -/
noncomputable def biteWalk (l chewer : Loop) (first : V3 ℝ) : ℕ → Loop → Bool → ℕ → Outcome (Option Loop)
  | 0, _, _, _ => .ok none
  | k + 1, r, onSelf, index =>
    let (mine, theirs) := if onSelf then (l.vertices, chewer.vertices) else (chewer.vertices, l.vertices)
    (Outcome.index mine (index % mine.length)).bind fun candidate =>
      if r.vertices.length > 1 ∧ candidate.compare first then .ok (some r)
      else
        (Outcome.index r.vertices (r.vertices.length - 1)).bind fun last =>
          if last.compare candidate then biteWalk l chewer first k r onSelf ((index + 1) % mine.length)
          else
            (candidate - last).normalize.bind fun dir =>
              let fin := candidate + dir.scale (1 / 1000)
              let found := Cut.cuts (around theirs) ⟨last, fin⟩ (last.squaredDistance fin)
              if found = [] then
                (r.pushOne candidate).bind fun r' => biteWalk l chewer first k r' onSelf ((index + 1) % mine.length)
              else
                match Cut.closest found last with
                | some (j, p) => (r.pushOne p).bind fun r' => biteWalk l chewer first k r' (!onSelf) ((j + 1) % theirs.length)
                | none => (r.pushOne candidate).bind fun r' => biteWalk l chewer first k r' onSelf index

/-- `loop3d.rs:1094-1098`: the chewer, going around in the other direction. -/
noncomputable def against (l o : Loop) : Loop := if o.normal.isSameDirection l.normal then o.reverse else o

/-- `loop3d.rs:1069-1180`, `bite`.  The debug assertions are left out. -/
noncomputable def bite (l chewer : Loop) : Outcome Loop :=
  if !l.closed then .err
  else if !chewer.closed then .err
  else if |l.normal.dot chewer.normal| < 999 / 1000 then .err
  else
    (Outcome.index chewer.vertices 0).bind fun v => (l.isCoplanar v).bind fun cop =>
      if !cop then .err
      else
        (l.intersection chewer).bind fun
          | none => .ok l
          | some c =>
            ((l.against c).firstOut 0 l.vertices).bind fun
              | none => .ok l
              | some (i, v) =>
                (new.pushOne v).bind fun r =>
                  (biteWalk l (l.against c) v 99 r true (i + 1)).bind fun
                    | none => .ok l
                    | some r =>
                      match r.close with
                      | (.ok (), c) => .ok c
                      | (.err, _) => .err
                      | (.panic, _) => .panic

end Loop

end Simple.Geometry
