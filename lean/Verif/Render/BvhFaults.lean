import Mathlib.Data.List.Sort
import Verif.Render.BvhTraceProps

/-! # C52 and C53: cases that the theorems are about, and cases in which tracing goes wrong -/

namespace Simple.Render.Bvh

open Geometry Spec

/-- A sorting of the kind that the standard library has. -/
def insertionSorting : Sorting where
  select _ a l := l.insertionSort fun x y => along a x.centroid ≤ along a y.centroid
  sort a l := l.insertionSort fun x y => along a x.centroid ≤ along a y.centroid
  select_perm _ _ _ := List.perm_insertionSort ..
  sort_perm _ _ := List.perm_insertionSort ..
  select_mid k a l hk x hx y hy := by
    have : Std.Total (fun x y : Info => along a x.centroid ≤ along a y.centroid) := ⟨fun _ _ => le_total _ _⟩
    have : IsTrans Info (fun x y : Info => along a x.centroid ≤ along a y.centroid) := ⟨fun _ _ _ => le_trans⟩
    have := List.pairwise_insertionSort (fun x y : Info => along a x.centroid ≤ along a y.centroid) l
    rw [← List.take_append_drop k (l.insertionSort _), List.pairwise_append] at this
    exact this.2.2 x hx y hy
  sort_sorted a l := by
    have : Std.Total (fun x y : Info => along a x.centroid ≤ along a y.centroid) := ⟨fun _ _ => le_total _ _⟩
    have : IsTrans Info (fun x y : Info => along a x.centroid ≤ along a y.centroid) := ⟨fun _ _ _ => le_trans⟩
    exact List.pairwise_insertionSort _ l

/-- A scene of these triangles, all of the same material. -/
def sceneOf (ts : List (Triangle ℚ)) : Scene :=
  ⟨ts, ts.map fun _ => (⟨1, 0, 0⟩, ⟨1, 0, 0⟩, ⟨1, 0, 0⟩), ts.map fun _ => 0, ts.map fun _ => 0⟩

/-- What comes of tracing a ray in a scene. -/
def run (ts : List (Triangle ℚ)) (ray : Ray ℚ) (cap : ℕ) : Outcome (Option (ℕ × V3 ℚ)) :=
  (new insertionSorting (sceneOf ts)).bind fun r => intersect r.1 r.2.2.triangles ray cap

private theorem sceneOf_new (lib : Sorting) (ts : List (Triangle ℚ)) : ∃ nodes order scene', new lib (sceneOf ts) = .ok (nodes, order, scene') ∧
    scene'.triangles.Perm ts := by
  obtain ⟨nodes, order, scene', h1, -, h2, -⟩ := C52_build lib (sceneOf ts) (by simp [sceneOf]) (by simp [sceneOf]) (by simp [sceneOf])
  exact ⟨nodes, order, scene', h1, h2⟩

/-! ### The hypotheses can be met -/

/-- A triangle across the x axis. -/
def across (x : ℚ) : Triangle ℚ := ⟨⟨x, -1, -1⟩, ⟨x, 1, -1⟩, ⟨x, 0, 1⟩⟩

/-- Three triangles behind each other. -/
def three : List (Triangle ℚ) := [across 30, across 10, across 20]

/-- Triangles are put in order, and their normals with them. -/
example : ∃ nodes scene', new insertionSorting (sceneOf three) = .ok (nodes, [1, 2, 0], scene') ∧ nodes.length = 5 ∧
    scene'.triangles = [across 10, across 20, across 30] := by
  have h : ((new insertionSorting (sceneOf three)).map fun r => (r.1.length, r.2.1, r.2.2.triangles)) =
      .ok (5, [1, 2, 0], [across 10, across 20, across 30]) := by decide +kernel
  cases e : new insertionSorting (sceneOf three) with
  | ok r =>
    rw [e] at h
    simp only [Outcome.map, Outcome.ok.injEq, Prod.mk.injEq] at h
    obtain ⟨h1, h2, h3⟩ := h
    exact ⟨r.1, r.2.2, by rw [← h2], h1, h3⟩
  | err => rw [e] at h; simp [Outcome.map] at h
  | panic => rw [e] at h; simp [Outcome.map] at h

/-- A ray that is parallel to an axis, for which the test of boxes is conservative. -/
def along1 : Ray ℚ := ⟨⟨0, 1 / 10, 1 / 10⟩, ⟨1, 0, 0⟩⟩

private theorem three_inside (ts : List (Triangle ℚ)) (hp : ts.Perm three) : BoxTest ts along1 := by
  have key : ∀ t ∈ three, ∀ p u v, Triangle.baricentric along1 t = some (p, u, v) → 0 ≤ u ∧ 0 ≤ v ∧ u + v ≤ 1 := by
    have h : ∀ t ∈ three, (match Triangle.baricentric along1 t with
      | some (_, u, v) => decide (0 ≤ u ∧ 0 ≤ v ∧ u + v ≤ 1)
      | none => true) = true := by decide +kernel
    intro t ht p u v e
    have := h t ht
    rw [e] at this
    simpa using this
  have off : ∀ t ∈ three, (along1.origin.y ≠ t.a.y ∧ along1.origin.y ≠ t.b.y ∧ along1.origin.y ≠ t.c.y) ∧
      along1.origin.z ≠ t.a.z ∧ along1.origin.z ≠ t.b.z ∧ along1.origin.z ≠ t.c.z := by decide +kernel
  refine C53_box_test_partial ts along1 (fun i t p u v ht => key t (hp.mem_iff.1 (List.mem_of_getElem? ht)) p u v)
    (fun h => absurd h (by decide +kernel)) (fun _ t ht => (off t (hp.mem_iff.1 ht)).1) fun _ t ht => (off t (hp.mem_iff.1 ht)).2

/-- The closest of three is found, with the stack of 32 of the program. -/
example (lib : Sorting) : ∃ nodes order scene' r, new lib (sceneOf three) = .ok (nodes, order, scene') ∧
    intersect nodes scene'.triangles along1 32 = .ok r ∧ Closest scene'.triangles along1 r := by
  obtain ⟨nodes, order, scene', h, hp⟩ := sceneOf_new lib three
  have hl := hp.length_eq
  rw [show three.length = 3 from rfl] at hl
  obtain ⟨r, h1, h2⟩ := C53_small lib _ _ nodes order along1 32 h (by omega) (by omega) (three_inside _ hp)
  exact ⟨nodes, order, scene', r, h, h1, h2⟩

/-- A shadow ray in the same scene. -/
example (lib : Sorting) : ∃ nodes order scene', new lib (sceneOf three) = .ok (nodes, order, scene') ∧
    ((∃ b, unobstructed nodes scene'.triangles along1 400 32 = .ok b ∧ (b = false → Obstructed scene'.triangles along1 400) ∧
      ((∀ i p, Hit scene'.triangles along1 i p → 1 / 10 ^ 6 < dist2 along1 p) → Obstructed scene'.triangles along1 400 → b = false)) ∨
    (unobstructed nodes scene'.triangles along1 400 32 = .panic ∧ ∃ root, nodes = flatten 0 root ∧ 32 < height root)) := by
  obtain ⟨nodes, order, scene', h, hp⟩ := sceneOf_new lib three
  have hl := hp.length_eq
  rw [show three.length = 3 from rfl] at hl
  exact ⟨nodes, order, scene', h, C53_unobstructed_partial lib _ _ nodes order along1 400 32 h (by omega)
    (fun _ _ _ hn => by omega) (three_inside _ hp)⟩

example : run three along1 32 = .ok (some (0, ⟨10, 1 / 10, 1 / 10⟩)) := by decide +kernel

/-! ### Faults -/

/-- Two triangles that make a larger one across the y axis. -/
def halves : List (Triangle ℚ) := [⟨⟨-10, 5, 0⟩, ⟨0, 5, 0⟩, ⟨0, 5, 10⟩⟩, ⟨⟨0, 5, 0⟩, ⟨10, 5, 0⟩, ⟨0, 5, 10⟩⟩]

/-- A ray that goes through their common edge. -/
def seam : Ray ℚ := ⟨⟨0, 0, 1⟩, ⟨0, 1, 0⟩⟩

/-- C53 fails: a ray that is parallel to an axis goes through the edge where two triangles meet, though it hits both. -/
theorem C53_violated_crack : ∃ nodes order scene', new insertionSorting (sceneOf halves) = .ok (nodes, order, scene') ∧
    intersect nodes scene'.triangles seam 32 = .ok none ∧ Hit scene'.triangles seam 0 ⟨0, 5, 1⟩ ∧
    Hit scene'.triangles seam 1 ⟨0, 5, 1⟩ := by
  have h : ((new insertionSorting (sceneOf halves)).map fun r => (intersect r.1 r.2.2.triangles seam 32, r.2.2.triangles)) =
      .ok (.ok none, halves) := by decide +kernel
  cases e : new insertionSorting (sceneOf halves) with
  | ok r =>
    rw [e] at h
    simp only [Outcome.map, Outcome.ok.injEq, Prod.mk.injEq] at h
    obtain ⟨h1, h2⟩ := h
    refine ⟨r.1, r.2.1, r.2.2, rfl, h1, ?_, ?_⟩
    · rw [h2]
      exact ⟨_, 9 / 10, 1 / 10, rfl, by decide +kernel, by decide +kernel, by decide +kernel⟩
    · rw [h2]
      exact ⟨_, 0, 1 / 10, rfl, by decide +kernel, by decide +kernel, by decide +kernel⟩
  | err => rw [e] at h; simp [Outcome.map] at h
  | panic => rw [e] at h; simp [Outcome.map] at h

/-- Triangles that are further and further away. -/
def receding : List (Triangle ℚ) := (List.range 44).map fun k => across (13 ^ k)

/-- C53 fails: with 44 triangles, each of them 13 times as far as the one before, the tree is higher than the stack of 32
places that the renderer has, and tracing a ray that hits the first one panics. -/
theorem C53_violated_stack : run receding along1 32 = .panic ∧ Hit receding along1 0 ⟨1, 1 / 10, 1 / 10⟩ := by
  refine ⟨by decide +kernel, across 1, 11 / 40, 11 / 20, ?_, by decide +kernel, by decide +kernel, by decide +kernel⟩
  simp [receding]

/-- Two triangles with boxes that have the same centre. -/
def crossed : List (Triangle ℚ) := [⟨⟨0, -1, -1⟩, ⟨0, 1, -1⟩, ⟨2, 0, 1⟩⟩, ⟨⟨1, -1, -1⟩, ⟨1, 1, -1⟩, ⟨1, 0, 1⟩⟩]

/-- A ray that leaves one of them. -/
def leaving : Ray ℚ := ⟨⟨0, 0, -1 + 1 / 2000⟩, ⟨1, 0, 0⟩⟩

/-- C53 fails: a shadow ray that starts half a millimetre from a triangle is said to have ten metres free, though another
triangle of the same leaf is in the way after one metre. -/
theorem C53_violated_shadow : ∃ nodes order scene', new insertionSorting (sceneOf crossed) = .ok (nodes, order, scene') ∧
    unobstructed nodes scene'.triangles leaving 100 32 = .ok true ∧ Obstructed scene'.triangles leaving 100 := by
  have h : ((new insertionSorting (sceneOf crossed)).map fun r => (unobstructed r.1 r.2.2.triangles leaving 100 32, r.2.2.triangles)) =
      .ok (.ok true, crossed) := by decide +kernel
  cases e : new insertionSorting (sceneOf crossed) with
  | ok r =>
    rw [e] at h
    simp only [Outcome.map, Outcome.ok.injEq, Prod.mk.injEq] at h
    obtain ⟨h1, h2⟩ := h
    refine ⟨r.1, r.2.1, r.2.2, rfl, h1, 1, ⟨1, 0, -1 + 1 / 2000⟩, ?_, by decide +kernel, by decide +kernel⟩
    rw [h2]
    exact ⟨_, 1 / 2 - 1 / 8000, 1 / 4000, rfl, by decide +kernel, by decide +kernel, by decide +kernel⟩
  | err => rw [e] at h; simp [Outcome.map] at h
  | panic => rw [e] at h; simp [Outcome.map] at h

/-! A crowd -/

/-- A box that a ray hits. -/
example : (worldBounds (across 1)).intersect along1.origin (inverse along1.direction) = true := by decide +kernel

private theorem crowd_bounds (b : BBox ℚ) (hb : BBox.fromUnion b b = b) (rest : List Info) (h : ∀ i ∈ rest, i.bounds = b) :
    rest.foldl (fun b i => BBox.fromUnion b i.bounds) b = b := by
  induction rest with
  | nil => rfl
  | cons i rest ih =>
    rw [List.foldl_cons, h i (List.mem_cons_self ..), hb]
    exact ih fun j hj => h j (List.mem_cons_of_mem _ hj)

private theorem crowd_centroids (c : V3 ℚ) (rest : List Info) (h : ∀ i ∈ rest, i.centroid = c) :
    rest.foldl (fun b i => BBox.fromUnionPoint b i.centroid) (BBox.fromPoint c) = BBox.fromPoint c := by
  induction rest with
  | nil => rfl
  | cons i rest ih =>
    rw [List.foldl_cons, h i (List.mem_cons_self ..)]
    have : BBox.fromUnionPoint (BBox.fromPoint c) c = BBox.fromPoint c := by
      simp [BBox.fromUnionPoint, BBox.fromPoint, BBox.getMinsMaxs_eq]
    rw [this]
    exact ih fun j hj => h j (List.mem_cons_of_mem _ hj)

/-- C53 fails: 32768 copies of a triangle make a leaf that is not recognised as one, because their number does not fit the
16 bits that it is stored in.  Tracing any ray that hits the box of the triangle panics, whatever the stack. -/
theorem C53_violated_crowd (lib : Sorting) (t : Triangle ℚ) (ray : Ray ℚ) (cap : ℕ)
    (hit : (worldBounds t).intersect ray.origin (inverse ray.direction) = true) :
    ∃ nodes order scene', new lib (sceneOf (List.replicate 32768 t)) = .ok (nodes, order, scene') ∧
      intersect nodes scene'.triangles ray cap = .panic := by
  obtain ⟨nodes, order, scene', h, hp⟩ := sceneOf_new lib (List.replicate 32768 t)
  refine ⟨nodes, order, scene', h, ?_⟩
  obtain ⟨ts, hts⟩ : ∃ ts, ts = List.replicate 32768 t := ⟨_, rfl⟩
  rw [← hts] at h
  have hlen : ts.length = 32768 := by rw [hts, List.length_replicate]
  have hall : ∀ i ∈ infosOf ts, i.bounds = worldBounds t ∧ i.centroid = ((worldBounds t).max + (worldBounds t).min).scale (1 / 2) := by
    intro i hi
    obtain ⟨x, hx, rfl⟩ := List.mem_map.1 hi
    have := List.mem_zipIdx hx
    have e : x.1 = t := by
      rw [this.2.2]
      have hm : ∀ y ∈ ts, y = t := fun y hy => by rw [hts] at hy; exact List.eq_of_mem_replicate hy
      exact hm _ (List.getElem_mem ..)
    rw [← e]
    exact ⟨rfl, rfl⟩
  have hil : (infosOf ts).length = 32768 := by simp [infosOf, hlen]
  have hn : nodes = flatten 0 (.leaf (worldBounds t) 0 32768) := by
    unfold new at h
    rw [show (sceneOf ts).triangles = ts from rfl, hlen, if_neg (by omega)] at h
    have hb : build lib 32768 0 (infosOf ts) = .ok (.leaf (worldBounds t) 0 32768, (infosOf ts).map Info.index) := by
      cases hi : infosOf ts with
      | nil => rw [hi] at hil; simp at hil
      | cons first rest =>
        rw [hi] at hil hall
        obtain ⟨f1, f2⟩ := hall first (List.mem_cons_self ..)
        have hb1 : BBox.fromUnion (worldBounds t) (worldBounds t) = worldBounds t := by
          simp [BBox.fromUnion, BBox.getMinsMaxs_eq]
        have e1 : boundsOf first rest = worldBounds t := by
          unfold boundsOf; rw [f1]
          exact crowd_bounds _ hb1 rest fun i hi => (hall i (List.mem_cons_of_mem _ hi)).1
        have e2 : centroidsOf first rest = BBox.fromPoint first.centroid := by
          unfold centroidsOf
          exact crowd_centroids _ rest fun i hi => by rw [(hall i (List.mem_cons_of_mem _ hi)).2, f2]
        rw [show 32768 = 32767 + 1 from rfl]
        unfold build
        dsimp only
        rw [if_neg (by omega), e2, if_pos (by simp [BBox.fromPoint]), e1, hil]
    rw [hb] at h
    simp only [Outcome.bind] at h
    cases g1 : gather (sceneOf ts).triangles ((infosOf ts).map Info.index) with
    | err => rw [show (sceneOf ts).triangles = ts from rfl] at g1; rw [g1] at h; simp at h
    | panic => rw [show (sceneOf ts).triangles = ts from rfl] at g1; rw [g1] at h; simp at h
    | ok r1 =>
    rw [show (sceneOf ts).triangles = ts from rfl] at g1
    rw [g1] at h
    simp only at h
    cases g2 : gather (sceneOf ts).normals ((infosOf ts).map Info.index) with
    | err => rw [g2] at h; simp at h
    | panic => rw [g2] at h; simp at h
    | ok r2 =>
    rw [g2] at h
    simp only at h
    cases g3 : gather (sceneOf ts).frontMaterials ((infosOf ts).map Info.index) with
    | err => rw [g3] at h; simp at h
    | panic => rw [g3] at h; simp at h
    | ok r3 =>
    rw [g3] at h
    simp only at h
    cases g4 : gather (sceneOf ts).backMaterials ((infosOf ts).map Info.index) with
    | err => rw [g4] at h; simp at h
    | panic => rw [g4] at h; simp at h
    | ok r4 =>
    rw [g4] at h
    simp only [Outcome.ok.injEq, Prod.mk.injEq] at h
    exact h.1.symm
  have step : ∀ (k : ℕ) (stack : List ℕ) (best : Best),
      traverse nodes scene'.triangles ray (inverse ray.direction) cap k 0 stack best = .panic := by
    intro k
    induction k with
    | zero => intro stack best; rfl
    | succ k ih =>
      intro stack best
      have e : Outcome.index nodes 0 = .ok ⟨worldBounds t, asI16 32768, .x, asI32 0⟩ := by rw [hn]; rfl
      have leaf : (⟨worldBounds t, asI16 32768, .x, asI32 0⟩ : FlatNode).isLeaf = false := by
        unfold FlatNode.isLeaf
        rw [show asI16 32768 = -32768 by decide +kernel]
        rfl
      unfold traverse
      dsimp only
      rw [e]
      simp only [Outcome.bind]
      rw [if_pos hit, leaf, if_neg (by simp), show asUsize (asI32 0) = 0 by decide +kernel]
      by_cases hc : cap ≤ stack.length
      · rw [if_pos hc]
      rw [if_neg hc]
      split_ifs
      · exact ih _ _
      · cases k with
        | zero => rfl
        | succ k =>
          unfold traverse
          have : Outcome.index nodes (0 + 1) = .panic := by rw [hn]; rfl
          rw [this]
          rfl
  unfold intersect
  rw [hn]
  rw [if_neg (by simp [flatten]), ← hn]
  exact step _ _ _

end Simple.Render.Bvh
