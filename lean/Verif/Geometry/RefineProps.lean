import Verif.Geometry.MeshStartProps

/-! # C51, C123: refining a mesh

`refine` stops when a round over the triangles changes nothing, so that what it tests then holds of every triangle.  Each
of its rounds is made of edits that keep a mesh sound, unless adding a circumcenter fails after the mesh was changed: that
failure is taken for a point outside of the polygon. -/

namespace Simple.Geometry.Mesh

open Spec

namespace Spec

/-- The point is taken to be a corner of the triangle. -/
def AtCorner (t : Triangle ℝ) (p : V3 ℝ) : Prop :=
  t.testPoint p = .vertexA ∨ t.testPoint p = .vertexB ∨ t.testPoint p = .vertexC

/-- The triangle is valid, and it is tiny or as it was asked for; it may be too large when its circumcenter is a corner of
the mesh. -/
def Fine (maxArea maxAspectRatio : ℝ) (m : Mesh) (t : TriPiece) : Prop :=
  t.valid = true ∧ (t.triangle.area < 1 / 1000 ∨ t.triangle.aspectRatio ≤ maxAspectRatio ∧
    (t.triangle.area ≤ maxArea ∨ ∃ u ∈ m.triangles, AtCorner u.triangle t.triangle.circumcenter))

/-- The meshes that refining goes through: the longest edge of a thin triangle is split in the middle, or the circumcenter
of a large triangle is added, or its centroid when the circumcenter is refused and the mesh is as before; then the Delaunay
condition is restored. -/
inductive Refined (maxArea maxAspectRatio : ℝ) (m : Mesh) : Mesh → Prop
  | refl : Refined maxArea maxAspectRatio m m
  | thin {m1 m2 m3 : Mesh} {i : ℕ} {t : TriPiece} (h : Refined maxArea maxAspectRatio m m1) (ht : m1.triangles[i]? = some t)
      (thin : maxAspectRatio < t.triangle.aspectRatio)
      (split : splitEdge i (longestEdge t.triangle) (t.triangle.segment (longestEdge t.triangle)).midpoint m1 = (.ok (), m2))
      (restore : restoreDelaunay maxAspectRatio m2 = (.ok (), m3)) : Refined maxArea maxAspectRatio m m3
  | circumcenter {m1 m2 m3 : Mesh} {i : ℕ} {t : TriPiece} (h : Refined maxArea maxAspectRatio m m1)
      (ht : m1.triangles[i]? = some t) (large : maxArea < t.triangle.area)
      (add : addPoint t.triangle.circumcenter m1 = (.ok true, m2))
      (restore : restoreDelaunay maxAspectRatio m2 = (.ok (), m3)) : Refined maxArea maxAspectRatio m m3
  | centroid {m1 m2 m3 : Mesh} {i : ℕ} {t : TriPiece} (h : Refined maxArea maxAspectRatio m m1)
      (ht : m1.triangles[i]? = some t) (large : maxArea < t.triangle.area)
      (refused : addPoint t.triangle.circumcenter m1 = (.err, m1))
      (split : splitTriangle i t.triangle.centroid m1 = (.ok (), m2))
      (restore : restoreDelaunay maxAspectRatio m2 = (.ok (), m3)) : Refined maxArea maxAspectRatio m m3

/-- A circumcenter was refused in such a mesh, and the mesh was not left as it was. -/
def Lost (maxArea maxAspectRatio : ℝ) (m : Mesh) : Prop :=
  ∃ (m1 m2 : Mesh) (i : ℕ) (t : TriPiece), Refined maxArea maxAspectRatio m m1 ∧ m1.triangles[i]? = some t ∧ maxArea < t.triangle.area ∧
    addPoint t.triangle.circumcenter m1 = (.err, m2) ∧ m2 ≠ m1

end Spec

private theorem piece_run {i : ℕ} {m : Mesh} {Q : TriPiece → Mesh → Prop}
    (h : ∀ t, m.triangles[i]? = some t → Q t m) : (piece i).Sat m Q (fun _ => True) := by
  unfold Act.Sat piece Outcome.index
  cases hi : m.triangles[i]? with
  | none => trivial
  | some t => exact h t hi

/-- Whatever it does, it is known what it did. -/
private theorem run_sat {α : Type} (f : Act Mesh α) (m : Mesh) : f.Sat m (fun a m' => f m = (.ok a, m')) (fun _ => True) := by
  unfold Act.Sat
  cases h : f m with
  | mk o m' => cases o <;> trivial

private theorem attempt_sat {α : Type} (f : Act Mesh α) (m : Mesh) :
    (attempt f).Sat m (fun o m' => match o with | some a => f m = (.ok a, m') | none => f m = (.err, m')) (fun _ => True) := by
  unfold Act.Sat attempt
  cases h : f m with
  | mk o m' => cases o <;> trivial

private theorem addPointToTriangle_false (i : ℕ) (p : V3 ℝ) (l : PointInTriangle) (m : Mesh) :
    (addPointToTriangle i p l).Sat m (fun b m' => b = false → m' = m ∧ (l = .vertexA ∨ l = .vertexB ∨ l = .vertexC))
      (fun _ => True) := by
  unfold addPointToTriangle
  refine Act.sat_bind (piece_run fun t _ => Act.sat_ite (fun _ => Act.sat_err trivial) fun _ => ?_)
  cases l with
  | vertexA => exact Act.sat_pure fun _ => ⟨rfl, by simp⟩
  | vertexB => exact Act.sat_pure fun _ => ⟨rfl, by simp⟩
  | vertexC => exact Act.sat_pure fun _ => ⟨rfl, by simp⟩
  | edgeAB => exact Act.sat_bind (Act.sat_mono (run_sat _ m) (fun _ _ _ => Act.sat_pure (by simp)) (fun _ h => h))
  | edgeBC => exact Act.sat_bind (Act.sat_mono (run_sat _ m) (fun _ _ _ => Act.sat_pure (by simp)) (fun _ h => h))
  | edgeAC => exact Act.sat_bind (Act.sat_mono (run_sat _ m) (fun _ _ _ => Act.sat_pure (by simp)) (fun _ h => h))
  | inside => exact Act.sat_bind (Act.sat_mono (run_sat _ m) (fun _ _ _ => Act.sat_pure (by simp)) (fun _ h => h))
  | outside => exact Act.sat_panic trivial

private theorem addPoint_false (p : V3 ℝ) (m : Mesh) :
    (addPoint p).Sat m (fun b m' => b = false → m' = m ∧ ∃ u ∈ m.triangles, AtCorner u.triangle p) (fun _ => True) := by
  unfold addPoint
  refine Act.sat_bind (Act.sat_get ?_)
  cases m.locate p with
  | none => exact Act.sat_err trivial
  | some i =>
    refine Act.sat_bind (piece_run fun t ht => ?_)
    exact Act.sat_mono (addPointToTriangle_false i p _ m) (fun b m' h hb => ⟨(h hb).1, t, List.mem_of_getElem? ht, (h hb).2⟩)
      (fun _ h => h)

/-- What is known after one triangle of a mesh `m` that refining `m0` went through. -/
private def After (A R : ℝ) (m0 m : Mesh) (good : Prop) (b : Bool) (m' : Mesh) : Prop :=
  (Refined A R m0 m' ∨ Lost A R m0) ∧ (b = false → m' = m ∧ good)

private theorem refineArea_sat (A R : ℝ) (i : ℕ) (m0 m : Mesh) (t : TriPiece) (ht : m.triangles[i]? = some t)
    (hA : A < t.triangle.area) (h0 : Refined A R m0 m ∨ Lost A R m0) :
    (refineArea R i).Sat m (After A R m0 m (∃ u ∈ m.triangles, AtCorner u.triangle t.triangle.circumcenter))
      (fun _ => True) := by
  unfold refineArea
  refine Act.sat_bind (piece_run fun t' ht' => ?_)
  rw [ht, Option.some.injEq] at ht'
  subst ht'
  refine Act.sat_bind (Act.sat_mono (attempt_sat _ m) ?_ fun _ h => h)
  intro o m1 ho
  match o with
  | some true =>
    refine Act.sat_bind (Act.sat_mono (run_sat _ m1) ?_ fun _ h => h)
    intro _ m2 hr
    refine Act.sat_pure ⟨?_, by simp⟩
    rcases h0 with h0 | h0
    · exact Or.inl (.circumcenter h0 ht hA ho hr)
    · exact Or.inr h0
  | some false =>
    have := Act.sat_ok (addPoint_false _ m) ho rfl
    rw [this.1]
    exact Act.sat_pure ⟨h0, fun _ => ⟨rfl, this.2⟩⟩
  | none =>
    have ho : addPoint t.triangle.circumcenter m = (.err, m1) := ho
    refine Act.sat_bind (piece_run fun t1 ht1 => ?_)
    refine Act.sat_bind (Act.sat_mono (run_sat _ m1) ?_ fun _ h => h)
    intro b m2 hb
    match b with
    | false => exact absurd (Act.sat_ok (addPointToTriangle_false i _ _ m1) hb rfl).2 (by simp)
    | true =>
      refine Act.sat_bind (Act.sat_mono (run_sat _ m2) ?_ fun _ h => h)
      intro _ m3 hr
      refine Act.sat_pure ⟨?_, by simp⟩
      rcases h0 with h0 | h0
      · by_cases hm : m1 = m
        · subst hm
          rw [ht, Option.some.injEq] at ht1
          subst ht1
          have hs : splitTriangle i t.triangle.centroid m1 = (.ok (), m2) := by
            have key : (addPointToTriangle i t.triangle.centroid .inside).Sat m1
                (fun _ m' => splitTriangle i t.triangle.centroid m1 = (.ok (), m')) (fun _ => True) := by
              unfold addPointToTriangle
              refine Act.sat_bind (piece_run fun t _ => Act.sat_ite (fun _ => Act.sat_err trivial) fun _ => ?_)
              exact Act.sat_bind (Act.sat_mono (run_sat _ m1) (fun _ _ h => Act.sat_pure h) (fun _ h => h))
            exact Act.sat_ok key hb
          exact Or.inl (.centroid h0 ht hA ho hs hr)
        · exact Or.inr ⟨m, m1, i, t, h0, ht, hA, ho, hm⟩
      · exact Or.inr h0

private theorem refineOne_sat (A R : ℝ) (i : ℕ) (m0 m : Mesh) (h0 : Refined A R m0 m ∨ Lost A R m0) :
    (refineOne A R i).Sat m (After A R m0 m (∃ t, m.triangles[i]? = some t ∧ Fine A R m t)) (fun _ => True) := by
  unfold refineOne
  refine Act.sat_bind (piece_run fun t ht => Act.sat_ite (fun _ => Act.sat_panic trivial) fun hv => ?_)
  have hv : t.valid = true := by simpa using hv
  refine Act.sat_ite (fun hs => Act.sat_pure ⟨h0, fun _ => ⟨rfl, t, ht, hv, Or.inl hs⟩⟩) fun _ =>
    Act.sat_ite (fun ha => ?_) fun ha => Act.sat_ite (fun hA => ?_) fun hA => ?_
  · refine Act.sat_bind (Act.sat_mono (run_sat _ m) ?_ fun _ h => h)
    intro _ m1 h1
    refine Act.sat_bind (Act.sat_mono (run_sat _ m1) ?_ fun _ h => h)
    intro _ m2 h2
    refine Act.sat_pure ⟨?_, by simp⟩
    rcases h0 with h0 | h0
    · exact Or.inl (.thin h0 ht ha h1 h2)
    · exact Or.inr h0
  · exact Act.sat_mono (refineArea_sat A R i m0 m t ht hA h0)
      (fun b m' h => ⟨h.1, fun hb => ⟨(h.2 hb).1, t, ht, hv, Or.inr ⟨not_lt.1 ha, Or.inr (h.2 hb).2⟩⟩⟩) (fun _ h => h)
  · exact Act.sat_pure ⟨h0, fun _ => ⟨rfl, t, ht, hv, Or.inr ⟨not_lt.1 ha, Or.inl (not_lt.1 hA)⟩⟩⟩

private theorem refineRound_sat (A R : ℝ) (m0 : Mesh) (is : List ℕ) : ∀ (c : Bool) (m : Mesh),
    (Refined A R m0 m ∨ Lost A R m0) →
    (refineRound A R is c).Sat m (After A R m0 m (c = false ∧ ∀ i ∈ is, ∃ t, m.triangles[i]? = some t ∧ Fine A R m t))
      (fun _ => True) := by
  induction is with
  | nil => intro c m h; exact Act.sat_pure ⟨h, fun hc => ⟨rfl, hc, by simp⟩⟩
  | cons i is ih =>
    intro c m h
    unfold refineRound
    refine Act.sat_bind (Act.sat_mono (refineOne_sat A R i m0 m h) ?_ fun _ h => h)
    intro b m1 h1
    refine Act.sat_mono (ih (c || b) m1 h1.1) ?_ fun _ h => h
    intro b' m2 h2
    refine ⟨h2.1, fun hb => ?_⟩
    obtain ⟨e2, hc, hg⟩ := h2.2 hb
    simp only [Bool.or_eq_false_iff] at hc
    obtain ⟨e1, hi⟩ := h1.2 hc.2
    subst e1
    refine ⟨e2, hc.1, ?_⟩
    intro j hj
    rcases List.mem_cons.1 hj with rfl | hj
    · exact hi
    · exact hg j hj

private theorem refine_sat (A R : ℝ) (m0 : Mesh) (k : ℕ) : ∀ m : Mesh, (Refined A R m0 m ∨ Lost A R m0) →
    (Mesh.refine A R k).Sat m (fun o m' => (Refined A R m0 m' ∨ Lost A R m0) ∧ (o = some () → ∀ t ∈ m'.triangles, Fine A R m' t))
      (fun _ => True) := by
  induction k with
  | zero => intro m h; exact Act.sat_pure ⟨h, by simp⟩
  | succ k ih =>
    intro m h
    unfold Mesh.refine
    refine Act.sat_bind (Act.sat_get (Act.sat_bind (Act.sat_mono (refineRound_sat A R m0 _ false m h) ?_ fun _ h => h)))
    intro b m1 h1
    cases b with
    | true => exact ih m1 h1.1
    | false =>
      obtain ⟨rfl, -, hg⟩ := h1.2 rfl
      refine Act.sat_pure ⟨h1.1, fun _ t ht => ?_⟩
      obtain ⟨i, hi, rfl⟩ := List.getElem_of_mem ht
      obtain ⟨t', ht', hf⟩ := hg i (List.mem_range.2 hi)
      rw [List.getElem?_eq_getElem hi, Option.some.injEq] at ht'
      exact ht' ▸ hf

/-- C123: when refining ends, every triangle is valid, and one that is not tiny has an aspect ratio and an area that are not
larger than asked for, except that it may be too large when its circumcenter is taken to be a corner of some triangle. -/
theorem C123_refine_partial (A R : ℝ) (k : ℕ) (m m' : Mesh) (h : Mesh.refine A R k m = (.ok (some ()), m')) :
    ∀ t ∈ m'.triangles, Fine A R m' t :=
  (Act.sat_ok (refine_sat A R m k m (Or.inl .refl)) h).2 rfl

/-- C123: so have the triangles of a polygon that was meshed. -/
theorem C123_mesh_polygon_partial (A R : ℝ) (k : ℕ) (poly : Polygon) (m : Mesh) (h : meshPolygon k poly A R = .ok (some m)) :
    ∀ t ∈ m.triangles, Fine A R m t := by
  unfold meshPolygon at h
  cases hp : ofPolygon poly with
  | err => rw [hp] at h; simp [Outcome.bind] at h
  | panic => rw [hp] at h; simp [Outcome.bind] at h
  | ok m0 =>
    rw [hp] at h
    simp only [Outcome.bind] at h
    split at h
    · next m1 hr =>
      simp only [Outcome.ok.injEq, Option.some.injEq] at h
      subst h
      exact C123_refine_partial A R k m0 m1 hr
    · simp at h
    · simp at h
    · simp at h

private theorem refined_sound {A R : ℝ} {m m' : Mesh} (hm : Sound m) (h : Refined A R m m') : Sound m' := by
  induction h with
  | refl => exact hm
  | thin _ _ _ hs hr ih => exact (C51_restore_delaunay R _ _ (C51_split_edge _ _ _ _ _ ih hs).1 hr).1
  | circumcenter _ _ _ ha hr ih => exact (C51_restore_delaunay R _ _ (C51_add_point _ _ _ _ ih ha).1 hr).1
  | centroid _ _ _ _ hs hr ih => exact (C51_restore_delaunay R _ _ (C51_split_triangle _ _ _ _ ih hs).1 hr).1

/-- C51: refining keeps a mesh sound, also when it was stopped before its end, unless on the way a circumcenter was refused
in a mesh that was not left as it was. -/
theorem C51_refine_sound_partial (A R : ℝ) (k : ℕ) (o : Option Unit) (m m' : Mesh) (hm : Sound m)
    (h : Mesh.refine A R k m = (.ok o, m')) : Refined A R m m' ∧ Sound m' ∨ Lost A R m := by
  rcases (Act.sat_ok (refine_sat A R m k m (Or.inl .refl)) h).1 with h | h
  · exact Or.inl ⟨h, refined_sound hm h⟩
  · exact Or.inr h

/-! ### A mesh that is left as it is -/

/-- Sides of 8, 5 and 5. -/
private noncomputable def above : Triangle ℝ := ⟨⟨0, 0, 0⟩, ⟨8, 0, 0⟩, ⟨4, 3, 0⟩⟩

/-- Its third corner is the circumcenter of the other one. -/
private noncomputable def below : Triangle ℝ := ⟨⟨8, 0, 0⟩, ⟨0, 0, 0⟩, ⟨4, -(7 / 6), 0⟩⟩

private noncomputable def two : Mesh := ⟨[{ fresh above 0 with n0 := some 1 }, { fresh below 1 with n0 := some 0 }], 2⟩

private theorem above_proper : Proper above := by
  have := (new_ok (Triangle.newQ_real ⟨0, 0, 0⟩ ⟨8, 0, 0⟩ ⟨4, 3, 0⟩ (by decide +kernel))).2
  simpa [V3.real, above] using this

private theorem below_proper : Proper below := by
  have := (new_ok (Triangle.newQ_real ⟨8, 0, 0⟩ ⟨0, 0, 0⟩ ⟨4, -(7 / 6), 0⟩ (by decide +kernel))).2
  simpa [V3.real, below] using this

private theorem two_sound : Sound two := by
  refine ⟨by simp [two, fresh], rfl, ?_, ?_⟩
  · intro i t ht
    match i with
    | 0 => simp only [tri, two, List.getElem?_cons_zero, Option.map_some, Option.some.injEq] at ht; rw [← ht]; exact above_proper
    | 1 =>
      simp only [tri, two, List.getElem?_cons_succ, List.getElem?_cons_zero, Option.map_some, Option.some.injEq] at ht
      rw [← ht]; exact below_proper
    | i + 2 => simp [tri, two] at ht
  · intro i e j h
    match i, e with
    | 0, .ab =>
      have hj : j = 1 := by simpa [nb, two, TriPiece.neighbour, eq_comm] using h
      subst hj
      exact ⟨above, below, .ab, rfl, rfl, rfl, rfl, rfl⟩
    | 1, .ab =>
      have hj : j = 0 := by simpa [nb, two, TriPiece.neighbour, eq_comm] using h
      subst hj
      exact ⟨below, above, .ab, rfl, rfl, rfl, rfl, rfl⟩
    | 0, .bc => simp [nb, two, TriPiece.neighbour, fresh] at h
    | 0, .ca => simp [nb, two, TriPiece.neighbour, fresh] at h
    | 1, .bc => simp [nb, two, TriPiece.neighbour, fresh] at h
    | 1, .ca => simp [nb, two, TriPiece.neighbour, fresh] at h
    | i + 2, e => simp [nb, two] at h

private theorem sqrt_sq {x y : ℝ} (hy : 0 ≤ y) (h : x = y ^ 2) : Real.sqrt x = y := by rw [h, Real.sqrt_sq hy]

private theorem above_sides : above.a.distance above.b = 8 ∧ above.b.distance above.c = 5 ∧ above.c.distance above.a = 5 := by
  refine ⟨?_, ?_, ?_⟩ <;> unfold V3.distance <;> apply sqrt_sq (by norm_num) <;>
    norm_num [V3.squaredDistance, above]

private theorem below_sides : below.a.distance below.b = 8 ∧ below.b.distance below.c = 25 / 6 ∧
    below.c.distance below.a = 25 / 6 := by
  refine ⟨?_, ?_, ?_⟩ <;> unfold V3.distance <;> apply sqrt_sq (by norm_num) <;>
    norm_num [V3.squaredDistance, below]

private theorem above_area : above.area = 12 := by
  unfold Triangle.area
  rw [above_sides.1, above_sides.2.1, above_sides.2.2]
  exact sqrt_sq (by norm_num) (by norm_num)

private theorem below_area : below.area = 14 / 3 := by
  unfold Triangle.area
  rw [below_sides.1, below_sides.2.1, below_sides.2.2]
  exact sqrt_sq (by norm_num) (by norm_num)

private theorem above_ratio : above.aspectRatio = 5 / 6 := by
  unfold Triangle.aspectRatio Triangle.circumradius
  rw [above_sides.1, above_sides.2.1, above_sides.2.2]
  dsimp only
  rw [sqrt_sq (y := 48) (by norm_num) (by norm_num)]
  norm_num

private theorem below_ratio : below.aspectRatio = 25 / 14 := by
  unfold Triangle.aspectRatio Triangle.circumradius
  rw [below_sides.1, below_sides.2.1, below_sides.2.2]
  dsimp only
  rw [sqrt_sq (y := 56 / 3) (by norm_num) (by norm_num)]
  norm_num

private theorem above_center : above.circumcenter = ⟨4, -(7 / 6), 0⟩ := by
  have h1 : (above.b - above.a).length = 8 := sqrt_sq (by norm_num) (by norm_num [V3.lengthSquared, above])
  have h2 : (above.c - above.a).length = 5 := sqrt_sq (by norm_num) (by norm_num [V3.lengthSquared, above])
  have h3 : ((above.b - above.a).cross (above.c - above.a)).length = 24 :=
    sqrt_sq (by norm_num) (by norm_num [V3.lengthSquared, V3.cross, above])
  unfold Triangle.circumcenter
  dsimp only
  rw [h1, h2, h3]
  ext <;> norm_num [V3.cross, V3.scale, V3.div, above]

private theorem run_next {σ α β : Type} {m : Act σ α} {f : α → Act σ β} {s s' : σ} {a : α} (h : m s = (.ok a, s')) :
    (m >>= f) s = f a s' := by
  show Act.bind m f s = _
  unfold Act.bind; rw [h]

/-- C123 fails: a sound mesh of two triangles in which one has an area of 12 m² and its circumcenter as a corner of the other;
asked for triangles of at most 10 m², refining ends at once and well, and leaves it as it is. -/
theorem C123_violated_area : ∃ m : Mesh, Sound m ∧ m.nValid = 2 ∧ (∃ t ∈ m.triangles, t.triangle.area = 12) ∧
    ∀ k, Mesh.refine 10 2 (k + 1) m = (.ok (some ()), m) := by
  refine ⟨two, two_sound, rfl, ⟨_, List.mem_cons_self, above_area⟩, fun k => ?_⟩
  have hp0 : piece 0 two = (.ok { fresh above 0 with n0 := some 1 }, two) := rfl
  have hp1 : piece 1 two = (.ok { fresh below 1 with n0 := some 0 }, two) := rfl
  have t0 : above.testPoint ⟨4, -(7 / 6), 0⟩ = .outside := by
    unfold Triangle.testPoint V3.tiny above
    norm_num [V3.dot]
  have t1 : below.testPoint ⟨4, -(7 / 6), 0⟩ = .vertexC := by
    unfold Triangle.testPoint V3.tiny below
    norm_num [V3.dot]
  have hloc : locate two ⟨4, -(7 / 6), 0⟩ = some 1 := by
    simp [locate, two, fresh, t0, t1]
  have hadd : addPoint ⟨4, -(7 / 6), 0⟩ two = (.ok false, two) := by
    unfold addPoint
    rw [run_next (show Act.get two = (.ok two, two) from rfl), hloc]
    dsimp only
    rw [run_next hp1, show ({ fresh below 1 with n0 := some 0 } : TriPiece).triangle = below from rfl, t1]
    unfold addPointToTriangle
    rw [run_next hp1]
    rfl
  have h0 : refineOne 10 2 0 two = (.ok false, two) := by
    unfold refineOne
    rw [run_next hp0, if_neg (by simp [fresh])]
    rw [show ({ fresh above 0 with n0 := some 1 } : TriPiece).triangle = above from rfl, above_area, above_ratio,
      if_neg (by norm_num), if_neg (by norm_num), if_pos (by norm_num)]
    unfold refineArea
    rw [run_next hp0, show ({ fresh above 0 with n0 := some 1 } : TriPiece).triangle = above from rfl, above_center]
    have : attempt (addPoint ⟨4, -(7 / 6), 0⟩) two = (.ok (some false), two) := by unfold attempt; rw [hadd]
    rw [run_next this]
    rfl
  have h1 : refineOne 10 2 1 two = (.ok false, two) := by
    unfold refineOne
    rw [run_next hp1, if_neg (by simp [fresh])]
    rw [show ({ fresh below 1 with n0 := some 0 } : TriPiece).triangle = below from rfl, below_area, below_ratio,
      if_neg (by norm_num), if_neg (by norm_num), if_neg (by norm_num)]
    rfl
  unfold Mesh.refine
  rw [run_next (show Act.get two = (.ok two, two) from rfl)]
  have hr : refineRound 10 2 (List.range two.triangles.length) false two = (.ok false, two) := by
    show refineRound 10 2 [0, 1] false two = _
    unfold refineRound
    rw [run_next h0]
    unfold refineRound
    rw [run_next h1]
    rfl
  rw [run_next hr]
  rfl

/-- There are meshes that refining ends with: its hypothesis holds of the two triangles, one of which is small enough and the
other an exception. -/
example : ∃ m : Mesh, Sound m ∧ Mesh.refine 10 2 1 m = (.ok (some ()), m) ∧ ∀ t ∈ m.triangles, Fine 10 2 m t := by
  obtain ⟨m, h1, -, -, h2⟩ := C123_violated_area
  exact ⟨m, h1, h2 0, C123_refine_partial 10 2 1 m m (h2 0)⟩

end Simple.Geometry.Mesh
