import Verif.Geometry.TriangulationModel
import Verif.Geometry.PolygonProps
import Verif.Geometry.ExactTriangulation

/-! # C50: triangulating a polygon

The specification: the vector area of a triangle is half the cross product of two of its sides; that of a polygon is in
`LoopProps`. -/

namespace Simple.Geometry.Mesh

open Simple.Geometry.Loop (Spec.areaVector C47_start C47_ear)

namespace Spec

/-- The vector area of a triangle. -/
noncomputable def area (t : Triangle ℝ) : V3 ℝ := ((t.b - t.a).cross (t.c - t.a)).scale (1 / 2)

/-- The vector area of some triangles together. -/
noncomputable def total (l : List (Triangle ℝ)) : V3 ℝ := (l.map area).sum

/-- The triangles of the mesh, with those that have been invalidated. -/
def triangles (m : Mesh) : List (Triangle ℝ) := m.triangles.map TriPiece.triangle

/-- The three corners are apart, and they are not in line. -/
def Proper (t : Triangle ℝ) : Prop :=
  t.a.compare t.b = false ∧ t.a.compare t.c = false ∧ t.b.compare t.c = false ∧ t.a.isCollinear t.b t.c = .ok false

end Spec

/-! ### Cutting a corner off -/

/-- The list starts at the corner, up to a rotation, and the corner is cut off. -/
theorem ear_shape {α : Type*} (l : List α) (i : ℕ) (hn : 3 ≤ l.length) (v0 v1 v2 : α)
    (h0 : l[i % l.length]? = some v0) (h1 : l[(i + 1) % l.length]? = some v1) (h2 : l[(i + 2) % l.length]? = some v2) :
    ∃ ws, (v0 :: v1 :: v2 :: ws) ~r l ∧ (v0 :: v2 :: ws) ~r (l.eraseIdx ((i + 1) % l.length)) := by
  have hpos : 0 < l.length := by omega
  obtain ⟨j, hj⟩ : ∃ j, j = (i + 1) % l.length := ⟨_, rfl⟩
  have hjlt : j < l.length := hj ▸ Nat.mod_lt _ hpos
  rw [← hj] at h1 ⊢
  -- the list from `v1` on
  have hrot : l.rotate j = l.drop j ++ l.take j := List.rotate_eq_drop_append_take hjlt.le
  have hdrop : l.drop j = v1 :: l.drop (j + 1) := by
    rw [List.drop_eq_getElem_cons hjlt]
    rw [List.getElem?_eq_getElem hjlt, Option.some.injEq] at h1
    rw [h1]
  obtain ⟨zs, hzs⟩ : ∃ zs, zs = l.drop (j + 1) ++ l.take j := ⟨_, rfl⟩
  have hr : l.rotate j = v1 :: zs := by rw [hrot, hdrop, hzs]; rfl
  have hzl : zs.length + 1 = l.length := by
    have := congrArg List.length hr; simpa [eq_comm] using this
  have he : l.eraseIdx j ~r zs := by
    rw [List.eraseIdx_eq_take_drop_succ, hzs]
    have hlen : (l.take j).length = j := by simp; omega
    have h3 : (l.take j ++ l.drop (j + 1)).rotate j = l.drop (j + 1) ++ l.take j := by
      have := List.rotate_append_length_eq (l.take j) (l.drop (j + 1))
      rwa [hlen] at this
    exact ⟨j, h3⟩
  have hget : ∀ k, k < l.length → (v1 :: zs)[k]? = l[(k + j) % l.length]? := by
    intro k hk
    rw [← hr, List.getElem?_rotate hk]
  have g2 : zs[0]? = some v2 := by
    have := hget 1 (by omega)
    rw [List.getElem?_cons_succ] at this
    rw [this, ← h2, hj]
    congr 1
    rw [Nat.add_mod_mod]
    congr 1
    omega
  have g0 : zs[l.length - 2]? = some v0 := by
    have := hget (l.length - 1) (by omega)
    rw [show l.length - 1 = (l.length - 2) + 1 by omega, List.getElem?_cons_succ] at this
    rw [this, ← h0, hj]
    congr 1
    rw [Nat.add_mod_mod, show l.length - 2 + 1 + (i + 1) = i + l.length by omega, Nat.add_mod_right]
  -- `zs = v2 :: ws ++ [v0]`
  obtain ⟨ws, hws⟩ : ∃ ws, zs = v2 :: (ws ++ [v0]) := by
    match zs, g2, g0, hzl with
    | a :: t, g2, g0, hzl =>
      simp only [List.getElem?_cons_zero, Option.some.injEq] at g2
      subst g2
      have ht : t ≠ [] := by rintro rfl; simp at hzl; omega
      refine ⟨t.dropLast, ?_⟩
      have hl : t.getLast? = some v0 := by
        rw [List.getLast?_eq_getElem?]
        have : l.length - 2 = (t.length - 1) + 1 := by
          have : 0 < t.length := List.length_pos_iff.2 ht
          simp at hzl; omega
        rw [this, List.getElem?_cons_succ] at g0
        exact g0
      rw [List.getLast?_eq_some_getLast ht, Option.some.injEq] at hl
      rw [← hl, List.dropLast_concat_getLast ht]
  refine ⟨ws, ?_, ?_⟩
  · have h3 : (v0 :: v1 :: v2 :: ws).rotate 1 = v1 :: v2 :: (ws ++ [v0]) := by simp
    have h4 : l ~r (v1 :: v2 :: (ws ++ [v0])) := ⟨j, by rw [hr, hws]⟩
    exact List.IsRotated.trans ⟨1, h3⟩ h4.symm
  · have h3 : (v0 :: v2 :: ws).rotate 1 = v2 :: (ws ++ [v0]) := by simp
    rw [hws] at he
    exact List.IsRotated.trans ⟨1, h3⟩ he.symm

private theorem ear_area (l : List (V3 ℝ)) (i : ℕ) (hn : 3 ≤ l.length) (v0 v1 v2 : V3 ℝ)
    (h0 : l[i % l.length]? = some v0) (h1 : l[(i + 1) % l.length]? = some v1) (h2 : l[(i + 2) % l.length]? = some v2) :
    Loop.Spec.areaVector l = Spec.area ⟨v0, v1, v2⟩ + Loop.Spec.areaVector (l.eraseIdx ((i + 1) % l.length)) := by
  obtain ⟨ws, ⟨k1, hk1⟩, ⟨k2, hk2⟩⟩ := ear_shape l i hn v0 v1 v2 h0 h1 h2
  rw [← hk2, ← hk1, C47_start, C47_start]
  have := C47_ear [] ws v0 v1 v2
  simp only [List.nil_append] at this
  rw [this, add_comm]
  rfl

/-! ### What does not change the triangles -/

/-- The same triangles, of which the same are valid. -/
def Same (m m' : Mesh) : Prop :=
  m'.triangles.map (fun t => (t.triangle, t.valid)) = m.triangles.map (fun t => (t.triangle, t.valid)) ∧ m'.nValid = m.nValid

theorem Same.refl (m : Mesh) : Same m m := ⟨rfl, rfl⟩

theorem Same.trans {m m' m'' : Mesh} (h : Same m m') (h' : Same m' m'') : Same m m'' :=
  ⟨h'.1.trans h.1, h'.2.trans h.2⟩

theorem map_modify (l : List TriPiece) (i : ℕ) (f : TriPiece → TriPiece)
    (hf : ∀ t, (f t).triangle = t.triangle ∧ (f t).valid = t.valid) :
    (l.modify i f).map (fun t => (t.triangle, t.valid)) = l.map (fun t => (t.triangle, t.valid)) := by
  apply List.ext_getElem?
  intro k
  simp only [List.getElem?_map, List.getElem?_modify]
  cases l[k]? with
  | none => simp
  | some t =>
    by_cases h : i = k
    · simp [h, hf t]
    · simp [h]

theorem constrain_same (e : Edge) (t : TriPiece) :
    (t.constrain e).triangle = t.triangle ∧ (t.constrain e).valid = t.valid := by cases e <;> exact ⟨rfl, rfl⟩

theorem setNeighbour_same (e : Edge) (i : ℕ) (t : TriPiece) :
    (t.setNeighbour e i).triangle = t.triangle ∧ (t.setNeighbour e i).valid = t.valid := by cases e <;> exact ⟨rfl, rfl⟩

theorem update_same {i : ℕ} {f : TriPiece → TriPiece} {m m0 : Mesh}
    (hf : ∀ t, (f t).triangle = t.triangle ∧ (f t).valid = t.valid) (h0 : Same m0 m) :
    (update i f).Sat m (fun _ m' => Same m0 m') (Same m0) :=
  Act.sat_modify (h0.trans ⟨map_modify _ _ _ hf, rfl⟩)

theorem piece_sat {i : ℕ} {m : Mesh} {Q : TriPiece → Mesh → Prop} {E : Mesh → Prop}
    (h : ∀ t, m.triangles[i]? = some t → Q t m) (he : E m) : (piece i).Sat m Q E := by
  unfold Act.Sat piece Outcome.index
  cases hi : m.triangles[i]? with
  | none => exact he
  | some t => exact h t hi

theorem mark_same (i1 : ℕ) (e : Edge) (i2 : ℕ) (m m0 : Mesh) (h0 : Same m0 m) :
    (markAsNeighbours i1 e i2).Sat m (fun _ m' => Same m0 m') (Same m0) := by
  unfold markAsNeighbours
  refine Act.sat_ite (fun _ => Act.sat_err h0) fun _ => Act.sat_bind (piece_sat (fun t1 _ => ?_) h0)
  refine Act.sat_ite (fun _ => Act.sat_err h0) fun _ => Act.sat_bind (piece_sat (fun t2 _ => ?_) h0)
  refine Act.sat_ite (fun _ => Act.sat_err h0) fun _ => ?_
  cases t2.triangle.edgeOf (t1.triangle.segment e) with
  | none => exact Act.sat_err h0
  | some e2 =>
    exact Act.sat_bind (Act.sat_mono (update_same (setNeighbour_same e i2) h0)
      (fun _ m' h => update_same (setNeighbour_same e2 i1) h) (fun _ h => h))

private theorem markNeighbourhoods_same (m : Mesh) :
    markNeighbourhoods.Sat m (fun _ m' => Same m m') (Same m) := by
  unfold markNeighbourhoods
  refine Act.sat_bind (Act.sat_get (Act.sat_each (Same m) _ (fun p _ s hs => ?_) m (Same.refl m)))
  unfold markPair
  refine Act.sat_bind (piece_sat (fun t _ => Act.sat_bind (piece_sat (fun o _ => ?_) hs)) hs)
  cases sharedEdge t o with
  | none => exact Act.sat_pure hs
  | some e => exact mark_same _ _ _ _ _ hs

private theorem constrainEdges_same (poly : Polygon) (i : ℕ) (v0 v1 v2 : V3 ℝ) (m : Mesh) :
    (constrainEdges poly i v0 v1 v2).Sat m (fun _ m' => Same m m') (Same m) := by
  have one : ∀ (b : Bool) (e : Edge) (s : Mesh), Same m s →
      (Act.when b (update i fun t => t.constrain e)).Sat s (fun _ m' => Same m m') (Same m) := fun b e s hs =>
    Act.sat_when (fun _ => update_same (constrain_same e) hs) (fun _ => hs)
  unfold constrainEdges
  refine Act.sat_bind (Act.sat_mono (one _ _ m (Same.refl m)) (fun _ s hs => ?_) (fun _ h => h))
  exact Act.sat_bind (Act.sat_mono (one _ _ s hs) (fun _ s hs => one _ _ s hs) (fun _ h => h))

/-! ### C50 -/

theorem firstInvalid_end (m : Mesh) : m.firstInvalid m.triangles.length = none := by
  unfold firstInvalid
  rw [Option.map_eq_none_iff, List.find?_eq_none]
  rintro ⟨t, k⟩ ht
  have := List.snd_lt_of_mem_zipIdx ht
  simp at this ⊢
  omega

theorem new_ok {a b c : V3 ℝ} {t : Triangle ℝ} (h : Triangle.new a b c = .ok t) :
    t = ⟨a, b, c⟩ ∧ Spec.Proper t := by
  unfold Triangle.new at h
  split_ifs at h with h1
  simp only [Bool.or_eq_true, not_or, Bool.not_eq_true] at h1
  cases hc : a.isCollinear b c with
  | err => rw [hc] at h; simp [Outcome.bind] at h
  | panic => rw [hc] at h; simp [Outcome.bind] at h
  | ok col =>
    rw [hc] at h
    simp only [Outcome.bind] at h
    cases col with
    | true => simp at h
    | false =>
      simp only [Bool.false_eq_true, if_false, Outcome.ok.injEq] at h
      subst h
      exact ⟨rfl, h1.1.1, h1.1.2, h1.2, hc⟩

private theorem push_end (a b c : V3 ℝ) (m : Mesh) :
    (push a b c m.triangles.length).Sat m
      (fun _ m' => Spec.Proper ⟨a, b, c⟩ ∧ m'.nValid = m.nValid + 1 ∧
        m'.triangles.map (fun t => (t.triangle, t.valid)) =
          m.triangles.map (fun t => (t.triangle, t.valid)) ++ [(⟨a, b, c⟩, true)])
      (fun _ => True) := by
  unfold Act.Sat push
  rw [firstInvalid_end]
  simp only [Option.getD_none]
  unfold TriPiece.new
  cases h : Triangle.new a b c with
  | err => trivial
  | panic => trivial
  | ok t =>
    obtain ⟨rfl, hp⟩ := new_ok h
    simp [Outcome.bind, place, hp]

private theorem clip_spec (poly : Polygon) (k : ℕ) : ∀ (l : Loop) (anchor : ℕ) (m : Mesh), 2 ≤ l.vertices.length →
    (clip poly k l anchor).Sat m (fun _ m' => l.vertices.length ≤ k + 1 ∧ ∃ ts : List (Triangle ℝ),
      ts.length + 2 = l.vertices.length ∧ m'.nValid = m.nValid + ts.length ∧
      m'.triangles.map (fun t => (t.triangle, t.valid)) =
        m.triangles.map (fun t => (t.triangle, t.valid)) ++ ts.map (fun t => (t, true)) ∧
      (∀ t ∈ ts, Spec.Proper t ∧ t.a ∈ l.vertices ∧ t.b ∈ l.vertices ∧ t.c ∈ l.vertices) ∧
      Spec.total ts = Loop.Spec.areaVector l.vertices) (fun _ => True) := by
  induction k with
  | zero => intro l anchor m _; exact Act.sat_err trivial
  | succ k ih =>
    intro l anchor m hl
    unfold clip
    refine Act.sat_bind (Act.sat_get ?_)
    refine Act.sat_ite (fun h2 => ?_) (fun h2 => ?_)
    · refine Act.sat_mono (markNeighbourhoods_same m) (fun _ m' hs => ⟨by omega, [], by simpa using h2.symm, by simpa using hs.2,
        by simpa using hs.1, by simp, ?_⟩) (fun _ _ => trivial)
      match hv : l.vertices, h2 with
      | [a, b], _ => ext <;> simp [Spec.total, Loop.Spec.areaVector, Loop.Spec.fan]
    · have h3 : 3 ≤ l.vertices.length := by omega
      refine Act.sat_bind (Act.sat_lift (fun v0 h0 => Act.sat_bind (Act.sat_lift (fun v1 h1 =>
        Act.sat_bind (Act.sat_lift (fun v2 h2 => Act.sat_bind (Act.sat_lift (fun ear _ => ?_) trivial)) trivial)) trivial)) trivial)
      have some_of : ∀ {i v}, Outcome.index l.vertices i = .ok v → l.vertices[i]? = some v := by
        intro i v h
        unfold Outcome.index at h
        cases hi : l.vertices[i]? with
        | none => rw [hi] at h; simp at h
        | some w => rw [hi] at h; simpa using h
      refine Act.sat_ite (fun _ => ?_) (fun _ => ?_)
      · refine Act.sat_bind (Act.sat_mono (push_end v0 v1 v2 m) (fun _ m1 hm1 => ?_) (fun _ _ => trivial))
        refine Act.sat_bind (Act.sat_mono (constrainEdges_same poly _ v0 v1 v2 m1) (fun _ m2 hm2 => ?_) (fun _ _ => trivial))
        obtain ⟨hp, hn, hm⟩ := hm1
        have hlt : (anchor + 1) % l.vertices.length < l.vertices.length := Nat.mod_lt _ (by omega)
        have hlen : (l.remove ((anchor + 1) % l.vertices.length)).vertices.length + 1 = l.vertices.length := by
          show (l.vertices.eraseIdx _).length + 1 = _
          rw [List.length_eraseIdx_of_lt hlt]; omega
        refine Act.sat_mono (ih _ anchor m2 (by omega)) (fun _ m' hm' => ?_) (fun _ _ => trivial)
        obtain ⟨hk, ts, e1, e2, e3, e4, e5⟩ := hm'
        have mem : ∀ v ∈ (l.remove ((anchor + 1) % l.vertices.length)).vertices, v ∈ l.vertices :=
          fun v hv => List.eraseIdx_sublist _ _ |>.subset hv
        refine ⟨by omega, ⟨v0, v1, v2⟩ :: ts, by simp; omega, ?_, ?_, ?_, ?_⟩
        · rw [e2, hm2.2, hn, List.length_cons]; omega
        · rw [e3, hm2.1, hm]; simp
        · intro t ht
          rcases List.mem_cons.1 ht with rfl | ht
          · exact ⟨hp, List.mem_of_getElem? (some_of h0), List.mem_of_getElem? (some_of h1), List.mem_of_getElem? (some_of h2)⟩
          · obtain ⟨q0, q1, q2, q3⟩ := e4 t ht
            exact ⟨q0, mem _ q1, mem _ q2, mem _ q3⟩
        · rw [ear_area l.vertices anchor h3 v0 v1 v2 (some_of h0) (some_of h1) (some_of h2)]
          simp only [Spec.total, List.map_cons, List.sum_cons] at e5 ⊢
          rw [e5]
          rfl
      · refine Act.sat_mono (ih l (anchor + 1) m hl) (fun _ m' hm' => ?_) (fun _ _ => trivial)
        obtain ⟨hk, ts, e⟩ := hm'
        exact ⟨by omega, ts, e⟩

/-- C50: when a polygon is triangulated, the triangles are two fewer than the vertices of the single loop that stands
for it once that is closed, their vertices are vertices of that loop, none is degenerate, their signed areas add up to
that of the loop, and all of them are valid. -/
theorem C50_triangulation (poly : Polygon) (m : Mesh) (h : ofPolygon poly = .ok m) :
    ∃ l l' : Loop, poly.getClosedLoop = .ok l ∧ l.close = (.ok (), l') ∧
      (Spec.triangles m).length + 2 = l'.vertices.length ∧
      (∀ t ∈ Spec.triangles m, Spec.Proper t ∧
        t.a ∈ l'.vertices ∧ t.b ∈ l'.vertices ∧ t.c ∈ l'.vertices) ∧
      Spec.total (Spec.triangles m) = Loop.Spec.areaVector l'.vertices ∧
      (∀ t ∈ m.triangles, t.valid = true) ∧ m.nValid = m.triangles.length ∧ m.triangles.length ≤ 219 := by
  unfold ofPolygon at h
  cases hl : poly.getClosedLoop with
  | err => rw [hl] at h; simp [Outcome.bind] at h
  | panic => rw [hl] at h; simp [Outcome.bind] at h
  | ok l =>
    rw [hl] at h
    simp only [Outcome.bind] at h
    have hcl := (Loop.C48_close l).2
    cases hc : l.close with
    | mk o l' =>
      rw [hc] at h hcl
      cases o with
      | err => simp at h
      | panic => simp at h
      | ok u =>
        simp only at h hcl
        have h3 : 3 ≤ l'.vertices.length := (hcl trivial).2.2.2.2.1
        cases hm : clip poly 220 l' 0 new with
        | mk o m' =>
          rw [hm] at h
          cases o with
          | err => simp at h
          | panic => simp at h
          | ok u =>
            simp only [Outcome.ok.injEq] at h
            subst h
            obtain ⟨hk, ts, e1, e2, e3, e4, e5⟩ := Act.sat_ok (clip_spec poly 220 l' 0 new (by omega)) hm
            have etri : Spec.triangles m' = ts := by
              have := congrArg (List.map Prod.fst) e3
              simpa [Spec.triangles, new, Function.comp_def] using this
            have elen : m'.triangles.length = ts.length := by rw [← etri]; simp [Spec.triangles]
            refine ⟨l, l', rfl, hc, by rw [etri, e1], by rw [etri]; exact e4, by rw [etri]; exact e5, ?_, ?_, by omega⟩
            · intro t ht
              have := congrArg (List.map Prod.snd) e3
              simp only [new, List.map_nil, List.nil_append, List.map_map] at this
              have ht' : t.valid ∈ m'.triangles.map (Prod.snd ∘ fun t => (t.triangle, t.valid)) :=
                List.mem_map.2 ⟨t, ht, rfl⟩
              rw [this] at ht'
              obtain ⟨_, _, he⟩ := List.mem_map.1 ht'
              exact he.symm
            · rw [e2, elen]; simp [new]

/-- C50: the signed areas of the triangles add up to the area of the polygon.

Missing: what `C49_same_area_partial` asks of the polygon, and the vertices that are dropped when the single loop is
closed, which are in line with their neighbours only up to a tolerance. -/
theorem C50_area_partial (poly : Polygon) (m : Mesh) (l l' : Loop) (h : ofPolygon poly = .ok m)
    (hl : poly.getClosedLoop = .ok l) (hc : l.close = (.ok (), l')) (hsame : l'.vertices = l.vertices)
    (hp : Polygon.Spec.Reachable poly)
    (hsep : (poly.outer.vertices ++ poly.inner.flatMap Loop.vertices).Pairwise Polygon.Spec.Apart)
    (hs : ∀ l ∈ poly.outer :: poly.inner, Loop.Spec.Sound l ∧ l.vertices.length < 2 ^ 31 ∧
      (l.normal = poly.outer.normal ∨ l.normal = -poly.outer.normal))
    (hd : ∀ l ∈ poly.inner, l.normal = poly.outer.normal → l.vertices.length ∣ 2 ^ 64) :
    poly.outer.normal.dot (Spec.total (Spec.triangles m)) = poly.area := by
  obtain ⟨k, k', hk, hkc, -, -, ht, -⟩ := C50_triangulation poly m h
  rw [hl, Outcome.ok.injEq] at hk
  subst hk
  rw [hc] at hkc
  simp only [Prod.mk.injEq, true_and] at hkc
  subst hkc
  rw [ht, hsame]
  exact Polygon.C49_same_area_partial poly l hl hp hsep hs hd

/-- C50: a polygon whose single loop has more than 221 vertices is never triangulated: the number of iterations is
limited, although each cuts off one vertex at most. -/
theorem C50_violated_many (poly : Polygon) (l l' : Loop) (hl : poly.getClosedLoop = .ok l)
    (hc : l.close = (.ok (), l')) (hn : 221 < l'.vertices.length) : ∀ m, ofPolygon poly ≠ .ok m := by
  intro m h
  obtain ⟨k, k', hk, hkc, h1, -, -, -, -, h2⟩ := C50_triangulation poly m h
  rw [hl, Outcome.ok.injEq] at hk
  subst hk
  rw [hc] at hkc
  simp only [Prod.mk.injEq, true_and] at hkc
  subst hkc
  simp only [Spec.triangles, List.length_map] at h1
  omega

private theorem mem_around (l : List (V3 ℝ)) (i : ℕ) (a b : V3 ℝ) (ha : l[i]? = some a) (hb : l[(i + 1) % l.length]? = some b) :
    (a, b) ∈ Loop.around l := by
  cases l with
  | nil => simp at ha
  | cons x t =>
    unfold Loop.around
    have hi : i < (x :: t).length := by
      by_contra h
      rw [List.getElem?_eq_none (not_lt.1 h)] at ha
      cases ha
    apply List.mem_of_getElem? (i := i)
    rw [List.getElem?_zip_eq_some]
    refine ⟨ha, ?_⟩
    simp only [List.length_cons] at hi hb
    by_cases hlast : i = t.length
    · rw [hlast, Nat.mod_self] at hb
      rw [hlast, List.getElem?_append_right (le_refl _), Nat.sub_self]
      simpa using hb
    · rw [Nat.mod_eq_of_lt (by omega), List.getElem?_cons_succ] at hb
      rw [List.getElem?_append_left (by omega)]
      exact hb

private theorem clearOf_true (s : Segment ℝ) (es : List (V3 ℝ × V3 ℝ)) (h : Loop.clearOf s es = .ok true) :
    ∀ e ∈ es, s.intersect ⟨e.1, e.2⟩ = none := by
  induction es with
  | nil => intro e he; simp at he
  | cons e es ih =>
    unfold Loop.clearOf at h
    cases ht : Loop.touchesSide s ⟨e.1, e.2⟩ with
    | err => rw [ht] at h; simp [Outcome.bind] at h
    | panic => rw [ht] at h; simp [Outcome.bind] at h
    | ok b =>
      rw [ht] at h
      cases b with
      | true => simp [Outcome.bind] at h
      | false =>
        simp only [Outcome.bind, Bool.false_eq_true, if_false] at h
        intro e' he'
        rcases List.mem_cons.1 he' with rfl | he'
        · unfold Loop.touchesSide at ht
          cases hc : s.contains ⟨e'.1, e'.2⟩ with
          | err => rw [hc] at ht; simp [Outcome.bind] at ht
          | panic => rw [hc] at ht; simp [Outcome.bind] at ht
          | ok c =>
            rw [hc] at ht
            simp only [Outcome.bind, Outcome.ok.injEq, Bool.or_eq_false_iff] at ht
            simpa using ht.1.1
        · exact ih h e' he'

/-- C50: a corner of a loop of more than three vertices is cut off only along a segment that crosses none of the sides
(those of its plane that are not almost parallel to it) and whose middle is in the loop, and only if it is not flat. -/
theorem C50_ear (l : Loop) (v0 v1 v2 : V3 ℝ) (h : isEar l v0 v1 v2 = .ok true) (hn : l.vertices.length ≠ 3) :
    (∀ i a b, l.vertices[i]? = some a → l.vertices[(i + 1) % l.vertices.length]? = some b →
      Segment.Spec.Coplanar ⟨v0, v2⟩ ⟨a, b⟩ → 1 / 100000 ≤ (Segment.Spec.normal (⟨v0, v2⟩ : Segment ℝ) ⟨a, b⟩).lengthSquared →
      ∀ s t : ℝ, 0 ≤ s → s ≤ 1 → 1 / 10 ^ 8 ≤ t → t < 1 - 1 / 10 ^ 8 →
        Segment.Spec.pointAt ⟨v0, v2⟩ s ≠ Segment.Spec.pointAt ⟨a, b⟩ t) ∧
      l.testPoint (⟨v0, v2⟩ : Segment ℝ).midpoint = .ok true ∧ v0.isCollinear v1 v2 = .ok false := by
  unfold isEar at h
  cases hline : v0.isCollinear v1 v2 with
  | err => rw [hline] at h; simp [Outcome.bind] at h
  | panic => rw [hline] at h; simp [Outcome.bind] at h
  | ok line =>
    rw [hline] at h
    cases hdiag : l.isDiagonal ⟨v0, v2⟩ with
    | err => rw [hdiag] at h; simp [Outcome.bind] at h
    | panic => rw [hdiag] at h; simp [Outcome.bind] at h
    | ok diag =>
      rw [hdiag] at h
      simp only [Outcome.bind, Outcome.ok.injEq, decide_eq_false hn, Bool.false_or, Bool.and_eq_true, Bool.not_eq_true'] at h
      obtain ⟨rfl, rfl⟩ := h
      unfold Loop.isDiagonal at hdiag
      split at hdiag
      · simp at hdiag
      · cases hclear : Loop.clearOf ⟨v0, v2⟩ (Loop.around l.vertices) with
        | err => rw [hclear] at hdiag; simp [Outcome.bind] at hdiag
        | panic => rw [hclear] at hdiag; simp [Outcome.bind] at hdiag
        | ok clear =>
          rw [hclear] at hdiag
          cases clear with
          | false => simp [Outcome.bind] at hdiag
          | true =>
            simp only [Outcome.bind, Bool.not_true, Bool.false_eq_true, if_false] at hdiag
            refine ⟨fun i a b ha hb hc hnn s t hs0 hs1 ht0 ht1 heq => ?_, hdiag, rfl⟩
            have hno := clearOf_true _ _ hclear (a, b) (mem_around _ i a b ha hb)
            have := (Segment.C46_intersect ⟨v0, v2⟩ ⟨a, b⟩ hc hnn (Segment.Spec.pointAt ⟨v0, v2⟩ s)).2
              ⟨s, t, ⟨by linarith [show (0 : ℝ) < 1 / 10 ^ 12 by norm_num], by linarith [show (0 : ℝ) < 1 / 10 ^ 7 by norm_num]⟩,
                ⟨ht0, ht1⟩, rfl, heq⟩
            rw [hno] at this
            cases this

/-! ### Concrete polygons -/

theorem Same.lookup {m m' : Mesh} (h : Same m m') {i : ℕ} {t : TriPiece} (ht : m.triangles[i]? = some t) :
    ∃ t', m'.triangles[i]? = some t' ∧ t'.triangle = t.triangle ∧ t'.valid = t.valid := by
  have := congrArg (·[i]?) h.1
  simp only [List.getElem?_map, ht, Option.map_some] at this
  obtain ⟨t', h1, h2⟩ := Option.map_eq_some_iff.1 this
  exact ⟨t', h1, congrArg Prod.fst h2, congrArg Prod.snd h2⟩

theorem piece_ok {i : ℕ} {m : Mesh} {t : TriPiece} {Q : TriPiece → Mesh → Prop} {E : Mesh → Prop}
    (ht : m.triangles[i]? = some t) (h : Q t m) : (piece i).Sat m Q E := by
  unfold Act.Sat piece Outcome.index
  rw [ht]
  exact h

theorem pairs_lt (n : ℕ) (p : ℕ × ℕ) (h : p ∈ pairs n) : p.1 < p.2 ∧ p.2 < n := by
  unfold pairs at h
  simp only [List.mem_flatMap, List.mem_range, List.mem_map] at h
  obtain ⟨i, hi, k, hk, rfl⟩ := h
  simp
  omega

/-- Marking the neighbours of a mesh whose triangles are all valid does not fail. -/
theorem markNeighbourhoods_ok (m : Mesh) (hv : ∀ t ∈ m.triangles, t.valid = true) :
    markNeighbourhoods.Sat m (fun _ m' => Same m m') (fun _ => False) := by
  unfold markNeighbourhoods
  refine Act.sat_bind (Act.sat_get (Act.sat_each (Same m) _ (fun p hp s hs => ?_) m (Same.refl m)))
  obtain ⟨h1, h2⟩ := pairs_lt _ p hp
  obtain ⟨t1, g1, -, v1⟩ := hs.lookup (List.getElem?_eq_getElem (show p.1 < m.triangles.length by omega))
  obtain ⟨t2, g2, -, v2⟩ := hs.lookup (List.getElem?_eq_getElem h2)
  rw [hv _ (List.getElem_mem _)] at v1 v2
  unfold markPair
  refine Act.sat_bind (piece_ok g1 (Act.sat_bind (piece_ok g2 ?_)))
  cases he : sharedEdge t1 t2 with
  | none => exact Act.sat_pure hs
  | some e =>
    have hsome := List.find?_some he
    unfold markAsNeighbours
    simp only
    rw [if_neg (by omega)]
    refine Act.sat_bind (piece_ok g1 ?_)
    rw [if_neg (by simp [v1])]
    refine Act.sat_bind (piece_ok g2 ?_)
    rw [if_neg (by simp [v2])]
    obtain ⟨e2, he2⟩ := Option.isSome_iff_exists.1 hsome
    rw [he2]
    have s1 : Same m ⟨s.triangles.modify p.1 fun t => t.setNeighbour e p.2, s.nValid⟩ :=
      hs.trans ⟨map_modify _ _ _ (setNeighbour_same e p.2), rfl⟩
    have s2 : Same m ⟨(s.triangles.modify p.1 fun t => t.setNeighbour e p.2).modify p.2 fun t => t.setNeighbour e2 p.1, s.nValid⟩ :=
      s1.trans ⟨map_modify _ _ _ (setNeighbour_same e2 p.1), rfl⟩
    exact Act.sat_bind (Act.sat_modify (Act.sat_modify s2))

private theorem clip_ok (poly : Polygon) (k : ℕ) : ∀ (q : QLoop) (l : Loop) (anchor : ℕ) (m : Mesh) (ts : List (Triangle ℚ)),
    q.clip k anchor = some ts → q.Rep l → (∀ t ∈ m.triangles, t.valid = true) →
    (clip poly k l anchor).Sat m (fun _ _ => True) (fun _ => False) := by
  induction k with
  | zero => intro q l anchor m ts h; simp [QLoop.clip] at h
  | succ k ih =>
    intro q l anchor m ts h hr hv
    have hlen : l.vertices.length = q.vertices.length := by rw [hr.1, List.length_map]
    have valid_of : ∀ s : Mesh, Same m s → ∀ t ∈ s.triangles, t.valid = true := by
      intro s hs t ht
      have h1 : t.valid ∈ (s.triangles.map (fun t => (t.triangle, t.valid))).map Prod.snd := by
        rw [List.map_map]; exact List.mem_map.2 ⟨t, ht, rfl⟩
      rw [hs.1, List.map_map] at h1
      obtain ⟨t', ht', e⟩ := List.mem_map.1 h1
      rw [← e]
      exact hv t' ht'
    unfold QLoop.clip at h
    unfold clip
    refine Act.sat_bind (Act.sat_get ?_)
    simp only [hlen]
    by_cases h2 : q.vertices.length = 2
    · rw [if_pos h2]
      exact Act.sat_mono (markNeighbourhoods_ok m hv) (fun _ _ _ => trivial) (fun _ h => h)
    · rw [if_neg h2] at h ⊢
      have some_of : ∀ i v, q.vertices[i]? = some v → Outcome.index l.vertices i = .ok v.real := by
        intro i v hi
        unfold Outcome.index
        rw [hr.1, List.getElem?_map, hi]
        rfl
      split at h
      · rename_i v0 v1 v2 h0 h1 h2
        refine Act.sat_bind (Act.sat_lift_ok (some_of _ _ h0) (Act.sat_bind (Act.sat_lift_ok (some_of _ _ h1)
          (Act.sat_bind (Act.sat_lift_ok (some_of _ _ h2) ?_)))))
        split at h
        · rename_i he
          refine Act.sat_bind (Act.sat_lift_ok (QLoop.isEar_rep hr _ _ _ _ he) ?_)
          simp only [if_true]
          split_ifs at h with hn
          obtain ⟨ts', h', -⟩ := Option.map_eq_some_iff.1 h
          have hnew := Triangle.newQ_real _ _ _ hn
          have hpush : (push v0.real v1.real v2.real m.triangles.length).Sat m
              (fun _ m' => ∀ t ∈ m'.triangles, t.valid = true) (fun _ => False) := by
            unfold Act.Sat push
            rw [firstInvalid_end]
            simp only [Option.getD_none]
            unfold TriPiece.new
            rw [hnew]
            simp only [Outcome.bind, place, lt_irrefl, if_false]
            intro t ht
            rcases List.mem_append.1 ht with ht | ht
            · exact hv t ht
            · simp only [List.mem_singleton] at ht; rw [ht]
          refine Act.sat_bind (Act.sat_mono hpush (fun _ m1 hm1 => ?_) (fun _ h => h))
          have one : ∀ (b : Bool) (e : Edge) (s : Mesh), Same m1 s →
              (Act.when b (update m.triangles.length fun t => t.constrain e)).Sat s (fun _ m' => Same m1 m') (fun _ => False) :=
            fun b e s hs => Act.sat_when (fun _ => Act.sat_modify (hs.trans ⟨map_modify _ _ _ (constrain_same e), rfl⟩)) (fun _ => hs)
          have hcon : (constrainEdges poly m.triangles.length v0.real v1.real v2.real).Sat m1 (fun _ m' => Same m1 m') (fun _ => False) := by
            unfold constrainEdges
            refine Act.sat_bind (Act.sat_mono (one _ _ m1 (Same.refl m1)) (fun _ s hs => ?_) (fun _ h => h))
            exact Act.sat_bind (Act.sat_mono (one _ _ s hs) (fun _ s hs => one _ _ s hs) (fun _ h => h))
          refine Act.sat_bind (Act.sat_mono hcon (fun _ m2 hm2 => ?_) (fun _ h => h))
          refine ih _ _ anchor m2 ts' h' ⟨?_, hr.2.1, hr.2.2.1, hr.2.2.2⟩ ?_
          · show l.vertices.eraseIdx _ = (q.vertices.eraseIdx _).map V3.real
            rw [hr.1, List.eraseIdx_map]
          · intro t ht
            have h1 : t.valid ∈ (m2.triangles.map (fun t => (t.triangle, t.valid))).map Prod.snd := by
              rw [List.map_map]; exact List.mem_map.2 ⟨t, ht, rfl⟩
            rw [hm2.1, List.map_map] at h1
            obtain ⟨t', ht', e⟩ := List.mem_map.1 h1
            rw [← e]
            exact hm1 t' ht'
        · rename_i he
          refine Act.sat_bind (Act.sat_lift_ok (QLoop.isEar_rep hr _ _ _ _ he) ?_)
          simp only [Bool.false_eq_true, if_false]
          exact ih q l (anchor + 1) m ts h hr hv
        · simp at h
      · simp at h

private def lpts (l : List (ℚ × ℚ)) : List (V3 ℚ) := l.map fun p => ⟨p.1, p.2, 0⟩

/-- A polygon with five sides that is not convex meets the hypothesis of `C50_triangulation`, and those of
`C50_area_partial`. -/
theorem pentagon : ∃ (poly : Polygon) (m : Mesh) (l l' : Loop), ofPolygon poly = .ok m ∧ poly.getClosedLoop = .ok l ∧
    l.close = (.ok (), l') ∧ l'.vertices = l.vertices ∧
    l'.vertices = [⟨0, 0, 0⟩, ⟨10, 0, 0⟩, ⟨10, 10, 0⟩, ⟨5, 2, 0⟩, ⟨0, 10, 0⟩] ∧
    Polygon.Spec.Reachable poly ∧ poly.inner = [] ∧
    poly.outer.vertices.length = 5 ∧ poly.area = 60 := by
  obtain ⟨o, ho, ro⟩ := QLoop.build_reachable (lpts [(0, 0), (10, 0), (10, 10), (5, 2), (0, 10)])
    ⟨lpts [(0, 0), (10, 0), (10, 10), (5, 2), (0, 10)], ⟨0, 0, 1⟩, true, 60⟩ (by decide +kernel)
  obtain ⟨p, hp, rp⟩ := QPolygon.new_rep (P := ⟨⟨lpts [(0, 0), (10, 0), (10, 10), (5, 2), (0, 10)], ⟨0, 0, 1⟩, true, 60⟩, [], 60, ⟨0, 0, 1⟩⟩)
    ro (by decide +kernel)
  obtain ⟨l, hl, rl⟩ := QPolygon.getClosedLoop_rep
    (q := ⟨lpts [(0, 0), (10, 0), (10, 10), (5, 2), (0, 10)], ⟨0, 0, 1⟩, false, 60⟩) rp (by decide +kernel)
  have hc := QLoop.close_real ⟨lpts [(0, 0), (10, 0), (10, 10), (5, 2), (0, 10)], ⟨0, 0, 1⟩, false, 60⟩ l.perimeter
  rw [← QLoop.eq_real rl] at hc
  have hq : (⟨lpts [(0, 0), (10, 0), (10, 10), (5, 2), (0, 10)], ⟨0, 0, 1⟩, false, 60⟩ : QLoop).close =
    (.ok (), ⟨lpts [(0, 0), (10, 0), (10, 10), (5, 2), (0, 10)], ⟨0, 0, 1⟩, true, 60⟩) := by decide +kernel
  rw [hq] at hc
  have hclip : ∃ ts, (⟨lpts [(0, 0), (10, 0), (10, 10), (5, 2), (0, 10)], ⟨0, 0, 1⟩, true, 60⟩ : QLoop).clip 220 0 = some ts :=
    Option.isSome_iff_exists.1 (by decide +kernel)
  obtain ⟨ts, hts⟩ := hclip
  obtain ⟨u, m, hm, -⟩ := Act.sat_exists (clip_ok p 220 _ l.close.2 0 new ts hts hc.2 (by simp [new]))
  have hcl : l.close = (.ok (), l.close.2) := Prod.ext hc.1 rfl
  refine ⟨p, m, l, l.close.2, ?_, hl, hcl, ?_, ?_, .new o p hp, ?_, ?_, ?_⟩
  · unfold ofPolygon
    rw [hl]
    simp only [Outcome.bind]
    rw [hcl]
    simp only
    rw [hm]
  · rw [hc.2.1, rl.1]
  · rw [hc.2.1]; simp [lpts, V3.real]
  · exact List.forall₂_nil_left_iff.1 rp.2.1
  · rw [rp.1.1]; rfl
  · rw [rp.2.2.1]; norm_num

/-- A corner of that loop is cut off: the hypotheses of `C50_ear`. -/
example : ∃ (l : Loop) (v0 v1 v2 : V3 ℝ), isEar l v0 v1 v2 = .ok true ∧ l.vertices.length = 5 := by
  obtain ⟨o, ho, ro⟩ := QLoop.build_reachable (lpts [(0, 0), (10, 0), (10, 10), (5, 2), (0, 10)])
    ⟨lpts [(0, 0), (10, 0), (10, 10), (5, 2), (0, 10)], ⟨0, 0, 1⟩, true, 60⟩ (by decide +kernel)
  exact ⟨o, _, _, _, QLoop.isEar_rep ro ⟨10, 0, 0⟩ ⟨10, 10, 0⟩ ⟨5, 2, 0⟩ true (by decide +kernel), by rw [ro.1]; rfl⟩

end Simple.Geometry.Mesh
