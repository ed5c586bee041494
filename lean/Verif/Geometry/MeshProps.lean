import Verif.Geometry.TriangulationProps

/-! # C51: editing a mesh

The specification: the triangles of a mesh by their number, the neighbour of each across each edge, and what it means
for the neighbours to be consistent. -/

namespace Simple.Geometry.Mesh

namespace Spec

/-- The triangle number `i`. -/
def tri (m : Mesh) (i : ℕ) : Option (Triangle ℝ) := (m.triangles[i]?).map TriPiece.triangle

/-- The neighbour of the triangle number `i` across its edge `e`. -/
def nb (m : Mesh) (i : ℕ) (e : Edge) : Option ℕ := (m.triangles[i]?).bind fun t => t.neighbour e

/-- The edge `e` of one triangle is the edge `e'` of the other, which goes along it in the opposite direction. -/
def Facing (t : Triangle ℝ) (e : Edge) (t' : Triangle ℝ) (e' : Edge) : Prop :=
  t'.vertex e' = t.vertex e.next ∧ t'.vertex e'.next = t.vertex e

/-- The neighbour across an edge has that edge too, and across it, it has this triangle as its neighbour. -/
def Linked (m : Mesh) : Prop :=
  ∀ i e j, nb m i e = some j → ∃ t t' e', tri m i = some t ∧ tri m j = some t' ∧ nb m j e' = some i ∧ Facing t e t' e'

/-- The counter is the number of valid triangles. -/
def Counted (m : Mesh) : Prop := m.nValid = m.triangles.countP fun t => t.valid

/-- All triangles are valid and none is degenerate; the neighbours are consistent. -/
structure Sound (m : Mesh) : Prop where
  valid : ∀ t ∈ m.triangles, t.valid = true
  counter : m.nValid = m.triangles.length
  proper : ∀ i t, tri m i = some t → Proper t
  linked : Linked m

end Spec

open Spec

/-! ### Edges -/

theorem compare_self (a : V3 ℝ) : a.compare a = true := by
  simp [V3.compare, V3.compareBy, V3.lengthSquared]

theorem compare_comm (a b : V3 ℝ) : a.compare b = b.compare a := by
  have : (a - b).lengthSquared = (b - a).lengthSquared := by simp [V3.lengthSquared]; ring
  simp only [V3.compare, V3.compareBy, this]

theorem Edge.next3 (e : Edge) : e.next.next.next = e := by cases e <;> rfl

theorem Edge.next_ne (e : Edge) : e.next ≠ e := by cases e <;> simp [Edge.next]

theorem Edge.next2_ne (e : Edge) : e.next.next ≠ e := by cases e <;> simp [Edge.next]

theorem Edge.cases3 (e f : Edge) : f = e ∨ f = e.next ∨ f = e.next.next := by cases e <;> cases f <;> simp [Edge.next]

theorem proper_apart {t : Triangle ℝ} (h : Proper t) {e f : Edge} (hc : (t.vertex e).compare (t.vertex f) = true) :
    e = f := by
  obtain ⟨h1, h2, h3, -⟩ := h
  cases e <;> cases f <;> simp only [Triangle.vertex] at hc <;>
    first | rfl | (exfalso; simp_all) | (exfalso; rw [compare_comm] at hc; simp_all)

theorem proper_inj {t : Triangle ℝ} (h : Proper t) {e f : Edge} (hv : t.vertex e = t.vertex f) : e = f :=
  proper_apart h (by rw [hv]; exact compare_self _)

private theorem edgeOf_eq {t : Triangle ℝ} (s : Segment ℝ) (e : Edge) (hs : s.compare (t.segment e) = true)
    (hu : ∀ f, s.compare (t.segment f) = true → f = e) : t.edgeOf s = some e := by
  have no : ∀ f, f ≠ e → s.compare (t.segment f) = false := by
    intro f hf
    by_contra hc
    exact hf (hu f (by simpa using hc))
  unfold Triangle.edgeOf
  cases e with
  | ab => rw [hs]; rfl
  | bc => rw [no .ab (by simp), hs]; rfl
  | ca => rw [no .ab (by simp), no .bc (by simp), hs]; rfl

/-- The edge of a triangle is found again. -/
theorem edgeOf_self {t : Triangle ℝ} (h : Proper t) (e : Edge) :
    t.edgeOf ⟨t.vertex e, t.vertex e.next⟩ = some e := by
  apply edgeOf_eq
  · simp [Segment.compare, Triangle.segment, compare_self]
  · intro f hf
    simp only [Segment.compare, Triangle.segment, Bool.or_eq_true, Bool.and_eq_true] at hf
    rcases hf with ⟨h1, -⟩ | ⟨h1, h2⟩
    · exact (proper_apart h h1).symm
    · have e1 := proper_apart h h1
      have e2 := proper_apart h h2
      rw [← e1] at e2
      exact absurd e2.symm (Edge.next2_ne e)

/-- ... and also in the opposite direction. -/
theorem edgeOf_swap {t : Triangle ℝ} (h : Proper t) (e : Edge) :
    t.edgeOf ⟨t.vertex e.next, t.vertex e⟩ = some e := by
  apply edgeOf_eq
  · simp [Segment.compare, Triangle.segment, compare_self]
  · intro f hf
    simp only [Segment.compare, Triangle.segment, Bool.or_eq_true, Bool.and_eq_true] at hf
    rcases hf with ⟨h1, h2⟩ | ⟨h1, -⟩
    · have e1 := proper_apart h h1
      have e2 := proper_apart h h2
      rw [← e1] at e2
      exact absurd e2.symm (Edge.next2_ne e)
    · exact (proper_apart h h1).symm

theorem edgeOf_facing {t t' : Triangle ℝ} {e e' : Edge} (h : Proper t') (hf : Facing t e t' e') :
    t'.edgeOf (t.segment e) = some e' := by
  unfold Triangle.segment
  rw [← hf.1, ← hf.2]
  exact edgeOf_swap h e'

theorem facing_symm {t t' : Triangle ℝ} {e e' : Edge} (h : Facing t e t' e') : Facing t' e' t e :=
  ⟨h.2.symm, h.1.symm⟩

theorem not_facing_self {t : Triangle ℝ} (h : Proper t) {e e' : Edge} : ¬ Facing t e t e' := by
  rintro ⟨h1, h2⟩
  have e1 := proper_inj h h1
  have e2 := proper_inj h h2
  rw [e1] at e2
  exact Edge.next2_ne e e2

/-! ### Links, with some of them pending -/

/-- The links are consistent apart from those of the half-edges in `D`, which are pending. -/
def LinkedBut (D : ℕ → Edge → Prop) (nb : ℕ → Edge → Option ℕ) (tri : ℕ → Option (Triangle ℝ)) : Prop :=
  ∀ i e j, nb i e = some j → ¬ D i e →
    ∃ t t' e', tri i = some t ∧ tri j = some t' ∧ nb j e' = some i ∧ ¬ D j e' ∧ Facing t e t' e'

theorem link_step {D : ℕ → Edge → Prop} {nb nb' : ℕ → Edge → Option ℕ} {tri : ℕ → Option (Triangle ℝ)}
    (h : LinkedBut D nb tri) {i1 i2 : ℕ} {e1 e2 : Edge} (hne : i1 ≠ i2) {t1 t2 : Triangle ℝ} (ht1 : tri i1 = some t1)
    (ht2 : tri i2 = some t2) (hf : Facing t1 e1 t2 e2) (f1 : D i1 e1 ∨ nb i1 e1 = none) (f2 : D i2 e2 ∨ nb i2 e2 = none)
    (n1 : nb' i1 e1 = some i2) (n2 : nb' i2 e2 = some i1)
    (n3 : ∀ i e, ¬ (i = i1 ∧ e = e1) → ¬ (i = i2 ∧ e = e2) → nb' i e = nb i e) :
    LinkedBut (fun i e => D i e ∧ ¬ (i = i1 ∧ e = e1) ∧ ¬ (i = i2 ∧ e = e2)) nb' tri := by
  intro i e j hn hd
  by_cases c1 : i = i1 ∧ e = e1
  · obtain ⟨rfl, rfl⟩ := c1
    rw [n1, Option.some.injEq] at hn
    subst hn
    exact ⟨t1, t2, e2, ht1, ht2, n2, by simp, hf⟩
  · by_cases c2 : i = i2 ∧ e = e2
    · obtain ⟨rfl, rfl⟩ := c2
      rw [n2, Option.some.injEq] at hn
      subst hn
      exact ⟨t2, t1, e1, ht2, ht1, n1, by simp, facing_symm hf⟩
    · rw [n3 i e c1 c2] at hn
      obtain ⟨t, t', e', g1, g2, g3, g4, g5⟩ := h i e j hn (fun hD => hd ⟨hD, c1, c2⟩)
      have d1 : ¬ (j = i1 ∧ e' = e1) := by
        rintro ⟨rfl, rfl⟩
        rcases f1 with f | f
        · exact g4 f
        · rw [f] at g3; simp at g3
      have d2 : ¬ (j = i2 ∧ e' = e2) := by
        rintro ⟨rfl, rfl⟩
        rcases f2 with f | f
        · exact g4 f
        · rw [f] at g3; simp at g3
      exact ⟨t, t', e', g1, g2, by rw [n3 j e' d1 d2]; exact g3, fun hD => g4 hD.1, g5⟩

/-! ### The lists of pieces -/

theorem tri_same {m m' : Mesh} (h : Same m m') (i : ℕ) : tri m' i = tri m i := by
  have := congrArg (fun l => (l[i]?).map Prod.fst) h.1
  simpa [tri, Function.comp_def] using this

theorem valid_same {m m' : Mesh} (h : Same m m') (hv : ∀ t ∈ m.triangles, t.valid = true) :
    ∀ t ∈ m'.triangles, t.valid = true := by
  intro t ht
  have : (t.triangle, t.valid) ∈ m'.triangles.map (fun t => (t.triangle, t.valid)) := List.mem_map.2 ⟨t, ht, rfl⟩
  rw [h.1, List.mem_map] at this
  obtain ⟨u, hu, he⟩ := this
  rw [Prod.mk.injEq] at he
  rw [← he.2]; exact hv u hu

private theorem modify_eq_set {α : Type*} (l : List α) (i : ℕ) (f : α → α) (t : α) (h : l[i]? = some t) :
    l.modify i f = l.set i (f t) := by
  apply List.ext_getElem?
  intro k
  rw [List.getElem?_modify, List.getElem?_set]
  by_cases hk : i = k
  · subst hk
    have : i < l.length := (List.getElem?_eq_some_iff.1 h).1
    simp only [if_true, this, h]
    rfl
  · simp [hk]

private theorem neighbour_set (t : TriPiece) (e f : Edge) (i : ℕ) :
    (t.setNeighbour e i).neighbour f = if f = e then some i else t.neighbour f := by
  cases e <;> cases f <;> rfl

private theorem neighbour_constrain (t : TriPiece) (e f : Edge) : (t.constrain e).neighbour f = t.neighbour f := by
  cases e <;> cases f <;> rfl

private theorem nb_modify (m : Mesh) (k : ℕ) (f : TriPiece → TriPiece) (c : ℕ) (i : ℕ) (e : Edge) :
    nb ⟨m.triangles.modify k f, c⟩ i e = (m.triangles[i]?).bind fun t => (if k = i then f t else t).neighbour e := by
  unfold nb
  simp only [List.getElem?_modify]
  cases m.triangles[i]? with
  | none => rfl
  | some t => by_cases h : k = i <;> simp [h]

theorem nb_constrain (m : Mesh) (k : ℕ) (f : Edge) (i : ℕ) (e : Edge) :
    nb ⟨m.triangles.modify k fun t => t.constrain f, m.nValid⟩ i e = nb m i e := by
  rw [nb_modify]
  unfold nb
  congr 1
  funext t
  split_ifs
  · exact neighbour_constrain t f e
  · rfl

/-- What marking two triangles as neighbours does. -/
theorem mark_sat (i1 : ℕ) (e1 : Edge) (i2 : ℕ) (m : Mesh) (t1 t2 : Triangle ℝ) (e2 : Edge)
    (h1 : tri m i1 = some t1) (h2 : tri m i2 = some t2) (hp : Proper t2) (hf : Facing t1 e1 t2 e2)
    (hv : ∀ t ∈ m.triangles, t.valid = true) (hne : i1 ≠ i2) :
    (markAsNeighbours i1 e1 i2).Sat m (fun _ m' => Same m m' ∧ nb m' i1 e1 = some i2 ∧ nb m' i2 e2 = some i1 ∧
      ∀ i e, ¬ (i = i1 ∧ e = e1) → ¬ (i = i2 ∧ e = e2) → nb m' i e = nb m i e) (fun _ => False) := by
  obtain ⟨p1, g1, -⟩ := Option.map_eq_some_iff.1 h1
  obtain ⟨p2, g2, -⟩ := Option.map_eq_some_iff.1 h2
  unfold markAsNeighbours
  rw [if_neg hne]
  refine Act.sat_bind (piece_ok g1 ?_)
  rw [if_neg (by simp [hv p1 (List.mem_of_getElem? g1)])]
  refine Act.sat_bind (piece_ok g2 ?_)
  rw [if_neg (by simp [hv p2 (List.mem_of_getElem? g2)])]
  have q1 : p1.triangle = t1 := by simpa [tri, g1] using h1
  have q2 : p2.triangle = t2 := by simpa [tri, g2] using h2
  rw [q1, q2, edgeOf_facing hp hf]
  refine Act.sat_bind (Act.sat_modify (Act.sat_modify ?_))
  have s1 : Same m ⟨m.triangles.modify i1 fun t => t.setNeighbour e1 i2, m.nValid⟩ :=
    ⟨map_modify _ _ _ (setNeighbour_same e1 i2), rfl⟩
  have s2 : Same m ⟨(m.triangles.modify i1 fun t => t.setNeighbour e1 i2).modify i2 fun t => t.setNeighbour e2 i1, m.nValid⟩ :=
    s1.trans ⟨map_modify _ _ _ (setNeighbour_same e2 i1), rfl⟩
  have key : ∀ i e, nb ⟨(m.triangles.modify i1 fun t => t.setNeighbour e1 i2).modify i2 fun t => t.setNeighbour e2 i1, m.nValid⟩ i e =
      (m.triangles[i]?).bind fun t => (if i2 = i then (if i1 = i then t.setNeighbour e1 i2 else t).setNeighbour e2 i1 else
        (if i1 = i then t.setNeighbour e1 i2 else t)).neighbour e := by
    intro i e
    have := nb_modify ⟨m.triangles.modify i1 fun t => t.setNeighbour e1 i2, m.nValid⟩ i2 (fun t => t.setNeighbour e2 i1) m.nValid i e
    rw [this]
    simp only [List.getElem?_modify]
    cases m.triangles[i]? with
    | none => rfl
    | some t => by_cases h : i1 = i <;> simp [h]
  refine ⟨s2, ?_, ?_, ?_⟩
  · rw [key, g1]
    simp [Ne.symm hne, neighbour_set]
  · rw [key, g2]
    simp [hne, neighbour_set]
  · intro i e c1 c2
    rw [key]
    unfold nb
    congr 1
    funext t
    by_cases k2 : i2 = i
    · have : i1 ≠ i := by rw [← k2]; exact hne
      simp only [k2, if_true, if_neg this, neighbour_set]
      rw [if_neg (fun h => c2 ⟨k2.symm, h⟩)]
    · simp only [if_neg k2]
      by_cases k1 : i1 = i
      · simp only [k1, if_true, neighbour_set]
        rw [if_neg (fun h => c1 ⟨k1.symm, h⟩)]
      · simp only [if_neg k1]

/-! ### Replacing triangles

A step replaces the triangles in `R` of the mesh `m0` and adds some at the end; the new ones are those in `S`.  They
have no neighbours at first, and those that had one of the replaced triangles as a neighbour are pending until the new
triangle is marked as their neighbour. -/

private structure Session where
  m0 : Mesh
  D0 : ℕ → Edge → Prop
  R : ℕ → Prop
  S : ℕ → Prop

/-- The half-edges that still have a replaced triangle as neighbour across one of its edges in `F`. -/
private def Session.D (s : Session) (F : ℕ → Edge → Prop) (i : ℕ) (e : Edge) : Prop :=
  ¬ s.S i ∧ ∃ k f t t', s.R k ∧ F k f ∧ ¬ s.D0 k f ∧ nb s.m0 k f = some i ∧ nb s.m0 i e = some k ∧
    tri s.m0 k = some t ∧ tri s.m0 i = some t' ∧ Facing t f t' e

private structure Session.Ok (s : Session) : Prop where
  proper : ∀ i t, tri s.m0 i = some t → Proper t
  linked : LinkedBut s.D0 (nb s.m0) (tri s.m0)
  within : ∀ i e, s.D0 i e → s.R i
  new : ∀ i, s.S i ↔ s.R i ∨ (s.S i ∧ tri s.m0 i = none)

/-- The mesh in the course of the step: `F` are the edges of the replaced triangles not dealt with yet, `U` those of the
new ones that have been given a neighbour. -/
private structure Session.Stage (s : Session) (m1 : Mesh) (F U : ℕ → Edge → Prop) (m : Mesh) : Prop where
  same : Same m1 m
  linked : LinkedBut (s.D F) (nb m) (tri m)
  free : ∀ i e, s.S i → ¬ U i e → nb m i e = none
  kept : ∀ i e, ¬ s.S i → nb s.m0 i e = none → nb m i e = none

private theorem Session.start (s : Session) (hs : s.Ok) (m1 : Mesh) (hnb : ∀ i e, s.S i → nb m1 i e = none)
    (hnb' : ∀ i e, ¬ s.S i → nb m1 i e = nb s.m0 i e) (htri : ∀ i, ¬ s.S i → tri m1 i = tri s.m0 i) :
    s.Stage m1 (fun _ _ => True) (fun _ _ => False) m1 := by
  refine ⟨Same.refl _, ?_, fun i e h _ => hnb i e h, fun i e h h0 => by rw [hnb' i e h, h0]⟩
  intro i e j hn hd
  have hSi : ¬ s.S i := fun h => by rw [hnb i e h] at hn; simp at hn
  rw [hnb' i e hSi] at hn
  have hRi : ¬ s.R i := fun h => hSi ((hs.new i).2 (Or.inl h))
  obtain ⟨t, t', e', g1, g2, g3, g4, g5⟩ := hs.linked i e j hn (fun h => hRi (hs.within i e h))
  have hSj : ¬ s.S j := by
    intro hj
    rcases (hs.new j).1 hj with hj | ⟨-, hj⟩
    · exact hd ⟨hSi, j, e', t', t, hj, trivial, g4, g3, hn, g2, g1, facing_symm g5⟩
    · rw [hj] at g2; simp at g2
  refine ⟨t, t', e', by rw [htri i hSi, g1], by rw [htri j hSj, g2], by rw [hnb' j e' hSj, g3], ?_, g5⟩
  rintro ⟨-, k, f, _, _, hk, -, -, -, hn', -⟩
  rw [g3, Option.some.injEq] at hn'
  subst hn'
  exact hRi hk

private theorem Session.D_erase (s : Session) (hs : s.Ok) (F : ℕ → Edge → Prop) (k : ℕ) (f : Edge) (x : ℕ) (e2 : Edge)
    (t t' : Triangle ℝ) (h0 : ¬ s.D0 k f) (h1 : nb s.m0 k f = some x) (h2 : nb s.m0 x e2 = some k) (h3 : tri s.m0 k = some t)
    (h4 : tri s.m0 x = some t') (h5 : Facing t f t' e2) (i : ℕ) (e : Edge) :
    s.D (fun k' f' => F k' f' ∧ ¬ (k' = k ∧ f' = f)) i e ↔ s.D F i e ∧ ¬ (i = x ∧ e = e2) := by
  constructor
  · rintro ⟨g0, k', f', u, u', g1, ⟨g2, g2'⟩, g3, g4, g5, g6, g7, g8⟩
    refine ⟨⟨g0, k', f', u, u', g1, g2, g3, g4, g5, g6, g7, g8⟩, ?_⟩
    rintro ⟨rfl, rfl⟩
    rw [h2, Option.some.injEq] at g5
    subst g5
    rw [h3, Option.some.injEq] at g6
    subst g6
    rw [h4, Option.some.injEq] at g7
    subst g7
    refine g2' ⟨rfl, proper_inj (hs.proper _ _ h3) ?_⟩
    rw [← g8.2, ← h5.2]
  · rintro ⟨⟨g0, k', f', u, u', g1, g2, g3, g4, g5, g6, g7, g8⟩, hne⟩
    refine ⟨g0, k', f', u, u', g1, ⟨g2, ?_⟩, g3, g4, g5, g6, g7, g8⟩
    rintro ⟨rfl, rfl⟩
    rw [h1, Option.some.injEq] at g4
    subst g4
    rw [h3, Option.some.injEq] at g6
    subst g6
    rw [h4, Option.some.injEq] at g7
    subst g7
    refine hne ⟨rfl, proper_inj (hs.proper _ _ h4) ?_⟩
    rw [g8.1, h5.1]

private theorem Session.D_erase_none (s : Session) (F : ℕ → Edge → Prop) (k : ℕ) (f : Edge)
    (h1 : ∀ x, nb s.m0 k f = some x → s.S x) (i : ℕ) (e : Edge) :
    s.D (fun k' f' => F k' f' ∧ ¬ (k' = k ∧ f' = f)) i e ↔ s.D F i e := by
  constructor
  · rintro ⟨g0, k', f', u, u', g1, ⟨g2, -⟩, g⟩
    exact ⟨g0, k', f', u, u', g1, g2, g⟩
  · rintro ⟨g0, k', f', u, u', g1, g2, g3, g4, g⟩
    refine ⟨g0, k', f', u, u', g1, ⟨g2, ?_⟩, g3, g4, g⟩
    rintro ⟨rfl, rfl⟩
    exact g0 (h1 i g4)

/-- The edge `f` of the replaced triangle `k` is now the edge `e1` of the new triangle `i1`. -/
private theorem Session.outer (s : Session) (hs : s.Ok) (m1 : Mesh) (F U : ℕ → Edge → Prop) (m : Mesh) (h : s.Stage m1 F U m)
    (htri : ∀ i, ¬ s.S i → tri m1 i = tri s.m0 i) (k : ℕ) (f : Edge) (i1 : ℕ) (e1 : Edge) (t t1 : Triangle ℝ)
    (hk : s.R k) (hF : F k f) (hD : ¬ s.D0 k f) (hi : s.S i1) (hU : ¬ U i1 e1) (ht : tri s.m0 k = some t) (ht1 : tri m1 i1 = some t1)
    (hv : t1.vertex e1 = t.vertex f ∧ t1.vertex e1.next = t.vertex f.next)
    (hx : ∀ x, nb s.m0 k f = some x → ¬ s.S x) (hv1 : ∀ t ∈ m1.triangles, t.valid = true) (o : Option ℕ)
    (ho : o = nb s.m0 k f) :
    (Act.whenSome o fun i => markAsNeighbours i1 e1 i).Sat m
      (fun _ m' => s.Stage m1 (fun k' f' => F k' f' ∧ ¬ (k' = k ∧ f' = f)) (fun i e => U i e ∨ (i = i1 ∧ e = e1)) m')
      (fun _ => False) := by
  subst ho
  refine Act.sat_whenSome (fun x hxs => ?_) (fun hn => ?_)
  · have hSx := hx x hxs
    obtain ⟨t0, t', e2, g1, g2, g3, g4, g5⟩ := hs.linked k f x hxs hD
    rw [ht, Option.some.injEq] at g1
    subst g1
    have e1t : tri m i1 = some t1 := by rw [tri_same h.same, ht1]
    have e2t : tri m x = some t' := by rw [tri_same h.same, htri x hSx, g2]
    have hf : Facing t1 e1 t' e2 := ⟨by rw [g5.1, hv.2], by rw [g5.2, hv.1]⟩
    have q2 : i1 ≠ x := fun h => hSx (h ▸ hi)
    refine Act.sat_mono (mark_sat i1 e1 x m t1 t' e2 e1t e2t (hs.proper _ _ g2) hf (valid_same h.same hv1) q2) ?_ (fun _ h => h)
    rintro - m' ⟨q1, q3, q4, q5⟩
    have hDx : s.D F x e2 := ⟨hSx, k, f, t, t', hk, hF, hD, hxs, g3, ht, g2, g5⟩
    have hl := link_step h.linked q2 e1t e2t hf (Or.inr (h.free _ _ hi hU)) (Or.inl hDx) q3 q4 q5
    refine ⟨h.same.trans q1, ?_, ?_, ?_⟩
    · have hD' : (fun i e => s.D F i e ∧ ¬ (i = i1 ∧ e = e1) ∧ ¬ (i = x ∧ e = e2)) =
          s.D (fun k' f' => F k' f' ∧ ¬ (k' = k ∧ f' = f)) := by
        funext i e
        apply propext
        rw [Session.D_erase s hs F k f x e2 t t' hD hxs g3 ht g2 g5]
        constructor
        · rintro ⟨a, -, c⟩; exact ⟨a, c⟩
        · rintro ⟨a, c⟩
          refine ⟨a, ?_, c⟩
          rintro ⟨rfl, -⟩
          exact a.1 hi
      rw [hD'] at hl
      have htt : tri m' = tri m := funext fun i => tri_same q1 i
      rw [htt]
      exact hl
    · intro i e hSi hUi
      rw [not_or] at hUi
      rw [q5 i e hUi.2 (fun hc => hSx (hc.1 ▸ hSi))]
      exact h.free i e hSi hUi.1
    · intro i e hSi h0
      rw [q5 i e (fun hc => hSi (hc.1 ▸ hi)) (fun hc => by rw [hc.1, hc.2, g3] at h0; simp at h0)]
      exact h.kept i e hSi h0
  · refine ⟨h.same, ?_, fun i e hSi hUi => h.free i e hSi (fun hc => hUi (Or.inl hc)), h.kept⟩
    have : s.D (fun k' f' => F k' f' ∧ ¬ (k' = k ∧ f' = f)) = s.D F := by
      funext i e
      exact propext (Session.D_erase_none s F k f (fun x hx => by rw [hn] at hx; simp at hx) i e)
    rw [this]
    exact h.linked

/-- Two of the new triangles are marked as neighbours. -/
private theorem Session.inner (s : Session) (m1 : Mesh) (F U : ℕ → Edge → Prop) (m : Mesh) (h : s.Stage m1 F U m)
    (i1 : ℕ) (e1 : Edge) (i2 : ℕ) (e2 : Edge) (t1 t2 : Triangle ℝ) (h1 : s.S i1) (h2 : s.S i2) (u1 : ¬ U i1 e1) (u2 : ¬ U i2 e2)
    (ht1 : tri m1 i1 = some t1) (ht2 : tri m1 i2 = some t2) (hp : Proper t2) (hf : Facing t1 e1 t2 e2)
    (hv1 : ∀ t ∈ m1.triangles, t.valid = true) (q2 : i1 ≠ i2) :
    (markAsNeighbours i1 e1 i2).Sat m
      (fun _ m' => s.Stage m1 F (fun i e => U i e ∨ (i = i1 ∧ e = e1) ∨ (i = i2 ∧ e = e2)) m') (fun _ => False) := by
  have e1t : tri m i1 = some t1 := by rw [tri_same h.same, ht1]
  have e2t : tri m i2 = some t2 := by rw [tri_same h.same, ht2]
  refine Act.sat_mono (mark_sat i1 e1 i2 m t1 t2 e2 e1t e2t hp hf (valid_same h.same hv1) q2) ?_ (fun _ h => h)
  rintro - m' ⟨q1, q3, q4, q5⟩
  have hl := link_step h.linked q2 e1t e2t hf (Or.inr (h.free _ _ h1 u1)) (Or.inr (h.free _ _ h2 u2)) q3 q4 q5
  refine ⟨h.same.trans q1, ?_, ?_, ?_⟩
  · have hD' : (fun i e => s.D F i e ∧ ¬ (i = i1 ∧ e = e1) ∧ ¬ (i = i2 ∧ e = e2)) = s.D F := by
      funext i e
      apply propext
      constructor
      · rintro ⟨a, -, -⟩; exact a
      · intro a
        refine ⟨a, ?_, ?_⟩
        · rintro ⟨rfl, -⟩; exact a.1 h1
        · rintro ⟨rfl, -⟩; exact a.1 h2
    rw [hD'] at hl
    have htt : tri m' = tri m := funext fun i => tri_same q1 i
    rw [htt]
    exact hl
  · intro i e hSi hUi
    rw [not_or, not_or] at hUi
    rw [q5 i e hUi.2.1 hUi.2.2]
    exact h.free i e hSi hUi.1
  · intro i e hSi h0
    rw [q5 i e (fun hc => hSi (hc.1 ▸ h1)) (fun hc => hSi (hc.1 ▸ h2))]
    exact h.kept i e hSi h0

/-- Constraining an edge changes nothing of this. -/
private theorem Session.constrain (s : Session) (m1 : Mesh) (F U : ℕ → Edge → Prop) (m : Mesh) (h : s.Stage m1 F U m)
    (b : Bool) (k : ℕ) (e : Edge) :
    (Act.when b (update k fun t => t.constrain e)).Sat m (fun _ m' => s.Stage m1 F U m') (fun _ => False) := by
  refine Act.sat_when (fun _ => Act.sat_modify ?_) (fun _ => h)
  have hs : Same m ⟨m.triangles.modify k fun t => t.constrain e, m.nValid⟩ := ⟨map_modify _ _ _ (constrain_same e), rfl⟩
  refine ⟨h.same.trans hs, ?_, ?_, ?_⟩
  · have h1 : nb ⟨m.triangles.modify k fun t => t.constrain e, m.nValid⟩ = nb m := by
      funext i f; exact nb_constrain m k e i f
    have h2 : tri ⟨m.triangles.modify k fun t => t.constrain e, m.nValid⟩ = tri m := funext fun i => tri_same hs i
    show LinkedBut _ (nb ⟨m.triangles.modify k fun t => t.constrain e, m.nValid⟩) (tri ⟨m.triangles.modify k fun t => t.constrain e, m.nValid⟩)
    rw [h1, h2]
    exact h.linked
  · intro i f h1 h2
    exact (nb_constrain m k e i f).trans (h.free i f h1 h2)
  · intro i f h1 h2
    exact (nb_constrain m k e i f).trans (h.kept i f h1 h2)


/-! ### Slots -/

/-- A new piece. -/
def fresh (t : Triangle ℝ) (i : ℕ) : TriPiece := ⟨t, none, none, none, false, false, false, true, i⟩

private theorem counted_drop {l : List TriPiece} {n i : ℕ} {t x : TriPiece} (h : Counted ⟨l, n⟩) (ht : l[i]? = some t)
    (hv : t.valid = true) (hx : x.valid = false) : n ≠ 0 ∧ Counted ⟨l.set i x, n - 1⟩ := by
  obtain ⟨hi, hg⟩ := List.getElem?_eq_some_iff.1 ht
  unfold Counted at *
  dsimp only at *
  have h1 : 0 < l.countP fun t => t.valid := List.countP_pos_iff.2 ⟨t, List.mem_of_getElem? ht, hv⟩
  refine ⟨by omega, ?_⟩
  rw [List.countP_set hi, hg]
  simp [hv, hx, h]

private theorem counted_fill {l : List TriPiece} {n i : ℕ} {t x : TriPiece} (h : Counted ⟨l, n⟩) (ht : l[i]? = some t)
    (hv : t.valid = false) (hx : x.valid = true) : Counted ⟨l.set i x, n + 1⟩ := by
  obtain ⟨hi, hg⟩ := List.getElem?_eq_some_iff.1 ht
  unfold Counted at *
  dsimp only at *
  rw [List.countP_set hi, hg]
  simp [hv, hx, h]

private theorem counted_append {l : List TriPiece} {n : ℕ} {x : TriPiece} (h : Counted ⟨l, n⟩) (hx : x.valid = true) :
    Counted ⟨l ++ [x], n + 1⟩ := by
  unfold Counted at *
  simp_all

private theorem counted_same {m m' : Mesh} (h : Same m m') (hm : Counted m) : Counted m' := by
  unfold Counted at *
  rw [h.2, hm]
  have := congrArg (List.countP fun p : Triangle ℝ × Bool => p.2) h.1
  rw [List.countP_map, List.countP_map] at this
  exact this.symm

private theorem counted_all {m : Mesh} (hv : ∀ t ∈ m.triangles, t.valid = true) (hc : m.nValid = m.triangles.length) : Counted m := by
  unfold Counted
  rw [hc, List.countP_eq_length.2 hv]

private theorem invalidate_sat {i : ℕ} {m : Mesh} {t : TriPiece} {Q : Unit → Mesh → Prop} {E : Mesh → Prop}
    (ht : m.triangles[i]? = some t) (hv : t.valid = true) (hc : Counted m)
    (h : Q () ⟨m.triangles.set i { t with valid := false }, m.nValid - 1⟩) : (invalidate i).Sat m Q E := by
  have hi : i < m.triangles.length := (List.getElem?_eq_some_iff.1 ht).1
  have hn : m.nValid ≠ 0 := (counted_drop (x := { t with valid := false }) hc ht hv rfl).1
  unfold Act.Sat invalidate
  rw [if_pos hi]
  dsimp only
  rw [if_neg hn, modify_eq_set _ _ _ t ht]
  exact h

private theorem firstInvalid_some {m : Mesh} {start k : ℕ} {t : TriPiece} (hk : start ≤ k) (ht : m.triangles[k]? = some t)
    (hv : t.valid = false) (h : ∀ j x, start ≤ j → j < k → m.triangles[j]? = some x → x.valid = true) :
    m.firstInvalid start = some k := by
  obtain ⟨hi, hg⟩ := List.getElem?_eq_some_iff.1 ht
  unfold firstInvalid
  have : m.triangles.zipIdx.find? (fun t => decide (start ≤ t.2) && !t.1.valid) = some (t, k) := by
    rw [List.find?_eq_some_iff_getElem]
    refine ⟨by simp [hk, hv], k, by simpa using hi, by simp [hg], ?_⟩
    intro j hj
    have hj' : j < m.triangles.length := by omega
    simp only [List.getElem_zipIdx, Nat.zero_add, Bool.not_and, Bool.not_not, Bool.or_eq_true, Bool.not_eq_true', decide_eq_false_iff_not]
    by_cases hs : start ≤ j
    · right; exact h j _ hs hj (List.getElem?_eq_getElem hj')
    · left; exact hs
  rw [this]
  rfl

private theorem firstInvalid_none {m : Mesh} (start : ℕ) (hv : ∀ t ∈ m.triangles, t.valid = true) : m.firstInvalid start = none := by
  unfold firstInvalid
  rw [Option.map_eq_none_iff, List.find?_eq_none]
  rintro ⟨t, k⟩ ht
  simp [hv t (List.fst_mem_of_mem_zipIdx ht)]

private theorem piece_sat' {i : ℕ} {m : Mesh} {Q : TriPiece → Mesh → Prop} {E : Mesh → Prop}
    (h : ∀ t, m.triangles[i]? = some t → Q t m) (he : m.triangles[i]? = none → E m) : (piece i).Sat m Q E := by
  unfold Act.Sat piece Outcome.index
  cases hi : m.triangles[i]? with
  | none => exact he hi
  | some t => exact h t hi

private theorem new_proper {a b c : V3 ℝ} (h : Proper ⟨a, b, c⟩) : Triangle.new a b c = .ok ⟨a, b, c⟩ := by
  obtain ⟨h1, h2, h3, h4⟩ := h
  dsimp only at h1 h2 h3 h4
  unfold Triangle.new
  simp [h1, h2, h3, h4, Outcome.bind]

/-- The place of an invalid triangle is used again. -/
private theorem push_slot {a b c : V3 ℝ} {start k : ℕ} {m : Mesh} {t : TriPiece} (hk : start ≤ k) (ht : m.triangles[k]? = some t)
    (hv : t.valid = false) (h : ∀ j x, start ≤ j → j < k → m.triangles[j]? = some x → x.valid = true)
    {Q : ℕ → Mesh → Prop} {E : Mesh → Prop}
    (hq : Proper ⟨a, b, c⟩ → Q k ⟨m.triangles.set k (fresh ⟨a, b, c⟩ k), m.nValid + 1⟩) (he : ¬ Proper ⟨a, b, c⟩ → E m) :
    (push a b c start).Sat m Q E := by
  have hi : k < m.triangles.length := (List.getElem?_eq_some_iff.1 ht).1
  unfold Act.Sat push
  rw [firstInvalid_some hk ht hv h]
  simp only [Option.getD_some]
  unfold TriPiece.new
  cases hn : Triangle.new a b c with
  | err => exact he fun h => by rw [new_proper h] at hn; simp at hn
  | panic => exact he fun h => by rw [new_proper h] at hn; simp at hn
  | ok u =>
    obtain ⟨rfl, hp⟩ := new_ok hn
    simp only [Outcome.bind, place, if_pos hi]
    exact hq hp

/-- Without invalid triangles the new one is added at the end. -/
private theorem push_new {a b c : V3 ℝ} {start : ℕ} {m : Mesh} (hv : ∀ t ∈ m.triangles, t.valid = true)
    {Q : ℕ → Mesh → Prop} {E : Mesh → Prop}
    (hq : Proper ⟨a, b, c⟩ → Q m.triangles.length
      ⟨m.triangles ++ [fresh ⟨a, b, c⟩ m.triangles.length], m.nValid + 1⟩) (he : ¬ Proper ⟨a, b, c⟩ → E m) :
    (push a b c start).Sat m Q E := by
  unfold Act.Sat push
  rw [firstInvalid_none start hv]
  simp only [Option.getD_none]
  unfold TriPiece.new
  cases hn : Triangle.new a b c with
  | err => exact he fun h => by rw [new_proper h] at hn; simp at hn
  | panic => exact he fun h => by rw [new_proper h] at hn; simp at hn
  | ok u =>
    obtain ⟨rfl, hp⟩ := new_ok hn
    simp only [Outcome.bind, place, lt_irrefl, if_false]
    exact hq hp

private theorem tri_set {l : List TriPiece} {n k : ℕ} {A : TriPiece} (hk : k < l.length) (i : ℕ) :
    tri ⟨l.set k A, n⟩ i = if k = i then some A.triangle else tri ⟨l, n⟩ i := by
  unfold tri
  by_cases h : k = i
  · subst h; simp [hk]
  · simp [h]

private theorem nb_set {l : List TriPiece} {n k : ℕ} {A : TriPiece} (hk : k < l.length) (i : ℕ) (e : Edge) :
    nb ⟨l.set k A, n⟩ i e = if k = i then A.neighbour e else nb ⟨l, n⟩ i e := by
  unfold nb
  by_cases h : k = i
  · subst h; simp [hk]
  · simp [h]

theorem tri_append {l : List TriPiece} {n : ℕ} {A : TriPiece} (i : ℕ) :
    tri ⟨l ++ [A], n⟩ i = if i = l.length then some A.triangle else tri ⟨l, n⟩ i := by
  unfold tri
  by_cases h : i = l.length
  · subst h; simp
  · rcases Nat.lt_or_gt_of_ne h with h' | h'
    · simp [h, List.getElem?_append_left h']
    · rw [List.getElem?_eq_none (by simp; omega), List.getElem?_eq_none (by simp; omega)]
      simp [h]

theorem nb_append {l : List TriPiece} {n : ℕ} {A : TriPiece} (i : ℕ) (e : Edge) :
    nb ⟨l ++ [A], n⟩ i e = if i = l.length then A.neighbour e else nb ⟨l, n⟩ i e := by
  unfold nb
  by_cases h : i = l.length
  · subst h; simp
  · rcases Nat.lt_or_gt_of_ne h with h' | h'
    · simp [h, List.getElem?_append_left h']
    · rw [List.getElem?_eq_none (by simp; omega), List.getElem?_eq_none (by simp; omega)]
      simp [h]

theorem fresh_nb (t : Triangle ℝ) (i : ℕ) (e : Edge) : (fresh t i).neighbour e = none := by cases e <;> rfl

private theorem total_set {l : List TriPiece} {i : ℕ} {t A : TriPiece} (h : l[i]? = some t) :
    total ((l.set i A).map TriPiece.triangle) = total (l.map TriPiece.triangle) - area t.triangle + area A.triangle := by
  obtain ⟨hi, hg⟩ := List.getElem?_eq_some_iff.1 h
  unfold total
  rw [List.map_set, List.map_set, List.sum_set']
  simp only [List.length_map, hi, dite_true, List.getElem_map, hg]
  abel

private theorem total_append {l : List TriPiece} {A : TriPiece} :
    total ((l ++ [A]).map TriPiece.triangle) = total (l.map TriPiece.triangle) + area A.triangle := by
  unfold total
  simp

private theorem triangles_same {m m' : Mesh} (h : Same m m') : Spec.triangles m' = Spec.triangles m := by
  have := congrArg (List.map Prod.fst) h.1
  simpa [Spec.triangles, Function.comp_def] using this

private theorem counter_same {m m' : Mesh} (h : Same m m') (hc : m.nValid = m.triangles.length) :
    m'.nValid = m'.triangles.length := by
  have := congrArg List.length h.1
  rw [List.length_map, List.length_map] at this
  rw [h.2, hc, this]

private theorem proper_same {m m' : Mesh} (h : Same m m') (hp : ∀ i t, tri m i = some t → Proper t) :
    ∀ i t, tri m' i = some t → Proper t := by
  intro i t ht
  rw [tri_same h] at ht
  exact hp i t ht

theorem linked_of_but {m : Mesh} {D : ℕ → Edge → Prop} (h : LinkedBut D (nb m) (tri m)) (hD : ∀ i e, ¬ D i e) : Linked m := by
  intro i e j hn
  obtain ⟨t, t', e', g1, g2, g3, -, g5⟩ := h i e j hn (hD i e)
  exact ⟨t, t', e', g1, g2, g3, g5⟩

theorem but_of_linked {m : Mesh} (h : Linked m) : LinkedBut (fun _ _ => False) (nb m) (tri m) := by
  intro i e j hn _
  obtain ⟨t, t', e', g1, g2, g3, g5⟩ := h i e j hn
  exact ⟨t, t', e', g1, g2, g3, fun h => h, g5⟩


/-! ### The operations -/

/-- What is kept: a sound mesh with this area. -/
private def Keeps (A : V3 ℝ) (m : Mesh) : Prop := Sound m ∧ total (Spec.triangles m) = A

/-- The diagonal can be flipped: there are triangles on both sides, and the new ones are not degenerate. -/
def Spec.CanFlip (m : Mesh) (i : ℕ) (e : Edge) : Prop :=
  ∃ t j n e', tri m i = some t ∧ nb m i e = some j ∧ tri m j = some n ∧ Facing t e n e' ∧
    Proper ⟨t.vertex e, n.vertex e'.next.next, t.vertex e.next.next⟩ ∧
    Proper ⟨t.vertex e.next.next, n.vertex e'.next.next, t.vertex e.next⟩

private theorem flip_sat (index : ℕ) (edge : Edge) (m : Mesh) (hm : Sound m) :
    (flipDiagonal index edge).Sat m (fun _ m' => Keeps (total (Spec.triangles m)) m')
      (fun m' => Counted m' ∧ ¬ CanFlip m index edge) := by
  have hcount := counted_all hm.valid hm.counter
  unfold flipDiagonal
  refine Act.sat_bind (piece_sat' (fun t ht => ?_) (fun h => ⟨hcount, fun ⟨_, _, _, _, hc, _⟩ => by simp [tri, h] at hc⟩))
  have tv : t.valid = true := hm.valid t (List.mem_of_getElem? ht)
  rw [if_neg (by simp [tv])]
  have ttri : tri m index = some t.triangle := by simp [tri, ht]
  cases hn0 : t.neighbour edge with
  | none => exact Act.sat_err ⟨hcount, fun ⟨_, _, _, _, _, hc, _⟩ => by simp [nb, ht, hn0] at hc⟩
  | some ni =>
  dsimp only
  refine Act.sat_bind (piece_sat' (fun n hn => ?_) (fun h => ⟨hcount, fun ⟨_, j, _, _, _, hc, hc', _⟩ => by
    simp only [nb, ht, Option.bind_some, hn0, Option.some.injEq] at hc
    subst hc
    simp [tri, h] at hc'⟩))
  have nv : n.valid = true := hm.valid n (List.mem_of_getElem? hn)
  rw [if_neg (by simp [nv])]
  have ntri : tri m ni = some n.triangle := by simp [tri, hn]
  have tp := hm.proper _ _ ttri
  have np := hm.proper _ _ ntri
  have hnbt : ∀ e, nb m index e = t.neighbour e := fun e => by simp [nb, ht]
  have hnbn : ∀ e, nb m ni e = n.neighbour e := fun e => by simp [nb, hn]
  obtain ⟨t0, n0, e', g1, g2, g3, g5⟩ := hm.linked index edge ni (by rw [hnbt, hn0])
  rw [ttri, Option.some.injEq] at g1
  rw [ntri, Option.some.injEq] at g2
  subst g1 g2
  have hne : index ≠ ni := by
    rintro rfl
    rw [ttri, Option.some.injEq] at ntri
    rw [← ntri] at g5
    exact not_facing_self tp g5
  obtain ⟨a, ha⟩ : ∃ a, a = t.triangle.vertex edge := ⟨_, rfl⟩
  obtain ⟨b, hb⟩ : ∃ b, b = t.triangle.vertex edge.next := ⟨_, rfl⟩
  obtain ⟨c, hc⟩ : ∃ c, c = t.triangle.vertex edge.next.next := ⟨_, rfl⟩
  obtain ⟨o, ho⟩ : ∃ o, o = n.triangle.vertex e'.next.next := ⟨_, rfl⟩
  have nb' : n.triangle.vertex e' = b := by rw [g5.1, hb]
  have na' : n.triangle.vertex e'.next = a := by rw [g5.2, ha]
  have q1 : n.triangle.opposite ⟨a, b⟩ = .ok o := by
    unfold Triangle.opposite
    rw [← nb', ← na', edgeOf_swap np e', ho]
  have q2 : t.triangle.edgeOf ⟨a, c⟩ = some edge.next.next := by
    have := edgeOf_swap tp edge.next.next
    rw [Edge.next3, ← ha, ← hc] at this
    exact this
  have q3 : t.triangle.edgeOf ⟨c, b⟩ = some edge.next := by
    have := edgeOf_swap tp edge.next
    rw [← hb, ← hc] at this
    exact this
  have q4 : n.triangle.edgeOf ⟨b, o⟩ = some e'.next.next := by
    have := edgeOf_swap np e'.next.next
    rw [Edge.next3, nb', ← ho] at this
    exact this
  have q5 : n.triangle.edgeOf ⟨a, o⟩ = some e'.next := by
    have := edgeOf_self np e'.next
    rw [na', ← ho] at this
    exact this
  rw [← ha, ← hb, ← hc, q1]
  refine Act.sat_bind (Act.sat_lift_ok rfl ?_)
  rw [q2, q3, q4, q5]
  dsimp only
  have can : CanFlip m index edge → Proper ⟨a, o, c⟩ ∧ Proper ⟨c, o, b⟩ := by
    rintro ⟨t', j, n', f, k1, k2, k3, k4, k5, k6⟩
    rw [ttri, Option.some.injEq] at k1
    subst k1
    rw [hnbt, hn0, Option.some.injEq] at k2
    subst k2
    rw [ntri, Option.some.injEq] at k3
    subst k3
    have : f = e' := proper_inj np (by rw [k4.1, g5.1])
    subst this
    rw [← ha, ← hc, ← ho] at k5
    rw [← hb, ← hc, ← ho] at k6
    exact ⟨k5, k6⟩
  -- the two places
  have hi : index < m.triangles.length := (List.getElem?_eq_some_iff.1 ht).1
  have hj : ni < m.triangles.length := (List.getElem?_eq_some_iff.1 hn).1
  refine Act.sat_bind (invalidate_sat ht tv hcount ?_)
  have c1 := (counted_drop (x := { t with valid := false }) hcount ht tv rfl).2
  have hn1 : (m.triangles.set index { t with valid := false })[ni]? = some n := by
    rw [List.getElem?_set_ne hne]; exact hn
  refine Act.sat_bind (invalidate_sat (m := ⟨_, _⟩) hn1 nv c1 ?_)
  have c2 := (counted_drop (x := { n with valid := false }) c1 hn1 nv rfl).2
  have hi2 : ((m.triangles.set index { t with valid := false }).set ni { n with valid := false })[index]? =
      some { t with valid := false } := by
    rw [List.getElem?_set_ne (Ne.symm hne), List.getElem?_set_self hi]
  refine Act.sat_bind (push_slot (m := ⟨_, _⟩) le_rfl hi2 rfl (fun j x h1 h2 => absurd h2 (by omega)) (fun pA => ?_)
    (fun hn => ⟨c2, fun h => hn (can h).1⟩))
  have c3 := counted_fill (x := fresh ⟨a, o, c⟩ index) c2 hi2 rfl rfl
  have hj3 : (((m.triangles.set index { t with valid := false }).set ni { n with valid := false }).set index
      (fresh ⟨a, o, c⟩ index))[ni]? = some { n with valid := false } := by
    rw [List.getElem?_set_ne hne, List.getElem?_set_self (by simpa using hj)]
  refine Act.sat_bind (push_slot (m := ⟨_, _⟩) le_rfl hj3 rfl (fun j x h1 h2 => absurd h2 (by omega)) (fun pB => ?_)
    (fun hn => ⟨c3, fun h => hn (can h).2⟩))
  have c4 := counted_fill (x := fresh ⟨c, o, b⟩ ni) c3 hj3 rfl rfl
  have hset : ((((m.triangles.set index { t with valid := false }).set ni { n with valid := false }).set index
      (fresh ⟨a, o, c⟩ index)).set ni (fresh ⟨c, o, b⟩ ni)) =
      (m.triangles.set index (fresh ⟨a, o, c⟩ index)).set ni (fresh ⟨c, o, b⟩ ni) := by
    rw [List.set_comm _ _ hne, List.set_set, List.set_comm _ _ (Ne.symm hne), List.set_set]
  have hnum : m.nValid - 1 - 1 + 1 + 1 = m.nValid := by
    have := hm.counter
    omega
  dsimp only
  rw [hset, hnum] at c4
  rw [hset, hnum]
  obtain ⟨m1, hm1⟩ : ∃ m1 : Mesh, m1 = ⟨(m.triangles.set index (fresh ⟨a, o, c⟩ index)).set ni (fresh ⟨c, o, b⟩ ni), m.nValid⟩ :=
    ⟨_, rfl⟩
  rw [← hm1] at c4 ⊢
  have htri1 : ∀ i, tri m1 i = if ni = i then some ⟨c, o, b⟩ else if index = i then some ⟨a, o, c⟩ else tri m i := by
    intro i
    rw [hm1, tri_set (by simpa using hj), tri_set hi]; rfl
  have hnb1 : ∀ i e, nb m1 i e = if ni = i then none else if index = i then none else nb m i e := by
    intro i e
    rw [hm1, nb_set (by simpa using hj), nb_set hi, fresh_nb, fresh_nb]
  have tA : tri m1 index = some ⟨a, o, c⟩ := by rw [htri1, if_neg (Ne.symm hne), if_pos rfl]
  have tB : tri m1 ni = some ⟨c, o, b⟩ := by rw [htri1, if_pos rfl]
  -- the session
  obtain ⟨s, hs⟩ : ∃ s : Session, s = ⟨m, fun _ _ => False, fun k => k = index ∨ k = ni, fun k => k = index ∨ k = ni⟩ := ⟨_, rfl⟩
  have ok : s.Ok := by
    subst hs
    exact ⟨hm.proper, but_of_linked hm.linked, fun _ _ h => h.elim, fun i => by tauto⟩
  have sS : ∀ i, s.S i ↔ i = index ∨ i = ni := fun i => by rw [hs]
  have sR : ∀ i, s.R i ↔ i = index ∨ i = ni := fun i => by rw [hs]
  have sD : ∀ i e, ¬ s.D0 i e := fun i e => by rw [hs]; exact fun h => h
  have sm : s.m0 = m := by rw [hs]
  have offS : ∀ i, ¬ s.S i → index ≠ i ∧ ni ≠ i := by
    intro i h
    rw [sS, not_or] at h
    exact ⟨Ne.symm h.1, Ne.symm h.2⟩
  have htri : ∀ i, ¬ s.S i → tri m1 i = tri s.m0 i := by
    intro i h
    rw [htri1, if_neg (offS i h).2, if_neg (offS i h).1, sm]
  have st := s.start ok m1
    (by intro i e h
        rw [hnb1]
        rcases (sS i).1 h with rfl | rfl
        · rw [if_neg (Ne.symm hne), if_pos rfl]
        · rw [if_pos rfl])
    (by intro i e h
        rw [hnb1, if_neg (offS i h).2, if_neg (offS i h).1, sm])
    htri
  -- the outer neighbours are neither of the two
  have notB : ∀ f, f = e'.next ∨ f = e'.next.next → ∀ x, nb s.m0 ni f = some x → ¬ s.S x := by
    intro f hf x hx hSx
    rw [sm] at hx
    obtain ⟨u, v, f', k1, k2, k3, k4⟩ := hm.linked ni f x hx
    rw [ntri, Option.some.injEq] at k1
    subst k1
    have key : ∃ g, t.triangle.vertex g = o := by
      rcases (sS x).1 hSx with rfl | rfl
      · rw [ttri, Option.some.injEq] at k2
        subst k2
        rcases hf with rfl | rfl
        · exact ⟨f', by rw [k4.1, ho]⟩
        · exact ⟨f'.next, by rw [k4.2, ho]⟩
      · rw [ntri, Option.some.injEq] at k2
        subst k2
        exact (not_facing_self np k4).elim
    obtain ⟨g, hg⟩ := key
    rcases Edge.cases3 edge g with rfl | rfl | rfl
    · have : n.triangle.vertex e'.next = n.triangle.vertex e'.next.next := by rw [na', ← ho, ← hg, ha]
      exact Edge.next_ne _ (proper_inj np this).symm
    · have : n.triangle.vertex e' = n.triangle.vertex e'.next.next := by rw [nb', ← ho, ← hg, hb]
      exact Edge.next2_ne _ (proper_inj np this).symm
    · rw [← hc] at hg
      have := proper_inj (t := ⟨a, o, c⟩) pA (e := .bc) (f := .ca) hg.symm
      simp at this
  have notA : ∀ f, f = edge.next ∨ f = edge.next.next → ∀ x, nb s.m0 index f = some x → ¬ s.S x := by
    intro f hf x hx hSx
    rw [sm] at hx
    obtain ⟨u, v, f', k1, k2, k3, k4⟩ := hm.linked index f x hx
    rw [ttri, Option.some.injEq] at k1
    subst k1
    rcases (sS x).1 hSx with rfl | rfl
    · rw [ttri, Option.some.injEq] at k2
      subst k2
      exact not_facing_self tp k4
    · have k2' := k2
      rw [ntri, Option.some.injEq] at k2'
      subst k2'
      have h3 : f' = e'.next ∨ f' = e'.next.next ∨ f' = e' := by rcases Edge.cases3 e' f' with h | h | h <;> simp [h]
      rcases h3 with h | h | rfl
      · exact notB f' (Or.inl h) _ (by rw [sm]; exact k3) ((sS _).2 (Or.inl rfl))
      · exact notB f' (Or.inr h) _ (by rw [sm]; exact k3) ((sS _).2 (Or.inl rfl))
      · have : t.triangle.vertex f = t.triangle.vertex edge := by rw [← k4.2, g5.2]
        have := proper_inj tp this
        rcases hf with rfl | rfl
        · exact Edge.next_ne _ this
        · exact Edge.next2_ne _ this
  have R1 : s.R index := (sR _).2 (Or.inl rfl)
  have R2 : s.R ni := (sR _).2 (Or.inr rfl)
  have S1 : s.S index := (sS _).2 (Or.inl rfl)
  have S2 : s.S ni := (sS _).2 (Or.inr rfl)
  have nx := Edge.next_ne e'
  have nx2 := Edge.next2_ne e'
  have ny := Edge.next_ne edge.next
  have nz := Edge.next_ne e'.next
  have v1 : ∀ t ∈ m1.triangles, t.valid = true := by
    intro x hx
    rw [hm1] at hx
    rcases List.mem_or_eq_of_mem_set hx with hx | rfl
    · rcases List.mem_or_eq_of_mem_set hx with hx | rfl
      · exact hm.valid x hx
      · rfl
    · rfl
  refine Act.sat_mono (Q := fun _ m' => ∃ F U, s.Stage m1 F U m' ∧ ¬ F ni e'.next ∧ ¬ F index edge.next.next ∧
    ¬ F ni e'.next.next ∧ ¬ F index edge.next) (E := fun _ => False) ?_ ?_ (fun _ h => h.elim)
  · refine Act.sat_bind (Act.sat_mono (s.outer ok m1 _ _ _ st htri ni e'.next index .ab n.triangle ⟨a, o, c⟩ R2 trivial (sD _ _) S1
      (fun h => h) (by rw [sm]; exact ntri) tA ⟨na'.symm, ho⟩ (notB _ (Or.inl rfl)) v1 _ (by rw [sm, hnbn])) ?_ (fun _ h => h))
    intro _ m2 st
    refine Act.sat_bind (Act.sat_mono (s.constrain m1 _ _ _ st _ _ _) ?_ (fun _ h => h))
    intro _ m3 st
    refine Act.sat_bind (Act.sat_mono (s.inner m1 _ _ _ st index .bc ni .ab ⟨a, o, c⟩ ⟨c, o, b⟩ S1 S2 (by simp) (by simp [Ne.symm hne])
      tA tB pB ⟨rfl, rfl⟩ v1 hne) ?_ (fun _ h => h))
    intro _ m4 st
    refine Act.sat_bind (Act.sat_mono (s.outer ok m1 _ _ _ st htri index edge.next.next index .ca t.triangle ⟨a, o, c⟩ R1
      (by simp [hne]) (sD _ _) S1 (by simp [hne]) (by rw [sm]; exact ttri) tA
      ⟨hc, by rw [Edge.next3]; exact ha⟩ (notA _ (Or.inr rfl)) v1 _ (by rw [sm, hnbt])) ?_ (fun _ h => h))
    intro _ m5 st
    refine Act.sat_bind (Act.sat_mono (s.constrain m1 _ _ _ st _ _ _) ?_ (fun _ h => h))
    intro _ m6 st
    refine Act.sat_bind (Act.sat_mono (s.outer ok m1 _ _ _ st htri ni e'.next.next ni .bc n.triangle ⟨c, o, b⟩ R2
      (by simp [Ne.symm hne, nz]) (sD _ _) S2 (by simp [Ne.symm hne]) (by rw [sm]; exact ntri) tB
      ⟨ho, by rw [Edge.next3]; exact nb'.symm⟩ (notB _ (Or.inr rfl)) v1 _ (by rw [sm, hnbn])) ?_ (fun _ h => h))
    intro _ m7 st
    refine Act.sat_bind (Act.sat_mono (s.constrain m1 _ _ _ st _ _ _) ?_ (fun _ h => h))
    intro _ m8 st
    refine Act.sat_bind (Act.sat_mono (s.outer ok m1 _ _ _ st htri index edge.next ni .ca t.triangle ⟨c, o, b⟩ R1
      (by simp [hne, Ne.symm ny]) (sD _ _) S2 (by simp [Ne.symm hne]) (by rw [sm]; exact ttri) tB
      ⟨hb, hc⟩ (notA _ (Or.inl rfl)) v1 _ (by rw [sm, hnbt])) ?_ (fun _ h => h))
    intro _ m9 st
    refine Act.sat_mono (s.constrain m1 _ _ _ st _ _ _) ?_ (fun _ h => h)
    intro _ m10 st
    exact ⟨_, _, st, by simp, by simp, by simp, by simp⟩
  · rintro - m' ⟨F, U, st, f1, f2, f3, f4⟩
    have k1 : m1.nValid = m1.triangles.length := by rw [hm1]; simp [hm.counter]
    have p1 : ∀ i t, tri m1 i = some t → Proper t := by
      intro i x hx
      rw [htri1] at hx
      split_ifs at hx with h1 h2
      · rw [Option.some.injEq] at hx; exact hx ▸ pB
      · rw [Option.some.injEq] at hx; exact hx ▸ pA
      · exact hm.proper i x hx
    refine ⟨⟨valid_same st.same v1, counter_same st.same k1, proper_same st.same p1, linked_of_but st.linked ?_⟩, ?_⟩
    · rintro i e ⟨hSi, k, f, _, _, hk, hF, -, hnk, -⟩
      rcases (sR k).1 hk with rfl | rfl
      · rcases Edge.cases3 edge f with rfl | rfl | rfl
        · rw [sm, hnbt, hn0, Option.some.injEq] at hnk
          exact hSi (hnk ▸ S2)
        · exact f4 hF
        · exact f2 hF
      · rcases Edge.cases3 e' f with rfl | rfl | rfl
        · rw [sm, g3, Option.some.injEq] at hnk
          exact hSi (hnk ▸ S1)
        · exact f1 hF
        · exact f3 hF
    · rw [triangles_same st.same, hm1]
      unfold Spec.triangles
      rw [total_set (t := n) (by rw [List.getElem?_set_ne hne]; exact hn), total_set ht]
      have at' : area t.triangle = area ⟨a, b, c⟩ := by
        rw [ha, hb, hc]; cases edge <;> (unfold area Triangle.vertex Edge.next; ext <;> simp [V3.cross] <;> ring)
      have an' : area n.triangle = area ⟨b, a, o⟩ := by
        rw [← na', ← nb', ho]; cases e' <;> (unfold area Triangle.vertex Edge.next; ext <;> simp [V3.cross] <;> ring)
      rw [at', an']
      have : area (fresh ⟨a, o, c⟩ index).triangle + area (fresh ⟨c, o, b⟩ ni).triangle = area ⟨a, b, c⟩ + area ⟨b, a, o⟩ := by
        unfold area fresh; ext <;> simp [V3.cross] <;> ring
      have h2 : ∀ T x y z w : V3 ℝ, z + w = x + y → T - x + z - y + w = T := by
        intro T x y z w h
        have : T - x + z - y + w = T + (z + w) - (x + y) := by abel
        rw [this, h]; abel
      exact h2 _ _ _ _ _ this


/-- The mesh after one side of an edge has been split. -/
private def halved (m : Mesh) (t : Triangle ℝ) (e : Edge) (p : V3 ℝ) (index : ℕ) : Mesh :=
  ⟨m.triangles.set index (fresh ⟨t.vertex e, p, t.vertex e.next.next⟩ index) ++
    [fresh ⟨p, t.vertex e.next, t.vertex e.next.next⟩ m.triangles.length], m.nValid + 1⟩

private theorem hemisphere_sat (m : Mesh) (hv : ∀ t ∈ m.triangles, t.valid = true) (hc : m.nValid = m.triangles.length)
    (hp : ∀ i t, tri m i = some t → Proper t) (D0 : ℕ → Edge → Prop) (hl : LinkedBut D0 (nb m) (tri m)) (seg : Segment ℝ)
    (p : V3 ℝ) (index : ℕ) (t : TriPiece) (ht : m.triangles[index]? = some t) (e : Edge)
    (hD : ∀ i f, D0 i f → i = index ∧ f = e) (hs : t.triangle.edgeOf seg = some e) :
    (hemisphere seg p index).Sat m (fun r m' => r = (index, m.triangles.length) ∧ Same (halved m t.triangle e p index) m' ∧
      Proper ⟨t.triangle.vertex e, p, t.triangle.vertex e.next.next⟩ ∧
      Proper ⟨p, t.triangle.vertex e.next, t.triangle.vertex e.next.next⟩ ∧
      LinkedBut (fun i f => i ≠ index ∧ i ≠ m.triangles.length ∧ ¬ D0 index e ∧ nb m index e = some i ∧ nb m i f = some index ∧
        ∃ t', tri m i = some t' ∧ Facing t.triangle e t' f) (nb m') (tri m') ∧
      nb m' index .ab = none ∧ nb m' m.triangles.length .ab = none ∧
      ∀ i f, i ≠ index → i ≠ m.triangles.length → nb m i f = none → nb m' i f = none)
      (fun m' => Counted m' ∧ ¬ (Proper ⟨t.triangle.vertex e, p, t.triangle.vertex e.next.next⟩ ∧
        Proper ⟨p, t.triangle.vertex e.next, t.triangle.vertex e.next.next⟩)) := by
  have hcount := counted_all hv hc
  have hi : index < m.triangles.length := (List.getElem?_eq_some_iff.1 ht).1
  have tv : t.valid = true := hv t (List.mem_of_getElem? ht)
  have ttri : tri m index = some t.triangle := by simp [tri, ht]
  have tp := hp _ _ ttri
  have hnbt : ∀ e, nb m index e = t.neighbour e := fun e => by simp [nb, ht]
  unfold hemisphere
  refine Act.sat_bind (piece_ok ht ?_)
  rw [hs]
  dsimp only
  have q1 : t.triangle.edgeOf (t.triangle.segment e) = some e := edgeOf_self tp e
  rw [q1]
  dsimp only
  have q2 : t.triangle.opposite (t.triangle.segment e) = .ok (t.triangle.vertex e.next.next) := by
    unfold Triangle.opposite; rw [q1]
  rw [q2]
  refine Act.sat_bind (Act.sat_lift_ok rfl ?_)
  obtain ⟨a, ha⟩ : ∃ a, a = t.triangle.vertex e := ⟨_, rfl⟩
  obtain ⟨b, hb⟩ : ∃ b, b = t.triangle.vertex e.next := ⟨_, rfl⟩
  obtain ⟨c, hc'⟩ : ∃ c, c = t.triangle.vertex e.next.next := ⟨_, rfl⟩
  unfold halved Triangle.segment
  rw [← ha, ← hb, ← hc']
  dsimp only
  refine Act.sat_bind (invalidate_sat ht tv hcount ?_)
  have c1 := (counted_drop (x := { t with valid := false }) hcount ht tv rfl).2
  have hi1 : (m.triangles.set index { t with valid := false })[index]? = some { t with valid := false } :=
    List.getElem?_set_self hi
  refine Act.sat_bind (push_slot (m := ⟨_, _⟩) le_rfl hi1 rfl (fun j x h1 h2 => absurd h2 (by omega)) (fun pA => ?_)
    (fun hn => ⟨c1, fun h => hn h.1⟩))
  have c2 := counted_fill (x := fresh ⟨a, p, c⟩ index) c1 hi1 rfl rfl
  have hnum : m.nValid - 1 + 1 = m.nValid := by omega
  rw [List.set_set, hnum] at c2
  dsimp only
  rw [List.set_set, hnum]
  have v2 : ∀ x ∈ m.triangles.set index (fresh ⟨a, p, c⟩ index), x.valid = true := by
    intro x hx
    rcases List.mem_or_eq_of_mem_set hx with hx | rfl
    · exact hv x hx
    · rfl
  refine Act.sat_bind (push_new (m := ⟨_, _⟩) v2 (fun pB => ?_) (fun hn => ⟨c2, fun h => hn h.2⟩))
  simp only [List.length_set]
  have c3 := counted_append (x := fresh ⟨p, b, c⟩ m.triangles.length) c2 rfl
  obtain ⟨N, hN⟩ : ∃ N, N = m.triangles.length := ⟨_, rfl⟩
  rw [← hN] at c3 ⊢
  obtain ⟨m1, hm1⟩ : ∃ m1 : Mesh, m1 = ⟨m.triangles.set index (fresh ⟨a, p, c⟩ index) ++ [fresh ⟨p, b, c⟩ N], m.nValid + 1⟩ :=
    ⟨_, rfl⟩
  rw [← hm1] at c3 ⊢
  have hne : index ≠ N := by omega
  have htri1 : ∀ i, tri m1 i = if i = N then some ⟨p, b, c⟩ else if index = i then some ⟨a, p, c⟩ else tri m i := by
    intro i
    rw [hm1, tri_append, tri_set hi, List.length_set, ← hN]; rfl
  have hnb1 : ∀ i e, nb m1 i e = if i = N then none else if index = i then none else nb m i e := by
    intro i e
    rw [hm1, nb_append, nb_set hi, fresh_nb, fresh_nb, List.length_set, ← hN]; rfl
  have tA : tri m1 index = some ⟨a, p, c⟩ := by rw [htri1, if_neg hne, if_pos rfl]
  have tB : tri m1 N = some ⟨p, b, c⟩ := by rw [htri1, if_pos rfl]
  have tN : tri m N = none := by simp [tri, hN]
  obtain ⟨s, hs⟩ : ∃ s : Session, s = ⟨m, D0, fun k => k = index, fun k => k = index ∨ k = N⟩ := ⟨_, rfl⟩
  have ok : s.Ok := by
    subst hs
    refine ⟨hp, hl, fun i f h => (hD i f h).1, fun i => ⟨?_, ?_⟩⟩
    · rintro (rfl | rfl)
      · exact Or.inl rfl
      · exact Or.inr ⟨Or.inr rfl, tN⟩
    · rintro (rfl | ⟨h, -⟩)
      · exact Or.inl rfl
      · exact h
  have sS : ∀ i, s.S i ↔ i = index ∨ i = N := fun i => by rw [hs]
  have sR : ∀ i, s.R i ↔ i = index := fun i => by rw [hs]
  have sD : s.D0 = D0 := by rw [hs]
  have sm : s.m0 = m := by rw [hs]
  have offS : ∀ i, ¬ s.S i → index ≠ i ∧ i ≠ N := by
    intro i h
    rw [sS, not_or] at h
    exact ⟨Ne.symm h.1, h.2⟩
  have htri : ∀ i, ¬ s.S i → tri m1 i = tri s.m0 i := by
    intro i h
    rw [htri1, if_neg (offS i h).2, if_neg (offS i h).1, sm]
  have st := s.start ok m1
    (by intro i e h
        rw [hnb1]
        rcases (sS i).1 h with rfl | rfl
        · rw [if_neg hne, if_pos rfl]
        · rw [if_pos rfl])
    (by intro i e h
        rw [hnb1, if_neg (offS i h).2, if_neg (offS i h).1, sm])
    htri
  have noD : ∀ f, f ≠ e → ¬ s.D0 index f := by
    intro f hf h
    rw [sD] at h
    exact hf (hD _ _ h).2
  have out : ∀ f, f ≠ e → ∀ x, nb s.m0 index f = some x → ¬ s.S x := by
    intro f hf x hx hSx
    have hnd := noD f hf
    rw [sm] at hx
    rw [sD] at hnd
    obtain ⟨u, v, f', k1, k2, k3, -, k4⟩ := hl index f x hx hnd
    rw [ttri, Option.some.injEq] at k1
    subst k1
    rcases (sS x).1 hSx with rfl | rfl
    · rw [ttri, Option.some.injEq] at k2
      subst k2
      exact not_facing_self tp k4
    · rw [tN] at k2; simp at k2
  have R1 : s.R index := (sR _).2 rfl
  have S1 : s.S index := (sS _).2 (Or.inl rfl)
  have S2 : s.S N := (sS _).2 (Or.inr rfl)
  have nx := Edge.next_ne e
  have nx2 := Edge.next2_ne e
  have nx3 := Edge.next_ne e.next
  have v1 : ∀ t ∈ m1.triangles, t.valid = true := by
    intro x hx
    rw [hm1, List.mem_append, List.mem_singleton] at hx
    rcases hx with hx | rfl
    · exact v2 x hx
    · rfl
  refine Act.sat_mono (Q := fun r m' => r = (index, N) ∧ ∃ F U, s.Stage m1 F U m' ∧ (F index e) ∧ ¬ F index e.next ∧
    ¬ F index e.next.next ∧ ¬ U index .ab ∧ ¬ U N .ab) (E := fun _ => False) ?_ ?_ (fun _ h => h.elim)
  · refine Act.sat_bind (Act.sat_mono (s.constrain m1 _ _ _ st _ _ _) ?_ (fun _ h => h))
    intro _ m2 st
    refine Act.sat_bind (Act.sat_mono (s.inner m1 _ _ _ st index .bc N .ca ⟨a, p, c⟩ ⟨p, b, c⟩ S1 S2 (by simp) (by simp)
      tA tB pB ⟨rfl, rfl⟩ v1 hne) ?_ (fun _ h => h))
    intro _ m3 st
    refine Act.sat_bind (Act.sat_mono (s.outer ok m1 _ _ _ st htri index e.next.next index .ca t.triangle ⟨a, p, c⟩ R1
      trivial (noD _ nx2) S1 (by simp [hne]) (by rw [sm]; exact ttri) tA ⟨hc', by rw [Edge.next3]; exact ha⟩
      (out _ nx2) v1 _ (by rw [sm, hnbt])) ?_ (fun _ h => h))
    intro _ m4 st
    refine Act.sat_bind (Act.sat_mono (s.constrain m1 _ _ _ st _ _ _) ?_ (fun _ h => h))
    intro _ m5 st
    refine Act.sat_bind (Act.sat_mono (s.constrain m1 _ _ _ st _ _ _) ?_ (fun _ h => h))
    intro _ m6 st
    refine Act.sat_bind (Act.sat_mono (s.outer ok m1 _ _ _ st htri index e.next N .bc t.triangle ⟨p, b, c⟩ R1
      (by simp [Ne.symm nx3]) (noD _ nx) S2 (by simp [Ne.symm hne]) (by rw [sm]; exact ttri) tB ⟨hb, hc'⟩
      (out _ nx) v1 _ (by rw [sm, hnbt])) ?_ (fun _ h => h))
    intro _ m7 st
    refine Act.sat_bind (Act.sat_mono (s.constrain m1 _ _ _ st _ _ _) ?_ (fun _ h => h))
    intro _ m8 st
    exact Act.sat_pure ⟨rfl, _, _, st, by simp [Ne.symm nx, Ne.symm nx2], by simp, by simp, by simp [hne], by simp⟩
  · rintro r m' ⟨rfl, F, U, st, f0, f1, f2, u1, u2⟩
    refine ⟨rfl, st.same, pA, pB, ?_, st.free _ _ S1 u1, st.free _ _ S2 u2, ?_⟩
    · have : s.D F = (fun i f => i ≠ index ∧ i ≠ N ∧ ¬ D0 index e ∧ nb m index e = some i ∧ nb m i f = some index ∧
          ∃ t', tri m i = some t' ∧ Facing t.triangle e t' f) := by
        funext i f
        apply propext
        constructor
        · rintro ⟨hSi, k, g, u, u', hk, hF, h0, h1, h2, h3, h4, h5⟩
          rw [sR] at hk
          subst hk
          rw [sm] at h1 h2 h3 h4
          rw [sD] at h0
          rw [ttri, Option.some.injEq] at h3
          subst h3
          have hg : g = e := by
            rcases Edge.cases3 e g with rfl | rfl | rfl
            · rfl
            · exact (f1 hF).elim
            · exact (f2 hF).elim
          subst hg
          exact ⟨Ne.symm (offS i hSi).1, (offS i hSi).2, h0, h1, h2, u', h4, h5⟩
        · rintro ⟨h1, h2, h3, h4, h5, t', h6, h7⟩
          refine ⟨fun h => ?_, index, e, t.triangle, t', R1, f0, by rw [sD]; exact h3, by rw [sm]; exact h4,
            by rw [sm]; exact h5, by rw [sm]; exact ttri, by rw [sm]; exact h6, h7⟩
          rcases (sS i).1 h with h | h
          · exact h1 h
          · exact h2 h
      rw [← this]
      exact st.linked
    · intro i f h1 h2 h3
      refine st.kept i f (fun h => ?_) (by rw [sm]; exact h3)
      rcases (sS i).1 h with h | h
      · exact h1 h
      · exact h2 h

private theorem halved_total (m : Mesh) (t : TriPiece) (e : Edge) (p : V3 ℝ) (index : ℕ) (ht : m.triangles[index]? = some t) :
    total (Spec.triangles (halved m t.triangle e p index)) =
      total (Spec.triangles m) + area ⟨t.triangle.vertex e, p, t.triangle.vertex e.next⟩ := by
  unfold Spec.triangles halved
  dsimp only
  rw [total_append, total_set ht]
  have h : area (fresh ⟨t.triangle.vertex e, p, t.triangle.vertex e.next.next⟩ index).triangle +
      area (fresh ⟨p, t.triangle.vertex e.next, t.triangle.vertex e.next.next⟩ m.triangles.length).triangle =
      area t.triangle + area ⟨t.triangle.vertex e, p, t.triangle.vertex e.next⟩ := by
    cases e <;> (unfold area fresh Triangle.vertex Edge.next; ext <;> simp [V3.cross] <;> ring)
  have h2 : ∀ T x y z w : V3 ℝ, z + w = x + y → T - x + z + w = T + y := by
    intro T x y z w h
    have : T - x + z + w = T + (z + w) - x := by abel
    rw [this, h]; abel
  exact h2 _ _ _ _ _ h

private theorem halved_valid (m : Mesh) (t : Triangle ℝ) (e : Edge) (p : V3 ℝ) (index : ℕ) (hv : ∀ t ∈ m.triangles, t.valid = true) :
    ∀ x ∈ (halved m t e p index).triangles, x.valid = true := by
  intro x hx
  unfold halved at hx
  rw [List.mem_append, List.mem_singleton] at hx
  rcases hx with hx | rfl
  · rcases List.mem_or_eq_of_mem_set hx with hx | rfl
    · exact hv x hx
    · rfl
  · rfl

private theorem halved_tri (m : Mesh) (t : Triangle ℝ) (e : Edge) (p : V3 ℝ) (index : ℕ) (hi : index < m.triangles.length) (i : ℕ) :
    tri (halved m t e p index) i = if i = m.triangles.length then some ⟨p, t.vertex e.next, t.vertex e.next.next⟩ else
      if index = i then some ⟨t.vertex e, p, t.vertex e.next.next⟩ else tri m i := by
  unfold halved
  rw [tri_append, tri_set hi, List.length_set]; rfl

private theorem halved_proper (m : Mesh) (t : Triangle ℝ) (e : Edge) (p : V3 ℝ) (index : ℕ) (hi : index < m.triangles.length)
    (hp : ∀ i t, tri m i = some t → Proper t) (pA : Proper ⟨t.vertex e, p, t.vertex e.next.next⟩)
    (pB : Proper ⟨p, t.vertex e.next, t.vertex e.next.next⟩) :
    ∀ i x, tri (halved m t e p index) i = some x → Proper x := by
  intro i x hx
  rw [halved_tri m t e p index hi] at hx
  split_ifs at hx with h1 h2
  · rw [Option.some.injEq] at hx; exact hx ▸ pB
  · rw [Option.some.injEq] at hx; exact hx ▸ pA
  · exact hp i x hx

/-- The edge can be split at the point: none of the new triangles is degenerate. -/
def Spec.CanSplitEdge (m : Mesh) (i : ℕ) (e : Edge) (p : V3 ℝ) : Prop :=
  ∃ t, tri m i = some t ∧ Proper ⟨t.vertex e, p, t.vertex e.next.next⟩ ∧ Proper ⟨p, t.vertex e.next, t.vertex e.next.next⟩ ∧
    ∀ j n e', nb m i e = some j → tri m j = some n → Facing t e n e' →
      Proper ⟨n.vertex e', p, n.vertex e'.next.next⟩ ∧ Proper ⟨p, n.vertex e'.next, n.vertex e'.next.next⟩

private theorem splitEdge_sat (index : ℕ) (edge : Edge) (p : V3 ℝ) (m : Mesh) (hm : Sound m) :
    (splitEdge index edge p).Sat m (fun _ m' => Sound m' ∧ ∃ t, tri m index = some t ∧
      total (Spec.triangles m') = total (Spec.triangles m) +
        if nb m index edge = none then area ⟨t.vertex edge, p, t.vertex edge.next⟩ else 0)
      (fun m' => Counted m' ∧ ¬ CanSplitEdge m index edge p) := by
  have hcount := counted_all hm.valid hm.counter
  unfold splitEdge
  refine Act.sat_bind (piece_sat' (fun t ht => ?_) (fun h => ⟨hcount, fun ⟨_, hc, _⟩ => by simp [tri, h] at hc⟩))
  have hi : index < m.triangles.length := (List.getElem?_eq_some_iff.1 ht).1
  have ttri : tri m index = some t.triangle := by simp [tri, ht]
  have tp := hm.proper _ _ ttri
  have hnbt : nb m index edge = t.neighbour edge := by simp [nb, ht]
  rw [if_neg (by simp [hm.valid t (List.mem_of_getElem? ht)])]
  refine Act.sat_bind (Act.sat_mono (hemisphere_sat m hm.valid hm.counter hm.proper _ (but_of_linked hm.linked) _ p index t ht edge
    (fun _ _ h => h.elim) (edgeOf_self tp edge)) ?_ (fun _ h => ⟨h.1, fun ⟨t', k1, k2, k3, _⟩ => by
      rw [ttri, Option.some.injEq] at k1
      subst k1
      exact h.2 ⟨k2, k3⟩⟩))
  rintro r m1 ⟨rfl, s1, pA, pB, l1, n1, n2, kept⟩
  have v1 := valid_same s1 (halved_valid m t.triangle edge p index hm.valid)
  have k1 : m1.nValid = m1.triangles.length := counter_same s1 (by simp [halved, hm.counter])
  have p1 := proper_same s1 (halved_proper m t.triangle edge p index hi hm.proper pA pB)
  have a1 : total (Spec.triangles m1) = total (Spec.triangles m) + area ⟨t.triangle.vertex edge, p, t.triangle.vertex edge.next⟩ := by
    rw [triangles_same s1, halved_total m t edge p index ht]
  have hlen : m1.triangles.length = m.triangles.length + 1 := by
    have := congrArg List.length s1.1
    simpa [halved] using this
  obtain ⟨N, hN⟩ : ∃ N, N = m.triangles.length := ⟨_, rfl⟩
  rw [← hN] at l1 n2 kept hlen ⊢
  have htri1 : ∀ i, tri m1 i = if i = N then some ⟨p, t.triangle.vertex edge.next, t.triangle.vertex edge.next.next⟩ else
      if index = i then some ⟨t.triangle.vertex edge, p, t.triangle.vertex edge.next.next⟩ else tri m i := by
    intro i; rw [tri_same s1, halved_tri m t.triangle edge p index hi, ← hN]
  have hiN : index ≠ N := by omega
  refine Act.sat_whenSome (fun ni hni => ?_) (fun hn => ?_)
  · rw [hni] at hnbt
    obtain ⟨u, n, e', g1, g2, g3, g5⟩ := hm.linked index edge ni hnbt
    rw [ttri, Option.some.injEq] at g1
    subst g1
    have hne : ni ≠ index := by
      rintro rfl
      rw [ttri, Option.some.injEq] at g2
      subst g2
      exact not_facing_self tp g5
    have hneN : ni ≠ N := by
      rintro rfl
      simp [tri, hN] at g2
    have ntri : tri m1 ni = some n := by rw [htri1, if_neg hneN, if_neg (Ne.symm hne), g2]
    obtain ⟨n', hn', hnt⟩ : ∃ n', m1.triangles[ni]? = some n' ∧ n'.triangle = n := by
      unfold tri at ntri
      obtain ⟨x, hx, hx'⟩ := Option.map_eq_some_iff.1 ntri
      exact ⟨x, hx, hx'⟩
    have np := p1 _ _ ntri
    have hi' : ni < m1.triangles.length := (List.getElem?_eq_some_iff.1 hn').1
    refine Act.sat_bind (Act.sat_mono (hemisphere_sat m1 v1 k1 p1 _ l1 _ p ni n' hn' e' ?_ ?_) ?_
      (fun _ h => ⟨h.1, fun ⟨t', j1, j2, j3, j4⟩ => by
        rw [ttri, Option.some.injEq] at j1
        subst j1
        have := j4 ni n e' hnbt g2 g5
        rw [hnt] at h
        exact h.2 this⟩))
    · rintro i f ⟨-, -, -, h1, h2, t', h3, h4⟩
      rw [hnbt, Option.some.injEq] at h1
      subst h1
      rw [g2, Option.some.injEq] at h3
      subst h3
      refine ⟨rfl, proper_inj np ?_⟩
      rw [h4.1, g5.1]
    · rw [hnt]; exact edgeOf_facing np g5
    · rintro r m2 ⟨rfl, s2, pC, pD, l2, n3, n4, kept2⟩
      rw [hnt] at s2 pC pD
      rw [hlen] at l2 n4 kept2 ⊢
      have v2 := valid_same s2 (halved_valid m1 n e' p ni v1)
      have k2 : m2.nValid = m2.triangles.length := counter_same s2 (by simp [halved, k1])
      have p2 := proper_same s2 (halved_proper m1 n e' p ni hi' p1 pC pD)
      have a2 : total (Spec.triangles m2) = total (Spec.triangles m) := by
        have := halved_total m1 n' e' p ni hn'
        rw [hnt] at this
        rw [triangles_same s2, this, a1, g5.1, g5.2]
        have h : area ⟨t.triangle.vertex edge.next, p, t.triangle.vertex edge⟩ =
            - area ⟨t.triangle.vertex edge, p, t.triangle.vertex edge.next⟩ := by
          unfold area; ext <;> simp [V3.cross] <;> ring
        rw [h]; abel
      have htri2 : ∀ i, tri m2 i = if i = N + 1 then some ⟨p, t.triangle.vertex edge, n.vertex e'.next.next⟩ else
          if ni = i then some ⟨t.triangle.vertex edge.next, p, n.vertex e'.next.next⟩ else tri m1 i := by
        intro i; rw [tri_same s2, halved_tri m1 n e' p ni hi', hlen, g5.1, g5.2]
      have l2' : Linked m2 := by
        refine linked_of_but l2 ?_
        rintro i f ⟨h1, h2, h3, -⟩
        exact h3 ⟨hne, hneN, fun h => h, hnbt, g3, n, g2, g5⟩
      have b1 : nb m2 index .ab = none := kept2 _ _ (Ne.symm hne) (by omega) n1
      have b2 : nb m2 N .ab = none := kept2 _ _ (Ne.symm hneN) (by omega) n2
      have t1 : tri m2 index = some ⟨t.triangle.vertex edge, p, t.triangle.vertex edge.next.next⟩ := by
        rw [htri2, if_neg (by omega), if_neg hne, htri1, if_neg hiN, if_pos rfl]
      have t2 : tri m2 N = some ⟨p, t.triangle.vertex edge.next, t.triangle.vertex edge.next.next⟩ := by
        rw [htri2, if_neg (by omega), if_neg hneN, htri1, if_pos rfl]
      have t3 : tri m2 ni = some ⟨t.triangle.vertex edge.next, p, n.vertex e'.next.next⟩ := by
        have : ni ≠ N + 1 := by omega
        rw [htri2, if_neg this, if_pos rfl]
      have t4 : tri m2 (N + 1) = some ⟨p, t.triangle.vertex edge, n.vertex e'.next.next⟩ := by
        rw [htri2, if_pos rfl]
      have f1 : Facing ⟨t.triangle.vertex edge, p, t.triangle.vertex edge.next.next⟩ .ab
        ⟨p, t.triangle.vertex edge, n.vertex e'.next.next⟩ .ab := ⟨rfl, rfl⟩
      have f2 : Facing ⟨p, t.triangle.vertex edge.next, t.triangle.vertex edge.next.next⟩ .ab
        ⟨t.triangle.vertex edge.next, p, n.vertex e'.next.next⟩ .ab := ⟨rfl, rfl⟩
      refine Act.sat_bind (Act.sat_mono (mark_sat index .ab (N + 1) m2 _ _ .ab t1 t4 (p2 _ _ t4) f1 v2 (by omega)) ?_ (fun _ h => h.elim))
      rintro - m3 ⟨s3, x2, x3, x4⟩
      have x1 : index ≠ N + 1 := by omega
      have l3 := link_step (but_of_linked l2') x1 t1 t4 f1 (Or.inr b1) (Or.inr n4) x2 x3 x4
      have ht3 : tri m3 = tri m2 := funext fun i => tri_same s3 i
      rw [← ht3] at l3
      have p3 := proper_same s3 p2
      refine Act.sat_mono (mark_sat N .ab ni m3 _ _ .ab (by rw [ht3]; exact t2) (by rw [ht3]; exact t3) (p2 _ _ t3) f2
        (valid_same s3 v2) (Ne.symm hneN)) ?_ (fun _ h => h.elim)
      rintro - m4 ⟨s4, y2, y3, y4⟩
      have l4 := link_step l3 (Ne.symm hneN) (by rw [ht3]; exact t2) (by rw [ht3]; exact t3) f2
        (Or.inr (by rw [x4 _ _ (fun h => hiN h.1.symm) (fun h => by omega)]; exact b2))
        (Or.inr (by rw [x4 _ _ (fun h => hne h.1) (fun h => by omega)]; exact n3)) y2 y3 y4
      have ht4 : tri m4 = tri m3 := funext fun i => tri_same s4 i
      rw [← ht4] at l4
      refine ⟨⟨valid_same s4 (valid_same s3 v2), counter_same s4 (counter_same s3 k2), proper_same s4 p3,
        linked_of_but l4 (fun i e h => h.1.1)⟩, t.triangle, ttri, ?_⟩
      rw [triangles_same s4, triangles_same s3, a2, hnbt]
      simp
  · rw [hn] at hnbt
    refine ⟨⟨v1, k1, p1, linked_of_but l1 ?_⟩, t.triangle, ttri, ?_⟩
    · rintro i f ⟨-, -, -, h, -⟩
      rw [hnbt] at h; simp at h
    · rw [a1, if_pos hnbt]

/-- The triangle can be split at the point: none of the new triangles is degenerate. -/
def Spec.CanSplit (m : Mesh) (i : ℕ) (p : V3 ℝ) : Prop :=
  ∃ t, tri m i = some t ∧ Proper ⟨t.c, t.a, p⟩ ∧ Proper ⟨t.a, t.b, p⟩ ∧ Proper ⟨t.b, t.c, p⟩

private theorem splitTriangle_sat (i : ℕ) (p : V3 ℝ) (m : Mesh) (hm : Sound m) :
    (splitTriangle i p).Sat m (fun _ m' => Keeps (total (Spec.triangles m)) m')
      (fun m' => Counted m' ∧ ¬ CanSplit m i p) := by
  have hcount := counted_all hm.valid hm.counter
  unfold splitTriangle
  refine Act.sat_bind (piece_sat' (fun t ht => ?_) (fun h => ⟨hcount, fun ⟨_, hc, _⟩ => by simp [tri, h] at hc⟩))
  have tv : t.valid = true := hm.valid t (List.mem_of_getElem? ht)
  have hi : i < m.triangles.length := (List.getElem?_eq_some_iff.1 ht).1
  have ttri : tri m i = some t.triangle := by simp [tri, ht]
  have tp := hm.proper _ _ ttri
  have hnbt : ∀ e, nb m i e = t.neighbour e := fun e => by simp [nb, ht]
  rw [if_neg (by simp [tv])]
  have q1 : t.triangle.edgeOf ⟨t.triangle.a, t.triangle.b⟩ = some .ab := edgeOf_self tp .ab
  have q2 : t.triangle.edgeOf ⟨t.triangle.b, t.triangle.c⟩ = some .bc := edgeOf_self tp .bc
  have q3 : t.triangle.edgeOf ⟨t.triangle.c, t.triangle.a⟩ = some .ca := edgeOf_self tp .ca
  dsimp only
  rw [q1, q2, q3]
  dsimp only
  obtain ⟨a, ha⟩ : ∃ a, a = t.triangle.a := ⟨_, rfl⟩
  obtain ⟨b, hb⟩ : ∃ b, b = t.triangle.b := ⟨_, rfl⟩
  obtain ⟨c, hc⟩ : ∃ c, c = t.triangle.c := ⟨_, rfl⟩
  rw [← ha, ← hb, ← hc]
  have can : CanSplit m i p → Proper ⟨c, a, p⟩ ∧ Proper ⟨a, b, p⟩ ∧ Proper ⟨b, c, p⟩ := by
    rintro ⟨t', k1, k2⟩
    rw [ttri, Option.some.injEq] at k1
    subst k1
    rw [← ha, ← hb, ← hc] at k2
    exact k2
  refine Act.sat_bind (invalidate_sat ht tv hcount ?_)
  have c1 := (counted_drop (x := { t with valid := false }) hcount ht tv rfl).2
  have hi1 : (m.triangles.set i { t with valid := false })[i]? = some { t with valid := false } :=
    List.getElem?_set_self hi
  refine Act.sat_bind (push_slot (m := ⟨_, _⟩) (Nat.zero_le _) hi1 rfl (fun j x h1 h2 hx => ?_) (fun pA => ?_)
    (fun hn => ⟨c1, fun h => hn (can h).1⟩))
  · rw [List.getElem?_set_ne (by omega)] at hx
    exact hm.valid x (List.mem_of_getElem? hx)
  have c2 := counted_fill (x := fresh ⟨c, a, p⟩ i) c1 hi1 rfl rfl
  have hnum : m.nValid - 1 + 1 = m.nValid := by have := hm.counter; omega
  rw [List.set_set, hnum] at c2
  dsimp only
  rw [List.set_set, hnum]
  have v2 : ∀ x ∈ m.triangles.set i (fresh ⟨c, a, p⟩ i), x.valid = true := by
    intro x hx
    rcases List.mem_or_eq_of_mem_set hx with hx | rfl
    · exact hm.valid x hx
    · rfl
  refine Act.sat_bind (push_new (m := ⟨_, _⟩) v2 (fun pB => ?_) (fun hn => ⟨c2, fun h => hn (can h).2.1⟩))
  simp only [List.length_set]
  obtain ⟨N, hN⟩ : ∃ N, N = m.triangles.length := ⟨_, rfl⟩
  rw [← hN]
  have c3 := counted_append (x := fresh ⟨a, b, p⟩ N) c2 rfl
  have v3 : ∀ x ∈ m.triangles.set i (fresh ⟨c, a, p⟩ i) ++ [fresh ⟨a, b, p⟩ N], x.valid = true := by
    intro x hx
    rw [List.mem_append, List.mem_singleton] at hx
    rcases hx with hx | rfl
    · exact v2 x hx
    · rfl
  refine Act.sat_bind (push_new (m := ⟨_, _⟩) v3 (fun pC => ?_) (fun hn => ⟨c3, fun h => hn (can h).2.2⟩))
  have c4 := counted_append (x := fresh ⟨b, c, p⟩ (N + 1)) c3 rfl
  have hl : (m.triangles.set i (fresh ⟨c, a, p⟩ i) ++ [fresh ⟨a, b, p⟩ N]).length = N + 1 := by simp [hN]
  simp only [hl]
  obtain ⟨m1, hm1⟩ : ∃ m1 : Mesh, m1 = ⟨m.triangles.set i (fresh ⟨c, a, p⟩ i) ++ [fresh ⟨a, b, p⟩ N] ++
    [fresh ⟨b, c, p⟩ (N + 1)], m.nValid + 1 + 1⟩ := ⟨_, rfl⟩
  rw [← hm1] at c4 ⊢
  have hiN : i ≠ N := by omega
  have hiN' : i ≠ N + 1 := by omega
  have hNN : N ≠ N + 1 := by omega
  have htri1 : ∀ k, tri m1 k = if k = N + 1 then some ⟨b, c, p⟩ else if k = N then some ⟨a, b, p⟩ else
      if i = k then some ⟨c, a, p⟩ else tri m k := by
    intro k
    rw [hm1, tri_append, hl, tri_append, tri_set hi, List.length_set, ← hN]; rfl
  have hnb1 : ∀ k e, nb m1 k e = if k = N + 1 then none else if k = N then none else if i = k then none else nb m k e := by
    intro k e
    rw [hm1, nb_append, hl, nb_append, nb_set hi, fresh_nb, fresh_nb, fresh_nb, List.length_set, ← hN]; rfl
  have tA : tri m1 i = some ⟨c, a, p⟩ := by rw [htri1, if_neg hiN', if_neg hiN, if_pos rfl]
  have tB : tri m1 N = some ⟨a, b, p⟩ := by rw [htri1, if_neg hNN, if_pos rfl]
  have tC : tri m1 (N + 1) = some ⟨b, c, p⟩ := by rw [htri1, if_pos rfl]
  have tN : tri m N = none := by simp [tri, hN]
  have tN' : tri m (N + 1) = none := by simp [tri, hN]
  obtain ⟨s, hs⟩ : ∃ s : Session, s = ⟨m, fun _ _ => False, fun k => k = i, fun k => k = i ∨ k = N ∨ k = N + 1⟩ := ⟨_, rfl⟩
  have ok : s.Ok := by
    subst hs
    refine ⟨hm.proper, but_of_linked hm.linked, fun _ _ h => h.elim, fun k => ⟨?_, ?_⟩⟩
    · rintro (rfl | rfl | rfl)
      · exact Or.inl rfl
      · exact Or.inr ⟨Or.inr (Or.inl rfl), tN⟩
      · exact Or.inr ⟨Or.inr (Or.inr rfl), tN'⟩
    · rintro (rfl | ⟨h, -⟩)
      · exact Or.inl rfl
      · exact h
  have sS : ∀ k, s.S k ↔ k = i ∨ k = N ∨ k = N + 1 := fun k => by rw [hs]
  have sR : ∀ k, s.R k ↔ k = i := fun k => by rw [hs]
  have sD : ∀ k e, ¬ s.D0 k e := fun k e => by rw [hs]; exact fun h => h
  have sm : s.m0 = m := by rw [hs]
  have offS : ∀ k, ¬ s.S k → i ≠ k ∧ k ≠ N ∧ k ≠ N + 1 := by
    intro k h
    rw [sS, not_or, not_or] at h
    exact ⟨Ne.symm h.1, h.2⟩
  have htri : ∀ k, ¬ s.S k → tri m1 k = tri s.m0 k := by
    intro k h
    rw [htri1, if_neg (offS k h).2.2, if_neg (offS k h).2.1, if_neg (offS k h).1, sm]
  have st := s.start ok m1
    (by intro k e h
        rw [hnb1]
        rcases (sS k).1 h with rfl | rfl | rfl
        · rw [if_neg hiN', if_neg hiN, if_pos rfl]
        · rw [if_neg hNN, if_pos rfl]
        · rw [if_pos rfl])
    (by intro k e h
        rw [hnb1, if_neg (offS k h).2.2, if_neg (offS k h).2.1, if_neg (offS k h).1, sm])
    htri
  have out : ∀ f, ∀ x, nb s.m0 i f = some x → ¬ s.S x := by
    intro f x hx hSx
    rw [sm] at hx
    obtain ⟨u, v, f', k1, k2, k3, k4⟩ := hm.linked i f x hx
    rw [ttri, Option.some.injEq] at k1
    subst k1
    rcases (sS x).1 hSx with rfl | rfl | rfl
    · rw [ttri, Option.some.injEq] at k2
      subst k2
      exact not_facing_self tp k4
    · rw [tN] at k2; simp at k2
    · rw [tN'] at k2; simp at k2
  have R1 : s.R i := (sR _).2 rfl
  have S1 : s.S i := (sS _).2 (Or.inl rfl)
  have S2 : s.S N := (sS _).2 (Or.inr (Or.inl rfl))
  have S3 : s.S (N + 1) := (sS _).2 (Or.inr (Or.inr rfl))
  have v1 : ∀ t ∈ m1.triangles, t.valid = true := by
    intro x hx
    rw [hm1, List.mem_append, List.mem_singleton] at hx
    rcases hx with hx | rfl
    · exact v3 x hx
    · rfl
  refine Act.sat_mono (Q := fun _ m' => ∃ F U, s.Stage m1 F U m' ∧ ∀ e, ¬ F i e) (E := fun _ => False) ?_ ?_ (fun _ h => h.elim)
  · refine Act.sat_bind (Act.sat_mono (s.inner m1 _ _ _ st i .bc N .ca ⟨c, a, p⟩ ⟨a, b, p⟩ S1 S2 (by simp) (by simp)
      tA tB pB ⟨rfl, rfl⟩ v1 hiN) ?_ (fun _ h => h))
    intro _ m2 st
    refine Act.sat_bind (Act.sat_mono (s.inner m1 _ _ _ st N .bc (N + 1) .ca ⟨a, b, p⟩ ⟨b, c, p⟩ S2 S3 (by simp [Ne.symm hiN])
      (by simp [Ne.symm hiN']) tB tC pC ⟨rfl, rfl⟩ v1 hNN) ?_ (fun _ h => h))
    intro _ m3 st
    refine Act.sat_bind (Act.sat_mono (s.inner m1 _ _ _ st (N + 1) .bc i .ca ⟨b, c, p⟩ ⟨c, a, p⟩ S3 S1 (by simp [Ne.symm hiN'])
      (by simp [hiN, hiN']) tC tA pA ⟨rfl, rfl⟩ v1 (Ne.symm hiN')) ?_ (fun _ h => h))
    intro _ m4 st
    refine Act.sat_bind (Act.sat_mono (s.constrain m1 _ _ _ st _ _ _) ?_ (fun _ h => h))
    intro _ m5 st
    refine Act.sat_bind (Act.sat_mono (s.outer ok m1 _ _ _ st htri i .ca i .ab t.triangle ⟨c, a, p⟩ R1
      trivial (sD _ _) S1 (by simp) (by rw [sm]; exact ttri) tA ⟨hc, ha⟩ (out _) v1 _ (by rw [sm, hnbt])) ?_ (fun _ h => h))
    intro _ m6 st
    refine Act.sat_bind (Act.sat_mono (s.constrain m1 _ _ _ st _ _ _) ?_ (fun _ h => h))
    intro _ m7 st
    refine Act.sat_bind (Act.sat_mono (s.outer ok m1 _ _ _ st htri i .ab N .ab t.triangle ⟨a, b, p⟩ R1
      (by simp) (sD _ _) S2 (by simp [Ne.symm hiN]) (by rw [sm]; exact ttri) tB ⟨ha, hb⟩ (out _) v1 _ (by rw [sm, hnbt])) ?_
      (fun _ h => h))
    intro _ m8 st
    refine Act.sat_bind (Act.sat_mono (s.constrain m1 _ _ _ st _ _ _) ?_ (fun _ h => h))
    intro _ m9 st
    refine Act.sat_mono (s.outer ok m1 _ _ _ st htri i .bc (N + 1) .ab t.triangle ⟨b, c, p⟩ R1
      (by simp) (sD _ _) S3 (by simp [Ne.symm hiN']) (by rw [sm]; exact ttri) tC ⟨hb, hc⟩ (out _) v1 _ (by rw [sm, hnbt])) ?_
      (fun _ h => h)
    intro _ m10 st
    exact ⟨_, _, st, fun e => by cases e <;> simp⟩
  · rintro - m' ⟨F, U, st, hF⟩
    have k1 : m1.nValid = m1.triangles.length := by rw [hm1]; simp [hm.counter]
    have p1 : ∀ k t, tri m1 k = some t → Proper t := by
      intro k x hx
      rw [htri1] at hx
      split_ifs at hx with h1 h2 h3
      · rw [Option.some.injEq] at hx; exact hx ▸ pC
      · rw [Option.some.injEq] at hx; exact hx ▸ pB
      · rw [Option.some.injEq] at hx; exact hx ▸ pA
      · exact hm.proper k x hx
    refine ⟨⟨valid_same st.same v1, counter_same st.same k1, proper_same st.same p1, linked_of_but st.linked ?_⟩, ?_⟩
    · rintro k e ⟨-, k', f, _, _, hk, hF', -⟩
      rw [sR] at hk
      subst hk
      exact hF f hF'
    · rw [triangles_same st.same, hm1]
      unfold Spec.triangles
      dsimp only
      rw [total_append, total_append, total_set ht]
      have h : area (fresh ⟨c, a, p⟩ i).triangle + area (fresh ⟨a, b, p⟩ N).triangle + area (fresh ⟨b, c, p⟩ (N + 1)).triangle =
          area t.triangle := by
        rw [ha, hb, hc]; unfold area fresh; ext <;> simp [V3.cross] <;> ring
      have h2 : ∀ T x y z w : V3 ℝ, y + z + w = x → T - x + y + z + w = T := by
        intro T x y z w h
        rw [← h]; abel
      exact h2 _ _ _ _ _ h


/-! ### Finding the best flips does not change the mesh -/

private theorem flippedAspectRatio_same (index : ℕ) (edge : Edge) (m : Mesh) :
    (flippedAspectRatio index edge).Sat m (fun _ m' => m' = m) (fun m' => m' = m) := by
  unfold flippedAspectRatio
  refine Act.sat_bind (piece_sat (fun t _ => ?_) rfl)
  refine Act.sat_ite (fun _ => Act.sat_err rfl) fun _ => Act.sat_ite (fun _ => Act.sat_pure rfl) fun _ => ?_
  cases t.neighbour edge with
  | none => exact Act.sat_pure rfl
  | some ni =>
    refine Act.sat_bind (piece_sat (fun n _ => ?_) rfl)
    refine Act.sat_ite (fun _ => Act.sat_err rfl) fun _ => Act.sat_ite (fun _ => Act.sat_err rfl) fun _ => ?_
    refine Act.sat_bind (Act.sat_lift (fun o _ => ?_) rfl)
    refine Act.sat_ite (fun _ => Act.sat_pure rfl) fun _ => ?_
    refine Act.sat_bind (Act.sat_lift (fun f1 _ => Act.sat_bind (Act.sat_lift (fun f2 _ => ?_) rfl)) rfl)
    exact Act.sat_ite (fun _ => Act.sat_pure rfl) fun _ => Act.sat_pure rfl

private theorem bestFlip_same (i : ℕ) (current : ℝ) (es : List Edge) : ∀ (best : Option (Edge × ℝ)) (m : Mesh),
    (bestFlip i current es best).Sat m (fun _ m' => m' = m) (fun m' => m' = m) := by
  induction es with
  | nil => intro best m; exact Act.sat_pure rfl
  | cons e es ih =>
    intro best m
    unfold bestFlip
    refine Act.sat_bind (Act.sat_mono (flippedAspectRatio_same i e m) ?_ (fun _ h => h))
    rintro o m' rfl
    cases o with
    | none => exact ih best m'
    | some ar => exact Act.sat_ite (fun _ => ih _ m') (fun _ => ih _ m')

private theorem delaunayRound_sat (r : ℝ) (A : V3 ℝ) (is : List ℕ) : ∀ (b : Bool) (m : Mesh), Keeps A m →
    (delaunayRound r is b).Sat m (fun _ m' => Keeps A m') Counted := by
  induction is with
  | nil => intro b m h; exact Act.sat_pure h
  | cons i is ih =>
    intro b m h
    have hc := counted_all h.1.valid h.1.counter
    unfold delaunayRound
    refine Act.sat_bind (piece_sat (fun t _ => ?_) hc)
    refine Act.sat_ite (fun _ => ih _ m h) fun _ => Act.sat_ite (fun _ => ih _ m h) fun _ => ?_
    refine Act.sat_bind (Act.sat_mono (bestFlip_same i _ _ _ m) ?_ (fun _ h' => h' ▸ hc))
    rintro o m' rfl
    cases o with
    | none => exact ih _ m' h
    | some best =>
      refine Act.sat_bind (Act.sat_mono (flip_sat i best.1 m' h.1) ?_ (fun _ h => h.1))
      intro _ m2 h2
      rw [h.2] at h2
      exact ih _ m2 h2

private theorem delaunayRounds_sat (r : ℝ) (A : V3 ℝ) (n k : ℕ) : ∀ m : Mesh, Keeps A m →
    (delaunayRounds r n k).Sat m (fun _ m' => Keeps A m') Counted := by
  induction k with
  | zero => intro m h; exact Act.sat_pure h
  | succ k ih =>
    intro m h
    unfold delaunayRounds
    refine Act.sat_bind (Act.sat_mono (delaunayRound_sat r A _ _ m h) ?_ (fun _ h => h))
    intro b m' h'
    cases b with
    | true => exact ih m' h'
    | false => exact Act.sat_pure h'

private theorem restore_sat (r : ℝ) (m : Mesh) (h : Sound m) :
    (restoreDelaunay r).Sat m (fun _ m' => Keeps (total (Spec.triangles m)) m') Counted := by
  unfold restoreDelaunay
  exact Act.sat_bind (Act.sat_get (delaunayRounds_sat r _ _ _ m ⟨h, rfl⟩))

/-- The edge that a point is on. -/
private def edgeAt : PointInTriangle → Option Edge
  | .edgeAB => some .ab
  | .edgeBC => some .bc
  | .edgeAC => some .ca
  | _ => none

private theorem addPoint_sat (p : V3 ℝ) (m : Mesh) (h : Sound m) :
    (addPoint p).Sat m (fun _ m' => Sound m' ∧ (total (Spec.triangles m') = total (Spec.triangles m) ∨
      ∃ i e t, tri m i = some t ∧ nb m i e = none ∧ edgeAt (t.testPoint p) = some e ∧
        total (Spec.triangles m') = total (Spec.triangles m) + area ⟨t.vertex e, p, t.vertex e.next⟩)) Counted := by
  have hc := counted_all h.valid h.counter
  unfold addPoint
  refine Act.sat_bind (Act.sat_get ?_)
  cases m.locate p with
  | none => exact Act.sat_err hc
  | some i =>
    refine Act.sat_bind (piece_sat (fun t ht => ?_) hc)
    have split : ∀ e, edgeAt (t.triangle.testPoint p) = some e → (splitEdge i e p >>= fun _ => (pure true : Act Mesh Bool)).Sat m
        (fun _ m' => Sound m' ∧ (total (Spec.triangles m') = total (Spec.triangles m) ∨
          ∃ i e t, tri m i = some t ∧ nb m i e = none ∧ edgeAt (t.testPoint p) = some e ∧
            total (Spec.triangles m') = total (Spec.triangles m) + area ⟨t.vertex e, p, t.vertex e.next⟩)) Counted := by
      intro e he
      refine Act.sat_bind (Act.sat_mono (splitEdge_sat i e p m h) ?_ (fun _ h => h.1))
      rintro - m' ⟨hs, u, hu, ha⟩
      have hu' : u = t.triangle := by simpa [tri, ht, eq_comm] using hu
      refine Act.sat_pure ⟨hs, ?_⟩
      split_ifs at ha with hn
      · exact Or.inr ⟨i, e, u, hu, hn, hu' ▸ he, ha⟩
      · left; rw [ha]; abel
    unfold addPointToTriangle
    refine Act.sat_bind (piece_sat (fun _ _ => ?_) hc)
    refine Act.sat_ite (fun _ => Act.sat_err hc) fun _ => ?_
    cases hp : t.triangle.testPoint p with
    | vertexA => exact Act.sat_pure ⟨h, Or.inl rfl⟩
    | vertexB => exact Act.sat_pure ⟨h, Or.inl rfl⟩
    | vertexC => exact Act.sat_pure ⟨h, Or.inl rfl⟩
    | edgeAB => exact split .ab (by rw [hp]; rfl)
    | edgeBC => exact split .bc (by rw [hp]; rfl)
    | edgeAC => exact split .ca (by rw [hp]; rfl)
    | inside =>
      exact Act.sat_bind (Act.sat_mono (splitTriangle_sat i p m h) (fun _ m' h' => Act.sat_pure ⟨h'.1, Or.inl h'.2⟩)
        (fun _ h => h.1))
    | outside => exact Act.sat_panic hc

private theorem push_sat (a b c : V3 ℝ) (k : ℕ) (m : Mesh) (h : Sound m) :
    (push a b c k).Sat m (fun n m' => n = m.triangles.length ∧ Sound m' ∧
      total (Spec.triangles m') = total (Spec.triangles m) + area ⟨a, b, c⟩) (fun m' => m' = m) := by
  refine push_new h.valid (fun hp => ⟨rfl, ⟨?_, ?_, ?_, ?_⟩, ?_⟩) (fun _ => rfl)
  · intro x hx
    rw [List.mem_append, List.mem_singleton] at hx
    rcases hx with hx | rfl
    · exact h.valid x hx
    · rfl
  · simp [h.counter]
  · intro i t ht
    rw [tri_append] at ht
    split_ifs at ht with hi
    · rw [Option.some.injEq] at ht; exact ht ▸ hp
    · exact h.proper i t ht
  · intro i e j hn
    rw [nb_append] at hn
    split_ifs at hn with hi
    · rw [fresh_nb] at hn; simp at hn
    · obtain ⟨t, t', e', g1, g2, g3, g4⟩ := h.linked i e j hn
      have hj : j ≠ m.triangles.length := by
        rintro rfl
        simp [tri] at g2
      exact ⟨t, t', e', by rw [tri_append, if_neg hi]; exact g1, by rw [tri_append, if_neg hj]; exact g2,
        by rw [nb_append, if_neg hj]; exact g3, g4⟩
  · unfold Spec.triangles
    exact total_append

/-! ### The theorems -/

private theorem sat_counted {α : Type} {f : Act Mesh α} {m : Mesh} {Q : α → Mesh → Prop} (h : f.Sat m Q Counted)
    (hq : ∀ a m', Q a m' → Counted m') : Counted (f m).2 := by
  unfold Act.Sat at h
  cases hf : f m with
  | mk o m' =>
    rw [hf] at h
    cases o with
    | ok a => exact hq a m' h
    | err => exact h
    | panic => exact h

/-- C51: flipping a diagonal keeps the mesh sound and its area the same. -/
theorem C51_flip_diagonal (i : ℕ) (e : Edge) (m m' : Mesh) (hm : Sound m) (h : flipDiagonal i e m = (.ok (), m')) :
    Sound m' ∧ total (Spec.triangles m') = total (Spec.triangles m) := Act.sat_ok (flip_sat i e m hm) h

/-- C51: splitting an edge keeps the mesh sound.  The area stays the same when there is a triangle on the other side;
otherwise it changes by that of the triangle between the edge and the point, which is zero when the point is on the
edge. -/
theorem C51_split_edge (i : ℕ) (e : Edge) (p : V3 ℝ) (m m' : Mesh) (hm : Sound m) (h : splitEdge i e p m = (.ok (), m')) :
    Sound m' ∧ ∃ t, tri m i = some t ∧ total (Spec.triangles m') = total (Spec.triangles m) +
      if nb m i e = none then area ⟨t.vertex e, p, t.vertex e.next⟩ else 0 := Act.sat_ok (splitEdge_sat i e p m hm) h

/-- C51: so it stays the same when the point is on the edge. -/
theorem C51_split_edge_on (i : ℕ) (e : Edge) (p : V3 ℝ) (m m' : Mesh) (hm : Sound m) (h : splitEdge i e p m = (.ok (), m'))
    (t : Triangle ℝ) (ht : tri m i = some t) (s : ℝ) (hp : p = t.vertex e + (t.vertex e.next - t.vertex e).scale s) :
    total (Spec.triangles m') = total (Spec.triangles m) := by
  obtain ⟨-, u, hu, ha⟩ := C51_split_edge i e p m m' hm h
  rw [ht, Option.some.injEq] at hu
  subst hu
  have h0 : area ⟨t.vertex e, p, t.vertex e.next⟩ = 0 := by
    rw [hp]; unfold area; ext <;> simp [V3.cross] <;> ring
  rw [ha, h0]
  simp

/-- C51: splitting a triangle keeps the mesh sound and its area the same, wherever the point is. -/
theorem C51_split_triangle (i : ℕ) (p : V3 ℝ) (m m' : Mesh) (hm : Sound m) (h : splitTriangle i p m = (.ok (), m')) :
    Sound m' ∧ total (Spec.triangles m') = total (Spec.triangles m) := Act.sat_ok (splitTriangle_sat i p m hm) h

/-- C51: adding a triangle to a sound mesh puts it at the end and adds its area; the new triangle has no neighbours. -/
theorem C51_push (a b c : V3 ℝ) (k n : ℕ) (m m' : Mesh) (hm : Sound m) (h : push a b c k m = (.ok n, m')) :
    n = m.triangles.length ∧ Sound m' ∧ total (Spec.triangles m') = total (Spec.triangles m) + area ⟨a, b, c⟩ :=
  Act.sat_ok (push_sat a b c k m hm) h

/-- C51: adding a point keeps the mesh sound.  The area stays the same, unless the point was taken to be on an edge
without a triangle on the other side: then it changes by that of the triangle between the edge and the point. -/
theorem C51_add_point (p : V3 ℝ) (b : Bool) (m m' : Mesh) (hm : Sound m) (h : addPoint p m = (.ok b, m')) :
    Sound m' ∧ (total (Spec.triangles m') = total (Spec.triangles m) ∨
      ∃ i e t, tri m i = some t ∧ nb m i e = none ∧
        (t.testPoint p = .edgeAB ∧ e = .ab ∨ t.testPoint p = .edgeBC ∧ e = .bc ∨ t.testPoint p = .edgeAC ∧ e = .ca) ∧
        total (Spec.triangles m') = total (Spec.triangles m) + area ⟨t.vertex e, p, t.vertex e.next⟩) := by
  obtain ⟨h1, h2⟩ := Act.sat_ok (addPoint_sat p m hm) h
  refine ⟨h1, h2.imp id ?_⟩
  rintro ⟨i, e, t, g1, g2, g3, g4⟩
  refine ⟨i, e, t, g1, g2, ?_, g4⟩
  cases hp : t.testPoint p <;> rw [hp] at g3 <;> simp_all [edgeAt]

/-- C51: flipping diagonals for better aspect ratios keeps the mesh sound and its area the same. -/
theorem C51_restore_delaunay (r : ℝ) (m m' : Mesh) (hm : Sound m) (h : restoreDelaunay r m = (.ok (), m')) :
    Sound m' ∧ total (Spec.triangles m') = total (Spec.triangles m) := Act.sat_ok (restore_sat r m hm) h

private theorem sat_total {α : Type} {f : Act Mesh α} {m : Mesh} {Q : α → Mesh → Prop} {E : Mesh → Prop} (h : f.Sat m Q E)
    (hE : ∀ m', ¬ E m') : ∃ a m', f m = (.ok a, m') := by
  unfold Act.Sat at h
  cases hf : f m with
  | mk o m' =>
    rw [hf] at h
    cases o with
    | ok a => exact ⟨a, m', rfl⟩
    | err => exact (hE m' h).elim
    | panic => exact (hE m' h).elim

/-- C51: a diagonal with triangles on both sides is flipped, unless one of the new triangles would be degenerate. -/
theorem C51_flip_succeeds (i : ℕ) (e : Edge) (m : Mesh) (hm : Sound m) (h : CanFlip m i e) :
    ∃ m', flipDiagonal i e m = (.ok (), m') := by
  obtain ⟨_, m', h'⟩ := sat_total (flip_sat i e m hm) (fun _ hc => hc.2 h)
  exact ⟨m', h'⟩

/-- C51: an edge is split, unless one of the new triangles would be degenerate. -/
theorem C51_split_edge_succeeds (i : ℕ) (e : Edge) (p : V3 ℝ) (m : Mesh) (hm : Sound m) (h : CanSplitEdge m i e p) :
    ∃ m', splitEdge i e p m = (.ok (), m') := by
  obtain ⟨_, m', h'⟩ := sat_total (splitEdge_sat i e p m hm) (fun _ hc => hc.2 h)
  exact ⟨m', h'⟩

/-- C51: a triangle is split, unless one of the new triangles would be degenerate. -/
theorem C51_split_triangle_succeeds (i : ℕ) (p : V3 ℝ) (m : Mesh) (hm : Sound m) (h : CanSplit m i p) :
    ∃ m', splitTriangle i p m = (.ok (), m') := by
  obtain ⟨_, m', h'⟩ := sat_total (splitTriangle_sat i p m hm) (fun _ hc => hc.2 h)
  exact ⟨m', h'⟩

namespace Spec

/-- The methods that edit a mesh. -/
inductive Edit where
  | flip (i : ℕ) (e : Edge)
  | splitEdge (i : ℕ) (e : Edge) (p : V3 ℝ)
  | splitTriangle (i : ℕ) (p : V3 ℝ)
  | push (a b c : V3 ℝ) (last : ℕ)
  | addPoint (p : V3 ℝ)
  | restoreDelaunay (r : ℝ)

noncomputable def Edit.run : Edit → Act Mesh Unit
  | flip i e => flipDiagonal i e
  | splitEdge i e p => Mesh.splitEdge i e p
  | splitTriangle i p => Mesh.splitTriangle i p
  | push a b c last => do let _ ← Mesh.push a b c last
  | addPoint p => do let _ ← Mesh.addPoint p
  | restoreDelaunay r => Mesh.restoreDelaunay r

end Spec

private theorem edit_sat (x : Edit) (m : Mesh) (hm : Sound m) : x.run.Sat m (fun _ m' => Sound m') Counted := by
  have hc := counted_all hm.valid hm.counter
  cases x with
  | flip i e => exact Act.sat_mono (flip_sat i e m hm) (fun _ _ h => h.1) (fun _ h => h.1)
  | splitEdge i e p => exact Act.sat_mono (splitEdge_sat i e p m hm) (fun _ _ h => h.1) (fun _ h => h.1)
  | splitTriangle i p => exact Act.sat_mono (splitTriangle_sat i p m hm) (fun _ _ h => h.1) (fun _ h => h.1)
  | push a b c last =>
    exact Act.sat_bind (Act.sat_mono (push_sat a b c last m hm) (fun _ _ h => Act.sat_pure h.2.1) (fun _ h => h ▸ hc))
  | addPoint p =>
    exact Act.sat_bind (Act.sat_mono (addPoint_sat p m hm) (fun _ _ h => Act.sat_pure h.1) (fun _ h => h))
  | restoreDelaunay r => exact Act.sat_mono (restore_sat r m hm) (fun _ _ h => h.1) (fun _ h => h)

/-- C51: the counter is right after each of them, also when it fails. -/
theorem C51_counter (x : Edit) (m : Mesh) (hm : Sound m) : Counted (x.run m).2 :=
  sat_counted (edit_sat x m hm) fun _ _ h => counted_all h.valid h.counter

/-- C51: after any number of successful edits the mesh is sound: all its triangles are valid and counted, none is
degenerate, and neighbours share an edge and have each other as neighbours. -/
theorem C51_history (xs : List Edit) (m m' : Mesh) (hm : Sound m) (h : Act.each Edit.run xs m = (.ok (), m')) : Sound m' := by
  have key : ∀ xs : List Edit, ∀ m, Sound m → (Act.each Edit.run xs).Sat m (fun _ m' => Sound m') (fun _ => True) := by
    intro xs
    induction xs with
    | nil => intro m hm; exact Act.sat_pure hm
    | cons x xs ih =>
      intro m hm
      exact Act.sat_bind (Act.sat_mono (edit_sat x m hm) (fun _ m' h' => ih m' h') (fun _ _ => trivial))
  exact Act.sat_ok (key xs m hm) h

/-- The empty mesh is sound. -/
theorem new_sound : Sound new := ⟨by simp [new], rfl, fun i t h => by simp [tri, new] at h, fun i e j h => by simp [nb, new] at h⟩

/-- C51: the edge that refining splits in a thin triangle is the longest one, and it is split in two equal halves. -/
theorem C51_longest (t : Triangle ℝ) :
    (∀ e : Edge, (t.vertex e).distance (t.vertex e.next) ≤
      (t.vertex (longestEdge t)).distance (t.vertex (longestEdge t).next)) ∧
      ∀ e : Edge, ((t.segment e).midpoint).scale 2 = t.vertex e + t.vertex e.next := by
  constructor
  · intro e
    have key : ∀ len : Edge → ℝ, len e ≤ len (if len (if len .ab < len .bc then .bc else .ab) < len .ca then .ca
        else (if len .ab < len .bc then .bc else .ab)) := by
      intro len
      by_cases h1 : len .ab < len .bc
      · rw [if_pos h1]
        by_cases h2 : len .bc < len .ca
        · rw [if_pos h2]
          cases e <;> linarith
        · rw [if_neg h2]
          cases e <;> linarith
      · rw [if_neg h1]
        by_cases h2 : len .ab < len .ca
        · rw [if_pos h2]
          cases e <;> linarith
        · rw [if_neg h2]
          cases e <;> linarith
    exact key fun e => (t.segment e).start.distance (t.segment e).fin
  · intro e
    unfold Segment.midpoint Triangle.segment
    ext <;> simp [V3.scale] <;> ring

/-- The four corners of `a b c d` all turn the same way. -/
def Spec.TurnsOneWay (a b c d : V3 ℝ) : Prop :=
  let turn := (b - a).cross (c - b)
  0 < turn.dot ((c - b).cross (d - c)) ∧ 0 < turn.dot ((d - c).cross (a - d)) ∧ 0 < turn.dot ((a - d).cross (b - a))

private theorem sameDirection_pos {a b : V3 ℝ} (h : a.isSameDirection b = true) : 0 < a.dot b := by
  unfold V3.isSameDirection at h
  split at h
  · cases h
  · simpa using h

private theorem isConvex_turns {a b c d : V3 ℝ} (h : isConvex a b c d = true) : Spec.TurnsOneWay a b c d := by
  unfold isConvex at h
  simp only [Bool.and_eq_true] at h
  obtain ⟨⟨⟨-, -, h1⟩, -, h2⟩, -, h3⟩ := h
  exact ⟨sameDirection_pos h1, sameDirection_pos h2, sameDirection_pos h3⟩

private theorem triPiece_triangle {a b c : V3 ℝ} {k : ℕ} {f : TriPiece} (h : TriPiece.new a b c k = .ok f) : f.triangle = ⟨a, b, c⟩ := by
  unfold TriPiece.new Triangle.new at h
  split at h
  · cases h
  · cases hc : a.isCollinear b c with
    | ok col =>
      rw [hc] at h
      cases col with
      | true => simp [Outcome.bind] at h
      | false =>
        simp only [Outcome.bind, Bool.false_eq_true, if_false] at h
        exact (Outcome.ok.inj h) ▸ rfl
    | err => rw [hc] at h; simp [Outcome.bind] at h
    | panic => rw [hc] at h; simp [Outcome.bind] at h

private theorem flip_considered (index : ℕ) (e : Edge) (m : Mesh) :
    (flippedAspectRatio index e).Sat m (fun o _ => ∀ r, o = some r → ∃ t ni n o, m.triangles[index]? = some t ∧ t.valid = true ∧
      t.isConstrained e = false ∧ t.neighbour e = some ni ∧ m.triangles[ni]? = some n ∧ n.valid = true ∧
      n.triangle.opposite ⟨t.triangle.vertex e, t.triangle.vertex e.next⟩ = .ok o ∧
      Spec.TurnsOneWay (t.triangle.vertex e) o (t.triangle.vertex e.next) (t.triangle.vertex e.next.next) ∧
      r = max (Triangle.aspectRatio ⟨t.triangle.vertex e, o, t.triangle.vertex e.next.next⟩)
        (Triangle.aspectRatio ⟨o, t.triangle.vertex e.next, t.triangle.vertex e.next.next⟩)) (fun _ => True) := by
  unfold flippedAspectRatio
  refine Act.sat_bind (piece_sat' (fun t ht => ?_) fun _ => trivial)
  refine Act.sat_ite (fun _ => Act.sat_err trivial) fun hv => Act.sat_ite (fun _ => Act.sat_pure (by simp)) fun hc => ?_
  cases hn : t.neighbour e with
  | none => exact Act.sat_pure (by simp)
  | some ni =>
    refine Act.sat_bind (piece_sat' (fun n hni => ?_) fun _ => trivial)
    refine Act.sat_ite (fun _ => Act.sat_err trivial) fun hnv => Act.sat_ite (fun _ => Act.sat_err trivial) fun _ => ?_
    refine Act.sat_bind (Act.sat_lift (fun o ho => ?_) trivial)
    refine Act.sat_ite (fun _ => Act.sat_pure (by simp)) fun hcv => ?_
    refine Act.sat_bind (Act.sat_lift (fun f1 h1 => Act.sat_bind (Act.sat_lift (fun f2 h2 => ?_) trivial)) trivial)
    have base : ∀ r, r = max f1.triangle.aspectRatio f2.triangle.aspectRatio → ∃ t ni n o, m.triangles[index]? = some t ∧ t.valid = true ∧
      t.isConstrained e = false ∧ t.neighbour e = some ni ∧ m.triangles[ni]? = some n ∧ n.valid = true ∧
      n.triangle.opposite ⟨t.triangle.vertex e, t.triangle.vertex e.next⟩ = .ok o ∧
      Spec.TurnsOneWay (t.triangle.vertex e) o (t.triangle.vertex e.next) (t.triangle.vertex e.next.next) ∧
      r = max (Triangle.aspectRatio ⟨t.triangle.vertex e, o, t.triangle.vertex e.next.next⟩)
        (Triangle.aspectRatio ⟨o, t.triangle.vertex e.next, t.triangle.vertex e.next.next⟩) := by
      intro r hr
      refine ⟨t, ni, n, o, ht, by simpa using hv, by simpa using hc, hn, hni, by simpa using hnv, ho, isConvex_turns (by simpa using hcv), ?_⟩
      rw [hr, triPiece_triangle h1, triPiece_triangle h2]
    refine Act.sat_ite (fun hg => Act.sat_pure ?_) fun hg => Act.sat_pure ?_
    · intro r hr
      apply base
      rw [max_eq_left (le_of_lt hg)]
      exact (Option.some.inj hr).symm
    · intro r hr
      apply base
      rw [max_eq_right (not_lt.1 hg)]
      exact (Option.some.inj hr).symm

private theorem sat_of_result {σ α : Type _} {m : Act σ α} {s : σ} {Q : α → σ → Prop} {E : σ → Prop} (h : m.Sat s Q E) {a : α}
    (e : (m s).1 = .ok a) : Q a (m s).2 := by
  unfold Act.Sat at h
  cases hm : m s with
  | mk o s' =>
    rw [hm] at h e
    simp only at e
    subst e
    exact h

/-- C51: restoring the Delaunay condition only looks at flips of edges that are not constrained, have a triangle on the other
side and whose four corners make a convex quadrilateral; the ratio it compares is the worse of the two new triangles. -/
theorem C51_flip_candidates (index : ℕ) (e : Edge) (m : Mesh) (r : ℝ) (h : (flippedAspectRatio index e m).1 = .ok (some r)) :
    ∃ t ni n o, m.triangles[index]? = some t ∧ t.valid = true ∧ t.isConstrained e = false ∧ t.neighbour e = some ni ∧
      m.triangles[ni]? = some n ∧ n.valid = true ∧
      n.triangle.opposite ⟨t.triangle.vertex e, t.triangle.vertex e.next⟩ = .ok o ∧
      Spec.TurnsOneWay (t.triangle.vertex e) o (t.triangle.vertex e.next) (t.triangle.vertex e.next.next) ∧
      r = max (Triangle.aspectRatio ⟨t.triangle.vertex e, o, t.triangle.vertex e.next.next⟩)
        (Triangle.aspectRatio ⟨o, t.triangle.vertex e.next, t.triangle.vertex e.next.next⟩) :=
  sat_of_result (flip_considered index e m) h r rfl

private theorem bestFlip_best (i : ℕ) (current : ℝ) (es : List Edge) : ∀ (best : Option (Edge × ℝ)) (m : Mesh),
    (bestFlip i current es best).Sat m (fun o _ =>
      (∀ b, o = some b → some b = best ∨ (b.2 < current ∧ b.1 ∈ es ∧ (flippedAspectRatio i b.1 m).1 = .ok (some b.2))) ∧
      (∀ b, best = some b → ∃ c, o = some c ∧ c.2 ≤ b.2) ∧
      ∀ e ∈ es, ∀ ar, (flippedAspectRatio i e m).1 = .ok (some ar) → ar < current → ∃ c, o = some c ∧ c.2 ≤ ar) (fun _ => True) := by
  induction es with
  | nil =>
    intro best m
    exact Act.sat_pure ⟨fun b hb => Or.inl hb.symm, fun b hb => ⟨b, hb, le_refl _⟩, by simp⟩
  | cons e es ih =>
    intro best m
    unfold bestFlip
    refine Act.sat_bind ?_
    have hsame := flippedAspectRatio_same i e m
    unfold Act.Sat at hsame ⊢
    cases hf : flippedAspectRatio i e m with
    | mk o m' =>
      rw [hf] at hsame
      cases o with
      | err => trivial
      | panic => trivial
      | ok o =>
        simp only at hsame ⊢
        subst hsame
        cases o with
        | none =>
          refine Act.sat_mono (ih best m') ?_ (fun _ h => h)
          rintro o - ⟨h1, h2, h3⟩
          refine ⟨fun b hb => (h1 b hb).imp id fun h => ⟨h.1, List.mem_cons_of_mem _ h.2.1, h.2.2⟩, h2, ?_⟩
          intro e' he' ar har hlt
          rcases List.mem_cons.1 he' with rfl | he'
          · rw [hf] at har
            cases har
          · exact h3 e' he' ar har hlt
        | some ar =>
          refine Act.sat_ite (fun hc => ?_) (fun hc => ?_)
          · refine Act.sat_mono (ih (some (e, ar)) m') ?_ (fun _ h => h)
            rintro o - ⟨h1, h2, h3⟩
            obtain ⟨c, hoc, hcar⟩ := h2 _ rfl
            refine ⟨?_, ?_, ?_⟩
            · intro b hb
              right
              rcases h1 b hb with h | h
              · obtain rfl := Option.some.inj h
                exact ⟨hc.1, List.mem_cons_self, by rw [hf]⟩
              · exact ⟨h.1, List.mem_cons_of_mem _ h.2.1, h.2.2⟩
            · intro b hb
              exact ⟨c, hoc, hcar.trans (hc.2 b hb).le⟩
            · intro e' he' ar' har hlt
              rcases List.mem_cons.1 he' with rfl | he'
              · rw [hf] at har
                obtain rfl := Option.some.inj (Outcome.ok.inj har)
                exact ⟨c, hoc, hcar⟩
              · exact h3 e' he' ar' har hlt
          · refine Act.sat_mono (ih best m') ?_ (fun _ h => h)
            rintro o - ⟨h1, h2, h3⟩
            refine ⟨fun b hb => (h1 b hb).imp id fun h => ⟨h.1, List.mem_cons_of_mem _ h.2.1, h.2.2⟩, h2, ?_⟩
            intro e' he' ar' har hlt
            rcases List.mem_cons.1 he' with rfl | he'
            · rw [hf] at har
              obtain rfl := Option.some.inj (Outcome.ok.inj har)
              have : ∃ b, best = some b ∧ b.2 ≤ ar := by
                by_contra hno
                push Not at hno
                exact hc ⟨hlt, fun b hb => hno b hb⟩
              obtain ⟨b, hb, hle⟩ := this
              obtain ⟨c, hoc, hcb⟩ := h2 b hb
              exact ⟨c, hoc, hcb.trans hle⟩
            · exact h3 e' he' ar' har hlt

/-- C51: the flip that is made makes the worst ratio of the two triangles better than the one of the triangle looked at, and
no other flip of that triangle makes it better still; if any flip improves it, one is made. -/
theorem C51_flip_best (i : ℕ) (current : ℝ) (m : Mesh) (best : Option (Edge × ℝ))
    (h : (bestFlip i current Edge.all none m).1 = .ok best) :
    (∀ b, best = some b → b.2 < current ∧ (flippedAspectRatio i b.1 m).1 = .ok (some b.2)) ∧
      ∀ e ar, (flippedAspectRatio i e m).1 = .ok (some ar) → ar < current → ∃ c, best = some c ∧ c.2 ≤ ar := by
  obtain ⟨h1, -, h3⟩ := sat_of_result (bestFlip_best i current Edge.all none m) h
  refine ⟨fun b hb => ?_, fun e ar har hlt => h3 e (by cases e <;> simp [Edge.all]) ar har hlt⟩
  rcases h1 b hb with h | h
  · cases h
  · exact ⟨h.1, h.2.2⟩

end Simple.Geometry.Mesh
