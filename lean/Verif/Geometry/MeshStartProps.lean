import Verif.Geometry.MeshProps

/-! # C51: the mesh that triangulation makes

When the vertices of the loop are apart, ear clipping and the search for neighbours give a sound mesh.  No two triangles
then have the same edge in the same direction, since one end of an edge is cut off the loop, or else the edge is a side
of what is left of the loop, in the opposite direction. -/

namespace Simple.Geometry.Mesh

open Spec

/-- No edge occurs twice in the same direction. -/
private def Distinct (m : Mesh) : Prop :=
  ∀ i e t j f u, tri m i = some t → tri m j = some u → t.vertex e = u.vertex f → t.vertex e.next = u.vertex f.next → i = j ∧ e = f

/-- Vertices that are taken to be the same are the same. -/
private def Crisp (V : List (V3 ℝ)) : Prop := ∀ u ∈ V, ∀ v ∈ V, u.compare v = true → u = v

/-! ### Looking for neighbours -/

private theorem nb_same_eq {m m' : Mesh} {i1 i2 : ℕ} {e1 e2 : Edge} (n1 : nb m' i1 e1 = some i2) (n2 : nb m' i2 e2 = some i1)
    (n3 : ∀ i e, ¬ (i = i1 ∧ e = e1) → ¬ (i = i2 ∧ e = e2) → nb m' i e = nb m i e)
    (o1 : nb m i1 e1 = some i2) (o2 : nb m i2 e2 = some i1) : nb m' = nb m := by
  funext i e
  by_cases c1 : i = i1 ∧ e = e1
  · rw [c1.1, c1.2, n1, o1]
  · by_cases c2 : i = i2 ∧ e = e2
    · rw [c2.1, c2.2, n2, o2]
    · exact n3 i e c1 c2

private theorem edgeOf_compare {t : Triangle ℝ} {s : Segment ℝ} {e : Edge} (h : t.edgeOf s = some e) : s.compare (t.segment e) = true := by
  unfold Triangle.edgeOf at h
  split_ifs at h with h1 h2 h3 <;> (rw [Option.some.injEq] at h; subst h; assumption)

private theorem markPair_sat (m0 m : Mesh) (V : List (V3 ℝ)) (hV : Crisp V) (hver : ∀ i t, tri m0 i = some t → ∀ e, t.vertex e ∈ V)
    (hd : Distinct m0) (hp : ∀ i t, tri m0 i = some t → Proper t) (hval : ∀ t ∈ m0.triangles, t.valid = true)
    (hs : Same m0 m) (hl : Linked m) (p : ℕ × ℕ) (hlt : p.1 < p.2) :
    (markPair p).Sat m (fun _ m' => Same m0 m' ∧ Linked m') (fun _ => True) := by
  unfold markPair
  refine Act.sat_bind (piece_sat (fun t ht => Act.sat_bind (piece_sat (fun u hu => ?_) trivial)) trivial)
  cases he : sharedEdge t u with
  | none => exact Act.sat_pure ⟨hs, hl⟩
  | some e =>
    have ttri : tri m p.1 = some t.triangle := by simp [tri, ht]
    have utri : tri m p.2 = some u.triangle := by simp [tri, hu]
    have ttri0 := ttri
    have utri0 := utri
    rw [tri_same hs] at ttri0 utri0
    have hfs := List.find?_some he
    obtain ⟨f, hf⟩ := Option.isSome_iff_exists.1 hfs
    have hc := edgeOf_compare hf
    have eqv : ∀ a b, (t.triangle.vertex a).compare (u.triangle.vertex b) = true → t.triangle.vertex a = u.triangle.vertex b :=
      fun a b h => hV _ (hver _ _ ttri0 a) _ (hver _ _ utri0 b) h
    have fac : Facing t.triangle e u.triangle f := by
      simp only [Segment.compare, Triangle.segment, Bool.or_eq_true, Bool.and_eq_true] at hc
      rcases hc with ⟨h1, h2⟩ | ⟨h1, h2⟩
      · have := (hd _ _ _ _ _ _ ttri0 utri0 (eqv _ _ h1) (eqv _ _ h2)).1
        omega
      · exact ⟨(eqv _ _ h1).symm, (eqv _ _ h2).symm⟩
    have uniq : ∀ {i : ℕ} {e' : Edge} {j : ℕ} {f' : Edge} {a b : Triangle ℝ} {c : ℕ × Triangle ℝ × Edge}, tri m0 i = some a → tri m0 j = some b → tri m0 c.1 = some c.2.1 →
        Facing c.2.1 c.2.2 a e' → Facing c.2.1 c.2.2 b f' → i = j ∧ e' = f' := by
      intro i e' j f' a b c h1 h2 h3 h4 h5
      exact hd _ _ _ _ _ _ h1 h2 (by rw [h4.1, h5.1]) (by rw [h4.2, h5.2])
    refine Act.sat_mono (mark_sat p.1 e p.2 m _ _ f ttri utri (hp _ _ utri0) fac (valid_same hs hval) (by omega)) ?_
      (fun _ _ => trivial)
    rintro - m' ⟨q1, q2, q3, q4⟩
    refine ⟨hs.trans q1, ?_⟩
    have htt : tri m' = tri m := funext fun i => tri_same q1 i
    have h0 : ∀ i, tri m i = tri m0 i := fun i => tri_same hs i
    cases n1 : nb m p.1 e with
    | some j =>
      obtain ⟨a, b, f', g1, g2, g3, g4⟩ := hl _ _ _ n1
      rw [ttri, Option.some.injEq] at g1
      subst g1
      obtain ⟨rfl, rfl⟩ := uniq (c := (p.1, t.triangle, e)) (by rw [← h0]; exact g2) utri0 ttri0 g4 fac
      have : nb m' = nb m := nb_same_eq q2 q3 q4 n1 g3
      intro i e j h
      rw [this] at h ⊢
      rw [htt]
      exact hl i e j h
    | none =>
      cases n2 : nb m p.2 f with
      | some j =>
        obtain ⟨a, b, f', g1, g2, g3, g4⟩ := hl _ _ _ n2
        rw [utri, Option.some.injEq] at g1
        subst g1
        obtain ⟨rfl, rfl⟩ := uniq (c := (p.2, u.triangle, f)) (by rw [← h0]; exact g2) ttri0 utri0 g4 (facing_symm fac)
        rw [n1] at g3; simp at g3
      | none =>
        have := link_step (but_of_linked hl) (by omega) ttri utri fac (Or.inr n1) (Or.inr n2) q2 q3 q4
        rw [← htt] at this
        exact linked_of_but this (fun i e h => h.1)

private theorem markNeighbourhoods_sat (m : Mesh) (V : List (V3 ℝ)) (hV : Crisp V) (hver : ∀ i t, tri m i = some t → ∀ e, t.vertex e ∈ V)
    (hd : Distinct m) (hp : ∀ i t, tri m i = some t → Proper t) (hval : ∀ t ∈ m.triangles, t.valid = true) (hl : Linked m) :
    markNeighbourhoods.Sat m (fun _ m' => Linked m') (fun _ => True) := by
  unfold markNeighbourhoods
  refine Act.sat_bind (Act.sat_get (Act.sat_mono (Act.sat_each (fun m' => Same m m' ∧ Linked m') _ (fun p hp' s hs => ?_) m
    ⟨Same.refl m, hl⟩) (fun _ _ h => h.2) (fun _ h => h)))
  exact markPair_sat m s V hV hver hd hp hval hs.1 hs.2 p (pairs_lt _ p hp').1

/-! ### Sides of a loop -/

/-- The sides of the loop, each from one vertex to the next. -/
private def sides {α : Type} (l : List α) : List (α × α) := l.zip (l.rotate 1)

private theorem sides_rotated {α : Type} {l l' : List α} (h : l ~r l') (s : α × α) : s ∈ sides l ↔ s ∈ sides l' := by
  obtain ⟨k, rfl⟩ := h
  unfold sides
  have : (l.rotate k).zip ((l.rotate k).rotate 1) = (l.zip (l.rotate 1)).rotate k := by
    rw [List.rotate_rotate, Nat.add_comm, ← List.rotate_rotate]
    exact (List.zipWith_rotate_distrib Prod.mk l (l.rotate 1) k (by simp)).symm
  rw [this, List.mem_rotate]

private theorem zip_right_unique {α β : Type} {l : List α} {l' : List β} (hn : l.Nodup) {x : α} {y y' : β}
    (h : (x, y) ∈ l.zip l') (h' : (x, y') ∈ l.zip l') : y = y' := by
  obtain ⟨i, hi, e⟩ := List.mem_iff_getElem.1 h
  obtain ⟨j, hj, e'⟩ := List.mem_iff_getElem.1 h'
  rw [List.getElem_zip, Prod.mk.injEq] at e e'
  have : i = j := (List.Nodup.getElem_inj_iff hn).1 (e.1.trans e'.1.symm)
  subst this
  exact e.2.symm.trans e'.2

private theorem zip_left_unique {α β : Type} {l : List α} {l' : List β} (hn : l'.Nodup) {x x' : α} {y : β}
    (h : (x, y) ∈ l.zip l') (h' : (x', y) ∈ l.zip l') : x = x' := by
  obtain ⟨i, hi, e⟩ := List.mem_iff_getElem.1 h
  obtain ⟨j, hj, e'⟩ := List.mem_iff_getElem.1 h'
  rw [List.getElem_zip, Prod.mk.injEq] at e e'
  have : i = j := (List.Nodup.getElem_inj_iff hn).1 (e.2.trans e'.2.symm)
  subst this
  exact e.1.symm.trans e'.1

private theorem sides_cons3 {α : Type} (a b c : α) (ws : List α) :
    sides (a :: b :: c :: ws) = (a, b) :: (b, c) :: (c :: ws).zip (ws ++ [a]) := by simp [sides]

private theorem sides_cons2 {α : Type} (a c : α) (ws : List α) :
    sides (a :: c :: ws) = (a, c) :: (c :: ws).zip (ws ++ [a]) := by simp [sides]

/-! ### Ear clipping -/

/-- The mesh while ears are cut off the loop `L`. -/
private structure Clipping (V : List (V3 ℝ)) (L : List (V3 ℝ)) (m : Mesh) : Prop where
  valid : ∀ t ∈ m.triangles, t.valid = true
  proper : ∀ i t, tri m i = some t → Proper t
  vertices : ∀ i t, tri m i = some t → ∀ e, t.vertex e ∈ V
  unlinked : ∀ i e, nb m i e = none
  distinct : Distinct m
  outside : ∀ i t e, tri m i = some t → t.vertex e ∈ L → t.vertex e.next ∈ L → (t.vertex e.next, t.vertex e) ∈ sides L

private theorem clipping_congr {V L : List (V3 ℝ)} {m m' : Mesh} (h : Clipping V L m) (hs : Same m m') (hn : nb m' = nb m) :
    Clipping V L m' := by
  have ht : ∀ i, tri m' i = tri m i := tri_same hs
  refine ⟨valid_same hs h.valid, ?_, ?_, ?_, ?_, ?_⟩
  · intro i t hi; rw [ht] at hi; exact h.proper i t hi
  · intro i t hi; rw [ht] at hi; exact h.vertices i t hi
  · intro i e; rw [hn]; exact h.unlinked i e
  · intro i e t j f u h1 h2; rw [ht] at h1 h2; exact h.distinct i e t j f u h1 h2
  · intro i t e hi; rw [ht] at hi; exact h.outside i t e hi

private theorem constrainEdges_sat (poly : Polygon) (V L : List (V3 ℝ)) (i : ℕ) (v0 v1 v2 : V3 ℝ) (m : Mesh) (h : Clipping V L m) :
    (constrainEdges poly i v0 v1 v2).Sat m (fun _ m' => Clipping V L m') (fun _ => True) := by
  have one : ∀ (b : Bool) (e : Edge) (s : Mesh), Clipping V L s →
      (Act.when b (update i fun t => t.constrain e)).Sat s (fun _ m' => Clipping V L m') (fun _ => True) := by
    intro b e s hs
    refine Act.sat_when (fun _ => Act.sat_modify ?_) (fun _ => hs)
    refine clipping_congr hs ⟨map_modify _ _ _ (constrain_same e), rfl⟩ ?_
    funext j f
    exact nb_constrain s i e j f
  unfold constrainEdges
  refine Act.sat_bind (Act.sat_mono (one _ _ m h) (fun _ s hs => ?_) (fun _ h => h))
  exact Act.sat_bind (Act.sat_mono (one _ _ s hs) (fun _ s hs => one _ _ s hs) (fun _ h => h))

private theorem push_last (a b c : V3 ℝ) (m : Mesh) :
    (push a b c m.triangles.length).Sat m (fun _ m' => Proper ⟨a, b, c⟩ ∧
      m' = ⟨m.triangles ++ [fresh ⟨a, b, c⟩ m.triangles.length], m.nValid + 1⟩) (fun _ => True) := by
  unfold Act.Sat push
  rw [firstInvalid_end]
  simp only [Option.getD_none]
  unfold TriPiece.new
  cases h : Triangle.new a b c with
  | err => trivial
  | panic => trivial
  | ok t =>
    obtain ⟨rfl, hp⟩ := new_ok h
    simp [Outcome.bind, place, hp, fresh]

/-- Cutting a corner off. -/
private theorem clipping_step (V L : List (V3 ℝ)) (L' : List (V3 ℝ)) (a b c : V3 ℝ) (ws : List (V3 ℝ)) (m : Mesh)
    (h : Clipping V L m) (hL : (a :: b :: c :: ws) ~r L) (hL' : (a :: c :: ws) ~r L') (hn : L.Nodup) (hV : ∀ v ∈ L, v ∈ V)
    (hp : Proper ⟨a, b, c⟩) :
    Clipping V L' ⟨m.triangles ++ [fresh ⟨a, b, c⟩ m.triangles.length], m.nValid + 1⟩ := by
  have hn' : (a :: b :: c :: ws).Nodup := hL.nodup_iff.2 hn
  have mem : ∀ v, v ∈ L ↔ v = a ∨ v = b ∨ v = c ∨ v ∈ ws := fun v => by rw [← hL.mem_iff]; simp
  have mem' : ∀ v, v ∈ L' ↔ v = a ∨ v = c ∨ v ∈ ws := fun v => by rw [← hL'.mem_iff]; simp
  have sL : ∀ s, s ∈ sides L ↔ s = (a, b) ∨ s = (b, c) ∨ s ∈ (c :: ws).zip (ws ++ [a]) := fun s => by
    rw [← sides_rotated hL, sides_cons3]; simp
  have sL' : ∀ s, s ∈ sides L' ↔ s = (a, c) ∨ s ∈ (c :: ws).zip (ws ++ [a]) := fun s => by
    rw [← sides_rotated hL', sides_cons2]; simp
  have hb : b ∉ L' := by
    rw [mem']
    simp only [List.nodup_cons, List.mem_cons, not_or] at hn'
    rintro (h | h | h)
    · exact hn'.1.1 h.symm
    · exact hn'.2.1.1 h
    · exact hn'.2.1.2 h
  have nab : a ≠ b := by simp only [List.nodup_cons, List.mem_cons, not_or] at hn'; exact hn'.1.1
  have nac : a ≠ c := by simp only [List.nodup_cons, List.mem_cons, not_or] at hn'; exact hn'.1.2.1
  have nbc : b ≠ c := by simp only [List.nodup_cons, List.mem_cons, not_or] at hn'; exact hn'.2.1.1
  have rn : L.rotate 1 |>.Nodup := List.nodup_rotate.2 hn
  have n1 : (b, a) ∉ sides L := fun hs => by
    have := zip_right_unique hn hs ((sL (b, c)).2 (Or.inr (Or.inl rfl)))
    exact nac this
  have n2 : (c, b) ∉ sides L := fun hs => by
    have := zip_left_unique rn hs ((sL (a, b)).2 (Or.inl rfl))
    exact nac this.symm
  have n3 : (a, c) ∉ sides L := fun hs => by
    have := zip_right_unique hn hs ((sL (a, b)).2 (Or.inl rfl))
    exact nbc this.symm
  obtain ⟨N, hN⟩ : ∃ N, N = m.triangles.length := ⟨_, rfl⟩
  have ht : ∀ i, tri ⟨m.triangles ++ [fresh ⟨a, b, c⟩ m.triangles.length], m.nValid + 1⟩ i =
      if i = N then some ⟨a, b, c⟩ else tri m i := by
    intro i; rw [tri_append, ← hN]; rfl
  have ma : a ∈ L := (mem a).2 (Or.inl rfl)
  have mb : b ∈ L := (mem b).2 (Or.inr (Or.inl rfl))
  have mc : c ∈ L := (mem c).2 (Or.inr (Or.inr (Or.inl rfl)))
  -- an edge of the new triangle does not occur yet
  have old : ∀ i t e f, tri m i = some t → t.vertex e = (⟨a, b, c⟩ : Triangle ℝ).vertex f →
      t.vertex e.next = (⟨a, b, c⟩ : Triangle ℝ).vertex f.next → False := by
    intro i t e f hi h1 h2
    have hin : ∀ g, (⟨a, b, c⟩ : Triangle ℝ).vertex g ∈ L := by intro g; cases g <;> assumption
    have := h.outside i t e hi (h1 ▸ hin f) (h2 ▸ hin f.next)
    rw [h1, h2] at this
    cases f
    · exact n1 this
    · exact n2 this
    · exact n3 this
  refine ⟨?_, ?_, ?_, ?_, ?_, ?_⟩
  · intro x hx
    rw [List.mem_append, List.mem_singleton] at hx
    rcases hx with hx | rfl
    · exact h.valid x hx
    · rfl
  · intro i t hi
    rw [ht] at hi
    split_ifs at hi with hc
    · rw [Option.some.injEq] at hi; exact hi ▸ hp
    · exact h.proper i t hi
  · intro i t hi e
    rw [ht] at hi
    split_ifs at hi with hc
    · rw [Option.some.injEq] at hi
      subst hi
      cases e
      · exact hV _ ma
      · exact hV _ mb
      · exact hV _ mc
    · exact h.vertices i t hi e
  · intro i e
    rw [nb_append]
    split_ifs
    · exact fresh_nb _ _ _
    · exact h.unlinked i e
  · intro i e t j f u hi hj h1 h2
    rw [ht] at hi hj
    split_ifs at hi hj with c1 c2 c2
    · rw [Option.some.injEq] at hi hj
      subst hi hj
      exact ⟨c1.trans c2.symm, proper_inj hp h1⟩
    · rw [Option.some.injEq] at hi
      subst hi
      exact (old j u f e hj h1.symm h2.symm).elim
    · rw [Option.some.injEq] at hj
      subst hj
      exact (old i t e f hi h1 h2).elim
    · exact h.distinct i e t j f u hi hj h1 h2
  · intro i t e hi h1 h2
    rw [ht] at hi
    split_ifs at hi with hc
    · rw [Option.some.injEq] at hi
      subst hi
      cases e
      · exact (hb h2).elim
      · exact (hb h1).elim
      · exact (sL' _).2 (Or.inl rfl)
    · have inL : ∀ v, v ∈ L' → v ∈ L := by
        intro v hv
        rw [mem'] at hv
        rw [mem]
        tauto
      have := h.outside i t e hi (inL _ h1) (inL _ h2)
      rw [sL] at this
      rw [sL']
      rcases this with hs | hs | hs
      · rw [Prod.mk.injEq] at hs
        exact (hb (hs.2 ▸ h1)).elim
      · rw [Prod.mk.injEq] at hs
        exact (hb (hs.1 ▸ h2)).elim
      · exact Or.inr hs

private theorem clip_sat (poly : Polygon) (V : List (V3 ℝ)) (hV : Crisp V) (k : ℕ) : ∀ (l : Loop) (anchor : ℕ) (m : Mesh),
    2 ≤ l.vertices.length → l.vertices.Nodup → (∀ v ∈ l.vertices, v ∈ V) → Clipping V l.vertices m →
    (clip poly k l anchor).Sat m (fun _ m' => Linked m') (fun _ => True) := by
  induction k with
  | zero => intro l anchor m _ _ _ _; exact Act.sat_err trivial
  | succ k ih =>
    intro l anchor m hl hnd hsub hm
    unfold clip
    refine Act.sat_bind (Act.sat_get ?_)
    refine Act.sat_ite (fun h2 => ?_) (fun h2 => ?_)
    · refine markNeighbourhoods_sat m V hV hm.vertices hm.distinct hm.proper hm.valid ?_
      intro i e j h
      rw [hm.unlinked] at h; simp at h
    · have h3 : 3 ≤ l.vertices.length := by omega
      refine Act.sat_bind (Act.sat_lift (fun v0 h0 => Act.sat_bind (Act.sat_lift (fun v1 h1 =>
        Act.sat_bind (Act.sat_lift (fun v2 h2 => Act.sat_bind (Act.sat_lift (fun ear _ => ?_) trivial)) trivial)) trivial)) trivial)
      have some_of : ∀ {i v}, Outcome.index l.vertices i = .ok v → l.vertices[i]? = some v := by
        intro i v h
        unfold Outcome.index at h
        cases hi : l.vertices[i]? with
        | none => rw [hi] at h; simp at h
        | some w => rw [hi] at h; simpa using h
      refine Act.sat_ite (fun _ => ?_) (fun _ => ih l (anchor + 1) m hl hnd hsub hm)
      refine Act.sat_bind (Act.sat_mono (push_last v0 v1 v2 m) ?_ (fun _ _ => trivial))
      rintro - m1 ⟨hp, hm1⟩
      obtain ⟨ws, r1, r2⟩ := ear_shape l.vertices anchor h3 v0 v1 v2 (some_of h0) (some_of h1) (some_of h2)
      have hc := clipping_step V l.vertices _ v0 v1 v2 ws m hm r1 r2 hnd hsub hp
      rw [← hm1] at hc
      refine Act.sat_bind (Act.sat_mono (constrainEdges_sat poly V _ _ v0 v1 v2 m1 hc) (fun _ m2 hm2 => ?_) (fun _ _ => trivial))
      have hlt : (anchor + 1) % l.vertices.length < l.vertices.length := Nat.mod_lt _ (by omega)
      have sub : (l.vertices.eraseIdx ((anchor + 1) % l.vertices.length)).Sublist l.vertices := List.eraseIdx_sublist _ _
      refine ih (l.remove ((anchor + 1) % l.vertices.length)) anchor m2 ?_ (hnd.sublist sub) (fun v hv => hsub v (sub.subset hv)) hm2
      show 2 ≤ (l.vertices.eraseIdx _).length
      rw [List.length_eraseIdx_of_lt hlt]; omega

private theorem crisp_of_apart {V : List (V3 ℝ)} (h : V.Pairwise fun u v => u.compare v = false) : Crisp V ∧ V.Nodup := by
  have hsymm : ∀ u v : V3 ℝ, u.compare v = false → v.compare u = false := fun u v h => by rw [compare_comm]; exact h
  constructor
  · intro u hu v hv hc
    by_contra hne
    have key : ∀ l : List (V3 ℝ), l.Pairwise (fun u v => u.compare v = false) → u ∈ l → v ∈ l → False := by
      intro l hl
      induction l with
      | nil => intro h; simp at h
      | cons x l ih =>
        intro h1 h2
        rw [List.pairwise_cons] at hl
        rcases List.mem_cons.1 h1 with q1 | q1 <;> rcases List.mem_cons.1 h2 with q2 | q2
        · exact hne (q1.trans q2.symm)
        · rw [q1, hl.1 v q2] at hc; simp at hc
        · rw [q2, hsymm _ _ (hl.1 u q1)] at hc; simp at hc
        · exact ih hl.2 q1 q2
    exact key V h hu hv
  · exact h.imp fun {u v} h => by rintro rfl; rw [compare_self] at h; simp at h

/-- C51: the mesh that a polygon is triangulated into is sound, when no two vertices of its closed loop are taken to be
the same.  Missing: polygons with holes, where the bridges go through the same vertices twice. -/
theorem C51_start_partial (poly : Polygon) (m : Mesh) (l l' : Loop) (h : ofPolygon poly = .ok m)
    (hl : poly.getClosedLoop = .ok l) (hc : l.close = (.ok (), l'))
    (hap : l'.vertices.Pairwise fun u v => u.compare v = false) : Sound m := by
  obtain ⟨k, k', hk, hk', h1, h2, -, h4, h5, -⟩ := C50_triangulation poly m h
  rw [hl, Outcome.ok.injEq] at hk
  subst hk
  rw [hc] at hk'
  simp only [Prod.mk.injEq, true_and] at hk'
  subst hk'
  refine ⟨h4, h5, ?_, ?_⟩
  · intro i t ht
    obtain ⟨x, hx, rfl⟩ := Option.map_eq_some_iff.1 ht
    exact (h2 _ (List.mem_map.2 ⟨x, List.mem_of_getElem? hx, rfl⟩)).1
  · obtain ⟨crisp, nodup⟩ := crisp_of_apart hap
    unfold ofPolygon at h
    rw [hl] at h
    simp only [Outcome.bind] at h
    rw [hc] at h
    simp only at h
    have hlen : 2 ≤ l'.vertices.length := by omega
    have start : Clipping l'.vertices l'.vertices new :=
      ⟨by simp [new], fun i t h => by simp [tri, new] at h, fun i t h => by simp [tri, new] at h, fun i e => by simp [nb, new],
        fun i e t j f u h => by simp [tri, new] at h, fun i t e h => by simp [tri, new] at h⟩
    have := clip_sat poly l'.vertices crisp 220 l' 0 new hlen nodup (fun v hv => hv) start
    cases hm : clip poly 220 l' 0 new with
    | mk o m' =>
      rw [hm] at h
      cases o with
      | err => simp at h
      | panic => simp at h
      | ok u =>
        simp only [Outcome.ok.injEq] at h
        subst h
        exact Act.sat_ok this hm


/-! ### The counter -/

/-- C51: adding a triangle to any mesh keeps the counter right, whether it succeeds or not. -/
theorem C51_push_counter (a b c : V3 ℝ) (k : ℕ) (m : Mesh) (h : Counted m) : Counted (push a b c k m).2 := by
  unfold push
  cases hf : m.firstInvalid k with
  | none =>
    simp only [Option.getD_none]
    unfold TriPiece.new
    cases Triangle.new a b c with
    | err => exact h
    | panic => exact h
    | ok t =>
      simp only [Outcome.bind, place, lt_irrefl, if_false]
      unfold Counted at *
      simp [h]
  | some n =>
    simp only [Option.getD_some]
    unfold firstInvalid at hf
    obtain ⟨⟨x, n'⟩, hx, rfl⟩ := Option.map_eq_some_iff.1 hf
    have h1 := List.find?_some hx
    have h2 := List.mem_of_find?_eq_some hx
    simp only [Bool.and_eq_true, Bool.not_eq_true', decide_eq_true_eq] at h1
    rw [List.mk_mem_zipIdx_iff_getElem?] at h2
    have hi : n' < m.triangles.length := (List.getElem?_eq_some_iff.1 h2).1
    unfold TriPiece.new
    cases Triangle.new a b c with
    | err => exact h
    | panic => exact h
    | ok t =>
      simp only [Outcome.bind, place, if_pos hi]
      unfold Counted at *
      dsimp only
      rw [List.countP_set hi, (List.getElem?_eq_some_iff.1 h2).2]
      simp [h1.2, h]

/-- C51: invalidating a valid triangle of any mesh keeps the counter right. -/
theorem C51_invalidate_counter (i : ℕ) (t : TriPiece) (m : Mesh) (h : Counted m) (ht : m.triangles[i]? = some t)
    (hv : t.valid = true) : ∃ m', invalidate i m = (.ok (), m') ∧ Counted m' ∧ m'.nValid + 1 = m.nValid := by
  obtain ⟨hi, hg⟩ := List.getElem?_eq_some_iff.1 ht
  have h1 : 0 < m.triangles.countP fun t => t.valid := List.countP_pos_iff.2 ⟨t, List.mem_of_getElem? ht, hv⟩
  unfold Counted at *
  unfold invalidate
  rw [if_pos hi]
  dsimp only
  rw [if_neg (by omega)]
  refine ⟨_, rfl, ?_, by dsimp only; omega⟩
  dsimp only
  have : m.triangles.modify i (fun t => { t with valid := false }) = m.triangles.set i { t with valid := false } := by
    apply List.ext_getElem?
    intro k
    rw [List.getElem?_modify, List.getElem?_set]
    by_cases hk : i = k
    · subst hk; simp only [if_true, hi, ht]; rfl
    · simp [hk]
  rw [this, List.countP_set hi, hg]
  simp [hv, h]

/-! ### Concrete meshes -/

private noncomputable def big : Triangle ℝ := ⟨⟨0, 0, 0⟩, ⟨10, 0, 0⟩, ⟨0, 10, 0⟩⟩

private theorem proper_of_q (a b c : V3 ℚ) (h : Triangle.newQ a b c = true) : Proper ⟨a.real, b.real, c.real⟩ :=
  (new_ok (Triangle.newQ_real a b c h)).2

private theorem big_proper : Proper big := by
  have := proper_of_q ⟨0, 0, 0⟩ ⟨10, 0, 0⟩ ⟨0, 10, 0⟩ (by decide +kernel)
  simpa [V3.real, big] using this

private theorem big_sound : Sound ⟨[fresh big 0], 1⟩ := by
  refine ⟨by simp [fresh], rfl, ?_, ?_⟩
  · intro i t ht
    match i with
    | 0 => simp only [tri, List.getElem?_cons_zero, Option.map_some, Option.some.injEq] at ht; rw [← ht]; exact big_proper
    | i + 1 => simp [tri] at ht
  · intro i e j h
    match i with
    | 0 => simp [nb, fresh_nb] at h
    | i + 1 => simp [nb] at h

private theorem run_ok {σ α β : Type} {m : Act σ α} {f : α → Act σ β} {s s' : σ} {a : α} (h : m s = (.ok a, s')) :
    (m >>= f) s = f a s' := by
  show Act.bind m f s = _
  unfold Act.bind; rw [h]

private theorem run_err {σ α β : Type} {m : Act σ α} {f : α → Act σ β} {s s' : σ} (h : m s = (.err, s')) :
    (m >>= f) s = (.err, s') := by
  show Act.bind m f s = _
  unfold Act.bind; rw [h]

/-- A point inside the triangle, a quarter of a millimetre from both legs. -/
private noncomputable def near : V3 ℝ := ⟨1 / 4000, 1 / 4000, 0⟩

/-- C51 fails: a point that is inside the triangle but within a millimetre of a corner is refused only after the triangle
has been invalidated, so that nothing is left of the mesh. -/
theorem C51_violated_lost : ∃ (m m' : Mesh) (p : V3 ℝ), Sound m ∧ m.nValid = 1 ∧ addPoint p m = (.err, m') ∧
    m'.nValid = 0 ∧ ∀ t ∈ m'.triangles, t.valid = false := by
  have hin : big.testPoint near = .inside := by
    unfold Triangle.testPoint big V3.tiny near
    norm_num [V3.dot]
  refine ⟨⟨[fresh big 0], 1⟩, ⟨[{ fresh big 0 with valid := false }], 0⟩, near, big_sound, rfl, ?_, rfl, by simp⟩
  have hloc : locate ⟨[fresh big 0], 1⟩ near = some 0 := by
    have : (fresh big 0).triangle.testPoint near ≠ .outside := by show big.testPoint near ≠ _; rw [hin]; simp
    have hv : (fresh big 0).valid = true := rfl
    simp [locate, hv, this]
  have hnew : Triangle.new big.c big.a near = .err := by
    unfold Triangle.new
    have : big.a.compare near = true := by
      unfold V3.compare V3.compareBy big near
      norm_num [V3.lengthSquared]
    rw [this]; simp
  have hab : (fresh big 0).triangle.edgeOf ⟨big.a, big.b⟩ = some .ab := edgeOf_self big_proper .ab
  have hbc : (fresh big 0).triangle.edgeOf ⟨big.b, big.c⟩ = some .bc := edgeOf_self big_proper .bc
  have hca : (fresh big 0).triangle.edgeOf ⟨big.c, big.a⟩ = some .ca := edgeOf_self big_proper .ca
  have hp : piece 0 ⟨[fresh big 0], 1⟩ = (.ok (fresh big 0), ⟨[fresh big 0], 1⟩) := rfl
  have hv : invalidate 0 ⟨[fresh big 0], 1⟩ = (.ok (), ⟨[{ fresh big 0 with valid := false }], 0⟩) := rfl
  have hpush : push big.c big.a near 0 ⟨[{ fresh big 0 with valid := false }], 0⟩ =
      (.err, ⟨[{ fresh big 0 with valid := false }], 0⟩) := by
    unfold push TriPiece.new
    rw [hnew]; rfl
  have hval : ¬ (!(fresh big 0).valid) = true := by rw [show (fresh big 0).valid = true from rfl]; simp
  have hsplit : splitTriangle 0 near ⟨[fresh big 0], 1⟩ = (.err, ⟨[{ fresh big 0 with valid := false }], 0⟩) := by
    unfold splitTriangle
    rw [run_ok hp, if_neg hval]
    dsimp only
    rw [show (fresh big 0).triangle.a = big.a from rfl, show (fresh big 0).triangle.b = big.b from rfl,
      show (fresh big 0).triangle.c = big.c from rfl, hab, hbc, hca]
    dsimp only
    rw [run_ok hv, run_err hpush]
  unfold addPoint
  rw [run_ok (show Act.get (⟨[fresh big 0], 1⟩ : Mesh) = (.ok ⟨[fresh big 0], 1⟩, ⟨[fresh big 0], 1⟩) from rfl), hloc]
  dsimp only
  rw [run_ok hp, show (fresh big 0).triangle = big from rfl, hin]
  unfold addPointToTriangle
  rw [run_ok hp, if_neg hval]
  dsimp only
  rw [run_err hsplit]
  rfl

/-- C51 fails: invalidating a triangle that is invalid already counts it once more. -/
theorem C51_violated_counter : ∃ (m m1 m2 : Mesh) (i : ℕ), Counted m ∧ m.nValid = 2 ∧ invalidate i m = (.ok (), m1) ∧
    invalidate i m1 = (.ok (), m2) ∧ m2.nValid = 0 ∧ (m2.triangles.countP fun t => t.valid) = 1 :=
  ⟨⟨[fresh big 0, fresh big 1], 2⟩, ⟨[{ fresh big 0 with valid := false }, fresh big 1], 1⟩,
    ⟨[{ fresh big 0 with valid := false }, fresh big 1], 0⟩, 0, rfl, rfl, rfl, rfl, rfl, rfl⟩

/-- The mesh of a polygon with five sides is sound, and so are those it is edited into. -/
example : ∃ (poly : Polygon) (m : Mesh), ofPolygon poly = .ok m ∧ Sound m ∧ m.triangles.length = 3 := by
  obtain ⟨poly, m, l, l', h1, h2, h3, -, h4, -⟩ := pentagon
  have hap : l'.vertices.Pairwise fun u v => u.compare v = false := by
    rw [h4]
    have : ∀ a b c d : ℝ, V3.compare (⟨a, b, 0⟩ : V3 ℝ) ⟨c, d, 0⟩ = decide ((a - c) ^ 2 + (b - d) ^ 2 ≤ 1 / 1000000) := by
      intro a b c d
      unfold V3.compare V3.compareBy V3.lengthSquared
      congr 1
      simp only [V3.sub_x, V3.sub_y, V3.sub_z]
      rw [show (a - c) * (a - c) + (b - d) * (b - d) + (0 - 0) * (0 - 0) = (a - c) ^ 2 + (b - d) ^ 2 by ring]
      norm_num
    simp only [List.pairwise_cons, List.mem_cons, List.not_mem_nil, or_false, forall_eq_or_imp, forall_eq, this,
      decide_eq_false_iff_not, List.Pairwise.nil, and_true, IsEmpty.forall_iff, implies_true]
    norm_num
  refine ⟨poly, m, h1, C51_start_partial poly m l l' h1 h2 h3 hap, ?_⟩
  obtain ⟨k, k', e1, e2, e3, -⟩ := C50_triangulation poly m h1
  rw [h2, Outcome.ok.injEq] at e1
  subst e1
  rw [h3] at e2
  simp only [Prod.mk.injEq, true_and] at e2
  subst e2
  rw [h4] at e3
  simpa [Spec.triangles] using e3

/-- Two halves of a square. -/
private noncomputable def square : Mesh :=
  ⟨[⟨⟨⟨0, 0, 0⟩, ⟨10, 0, 0⟩, ⟨10, 10, 0⟩⟩, none, none, some 1, true, true, false, true, 0⟩,
    ⟨⟨⟨0, 0, 0⟩, ⟨10, 10, 0⟩, ⟨0, 10, 0⟩⟩, some 0, none, none, false, true, true, true, 1⟩], 2⟩

private theorem square_sound : Sound square := by
  refine ⟨by simp [square], rfl, ?_, ?_⟩
  · intro i t ht
    match i with
    | 0 =>
      simp only [tri, square, List.getElem?_cons_zero, Option.map_some, Option.some.injEq] at ht; rw [← ht]
      simpa [V3.real] using proper_of_q ⟨0, 0, 0⟩ ⟨10, 0, 0⟩ ⟨10, 10, 0⟩ (by decide +kernel)
    | 1 =>
      simp only [tri, square, List.getElem?_cons_zero, List.getElem?_cons_succ, Option.map_some, Option.some.injEq] at ht; rw [← ht]
      simpa [V3.real] using proper_of_q ⟨0, 0, 0⟩ ⟨10, 10, 0⟩ ⟨0, 10, 0⟩ (by decide +kernel)
    | i + 2 => simp [tri, square] at ht
  · intro i e j h
    match i, e with
    | 0, .ab => simp [nb, square, TriPiece.neighbour] at h
    | 0, .bc => simp [nb, square, TriPiece.neighbour] at h
    | 0, .ca =>
      simp only [nb, square, TriPiece.neighbour, List.getElem?_cons_zero, Option.bind_some, Option.some.injEq] at h
      subst h
      exact ⟨_, _, .ab, rfl, rfl, rfl, rfl, rfl⟩
    | 1, .ab =>
      simp only [nb, square, TriPiece.neighbour, List.getElem?_cons_zero, List.getElem?_cons_succ, Option.bind_some,
        Option.some.injEq] at h
      subst h
      exact ⟨_, _, .ca, rfl, rfl, rfl, rfl, rfl⟩
    | 1, .bc => simp [nb, square, TriPiece.neighbour] at h
    | 1, .ca => simp [nb, square, TriPiece.neighbour] at h
    | i + 2, _ => simp [nb, square] at h

/-- The diagonal of the square can be flipped, split, and either half can be split. -/
example : Sound square ∧ CanFlip square 0 .ca ∧ CanSplitEdge square 0 .ca ⟨5, 5, 0⟩ ∧ CanSplit square 0 ⟨7, 3, 0⟩ := by
  refine ⟨square_sound, ⟨_, 1, _, .ab, rfl, rfl, rfl, ⟨rfl, rfl⟩, ?_, ?_⟩, ⟨_, rfl, ?_, ?_, ?_⟩, ⟨_, rfl, ?_, ?_, ?_⟩⟩
  · simpa [V3.real, Triangle.vertex, Edge.next] using proper_of_q ⟨10, 10, 0⟩ ⟨0, 10, 0⟩ ⟨10, 0, 0⟩ (by decide +kernel)
  · simpa [V3.real, Triangle.vertex, Edge.next] using proper_of_q ⟨10, 0, 0⟩ ⟨0, 10, 0⟩ ⟨0, 0, 0⟩ (by decide +kernel)
  · simpa [V3.real, Triangle.vertex, Edge.next] using proper_of_q ⟨10, 10, 0⟩ ⟨5, 5, 0⟩ ⟨10, 0, 0⟩ (by decide +kernel)
  · simpa [V3.real, Triangle.vertex, Edge.next] using proper_of_q ⟨5, 5, 0⟩ ⟨0, 0, 0⟩ ⟨10, 0, 0⟩ (by decide +kernel)
  · intro j n e' h1 h2 h3
    simp only [nb, square, TriPiece.neighbour, List.getElem?_cons_zero, Option.bind_some, Option.some.injEq] at h1
    subst h1
    have hn := h2
    simp only [tri, square, List.getElem?_cons_zero, List.getElem?_cons_succ, Option.map_some, Option.some.injEq] at hn
    have : e' = .ab := proper_inj (square_sound.proper _ _ h2) (by rw [h3.1, ← hn]; rfl)
    subst this hn
    constructor
    · simpa [V3.real, Triangle.vertex, Edge.next] using proper_of_q ⟨0, 0, 0⟩ ⟨5, 5, 0⟩ ⟨0, 10, 0⟩ (by decide +kernel)
    · simpa [V3.real, Triangle.vertex, Edge.next] using proper_of_q ⟨5, 5, 0⟩ ⟨10, 10, 0⟩ ⟨0, 10, 0⟩ (by decide +kernel)
  · simpa [V3.real, Triangle.vertex, Edge.next] using proper_of_q ⟨10, 10, 0⟩ ⟨0, 0, 0⟩ ⟨7, 3, 0⟩ (by decide +kernel)
  · simpa [V3.real, Triangle.vertex, Edge.next] using proper_of_q ⟨0, 0, 0⟩ ⟨10, 0, 0⟩ ⟨7, 3, 0⟩ (by decide +kernel)
  · simpa [V3.real, Triangle.vertex, Edge.next] using proper_of_q ⟨10, 0, 0⟩ ⟨10, 10, 0⟩ ⟨7, 3, 0⟩ (by decide +kernel)

end Simple.Geometry.Mesh
