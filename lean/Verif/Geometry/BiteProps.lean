import Verif.Geometry.SplitProps
import Verif.Geometry.ExactBite

/-! C96: what two loops have in common, and cutting one from the other. -/

namespace Simple.Geometry

namespace Loop

namespace Spec

/-- The point is on an edge of the polygon, up to a ten-millionth of its length. -/
def OnEdge (vs : List (V3 ℝ)) (p : V3 ℝ) : Prop :=
  ∃ (i : ℕ) (a b : V3 ℝ) (t : ℝ), vs[i]? = some a ∧ vs[(i + 1) % vs.length]? = some b ∧
    (-(1 / 10 ^ 7) < t ∧ t < 1 + 1 / 10 ^ 7) ∧ p = Segment.Spec.pointAt ⟨a, b⟩ t

/-- The point is not further than a millimetre from a point of the boundary. -/
def NearEdge (vs : List (V3 ℝ)) (p : V3 ℝ) : Prop := ∃ q, OnEdge vs q ∧ (p - q).lengthSquared ≤ (1 / 1000) ^ 2

end Spec

open Spec

private theorem compare_iff (p q : V3 ℝ) : p.compare q = true ↔ (p - q).lengthSquared ≤ (1 / 1000) ^ 2 := by
  unfold V3.compare V3.compareBy
  rw [decide_eq_true_iff, sq]

private theorem compare_self (p : V3 ℝ) : p.compare p = true := by
  rw [compare_iff]
  simp [V3.lengthSquared]

private theorem onEdge_vertex (vs : List (V3 ℝ)) (v : V3 ℝ) (h : v ∈ vs) : OnEdge vs v := by
  obtain ⟨i, hi, he⟩ := List.mem_iff_getElem.1 h
  have hp : 0 < vs.length := by omega
  have hm : (i + 1) % vs.length < vs.length := Nat.mod_lt _ hp
  refine ⟨i, v, vs[(i + 1) % vs.length], 0, by rw [List.getElem?_eq_getElem hi, he], List.getElem?_eq_getElem hm, by norm_num, ?_⟩
  ext <;> simp [Segment.Spec.pointAt]

private theorem near_of_on (vs : List (V3 ℝ)) (v : V3 ℝ) (h : OnEdge vs v) : NearEdge vs v :=
  ⟨v, h, by simp [V3.lengthSquared]⟩

private theorem onEdge_reverse (vs : List (V3 ℝ)) (p : V3 ℝ) (h : OnEdge vs.reverse p) : OnEdge vs p := by
  obtain ⟨i, a, b, t, ha, hb, ht, rfl⟩ := h
  rw [List.length_reverse] at hb
  have hi : i < vs.length := by
    by_contra hi
    rw [List.getElem?_eq_none (by simpa using hi)] at ha
    simp at ha
  have hm : (i + 1) % vs.length < vs.length := Nat.mod_lt _ (by omega)
  rw [List.getElem?_reverse hi] at ha
  rw [List.getElem?_reverse hm] at hb
  refine ⟨_, b, a, 1 - t, hb, ?_, ⟨by linarith [ht.2], by linarith [ht.1]⟩, ?_⟩
  · rw [← ha]
    congr 1
    by_cases h1 : i + 1 = vs.length
    · rw [h1, Nat.mod_self, show vs.length - 1 - 0 + 1 = vs.length by omega, Nat.mod_self]
      omega
    · rw [Nat.mod_eq_of_lt (show i + 1 < vs.length by omega), Nat.mod_eq_of_lt (by omega)]
      omega
  · ext <;> simp [Segment.Spec.pointAt] <;> ring

private theorem near_reverse (vs : List (V3 ℝ)) (p : V3 ℝ) (h : NearEdge vs.reverse p) : NearEdge vs p := by
  obtain ⟨q, hq, h⟩ := h
  exact ⟨q, onEdge_reverse vs q hq, h⟩

/-! ### Pushing -/

private theorem pushOne_ok (r r' : Loop) (p : V3 ℝ) (h : r.pushOne p = .ok r') (hr : Reachable r) :
    Reachable r' ∧ (∀ v ∈ r'.vertices, v ∈ r.vertices ∨ v = p) ∧
      ∃ last, r'.vertices.getLast? = some last ∧ last.compare p = true ∧ last ∈ r'.vertices := by
  unfold pushOne at h
  split at h
  · rename_i r'' hr'
    simp only [Outcome.ok.injEq] at h
    subst h
    have h1 : Reachable r'' := by
      have := Reachable.step r (.push p) hr (by simp)
      rwa [show r.step (.push p) = r.push p from rfl, hr'] at this
    have hp := (C48_push r p true).2.2
    rw [show r.pushCollinear p true = r.push p from rfl, hr'] at hp
    refine ⟨h1, ?_⟩
    rcases (hp rfl).2.2 with ⟨h2, last, h3, h4⟩ | h2 | ⟨-, h2⟩
    · dsimp only at h2
      rw [h2]
      exact ⟨fun v hv => Or.inl hv, last, h3, h4, List.mem_of_getLast? h3⟩
    · dsimp only at h2
      rw [h2]
      refine ⟨fun v hv => ?_, p, by simp, compare_self p, by simp⟩
      simpa using hv
    · dsimp only at h2
      rw [h2]
      refine ⟨fun v hv => ?_, p, by simp, compare_self p, by simp⟩
      rw [List.mem_append, List.mem_singleton] at hv
      exact hv.imp (fun h => List.mem_of_mem_dropLast h) id
  · simp at h
  · simp at h

private theorem pushOne_ne_panic (r : Loop) (p : V3 ℝ) : r.pushOne p ≠ .panic := by
  unfold pushOne
  split
  · simp
  · simp
  · rename_i r' hr'
    have := (C48_push r p true).1
    rw [show r.pushCollinear p true = r.push p from rfl, hr'] at this
    exact absurd rfl this

private theorem close_ok (r : Loop) (c : Loop) (h : r.close = (.ok (), c)) (hr : Reachable r) :
    Reachable c ∧ c.closed = true ∧ Sound c ∧ c.vertices.Sublist r.vertices := by
  have hc := (C48_close r).2
  rw [h] at hc
  have hc := hc rfl
  have := Reachable.step r .close hr (fun _ => by rw [show r.step .close = r.close from rfl, h])
  rw [show r.step .close = r.close from rfl, h] at this
  exact ⟨this, hc.2.1, C48_history_partial c this hc.2.1, hc.2.2.1⟩

private theorem closest_mem (l : List (ℕ × V3 ℝ)) (last : V3 ℝ) (c : ℕ × V3 ℝ) (h : Cut.closest l last = some c) : c ∈ l := by
  unfold Cut.closest at h
  rw [Option.map_eq_some_iff] at h
  obtain ⟨⟨d, c'⟩, h, rfl⟩ := h
  have key : ∀ (xs : List (ℕ × V3 ℝ)) (best : Option (ℝ × ℕ × V3 ℝ)),
      (∀ b, best = some b → b.2 ∈ l) → (∀ x ∈ xs, x ∈ l) →
      ∀ b, xs.foldl (fun (best : Option (ℝ × ℕ × V3 ℝ)) c =>
        let d := c.2.squaredDistance last
        if d > 1 / 10 ^ 9 ∧ (best.all fun b => d < b.1) then some (d, c) else best) best = some b → b.2 ∈ l := by
    intro xs
    induction xs with
    | nil => intro best hb _ b h; exact hb b h
    | cons x xs ih =>
      intro best hb hx b h
      rw [List.foldl_cons] at h
      refine ih _ ?_ (fun y hy => hx y (List.mem_cons_of_mem _ hy)) b h
      intro b' hb'
      dsimp only at hb'
      split_ifs at hb' with hc
      · simp only [Option.some.injEq] at hb'
        subst hb'
        exact hx x (by simp)
      · exact hb b' hb'
  exact key l none (by simp) (fun x hx => hx) (d, c') h

private theorem cut_on (theirs : List (V3 ℝ)) (s : Segment ℝ) (len2 : ℝ) (last : V3 ℝ) (j : ℕ) (p : V3 ℝ)
    (h : Cut.closest (Cut.cuts (around theirs) s len2) last = some (j, p)) :
    ∃ a b t, theirs[j]? = some a ∧ theirs[(j + 1) % theirs.length]? = some b ∧
      (-(1 / 10 ^ 7) < t ∧ t < 1 + 1 / 10 ^ 7) ∧ p = Segment.Spec.pointAt ⟨a, b⟩ t ∧
      (Segment.Spec.Coplanar ⟨a, b⟩ s → ∃ u, 0 < u ∧ u < 1 ∧ p = Segment.Spec.pointAt s u) := by
  obtain ⟨e, he, hi⟩ := Cut.cuts_mem _ _ _ _ (closest_mem _ _ _ h)
  obtain ⟨h1, h2⟩ := around_get _ _ _ he
  obtain ⟨t, ht, hp, hc⟩ := intersect_on _ _ _ hi
  exact ⟨e.1, e.2, t, h1, h2, ⟨lt_of_lt_of_le (by norm_num) ht.1, ht.2⟩, hp, hc⟩

/-! ### Walking -/

private theorem firstIn_mem (l : Loop) : ∀ (vs : List (V3 ℝ)) (k i : ℕ) (v : V3 ℝ), l.firstIn k vs = .ok (some (i, v)) →
    k ≤ i ∧ vs[i - k]? = some v ∧ l.testPoint v = .ok true := by
  intro vs
  induction vs with
  | nil => intro k i v h; simp [firstIn] at h
  | cons w vs ih =>
    intro k i v h
    unfold firstIn at h
    cases hb : l.testPoint w with
    | err => rw [hb] at h; simp [Outcome.bind] at h
    | panic => rw [hb] at h; simp [Outcome.bind] at h
    | ok b =>
      rw [hb] at h
      simp only [Outcome.bind] at h
      split_ifs at h with hc
      · simp only [Outcome.ok.injEq, Option.some.injEq, Prod.mk.injEq] at h
        obtain ⟨rfl, rfl⟩ := h
        exact ⟨le_rfl, by simp, by rw [hb, hc]⟩
      · obtain ⟨h1, h2, h3⟩ := ih _ _ _ h
        refine ⟨by omega, ?_, h3⟩
        rw [show i - k = (i - (k + 1)) + 1 by omega, List.getElem?_cons_succ]
        exact h2

private theorem firstOut_mem (l : Loop) : ∀ (vs : List (V3 ℝ)) (k i : ℕ) (v : V3 ℝ), l.firstOut k vs = .ok (some (i, v)) →
    v ∈ vs ∧ l.testPoint v = .ok false := by
  intro vs
  induction vs with
  | nil => intro k i v h; simp [firstOut] at h
  | cons w vs ih =>
    intro k i v h
    unfold firstOut at h
    cases hb : l.testPoint w with
    | err => rw [hb] at h; simp [Outcome.bind] at h
    | panic => rw [hb] at h; simp [Outcome.bind] at h
    | ok b =>
      rw [hb] at h
      simp only [Outcome.bind] at h
      split_ifs at h with hc
      · obtain ⟨h1, h2⟩ := ih _ _ _ h
        exact ⟨List.mem_cons_of_mem _ h1, h2⟩
      · simp only [Outcome.ok.injEq, Option.some.injEq, Prod.mk.injEq] at h
        obtain ⟨rfl, rfl⟩ := h
        exact ⟨by simp, by rw [hb]; simpa using hc⟩

namespace Spec

/-- The point is a vertex of one of the loops that is in the other, or not further than a millimetre from the boundaries
of both. -/
def Common (l o : Loop) (v : V3 ℝ) : Prop :=
  (v ∈ l.vertices ∧ o.testPoint v = .ok true) ∨ (v ∈ o.vertices ∧ l.testPoint v = .ok true) ∨
    (NearEdge l.vertices v ∧ NearEdge o.vertices v)

end Spec

private theorem inBoth_ok (l o : Loop) (p : V3 ℝ) (h : inBoth l o p = .ok true) :
    l.testPoint p = .ok true ∧ o.testPoint p = .ok true := by
  unfold inBoth at h
  cases hb : l.testPoint p with
  | err => rw [hb] at h; simp [Outcome.bind] at h
  | panic => rw [hb] at h; simp [Outcome.bind] at h
  | ok b =>
    rw [hb] at h
    simp only [Outcome.bind] at h
    split_ifs at h with hc
    · exact ⟨by rw [hc], h⟩
    · simp at h

/-- The last vertex is close to the edge that leads to the index. -/
private def At (mine : List (V3 ℝ)) (r : Loop) (index : ℕ) : Prop :=
  ∃ last j a b t, r.vertices.getLast? = some last ∧ mine[j]? = some a ∧ (j + 1) % mine.length = index % mine.length ∧
    mine[index % mine.length]? = some b ∧ (-(1 / 10 ^ 7) < t ∧ t < 1 + 1 / 10 ^ 7) ∧
    last.compare (Segment.Spec.pointAt ⟨a, b⟩ t) = true

private theorem getLast_index (vs : List (V3 ℝ)) (v : V3 ℝ) (h : Outcome.index vs (vs.length - 1) = .ok v) :
    vs.getLast? = some v := by
  unfold Outcome.index at h
  rw [List.getLast?_eq_getElem?]
  split at h
  · simp only [Outcome.ok.injEq] at h
    subst h
    assumption
  · simp at h

private theorem index_ok (vs : List (V3 ℝ)) (i : ℕ) (v : V3 ℝ) (h : Outcome.index vs i = .ok v) : vs[i]? = some v := by
  unfold Outcome.index at h
  split at h
  · simp only [Outcome.ok.injEq] at h
    subst h
    assumption
  · simp at h

private theorem at_vertex (mine : List (V3 ℝ)) (r : Loop) (index : ℕ) (v last : V3 ℝ)
    (hv : mine[index % mine.length]? = some v) (hl : r.vertices.getLast? = some last) (hc : last.compare v = true) :
    At mine r ((index + 1) % mine.length) := by
  have hn : 0 < mine.length := by
    by_contra h
    have : mine = [] := List.eq_nil_of_length_eq_zero (by omega)
    rw [this] at hv
    simp at hv
  have hm : ((index + 1) % mine.length) % mine.length < mine.length := Nat.mod_lt _ hn
  refine ⟨last, index % mine.length, v, _, 0, hl, hv, ?_, List.getElem?_eq_getElem hm, by norm_num, ?_⟩
  · rw [Nat.mod_mod, Nat.mod_add_mod]
  · have : Segment.Spec.pointAt ⟨v, mine[((index + 1) % mine.length) % mine.length]⟩ 0 = v := by
      ext <;> simp [Segment.Spec.pointAt]
    rw [this]
    exact hc

private theorem plane_pointAt (n c a b : V3 ℝ) (t : ℝ) (ha : n.dot (a - c) = 0) (hb : n.dot (b - c) = 0) :
    n.dot (Segment.Spec.pointAt ⟨a, b⟩ t - c) = 0 := by
  simp only [Segment.Spec.pointAt, V3.dot, V3.sub_x, V3.sub_y, V3.sub_z, V3.add_x, V3.add_y, V3.add_z, V3.scale_x, V3.scale_y,
    V3.scale_z] at *
  linear_combination (1 - t) * ha + t * hb

private theorem meetWalk_ok (l o : Loop) (n c : V3 ℝ) (hn : n.lengthSquared = 1) (hl : InPlane n c l.vertices)
    (ho : InPlane n c o.vertices) (k : ℕ) : ∀ (r : Loop) (onSelf : Bool) (index : ℕ) (res : Loop),
    l.meetWalk o k r onSelf index = .ok (some res) → Reachable r → (∀ v ∈ r.vertices, Common l o v ∧ n.dot (v - c) = 0) →
    At (if onSelf then l.vertices else o.vertices) r index → Reachable res ∧ ∀ v ∈ res.vertices, Common l o v := by
  induction k with
  | zero => intro r onSelf index res h; simp [meetWalk] at h
  | succ k ih =>
    intro r onSelf index res h hr hg hat
    unfold meetWalk at h
    generalize hm : (if onSelf then (l.vertices, o.vertices) else (o.vertices, l.vertices)) = m at h
    obtain ⟨mine, theirs⟩ := m
    have hmine : (if onSelf then l.vertices else o.vertices) = mine := by
      cases onSelf <;> simp_all
    have htheirs : (if (!onSelf) then l.vertices else o.vertices) = theirs := by
      cases onSelf <;> simp_all
    have hpm : InPlane n c mine := by rw [← hmine]; cases onSelf <;> assumption
    have hpt : InPlane n c theirs := by rw [← htheirs]; cases onSelf <;> assumption
    have both : ∀ v, NearEdge mine v → NearEdge theirs v → Common l o v := by
      intro v h1 h2
      rw [← hmine] at h1
      rw [← htheirs] at h2
      cases onSelf
      · exact Or.inr (Or.inr ⟨h2, h1⟩)
      · exact Or.inr (Or.inr ⟨h1, h2⟩)
    have vert : ∀ v ∈ mine, inBoth l o v = .ok true → Common l o v := by
      intro v hv hb
      obtain ⟨h1, h2⟩ := inBoth_ok l o v hb
      rw [← hmine] at hv
      cases onSelf
      · exact Or.inr (Or.inl ⟨hv, h1⟩)
      · exact Or.inl ⟨hv, h2⟩
    rw [hmine] at hat
    dsimp only at h
    cases hcand : Outcome.index mine (index % mine.length) with
    | err => rw [hcand] at h; simp [Outcome.bind] at h
    | panic => rw [hcand] at h; simp [Outcome.bind] at h
    | ok candidate =>
    cases hfirst : Outcome.index r.vertices 0 with
    | err => rw [hcand, hfirst] at h; simp [Outcome.bind] at h
    | panic => rw [hcand, hfirst] at h; simp [Outcome.bind] at h
    | ok first =>
    cases hlast : Outcome.index r.vertices (r.vertices.length - 1) with
    | err => rw [hcand, hfirst, hlast] at h; simp [Outcome.bind] at h
    | panic => rw [hcand, hfirst, hlast] at h; simp [Outcome.bind] at h
    | ok last =>
    rw [hcand, hfirst, hlast] at h
    simp only [Outcome.bind] at h
    have hcget := index_ok _ _ _ hcand
    have hcmem : candidate ∈ mine := List.mem_of_getElem? hcget
    have hlget := getLast_index _ _ hlast
    by_cases c1 : r.vertices.length > 2 ∧ (first.compare candidate = true ∨ first.compare last = true)
    · rw [if_pos c1] at h
      simp only [Outcome.ok.injEq, Option.some.injEq] at h
      subst h
      exact ⟨hr, fun v hv => (hg v hv).1⟩
    rw [if_neg c1] at h
    -- pushing the candidate
    have step : ∀ (r' : Loop), inBoth l o candidate = .ok true → r.pushOne candidate = .ok r' →
        Reachable r' ∧ (∀ v ∈ r'.vertices, Common l o v ∧ n.dot (v - c) = 0) ∧ At mine r' ((index + 1) % mine.length) ∧
          At mine r' index := by
      intro r' hb hp
      obtain ⟨h1, h2, last', h3, h4, -⟩ := pushOne_ok r r' candidate hp hr
      refine ⟨h1, fun v hv => ?_, at_vertex mine r' index candidate last' hcget h3 h4, ?_⟩
      · rcases h2 v hv with h | rfl
        · exact hg v h
        · exact ⟨vert _ hcmem hb, hpm _ hcmem⟩
      · obtain ⟨last0, j, a, b, t, -, e2, e3, e4, -, -⟩ := hat
        refine ⟨last', j, a, b, 1, h3, e2, e3, e4, by norm_num, ?_⟩
        have : b = candidate := by rw [e4] at hcget; simpa using hcget
        have h5 : Segment.Spec.pointAt ⟨a, b⟩ 1 = candidate := by rw [← this]; ext <;> simp [Segment.Spec.pointAt]
        rw [h5]
        exact h4
    by_cases c3 : Cut.cuts (around theirs) ⟨last, candidate⟩ (last.squaredDistance candidate) = []
    · rw [if_pos c3] at h
      cases hb : inBoth l o candidate with
      | err => rw [hb] at h; simp at h
      | panic => rw [hb] at h; simp at h
      | ok b =>
        rw [hb] at h
        cases b with
        | false => simp at h
        | true =>
          simp only [if_true] at h
          cases hp : r.pushOne candidate with
          | err => rw [hp] at h; simp at h
          | panic => rw [hp] at h; simp at h
          | ok r' =>
            rw [hp] at h
            obtain ⟨s1, s2, s3, -⟩ := step r' hb hp
            exact ih _ _ _ _ h s1 s2 (by rw [hmine]; exact s3)
    · rw [if_neg c3] at h
      cases hcl : Cut.closest (Cut.cuts (around theirs) ⟨last, candidate⟩ (last.squaredDistance candidate)) last with
      | some jp =>
        obtain ⟨j, p⟩ := jp
        rw [hcl] at h
        dsimp only at h
        cases hp : r.pushOne p with
        | err => rw [hp] at h; simp at h
        | panic => rw [hp] at h; simp at h
        | ok r' =>
          rw [hp] at h
          obtain ⟨h1, h2, last', h3, h4, -⟩ := pushOne_ok r r' p hp hr
          obtain ⟨a, b, t, ea, eb, ht, rfl, hu⟩ := cut_on _ _ _ _ _ _ hcl
          have hlp : n.dot (last - c) = 0 := (hg last (List.mem_of_getLast? hlget)).2
          have hcp : n.dot (candidate - c) = 0 := hpm _ hcmem
          have hap : n.dot (a - c) = 0 := hpt _ (List.mem_of_getElem? ea)
          have hbp : n.dot (b - c) = 0 := hpt _ (List.mem_of_getElem? eb)
          obtain ⟨u, hu0, hu1, hu⟩ := hu (coplanar_of n c a b last candidate hn hap hbp hlp hcp)
          have hon : OnEdge theirs (Segment.Spec.pointAt ⟨a, b⟩ t) := ⟨j, a, b, t, ea, eb, ht, rfl⟩
          have hnear : NearEdge mine (Segment.Spec.pointAt ⟨a, b⟩ t) := by
            obtain ⟨last0, j0, a0, b0, t0, e1, e2, e3, e4, e5, e6⟩ := hat
            obtain rfl : last0 = last := by rw [e1] at hlget; simpa using hlget
            obtain rfl : b0 = candidate := by rw [e4] at hcget; simpa using hcget
            refine ⟨Segment.Spec.pointAt ⟨a0, b0⟩ (t0 + u * (1 - t0)), ⟨j0, a0, b0, _, e2, by rw [e3]; exact e4, ⟨?_, ?_⟩, rfl⟩, ?_⟩
            · nlinarith [e5.1, e5.2]
            · nlinarith [e5.1, e5.2]
            · rw [compare_iff] at e6
              rw [hu]
              have e7 : Segment.Spec.pointAt ⟨last0, b0⟩ u - Segment.Spec.pointAt ⟨a0, b0⟩ (t0 + u * (1 - t0)) =
                  (last0 - Segment.Spec.pointAt ⟨a0, b0⟩ t0).scale (1 - u) := by
                ext <;> simp [Segment.Spec.pointAt] <;> ring
              rw [e7]
              have e8 : ((last0 - Segment.Spec.pointAt ⟨a0, b0⟩ t0).scale (1 - u)).lengthSquared =
                  (1 - u) ^ 2 * (last0 - Segment.Spec.pointAt ⟨a0, b0⟩ t0).lengthSquared := by
                simp only [V3.lengthSquared, V3.scale_x, V3.scale_y, V3.scale_z]; ring
              rw [e8]
              have e9 : 0 ≤ (last0 - Segment.Spec.pointAt ⟨a0, b0⟩ t0).lengthSquared := by
                unfold V3.lengthSquared; exact add_nonneg (add_nonneg (mul_self_nonneg _) (mul_self_nonneg _)) (mul_self_nonneg _)
              have e10 : (1 - u) ^ 2 ≤ 1 := by nlinarith
              nlinarith
          refine ih _ _ _ _ h h1 (fun v hv => ?_) ?_
          · rcases h2 v hv with h | rfl
            · exact hg v h
            · exact ⟨both _ hnear (near_of_on _ _ hon), plane_pointAt n c a b t hap hbp⟩
          · rw [htheirs]
            refine ⟨last', j, a, b, t, h3, ea, by rw [Nat.mod_mod], by rw [Nat.mod_mod]; exact eb, ht, h4⟩
      | none =>
        rw [hcl] at h
        dsimp only at h
        cases hb : inBoth l o candidate with
        | err => rw [hb] at h; simp at h
        | panic => rw [hb] at h; simp at h
        | ok b =>
          rw [hb] at h
          cases b with
          | false => simp at h
          | true =>
            simp only [if_true] at h
            cases hp : r.pushOne candidate with
            | err => rw [hp] at h; simp at h
            | panic => rw [hp] at h; simp at h
            | ok r' =>
              rw [hp] at h
              obtain ⟨s1, s2, -, s4⟩ := step r' hb hp
              exact ih _ _ _ _ h s1 s2 (by rw [hmine]; exact s4)

private theorem finishMeet_ok (r c : Loop) (h : r.finishMeet = .ok (some c)) :
    Reachable c ∧ c.closed = true ∧ Sound c ∧ ∀ v ∈ c.vertices, v ∈ r.vertices := by
  unfold finishMeet at h
  have hall : ∀ (vs : List (V3 ℝ)) (q q' : Loop), sanitize.pushAll q vs = .ok q' → Reachable q →
      Reachable q' ∧ ∀ v ∈ q'.vertices, v ∈ q.vertices ∨ v ∈ vs := by
    intro vs
    induction vs with
    | nil =>
      intro q q' h hq
      simp only [sanitize.pushAll, Outcome.ok.injEq] at h
      subst h
      exact ⟨hq, fun v hv => Or.inl hv⟩
    | cons v vs ih =>
      intro q q' h hq
      unfold sanitize.pushAll at h
      split at h
      · rename_i q'' hp
        have hp' : q.pushOne v = .ok q'' := by unfold pushOne; rw [hp]
        obtain ⟨h1, h2, -⟩ := pushOne_ok q q'' v hp' hq
        obtain ⟨h3, h4⟩ := ih _ _ h h1
        refine ⟨h3, fun w hw => ?_⟩
        rcases h4 w hw with h5 | h5
        · rcases h2 w h5 with h6 | rfl
          · exact Or.inl h6
          · exact Or.inr (by simp)
        · exact Or.inr (List.mem_cons_of_mem _ h5)
      · simp at h
      · simp at h
  cases hs : r.sanitize with
  | err => rw [hs] at h; simp [Outcome.bind] at h
  | panic => rw [hs] at h; simp [Outcome.bind] at h
  | ok r' =>
    rw [hs] at h
    simp only [Outcome.bind] at h
    have hr' : Reachable r' ∧ ∀ v ∈ r'.vertices, v ∈ r.vertices := by
      unfold sanitize at hs
      cases hp : sanitize.pushAll new r.vertices with
      | err => rw [hp] at hs; simp [Outcome.bind] at hs
      | panic => rw [hp] at hs; simp [Outcome.bind] at hs
      | ok q =>
        rw [hp] at hs
        simp only [Outcome.bind] at hs
        obtain ⟨h1, h2⟩ := hall _ _ _ hp .new
        have h2' : ∀ v ∈ q.vertices, v ∈ r.vertices := fun v hv => (h2 v hv).resolve_left (by simp [new])
        split_ifs at hs with hc
        · split at hs
          · rename_i q' hq'
            simp only [Outcome.ok.injEq] at hs
            subst hs
            obtain ⟨h3, -, -, h4⟩ := close_ok _ _ hq' h1
            exact ⟨h3, fun v hv => h2' v (h4.mem hv)⟩
          · simp at hs
          · simp at hs
        · simp only [Outcome.ok.injEq] at hs
          subst hs
          exact ⟨h1, h2'⟩
    split_ifs at h with hlen
    · simp at h
    · split at h
      · rename_i c' hc'
        simp only [Outcome.ok.injEq, Option.some.injEq] at h
        subst h
        obtain ⟨h1, h2, h3, h4⟩ := close_ok _ _ hc' hr'.1
        exact ⟨h1, h2, h3, fun v hv => hr'.2 v (h4.mem hv)⟩
      · simp at h
      · simp at h

private theorem along_cases (l o : Loop) : l.along o = o ∨ l.along o = o.reverse := by
  unfold along; split_ifs <;> simp

private theorem against_cases (l o : Loop) : l.against o = o ∨ l.against o = o.reverse := by
  unfold against; split_ifs <;> simp

private theorem meetStart_ok (l o : Loop) (onSelf : Bool) (i : ℕ) (v : V3 ℝ) (h : meetStart l o = .ok (some (onSelf, i, v))) :
    (if onSelf then l.vertices else o.vertices)[i]? = some v ∧ Common l o v := by
  unfold meetStart at h
  cases hf : o.firstIn 0 l.vertices with
  | err => rw [hf] at h; simp [Outcome.bind] at h
  | panic => rw [hf] at h; simp [Outcome.bind] at h
  | ok f =>
    rw [hf] at h
    cases f with
    | some c =>
      simp only [Outcome.bind, Outcome.ok.injEq, Option.some.injEq, Prod.mk.injEq] at h
      obtain ⟨rfl, rfl⟩ := h
      obtain ⟨-, h1, h2⟩ := firstIn_mem _ _ _ _ _ hf
      exact ⟨by simpa using h1, Or.inl ⟨List.mem_of_getElem? h1, h2⟩⟩
    | none =>
      simp only [Outcome.bind] at h
      cases hg : l.firstIn 0 o.vertices with
      | err => rw [hg] at h; simp [Outcome.map, Outcome.bind] at h
      | panic => rw [hg] at h; simp [Outcome.map, Outcome.bind] at h
      | ok g =>
        rw [hg] at h
        cases g with
        | none => simp [Outcome.map, Outcome.bind] at h
        | some c =>
          simp only [Outcome.map, Outcome.bind, Option.map_some, Outcome.ok.injEq, Option.some.injEq, Prod.mk.injEq] at h
          obtain ⟨rfl, rfl⟩ := h
          obtain ⟨-, h1, h2⟩ := firstIn_mem _ _ _ _ _ hg
          exact ⟨by simpa using h1, Or.inr (Or.inl ⟨List.mem_of_getElem? h1, h2⟩)⟩

/-- C96: what two loops in one plane have in common is a closed polygon, with the area and the perimeter that it reports.
Each of its vertices is a vertex of one of them that the other contains, or not further than a millimetre from the
boundaries of both.  (`o` is the other loop, taken in the direction of the first.)

Missing: that the result is all that the loops have in common (`C96_violated_cross`, `C96_violated_parts`, `C96_violated_last_side`, `C96_violated_covered`). -/
theorem C96_points_partial (l other r : Loop) (h : l.intersection other = .ok (some r)) (n c : V3 ℝ) (hn : n.lengthSquared = 1)
    (hl : InPlane n c l.vertices) (ho : InPlane n c other.vertices) :
    r.closed = true ∧ Sound r ∧ ∃ o, (o = other ∨ o = other.reverse) ∧ ∀ v ∈ r.vertices,
      (v ∈ l.vertices ∧ o.testPoint v = .ok true) ∨ (v ∈ other.vertices ∧ l.testPoint v = .ok true) ∨
        (NearEdge l.vertices v ∧ NearEdge other.vertices v) := by
  unfold intersection at h
  split_ifs at h with h1 h2
  · simp at h
  cases hv : Outcome.index other.vertices 0 with
  | err => rw [hv] at h; simp [Outcome.bind] at h
  | panic => rw [hv] at h; simp [Outcome.bind] at h
  | ok v0 =>
  rw [hv] at h
  simp only [Outcome.bind] at h
  cases hcop : l.isCoplanar v0 with
  | err => rw [hcop] at h; simp at h
  | panic => rw [hcop] at h; simp at h
  | ok cop =>
  rw [hcop] at h
  dsimp only at h
  split_ifs at h with h3
  · simp at h
  cases hs : meetStart l (l.along other) with
  | err => rw [hs] at h; simp at h
  | panic => rw [hs] at h; simp at h
  | ok s =>
  rw [hs] at h
  dsimp only at h
  cases s with
  | none => simp at h
  | some s =>
  obtain ⟨onSelf, i, v⟩ := s
  dsimp only at h
  cases hp : new.pushOne v with
  | err => rw [hp] at h; simp at h
  | panic => rw [hp] at h; simp at h
  | ok r0 =>
  rw [hp] at h
  dsimp only at h
  cases hw : l.meetWalk (l.along other) 99 r0 onSelf (i + 1) with
  | err => rw [hw] at h; simp at h
  | panic => rw [hw] at h; simp at h
  | ok w =>
  rw [hw] at h
  cases w with
  | none => simp at h
  | some w =>
  dsimp only at h
  obtain ⟨hget, hcom⟩ := meetStart_ok _ _ _ _ _ hs
  have hav : (l.along other).vertices = other.vertices ∨ (l.along other).vertices = other.vertices.reverse := by
    rcases along_cases l other with e | e <;> rw [e]
    · exact Or.inl rfl
    · exact Or.inr rfl
  have hoa : InPlane n c (l.along other).vertices := by
    rcases hav with e | e <;> rw [e]
    · exact ho
    · exact fun v hv => ho v (List.mem_reverse.1 hv)
  obtain ⟨p1, p2, last, p3, p4, -⟩ := pushOne_ok new r0 v hp .new
  have hvp : n.dot (v - c) = 0 := by
    have hm := List.mem_of_getElem? hget
    cases onSelf
    · exact hoa v hm
    · exact hl v hm
  obtain ⟨w1, w2⟩ := meetWalk_ok l (l.along other) n c hn hl hoa 99 r0 onSelf (i + 1) w hw p1 (fun x hx => by
    rcases p2 x hx with h | rfl
    · simp [new] at h
    · exact ⟨hcom, hvp⟩) (by
    generalize (if onSelf = true then l.vertices else (l.along other).vertices) = mine at hget ⊢
    have hi : i < mine.length := by
      by_contra hi
      rw [List.getElem?_eq_none (by omega)] at hget
      simp at hget
    have hm : (i + 1) % mine.length < mine.length := Nat.mod_lt _ (by omega)
    refine ⟨last, i, v, _, 0, p3, hget, rfl, List.getElem?_eq_getElem hm, by norm_num, ?_⟩
    have : Segment.Spec.pointAt ⟨v, mine[(i + 1) % mine.length]⟩ 0 = v := by ext <;> simp [Segment.Spec.pointAt]
    rw [this]
    exact p4)
  obtain ⟨-, f2, f3, f4⟩ := finishMeet_ok w r h
  refine ⟨f2, f3, l.along other, along_cases l other, fun x hx => ?_⟩
  rcases w2 x (f4 x hx) with h5 | ⟨h5, h6⟩ | ⟨h5, h6⟩
  · exact Or.inl h5
  · refine Or.inr (Or.inl ⟨?_, h6⟩)
    rcases hav with e | e <;> rw [e] at h5
    · exact h5
    · exact List.mem_reverse.1 h5
  · refine Or.inr (Or.inr ⟨h5, ?_⟩)
    rcases hav with e | e <;> rw [e] at h6
    · exact h6
    · exact near_reverse _ _ h6

private theorem biteWalk_ok (l o : Loop) (first : V3 ℝ) (k : ℕ) : ∀ (r : Loop) (onSelf : Bool) (index : ℕ) (res : Loop),
    l.biteWalk o first k r onSelf index = .ok (some res) → Reachable r →
    (∀ v ∈ r.vertices, OnEdge l.vertices v ∨ OnEdge o.vertices v) →
    Reachable res ∧ ∀ v ∈ res.vertices, OnEdge l.vertices v ∨ OnEdge o.vertices v := by
  induction k with
  | zero => intro r onSelf index res h; simp [biteWalk] at h
  | succ k ih =>
    intro r onSelf index res h hr hg
    unfold biteWalk at h
    generalize hm : (if onSelf then (l.vertices, o.vertices) else (o.vertices, l.vertices)) = m at h
    obtain ⟨mine, theirs⟩ := m
    have hmine : ∀ v, OnEdge mine v → OnEdge l.vertices v ∨ OnEdge o.vertices v := by
      intro v hv
      cases onSelf <;> simp only [Bool.false_eq_true, if_false, if_true, Prod.mk.injEq] at hm
      · rw [← hm.1] at hv; exact Or.inr hv
      · rw [← hm.1] at hv; exact Or.inl hv
    have htheirs : ∀ v, OnEdge theirs v → OnEdge l.vertices v ∨ OnEdge o.vertices v := by
      intro v hv
      cases onSelf <;> simp only [Bool.false_eq_true, if_false, if_true, Prod.mk.injEq] at hm
      · rw [← hm.2] at hv; exact Or.inl hv
      · rw [← hm.2] at hv; exact Or.inr hv
    dsimp only at h
    cases hcand : Outcome.index mine (index % mine.length) with
    | err => rw [hcand] at h; simp [Outcome.bind] at h
    | panic => rw [hcand] at h; simp [Outcome.bind] at h
    | ok candidate =>
    rw [hcand] at h
    simp only [Outcome.bind] at h
    have hcmem : candidate ∈ mine := List.mem_of_getElem? (index_ok _ _ _ hcand)
    by_cases c1 : r.vertices.length > 1 ∧ candidate.compare first = true
    · rw [if_pos c1] at h
      simp only [Outcome.ok.injEq, Option.some.injEq] at h
      subst h
      exact ⟨hr, hg⟩
    rw [if_neg c1] at h
    cases hlast : Outcome.index r.vertices (r.vertices.length - 1) with
    | err => rw [hlast] at h; simp at h
    | panic => rw [hlast] at h; simp at h
    | ok last =>
    rw [hlast] at h
    dsimp only at h
    by_cases c2 : last.compare candidate = true
    · rw [if_pos c2] at h
      exact ih _ _ _ _ h hr hg
    rw [if_neg c2] at h
    have step : ∀ (r' : Loop) (p : V3 ℝ), (OnEdge l.vertices p ∨ OnEdge o.vertices p) → r.pushOne p = .ok r' →
        Reachable r' ∧ ∀ v ∈ r'.vertices, OnEdge l.vertices v ∨ OnEdge o.vertices v := by
      intro r' p hb hp
      obtain ⟨h1, h2, -⟩ := pushOne_ok r r' p hp hr
      refine ⟨h1, fun v hv => ?_⟩
      rcases h2 v hv with h | rfl
      · exact hg v h
      · exact hb
    cases hd : (candidate - last).normalize with
    | err => rw [hd] at h; simp at h
    | panic => rw [hd] at h; simp at h
    | ok dir =>
    rw [hd] at h
    dsimp only at h
    generalize candidate + dir.scale (1 / 1000) = fin at h
    by_cases c3 : Cut.cuts (around theirs) ⟨last, fin⟩ (last.squaredDistance fin) = []
    · rw [if_pos c3] at h
      cases hp : r.pushOne candidate with
      | err => rw [hp] at h; simp at h
      | panic => rw [hp] at h; simp at h
      | ok r' =>
        rw [hp] at h
        obtain ⟨s1, s2⟩ := step r' _ (hmine _ (onEdge_vertex _ _ hcmem)) hp
        exact ih _ _ _ _ h s1 s2
    · rw [if_neg c3] at h
      cases hcl : Cut.closest (Cut.cuts (around theirs) ⟨last, fin⟩ (last.squaredDistance fin)) last with
      | some jp =>
        obtain ⟨j, p⟩ := jp
        rw [hcl] at h
        dsimp only at h
        cases hp : r.pushOne p with
        | err => rw [hp] at h; simp at h
        | panic => rw [hp] at h; simp at h
        | ok r' =>
          rw [hp] at h
          obtain ⟨a, b, t, ea, eb, ht, e, -⟩ := cut_on _ _ _ _ _ _ hcl
          obtain ⟨s1, s2⟩ := step r' p (htheirs _ ⟨j, a, b, t, ea, eb, ht, e⟩) hp
          exact ih _ _ _ _ h s1 s2
      | none =>
        rw [hcl] at h
        dsimp only at h
        cases hp : r.pushOne candidate with
        | err => rw [hp] at h; simp at h
        | panic => rw [hp] at h; simp at h
        | ok r' =>
          rw [hp] at h
          obtain ⟨s1, s2⟩ := step r' _ (hmine _ (onEdge_vertex _ _ hcmem)) hp
          exact ih _ _ _ _ h s1 s2

/-- C96: cutting a loop with another one gives the loop itself, or the two have something in common and the result is a
closed polygon, with the area and the perimeter that it reports, whose vertices are on edges of the loop or of the common
part. -/
theorem C96_bite (l chewer r : Loop) (h : l.bite chewer = .ok r) :
    l.closed = true ∧ chewer.closed = true ∧ (r = l ∨ ∃ c, l.intersection chewer = .ok (some c) ∧ r.closed = true ∧ Sound r ∧
      ∀ v ∈ r.vertices, OnEdge l.vertices v ∨ OnEdge c.vertices v) := by
  unfold bite at h
  split_ifs at h with h1 h2 h3
  refine ⟨by simpa using h1, by simpa using h2, ?_⟩
  cases hv : Outcome.index chewer.vertices 0 with
  | err => rw [hv] at h; simp [Outcome.bind] at h
  | panic => rw [hv] at h; simp [Outcome.bind] at h
  | ok v0 =>
  rw [hv] at h
  simp only [Outcome.bind] at h
  cases hcop : l.isCoplanar v0 with
  | err => rw [hcop] at h; simp at h
  | panic => rw [hcop] at h; simp at h
  | ok cop =>
  rw [hcop] at h
  dsimp only at h
  split_ifs at h with h3
  cases hi : l.intersection chewer with
  | err => rw [hi] at h; simp at h
  | panic => rw [hi] at h; simp at h
  | ok c =>
  rw [hi] at h
  cases c with
  | none =>
    simp only [Outcome.ok.injEq] at h
    exact Or.inl h.symm
  | some c =>
  dsimp only at h
  cases hs : (l.against c).firstOut 0 l.vertices with
  | err => rw [hs] at h; simp at h
  | panic => rw [hs] at h; simp at h
  | ok s =>
  rw [hs] at h
  cases s with
  | none =>
    simp only [Outcome.ok.injEq] at h
    exact Or.inl h.symm
  | some s =>
  obtain ⟨i, v⟩ := s
  dsimp only at h
  cases hp : new.pushOne v with
  | err => rw [hp] at h; simp at h
  | panic => rw [hp] at h; simp at h
  | ok r0 =>
  rw [hp] at h
  dsimp only at h
  cases hw : l.biteWalk (l.against c) v 99 r0 true (i + 1) with
  | err => rw [hw] at h; simp at h
  | panic => rw [hw] at h; simp at h
  | ok w =>
  rw [hw] at h
  cases w with
  | none =>
    simp only [Outcome.ok.injEq] at h
    exact Or.inl h.symm
  | some w =>
  dsimp only at h
  refine Or.inr ⟨c, rfl, ?_⟩
  obtain ⟨hmem, -⟩ := firstOut_mem _ _ _ _ _ hs
  obtain ⟨p1, p2, -⟩ := pushOne_ok new r0 v hp .new
  obtain ⟨w1, w2⟩ := biteWalk_ok _ _ _ _ _ _ _ _ hw p1 (fun x hx => by
    rcases p2 x hx with h | rfl
    · simp [new] at h
    · exact Or.inl (onEdge_vertex _ _ hmem))
  split at h
  · rename_i r' hr'
    simp only [Outcome.ok.injEq] at h
    subst h
    obtain ⟨-, e2, e3, e4⟩ := close_ok _ _ hr' w1
    refine ⟨e2, e3, fun x hx => ?_⟩
    rcases w2 x (e4.mem hx) with h5 | h5
    · exact Or.inl h5
    · refine Or.inr ?_
      rcases against_cases l c with e | e <;> rw [e] at h5
      · exact h5
      · exact onEdge_reverse _ _ h5
  · simp at h
  · simp at h

/-! ### Refusals -/

private theorem isCollinear_ne_panic (a b c : V3 ℝ) : a.isCollinear b c ≠ .panic := by
  unfold V3.isCollinear; split_ifs <;> simp

private theorem containsPoint_ne_panic (s : Segment ℝ) (p : V3 ℝ) : s.containsPoint p ≠ .panic := by
  unfold Segment.containsPoint
  split_ifs
  · simp
  · cases h : p.isCollinear s.start s.fin with
    | err => simp [Outcome.bind]
    | panic => exact absurd h (isCollinear_ne_panic _ _ _)
    | ok b => cases b <;> simp [Outcome.bind]

private theorem isCoplanar_ne_panic (l : Loop) (p : V3 ℝ) : l.isCoplanar p ≠ .panic := by
  unfold isCoplanar
  split
  · simp
  · split_ifs <;> simp

private theorem index_some (vs : List (V3 ℝ)) (i : ℕ) (h : i < vs.length) : Outcome.index vs i = .ok vs[i] := by
  unfold Outcome.index
  rw [List.getElem?_eq_getElem h]

private theorem testPoint_ne_panic (l : Loop) (p : V3 ℝ) (h : 2 ≤ l.vertices.length) : l.testPoint p ≠ .panic := by
  unfold testPoint
  split_ifs
  · simp
  · cases hc : l.isCoplanar p with
    | err => simp [Outcome.bind]
    | panic => exact absurd hc (isCoplanar_ne_panic _ _)
    | ok b =>
      simp only [Outcome.bind]
      split_ifs
      · simp
      · rw [index_some _ 0 (by omega), index_some _ 1 (by omega)]
        dsimp only
        generalize (p - (l.vertices[0] + l.vertices[1]).scale (1 / 2)).scale 1000 = d
        have hcount : ∀ (es : List (V3 ℝ × V3 ℝ)) (k : ℕ), testPoint.count l p d ⟨p, p + d⟩ k es ≠ .panic := by
          intro es
          induction es with
          | nil => intro k; simp [testPoint.count]
          | cons e es ih =>
            intro k
            obtain ⟨a, b⟩ := e
            unfold testPoint.count
            dsimp only
            cases hp : (⟨a, b⟩ : Segment ℝ).containsPoint p with
            | err => simp [Outcome.bind]
            | panic => exact absurd hp (containsPoint_ne_panic _ _)
            | ok c =>
              simp only [Outcome.bind]
              cases c with
              | true => simp
              | false =>
                simp only [Bool.false_eq_true, if_false]
                split
                · exact ih _
                · rename_i ta tb _
                  by_cases h1 : (0 ≤ tb ∧ tb ≤ 1) ∧ 0 ≤ ta ∧ ta ≤ 1
                  · rw [if_pos h1]
                    split_ifs <;> exact ih _
                  · rw [if_neg h1]
                    exact ih _
        cases hk : testPoint.count l p d ⟨p, p + d⟩ 0 (around l.vertices) with
        | err => simp
        | panic => exact absurd hk (hcount _ _)
        | ok r => cases r <;> simp

private theorem inBoth_ne_panic (l o : Loop) (p : V3 ℝ) (hl : 2 ≤ l.vertices.length) (ho : 2 ≤ o.vertices.length) :
    inBoth l o p ≠ .panic := by
  unfold inBoth
  cases h : l.testPoint p with
  | err => simp [Outcome.bind]
  | panic => exact absurd h (testPoint_ne_panic _ _ hl)
  | ok b =>
    simp only [Outcome.bind]
    split_ifs
    · exact testPoint_ne_panic _ _ ho
    · simp

private theorem firstIn_ne_panic (l : Loop) (hl : 2 ≤ l.vertices.length) : ∀ (vs : List (V3 ℝ)) (k : ℕ), l.firstIn k vs ≠ .panic := by
  intro vs
  induction vs with
  | nil => intro k; simp [firstIn]
  | cons v vs ih =>
    intro k
    unfold firstIn
    cases h : l.testPoint v with
    | err => simp [Outcome.bind]
    | panic => exact absurd h (testPoint_ne_panic _ _ hl)
    | ok b =>
      simp only [Outcome.bind]
      split_ifs
      · simp
      · exact ih _

private theorem firstOut_ne_panic (l : Loop) (hl : 2 ≤ l.vertices.length) : ∀ (vs : List (V3 ℝ)) (k : ℕ), l.firstOut k vs ≠ .panic := by
  intro vs
  induction vs with
  | nil => intro k; simp [firstOut]
  | cons v vs ih =>
    intro k
    unfold firstOut
    cases h : l.testPoint v with
    | err => simp [Outcome.bind]
    | panic => exact absurd h (testPoint_ne_panic _ _ hl)
    | ok b =>
      simp only [Outcome.bind]
      split_ifs
      · exact ih _
      · simp

private theorem pushOne_ne_nil (r r' : Loop) (p : V3 ℝ) (h : r.pushOne p = .ok r') : r'.vertices ≠ [] := by
  unfold pushOne at h
  split at h
  · rename_i r'' hr'
    simp only [Outcome.ok.injEq] at h
    subst h
    have hp := (C48_push r p true).2.2
    rw [show r.pushCollinear p true = r.push p from rfl, hr'] at hp
    rcases (hp rfl).2.2 with ⟨h2, last, h3, -⟩ | h2 | ⟨-, h2⟩ <;> dsimp only at h2 <;> rw [h2]
    · rintro h4; rw [h4] at h3; simp at h3
    · simp
    · simp
  · simp at h
  · simp at h

private theorem meetWalk_ne_panic (l o : Loop) (hl : 2 ≤ l.vertices.length) (ho : 2 ≤ o.vertices.length) (k : ℕ) :
    ∀ (r : Loop) (onSelf : Bool) (index : ℕ), r.vertices ≠ [] → l.meetWalk o k r onSelf index ≠ .panic := by
  induction k with
  | zero => intro r onSelf index _; simp [meetWalk]
  | succ k ih =>
    intro r onSelf index hr
    unfold meetWalk
    generalize hm : (if onSelf then (l.vertices, o.vertices) else (o.vertices, l.vertices)) = m
    obtain ⟨mine, theirs⟩ := m
    have hmine : 2 ≤ mine.length := by
      cases onSelf <;> simp only [Bool.false_eq_true, if_false, if_true, Prod.mk.injEq] at hm <;> rw [← hm.1] <;> assumption
    have hr0 : 0 < r.vertices.length := List.length_pos_iff.2 hr
    have hlt : index % mine.length < mine.length := Nat.mod_lt _ (by omega)
    have hlt' : r.vertices.length - 1 < r.vertices.length := by omega
    dsimp only
    rw [index_some mine _ (Nat.mod_lt _ (by omega)), index_some r.vertices 0 hr0, index_some r.vertices (r.vertices.length - 1) (by omega)]
    simp only [Outcome.bind]
    have push : ∀ (p : V3 ℝ) (b : Bool) (i : ℕ),
        ((r.pushOne p).bind fun a => l.meetWalk o k a b i) ≠ .panic := by
      intro p b i
      unfold Outcome.bind
      cases hp : r.pushOne p with
      | err => simp
      | panic => exact absurd hp (pushOne_ne_panic _ _)
      | ok r' => exact ih _ _ _ (pushOne_ne_nil _ _ _ hp)
    split
    · simp
    · split
      · cases hb : inBoth l o mine[index % mine.length] with
        | err => simp
        | panic => exact absurd hb (inBoth_ne_panic _ _ _ hl ho)
        | ok b =>
          dsimp only
          cases b with
          | false => simp
          | true => rw [if_pos rfl]; exact push _ _ _
      · split
        · exact push _ _ _
        · cases hb : inBoth l o mine[index % mine.length] with
          | err => simp
          | panic => exact absurd hb (inBoth_ne_panic _ _ _ hl ho)
          | ok b =>
            dsimp only
            cases b with
            | false => simp
            | true => rw [if_pos rfl]; exact push _ _ _

private theorem biteWalk_ne_panic (l o : Loop) (first : V3 ℝ) (hl : 2 ≤ l.vertices.length) (ho : 2 ≤ o.vertices.length) (k : ℕ) :
    ∀ (r : Loop) (onSelf : Bool) (index : ℕ), r.vertices ≠ [] → l.biteWalk o first k r onSelf index ≠ .panic := by
  induction k with
  | zero => intro r onSelf index _; simp [biteWalk]
  | succ k ih =>
    intro r onSelf index hr
    unfold biteWalk
    generalize hm : (if onSelf then (l.vertices, o.vertices) else (o.vertices, l.vertices)) = m
    obtain ⟨mine, theirs⟩ := m
    have hmine : 2 ≤ mine.length := by
      cases onSelf <;> simp only [Bool.false_eq_true, if_false, if_true, Prod.mk.injEq] at hm <;> rw [← hm.1] <;> assumption
    have hr0 : 0 < r.vertices.length := List.length_pos_iff.2 hr
    have hlt : index % mine.length < mine.length := Nat.mod_lt _ (by omega)
    have hlt' : r.vertices.length - 1 < r.vertices.length := by omega
    dsimp only
    rw [index_some mine _ (Nat.mod_lt _ (by omega)), index_some r.vertices (r.vertices.length - 1) (by omega)]
    simp only [Outcome.bind]
    have push : ∀ (p : V3 ℝ) (b : Bool) (i : ℕ),
        ((r.pushOne p).bind fun a => l.biteWalk o first k a b i) ≠ .panic := by
      intro p b i
      unfold Outcome.bind
      cases hp : r.pushOne p with
      | err => simp
      | panic => exact absurd hp (pushOne_ne_panic _ _)
      | ok r' => exact ih _ _ _ (pushOne_ne_nil _ _ _ hp)
    generalize r.vertices[r.vertices.length - 1] = last
    generalize mine[index % mine.length] = candidate
    split
    · simp
    · split
      · exact ih _ _ _ hr
      · rename_i hc
        have hnorm : ∃ d, (candidate - last).normalize = .ok d := by
          unfold V3.normalize
          rw [if_pos]
          · exact ⟨_, rfl⟩
          · rw [compare_iff, not_le] at hc
            have : (candidate - last).lengthSquared = (last - candidate).lengthSquared := by
              simp only [V3.lengthSquared, V3.sub_x, V3.sub_y, V3.sub_z]; ring
            rw [this]
            exact lt_trans (by norm_num) hc
        obtain ⟨d, hd⟩ := hnorm
        rw [hd]
        dsimp only
        split
        · exact push _ _ _
        · split
          · exact push _ _ _
          · exact push _ _ _

private theorem finishMeet_ne_panic (r : Loop) : r.finishMeet ≠ .panic := by
  have hall : ∀ (vs : List (V3 ℝ)) (q : Loop), sanitize.pushAll q vs ≠ .panic := by
    intro vs
    induction vs with
    | nil => intro q; simp [sanitize.pushAll]
    | cons v vs ih =>
      intro q
      unfold sanitize.pushAll
      split
      · exact ih _
      · simp
      · rename_i q' hq'
        have := (C48_push q v true).1
        rw [show q.pushCollinear v true = q.push v from rfl, hq'] at this
        exact absurd rfl this
  have hclose : ∀ q q' : Loop, q.close ≠ (.panic, q') := by
    intro q q' h
    have := (C48_close q).1
    rw [h] at this
    exact this rfl
  have hsan : r.sanitize ≠ .panic := by
    unfold sanitize
    cases hp : sanitize.pushAll new r.vertices with
    | err => simp [Outcome.bind]
    | panic => exact absurd hp (hall _ _)
    | ok q =>
      simp only [Outcome.bind]
      split_ifs
      · split
        · simp
        · simp
        · rename_i h; exact absurd h (hclose _ _)
      · simp
  unfold finishMeet
  cases hs : r.sanitize with
  | err => simp [Outcome.bind]
  | panic => exact absurd hs hsan
  | ok q =>
    simp only [Outcome.bind]
    split_ifs
    · simp
    · split
      · simp
      · simp
      · rename_i h; exact absurd h (hclose _ _)

private theorem meetStart_ne_panic (l o : Loop) (hl : 2 ≤ l.vertices.length) (ho : 2 ≤ o.vertices.length) :
    meetStart l o ≠ .panic := by
  unfold meetStart
  cases hf : o.firstIn 0 l.vertices with
  | err => simp [Outcome.bind]
  | panic => exact absurd hf (firstIn_ne_panic _ ho _ _)
  | ok f =>
    cases f with
    | some c => simp [Outcome.bind]
    | none =>
      simp only [Outcome.bind]
      cases hg : l.firstIn 0 o.vertices with
      | err => simp [Outcome.map]
      | panic => exact absurd hg (firstIn_ne_panic _ hl _ _)
      | ok g => simp [Outcome.map]

private theorem intersection_ne_panic (l o : Loop) (hl : 2 ≤ l.vertices.length) (ho : 2 ≤ o.vertices.length) :
    l.intersection o ≠ .panic := by
  have ha : 2 ≤ (l.along o).vertices.length := by
    rcases along_cases l o with e | e <;> rw [e]
    · exact ho
    · simpa [reverse] using ho
  unfold intersection
  split_ifs
  · simp
  · simp
  · rw [index_some _ 0 (by omega)]
    simp only [Outcome.bind]
    cases hc : l.isCoplanar o.vertices[0] with
    | err => simp
    | panic => exact absurd hc (isCoplanar_ne_panic _ _)
    | ok b =>
      dsimp only
      split_ifs
      · simp
      · cases hs : meetStart l (l.along o) with
        | err => simp
        | panic => exact absurd hs (meetStart_ne_panic _ _ hl ha)
        | ok s =>
          cases s with
          | none => simp
          | some s =>
            obtain ⟨onSelf, i, v⟩ := s
            dsimp only
            cases hp : new.pushOne v with
            | err => simp
            | panic => exact absurd hp (pushOne_ne_panic _ _)
            | ok r =>
              dsimp only
              cases hw : l.meetWalk (l.along o) 99 r onSelf (i + 1) with
              | err => simp
              | panic => exact absurd hw (meetWalk_ne_panic _ _ hl ha _ _ _ _ (pushOne_ne_nil _ _ _ hp))
              | ok w =>
                cases w with
                | none => simp
                | some w => exact finishMeet_ne_panic _

private theorem intersection_length (l o c : Loop) (h : l.intersection o = .ok (some c)) : 3 ≤ c.vertices.length := by
  unfold intersection at h
  split_ifs at h
  · simp at h
  cases hv : Outcome.index o.vertices 0 with
  | err => rw [hv] at h; simp [Outcome.bind] at h
  | panic => rw [hv] at h; simp [Outcome.bind] at h
  | ok v0 =>
  rw [hv] at h
  simp only [Outcome.bind] at h
  cases hcop : l.isCoplanar v0 with
  | err => rw [hcop] at h; simp at h
  | panic => rw [hcop] at h; simp at h
  | ok cop =>
  rw [hcop] at h
  dsimp only at h
  split_ifs at h
  · simp at h
  cases hs : meetStart l (l.along o) with
  | err => rw [hs] at h; simp at h
  | panic => rw [hs] at h; simp at h
  | ok s =>
  rw [hs] at h
  cases s with
  | none => simp at h
  | some s =>
  obtain ⟨onSelf, i, v⟩ := s
  dsimp only at h
  cases hp : new.pushOne v with
  | err => rw [hp] at h; simp at h
  | panic => rw [hp] at h; simp at h
  | ok r0 =>
  rw [hp] at h
  dsimp only at h
  cases hw : l.meetWalk (l.along o) 99 r0 onSelf (i + 1) with
  | err => rw [hw] at h; simp at h
  | panic => rw [hw] at h; simp at h
  | ok w =>
  rw [hw] at h
  cases w with
  | none => simp at h
  | some w => exact (finishMeet_ok w c h).2.2.1.1

/-- C96: open loops are refused, and loops with two vertices or more are never a reason to panic. -/
theorem C96_refused (l o : Loop) :
    (l.closed = false ∨ o.closed = false → l.intersection o = .err ∧ l.bite o = .err) ∧
      (2 ≤ l.vertices.length → 2 ≤ o.vertices.length → l.intersection o ≠ .panic ∧ l.bite o ≠ .panic) := by
  constructor
  · rintro (h | h)
    · unfold intersection bite
      simp [h]
    · unfold intersection bite
      cases l.closed <;> simp [h]
  · intro hl ho
    refine ⟨intersection_ne_panic l o hl ho, ?_⟩
    unfold bite
    split_ifs
    · simp
    · simp
    · simp
    rw [index_some _ 0 (by omega)]
    simp only [Outcome.bind]
    cases hc : l.isCoplanar o.vertices[0] with
    | err => simp
    | panic => exact absurd hc (isCoplanar_ne_panic _ _)
    | ok b =>
    dsimp only
    split_ifs
    · simp
    cases hi : l.intersection o with
    | err => simp
    | panic => exact absurd hi (intersection_ne_panic _ _ hl ho)
    | ok c =>
    cases c with
    | none => simp
    | some c =>
    have h3 := intersection_length _ _ _ hi
    have ha : 2 ≤ (l.against c).vertices.length := by
      rcases against_cases l c with e | e <;> rw [e]
      · omega
      · simp only [reverse, List.length_reverse]; omega
    dsimp only
    cases hs : (l.against c).firstOut 0 l.vertices with
    | err => simp
    | panic => exact absurd hs (firstOut_ne_panic _ ha _ _)
    | ok s =>
    cases s with
    | none => simp
    | some s =>
    obtain ⟨i, v⟩ := s
    dsimp only
    cases hp : new.pushOne v with
    | err => simp
    | panic => exact absurd hp (pushOne_ne_panic _ _)
    | ok r =>
    dsimp only
    cases hw : l.biteWalk (l.against c) v 99 r true (i + 1) with
    | err => simp
    | panic => exact absurd hw (biteWalk_ne_panic _ _ _ hl ha _ _ _ _ (pushOne_ne_nil _ _ _ hp))
    | ok w =>
    cases w with
    | none => simp
    | some w =>
      dsimp only
      split
      · simp
      · simp
      · rename_i q hq
        have := (C48_close w).1
        rw [hq] at this
        exact absurd rfl this

/-- C96: when no vertex of one loop is in the other, in whichever direction it goes, they have nothing in common, and
cutting leaves the loop as it is or is refused. -/
theorem C96_apart (l o : Loop) (hne : o.vertices ≠ []) (h1 : ∀ v ∈ l.vertices, o.testPoint v = .ok false)
    (h2 : ∀ v ∈ l.vertices, o.reverse.testPoint v = .ok false) (h3 : ∀ v ∈ o.vertices, l.testPoint v = .ok false)
    (hc : o.closed = true) : l.intersection o = .ok none ∧ (l.bite o = .ok l ∨ l.bite o = .err) := by
  obtain ⟨v0, t, hv⟩ := List.exists_cons_of_ne_nil hne
  have ht := h3 v0 (by rw [hv]; simp)
  have hcl : l.closed = true ∧ ∃ b, l.isCoplanar v0 = .ok b := by
    unfold testPoint at ht
    split_ifs at ht with hcl
    refine ⟨by simpa using hcl, ?_⟩
    cases hb : l.isCoplanar v0 with
    | err => rw [hb] at ht; simp [Outcome.bind] at ht
    | panic => rw [hb] at ht; simp [Outcome.bind] at ht
    | ok b => exact ⟨b, rfl⟩
  obtain ⟨hcl, b, hb⟩ := hcl
  have none_in : ∀ (q : Loop) (vs : List (V3 ℝ)) (k : ℕ), (∀ v ∈ vs, q.testPoint v = .ok false) → q.firstIn k vs = .ok none := by
    intro q vs
    induction vs with
    | nil => intro k _; rfl
    | cons v vs ih =>
      intro k hq
      unfold firstIn
      rw [hq v (by simp)]
      exact ih _ (fun w hw => hq w (List.mem_cons_of_mem _ hw))
  have hs : meetStart l (l.along o) = .ok none := by
    unfold meetStart
    rw [none_in (l.along o) l.vertices 0 (by
      rcases along_cases l o with e | e <;> rw [e]
      · exact h1
      · exact h2)]
    simp only [Outcome.bind]
    rw [none_in l _ 0 (by
      rcases along_cases l o with e | e <;> rw [e]
      · exact h3
      · exact fun v hv => h3 v (List.mem_reverse.1 hv))]
    rfl
  have hidx : Outcome.index o.vertices 0 = .ok v0 := by rw [hv]; rfl
  have hint : l.intersection o = .ok none := by
    unfold intersection
    rw [hcl, hc, hidx]
    simp only [Bool.not_true, Bool.or_self, Bool.false_eq_true, if_false, Outcome.bind, hb, hs]
    split_ifs <;> rfl
  refine ⟨hint, ?_⟩
  unfold bite
  rw [hcl, hc, hidx, hint]
  simp only [Bool.not_true, Bool.false_eq_true, if_false, Outcome.bind, hb]
  split_ifs <;> simp

/-! ### Cases -/

private def at_ (l : List (ℚ × ℚ)) : List (V3 ℚ) := l.map fun p => ⟨p.1, p.2, 0⟩

private def big : List (ℚ × ℚ) := [(0, 0), (4, 0), (4, 4), (0, 4)]

private theorem built (vs : List (V3 ℚ)) (n : V3 ℚ) (a : ℚ) (h : QLoop.build vs = some ⟨vs, n, true, a⟩) :
    ∃ l, Reachable l ∧ Sound l ∧ QLoop.Rep ⟨vs, n, true, a⟩ l ∧ l.getArea = .ok a := by
  obtain ⟨l, hl, rl⟩ := QLoop.build_reachable vs _ h
  exact ⟨l, hl, C48_history_partial l hl rl.2.2.1, rl, by simp [getArea, rl.2.2.1, rl.2.2.2]⟩

/-- Two squares that overlap at a corner: the common part has four of the sixteen square metres, and what is left is
an L shape with twelve. -/
theorem C96_corner : ∃ l o c r : Loop, Reachable l ∧ Reachable o ∧ Sound l ∧ Sound o ∧ l.getArea = .ok 16 ∧
    InPlane ⟨0, 0, 1⟩ ⟨0, 0, 0⟩ l.vertices ∧ InPlane ⟨0, 0, 1⟩ ⟨0, 0, 0⟩ o.vertices ∧
    l.intersection o = .ok (some c) ∧ c.getArea = .ok 4 ∧ c.vertices = (at_ [(4, 4), (2, 4), (2, 2), (4, 2)]).map V3.real ∧
    l.bite o = .ok r ∧ r.getArea = .ok 12 ∧
    r.vertices = (at_ [(0, 0), (4, 0), (4, 2), (2, 2), (2, 4), (0, 4)]).map V3.real := by
  obtain ⟨l, hl, sl, rl, al⟩ := built (at_ big) ⟨0, 0, 1⟩ 16 (by decide +kernel)
  obtain ⟨o, ho, so, ro, -⟩ := built (at_ [(2, 2), (6, 2), (6, 6), (2, 6)]) ⟨0, 0, 1⟩ 16 (by decide +kernel)
  obtain ⟨b, hb, rb⟩ := QLoop.intersection_rep (a := some ⟨at_ [(4, 4), (2, 4), (2, 2), (4, 2)], ⟨0, 0, 1⟩, true, 4⟩) rl ro
    (by decide +kernel)
  obtain ⟨r, hr, rr⟩ := QLoop.bite_rep (a := ⟨at_ [(0, 0), (4, 0), (4, 2), (2, 2), (2, 4), (0, 4)], ⟨0, 0, 1⟩, true, 12⟩) rl ro
    (by decide +kernel)
  cases b with
  | none => exact rb.elim
  | some c =>
    have rb : QLoop.Rep _ c := rb
    refine ⟨l, o, c, r, hl, ho, sl, so, by rw [al]; norm_num, ?_, ?_, hb, ?_, rb.1, hr, ?_, rr.1⟩
    · rw [rl.1]
      simp [InPlane, at_, big, V3.real, V3.dot]
    · rw [ro.1]
      simp [InPlane, at_, V3.real, V3.dot]
    · simp [getArea, rb.2.2.1, rb.2.2.2]
    · simp [getArea, rr.2.2.1, rr.2.2.2]

/-- The full claim is false: two bars that cross, with a square in the middle, are said to have nothing in common, and
cutting one with the other leaves it as it is. -/
theorem C96_violated_cross : ∃ (l o r : Loop) (p : V3 ℝ), Reachable l ∧ Reachable o ∧ Sound l ∧ Sound o ∧
    l.testPoint p = .ok true ∧ o.testPoint p = .ok true ∧ l.intersection o = .ok none ∧
    l.bite o = .ok r ∧ r.vertices = l.vertices := by
  obtain ⟨l, hl, sl, rl, -⟩ := built (at_ [(0, 2), (6, 2), (6, 4), (0, 4)]) ⟨0, 0, 1⟩ 12 (by decide +kernel)
  obtain ⟨o, ho, so, ro, -⟩ := built (at_ [(2, 0), (4, 0), (4, 6), (2, 6)]) ⟨0, 0, 1⟩ 12 (by decide +kernel)
  obtain ⟨b, hb, rb⟩ := QLoop.intersection_rep (a := none) rl ro (by decide +kernel)
  obtain ⟨r, hr, rr⟩ := QLoop.bite_rep (a := ⟨at_ [(0, 2), (6, 2), (6, 4), (0, 4)], ⟨0, 0, 1⟩, true, 12⟩) rl ro (by decide +kernel)
  cases b with
  | some b => exact rb.elim
  | none =>
    refine ⟨l, o, r, (⟨3, 3, 0⟩ : V3 ℚ).real, hl, ho, sl, so, ?_, ?_, hb, hr, by rw [rr.1, rl.1]⟩
    · rw [QLoop.eq_real rl, QLoop.testPoint_real]
      decide +kernel
    · rw [QLoop.eq_real ro, QLoop.testPoint_real]
      decide +kernel

/-- The full claim is false: of what a U shape and a bar across both of its arms have in common, only the part in one arm
is found, and only that part is cut away. -/
theorem C96_violated_parts : ∃ (l o c r : Loop) (p : V3 ℝ), Reachable l ∧ Reachable o ∧ Sound l ∧ Sound o ∧
    l.testPoint p = .ok true ∧ o.testPoint p = .ok true ∧ l.intersection o = .ok (some c) ∧ c.testPoint p = .ok false ∧
    l.bite o = .ok r ∧ r.testPoint p = .ok true := by
  obtain ⟨l, hl, sl, rl, -⟩ := built (at_ [(0, 0), (7, 0), (7, 7), (5, 7), (5, 2), (2, 2), (2, 7), (0, 7)]) ⟨0, 0, 1⟩ 34
    (by decide +kernel)
  obtain ⟨o, ho, so, ro, -⟩ := built (at_ [(1, 4), (6, 4), (6, 6), (1, 6)]) ⟨0, 0, 1⟩ 10 (by decide +kernel)
  obtain ⟨b, hb, rb⟩ := QLoop.intersection_rep (a := some ⟨at_ [(1, 4), (2, 4), (2, 6), (1, 6)], ⟨0, 0, 1⟩, true, 2⟩) rl ro
    (by decide +kernel)
  obtain ⟨r, hr, rr⟩ := QLoop.bite_rep (a := ⟨at_ [(0, 0), (7, 0), (7, 7), (5, 7), (5, 2), (2, 2), (2, 4), (1, 4), (1, 6), (2, 6),
    (2, 7), (0, 7)], ⟨0, 0, 1⟩, true, 32⟩) rl ro (by decide +kernel)
  cases b with
  | none => exact rb.elim
  | some c =>
    have rb : QLoop.Rep _ c := rb
    refine ⟨l, o, c, r, (⟨11 / 2, 9 / 2, 0⟩ : V3 ℚ).real, hl, ho, sl, so, ?_, ?_, hb, ?_, hr, ?_⟩
    · rw [QLoop.eq_real rl, QLoop.testPoint_real]
      decide +kernel
    · rw [QLoop.eq_real ro, QLoop.testPoint_real]
      decide +kernel
    · rw [QLoop.eq_real rb, QLoop.testPoint_real]
      decide +kernel
    · rw [QLoop.eq_real rr, QLoop.testPoint_real]
      decide +kernel

/-- The full claim is false: a square loses nothing to a bar that crosses the side that leads back to its first vertex,
though six of its sixteen square metres are common to both. -/
theorem C96_violated_last_side : ∃ l o c r : Loop, Reachable l ∧ Reachable o ∧ Sound l ∧ Sound o ∧
    l.vertices = (at_ big).map V3.real ∧ l.getArea = .ok 16 ∧ l.intersection o = .ok (some c) ∧ c.getArea = .ok 6 ∧
    l.bite o = .ok r ∧ r.getArea = .ok 16 := by
  obtain ⟨l, hl, sl, rl, al⟩ := built (at_ big) ⟨0, 0, 1⟩ 16 (by decide +kernel)
  obtain ⟨o, ho, so, ro, -⟩ := built (at_ [(-1, 1), (3, 1), (3, 3), (-1, 3)]) ⟨0, 0, 1⟩ 8 (by decide +kernel)
  obtain ⟨b, hb, rb⟩ := QLoop.intersection_rep (a := some ⟨at_ [(3, 1), (3, 3), (0, 3), (0, 1)], ⟨0, 0, 1⟩, true, 6⟩) rl ro
    (by decide +kernel)
  obtain ⟨r, hr, rr⟩ := QLoop.bite_rep (a := ⟨at_ big, ⟨0, 0, 1⟩, true, 16⟩) rl ro (by decide +kernel)
  cases b with
  | none => exact rb.elim
  | some c =>
    have rb : QLoop.Rep _ c := rb
    refine ⟨l, o, c, r, hl, ho, sl, so, rl.1, by rw [al]; norm_num, hb, ?_, hr, ?_⟩
    · simp [getArea, rb.2.2.1, rb.2.2.2]
    · simp [getArea, rr.2.2.1, rr.2.2.2]

/-- The full claim is false: a loop that covers another one completely leaves it as it is, with all its area. -/
theorem C96_violated_covered : ∃ l o c r : Loop, Reachable l ∧ Reachable o ∧ Sound l ∧ Sound o ∧
    l.intersection o = .ok (some c) ∧ l.getArea = .ok 4 ∧ c.getArea = .ok 4 ∧ l.bite o = .ok r ∧ r.getArea = .ok 4 := by
  obtain ⟨l, hl, sl, rl, al⟩ := built (at_ [(1, 1), (3, 1), (3, 3), (1, 3)]) ⟨0, 0, 1⟩ 4 (by decide +kernel)
  obtain ⟨o, ho, so, ro, -⟩ := built (at_ big) ⟨0, 0, 1⟩ 16 (by decide +kernel)
  obtain ⟨b, hb, rb⟩ := QLoop.intersection_rep (a := some ⟨at_ [(1, 1), (3, 1), (3, 3), (1, 3)], ⟨0, 0, 1⟩, true, 4⟩) rl ro
    (by decide +kernel)
  obtain ⟨r, hr, rr⟩ := QLoop.bite_rep (a := ⟨at_ [(1, 1), (3, 1), (3, 3), (1, 3)], ⟨0, 0, 1⟩, true, 4⟩) rl ro (by decide +kernel)
  cases b with
  | none => exact rb.elim
  | some c =>
    have rb : QLoop.Rep _ c := rb
    refine ⟨l, o, c, r, hl, ho, sl, so, hb, by rw [al]; norm_num, ?_, hr, ?_⟩
    · simp [getArea, rb.2.2.1, rb.2.2.2]
    · simp [getArea, rr.2.2.1, rr.2.2.2]

end Loop

end Simple.Geometry
