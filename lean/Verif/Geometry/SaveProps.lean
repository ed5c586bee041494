import Verif.Geometry.SaveModel
import Verif.Geometry.PolygonProps

/-! # C93: loops and polygons that are written are read as they were -/

namespace Simple.Geometry

/-! ### Reading the points again -/

private theorem readPoints_append (l : Loop) (vs : List (V3 ℝ)) (w : V3 ℝ) :
    l.readPoints (coordinates (vs ++ [w])) = (l.readPoints (coordinates vs)).bind fun l' =>
      match l'.pushCollinear w false with
      | (.ok (), l'') => .ok l''
      | (.err, _) => .err
      | (.panic, _) => .panic := by
  induction vs generalizing l with
  | nil =>
    simp only [coordinates, List.nil_append, List.flatMap_cons, List.flatMap_nil, List.append_nil, Loop.readPoints, Outcome.bind]
    rcases l.pushCollinear w false with ⟨o, l'⟩
    cases o <;> rfl
  | cons v vs ih =>
    have e : ∀ t, coordinates (v :: t) = .num v.x :: .num v.y :: .num v.z :: coordinates t := fun t => rfl
    rw [List.cons_append, e, e, Loop.readPoints, Loop.readPoints]
    rcases l.pushCollinear ⟨v.x, v.y, v.z⟩ false with ⟨o, l'⟩
    cases o with
    | ok u => exact ih l'
    | err => rfl
    | panic => rfl

/-- The loops that adding points gives. -/
private inductive Pushed : Loop → Prop
  | new : Pushed Loop.new
  | push (l l' : Loop) (v : V3 ℝ) : Pushed l → l.pushCollinear v false = (.ok (), l') → Pushed l'

private theorem push_split (l l' : Loop) (v : V3 ℝ) (h : l.pushCollinear v false = (.ok (), l')) :
    l' = l ∨ l'.vertices = l.vertices ++ [v] := by
  unfold Loop.pushCollinear at h
  split at h
  · simp at h
  · simp at h
  · have h3 : l.replacesLast v false = .ok false := by unfold Loop.replacesLast; simp
    rw [h3] at h
    simp only [Bool.false_eq_true, if_false] at h
    split_ifs at h
    · exact Or.inl (Prod.mk.inj h).2.symm
    · right
      have : ∀ l : Loop, l.setNormal.2.vertices = l.vertices := by
        intro l
        unfold Loop.setNormal
        split_ifs
        · rfl
        · split
          · split
            · rfl
            · split <;> rfl
          · rfl
      have := this { l with vertices := l.vertices ++ [v] }
      rw [h] at this
      exact this
    · right
      rw [← (Prod.mk.inj h).2]

private theorem pushed_replay (l : Loop) (h : Pushed l) : Loop.new.readPoints (coordinates l.vertices) = .ok l := by
  induction h with
  | new => rfl
  | push l l' v _ hp ih =>
    rcases push_split l l' v hp with rfl | h
    · exact ih
    · rw [h, readPoints_append, ih]
      simp only [Outcome.bind, hp]

private theorem pushed_readPoints (a : List Item) (n : ℕ) (hn : a.length ≤ n) : ∀ (l r : Loop), Pushed l → l.readPoints a = .ok r → Pushed r := by
  induction n generalizing a with
  | zero =>
    intro l r h hr
    have : a = [] := List.length_eq_zero_iff.1 (by omega)
    subst this
    simp only [Loop.readPoints, Outcome.ok.injEq] at hr
    exact hr ▸ h
  | succ n ih =>
    intro l r h hr
    unfold Loop.readPoints at hr
    split at hr
    · simp only [Outcome.ok.injEq] at hr
      exact hr ▸ h
    · rename_i x y z t
      split at hr
      · rename_i l' hl'
        exact ih t (by simp at hn; omega) l' r (.push l l' _ h hl') hr
      · simp at hr
      · simp at hr
    · simp at hr

private theorem pushed_pushAll (vs : List (V3 ℝ)) : ∀ (l r : Loop), Pushed l → Polygon.pushAll l vs = .ok r → Pushed r := by
  induction vs with
  | nil =>
    intro l r h hr
    simp only [Polygon.pushAll, Outcome.ok.injEq] at hr
    exact hr ▸ h
  | cons v vs ih =>
    intro l r h hr
    unfold Polygon.pushAll at hr
    split at hr
    · rename_i l' hl'
      exact ih l' r (.push l l' _ h hl') hr
    · simp at hr

private theorem pushed_joinAll (p : Polygon) (k : ℕ) : ∀ (ret : Loop) (processed : List ℕ) (a b : ℕ) (r : Loop),
    (k ≠ 0 ∨ Pushed ret) → p.joinAll k ret processed a b = .ok r → Pushed r := by
  induction k with
  | zero =>
    intro ret processed a b r h hr
    simp only [Polygon.joinAll, Outcome.ok.injEq] at hr
    rcases h with h | h
    · exact absurd rfl h
    · exact hr ▸ h
  | succ k ih =>
    intro ret processed a b r _ hr
    simp only [Polygon.joinAll] at hr
    generalize List.foldl (Polygon.Nearest.visit (K := ℝ)) _ _ = s at hr
    cases h1 : Outcome.index p.inner s.hole with
    | err => rw [h1] at hr; simp [Outcome.bind] at hr
    | panic => rw [h1] at hr; simp [Outcome.bind] at hr
    | ok hole =>
      rw [h1] at hr
      simp only [Outcome.bind] at hr
      cases h2 : Polygon.walk (p.outer.normal.isSameDirection hole.normal) s.vertex hole.vertices with
      | err => rw [h2] at hr; simp at hr
      | panic => rw [h2] at hr; simp at hr
      | ok w =>
        rw [h2] at hr
        dsimp only at hr
        cases h3 : Polygon.pushAll Loop.new (Polygon.joined ret.vertices s.ext w) with
        | err => rw [h3] at hr; simp at hr
        | panic => rw [h3] at hr; simp at hr
        | ok aux =>
          rw [h3] at hr
          exact ih aux _ _ _ r (Or.inr (pushed_pushAll _ _ _ .new h3)) hr

/-! ### The claims -/

/-- C93, in part: a loop that was read and is written again is read as the same loop, if closing it dropped none of its
vertices.  Missing: other loops, which lose one more vertex each time (`C93_violated_loop`). -/
theorem C93_loop_partial (a : List Item) (r l : Loop) (hr : Loop.new.readPoints a = .ok r) (hc : r.closed? = .ok l)
    (hk : l.vertices = r.vertices) : Loop.read (.array a) = .ok l ∧ Loop.read l.write = .ok l := by
  have hp := pushed_replay r (pushed_readPoints a _ le_rfl _ _ .new hr)
  simp only [Loop.read, Loop.write, hr, hk, hp, Outcome.bind, hc, and_self]

/-- C93, in part: a polygon with holes is read as a polygon without holes, whose vertices are those of the walk around
the polygon and its holes, and which has the same area.  Missing: polygons whose walk is not around all of its holes
(see `C49_same_area_partial`), and walks of which closing drops a vertex (`C93_violated_loop`). -/
theorem C93_polygon_partial (p : Polygon) (r l : Loop) (h : p.getClosedLoop = .ok r) (hh : p.inner ≠ [])
    (hc : r.closed? = .ok l) (hk : l.vertices = r.vertices)
    (hn : r.normal = p.outer.normal ∨ r.normal = -p.outer.normal) (hp : Polygon.Spec.Reachable p)
    (hsep : (p.outer.vertices ++ p.inner.flatMap Loop.vertices).Pairwise Polygon.Spec.Apart)
    (hsound : ∀ l ∈ p.outer :: p.inner, Loop.Spec.Sound l ∧ l.vertices.length < 2 ^ 31 ∧
      (l.normal = p.outer.normal ∨ l.normal = -p.outer.normal))
    (hs : ∀ l ∈ p.inner, l.normal = p.outer.normal → l.vertices.length ∣ 2 ^ 64) :
    ∃ (v : Value) (p' : Polygon) (order : List Loop), p.write = .ok v ∧ Polygon.read v = .ok p' ∧ p'.inner = [] ∧ order.Perm p.inner ∧
      Polygon.Spec.Bridged p.outer.vertices (order.map (Polygon.Spec.turned p.outer.normal)) p'.outer.vertices ∧
      p'.area = |p.area| := by
  have hrep := pushed_replay r (pushed_joinAll p p.inner.length p.outer.open_ [] 0 0 r
    (Or.inl (by simpa using hh)) h)
  have harea := Polygon.C49_same_area_partial p r h hp hsep hsound hs
  have hdir : ∀ l ∈ p.inner, p.outer.normal.isSameDirection l.normal = true → l.vertices.length ∣ 2 ^ 64 := by
    intro l hl hd
    rcases (hsound l (by simp [hl])).2.2 with e | e
    · exact hs l hl e
    · exfalso
      have o2 := (hsound p.outer (by simp)).1.2.1
      have e1 : p.outer.normal.dot (-p.outer.normal) = -1 := by
        have : p.outer.normal.dot (-p.outer.normal) = -p.outer.normal.lengthSquared := by
          simp only [V3.dot, V3.lengthSquared, V3.neg_x, V3.neg_y, V3.neg_z]; ring
        rw [this, o2]
      rw [e] at hd
      unfold V3.isSameDirection at hd
      rw [e1] at hd
      split_ifs at hd
      norm_num at hd
  obtain ⟨order, ho, hb⟩ := Polygon.C49_bridged_partial p r h hsep
    (by intro h0; have := (hsound p.outer (by simp)).1.1; rw [h0] at this; simp at this)
    (fun l hl => ⟨le_trans (by norm_num) (hsound l (by simp [hl])).1.1, (hsound l (by simp [hl])).2.1⟩) hdir
  have hcl : r.close = (.ok (), l) := by
    unfold Loop.closed? at hc
    split at hc
    · rename_i l' hl'; rw [hl']; simp only [Outcome.ok.injEq] at hc; rw [hc]
    · simp at hc
    · simp at hc
  have hcc := (Loop.C48_close r).2 (by rw [hcl])
  rw [hcl] at hcc
  obtain ⟨-, c1, -, -, -, c2, c3, c4, -, -⟩ := hcc
  have c1' : l.closed = true := c1
  refine ⟨r.write, ⟨l, [], l.area, l.normal⟩, order, ?_, ?_, rfl, ho, ?_, ?_⟩
  · simp [Polygon.write, h, Outcome.map]
  · simp [Polygon.read, Loop.read, Loop.write, hrep, Outcome.bind, hc, Polygon.ofLoop, Loop.getArea, c1']
  · dsimp only at hk ⊢; rw [hk]; exact hb
  · dsimp only at c2 c3 c4 hk ⊢
    rw [← harea]
    have dneg : ∀ n a : V3 ℝ, (-n).dot a = -n.dot a := by
      intro n a; simp only [V3.dot, V3.neg_x, V3.neg_y, V3.neg_z]; ring
    rw [hk] at c4
    have : l.normal = p.outer.normal ∨ l.normal = -p.outer.normal := by
      rcases c2 with c2 | c2 <;> rcases hn with hn | hn <;> rw [c2, hn] <;> simp
    rcases this with e | e
    · rw [e] at c4
      rw [← c4, abs_of_nonneg c3]
    · rw [e, dneg] at c4
      rw [← abs_neg, ← c4, abs_of_nonneg c3]

/-- What is not an array of points is not always refused: the program panics on an array that ends within a point or
in which something is not a number, after the points before it have been accepted. -/
theorem C93_violated_panic (pts : List (V3 ℝ)) (l : Loop) (h : Loop.new.readPoints (coordinates pts) = .ok l) (x y : ℝ)
    (t : List Item) :
    Loop.read (.array (coordinates pts ++ [.num x])) = .panic ∧ Loop.read (.array (coordinates pts ++ [.num x, .num y])) = .panic ∧
    Loop.read (.array (coordinates pts ++ .other :: t)) = .panic ∧
    Loop.read (.array (coordinates pts ++ .num x :: .other :: t)) = .panic ∧
    Loop.read (.array (coordinates pts ++ .num x :: .num y :: .other :: t)) = .panic := by
  have key : ∀ (s : List Item), (∀ l : Loop, l.readPoints s = .panic) → ∀ (pts : List (V3 ℝ)) (l r : Loop),
      r.readPoints (coordinates pts) = .ok l → r.readPoints (coordinates pts ++ s) = .panic := by
    intro s hs pts
    induction pts with
    | nil => intro l r _; exact hs r
    | cons v vs ih =>
      intro l r h
      have e : ∀ t, coordinates (v :: vs) ++ t = .num v.x :: .num v.y :: .num v.z :: (coordinates vs ++ t) := fun t => rfl
      rw [e, Loop.readPoints]
      rw [← List.append_nil (coordinates (v :: vs)), e, List.append_nil, Loop.readPoints] at h
      rcases hp : r.pushCollinear ⟨v.x, v.y, v.z⟩ false with ⟨o, r'⟩
      rw [hp] at h
      cases o with
      | ok u => exact ih l r' h
      | err => simp at h
      | panic => rfl
  refine ⟨?_, ?_, ?_, ?_, ?_⟩ <;>
    (simp only [Loop.read]; rw [key _ (fun l => by simp [Loop.readPoints]) pts l _ h]; rfl)

private def pts (l : List (ℚ × ℚ)) : List (V3 ℚ) := l.map fun p => ⟨p.1, p.2, 0⟩

private theorem pushed_real (vs : List (V3 ℚ)) (q : QLoop) (h : QPolygon.pushAll QLoop.new vs = some q) :
    ∃ l, Pushed l ∧ q.Rep l := by
  have := QPolygon.pushAll_real vs QLoop.new q (-1) h
  have hn : QLoop.new.real (-1) = Loop.new := by
    ext1 <;> simp [QLoop.real, QLoop.new, Loop.new]
    ext <;> simp [V3.real]
  rw [hn] at this
  exact ⟨_, pushed_pushAll _ _ _ .new this, QLoop.rep_real _ _⟩

private theorem closed_real {q : QLoop} {l : Loop} (h : q.Rep l) (hq : q.close.1 = .ok ()) :
    ∃ l', l.closed? = .ok l' ∧ q.close.2.Rep l' := by
  have := QLoop.close_real q l.perimeter
  rw [← QLoop.eq_real h, hq] at this
  unfold Loop.closed?
  rcases hc : l.close with ⟨o, l'⟩
  rw [hc] at this
  obtain ⟨h1, h2⟩ := this
  dsimp only at h1 h2
  subst h1
  exact ⟨l', rfl, h2⟩

/-- The full claim is false for loops: a loop that is read from six points, of which the last two are between the fourth
and the first, has five vertices; it is written and read again, and has four. -/
theorem C93_violated_loop :
    ∃ (a : List Item) (l l' : Loop), Loop.read (.array a) = .ok l ∧ l.vertices.length = 5 ∧
      Loop.read l.write = .ok l' ∧ l'.vertices.length = 4 := by
  obtain ⟨r, hr, rr⟩ := pushed_real (pts [(0, 0), (4, 0), (4, 4), (0, 4), (0, 3), (0, 2)])
    ⟨pts [(0, 0), (4, 0), (4, 4), (0, 4), (0, 3), (0, 2)], ⟨0, 0, 1⟩, false, -1⟩ (by decide +kernel)
  obtain ⟨l, hl, rl⟩ := closed_real rr (by decide +kernel)
  obtain ⟨r', hr', rr'⟩ := pushed_real (pts [(0, 0), (4, 0), (4, 4), (0, 4), (0, 3)])
    ⟨pts [(0, 0), (4, 0), (4, 4), (0, 4), (0, 3)], ⟨0, 0, 1⟩, false, -1⟩ (by decide +kernel)
  obtain ⟨l', hl', rl'⟩ := closed_real rr' (by decide +kernel)
  refine ⟨coordinates r.vertices, l, l', ?_, ?_, ?_, ?_⟩
  · simp [Loop.read, pushed_replay r hr, Outcome.bind, hl]
  · rw [rl.1, List.length_map]; decide +kernel
  · have e : l.vertices = r'.vertices := by
      rw [rl.1, rr'.1]
      congr 1
      decide +kernel
    simp [Loop.read, Loop.write, e, pushed_replay r' hr', Outcome.bind, hl']
  · rw [rl'.1, List.length_map]; decide +kernel

/-! ### Cases -/

/-- A square meets the hypotheses of `C93_loop_partial`. -/
example : ∃ (a : List Item) (r l : Loop), Loop.new.readPoints a = .ok r ∧ r.closed? = .ok l ∧ l.vertices = r.vertices ∧
    l.vertices.length = 4 := by
  obtain ⟨r, hr, rr⟩ := pushed_real (pts [(0, 0), (4, 0), (4, 4), (0, 4)])
    ⟨pts [(0, 0), (4, 0), (4, 4), (0, 4)], ⟨0, 0, 1⟩, false, -1⟩ (by decide +kernel)
  obtain ⟨l, hl, rl⟩ := closed_real rr (by decide +kernel)
  refine ⟨_, r, l, pushed_replay r hr, hl, ?_, ?_⟩
  · rw [rl.1, rr.1]; congr 1; decide +kernel
  · rw [rl.1, List.length_map]; decide +kernel

private def square : QLoop := ⟨pts [(0, 0), (4, 0), (4, 4), (0, 4)], ⟨0, 0, 1⟩, true, 16⟩
private def hole : QLoop := ⟨pts [(1, 1), (2, 1), (2, 2), (1, 2)], ⟨0, 0, 1⟩, true, 1⟩

private theorem apart_real (a b : V3 ℚ) (h : a.compare b = false) : Polygon.Spec.Apart a.real b.real := by
  have h2 := V3.real_compare a b
  rw [h] at h2
  unfold V3.compare V3.compareBy at h2
  rw [decide_eq_false_iff_not, not_le] at h2
  unfold Polygon.Spec.Apart V3.length
  rw [Real.lt_sqrt (by norm_num)]
  norm_num at h2 ⊢
  exact h2

/-- A square with a square window meets the hypotheses of `C93_polygon_partial`. -/
example : ∃ (p : Polygon) (r l : Loop), p.getClosedLoop = .ok r ∧ p.inner.length = 1 ∧ r.closed? = .ok l ∧
    l.vertices = r.vertices ∧ (r.normal = p.outer.normal ∨ r.normal = -p.outer.normal) ∧ Polygon.Spec.Reachable p ∧
    (p.outer.vertices ++ p.inner.flatMap Loop.vertices).Pairwise Polygon.Spec.Apart ∧
    (∀ l ∈ p.outer :: p.inner, Loop.Spec.Sound l ∧ l.vertices.length < 2 ^ 31 ∧
      (l.normal = p.outer.normal ∨ l.normal = -p.outer.normal)) ∧
    (∀ l ∈ p.inner, l.normal = p.outer.normal → l.vertices.length ∣ 2 ^ 64) ∧ p.area = 15 := by
  obtain ⟨o, ho, ro⟩ := QLoop.build_reachable (pts [(0, 0), (4, 0), (4, 4), (0, 4)]) square (by decide +kernel)
  obtain ⟨a, ha, ra⟩ := QLoop.build_reachable (pts [(1, 1), (2, 1), (2, 2), (1, 2)]) hole (by decide +kernel)
  obtain ⟨p, hp, rp⟩ := QPolygon.new_rep (P := ⟨square, [], 16, ⟨0, 0, 1⟩⟩) ro (by decide +kernel)
  obtain ⟨h1, r1⟩ := QPolygon.cutHole_rep (P' := ⟨square, [hole], 15, ⟨0, 0, 1⟩⟩) rp ra (by decide +kernel)
  have hq : ∃ q, (⟨square, [hole], 15, ⟨0, 0, 1⟩⟩ : QPolygon).getClosedLoop = some q ∧ q.close.1 = .ok () ∧
      q.close.2.vertices = q.vertices ∧ q.normal = ⟨0, 0, 1⟩ := by
    have : ((⟨square, [hole], 15, ⟨0, 0, 1⟩⟩ : QPolygon).getClosedLoop.any fun q =>
        decide (q.close.1 = .ok () ∧ q.close.2.vertices = q.vertices ∧ q.normal = ⟨0, 0, 1⟩)) = true := by decide +kernel
    obtain ⟨q, h1, h2⟩ := (Option.any_eq_true _ _).1 this
    exact ⟨q, h1, of_decide_eq_true h2⟩
  obtain ⟨q, hq, c1, c2, c3⟩ := hq
  obtain ⟨r, h3, rr⟩ := QPolygon.getClosedLoop_rep r1 hq
  obtain ⟨l, hl, rl⟩ := closed_real rr c1
  have e : (p.cutHole a).2 = { p with area := p.area - a.area, inner := p.inner ++ [a] } := ((Polygon.C49_cut p a).2 h1).2.2
  have e0 : p = ⟨o, [], o.area, o.normal⟩ := by
    simp only [Polygon.new, Loop.getArea, ro.2.2.1, show square.closed = true from rfl] at hp
    simpa [Outcome.bind, eq_comm] using hp
  have e1 : (p.cutHole a).2.outer = o := by rw [e, e0]
  have e2 : (p.cutHole a).2.inner = [a] := by rw [e, e0]; rfl
  have hn : a.normal = o.normal := by rw [ra.2.1, ro.2.1]; rfl
  refine ⟨(p.cutHole a).2, r, l, h3, by rw [e2]; rfl, hl, ?_, ?_, .step _ (.cut a) (.new o p hp), ?_, ?_, ?_,
    by rw [r1.2.2.1]; norm_num⟩
  · rw [rl.1, rr.1, c2]
  · left; rw [e1, rr.2.1, ro.2.1, c3]; rfl
  · rw [e1, e2, ro.1]
    simp only [List.flatMap_cons, List.flatMap_nil, ra.1, ← List.map_append, List.append_nil]
    rw [List.pairwise_map]
    have : (square.vertices ++ hole.vertices).Pairwise fun a b => a.compare b = false := by decide +kernel
    exact this.imp fun {a b} h => apart_real a b h
  · rw [e1, e2]
    intro l hl
    simp only [List.mem_cons, List.not_mem_nil, or_false] at hl
    rcases hl with rfl | rfl
    · exact ⟨Loop.C48_history_partial _ ho ro.2.2.1, by rw [ro.1]; simp [square, pts], Or.inl rfl⟩
    · exact ⟨Loop.C48_history_partial _ ha ra.2.2.1, by rw [ra.1]; simp [hole, pts], Or.inl hn⟩
  · rw [e1, e2]
    intro l hl _
    simp only [List.mem_cons, List.not_mem_nil, or_false] at hl
    subst hl
    rw [ra.1]; simp only [List.length_map]; decide +kernel

/-- An empty array meets the hypothesis of `C93_violated_panic`; so does any list of points that is accepted. -/
example : Loop.new.readPoints (coordinates []) = .ok Loop.new := rfl

end Simple.Geometry
