import Verif.Geometry.SplitProps

/-! # C68: the inside of convex loops, and the rule for all loops -/

namespace Simple.Geometry.Loop

/-! ## Specification -/

namespace Spec

/-- A side of a polygon: from a vertex to the next one, and from the last to the first. -/
def Side (vs : List (V3 ℝ)) (a b : V3 ℝ) : Prop :=
  ∃ i : ℕ, vs[i]? = some a ∧ vs[(i + 1) % vs.length]? = some b

/-- Twice the area of a triangle, positive if it turns to the left as seen against the normal. -/
noncomputable def turn (n a b c : V3 ℝ) : ℝ := n.dot ((b - a).cross (c - a))

/-- A convex polygon around a normal: no vertex is repeated, and all are strictly to the left of every side but the two
that are on it. -/
structure Convex (n : V3 ℝ) (vs : List (V3 ℝ)) : Prop where
  unit : n.lengthSquared = 1
  flat : ∀ a ∈ vs, ∀ b ∈ vs, n.dot (a - b) = 0
  nodup : vs.Nodup
  left : ∀ a b, Side vs a b → ∀ w ∈ vs, w = a ∨ w = b ∨ 0 < turn n a b w

/-- The middle of the first side, from which rays are cast. -/
noncomputable def middle (vs : List (V3 ℝ)) : V3 ℝ :=
  match vs with
  | a :: b :: _ => ⟨(a.x + b.x) / 2, (a.y + b.y) / 2, (a.z + b.z) / 2⟩
  | _ => 0

end Spec

open Spec

theorem mem_around (vs : List (V3 ℝ)) (a b : V3 ℝ) : (a, b) ∈ around vs ↔ Side vs a b := by
  constructor
  · intro h
    obtain ⟨i, hi, he⟩ := List.getElem_of_mem h
    exact ⟨i, around_get vs i (a, b) (by rw [List.getElem?_eq_getElem hi, he])⟩
  · rintro ⟨i, h1, h2⟩
    have hi : i < vs.length := (List.getElem?_eq_some_iff.1 h1).1
    have hl : (around vs).length = vs.length := by cases vs <;> simp [around]
    have h3 : (around vs)[i]? = some ((around vs)[i]'(by omega)) := List.getElem?_eq_getElem _
    obtain ⟨e1, e2⟩ := around_get vs i _ h3
    rw [h1] at e1
    rw [h2] at e2
    have : (a, b) = (around vs)[i]'(by omega) := Prod.ext (Option.some.inj e1) (Option.some.inj e2)
    rw [this]
    exact List.getElem_mem _

theorem side_mem {vs : List (V3 ℝ)} {a b : V3 ℝ} (h : Side vs a b) : a ∈ vs ∧ b ∈ vs := by
  obtain ⟨i, h1, h2⟩ := h
  exact ⟨List.mem_of_getElem? h1, List.mem_of_getElem? h2⟩

theorem side_unique {vs : List (V3 ℝ)} (hn : vs.Nodup) {a b b' : V3 ℝ} (h : Side vs a b) (h' : Side vs a b') : b = b' := by
  obtain ⟨i, h1, h2⟩ := h
  obtain ⟨j, h3, h4⟩ := h'
  obtain ⟨hi, e1⟩ := List.getElem?_eq_some_iff.1 h1
  obtain ⟨hj, e2⟩ := List.getElem?_eq_some_iff.1 h3
  have : i = j := (List.Nodup.getElem_inj_iff hn).1 (e1.trans e2.symm)
  subst this
  exact Option.some.inj (h2.symm.trans h4)

theorem around_nodup {vs : List (V3 ℝ)} (hn : vs.Nodup) : (around vs).Nodup := by
  apply List.Nodup.of_map Prod.fst
  cases vs with
  | nil => simp [around]
  | cons a t =>
    simp only [around]
    rw [List.map_fst_zip (by simp)]
    exact hn

/-- Vectors of one plane that are not parallel make every vector of the plane. -/
theorem plane_zero (n x y u : V3 ℝ) (hn : n.lengthSquared = 1) (hx : n.dot x = 0) (hy : n.dot y = 0) (hu : n.dot u = 0)
    (hxy : n.dot (x.cross y) ≠ 0) (h1 : n.dot (x.cross u) = 0) (h2 : n.dot (y.cross u) = 0) : u = 0 := by
  simp only [V3.dot, V3.lengthSquared, V3.cross_x, V3.cross_y, V3.cross_z] at *
  have t : x.x * (y.y * u.z - y.z * u.y) + x.y * (y.z * u.x - y.x * u.z) + x.z * (y.x * u.y - y.y * u.x) = 0 := by
    linear_combination (-(x.x * (y.y * u.z - y.z * u.y) + x.y * (y.z * u.x - y.x * u.z) + x.z * (y.x * u.y - y.y * u.x))) * hn +
      (n.x * (x.y * y.z - x.z * y.y) + n.y * (x.z * y.x - x.x * y.z) + n.z * (x.x * y.y - x.y * y.x)) * hu +
      (n.x * (y.y * u.z - y.z * u.y) + n.y * (y.z * u.x - y.x * u.z) + n.z * (y.x * u.y - y.y * u.x)) * hx -
      (n.x * (x.y * u.z - x.z * u.y) + n.y * (x.z * u.x - x.x * u.z) + n.z * (x.x * u.y - x.y * u.x)) * hy
  ext
  · apply (mul_eq_zero.1 (?_ : (n.x * (x.y * y.z - x.z * y.y) + n.y * (x.z * y.x - x.x * y.z) + n.z * (x.x * y.y - x.y * y.x)) * u.x = 0)).resolve_left hxy
    linear_combination (-x.x) * h2 + y.x * h1 + n.x * t
  · apply (mul_eq_zero.1 (?_ : (n.x * (x.y * y.z - x.z * y.y) + n.y * (x.z * y.x - x.x * y.z) + n.z * (x.x * y.y - x.y * y.x)) * u.y = 0)).resolve_left hxy
    linear_combination (-x.y) * h2 + y.y * h1 + n.y * t
  · apply (mul_eq_zero.1 (?_ : (n.x * (x.y * y.z - x.z * y.y) + n.y * (x.z * y.x - x.x * y.z) + n.z * (x.x * y.y - x.y * y.x)) * u.z = 0)).resolve_left hxy
    linear_combination (-x.z) * h2 + y.z * h1 + n.z * t

/-- Vectors of a plane have a cross product along its normal. -/
theorem cross_along (n x y : V3 ℝ) (hn : n.lengthSquared = 1) (hx : n.dot x = 0) (hy : n.dot y = 0) :
    x.cross y = n.scale (n.dot (x.cross y)) := by
  simp only [V3.dot, V3.lengthSquared] at hn hx hy
  ext <;> simp only [V3.dot, V3.cross_x, V3.cross_y, V3.cross_z, V3.scale_x, V3.scale_y, V3.scale_z]
  · linear_combination (-(x.y * y.z - x.z * y.y)) * hn + (n.y * y.z - n.z * y.y) * hx - (n.y * x.z - n.z * x.y) * hy
  · linear_combination (-(x.z * y.x - x.x * y.z)) * hn + (n.z * y.x - n.x * y.z) * hx - (n.z * x.x - n.x * x.z) * hy
  · linear_combination (-(x.x * y.y - x.y * y.x)) * hn + (n.x * y.y - n.y * y.x) * hx - (n.x * x.y - n.y * x.x) * hy

theorem same_false (w n : V3 ℝ) (h : w.dot n ≤ 0) : w.isSameDirection n = false := by
  unfold V3.isSameDirection
  split_ifs with hp
  · rfl
  · exact decide_eq_false (not_lt.2 h)

theorem not_isZero (w : V3 ℝ) (h : 1 / 100000 ≤ w.lengthSquared) : w.isZero = false := by
  unfold V3.isZero
  rw [decide_eq_false_iff_not]
  rintro ⟨hx, hy, hz⟩
  have sq : ∀ x : ℝ, |x| < V3.tiny → x * x ≤ 1 / 10 ^ 6 := by
    intro x hx
    have ht : (V3.tiny : ℝ) ≤ 1 / 1000 := by norm_num [V3.tiny]
    rw [← abs_mul_abs_self]
    nlinarith [abs_nonneg x]
  have := sq _ hx
  have := sq _ hy
  have := sq _ hz
  unfold V3.lengthSquared at h
  norm_num at *
  linarith

theorem same_true (n : V3 ℝ) (c : ℝ) (hn : n.lengthSquared = 1) (hc : 0 < c) (hl : 1 / 100000 ≤ (n.scale c).lengthSquared) :
    (n.scale c).isSameDirection n = true := by
  have hpar : (n.scale c).isParallel n = true := by
    unfold V3.isParallel
    rw [not_isZero _ hl, not_isZero n (by rw [hn]; norm_num)]
    simp only [Bool.or_self, Bool.false_eq_true, if_false]
    apply decide_eq_true
    have : (n.scale c).dot n * (n.scale c).dot n - (n.scale c).lengthSquared * n.lengthSquared = 0 := by
      simp only [V3.dot, V3.lengthSquared, V3.scale_x, V3.scale_y, V3.scale_z]; ring
    rw [this, abs_zero]
    norm_num
  unfold V3.isSameDirection
  rw [hpar]
  simp only [Bool.not_true, Bool.false_eq_true, if_false]
  apply decide_eq_true
  have : (n.scale c).dot n = c * n.lengthSquared := by
    simp only [V3.dot, V3.lengthSquared, V3.scale_x, V3.scale_y, V3.scale_z]; ring
  rw [this, hn]
  linarith

/-! ## Counting -/

/-- What a side adds to the number of crossings. -/
noncomputable def adds (n p d a b : V3 ℝ) : ℕ :=
  match (⟨a, b⟩ : Segment ℝ).getIntersectionPt ⟨p, p + d⟩ with
  | none => 0
  | some (ta, tb) =>
    if (0 ≤ tb ∧ tb ≤ 1) ∧ (0 ≤ ta ∧ ta ≤ 1) then
      if ta < 1 / 2 ^ 52 then (if (d.cross (b - a)).isSameDirection n then 1 else 0)
      else if ta < 1 then 1
      else (if (d.cross (a - b)).isSameDirection n then 1 else 0)
    else 0

theorem count_all (l : Loop) (p d : V3 ℝ) : ∀ (es : List (V3 ℝ × V3 ℝ)) (k : ℕ),
    (∀ e ∈ es, (⟨e.1, e.2⟩ : Segment ℝ).containsPoint p = .ok false) →
    testPoint.count l p d ⟨p, p + d⟩ k es = .ok (some (k + (es.map fun e => adds l.normal p d e.1 e.2).sum)) := by
  intro es
  induction es with
  | nil => intro k _; simp [testPoint.count]
  | cons e es ih =>
    intro k h
    obtain ⟨a, b⟩ := e
    have hc := h (a, b) (List.mem_cons_self ..)
    have ih' := fun k => ih k fun e he => h e (List.mem_cons_of_mem _ he)
    unfold testPoint.count
    dsimp only at hc ⊢
    rw [hc, List.map_cons, List.sum_cons]
    simp only [Outcome.bind, Bool.false_eq_true, if_false]
    generalize (es.map fun e => adds l.normal p d e.1 e.2).sum = S at ih' ⊢
    unfold adds
    cases hg : (⟨a, b⟩ : Segment ℝ).getIntersectionPt ⟨p, p + d⟩ with
    | none => simp only [Nat.zero_add]; exact ih' k
    | some tt =>
      obtain ⟨ta, tb⟩ := tt
      dsimp only
      by_cases h1 : (0 ≤ tb ∧ tb ≤ 1) ∧ (0 ≤ ta ∧ ta ≤ 1)
      · rw [if_pos h1, if_pos h1]
        by_cases h2 : ta < 1 / 2 ^ 52
        · rw [if_pos h2, if_pos h2, ih']
          split_ifs <;> simp [Nat.add_assoc]
        · rw [if_neg h2, if_neg h2]
          by_cases h3 : ta < 1
          · rw [if_pos h3, if_pos h3, ih']
            simp [Nat.add_assoc]
          · rw [if_neg h3, if_neg h3, ih']
            split_ifs <;> simp [Nat.add_assoc]
      · rw [if_neg h1, if_neg h1, ih', Nat.zero_add]

theorem contains_ok (s : Segment ℝ) (p : V3 ℝ) : s.containsPoint p = .ok true ∨ s.containsPoint p = .ok false := by
  obtain ⟨b, hb⟩ := containsPoint_ok s p
  cases b
  · exact Or.inr hb
  · exact Or.inl hb

theorem count_on (l : Loop) (p d : V3 ℝ) : ∀ (es : List (V3 ℝ × V3 ℝ)) (k : ℕ),
    (∃ e ∈ es, (⟨e.1, e.2⟩ : Segment ℝ).containsPoint p = .ok true) →
    testPoint.count l p d ⟨p, p + d⟩ k es = .ok none := by
  intro es
  induction es with
  | nil => rintro k ⟨e, he, -⟩; cases he
  | cons e es ih =>
    rintro k ⟨e', he', h'⟩
    obtain ⟨a, b⟩ := e
    unfold testPoint.count
    dsimp only
    rcases contains_ok ⟨a, b⟩ p with hc | hc
    · rw [hc]; rfl
    · rw [hc]
      have hmem : e' ∈ es := by
        rcases List.mem_cons.1 he' with rfl | h
        · rw [h'] at hc; simp at hc
        · exact h
      simp only [Outcome.bind, Bool.false_eq_true, if_false]
      split
      · exact ih _ ⟨e', hmem, h'⟩
      · split_ifs <;> exact ih _ ⟨e', hmem, h'⟩

/-- What the test says of a point of the plane of a closed loop. -/
theorem test_eq (l : Loop) (p v0 v1 : V3 ℝ) (t : List (V3 ℝ)) (hc : l.closed = true) (hv : l.vertices = v0 :: v1 :: t)
    (hp : l.isCoplanar p = .ok true) :
    ((∃ a b, Side l.vertices a b ∧ (⟨a, b⟩ : Segment ℝ).containsPoint p = .ok true) → l.testPoint p = .ok true) ∧
    ((∀ a b, Side l.vertices a b → (⟨a, b⟩ : Segment ℝ).containsPoint p = .ok false) →
      l.testPoint p = .ok (decide ((((around l.vertices).map fun e => adds l.normal p ((p - (v0 + v1).scale (1 / 2)).scale 1000) e.1 e.2).sum) % 2 = 1))) := by
  have i0 : Outcome.index l.vertices 0 = .ok v0 := by simp [Outcome.index, hv]
  have i1 : Outcome.index l.vertices 1 = .ok v1 := by simp [Outcome.index, hv]
  constructor
  · rintro ⟨a, b, hab, h⟩
    unfold testPoint
    rw [hc, hp]
    simp only [Bool.not_true, Bool.false_eq_true, if_false, Outcome.bind]
    rw [i0, i1]
    dsimp only
    rw [count_on l p _ _ _ ⟨(a, b), (mem_around _ _ _).2 hab, h⟩]
  · intro h
    unfold testPoint
    rw [hc, hp]
    simp only [Bool.not_true, Bool.false_eq_true, if_false, Outcome.bind]
    rw [i0, i1]
    dsimp only
    rw [count_all l p _ _ _ fun e he => h e.1 e.2 ((mem_around _ _ _).1 he)]
    dsimp only
    rw [Nat.zero_add]
    congr 1
    rw [decide_eq_decide]
    omega

/-! ## Convex loops -/

section Convex

variable (n p d a b : V3 ℝ) (hn : n.lengthSquared = 1) (hd : n.dot d = 0) (hab : n.dot (b - a) = 0) (hap : n.dot (a - p) = 0)

include hn hd hab hap

/-- Where a side meets the ray. -/
theorem meets (ta tb : ℝ) (h : (⟨a, b⟩ : Segment ℝ).getIntersectionPt ⟨p, p + d⟩ = some (ta, tb)) :
    a + (b - a).scale ta = p + d.scale tb := by
  have hcop : Segment.Spec.Coplanar (⟨a, b⟩ : Segment ℝ) ⟨p, p + d⟩ := by
    unfold Segment.Spec.Coplanar Segment.Spec.normal
    dsimp only
    have e : p + d - p = d := by ext <;> simp
    rw [e, cross_along n (b - a) d hn hab hd]
    have : (a - p).dot (n.scale (n.dot ((b - a).cross d))) = n.dot (a - p) * n.dot ((b - a).cross d) := by
      simp only [V3.dot, V3.scale_x, V3.scale_y, V3.scale_z]; ring
    rw [this, hap, zero_mul]
  have h1 := (Segment.C46_point_partial _ _ ta tb h).1 hcop
  unfold Segment.Spec.pointAt at h1
  dsimp only at h1
  rw [h1]
  ext <;> simp

/-- The place on the ray, and on the side, from where its ends are. -/
theorem meets_params (ta tb : ℝ) (h : a + (b - a).scale ta = p + d.scale tb) :
    tb * (n.dot (d.cross (b - p)) - n.dot (d.cross (a - p))) = turn n a b p ∧
    n.dot (d.cross (a - p)) + ta * (n.dot (d.cross (b - p)) - n.dot (d.cross (a - p))) = 0 := by
  have hx := congrArg V3.x h
  have hy := congrArg V3.y h
  have hz := congrArg V3.z h
  simp only [V3.add_x, V3.add_y, V3.add_z, V3.scale_x, V3.scale_y, V3.scale_z, V3.sub_x, V3.sub_y, V3.sub_z] at hx hy hz
  simp only [turn, V3.dot, V3.cross_x, V3.cross_y, V3.cross_z, V3.sub_x, V3.sub_y, V3.sub_z]
  constructor
  · linear_combination (n.y * (b.z - a.z) - n.z * (b.y - a.y)) * hx + (n.z * (b.x - a.x) - n.x * (b.z - a.z)) * hy +
      (n.x * (b.y - a.y) - n.y * (b.x - a.x)) * hz
  · linear_combination (n.y * d.z - n.z * d.y) * hx + (n.z * d.x - n.x * d.z) * hy + (n.x * d.y - n.y * d.x) * hz

/-- A side that does not come up over the line of the ray is not counted, for points to its left. -/
theorem adds_zero (hl : 0 < turn n a b p) (hu : ¬ (n.dot (d.cross (a - p)) ≤ 0 ∧ 0 < n.dot (d.cross (b - p)))) : adds n p d a b = 0 := by
  unfold adds
  cases hg : (⟨a, b⟩ : Segment ℝ).getIntersectionPt ⟨p, p + d⟩ with
  | none => rfl
  | some tt =>
    obtain ⟨ta, tb⟩ := tt
    dsimp only
    by_cases h1 : (0 ≤ tb ∧ tb ≤ 1) ∧ (0 ≤ ta ∧ ta ≤ 1)
    · rw [if_pos h1]
      obtain ⟨e1, e2⟩ := meets_params n p d a b hn hd hab hap ta tb (meets n p d a b hn hd hab hap ta tb hg)
      obtain ⟨⟨htb, -⟩, hta, hta1⟩ := h1
      have hΔ : 0 < n.dot (d.cross (b - p)) - n.dot (d.cross (a - p)) := by
        by_contra hc
        nlinarith
      have hfa : n.dot (d.cross (a - p)) ≤ 0 := by nlinarith
      have hfb : n.dot (d.cross (b - p)) ≤ 0 := by
        by_contra hc
        exact hu ⟨hfa, not_le.1 hc⟩
      have h1a : ta = 1 := by
        by_contra hne
        have : ta < 1 := lt_of_le_of_ne hta1 hne
        nlinarith
      subst h1a
      rw [if_neg (by norm_num), if_neg (lt_irrefl _), same_false]
      · rfl
      · have : (d.cross (a - b)).dot n = -(n.dot (d.cross (b - p)) - n.dot (d.cross (a - p))) := by
          simp only [V3.dot, V3.cross_x, V3.cross_y, V3.cross_z, V3.sub_x, V3.sub_y, V3.sub_z]; ring
        rw [this]
        linarith
    · rw [if_neg h1]

/-- A side that comes up over the line of the ray meets it ahead of the points to its left. -/
theorem up_meets (hl : 0 < turn n a b p) (hu : n.dot (d.cross (a - p)) ≤ 0 ∧ 0 < n.dot (d.cross (b - p))) :
    ∃ ta tb : ℝ, a + (b - a).scale ta = p + d.scale tb ∧ 0 ≤ ta ∧ ta < 1 ∧ 0 < tb := by
  have hΔ : 0 < n.dot (d.cross (b - p)) - n.dot (d.cross (a - p)) := by linarith [hu.1, hu.2]
  refine ⟨-n.dot (d.cross (a - p)) / (n.dot (d.cross (b - p)) - n.dot (d.cross (a - p))),
    turn n a b p / (n.dot (d.cross (b - p)) - n.dot (d.cross (a - p))), ?_, ?_, ?_, ?_⟩
  · generalize hta : -n.dot (d.cross (a - p)) / (n.dot (d.cross (b - p)) - n.dot (d.cross (a - p))) = ta
    generalize htb : turn n a b p / (n.dot (d.cross (b - p)) - n.dot (d.cross (a - p))) = tb
    rw [div_eq_iff hΔ.ne'] at hta htb
    have h0 : a + (b - a).scale ta - (p + d.scale tb) = 0 := by
      apply plane_zero n d (b - a) _ hn hd hab
      · simp only [V3.dot, V3.add_x, V3.add_y, V3.add_z, V3.scale_x, V3.scale_y, V3.scale_z, V3.sub_x, V3.sub_y, V3.sub_z] at *
        linear_combination hap + ta * hab - tb * hd
      · have : n.dot (d.cross (b - a)) = n.dot (d.cross (b - p)) - n.dot (d.cross (a - p)) := by
          simp only [V3.dot, V3.cross_x, V3.cross_y, V3.cross_z, V3.sub_x, V3.sub_y, V3.sub_z]; ring
        rw [this]
        exact hΔ.ne'
      · simp only [V3.dot, V3.cross_x, V3.cross_y, V3.cross_z, V3.add_x, V3.add_y, V3.add_z, V3.scale_x, V3.scale_y, V3.scale_z, V3.sub_x, V3.sub_y,
          V3.sub_z] at hta ⊢
        linear_combination -hta
      · simp only [turn, V3.dot, V3.cross_x, V3.cross_y, V3.cross_z, V3.add_x, V3.add_y, V3.add_z, V3.scale_x, V3.scale_y, V3.scale_z, V3.sub_x, V3.sub_y,
          V3.sub_z] at htb ⊢
        linear_combination -htb
    have hx := congrArg V3.x h0
    have hy := congrArg V3.y h0
    have hz := congrArg V3.z h0
    simp only [V3.sub_x, V3.sub_y, V3.sub_z, V3.zero_x, V3.zero_y, V3.zero_z] at hx hy hz
    ext
    · linarith
    · linarith
    · linarith
  · exact div_nonneg (by linarith [hu.1]) hΔ.le
  · rw [div_lt_one hΔ]; linarith [hu.2]
  · exact div_pos hl hΔ

/-- Such a side is counted once, if the ray is long enough and not along it. -/
theorem adds_one (hl : 0 < turn n a b p) (hu : n.dot (d.cross (a - p)) ≤ 0 ∧ 0 < n.dot (d.cross (b - p)))
    (hda : (a - p).lengthSquared ≤ d.lengthSquared) (hdb : (b - p).lengthSquared ≤ d.lengthSquared)
    (hang : 1 / 100000 ≤ (d.cross (b - a)).lengthSquared) : adds n p d a b = 1 := by
  obtain ⟨ta, tb, hq, h0, h1, h2⟩ := up_meets n p d a b hn hd hab hap hl hu
  have hg : (⟨a, b⟩ : Segment ℝ).getIntersectionPt ⟨p, p + d⟩ = some (ta, tb) := by
    apply Segment.C46_complete
    · unfold Segment.Spec.pointAt
      dsimp only
      rw [hq]
      ext <;> simp
    · unfold Segment.Spec.normal
      dsimp only
      have e : ((b - a).cross (p + d - p)).lengthSquared = (d.cross (b - a)).lengthSquared := by
        simp only [V3.lengthSquared, V3.cross_x, V3.cross_y, V3.cross_z, V3.sub_x, V3.sub_y, V3.sub_z, V3.add_x, V3.add_y, V3.add_z]; ring
      rw [e]
      exact hang
  have hdpos : 0 < d.lengthSquared := by
    by_contra hc
    have hz : d.lengthSquared = 0 := le_antisymm (not_lt.1 hc) (by unfold V3.lengthSquared; nlinarith [mul_self_nonneg d.x, mul_self_nonneg d.y, mul_self_nonneg d.z])
    have hx : d = 0 := by
      unfold V3.lengthSquared at hz
      ext
      · simp only [V3.zero_x]; nlinarith [mul_self_nonneg d.x, mul_self_nonneg d.y, mul_self_nonneg d.z]
      · simp only [V3.zero_y]; nlinarith [mul_self_nonneg d.x, mul_self_nonneg d.y, mul_self_nonneg d.z]
      · simp only [V3.zero_z]; nlinarith [mul_self_nonneg d.x, mul_self_nonneg d.y, mul_self_nonneg d.z]
    have := hu.2
    rw [hx] at this
    simp [V3.dot] at this
  have htb : tb ≤ 1 := by
    have e : (a - p).scale (1 - ta) + (b - p).scale ta = d.scale tb := by
      have hx := congrArg V3.x hq
      have hy := congrArg V3.y hq
      have hz := congrArg V3.z hq
      simp only [V3.add_x, V3.add_y, V3.add_z, V3.scale_x, V3.scale_y, V3.scale_z, V3.sub_x, V3.sub_y, V3.sub_z] at hx hy hz
      ext
      · simp; linear_combination hx
      · simp; linear_combination hy
      · simp; linear_combination hz
    have hle : ((a - p).scale (1 - ta) + (b - p).scale ta).lengthSquared ≤ d.lengthSquared := by
      have hconv : ((a - p).scale (1 - ta) + (b - p).scale ta).lengthSquared =
          (1 - ta) * (a - p).lengthSquared + ta * (b - p).lengthSquared - ta * (1 - ta) * ((a - p) - (b - p)).lengthSquared := by
        simp only [V3.lengthSquared, V3.add_x, V3.add_y, V3.add_z, V3.scale_x, V3.scale_y, V3.scale_z, V3.sub_x, V3.sub_y, V3.sub_z]; ring
      rw [hconv]
      have h3 : 0 ≤ ta * (1 - ta) * ((a - p) - (b - p)).lengthSquared :=
        mul_nonneg (mul_nonneg h0 (by linarith)) (by unfold V3.lengthSquared; nlinarith [mul_self_nonneg ((a - p) - (b - p)).x, mul_self_nonneg ((a - p) - (b - p)).y, mul_self_nonneg ((a - p) - (b - p)).z])
      nlinarith
    rw [e] at hle
    have e2 : (d.scale tb).lengthSquared = tb * tb * d.lengthSquared := by
      simp only [V3.lengthSquared, V3.scale_x, V3.scale_y, V3.scale_z]; ring
    rw [e2] at hle
    by_contra hc
    have h4 : 1 < tb := not_le.1 hc
    have h5 : 1 < tb * tb := by nlinarith
    nlinarith
  unfold adds
  rw [hg]
  dsimp only
  rw [if_pos ⟨⟨h2.le, htb⟩, h0, h1.le⟩]
  by_cases h3 : ta < 1 / 2 ^ 52
  · rw [if_pos h3]
    have e := cross_along n d (b - a) hn hd hab
    rw [e, if_pos]
    apply same_true n _ hn
    · have : n.dot (d.cross (b - a)) = n.dot (d.cross (b - p)) - n.dot (d.cross (a - p)) := by
        simp only [V3.dot, V3.cross_x, V3.cross_y, V3.cross_z, V3.sub_x, V3.sub_y, V3.sub_z]; ring
      rw [this]
      linarith [hu.1, hu.2]
    · rw [← e]; exact hang
  · rw [if_neg h3, if_pos h1]

end Convex

/-- Between a vertex that is not to the left of the ray and one that is, a side comes up. -/
theorem comes_up (f : V3 ℝ → ℝ) : ∀ (t : List (V3 ℝ)) (x y : V3 ℝ), f x ≤ 0 → 0 < f y →
    ∃ e ∈ (x :: t).zip (t ++ [y]), f e.1 ≤ 0 ∧ 0 < f e.2 := by
  intro t
  induction t with
  | nil => intro x y hx hy; exact ⟨(x, y), by simp, hx, hy⟩
  | cons z t ih =>
    intro x y hx hy
    by_cases hz : 0 < f z
    · exact ⟨(x, z), by simp, hx, hz⟩
    · obtain ⟨e, he, h⟩ := ih z y (not_lt.1 hz) hy
      exact ⟨e, by simpa using Or.inr he, h⟩

theorem sum_one {α : Type*} (g : α → ℕ) : ∀ (l : List α) (e : α), l.Nodup → e ∈ l → g e = 1 → (∀ x ∈ l, x ≠ e → g x = 0) → (l.map g).sum = 1 := by
  intro l
  induction l with
  | nil => intro e _ he; cases he
  | cons a l ih =>
    intro e hn he h1 h0
    rw [List.nodup_cons] at hn
    rw [List.map_cons, List.sum_cons]
    rcases List.mem_cons.1 he with rfl | he
    · have : (l.map g).sum = 0 := by
        rw [List.sum_eq_zero]
        intro x hx
        obtain ⟨y, hy, rfl⟩ := List.mem_map.1 hx
        exact h0 y (List.mem_cons_of_mem _ hy) (by rintro rfl; exact hn.1 hy)
      rw [h1, this]
    · rw [ih e hn.2 he h1 fun x hx => h0 x (List.mem_cons_of_mem _ hx), h0 a (List.mem_cons_self ..) (by rintro rfl; exact hn.1 he)]

theorem turn_nonneg {n : V3 ℝ} {vs : List (V3 ℝ)} (h : Convex n vs) {a b : V3 ℝ} (hs : Side vs a b) (w : V3 ℝ) (hw : w ∈ vs) : 0 ≤ turn n a b w := by
  rcases h.left a b hs w hw with rfl | rfl | h
  · simp [turn, V3.dot]
  · have : turn n a w w = 0 := by
      simp only [turn, V3.dot, V3.cross_x, V3.cross_y, V3.cross_z, V3.sub_x, V3.sub_y, V3.sub_z]; ring
    rw [this]
  · exact h.le

/-- Two sides that come up ahead of a point are one. -/
theorem up_unique {n p d : V3 ℝ} {vs : List (V3 ℝ)} (h : Convex n vs) {a b a' b' : V3 ℝ} (hs : Side vs a b) (hs' : Side vs a' b')
    (hu : n.dot (d.cross (a - p)) ≤ 0 ∧ 0 < n.dot (d.cross (b - p))) (hu' : n.dot (d.cross (a' - p)) ≤ 0 ∧ 0 < n.dot (d.cross (b' - p)))
    (ta tb ta' tb' : ℝ) (e : a + (b - a).scale ta = p + d.scale tb) (e' : a' + (b' - a').scale ta' = p + d.scale tb')
    (h0' : 0 ≤ ta') (h1' : ta' < 1) (hle : tb ≤ tb') (hd : n.dot d = 0) (hap : n.dot (a - p) = 0) : a' = a := by
  have hab : n.dot (b - a) = 0 := h.flat b (side_mem hs).2 a (side_mem hs).1
  obtain ⟨k1, -⟩ := meets_params n p d a b h.unit hd hab hap ta tb e
  have e1 : turn n a b (p + d.scale tb') = turn n a b p - tb' * (n.dot (d.cross (b - p)) - n.dot (d.cross (a - p))) := by
    simp only [turn, V3.dot, V3.cross_x, V3.cross_y, V3.cross_z, V3.sub_x, V3.sub_y, V3.sub_z, V3.add_x, V3.add_y, V3.add_z, V3.scale_x, V3.scale_y, V3.scale_z]; ring
  have e2 : turn n a b (a' + (b' - a').scale ta') = (1 - ta') * turn n a b a' + ta' * turn n a b b' := by
    simp only [turn, V3.dot, V3.cross_x, V3.cross_y, V3.cross_z, V3.sub_x, V3.sub_y, V3.sub_z, V3.add_x, V3.add_y, V3.add_z, V3.scale_x, V3.scale_y, V3.scale_z]; ring
  rw [e', e1, ← k1] at e2
  have p1 := turn_nonneg h hs a' (side_mem hs').1
  have p2 := turn_nonneg h hs b' (side_mem hs').2
  have hΔ : 0 < n.dot (d.cross (b - p)) - n.dot (d.cross (a - p)) := by linarith [hu.1, hu.2]
  have hz : turn n a b a' = 0 := by
    have q1 : 0 ≤ ta' * turn n a b b' := mul_nonneg h0' p2
    have q2 : 0 ≤ (tb' - tb) * (n.dot (d.cross (b - p)) - n.dot (d.cross (a - p))) := mul_nonneg (by linarith) hΔ.le
    have q3 : (1 - ta') * turn n a b a' ≤ 0 := by linarith
    by_contra hne
    have : 0 < turn n a b a' := lt_of_le_of_ne p1 (Ne.symm hne)
    nlinarith [mul_pos (show 0 < 1 - ta' by linarith) this]
  rcases h.left a b hs a' (side_mem hs').1 with h1 | h1 | h1
  · exact h1
  · rw [h1] at hu'
    exact absurd hu'.1 (not_le.2 hu.2)
  · linarith

theorem coplanar_ok {l : Loop} {p : V3 ℝ} (hn : l.normal.lengthSquared = 1) (hne : l.vertices ≠ []) (hp : ∀ w ∈ l.vertices, l.normal.dot (w - p) = 0) :
    l.isCoplanar p = .ok true := by
  unfold isCoplanar
  cases hv : l.vertices with
  | nil => exact absurd hv hne
  | cons a t =>
    dsimp only
    rw [not_isZero _ (by rw [hn]; norm_num), hp a (by rw [hv]; simp)]
    norm_num

/-- C68, in part: a point within a convex loop, in its plane and to the left of all of its sides, is inside.  Missing: points so
near the middle of the first side that the ray, which is a thousand times as long as the distance to it, does not reach the other
sides (`C68_violated_near`); rays that meet a side at so small an angle that it is taken to be parallel; and loops that are not
convex. -/
theorem C68_inside_partial (l : Loop) (p : V3 ℝ) (hc : l.closed = true) (h3 : 3 ≤ l.vertices.length) (h : Spec.Convex l.normal l.vertices)
    (hp : ∀ w ∈ l.vertices, l.normal.dot (w - p) = 0)
    (hin : ∀ a b, Spec.Side l.vertices a b → 0 < Spec.turn l.normal a b p)
    (hfar : ∀ w ∈ l.vertices, w.distance p ≤ 1000 * p.distance (Spec.middle l.vertices))
    (hang : ∀ a b t s, Spec.Side l.vertices a b → 0 ≤ t → t ≤ 1 → 0 < s →
      Segment.Spec.pointAt ⟨a, b⟩ t = p + ((p - Spec.middle l.vertices).scale 1000).scale s →
      1 / 100000 ≤ (((p - Spec.middle l.vertices).scale 1000).cross (b - a)).lengthSquared) :
    l.testPoint p = .ok true := by
  obtain ⟨v0, v1, t, hv⟩ : ∃ v0 v1 t, l.vertices = v0 :: v1 :: t := by
    match hv : l.vertices, h3 with
    | v0 :: v1 :: t, _ => exact ⟨v0, v1, t, rfl⟩
  have hcop := coplanar_ok h.unit (by rw [hv]; simp) hp
  obtain ⟨hon, hoff⟩ := test_eq l p v0 v1 t hc hv hcop
  by_cases hside : ∃ a b, Side l.vertices a b ∧ (⟨a, b⟩ : Segment ℝ).containsPoint p = .ok true
  · exact hon hside
  have hno : ∀ a b, Side l.vertices a b → (⟨a, b⟩ : Segment ℝ).containsPoint p = .ok false := by
    intro a b hab
    rcases contains_ok ⟨a, b⟩ p with h' | h'
    · exact absurd ⟨a, b, hab, h'⟩ hside
    · exact h'
  rw [hoff hno]
  have hmid : Spec.middle l.vertices = (v0 + v1).scale (1 / 2) := by
    rw [hv]
    unfold Spec.middle
    ext <;> simp <;> ring
  rw [hmid] at hfar hang
  have hm0 : v0 ∈ l.vertices := by rw [hv]; simp
  have hm1 : v1 ∈ l.vertices := by rw [hv]; simp
  generalize hd : (p - (v0 + v1).scale (1 / 2)).scale 1000 = d at *
  have hs0 : Side l.vertices v0 v1 := ⟨0, by rw [hv]; rfl, by
    rw [hv, Nat.mod_eq_of_lt (by simp)]; rfl⟩
  have hdn : l.normal.dot d = 0 := by
    have q0 := hp v0 hm0
    have q1 := hp v1 hm1
    rw [← hd]
    simp only [V3.dot, V3.sub_x, V3.sub_y, V3.sub_z, V3.scale_x, V3.scale_y, V3.scale_z, V3.add_x, V3.add_y, V3.add_z] at q0 q1 ⊢
    linear_combination (-500) * q0 - 500 * q1
  have hf0 : l.normal.dot (d.cross (v0 - p)) = 500 * turn l.normal v0 v1 p := by
    rw [← hd]
    simp only [turn, V3.dot, V3.cross_x, V3.cross_y, V3.cross_z, V3.sub_x, V3.sub_y, V3.sub_z, V3.scale_x, V3.scale_y, V3.scale_z, V3.add_x, V3.add_y, V3.add_z]; ring
  have hf1 : l.normal.dot (d.cross (v1 - p)) = -(500 * turn l.normal v0 v1 p) := by
    rw [← hd]
    simp only [turn, V3.dot, V3.cross_x, V3.cross_y, V3.cross_z, V3.sub_x, V3.sub_y, V3.sub_z, V3.scale_x, V3.scale_y, V3.scale_z, V3.add_x, V3.add_y, V3.add_z]; ring
  have hpos := hin v0 v1 hs0
  obtain ⟨⟨a, b⟩, he, hu⟩ := comes_up (fun w => l.normal.dot (d.cross (w - p))) t v1 v0 (by rw [hf1]; linarith) (by rw [hf0]; linarith)
  have hmem : (a, b) ∈ around l.vertices := by
    rw [hv]
    simp only [around, List.cons_append, List.zip_cons_cons]
    exact List.mem_cons_of_mem _ he
  dsimp only at hu
  have hs := (mem_around _ _ _).1 hmem
  have hdist : ∀ w ∈ l.vertices, (w - p).lengthSquared ≤ d.lengthSquared := by
    intro w hw
    have h1 := hfar w hw
    unfold V3.distance at h1
    have h2 := mul_self_le_mul_self (Real.sqrt_nonneg _) h1
    have nn : ∀ x y : V3 ℝ, 0 ≤ x.squaredDistance y := by
      intro x y
      unfold V3.squaredDistance
      nlinarith [mul_self_nonneg (x.x - y.x), mul_self_nonneg (x.y - y.y), mul_self_nonneg (x.z - y.z)]
    rw [Real.mul_self_sqrt (nn _ _), mul_mul_mul_comm, Real.mul_self_sqrt (nn _ _)] at h2
    rw [← hd]
    simp only [V3.squaredDistance, V3.lengthSquared, V3.sub_x, V3.sub_y, V3.sub_z, V3.scale_x, V3.scale_y, V3.scale_z] at h2 ⊢
    linarith
  have hflat : ∀ x y, Side l.vertices x y → l.normal.dot (y - x) = 0 := fun x y hxy => h.flat y (side_mem hxy).2 x (side_mem hxy).1
  obtain ⟨ta, tb, eq, t0, t1, tp⟩ := up_meets l.normal p d a b h.unit hdn (hflat _ _ hs) (hp a (side_mem hs).1) (hin _ _ hs) hu
  have hsum := sum_one (fun e : V3 ℝ × V3 ℝ => adds l.normal p d e.1 e.2) (around l.vertices) (a, b) (around_nodup h.nodup) hmem
    (adds_one l.normal p d a b h.unit hdn (hflat _ _ hs) (hp a (side_mem hs).1) (hin _ _ hs) hu (hdist a (side_mem hs).1) (hdist b (side_mem hs).2)
      (hang a b ta tb hs t0 t1.le tp eq))
    (by
      rintro ⟨a', b'⟩ he' hne
      have hs' := (mem_around _ _ _).1 he'
      by_cases hu' : l.normal.dot (d.cross (a' - p)) ≤ 0 ∧ 0 < l.normal.dot (d.cross (b' - p))
      · exfalso
        apply hne
        obtain ⟨ta', tb', eq', t0', t1', tp'⟩ := up_meets l.normal p d a' b' h.unit hdn (hflat _ _ hs') (hp a' (side_mem hs').1) (hin _ _ hs') hu'
        have haa : a' = a := by
          rcases le_total tb tb' with hle | hle
          · exact up_unique h hs hs' hu hu' ta tb ta' tb' eq eq' t0' t1' hle hdn (hp a (side_mem hs).1)
          · exact (up_unique h hs' hs hu' hu ta' tb' ta tb eq' eq t0 t1 hle hdn (hp a' (side_mem hs').1)).symm
        subst haa
        rw [side_unique h.nodup hs' hs]
      · exact adds_zero l.normal p d a' b' h.unit hdn (hflat _ _ hs') (hp a' (side_mem hs').1) (hin _ _ hs') hu')
  rw [hsum]
  rfl

/-- C68, in part: a point of the plane of a convex loop that is to the right of one of its sides, and on none of them, is outside.
Missing: loops that are not convex, for which see `C68_even_odd_partial`. -/
theorem C68_outside_partial (l : Loop) (p : V3 ℝ) (hc : l.closed = true) (h3 : 3 ≤ l.vertices.length) (h : Spec.Convex l.normal l.vertices)
    (hp : ∀ w ∈ l.vertices, l.normal.dot (w - p) = 0)
    (hout : ∃ a b, Spec.Side l.vertices a b ∧ Spec.turn l.normal a b p < 0)
    (hno : ∀ a b, Spec.Side l.vertices a b → (⟨a, b⟩ : Segment ℝ).containsPoint p = .ok false) :
    l.testPoint p = .ok false := by
  obtain ⟨v0, v1, t, hv⟩ : ∃ v0 v1 t, l.vertices = v0 :: v1 :: t := by
    match hv : l.vertices, h3 with
    | v0 :: v1 :: t, _ => exact ⟨v0, v1, t, rfl⟩
  have hcop := coplanar_ok h.unit (by rw [hv]; simp) hp
  rw [(test_eq l p v0 v1 t hc hv hcop).2 hno]
  have hm0 : v0 ∈ l.vertices := by rw [hv]; simp
  have hm1 : v1 ∈ l.vertices := by rw [hv]; simp
  obtain ⟨a, b, hs, hlt⟩ := hout
  have hdn : l.normal.dot ((p - (v0 + v1).scale (1 / 2)).scale 1000) = 0 := by
    have q0 := hp v0 hm0
    have q1 := hp v1 hm1
    simp only [V3.dot, V3.sub_x, V3.sub_y, V3.sub_z, V3.scale_x, V3.scale_y, V3.scale_z, V3.add_x, V3.add_y, V3.add_z] at q0 q1 ⊢
    linear_combination (-500) * q0 - 500 * q1
  have hzero : ((around l.vertices).map fun e => adds l.normal p ((p - (v0 + v1).scale (1 / 2)).scale 1000) e.1 e.2).sum = 0 := by
    rw [List.sum_eq_zero]
    intro x hx
    obtain ⟨⟨a', b'⟩, he', rfl⟩ := List.mem_map.1 hx
    have hs' := (mem_around _ _ _).1 he'
    dsimp only
    unfold adds
    cases hg : (⟨a', b'⟩ : Segment ℝ).getIntersectionPt ⟨p, p + (p - (v0 + v1).scale (1 / 2)).scale 1000⟩ with
    | none => rfl
    | some tt =>
      obtain ⟨ta, tb⟩ := tt
      dsimp only
      rw [if_neg]
      rintro ⟨⟨s0, -⟩, r0, r1⟩
      have eq := meets l.normal p _ a' b' h.unit hdn (h.flat b' (side_mem hs').2 a' (side_mem hs').1) (hp a' (side_mem hs').1) ta tb hg
      have e1 : turn l.normal a b (a' + (b' - a').scale ta) = (1 - ta) * turn l.normal a b a' + ta * turn l.normal a b b' := by
        simp only [turn, V3.dot, V3.cross_x, V3.cross_y, V3.cross_z, V3.sub_x, V3.sub_y, V3.sub_z, V3.add_x, V3.add_y, V3.add_z, V3.scale_x, V3.scale_y, V3.scale_z]; ring
      have e2 : turn l.normal a b (p + ((p - (v0 + v1).scale (1 / 2)).scale 1000).scale tb) =
          (1 + 1000 * tb) * turn l.normal a b p - 500 * tb * (turn l.normal a b v0 + turn l.normal a b v1) := by
        simp only [turn, V3.dot, V3.cross_x, V3.cross_y, V3.cross_z, V3.sub_x, V3.sub_y, V3.sub_z, V3.add_x, V3.add_y, V3.add_z, V3.scale_x, V3.scale_y, V3.scale_z]; ring
      rw [← eq, e1] at e2
      have p1 := turn_nonneg h hs a' (side_mem hs').1
      have p2 := turn_nonneg h hs b' (side_mem hs').2
      have p3 := turn_nonneg h hs v0 hm0
      have p4 := turn_nonneg h hs v1 hm1
      have q1 : 0 ≤ (1 - ta) * turn l.normal a b a' := mul_nonneg (by linarith) p1
      have q2 : 0 ≤ ta * turn l.normal a b b' := mul_nonneg r0 p2
      have q3 : 0 ≤ 500 * tb * (turn l.normal a b v0 + turn l.normal a b v1) := mul_nonneg (by linarith) (by linarith)
      have q4 : (1 + 1000 * tb) * turn l.normal a b p < 0 := mul_neg_of_pos_of_neg (by linarith) hlt
      linarith
  rw [hzero]
  rfl

/-! ## All loops -/

/-- The ray from a point meets a side. -/
def Spec.Met (p d a b : V3 ℝ) : Prop :=
  ∃ t s : ℝ, 0 ≤ t ∧ t ≤ 1 ∧ 0 ≤ s ∧ s ≤ 1 ∧ Segment.Spec.pointAt ⟨a, b⟩ t = p + d.scale s

theorem sum_count {α : Type*} (g : α → ℕ) (q : α → Bool) : ∀ l : List α, (∀ x ∈ l, g x = if q x then 1 else 0) → (l.map g).sum = l.countP q := by
  intro l
  induction l with
  | nil => intro _; rfl
  | cons a l ih =>
    intro h
    rw [List.map_cons, List.sum_cons, ih fun x hx => h x (List.mem_cons_of_mem _ hx), h a (List.mem_cons_self ..), List.countP_cons]
    omega

open Classical in
/-- C68, in part: whatever the loop, also one that is not convex, a point of its plane which is on no side is inside exactly if the ray from the
middle of the first side through it, of a thousand times their distance, meets an odd number of sides from there on; this is for rays
that do not pass by a vertex, nor meet a side at so small an angle that it is taken to be
parallel.  Missing: those rays.  That this is the parity along all other rays is
`C68_parity_partial`; it fails where the ray is too short to leave the loop (`C68_violated_near`). -/
theorem C68_even_odd_partial (l : Loop) (p : V3 ℝ) (hc : l.closed = true) (h2 : 2 ≤ l.vertices.length) (hn : l.normal.lengthSquared = 1)
    (hp : ∀ w ∈ l.vertices, l.normal.dot (w - p) = 0)
    (hno : ∀ a b, Spec.Side l.vertices a b → (⟨a, b⟩ : Segment ℝ).containsPoint p = .ok false)
    (hgen : ∀ a b t s, Spec.Side l.vertices a b → 0 ≤ t → t ≤ 1 → 0 ≤ s → s ≤ 1 →
      Segment.Spec.pointAt ⟨a, b⟩ t = p + ((p - Spec.middle l.vertices).scale 1000).scale s →
      1 / 2 ^ 52 ≤ t ∧ t < 1 ∧ 1 / 100000 ≤ (((p - Spec.middle l.vertices).scale 1000).cross (b - a)).lengthSquared) :
    l.testPoint p = .ok (decide (Odd ((l.vertices.zip (l.vertices.rotate 1)).countP fun e =>
      decide (Spec.Met p ((p - Spec.middle l.vertices).scale 1000) e.1 e.2)))) := by
  obtain ⟨v0, v1, t, hv⟩ : ∃ v0 v1 t, l.vertices = v0 :: v1 :: t := by
    match hv : l.vertices, h2 with
    | v0 :: v1 :: t, _ => exact ⟨v0, v1, t, rfl⟩
  have hcop := coplanar_ok hn (by rw [hv]; simp) hp
  rw [(test_eq l p v0 v1 t hc hv hcop).2 hno]
  have hmid : Spec.middle l.vertices = (v0 + v1).scale (1 / 2) := by
    rw [hv]
    unfold Spec.middle
    ext <;> simp <;> ring
  rw [hmid] at hgen ⊢
  have hm0 : v0 ∈ l.vertices := by rw [hv]; simp
  have hm1 : v1 ∈ l.vertices := by rw [hv]; simp
  have hdn : l.normal.dot ((p - (v0 + v1).scale (1 / 2)).scale 1000) = 0 := by
    have q0 := hp v0 hm0
    have q1 := hp v1 hm1
    simp only [V3.dot, V3.sub_x, V3.sub_y, V3.sub_z, V3.scale_x, V3.scale_y, V3.scale_z, V3.add_x, V3.add_y, V3.add_z] at q0 q1 ⊢
    linear_combination (-500) * q0 - 500 * q1
  generalize (p - (v0 + v1).scale (1 / 2)).scale 1000 = d at *
  have hz : l.vertices.zip (l.vertices.rotate 1) = around l.vertices := by
    rw [hv]
    simp [around, List.rotate_cons_succ]
  rw [hz, sum_count _ (fun e : V3 ℝ × V3 ℝ => decide (Spec.Met p d e.1 e.2))]
  · congr 1
    rw [decide_eq_decide, Nat.odd_iff]
  · rintro ⟨a, b⟩ he
    have hs := (mem_around _ _ _).1 he
    have hab : l.normal.dot (b - a) = 0 := by
      have q0 := hp a (side_mem hs).1
      have q1 := hp b (side_mem hs).2
      simp only [V3.dot, V3.sub_x, V3.sub_y, V3.sub_z] at q0 q1 ⊢
      linear_combination q1 - q0
    dsimp only
    by_cases hm : Spec.Met p d a b
    · rw [if_pos (decide_eq_true hm)]
      obtain ⟨ta, tb, t0, t1, s0, s1, e⟩ := hm
      obtain ⟨g1, g2, g3⟩ := hgen a b ta tb hs t0 t1 s0 s1 e
      have hg : (⟨a, b⟩ : Segment ℝ).getIntersectionPt ⟨p, p + d⟩ = some (ta, tb) := by
        apply Segment.C46_complete
        · rw [e]
          unfold Segment.Spec.pointAt
          ext <;> simp
        · unfold Segment.Spec.normal
          dsimp only
          have e : ((b - a).cross (p + d - p)).lengthSquared = (d.cross (b - a)).lengthSquared := by
            simp only [V3.lengthSquared, V3.cross_x, V3.cross_y, V3.cross_z, V3.sub_x, V3.sub_y, V3.sub_z, V3.add_x, V3.add_y, V3.add_z]; ring
          rw [e]
          exact g3
      unfold adds
      rw [hg]
      dsimp only
      rw [if_pos ⟨⟨s0, s1⟩, t0, t1⟩, if_neg (not_lt.2 g1), if_pos g2]
    · rw [if_neg (by simpa using hm)]
      unfold adds
      cases hg : (⟨a, b⟩ : Segment ℝ).getIntersectionPt ⟨p, p + d⟩ with
      | none => rfl
      | some tt =>
        obtain ⟨ta, tb⟩ := tt
        dsimp only
        rw [if_neg]
        rintro ⟨⟨s0, s1⟩, r0, r1⟩
        exact hm ⟨ta, tb, r0, r1, s0, s1, meets l.normal p d a b hn hdn hab (hp a (side_mem hs).1) ta tb hg⟩

/-! ## Cases -/

private noncomputable def tens : Loop :=
  ⟨[⟨0, 0, 0⟩, ⟨10, 0, 0⟩, ⟨10, 10, 0⟩, ⟨0, 10, 0⟩], ⟨0, 0, 1⟩, true, 100, 40⟩

private theorem tens_sides (a b : V3 ℝ) (h : Side tens.vertices a b) :
    (a = ⟨0, 0, 0⟩ ∧ b = ⟨10, 0, 0⟩) ∨ (a = ⟨10, 0, 0⟩ ∧ b = ⟨10, 10, 0⟩) ∨ (a = ⟨10, 10, 0⟩ ∧ b = ⟨0, 10, 0⟩) ∨
      (a = ⟨0, 10, 0⟩ ∧ b = ⟨0, 0, 0⟩) := by
  have := (mem_around _ _ _).2 h
  simpa [tens, around] using this

private theorem tens_convex : Convex tens.normal tens.vertices := by
  refine ⟨?_, ?_, ?_, ?_⟩
  · norm_num [tens, V3.lengthSquared]
  · intro a ha b hb
    simp only [tens, List.mem_cons, List.not_mem_nil, or_false] at ha hb
    rcases ha with rfl | rfl | rfl | rfl <;> rcases hb with rfl | rfl | rfl | rfl <;> norm_num [tens, V3.dot]
  · norm_num [tens]
  · intro a b hab w hw
    simp only [tens, List.mem_cons, List.not_mem_nil, or_false] at hw
    rcases tens_sides a b hab with ⟨rfl, rfl⟩ | ⟨rfl, rfl⟩ | ⟨rfl, rfl⟩ | ⟨rfl, rfl⟩ <;>
      rcases hw with rfl | rfl | rfl | rfl <;> norm_num [tens, turn, V3.dot]

private theorem tens_plane (x y : ℝ) : ∀ w ∈ tens.vertices, tens.normal.dot (w - ⟨x, y, 0⟩) = 0 := by
  intro w hw
  simp only [tens, List.mem_cons, List.not_mem_nil, or_false] at hw
  rcases hw with rfl | rfl | rfl | rfl <;> simp [tens, V3.dot]

/-- A square of ten metres meets the hypotheses of `C68_inside_partial` for a point well within it. -/
example : tens.testPoint ⟨3, 4, 0⟩ = .ok true := by
  have hmid : Spec.middle tens.vertices = ⟨5, 0, 0⟩ := by norm_num [tens, Spec.middle]
  apply C68_inside_partial tens _ rfl (by simp [tens]) tens_convex (tens_plane 3 4)
  · intro a b hab
    rcases tens_sides a b hab with ⟨rfl, rfl⟩ | ⟨rfl, rfl⟩ | ⟨rfl, rfl⟩ | ⟨rfl, rfl⟩ <;> norm_num [tens, turn, V3.dot]
  · intro w hw
    rw [hmid]
    unfold V3.distance
    have h1 : (4 : ℝ) ≤ Real.sqrt ((⟨3, 4, 0⟩ : V3 ℝ).squaredDistance ⟨5, 0, 0⟩) := by
      apply Real.le_sqrt_of_sq_le
      norm_num [V3.squaredDistance]
    have h2 : Real.sqrt (w.squaredDistance ⟨3, 4, 0⟩) ≤ 100 := by
      rw [Real.sqrt_le_left (by norm_num)]
      simp only [tens, List.mem_cons, List.not_mem_nil, or_false] at hw
      rcases hw with rfl | rfl | rfl | rfl <;> norm_num [V3.squaredDistance]
    linarith
  · intro a b t s hab _ _ _ _
    rw [hmid]
    rcases tens_sides a b hab with ⟨rfl, rfl⟩ | ⟨rfl, rfl⟩ | ⟨rfl, rfl⟩ | ⟨rfl, rfl⟩ <;> norm_num [V3.lengthSquared]

/-- And a point beside it meets those of `C68_outside_partial`. -/
example : tens.testPoint ⟨13, 4, 0⟩ = .ok false := by
  apply C68_outside_partial tens _ rfl (by simp [tens]) tens_convex (tens_plane 13 4)
  · exact ⟨⟨10, 0, 0⟩, ⟨10, 10, 0⟩, ⟨1, rfl, rfl⟩, by norm_num [tens, turn, V3.dot]⟩
  · intro a b hab
    rcases tens_sides a b hab with ⟨rfl, rfl⟩ | ⟨rfl, rfl⟩ | ⟨rfl, rfl⟩ | ⟨rfl, rfl⟩ <;>
      norm_num [Segment.containsPoint, V3.distance, V3.squaredDistance, isCollinear_eq, V3.compare, V3.compareBy, V3.lengthSquared, Outcome.bind]

end Simple.Geometry.Loop
