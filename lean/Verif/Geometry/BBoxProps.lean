import Mathlib.Tactic.NormNum
import Mathlib.Tactic.Linarith
import Mathlib.Tactic.Ring
import Mathlib.Tactic.FieldSimp
import Mathlib.Tactic.Positivity
import Verif.Geometry.BBoxModel

/-! # C42 and C43: bounding boxes -/

namespace Simple.Geometry.BBox

namespace Spec

/-- A point is in a box. -/
def Mem {K : Type*} [LE K] (b : BBox K) (p : V3 K) : Prop :=
  (b.min.x ≤ p.x ∧ p.x ≤ b.max.x) ∧ (b.min.y ≤ p.y ∧ p.y ≤ b.max.y) ∧ (b.min.z ≤ p.z ∧ p.z ≤ b.max.z)

/-- A box is within another. -/
def Within {K : Type*} [LE K] (a b : BBox K) : Prop := ∀ p, Mem a p → Mem b p

/-- The lower corner is not above the higher one: there is some point in the box. -/
def Nonempty {K : Type*} [LE K] (b : BBox K) : Prop := ∃ p, Mem b p

end Spec

section Ordered

variable {K : Type*} [Field K] [LinearOrder K] [IsStrictOrderedRing K]

omit [IsStrictOrderedRing K] in
theorem getMinsMaxs_eq (a b : V3 K) :
    getMinsMaxs a b = (⟨Min.min a.x b.x, Min.min a.y b.y, Min.min a.z b.z⟩, ⟨Max.max a.x b.x, Max.max a.y b.y, Max.max a.z b.z⟩) := by
  have h : ∀ x y : K, (if y < x then (y, x) else (x, y)) = (Min.min x y, Max.max x y) := by
    intro x y
    split_ifs with h
    · rw [min_eq_right h.le, max_eq_left h.le]
    · rw [min_eq_left (not_lt.1 h), max_eq_right (not_lt.1 h)]
  unfold getMinsMaxs
  simp only [h]

omit [IsStrictOrderedRing K] in
theorem nonempty_iff (b : BBox K) :
    Spec.Nonempty b ↔ b.min.x ≤ b.max.x ∧ b.min.y ≤ b.max.y ∧ b.min.z ≤ b.max.z :=
  ⟨fun ⟨_, h⟩ => ⟨h.1.1.trans h.1.2, h.2.1.1.trans h.2.1.2, h.2.2.1.trans h.2.2.2⟩,
    fun h => ⟨b.min, ⟨le_refl _, h.1⟩, ⟨le_refl _, h.2.1⟩, le_refl _, h.2.2⟩⟩

omit [IsStrictOrderedRing K] in
/-- C42: the test of a point agrees with membership; the exclusive one leaves out the upper faces only. -/
theorem C42_point_inside (b : BBox K) (p : V3 K) :
    (b.pointInside p = true ↔ Spec.Mem b p) ∧
    (b.pointInsideExclusive p = true ↔ Spec.Mem b p ∧ p.x ≠ b.max.x ∧ p.y ≠ b.max.y ∧ p.z ≠ b.max.z) := by
  constructor
  · unfold pointInside Spec.Mem
    simp only [Bool.and_eq_true, decide_eq_true_eq]
    tauto
  · unfold pointInsideExclusive Spec.Mem
    simp only [Bool.and_eq_true, decide_eq_true_eq]
    constructor
    · rintro ⟨⟨⟨⟨⟨h1, h2⟩, h3⟩, h4⟩, h5⟩, h6⟩
      exact ⟨⟨⟨h1, h2.le⟩, ⟨h3, h4.le⟩, h5, h6.le⟩, h2.ne, h4.ne, h6.ne⟩
    · rintro ⟨⟨⟨h1, h2⟩, ⟨h3, h4⟩, h5, h6⟩, n1, n2, n3⟩
      exact ⟨⟨⟨⟨⟨h1, lt_of_le_of_ne h2 n1⟩, h3⟩, lt_of_le_of_ne h4 n2⟩, h5⟩, lt_of_le_of_ne h6 n3⟩

omit [IsStrictOrderedRing K] in
/-- C42: the box of two points is the least one that has both, in whichever order they come. -/
theorem C42_new (a b : V3 K) :
    Spec.Mem (new a b) a ∧ Spec.Mem (new a b) b ∧
    ∀ c : BBox K, Spec.Mem c a → Spec.Mem c b → Spec.Within (new a b) c := by
  unfold new
  rw [getMinsMaxs_eq]
  refine ⟨⟨⟨min_le_left _ _, le_max_left _ _⟩, ⟨min_le_left _ _, le_max_left _ _⟩, min_le_left _ _, le_max_left _ _⟩,
    ⟨⟨min_le_right _ _, le_max_right _ _⟩, ⟨min_le_right _ _, le_max_right _ _⟩, min_le_right _ _, le_max_right _ _⟩, ?_⟩
  rintro c ⟨⟨a1, a2⟩, ⟨a3, a4⟩, a5, a6⟩ ⟨⟨b1, b2⟩, ⟨b3, b4⟩, b5, b6⟩ p ⟨⟨p1, p2⟩, ⟨p3, p4⟩, p5, p6⟩
  exact ⟨⟨(le_min a1 b1).trans p1, p2.trans (max_le a2 b2)⟩, ⟨(le_min a3 b3).trans p3, p4.trans (max_le a4 b4)⟩,
    (le_min a5 b5).trans p5, p6.trans (max_le a6 b6)⟩

omit [IsStrictOrderedRing K] in
/-- C42: the union of a box and a point is the least box that has both. -/
theorem C42_union_point (b : BBox K) (q : V3 K) (hb : Spec.Nonempty b) :
    Spec.Within b (fromUnionPoint b q) ∧ Spec.Mem (fromUnionPoint b q) q ∧
    ∀ c : BBox K, Spec.Within b c → Spec.Mem c q → Spec.Within (fromUnionPoint b q) c := by
  obtain ⟨n1, n2, n3⟩ := (nonempty_iff b).1 hb
  unfold fromUnionPoint
  rw [getMinsMaxs_eq, getMinsMaxs_eq]
  refine ⟨?_, ⟨⟨min_le_right _ _, le_max_right _ _⟩, ⟨min_le_right _ _, le_max_right _ _⟩, min_le_right _ _, le_max_right _ _⟩, ?_⟩
  · rintro p ⟨⟨p1, p2⟩, ⟨p3, p4⟩, p5, p6⟩
    exact ⟨⟨(min_le_left _ _).trans p1, p2.trans (le_max_left _ _)⟩,
      ⟨(min_le_left _ _).trans p3, p4.trans (le_max_left _ _)⟩, (min_le_left _ _).trans p5, p6.trans (le_max_left _ _)⟩
  · rintro c hw ⟨⟨b1, b2⟩, ⟨b3, b4⟩, b5, b6⟩ p ⟨⟨p1, p2⟩, ⟨p3, p4⟩, p5, p6⟩
    obtain ⟨⟨a1, -⟩, ⟨a3, -⟩, a5, -⟩ := hw b.min ⟨⟨le_refl _, n1⟩, ⟨le_refl _, n2⟩, le_refl _, n3⟩
    obtain ⟨⟨-, a2⟩, ⟨-, a4⟩, -, a6⟩ := hw b.max ⟨⟨n1, le_refl _⟩, ⟨n2, le_refl _⟩, n3, le_refl _⟩
    exact ⟨⟨(le_min a1 b1).trans p1, p2.trans (max_le a2 b2)⟩, ⟨(le_min a3 b3).trans p3, p4.trans (max_le a4 b4)⟩,
      (le_min a5 b5).trans p5, p6.trans (max_le a6 b6)⟩

omit [IsStrictOrderedRing K] in
/-- C42: the union of two boxes is the least box that has both. -/
theorem C42_union (a b : BBox K) (ha : Spec.Nonempty a) (hb : Spec.Nonempty b) :
    Spec.Within a (fromUnion a b) ∧ Spec.Within b (fromUnion a b) ∧
    ∀ c : BBox K, Spec.Within a c → Spec.Within b c → Spec.Within (fromUnion a b) c := by
  obtain ⟨m1, m2, m3⟩ := (nonempty_iff a).1 ha
  obtain ⟨n1, n2, n3⟩ := (nonempty_iff b).1 hb
  unfold fromUnion
  rw [getMinsMaxs_eq, getMinsMaxs_eq]
  refine ⟨?_, ?_, ?_⟩
  · rintro p ⟨⟨p1, p2⟩, ⟨p3, p4⟩, p5, p6⟩
    exact ⟨⟨(min_le_left _ _).trans p1, p2.trans (le_max_left _ _)⟩,
      ⟨(min_le_left _ _).trans p3, p4.trans (le_max_left _ _)⟩, (min_le_left _ _).trans p5, p6.trans (le_max_left _ _)⟩
  · rintro p ⟨⟨p1, p2⟩, ⟨p3, p4⟩, p5, p6⟩
    exact ⟨⟨(min_le_right _ _).trans p1, p2.trans (le_max_right _ _)⟩,
      ⟨(min_le_right _ _).trans p3, p4.trans (le_max_right _ _)⟩, (min_le_right _ _).trans p5, p6.trans (le_max_right _ _)⟩
  · rintro c hwa hwb p ⟨⟨p1, p2⟩, ⟨p3, p4⟩, p5, p6⟩
    obtain ⟨⟨a1, -⟩, ⟨a3, -⟩, a5, -⟩ := hwa a.min ⟨⟨le_refl _, m1⟩, ⟨le_refl _, m2⟩, le_refl _, m3⟩
    obtain ⟨⟨-, a2⟩, ⟨-, a4⟩, -, a6⟩ := hwa a.max ⟨⟨m1, le_refl _⟩, ⟨m2, le_refl _⟩, m3, le_refl _⟩
    obtain ⟨⟨b1, -⟩, ⟨b3, -⟩, b5, -⟩ := hwb b.min ⟨⟨le_refl _, n1⟩, ⟨le_refl _, n2⟩, le_refl _, n3⟩
    obtain ⟨⟨-, b2⟩, ⟨-, b4⟩, -, b6⟩ := hwb b.max ⟨⟨n1, le_refl _⟩, ⟨n2, le_refl _⟩, n3, le_refl _⟩
    exact ⟨⟨(le_min a1 b1).trans p1, p2.trans (max_le a2 b2)⟩, ⟨(le_min a3 b3).trans p3, p4.trans (max_le a4 b4)⟩,
      (le_min a5 b5).trans p5, p6.trans (max_le a6 b6)⟩

omit [IsStrictOrderedRing K] in
/-- C42: the intersection of two boxes has exactly the points that both have. -/
theorem C42_intersection (a b : BBox K) (p : V3 K) :
    Spec.Mem (fromIntersection a b) p ↔ Spec.Mem a p ∧ Spec.Mem b p := by
  unfold fromIntersection Spec.Mem
  rw [getMinsMaxs_eq, getMinsMaxs_eq]
  simp only [max_le_iff, le_min_iff]
  tauto

omit [IsStrictOrderedRing K] in
/-- C42: two boxes overlap exactly when some point is in both. -/
theorem C42_overlaps (a b : BBox K) (ha : Spec.Nonempty a) (hb : Spec.Nonempty b) :
    a.overlaps b = true ↔ ∃ p, Spec.Mem a p ∧ Spec.Mem b p := by
  obtain ⟨m1, m2, m3⟩ := (nonempty_iff a).1 ha
  obtain ⟨n1, n2, n3⟩ := (nonempty_iff b).1 hb
  unfold overlaps
  simp only [Bool.and_eq_true, decide_eq_true_eq]
  constructor
  · rintro ⟨⟨⟨h1, h2⟩, h3, h4⟩, h5, h6⟩
    refine ⟨⟨Max.max a.min.x b.min.x, Max.max a.min.y b.min.y, Max.max a.min.z b.min.z⟩, ?_, ?_⟩
    · exact ⟨⟨le_max_left _ _, max_le m1 h1⟩, ⟨le_max_left _ _, max_le m2 h3⟩, le_max_left _ _, max_le m3 h5⟩
    · exact ⟨⟨le_max_right _ _, max_le h2 n1⟩, ⟨le_max_right _ _, max_le h4 n2⟩, le_max_right _ _, max_le h6 n3⟩
  · rintro ⟨p, ⟨⟨p1, p2⟩, ⟨p3, p4⟩, p5, p6⟩, ⟨q1, q2⟩, ⟨q3, q4⟩, q5, q6⟩
    exact ⟨⟨⟨q1.trans p2, p1.trans q2⟩, q3.trans p4, p3.trans q4⟩, q5.trans p6, p5.trans q6⟩

namespace Spec

/-- The extent of a box along an axis. -/
def extent {K : Type*} [Sub K] (b : BBox K) : Axis → K
  | .x => b.max.x - b.min.x
  | .y => b.max.y - b.min.y
  | .z => b.max.z - b.min.z

end Spec

omit [LinearOrder K] [IsStrictOrderedRing K] in
/-- C42: the surface of a box is that of its faces: two for each pair of axes. -/
theorem C42_faces (b : BBox K) : b.surfaceArea =
    (([(.x, .y), (.y, .z), (.z, .x)] : List (Axis × Axis)).map fun p => 2 * (Spec.extent b p.1 * Spec.extent b p.2)).sum := by
  unfold surfaceArea
  simp only [V3.sub_x, V3.sub_y, V3.sub_z, List.map_cons, List.map_nil, List.sum_cons, List.sum_nil, Spec.extent]
  ring

/-- C42: a box within another has no more area, and no area is negative. -/
theorem C42_surface_area (a b : BBox K) (ha : Spec.Nonempty a) (h : Spec.Within a b) :
    0 ≤ a.surfaceArea ∧ a.surfaceArea ≤ b.surfaceArea := by
  obtain ⟨m1, m2, m3⟩ := (nonempty_iff a).1 ha
  obtain ⟨⟨a1, -⟩, ⟨a3, -⟩, a5, -⟩ := h a.min ⟨⟨le_refl _, m1⟩, ⟨le_refl _, m2⟩, le_refl _, m3⟩
  obtain ⟨⟨-, a2⟩, ⟨-, a4⟩, -, a6⟩ := h a.max ⟨⟨m1, le_refl _⟩, ⟨m2, le_refl _⟩, m3, le_refl _⟩
  unfold surfaceArea
  simp only [V3.sub_x, V3.sub_y, V3.sub_z]
  have hx : a.max.x - a.min.x ≤ b.max.x - b.min.x := by linarith
  have hy : a.max.y - a.min.y ≤ b.max.y - b.min.y := by linarith
  have hz : a.max.z - a.min.z ≤ b.max.z - b.min.z := by linarith
  have x0 : 0 ≤ a.max.x - a.min.x := by linarith
  have y0 : 0 ≤ a.max.y - a.min.y := by linarith
  have z0 : 0 ≤ a.max.z - a.min.z := by linarith
  constructor
  · positivity
  · have := mul_le_mul hx hy y0 (x0.trans hx)
    have := mul_le_mul hx hz z0 (x0.trans hx)
    have := mul_le_mul hy hz z0 (y0.trans hy)
    linarith

omit [IsStrictOrderedRing K] in
/-- C42: no extent is greater than that along the axis reported. -/
theorem C42_max_extent (b : BBox K) (axis : Axis) : Spec.extent b axis ≤ Spec.extent b b.maxExtent := by
  unfold maxExtent
  simp only [V3.sub_x, V3.sub_y, V3.sub_z]
  split_ifs with h1 h2
  · cases axis
    · exact le_refl _
    · exact h1.1.le
    · exact h1.2.le
  · rw [not_and_or, not_lt, not_lt] at h1
    cases axis
    · rcases h1 with h | h
      · exact h
      · exact h.trans h2.le
    · exact le_refl _
    · exact h2.le
  · rw [not_lt] at h2
    rw [not_and_or, not_lt, not_lt] at h1
    cases axis
    · rcases h1 with h | h
      · exact le_trans h h2
      · exact h
    · exact h2
    · exact le_refl _

end Ordered

/-- Two boxes that overlap in a face. -/
example : (⟨⟨0, 0, 0⟩, ⟨1, 1, 1⟩⟩ : BBox ℚ).overlaps ⟨⟨1, 0, 0⟩, ⟨2, 2, 2⟩⟩ = true ∧
    Spec.Nonempty (⟨⟨0, 0, 0⟩, ⟨1, 1, 1⟩⟩ : BBox ℚ) := by
  constructor
  · decide +kernel
  · exact ⟨⟨0, 0, 0⟩, by norm_num [Spec.Mem]⟩

/-! ## The intersection with a ray -/

namespace Spec

/-- `inv` is the reciprocal of `d`: that of zero is an infinity, whose sign is that of the zero. -/
def Reciprocal (d : ℚ) (inv : XF) : Prop := (d ≠ 0 ∧ inv = .fin (1 / d)) ∨ (d = 0 ∧ (inv = .pinf ∨ inv = .ninf))

end Spec

private theorem widening_gt : 1 < widening := by norm_num [widening, gamma3]

/-- The times within a slab, from one that is in it. -/
private inductive Slab (t : ℚ) : XF → XF → Prop where
  | fin (a b : ℚ) (h1 : a ≤ t) (h2 : t ≤ b) : Slab t (.fin a) (.fin b)
  | inf : Slab t .ninf .pinf

private theorem fin_lt (p q : ℚ) : (XF.fin p < XF.fin q) ↔ p < q := by
  change XF.ltB _ _ = true ↔ _
  simp [XF.ltB]

private theorem slab (lo hi o d t : ℚ) (inv : XF) (hr : Spec.Reciprocal d inv) (h : lo ≤ o + t * d ∧ o + t * d ≤ hi)
    (hz : d = 0 → lo < o ∧ o < hi) :
    Slab t (ordered (XF.fin (lo - o) * inv) (XF.fin (hi - o) * inv)).1
      (ordered (XF.fin (lo - o) * inv) (XF.fin (hi - o) * inv)).2 := by
  have hm : ∀ p q : ℚ, XF.fin p * XF.fin q = XF.fin (p * q) := fun _ _ => rfl
  rcases hr with ⟨hd, rfl⟩ | ⟨hd, hinf⟩
  · rw [hm, hm]
    unfold ordered
    have e : ∀ u : ℚ, (u - o) * (1 / d) = (u - o) / d := fun u => by ring
    rw [e, e]
    rcases lt_or_gt_of_ne hd with hneg | hpos
    · have h1 : t ≤ (lo - o) / d := by rw [le_div_iff_of_neg hneg]; linarith [h.1]
      have h2 : (hi - o) / d ≤ t := by rw [div_le_iff_of_neg hneg]; linarith [h.2]
      by_cases hlt : XF.fin ((hi - o) / d) < XF.fin ((lo - o) / d)
      · rw [if_pos hlt]
        exact .fin _ _ h2 h1
      · rw [if_neg hlt]
        rw [fin_lt, not_lt] at hlt
        exact .fin _ _ (by linarith) (by linarith)
    · have h1 : (lo - o) / d ≤ t := by rw [div_le_iff₀ hpos]; linarith [h.1]
      have h2 : t ≤ (hi - o) / d := by rw [le_div_iff₀ hpos]; linarith [h.2]
      rw [if_neg (by rw [fin_lt, not_lt]; linarith)]
      exact .fin _ _ h1 h2
  · obtain ⟨h1, h2⟩ := hz hd
    have e1 : XF.fin (lo - o) * XF.pinf = .ninf := by
      change XF.infOf (lo - o) = _
      unfold XF.infOf
      rw [if_neg (by linarith), if_pos (by linarith)]
    have e2 : XF.fin (hi - o) * XF.pinf = .pinf := by
      change XF.infOf (hi - o) = _
      unfold XF.infOf
      rw [if_pos (by linarith)]
    have e3 : XF.fin (lo - o) * XF.ninf = .pinf := by
      change XF.infOf (-(lo - o)) = _
      unfold XF.infOf
      rw [if_pos (by linarith)]
    have e4 : XF.fin (hi - o) * XF.ninf = .ninf := by
      change XF.infOf (-(hi - o)) = _
      unfold XF.infOf
      rw [if_neg (by linarith), if_pos (by linarith)]
    rcases hinf with rfl | rfl
    · rw [e1, e2]
      exact .inf
    · rw [e3, e4]
      exact .inf

/-- What is kept of the times: they begin by `t` and go on for longer. -/
private inductive Kept (t : ℚ) : XF → XF → Prop where
  | fin (a b : ℚ) (h1 : a ≤ t) (h2 : t < b) : Kept t (.fin a) (.fin b)
  | left (b : ℚ) (h2 : t < b) : Kept t .ninf (.fin b)
  | right (a : ℚ) (h1 : a ≤ t) : Kept t (.fin a) .pinf
  | inf : Kept t .ninf .pinf

private theorem widen {t : ℚ} (ht : 0 < t) {a b : XF} (h : Slab t a b) : Kept t a (b * XF.fin widening) := by
  have hw := widening_gt
  cases h with
  | fin a b h1 h2 =>
    refine .fin a (b * widening) h1 ?_
    have hb : 0 < b := lt_of_lt_of_le ht h2
    nlinarith
  | inf =>
    have : XF.pinf * XF.fin widening = .pinf := by
      change XF.infOf widening = _
      unfold XF.infOf
      rw [if_pos (by linarith)]
    rw [this]
    exact .inf

private theorem not_neg {t : ℚ} (ht : 0 < t) {a b : XF} (h : Slab t a b) : ¬ b < 0 := by
  cases h with
  | fin a b h1 h2 => exact fun h => absurd ((fin_lt b 0).1 h) (by linarith)
  | inf => exact fun h => by cases h

private theorem meet {t : ℚ} {a b c d : XF} (h : Kept t a b) (h' : Kept t c d) :
    ¬ (d < a ∨ b < c) ∧ Kept t (if a < c then c else a) (if d < b then d else b) := by
  have nf : ∀ p q : ℚ, p ≤ q → ¬ (XF.fin q < XF.fin p) := fun p q h => by rw [fin_lt]; linarith
  have lo : ∀ (p : ℚ), ¬ (XF.fin p < XF.ninf) := fun p h => by cases h
  have lo' : ∀ (p : ℚ), XF.ninf < XF.fin p := fun p => rfl
  have hi : ∀ (p : ℚ), ¬ (XF.pinf < XF.fin p) := fun p h => by cases h
  have hi' : ∀ (p : ℚ), XF.fin p < XF.pinf := fun p => rfl
  have ii : ¬ (XF.pinf < XF.ninf) := fun h => by cases h
  have i1 : ¬ (XF.ninf < XF.ninf) := fun h => by cases h
  have i2 : ¬ (XF.pinf < XF.pinf) := fun h => by cases h
  cases h <;> cases h' <;>
    simp only [fin_lt, lo, lo', hi, hi', ii, i1, i2, or_self, not_false_eq_true, if_true, if_false, true_and, not_or, or_false, false_or, not_lt] <;>
    (try split_ifs) <;>
    first
      | exact ⟨⟨by linarith, by linarith⟩, .fin _ _ (by linarith) (by linarith)⟩
      | exact ⟨by linarith, .fin _ _ (by linarith) (by linarith)⟩
      | exact .fin _ _ (by linarith) (by linarith)
      | exact .left _ (by linarith)
      | exact .right _ (by linarith)
      | exact .inf

private theorem kept_hit {t : ℚ} (ht : 0 < t) {a b : XF} (h : Kept t a b) : a < b ∧ 0 < b := by
  cases h with
  | fin a b h1 h2 => exact ⟨(fin_lt _ _).2 (by linarith), (fin_lt 0 _).2 (by linarith)⟩
  | left b h2 => exact ⟨rfl, (fin_lt 0 _).2 (by linarith)⟩
  | right a h1 => exact ⟨rfl, rfl⟩
  | inf => exact ⟨rfl, rfl⟩

/-- C43, the part that holds: a ray that has a point in the box, at a positive distance, is reported to hit it,
unless it runs parallel to an axis within the plane of a face of the box.  (What is missing is that exception: see
`C43_violated_on_face`.) -/
theorem C43_hit_partial (b : BBox ℚ) (origin dir : V3 ℚ) (inv : V3 XF) (t : ℚ)
    (hx : Spec.Reciprocal dir.x inv.x) (hy : Spec.Reciprocal dir.y inv.y) (hz : Spec.Reciprocal dir.z inv.z)
    (ht : 0 < t) (hit : Spec.Mem b (origin + dir.scale t))
    (nx : dir.x = 0 → origin.x ≠ b.min.x ∧ origin.x ≠ b.max.x)
    (ny : dir.y = 0 → origin.y ≠ b.min.y ∧ origin.y ≠ b.max.y)
    (nz : dir.z = 0 → origin.z ≠ b.min.z ∧ origin.z ≠ b.max.z) :
    b.intersect origin inv = true := by
  obtain ⟨h1, h2, h3⟩ := hit
  simp only [V3.add_x, V3.add_y, V3.add_z, V3.scale_x, V3.scale_y, V3.scale_z] at h1 h2 h3
  have strict : ∀ {lo hi o d : ℚ}, lo ≤ o + d * t ∧ o + d * t ≤ hi → (d = 0 → o ≠ lo ∧ o ≠ hi) → d = 0 → lo < o ∧ o < hi := by
    intro lo hi o d h n hd
    rw [hd, zero_mul, add_zero] at h
    exact ⟨lt_of_le_of_ne h.1 (Ne.symm (n hd).1), lt_of_le_of_ne h.2 (n hd).2⟩
  have sx := slab b.min.x b.max.x origin.x dir.x t inv.x hx (by rw [mul_comm t]; exact h1) (strict h1 nx)
  have sy := slab b.min.y b.max.y origin.y dir.y t inv.y hy (by rw [mul_comm t]; exact h2) (strict h2 ny)
  have sz := slab b.min.z b.max.z origin.z dir.z t inv.z hz (by rw [mul_comm t]; exact h3) (strict h3 nz)
  unfold intersect
  simp only
  rw [if_neg (not_neg ht sx), if_neg (not_neg ht sy)]
  obtain ⟨e1, k1⟩ := meet (widen ht sx) (widen ht sy)
  rw [if_neg e1, if_neg (not_neg ht sz)]
  obtain ⟨e2, k2⟩ := meet k1 (widen ht sz)
  rw [if_neg e2, decide_eq_true_iff]
  exact kept_hit ht k2

/-- C43 fails: a ray that runs up the face of a box, in it all the way, is reported to miss the box. -/
theorem C43_violated_on_face :
    ∃ (b : BBox ℚ) (origin dir : V3 ℚ) (inv : V3 XF),
      Spec.Reciprocal dir.x inv.x ∧ Spec.Reciprocal dir.y inv.y ∧ Spec.Reciprocal dir.z inv.z ∧
      (∀ t : ℚ, 0 ≤ t → t ≤ 1 → Spec.Mem b (origin + dir.scale t)) ∧ b.intersect origin inv = false := by
  refine ⟨⟨⟨0, 0, 0⟩, ⟨1, 1, 1⟩⟩, ⟨0, 1 / 2, 0⟩, ⟨0, 0, 1⟩, ⟨.pinf, .pinf, .fin 1⟩, ?_, ?_, ?_, ?_, by decide +kernel⟩
  · exact Or.inr ⟨rfl, Or.inl rfl⟩
  · exact Or.inr ⟨rfl, Or.inl rfl⟩
  · exact Or.inl ⟨one_ne_zero, by norm_num⟩
  · intro t h0 h1
    simp only [Spec.Mem, V3.add_x, V3.add_y, V3.add_z, V3.scale_x, V3.scale_y, V3.scale_z]
    norm_num
    exact ⟨h0, h1⟩

private theorem slab_fin (lo hi o d : ℚ) (hd : d ≠ 0) (hle : lo ≤ hi) :
    ∃ a b : ℚ, ordered (XF.fin (lo - o) * XF.fin (1 / d)) (XF.fin (hi - o) * XF.fin (1 / d)) = (.fin a, .fin b) ∧
      a ≤ b ∧ ∀ t, a ≤ t → t ≤ b → lo ≤ o + t * d ∧ o + t * d ≤ hi := by
  have hm : ∀ p q : ℚ, XF.fin p * XF.fin q = XF.fin (p * q) := fun _ _ => rfl
  rw [hm, hm]
  unfold ordered
  have e : ∀ u : ℚ, (u - o) * (1 / d) = (u - o) / d := fun u => by ring
  rw [e, e]
  rcases lt_or_gt_of_ne hd with hneg | hpos
  · have hab : (hi - o) / d ≤ (lo - o) / d := div_le_div_of_nonpos_of_le hneg.le (by linarith)
    refine ⟨(hi - o) / d, (lo - o) / d, ?_, hab, fun t h1 h2 => ?_⟩
    · by_cases hlt : XF.fin ((hi - o) / d) < XF.fin ((lo - o) / d)
      · rw [if_pos hlt]
      · rw [if_neg hlt]
        rw [fin_lt, not_lt] at hlt
        rw [le_antisymm hab hlt]
    · rw [div_le_iff_of_neg hneg] at h1
      rw [le_div_iff_of_neg hneg] at h2
      constructor <;> linarith
  · have hab : (lo - o) / d ≤ (hi - o) / d := div_le_div_of_nonneg_right (by linarith) hpos.le
    refine ⟨(lo - o) / d, (hi - o) / d, ?_, hab, fun t h1 h2 => ?_⟩
    · rw [if_neg (by rw [fin_lt, not_lt]; exact hab)]
    · rw [div_le_iff₀ hpos] at h1
      rw [le_div_iff₀ hpos] at h2
      constructor <;> linarith

/-- C43: when a hit is reported and no component of the direction is zero, there is a time ahead at which the ray is
within each pair of faces, up to the widening of 1 part in 10¹⁵. -/
theorem C43_no_false_hit (b : BBox ℚ) (origin dir : V3 ℚ) (inv : V3 XF)
    (hx : dir.x ≠ 0 ∧ inv.x = .fin (1 / dir.x)) (hy : dir.y ≠ 0 ∧ inv.y = .fin (1 / dir.y))
    (hz : dir.z ≠ 0 ∧ inv.z = .fin (1 / dir.z)) (hne : Spec.Nonempty b) (h : b.intersect origin inv = true) :
    ∃ t, 0 < t ∧ ∃ s s' s'' : ℚ, (∀ u ∈ [s, s', s''], (1 - 1 / 10 ^ 15) * t ≤ u ∧ u ≤ t) ∧
        (b.min.x ≤ origin.x + s * dir.x ∧ origin.x + s * dir.x ≤ b.max.x) ∧
        (b.min.y ≤ origin.y + s' * dir.y ∧ origin.y + s' * dir.y ≤ b.max.y) ∧
        (b.min.z ≤ origin.z + s'' * dir.z ∧ origin.z + s'' * dir.z ≤ b.max.z) := by
  obtain ⟨n1, n2, n3⟩ := (nonempty_iff b).1 hne
  obtain ⟨x1, x2, ex, lx, mx⟩ := slab_fin b.min.x b.max.x origin.x dir.x hx.1 n1
  obtain ⟨y1, y2, ey, ly, my⟩ := slab_fin b.min.y b.max.y origin.y dir.y hy.1 n2
  obtain ⟨z1, z2, ez, lz, mz⟩ := slab_fin b.min.z b.max.z origin.z dir.z hz.1 n3
  have hw := widening_gt
  have hm : ∀ p q : ℚ, XF.fin p * XF.fin q = XF.fin (p * q) := fun _ _ => rfl
  have hmax : ∀ p q : ℚ, (if XF.fin p < XF.fin q then XF.fin q else XF.fin p) = XF.fin (Max.max p q) := by
    intro p q
    split_ifs with h
    · rw [max_eq_right ((fin_lt p q).1 h).le]
    · rw [max_eq_left (not_lt.1 fun h' => h ((fin_lt p q).2 h'))]
  have hmin : ∀ p q : ℚ, (if XF.fin q < XF.fin p then XF.fin q else XF.fin p) = XF.fin (Min.min p q) := by
    intro p q
    split_ifs with h
    · rw [min_eq_right ((fin_lt q p).1 h).le]
    · rw [min_eq_left (not_lt.1 fun h' => h ((fin_lt q p).2 h'))]
  unfold intersect at h
  rw [hx.2, hy.2, hz.2] at h
  simp only [ex, ey, ez] at h
  simp only [hm, hmax, hmin] at h
  have step : ∀ {c : Prop} [Decidable c] {r : Bool}, (if c then false else r) = true → r = true := by
    intro c _ r h
    split_ifs at h
    exact h
  have h := step (step (step (step (step h))))
  rw [decide_eq_true_iff, fin_lt] at h
  have hpos : 0 < Min.min (Min.min (x2 * widening) (y2 * widening)) (z2 * widening) := (fin_lt 0 _).1 h.2
  have hlt := h.1
  have bx : Min.min (Min.min (x2 * widening) (y2 * widening)) (z2 * widening) ≤ x2 * widening :=
    (min_le_left _ _).trans (min_le_left _ _)
  have bY : Min.min (Min.min (x2 * widening) (y2 * widening)) (z2 * widening) ≤ y2 * widening :=
    (min_le_left _ _).trans (min_le_right _ _)
  have bz : Min.min (Min.min (x2 * widening) (y2 * widening)) (z2 * widening) ≤ z2 * widening := min_le_right _ _
  have ax : x1 ≤ Max.max (Max.max x1 y1) z1 := (le_max_left _ _).trans (le_max_left _ _)
  have ay : y1 ≤ Max.max (Max.max x1 y1) z1 := (le_max_right _ _).trans (le_max_left _ _)
  have az : z1 ≤ Max.max (Max.max x1 y1) z1 := le_max_right _ _
  generalize Min.min (Min.min (x2 * widening) (y2 * widening)) (z2 * widening) = t at hpos hlt bx bY bz
  generalize Max.max (Max.max x1 y1) z1 = m at hlt ax ay az
  have hlow : (1 - 1 / 10 ^ 15) * t ≤ t / widening := by
    rw [le_div_iff₀ (by linarith)]
    have : (1 - 1 / 10 ^ 15) * widening ≤ 1 := by norm_num [widening, gamma3]
    nlinarith
  have htw : t / widening ≤ t := by
    rw [div_le_iff₀ (by linarith)]
    nlinarith
  have pick : ∀ a c : ℚ, a ≤ c → a ≤ m → t ≤ c * widening →
      a ≤ Max.max a (t / widening) ∧ Max.max a (t / widening) ≤ c ∧
        (1 - 1 / 10 ^ 15) * t ≤ Max.max a (t / widening) ∧ Max.max a (t / widening) ≤ t := by
    intro a c h1 h2 h3
    refine ⟨le_max_left _ _, max_le h1 ?_, hlow.trans (le_max_right _ _), max_le (by linarith) htw⟩
    rw [div_le_iff₀ (by linarith)]
    exact h3
  obtain ⟨p1, p2, p3⟩ := pick x1 x2 lx ax bx
  obtain ⟨q1, q2, q3⟩ := pick y1 y2 ly ay bY
  obtain ⟨r1, r2, r3⟩ := pick z1 z2 lz az bz
  refine ⟨t, hpos, _, _, _, ?_, mx _ p1 p2, my _ q1 q2, mz _ r1 r2⟩
  intro u hu
  simp only [List.mem_cons, List.not_mem_nil, or_false] at hu
  rcases hu with rfl | rfl | rfl
  · exact p3
  · exact q3
  · exact r3

/-- A ray that enters through a face, parallel to an axis. -/
example : (⟨⟨0, 0, 0⟩, ⟨1, 1, 1⟩⟩ : BBox ℚ).intersect ⟨1 / 2, 1 / 2, -1⟩ ⟨.pinf, .ninf, .fin 1⟩ = true :=
  C43_hit_partial _ _ ⟨0, 0, 1⟩ _ 1 (Or.inr ⟨rfl, Or.inl rfl⟩) (Or.inr ⟨rfl, Or.inr rfl⟩)
    (Or.inl ⟨one_ne_zero, by norm_num⟩) one_pos (by norm_num [Spec.Mem]) (by norm_num) (by norm_num) (by norm_num)

end Simple.Geometry.BBox
