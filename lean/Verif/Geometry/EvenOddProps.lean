import Verif.Geometry.InsideProps

/-! # C68: the inside of loops that are not convex -/

namespace Simple.Geometry.Loop

open Spec

/-! ## Specification -/

namespace Spec

/-- The ray that goes on for ever from a point crosses a side. -/
def Crossed (p d a b : V3 ℝ) : Prop :=
  ∃ t s : ℝ, 0 ≤ t ∧ t ≤ 1 ∧ 0 ≤ s ∧ Segment.Spec.pointAt ⟨a, b⟩ t = p + d.scale s

/-- A direction in the plane of a polygon along which no vertex is seen from a point. -/
structure Free (n : V3 ℝ) (vs : List (V3 ℝ)) (p d : V3 ℝ) : Prop where
  some_ : d ≠ 0
  flat : n.dot d = 0
  clear : ∀ w ∈ vs, ∀ s : ℝ, 0 ≤ s → w ≠ p + d.scale s

/-- A point of the plane of a polygon that is on none of its sides. -/
structure Off (n : V3 ℝ) (vs : List (V3 ℝ)) (p : V3 ℝ) : Prop where
  flat : ∀ w ∈ vs, n.dot (w - p) = 0
  off : ∀ a b, Side vs a b → ∀ t : ℝ, 0 ≤ t → t ≤ 1 → Segment.Spec.pointAt ⟨a, b⟩ t ≠ p

open Classical in
/-- How many sides the ray crosses. -/
noncomputable def crossings (vs : List (V3 ℝ)) (p d : V3 ℝ) : ℕ :=
  (vs.zip (vs.rotate 1)).countP fun e => decide (Crossed p d e.1 e.2)

open Classical in
/-- How many sides are crossed on the way from a point to another. -/
noncomputable def between (vs : List (V3 ℝ)) (p q : V3 ℝ) : ℕ :=
  (vs.zip (vs.rotate 1)).countP fun e => decide (Met p (q - p) e.1 e.2)

end Spec

/-! ## One side and one ray -/

/-- On which side of the line along `d` a point is. -/
private noncomputable def side (n p d w : V3 ℝ) : ℝ := n.dot (d.cross (w - p))

private noncomputable def span (n p a b : V3 ℝ) : ℝ := n.dot ((a - p).cross (b - p))

private theorem alongs {n d x : V3 ℝ} (hn : n.lengthSquared = 1) (hd : n.dot d = 0) (hx : n.dot x = 0) (h0 : d ≠ 0)
    (h : n.dot (d.cross x) = 0) : ∃ k : ℝ, x = d.scale k := by
  have hc := cross_along n d x hn hd hx
  rw [h] at hc
  have c1 := congrArg V3.x hc
  have c2 := congrArg V3.y hc
  have c3 := congrArg V3.z hc
  simp only [V3.cross_x, V3.cross_y, V3.cross_z, V3.scale_x, V3.scale_y, V3.scale_z, mul_zero] at c1 c2 c3
  have hl : d.x ^ 2 + d.y ^ 2 + d.z ^ 2 ≠ 0 := by
    intro e
    apply h0
    have e1 : d.x = 0 := by nlinarith [sq_nonneg d.x, sq_nonneg d.y, sq_nonneg d.z]
    have e2 : d.y = 0 := by nlinarith [sq_nonneg d.x, sq_nonneg d.y, sq_nonneg d.z]
    have e3 : d.z = 0 := by nlinarith [sq_nonneg d.x, sq_nonneg d.y, sq_nonneg d.z]
    ext <;> simp [e1, e2, e3]
  refine ⟨(x.x * d.x + x.y * d.y + x.z * d.z) / (d.x ^ 2 + d.y ^ 2 + d.z ^ 2), ?_⟩
  ext <;> simp only [V3.scale_x, V3.scale_y, V3.scale_z] <;> field_simp
  · linear_combination d.z * c2 - d.y * c3
  · linear_combination d.x * c3 - d.z * c1
  · linear_combination d.y * c1 - d.x * c2

private theorem side_scale (n p d w : V3 ℝ) (k : ℝ) (h : w - p = d.scale k) : side n p d w = 0 := by
  unfold side
  rw [h]
  simp only [V3.dot, V3.cross_x, V3.cross_y, V3.cross_z, V3.scale_x, V3.scale_y, V3.scale_z]
  ring

section
variable {n p d a b : V3 ℝ} (hn : n.lengthSquared = 1) (hd : n.dot d = 0) (h0 : d ≠ 0) (ha : n.dot (a - p) = 0) (hb : n.dot (b - p) = 0)
  (fa : ∀ s : ℝ, 0 ≤ s → a ≠ p + d.scale s) (fb : ∀ s : ℝ, 0 ≤ s → b ≠ p + d.scale s)
  (off : ∀ t : ℝ, 0 ≤ t → t ≤ 1 → Segment.Spec.pointAt ⟨a, b⟩ t ≠ p)

include hn hd h0 in
private theorem behind {w : V3 ℝ} (hw : n.dot (w - p) = 0) (fw : ∀ s : ℝ, 0 ≤ s → w ≠ p + d.scale s) (h : side n p d w = 0) :
    ∃ k : ℝ, k < 0 ∧ w - p = d.scale k := by
  obtain ⟨k, hk⟩ := alongs hn hd hw h0 h
  refine ⟨k, ?_, hk⟩
  by_contra hle
  apply fw k (not_lt.1 hle)
  rw [← hk]
  ext <;> simp

private theorem pieces (t s : ℝ) (h : Segment.Spec.pointAt ⟨a, b⟩ t = p + d.scale s) :
    (1 - t) * side n p d a + t * side n p d b = 0 ∧ s * side n p d b = (1 - t) * span n p a b ∧
      -(s * side n p d a) = t * span n p a b := by
  have h1 := congrArg V3.x h
  have h2 := congrArg V3.y h
  have h3 := congrArg V3.z h
  simp only [Segment.Spec.pointAt, V3.sub_x, V3.sub_y, V3.sub_z, V3.add_x, V3.add_y, V3.add_z, V3.scale_x, V3.scale_y, V3.scale_z] at h1 h2 h3
  unfold side span
  simp only [V3.dot, V3.cross_x, V3.cross_y, V3.cross_z, V3.sub_x, V3.sub_y, V3.sub_z]
  refine ⟨?_, ?_, ?_⟩
  · linear_combination (n.y * d.z - n.z * d.y) * h1 + (n.z * d.x - n.x * d.z) * h2 + (n.x * d.y - n.y * d.x) * h3
  · linear_combination (-(n.z * (b.y - p.y) - n.y * (b.z - p.z))) * h1 + (-(n.x * (b.z - p.z) - n.z * (b.x - p.x))) * h2 +
      (-(n.y * (b.x - p.x) - n.x * (b.y - p.y))) * h3
  · linear_combination (n.z * (a.y - p.y) - n.y * (a.z - p.z)) * h1 + (n.x * (a.z - p.z) - n.z * (a.x - p.x)) * h2 +
      (n.y * (a.x - p.x) - n.x * (a.y - p.y)) * h3

include hn hd h0 ha hb fa fb off in
private theorem crossed_iff : Crossed p d a b ↔
    (side n p d a < 0 ∧ 0 < side n p d b ∧ 0 < span n p a b) ∨ (side n p d b < 0 ∧ 0 < side n p d a ∧ span n p a b < 0) := by
  constructor
  · rintro ⟨t, s, t0, t1, s0, e⟩
    obtain ⟨q1, q2, q3⟩ := pieces (n := n) t s e
    have t0' : 0 < t := by
      rcases t0.eq_or_lt with h | h
      · exfalso
        subst h
        apply fa s s0
        rw [← e]
        unfold Segment.Spec.pointAt
        ext <;> simp
      · exact h
    have t1' : t < 1 := by
      rcases t1.eq_or_lt with h | h
      · exfalso
        subst h
        apply fb s s0
        rw [← e]
        unfold Segment.Spec.pointAt
        ext <;> simp
      · exact h
    have s0' : 0 < s := by
      rcases s0.eq_or_lt with h | h
      · exfalso
        subst h
        apply off t t0 t1
        rw [e]
        ext <;> simp
      · exact h
    rcases lt_trichotomy (side n p d a) 0 with h | h | h
    · have hb' : 0 < side n p d b := by nlinarith
      have : 0 < span n p a b := by nlinarith [mul_pos s0' hb']
      exact Or.inl ⟨h, hb', this⟩
    · exfalso
      have hb' : side n p d b = 0 := by
        rw [h, mul_zero, zero_add] at q1
        exact (mul_eq_zero.1 q1).resolve_left t0'.ne'
      obtain ⟨k1, hk1, e1⟩ := behind hn hd h0 ha fa h
      obtain ⟨k2, hk2, e2⟩ := behind hn hd h0 hb fb hb'
      have e3 : d.scale ((1 - t) * k1 + t * k2 - s) = 0 := by
        have h1 := congrArg V3.x e
        have h2 := congrArg V3.y e
        have h3 := congrArg V3.z e
        have x1 := congrArg V3.x e1
        have y1 := congrArg V3.y e1
        have z1 := congrArg V3.z e1
        have x2 := congrArg V3.x e2
        have y2 := congrArg V3.y e2
        have z2 := congrArg V3.z e2
        simp only [Segment.Spec.pointAt, V3.sub_x, V3.sub_y, V3.sub_z, V3.add_x, V3.add_y, V3.add_z, V3.scale_x, V3.scale_y, V3.scale_z] at h1 h2 h3 x1 y1 z1 x2 y2 z2
        ext
        · simp only [V3.scale_x, V3.zero_x]; linear_combination h1 - (1 - t) * x1 - t * x2
        · simp only [V3.scale_y, V3.zero_y]; linear_combination h2 - (1 - t) * y1 - t * y2
        · simp only [V3.scale_z, V3.zero_z]; linear_combination h3 - (1 - t) * z1 - t * z2
      have hneg : (1 - t) * k1 + t * k2 - s < 0 := by nlinarith
      apply h0
      have x := congrArg V3.x e3
      have y := congrArg V3.y e3
      have z := congrArg V3.z e3
      simp only [V3.scale_x, V3.scale_y, V3.scale_z, V3.zero_x, V3.zero_y, V3.zero_z] at x y z
      ext
      · exact (mul_eq_zero.1 x).resolve_right hneg.ne
      · exact (mul_eq_zero.1 y).resolve_right hneg.ne
      · exact (mul_eq_zero.1 z).resolve_right hneg.ne
    · have hb' : side n p d b < 0 := by nlinarith
      have : span n p a b < 0 := by nlinarith [mul_pos s0' (neg_pos.2 hb')]
      exact Or.inr ⟨hb', h, this⟩
  · intro h
    have hne : side n p d a - side n p d b ≠ 0 := by
      rcases h with h | h
      · exact (by linarith [h.1, h.2.1] : side n p d a - side n p d b < 0).ne
      · exact (by linarith [h.1, h.2.1] : 0 < side n p d a - side n p d b).ne'
    obtain ⟨t, ht⟩ : ∃ t, t = side n p d a / (side n p d a - side n p d b) := ⟨_, rfl⟩
    have q : (1 - t) * side n p d a + t * side n p d b = 0 := by
      rw [ht]
      field_simp
      ring
    have ht01 : 0 ≤ t ∧ t < 1 := by
      rcases h with h | h
      · have hn : side n p d a - side n p d b < 0 := by linarith [h.1, h.2.1]
        rw [ht]
        exact ⟨div_nonneg_of_nonpos h.1.le hn.le, (div_lt_one_of_neg hn).2 (by linarith [h.2.1])⟩
      · have hn : 0 < side n p d a - side n p d b := by linarith [h.1, h.2.1]
        rw [ht]
        exact ⟨div_nonneg h.2.1.le hn.le, (div_lt_one hn).2 (by linarith [h.1])⟩
    obtain ⟨k, hk⟩ := alongs (x := Segment.Spec.pointAt ⟨a, b⟩ t - p) hn hd (by
      simp only [Segment.Spec.pointAt, V3.dot, V3.sub_x, V3.sub_y, V3.sub_z, V3.add_x, V3.add_y, V3.add_z, V3.scale_x, V3.scale_y, V3.scale_z] at ha hb ⊢
      linear_combination (1 - t) * ha + t * hb) h0 (by
      rw [← q]
      simp only [side, Segment.Spec.pointAt, V3.dot, V3.cross_x, V3.cross_y, V3.cross_z, V3.sub_x, V3.sub_y, V3.sub_z, V3.add_x, V3.add_y, V3.add_z, V3.scale_x, V3.scale_y, V3.scale_z]
      ring)
    have e : Segment.Spec.pointAt ⟨a, b⟩ t = p + d.scale k := by
      rw [← hk]
      ext <;> simp
    refine ⟨t, k, ht01.1, ht01.2.le, ?_, e⟩
    have q2 := (pieces (n := n) t k e).2.1
    have hpos : 0 < 1 - t := by linarith [ht01.2]
    by_contra hlt
    rw [not_le] at hlt
    rcases h with h | h
    · have := mul_pos hpos h.2.2
      have := mul_pos (neg_pos.2 hlt) h.2.1
      linarith
    · have := mul_pos hpos (neg_pos.2 h.2.2)
      have := mul_pos (neg_pos.2 hlt) (neg_pos.2 h.1)
      linarith

end

/-! ## Two rays -/

private theorem wedge {f1a f1b f2a f2b D c : ℝ} (hc : 0 < c) (hD : c * D = f1a * f2b - f1b * f2a)
    (a1 : f1a = 0 → 0 < f2a) (a2 : f2a = 0 → f1a < 0) (b1 : f1b = 0 → 0 < f2b) (b2 : f2b = 0 → f1b < 0)
    (h0 : D = 0 → 0 ≤ f1a * f1b) :
    (((f1a < 0 ∧ 0 < f1b ∧ 0 < D) ∨ (f1b < 0 ∧ 0 < f1a ∧ D < 0)) ↔ ((f2a < 0 ∧ 0 < f2b ∧ 0 < D) ∨ (f2b < 0 ∧ 0 < f2a ∧ D < 0))) ↔
      ((f2a < 0 ∧ 0 < f1a) ↔ (f2b < 0 ∧ 0 < f1b)) := by
  have dpos : 0 < f1a * f2b - f1b * f2a → 0 < D := fun h => (mul_pos_iff_of_pos_left hc).1 (hD ▸ h)
  have dneg : f1a * f2b - f1b * f2a < 0 → D < 0 := fun h => by
    by_contra hle
    have := mul_nonneg hc.le (not_lt.1 hle)
    linarith
  have m1 : ∀ x y : ℝ, 0 < x → 0 < y → 0 < x * y := fun _ _ => mul_pos
  have m2 : ∀ x y : ℝ, x < 0 → y < 0 → 0 < x * y := fun _ _ => mul_pos_of_neg_of_neg
  have m3 : ∀ x y : ℝ, 0 < x → y < 0 → x * y < 0 := fun _ _ => mul_neg_of_pos_of_neg
  have m4 : ∀ x y : ℝ, x < 0 → 0 < y → x * y < 0 := fun _ _ => mul_neg_of_neg_of_pos
  have hdd : D = 0 → f1a * f2b - f1b * f2a = 0 := fun h => by rw [← hD, h, mul_zero]
  have p1 := m1 f1a f2b
  have p2 := m2 f1a f2b
  have p3 := m3 f1a f2b
  have p4 := m4 f1a f2b
  have q1 := m1 f1b f2a
  have q2 := m2 f1b f2a
  have q3 := m3 f1b f2a
  have q4 := m4 f1b f2a
  have r1 := m3 f1a f1b
  have r2 := m4 f1a f1b
  have z1 : f1a = 0 → f1a * f2b = 0 := fun h => by rw [h, zero_mul]
  have z2 : f2b = 0 → f1a * f2b = 0 := fun h => by rw [h, mul_zero]
  have z3 : f1b = 0 → f1b * f2a = 0 := fun h => by rw [h, zero_mul]
  have z4 : f2a = 0 → f1b * f2a = 0 := fun h => by rw [h, mul_zero]
  clear m1 m2 m3 m4 hD
  generalize f1a * f2b = P at *
  generalize f1b * f2a = Q at *
  generalize f1a * f1b = R at *
  rcases lt_trichotomy f1a 0 with h1 | h1 | h1 <;> rcases lt_trichotomy f1b 0 with h2 | h2 | h2 <;>
    rcases lt_trichotomy f2a 0 with h3 | h3 | h3 <;> rcases lt_trichotomy f2b 0 with h4 | h4 | h4 <;> grind

private theorem binet {n p d1 d2 a b : V3 ℝ} (hn : n.lengthSquared = 1) (h1 : n.dot d1 = 0) (h2 : n.dot d2 = 0) (ha : n.dot (a - p) = 0)
    (hb : n.dot (b - p) = 0) :
    n.dot (d1.cross d2) * span n p a b = side n p d1 a * side n p d2 b - side n p d1 b * side n p d2 a := by
  have key : ∀ x y u v : V3 ℝ, n.dot x = 0 → n.dot y = 0 → n.dot u = 0 → n.dot v = 0 →
      n.dot (x.cross y) * n.dot (u.cross v) = x.dot u * y.dot v - x.dot v * y.dot u := by
    intro x y u v hx hy hu hv
    have e1 := cross_along n x y hn hx hy
    have e2 := cross_along n u v hn hu hv
    have e3 : (x.cross y).dot (u.cross v) = n.dot (x.cross y) * n.dot (u.cross v) := by
      conv_lhs => rw [e1, e2]
      generalize n.dot (x.cross y) = k
      generalize n.dot (u.cross v) = m
      simp only [V3.dot, V3.lengthSquared, V3.scale_x, V3.scale_y, V3.scale_z] at hn ⊢
      linear_combination (k * m) * hn
    rw [← e3]
    simp only [V3.dot, V3.cross_x, V3.cross_y, V3.cross_z]
    ring
  unfold span side
  rw [key _ _ _ _ h1 h2 ha hb, key _ _ _ _ h1 ha h2 hb, key _ _ _ _ h1 hb h2 ha]
  simp only [V3.dot]
  ring

section
variable {n p : V3 ℝ} {vs : List (V3 ℝ)} (hn : n.lengthSquared = 1) (hp : Off n vs p)

include hn hp

private theorem span_zero {d a b : V3 ℝ} (hs : Side vs a b) (fa : ∀ s : ℝ, 0 ≤ s → a ≠ p + d.scale s) (h : span n p a b = 0) :
    0 ≤ side n p d a * side n p d b := by
  have hm := side_mem hs
  have hne : a - p ≠ 0 := by
    intro e
    apply fa 0 le_rfl
    have x := congrArg V3.x e
    have y := congrArg V3.y e
    have z := congrArg V3.z e
    simp only [V3.sub_x, V3.sub_y, V3.sub_z, V3.zero_x, V3.zero_y, V3.zero_z] at x y z
    ext <;> simp <;> linarith
  obtain ⟨k, hk⟩ := alongs hn (hp.flat a hm.1) (hp.flat b hm.2) hne h
  have hsb : side n p d b = k * side n p d a := by
    unfold side
    rw [hk]
    simp only [V3.dot, V3.cross_x, V3.cross_y, V3.cross_z, V3.scale_x, V3.scale_y, V3.scale_z]
    ring
  rw [hsb]
  by_cases h0 : 0 ≤ k
  · nlinarith [mul_self_nonneg (side n p d a), mul_nonneg h0 (mul_self_nonneg (side n p d a))]
  · exfalso
    rw [not_le] at h0
    have hpos : 0 < 1 - k := by linarith
    apply hp.off a b hs (1 / (1 - k)) (by positivity) (by rw [div_le_one hpos]; linarith)
    have x := congrArg V3.x hk
    have y := congrArg V3.y hk
    have z := congrArg V3.z hk
    simp only [V3.sub_x, V3.sub_y, V3.sub_z, V3.scale_x, V3.scale_y, V3.scale_z] at x y z
    unfold Segment.Spec.pointAt
    ext <;> simp only [V3.sub_x, V3.sub_y, V3.sub_z, V3.add_x, V3.add_y, V3.add_z, V3.scale_x, V3.scale_y, V3.scale_z] <;> field_simp
    · linear_combination x
    · linear_combination y
    · linear_combination z

private theorem crossed_side {d a b : V3 ℝ} (hf : Free n vs p d) (hs : Side vs a b) : Crossed p d a b ↔
    (side n p d a < 0 ∧ 0 < side n p d b ∧ 0 < span n p a b) ∨ (side n p d b < 0 ∧ 0 < side n p d a ∧ span n p a b < 0) :=
  crossed_iff hn hf.flat hf.some_ (hp.flat a (side_mem hs).1) (hp.flat b (side_mem hs).2) (hf.clear a (side_mem hs).1) (hf.clear b (side_mem hs).2)
    (hp.off a b hs)

private theorem left_rays {d1 d2 : V3 ℝ} (h1 : Free n vs p d1) (h2 : Free n vs p d2) (hc : 0 < n.dot (d1.cross d2)) :
    ∃ W : V3 ℝ → Prop, ∀ a b, Side vs a b → ((Crossed p d1 a b ↔ Crossed p d2 a b) ↔ (W a ↔ W b)) := by
  refine ⟨fun w => side n p d2 w < 0 ∧ 0 < side n p d1 w, fun a b hs => ?_⟩
  rw [crossed_side hn hp h1 hs, crossed_side hn hp h2 hs]
  have hm := side_mem hs
  have one : ∀ w ∈ vs, side n p d1 w = 0 → 0 < side n p d2 w := by
    intro w hw h
    obtain ⟨k, hk, e⟩ := behind hn h1.flat h1.some_ (hp.flat w hw) (h1.clear w hw) h
    have : side n p d2 w = -k * n.dot (d1.cross d2) := by
      unfold side
      rw [e]
      simp only [V3.dot, V3.cross_x, V3.cross_y, V3.cross_z, V3.scale_x, V3.scale_y, V3.scale_z]
      ring
    rw [this]
    exact mul_pos (neg_pos.2 hk) hc
  have two : ∀ w ∈ vs, side n p d2 w = 0 → side n p d1 w < 0 := by
    intro w hw h
    obtain ⟨k, hk, e⟩ := behind hn h2.flat h2.some_ (hp.flat w hw) (h2.clear w hw) h
    have : side n p d1 w = k * n.dot (d1.cross d2) := by
      unfold side
      rw [e]
      simp only [V3.dot, V3.cross_x, V3.cross_y, V3.cross_z, V3.scale_x, V3.scale_y, V3.scale_z]
      ring
    rw [this]
    exact mul_neg_of_neg_of_pos hk hc
  exact wedge hc (binet hn h1.flat h2.flat (hp.flat a hm.1) (hp.flat b hm.2)) (one a hm.1) (two a hm.1) (one b hm.2) (two b hm.2)
    (span_zero hn hp hs (h1.clear a hm.1))

private theorem two_rays {d1 d2 : V3 ℝ} (h1 : Free n vs p d1) (h2 : Free n vs p d2) :
    ∃ W : V3 ℝ → Prop, ∀ a b, Side vs a b → ((Crossed p d1 a b ↔ Crossed p d2 a b) ↔ (W a ↔ W b)) := by
  rcases lt_trichotomy (n.dot (d1.cross d2)) 0 with hc | hc | hc
  · have hc' : 0 < n.dot (d2.cross d1) := by
      have : n.dot (d2.cross d1) = -n.dot (d1.cross d2) := by
        simp only [V3.dot, V3.cross_x, V3.cross_y, V3.cross_z]; ring
      linarith
    obtain ⟨W, hW⟩ := left_rays hn hp h2 h1 hc'
    exact ⟨W, fun a b hs => by rw [← hW a b hs]; tauto⟩
  · obtain ⟨k, hk⟩ := alongs hn h1.flat h2.flat h1.some_ hc
    have hside : ∀ w, side n p d2 w = k * side n p d1 w := by
      intro w
      unfold side
      rw [hk]
      simp only [V3.dot, V3.cross_x, V3.cross_y, V3.cross_z, V3.scale_x, V3.scale_y, V3.scale_z]
      ring
    rcases lt_trichotomy k 0 with h0 | h0 | h0
    · refine ⟨fun w => 0 < side n p d1 w, fun a b hs => ?_⟩
      rw [crossed_side hn hp h1 hs, crossed_side hn hp h2 hs, hside, hside]
      have hm := side_mem hs
      have nz : ∀ w ∈ vs, side n p d1 w ≠ 0 := by
        intro w hw h
        obtain ⟨m, hm, e⟩ := behind hn h1.flat h1.some_ (hp.flat w hw) (h1.clear w hw) h
        apply h2.clear w hw (m / k) (div_nonneg_of_nonpos hm.le h0.le)
        rw [hk]
        have x := congrArg V3.x e
        have y := congrArg V3.y e
        have z := congrArg V3.z e
        simp only [V3.sub_x, V3.sub_y, V3.sub_z, V3.scale_x, V3.scale_y, V3.scale_z] at x y z
        have hmk : k * (m / k) = m := mul_div_cancel₀ m h0.ne
        ext <;> simp only [V3.add_x, V3.add_y, V3.add_z, V3.scale_x, V3.scale_y, V3.scale_z]
        · linear_combination x - d1.x * hmk
        · linear_combination y - d1.y * hmk
        · linear_combination z - d1.z * hmk
      have s1 : ∀ x : ℝ, k * x < 0 ↔ 0 < x := fun x => by
        constructor
        · intro h; by_contra hle; nlinarith [mul_nonneg_of_nonpos_of_nonpos h0.le (not_lt.1 hle)]
        · intro h; exact mul_neg_of_neg_of_pos h0 h
      have s2 : ∀ x : ℝ, 0 < k * x ↔ x < 0 := fun x => by
        constructor
        · intro h; by_contra hle; nlinarith [mul_nonpos_of_nonpos_of_nonneg h0.le (not_lt.1 hle)]
        · intro h; exact mul_pos_of_neg_of_neg h0 h
      have hz := span_zero hn hp hs (h1.clear a hm.1)
      have na := nz a hm.1
      have nb := nz b hm.2
      rw [s1, s1, s2, s2]
      dsimp only
      generalize side n p d1 a = x at *
      generalize side n p d1 b = y at *
      generalize span n p a b = D at *
      have r1 : x < 0 → 0 < y → x * y < 0 := mul_neg_of_neg_of_pos
      have r2 : 0 < x → y < 0 → x * y < 0 := mul_neg_of_pos_of_neg
      generalize x * y = R at *
      clear s1 s2 nz hside hc hk h0 hn hp h1 h2 hs hm
      rcases lt_or_gt_of_ne na with a1 | a1 <;> rcases lt_or_gt_of_ne nb with b1 | b1 <;> rcases lt_trichotomy D 0 with c | c | c <;> grind
    · exfalso
      apply h2.some_
      rw [hk, h0]
      ext <;> simp
    · refine ⟨fun _ => True, fun a b hs => ?_⟩
      rw [crossed_side hn hp h1 hs, crossed_side hn hp h2 hs, hside, hside]
      have s1 : ∀ x : ℝ, k * x < 0 ↔ x < 0 := fun x => by
        constructor
        · intro h; by_contra hle; nlinarith [mul_nonneg h0.le (not_lt.1 hle)]
        · intro h; exact mul_neg_of_pos_of_neg h0 h
      simp only [mul_pos_iff_of_pos_left h0, s1]
  · exact left_rays hn hp h1 h2 hc

end

/-! ## All the sides -/

open Classical in
private theorem changes (W : V3 ℝ → Prop) : ∀ (t : List (V3 ℝ)) (x y : V3 ℝ),
    (((x :: t).zip (t ++ [y])).countP fun e => decide (¬(W e.1 ↔ W e.2))) % 2 = if W x ↔ W y then 0 else 1 := by
  intro t
  induction t with
  | nil =>
    intro x y
    by_cases h : W x ↔ W y <;> simp [h]
  | cons z t ih =>
    intro x y
    rw [List.cons_append, List.zip_cons_cons, List.countP_cons, Nat.add_mod, ih z y]
    by_cases h1 : W x <;> by_cases h2 : W y <;> by_cases h3 : W z <;> simp [h1, h2, h3]

open Classical in
private theorem parity (A B X : V3 ℝ × V3 ℝ → Prop) : ∀ l : List (V3 ℝ × V3 ℝ), (∀ e ∈ l, (A e ↔ B e) ↔ ¬X e) →
    (l.countP (fun e => decide (A e)) + l.countP (fun e => decide (B e)) + l.countP (fun e => decide (X e))) % 2 = 0 := by
  intro l
  induction l with
  | nil => intro _; rfl
  | cons e l ih =>
    intro h
    have hi := ih fun x hx => h x (List.mem_cons_of_mem _ hx)
    have he := h e (List.mem_cons_self ..)
    rw [List.countP_cons, List.countP_cons, List.countP_cons]
    by_cases a : A e <;> by_cases b : B e <;> by_cases x : X e <;> simp [a, b, x] at he ⊢ <;> omega

private theorem zip_around (vs : List (V3 ℝ)) : vs.zip (vs.rotate 1) = around vs := by
  cases vs with
  | nil => rfl
  | cons a t => simp [around, List.rotate_cons_succ]

/-- C68: whatever the polygon, also one that is not convex, the rays from a point that is on no side which pass by no vertex cross an odd number
of sides in all directions, or an even number in all directions. -/
theorem C68_any_ray (n p : V3 ℝ) (vs : List (V3 ℝ)) (hn : n.lengthSquared = 1) (hp : Spec.Off n vs p) (d1 d2 : V3 ℝ)
    (h1 : Spec.Free n vs p d1) (h2 : Spec.Free n vs p d2) : Odd (Spec.crossings vs p d1) ↔ Odd (Spec.crossings vs p d2) := by
  obtain ⟨W, hW⟩ := two_rays hn hp h1 h2
  have key := parity (fun e => Crossed p d1 e.1 e.2) (fun e => Crossed p d2 e.1 e.2) (fun e => ¬(W e.1 ↔ W e.2)) (around vs) (by
    rintro ⟨a, b⟩ he
    rw [not_not]
    exact hW a b ((mem_around _ _ _).1 he))
  have hz : ((around vs).countP fun e => @decide (¬(W e.1 ↔ W e.2)) (Classical.propDecidable _)) % 2 = 0 := by
    cases vs with
    | nil => rfl
    | cons a t =>
      have := changes W t a a
      rw [if_pos Iff.rfl] at this
      have e : around (a :: t) = (a :: t).zip (t ++ [a]) := rfl
      rw [e]
      convert this
  unfold crossings
  rw [zip_around, Nat.odd_iff, Nat.odd_iff]
  omega

/-! ## Loops -/

/-- A point of the plane of a loop that is not near any side, from which the ray of the test (from the middle of the first side through the
point) is long enough to leave the loop, passes by no vertex and does not meet a side at so small an angle that it is taken to be parallel. -/
structure Spec.Tested (l : Loop) (p : V3 ℝ) : Prop where
  off : Off l.normal l.vertices p
  away : ∀ a b, Side l.vertices a b → (⟨a, b⟩ : Segment ℝ).containsPoint p = .ok false
  far : ∀ w ∈ l.vertices, w.distance p ≤ 1000 * p.distance (middle l.vertices)
  clear : ∀ a b t s, Side l.vertices a b → 0 ≤ t → t ≤ 1 → 0 ≤ s →
    Segment.Spec.pointAt ⟨a, b⟩ t = p + ((p - middle l.vertices).scale 1000).scale s →
    1 / 2 ^ 52 ≤ t ∧ t < 1 ∧ 1 / 100000 ≤ (((p - middle l.vertices).scale 1000).cross (b - a)).lengthSquared

private theorem next_side {vs : List (V3 ℝ)} {w : V3 ℝ} (hw : w ∈ vs) : ∃ b, Side vs w b := by
  obtain ⟨i, hi, e⟩ := List.getElem_of_mem hw
  have hlt : (i + 1) % vs.length < vs.length := Nat.mod_lt _ (by omega)
  exact ⟨vs[(i + 1) % vs.length], i, by rw [List.getElem?_eq_getElem hi, e], List.getElem?_eq_getElem hlt⟩

private theorem far_squares {p m w : V3 ℝ} (h : w.distance p ≤ 1000 * p.distance m) :
    (w - p).lengthSquared ≤ ((p - m).scale 1000).lengthSquared := by
  unfold V3.distance at h
  have h2 := mul_self_le_mul_self (Real.sqrt_nonneg _) h
  have nn : ∀ x y : V3 ℝ, 0 ≤ x.squaredDistance y := by
    intro x y
    unfold V3.squaredDistance
    nlinarith [mul_self_nonneg (x.x - y.x), mul_self_nonneg (x.y - y.y), mul_self_nonneg (x.z - y.z)]
  rw [Real.mul_self_sqrt (nn _ _), mul_mul_mul_comm, Real.mul_self_sqrt (nn _ _)] at h2
  simp only [V3.squaredDistance, V3.lengthSquared, V3.sub_x, V3.sub_y, V3.sub_z, V3.scale_x, V3.scale_y, V3.scale_z] at h2 ⊢
  linarith

private theorem tested_free {l : Loop} {p : V3 ℝ} (h2 : 2 ≤ l.vertices.length) (ht : Tested l p) :
    Free l.normal l.vertices p ((p - middle l.vertices).scale 1000) := by
  obtain ⟨v0, v1, t, hv⟩ : ∃ v0 v1 t, l.vertices = v0 :: v1 :: t := by
    match hv : l.vertices, h2 with
    | v0 :: v1 :: t, _ => exact ⟨v0, v1, t, rfl⟩
  have hmid : Spec.middle l.vertices = (v0 + v1).scale (1 / 2) := by
    rw [hv]
    unfold Spec.middle
    ext <;> simp <;> ring
  have hs0 : Side l.vertices v0 v1 := ⟨0, by rw [hv]; rfl, by rw [hv, Nat.mod_eq_of_lt (by simp)]; rfl⟩
  refine ⟨fun e => ?_, ?_, fun w hw s hs e => ?_⟩
  · apply ht.off.off v0 v1 hs0 (1 / 2) (by norm_num) (by norm_num)
    rw [hmid] at e
    have x := congrArg V3.x e
    have y := congrArg V3.y e
    have z := congrArg V3.z e
    simp only [V3.scale_x, V3.scale_y, V3.scale_z, V3.sub_x, V3.sub_y, V3.sub_z, V3.add_x, V3.add_y, V3.add_z, V3.zero_x, V3.zero_y, V3.zero_z] at x y z
    unfold Segment.Spec.pointAt
    ext <;> simp only [V3.scale_x, V3.scale_y, V3.scale_z, V3.sub_x, V3.sub_y, V3.sub_z, V3.add_x, V3.add_y, V3.add_z] <;> linarith
  · have q0 := ht.off.flat v0 (side_mem hs0).1
    have q1 := ht.off.flat v1 (side_mem hs0).2
    rw [hmid]
    simp only [V3.dot, V3.sub_x, V3.sub_y, V3.sub_z, V3.scale_x, V3.scale_y, V3.scale_z, V3.add_x, V3.add_y, V3.add_z] at q0 q1 ⊢
    linear_combination (-500) * q0 - 500 * q1
  · obtain ⟨b, hb⟩ := next_side hw
    have := (ht.clear w b 0 s hb le_rfl (by norm_num) hs (by
      rw [← e]
      unfold Segment.Spec.pointAt
      ext <;> simp)).1
    norm_num at this

private theorem positive {d : V3 ℝ} (h : d ≠ 0) : 0 < d.lengthSquared := by
  unfold V3.lengthSquared
  by_contra hle
  apply h
  have e1 : d.x = 0 := by nlinarith [mul_self_nonneg d.x, mul_self_nonneg d.y, mul_self_nonneg d.z]
  have e2 : d.y = 0 := by nlinarith [mul_self_nonneg d.x, mul_self_nonneg d.y, mul_self_nonneg d.z]
  have e3 : d.z = 0 := by nlinarith [mul_self_nonneg d.x, mul_self_nonneg d.y, mul_self_nonneg d.z]
  ext <;> simp [e1, e2, e3]

/-- C68, in part: whatever the loop, also one that is not convex, a point is inside exactly if a ray from it, in any direction of the plane in which
it passes by no vertex, crosses an odd number of sides: the rule of even and odd.  So a point from which one can go straight away without
crossing any side is outside.  Missing: points that are not as in `Spec.Tested`; with a ray that is too short, it fails
(`C68_violated_near`). -/
theorem C68_parity_partial (l : Loop) (p : V3 ℝ) (hc : l.closed = true) (h2 : 2 ≤ l.vertices.length) (hn : l.normal.lengthSquared = 1)
    (ht : Spec.Tested l p) (d : V3 ℝ) (hd : Spec.Free l.normal l.vertices p d) :
    (Odd (Spec.crossings l.vertices p d) → l.testPoint p = .ok true) ∧ (Even (Spec.crossings l.vertices p d) → l.testPoint p = .ok false) := by
  have hfree := tested_free h2 ht
  have heq := C68_even_odd_partial l p hc h2 hn ht.off.flat ht.away fun a b t s hs t0 t1 s0 _ e => ht.clear a b t s hs t0 t1 s0 e
  have hany := C68_any_ray l.normal p l.vertices hn ht.off _ d hfree hd
  have hsame : ((l.vertices.zip (l.vertices.rotate 1)).countP fun e =>
      @decide (Met p ((p - middle l.vertices).scale 1000) e.1 e.2) (Classical.propDecidable _)) =
      crossings l.vertices p ((p - middle l.vertices).scale 1000) := by
    unfold crossings
    rw [zip_around]
    apply List.countP_congr
    rintro ⟨a, b⟩ he
    have hs := (mem_around _ _ _).1 he
    simp only [decide_eq_true_eq]
    constructor
    · rintro ⟨t, s, t0, t1, s0, -, e⟩
      exact ⟨t, s, t0, t1, s0, e⟩
    · rintro ⟨t, s, t0, t1, s0, e⟩
      refine ⟨t, s, t0, t1, s0, ?_, e⟩
      have fa := far_squares (ht.far a (side_mem hs).1)
      have fb := far_squares (ht.far b (side_mem hs).2)
      have hpos := positive hfree.some_
      generalize (p - middle l.vertices).scale 1000 = d0 at *
      have e1 : s ^ 2 * d0.lengthSquared = (Segment.Spec.pointAt ⟨a, b⟩ t - p).lengthSquared := by
        rw [e]
        simp only [V3.lengthSquared, V3.sub_x, V3.sub_y, V3.sub_z, V3.add_x, V3.add_y, V3.add_z, V3.scale_x, V3.scale_y, V3.scale_z]
        ring
      have e2 : (Segment.Spec.pointAt ⟨a, b⟩ t - p).lengthSquared =
          (1 - t) * (a - p).lengthSquared + t * (b - p).lengthSquared - t * (1 - t) * (b - a).lengthSquared := by
        simp only [Segment.Spec.pointAt, V3.lengthSquared, V3.sub_x, V3.sub_y, V3.sub_z, V3.add_x, V3.add_y, V3.add_z, V3.scale_x, V3.scale_y, V3.scale_z]
        ring
      have hba : 0 ≤ (b - a).lengthSquared := by
        unfold V3.lengthSquared
        nlinarith [mul_self_nonneg (b - a).x, mul_self_nonneg (b - a).y, mul_self_nonneg (b - a).z]
      have h1t : 0 ≤ 1 - t := by linarith
      have b1 := mul_le_mul_of_nonneg_left fa h1t
      have b2 := mul_le_mul_of_nonneg_left fb t0
      have b3 := mul_nonneg (mul_nonneg t0 h1t) hba
      have b4 : s ^ 2 * d0.lengthSquared ≤ 1 * d0.lengthSquared := by linarith
      have b5 := le_of_mul_le_mul_right b4 hpos
      nlinarith
  rw [hsame] at heq
  rw [heq]
  constructor
  · intro h
    rw [decide_eq_true (hany.2 h)]
  · intro h
    rw [decide_eq_false]
    rw [hany]
    exact Nat.not_odd_iff_even.2 h

/-- C68, in part: two points have the same answer exactly if the way from one to the other crosses an even number of sides, if it is not towards
a vertex.  Missing: points that are not as in `Spec.Tested`. -/
theorem C68_way_partial (l : Loop) (p q : V3 ℝ) (hc : l.closed = true) (h2 : 2 ≤ l.vertices.length) (hn : l.normal.lengthSquared = 1)
    (hp : Spec.Tested l p) (hq : Spec.Tested l q) (hf : Spec.Free l.normal l.vertices p (q - p)) :
    l.testPoint p = l.testPoint q ↔ Even (Spec.between l.vertices p q) := by
  have add : ∀ s : ℝ, q + (q - p).scale s = p + (q - p).scale (1 + s) := by
    intro s
    ext <;> simp only [V3.add_x, V3.add_y, V3.add_z, V3.sub_x, V3.sub_y, V3.sub_z, V3.scale_x, V3.scale_y, V3.scale_z] <;> ring
  have hf' : Free l.normal l.vertices q (q - p) :=
    ⟨hf.some_, hf.flat, fun w hw s hs e => hf.clear w hw (1 + s) (by linarith) (by rw [e, add])⟩
  have key := parity (fun e => Crossed p (q - p) e.1 e.2) (fun e => Crossed q (q - p) e.1 e.2) (fun e => Met p (q - p) e.1 e.2) (around l.vertices) (by
    rintro ⟨a, b⟩ he
    have hs := (mem_around _ _ _).1 he
    dsimp only
    by_cases hm : Met p (q - p) a b
    · simp only [hm, not_true, iff_false]
      obtain ⟨t, s, t0, t1, s0, s1, e⟩ := hm
      have hcp : Crossed p (q - p) a b := ⟨t, s, t0, t1, s0, e⟩
      intro hiff
      obtain ⟨t', s', t0', t1', s0', e'⟩ := hiff.1 hcp
      rw [add] at e'
      have q1 := (pieces (n := l.normal) t s e).1
      have q2 := (pieces (n := l.normal) t' (1 + s') e').1
      have hne : side l.normal p (q - p) a ≠ side l.normal p (q - p) b := by
        rcases (crossed_side hn hp.off hf hs).1 hcp with h | h
        · exact (by linarith [h.1, h.2.1] : side l.normal p (q - p) a < side l.normal p (q - p) b).ne
        · exact (by linarith [h.1, h.2.1] : side l.normal p (q - p) b < side l.normal p (q - p) a).ne'
      have ett : t = t' := by
        have : (t - t') * (side l.normal p (q - p) b - side l.normal p (q - p) a) = 0 := by linear_combination q1 - q2
        rcases mul_eq_zero.1 this with h | h
        · linarith
        · exact absurd (by linarith) hne
      subst ett
      rw [e] at e'
      have es : s = 1 + s' := by
        by_contra hss
        apply hf.some_
        have x := congrArg V3.x e'
        have y := congrArg V3.y e'
        have z := congrArg V3.z e'
        simp only [V3.add_x, V3.add_y, V3.add_z, V3.scale_x, V3.scale_y, V3.scale_z] at x y z
        have hz : s - (1 + s') ≠ 0 := sub_ne_zero.2 hss
        ext
        · exact (mul_eq_zero.1 (by linear_combination x : (q - p).x * (s - (1 + s')) = 0)).resolve_right hz
        · exact (mul_eq_zero.1 (by linear_combination y : (q - p).y * (s - (1 + s')) = 0)).resolve_right hz
        · exact (mul_eq_zero.1 (by linear_combination z : (q - p).z * (s - (1 + s')) = 0)).resolve_right hz
      have s1' : s = 1 := by linarith
      apply hq.off.off a b hs t t0 t1
      rw [e, s1']
      ext <;> simp
    · simp only [hm, not_false_iff, iff_true]
      constructor
      · rintro ⟨t, s, t0, t1, s0, e⟩
        have hlt : 1 < s := by
          by_contra hle
          exact hm ⟨t, s, t0, t1, s0, not_lt.1 hle, e⟩
        refine ⟨t, s - 1, t0, t1, by linarith, ?_⟩
        rw [add, e]
        congr 2
        ring
      · rintro ⟨t, s, t0, t1, s0, e⟩
        exact ⟨t, 1 + s, t0, t1, by linarith, by rw [e, add]⟩)
  obtain ⟨p1, p2⟩ := C68_parity_partial l p hc h2 hn hp _ hf
  obtain ⟨q1, q2⟩ := C68_parity_partial l q hc h2 hn hq _ hf'
  unfold crossings at p1 p2 q1 q2
  unfold between
  rw [zip_around] at *
  rw [Nat.even_iff]
  generalize List.countP _ _ = P at key p1 p2
  generalize List.countP _ _ = Q at key q1 q2
  generalize List.countP _ _ = X at key ⊢
  rcases Nat.even_or_odd P with h | h <;> rcases Nat.even_or_odd Q with h' | h'
  · rw [p2 h, q2 h']
    rw [Nat.even_iff] at h h'
    simp; omega
  · rw [p2 h, q1 h']
    rw [Nat.even_iff] at h
    rw [Nat.odd_iff] at h'
    simp; omega
  · rw [p1 h, q2 h']
    rw [Nat.even_iff] at h'
    rw [Nat.odd_iff] at h
    simp; omega
  · rw [p1 h, q1 h']
    rw [Nat.odd_iff] at h h'
    simp; omega

/-! ## Cases -/

/-- A loop in the form of an L. -/
private noncomputable def ell : Loop :=
  ⟨[⟨0, 0, 0⟩, ⟨4, 0, 0⟩, ⟨4, 2, 0⟩, ⟨2, 2, 0⟩, ⟨2, 4, 0⟩, ⟨0, 4, 0⟩], ⟨0, 0, 1⟩, true, 12, 16⟩

private theorem ell_sides (a b : V3 ℝ) (h : Side ell.vertices a b) :
    (a = ⟨0, 0, 0⟩ ∧ b = ⟨4, 0, 0⟩) ∨ (a = ⟨4, 0, 0⟩ ∧ b = ⟨4, 2, 0⟩) ∨ (a = ⟨4, 2, 0⟩ ∧ b = ⟨2, 2, 0⟩) ∨
      (a = ⟨2, 2, 0⟩ ∧ b = ⟨2, 4, 0⟩) ∨ (a = ⟨2, 4, 0⟩ ∧ b = ⟨0, 4, 0⟩) ∨ (a = ⟨0, 4, 0⟩ ∧ b = ⟨0, 0, 0⟩) := by
  have := (mem_around _ _ _).2 h
  simpa [ell, around] using this

private theorem ell_tested (x : ℝ) (hx : x = 1 ∨ x = 3) : Tested ell ⟨x, 3, 0⟩ := by
  have hmid : Spec.middle ell.vertices = ⟨2, 0, 0⟩ := by norm_num [ell, Spec.middle]
  refine ⟨⟨?_, ?_⟩, ?_, ?_, ?_⟩
  · intro w hw
    simp only [ell, List.mem_cons, List.not_mem_nil, or_false] at hw
    rcases hw with rfl | rfl | rfl | rfl | rfl | rfl <;> simp [ell, V3.dot]
  · intro a b hab t t0 t1 e
    have e1 := congrArg V3.x e
    have e2 := congrArg V3.y e
    rcases hx with rfl | rfl <;>
      rcases ell_sides a b hab with ⟨rfl, rfl⟩ | ⟨rfl, rfl⟩ | ⟨rfl, rfl⟩ | ⟨rfl, rfl⟩ | ⟨rfl, rfl⟩ | ⟨rfl, rfl⟩ <;>
      simp only [Segment.Spec.pointAt, V3.add_x, V3.add_y, V3.sub_x, V3.sub_y, V3.scale_x, V3.scale_y] at e1 e2 <;> linarith
  · intro a b hab
    rcases hx with rfl | rfl <;>
      rcases ell_sides a b hab with ⟨rfl, rfl⟩ | ⟨rfl, rfl⟩ | ⟨rfl, rfl⟩ | ⟨rfl, rfl⟩ | ⟨rfl, rfl⟩ | ⟨rfl, rfl⟩ <;>
      norm_num [Segment.containsPoint, V3.distance, V3.squaredDistance, isCollinear_eq, V3.compare, V3.compareBy, V3.lengthSquared, Outcome.bind]
  · intro w hw
    rw [hmid]
    unfold V3.distance
    have h1 : (3 : ℝ) ≤ Real.sqrt ((⟨x, 3, 0⟩ : V3 ℝ).squaredDistance ⟨2, 0, 0⟩) := by
      apply Real.le_sqrt_of_sq_le
      rcases hx with rfl | rfl <;> norm_num [V3.squaredDistance]
    have h2 : Real.sqrt (w.squaredDistance ⟨x, 3, 0⟩) ≤ 100 := by
      rw [Real.sqrt_le_left (by norm_num)]
      simp only [ell, List.mem_cons, List.not_mem_nil, or_false] at hw
      rcases hx with rfl | rfl <;> rcases hw with rfl | rfl | rfl | rfl | rfl | rfl <;> norm_num [V3.squaredDistance]
    linarith
  · intro a b t s hab t0 t1 s0 e
    rw [hmid] at e ⊢
    have e1 := congrArg V3.x e
    have e2 := congrArg V3.y e
    rcases hx with rfl | rfl <;>
      rcases ell_sides a b hab with ⟨rfl, rfl⟩ | ⟨rfl, rfl⟩ | ⟨rfl, rfl⟩ | ⟨rfl, rfl⟩ | ⟨rfl, rfl⟩ | ⟨rfl, rfl⟩ <;>
      simp only [Segment.Spec.pointAt, V3.add_x, V3.add_y, V3.sub_x, V3.sub_y, V3.scale_x, V3.scale_y] at e1 e2 <;>
      first
      | (exfalso; linarith)
      | exact ⟨by norm_num; linarith, by linarith, by norm_num [V3.lengthSquared]⟩

private theorem ell_free (x : ℝ) : Free ell.normal ell.vertices ⟨x, 3, 0⟩ ⟨2, 0, 0⟩ := by
  refine ⟨fun e => ?_, by simp [ell, V3.dot], ?_⟩
  · have := congrArg V3.x e
    norm_num at this
  · intro w hw s hs e
    have e2 := congrArg V3.y e
    simp only [ell, List.mem_cons, List.not_mem_nil, or_false] at hw
    rcases hw with rfl | rfl | rfl | rfl | rfl | rfl <;> simp only [V3.add_y, V3.scale_y] at e2 <;> linarith

/-- A point in the notch of the L is outside: the ray from it along the first axis meets no side. -/
example : ell.testPoint ⟨3, 3, 0⟩ = .ok false := by
  apply (C68_parity_partial ell _ rfl (by simp [ell]) (by norm_num [ell, V3.lengthSquared]) (ell_tested 3 (.inr rfl)) _
    (ell_free 3)).2
  have : crossings ell.vertices ⟨3, 3, 0⟩ ⟨2, 0, 0⟩ = 0 := by
    unfold crossings
    rw [zip_around, List.countP_eq_zero]
    rintro ⟨a, b⟩ he
    simp only [decide_eq_true_eq]
    rintro ⟨t, s, t0, t1, s0, e⟩
    have e1 := congrArg V3.x e
    have e2 := congrArg V3.y e
    rcases ell_sides a b ((mem_around _ _ _).1 he) with ⟨rfl, rfl⟩ | ⟨rfl, rfl⟩ | ⟨rfl, rfl⟩ | ⟨rfl, rfl⟩ | ⟨rfl, rfl⟩ | ⟨rfl, rfl⟩ <;>
      simp only [Segment.Spec.pointAt, V3.add_x, V3.add_y, V3.sub_x, V3.sub_y, V3.scale_x, V3.scale_y] at e1 e2 <;> linarith
  rw [this]
  exact ⟨0, rfl⟩

/-- And a point in its arm, from which one comes to the notch across one side, has the other answer. -/
example : ell.testPoint ⟨1, 3, 0⟩ ≠ ell.testPoint ⟨3, 3, 0⟩ := by
  have hv : (⟨3, 3, 0⟩ : V3 ℝ) - ⟨1, 3, 0⟩ = ⟨2, 0, 0⟩ := by ext <;> norm_num
  have hw := C68_way_partial ell ⟨1, 3, 0⟩ ⟨3, 3, 0⟩ rfl (by simp [ell]) (by norm_num [ell, V3.lengthSquared]) (ell_tested 1 (.inl rfl))
    (ell_tested 3 (.inr rfl)) (by rw [hv]; exact ell_free 1)
  rw [Ne, hw]
  have : between ell.vertices ⟨1, 3, 0⟩ ⟨3, 3, 0⟩ = 1 := by
    unfold between
    rw [zip_around, hv]
    have : ∀ e ∈ around ell.vertices, (Met ⟨1, 3, 0⟩ ⟨2, 0, 0⟩ e.1 e.2 ↔ (e.1.x = 2 ∧ e.1.y = 2)) := by
      rintro ⟨a, b⟩ he
      constructor
      · rintro ⟨t, s, t0, t1, s0, s1, e⟩
        have e1 := congrArg V3.x e
        have e2 := congrArg V3.y e
        rcases ell_sides a b ((mem_around _ _ _).1 he) with ⟨rfl, rfl⟩ | ⟨rfl, rfl⟩ | ⟨rfl, rfl⟩ | ⟨rfl, rfl⟩ | ⟨rfl, rfl⟩ | ⟨rfl, rfl⟩ <;>
          simp only [Segment.Spec.pointAt, V3.add_x, V3.add_y, V3.sub_x, V3.sub_y, V3.scale_x, V3.scale_y] at e1 e2 <;>
          first
          | (exfalso; linarith)
          | exact ⟨rfl, rfl⟩
      · rintro ⟨h1, h2⟩
        rcases ell_sides a b ((mem_around _ _ _).1 he) with ⟨rfl, rfl⟩ | ⟨rfl, rfl⟩ | ⟨rfl, rfl⟩ | ⟨rfl, rfl⟩ | ⟨rfl, rfl⟩ | ⟨rfl, rfl⟩ <;>
          dsimp only at h1 h2 <;> try (exfalso; linarith)
        refine ⟨1 / 2, 1 / 2, by norm_num, by norm_num, by norm_num, by norm_num, ?_⟩
        ext <;> norm_num [Segment.Spec.pointAt]
    classical
    rw [List.countP_congr (q := fun e => decide (e.1.x = 2 ∧ e.1.y = 2)) fun e he => by simp only [decide_eq_true_eq]; exact this e he]
    norm_num [ell, around, List.countP_cons]
  rw [this]
  decide

end Simple.Geometry.Loop
