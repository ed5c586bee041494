import Mathlib.Tactic.NormNum
import Mathlib.Tactic.Linarith
import Mathlib.Tactic.Ring
import Mathlib.Tactic.FieldSimp
import Mathlib.Tactic.Positivity
import Mathlib.Tactic.LinearCombination
import Verif.Geometry.VecModel

/-! # C64: vectors and points -/

namespace Simple.Geometry.V3

namespace Spec

/-- One of two vectors is a multiple of the other. -/
def Parallel (a b : V3 ℝ) : Prop := (∃ t : ℝ, a = b.scale t) ∨ ∃ t : ℝ, b = a.scale t

/-- Three points are on a line. -/
def Collinear (a b c : V3 ℝ) : Prop := ∃ p d : V3 ℝ, ∀ q ∈ [a, b, c], ∃ t : ℝ, q = p + d.scale t

end Spec

/-- Lagrange's identity. -/
theorem lagrange {K : Type*} [Field K] (a b : V3 K) :
    (a.cross b).lengthSquared = a.lengthSquared * b.lengthSquared - a.dot b * a.dot b := by
  simp only [lengthSquared, dot, cross]; ring

private theorem lengthSquared_nonneg (a : V3 ℝ) : 0 ≤ a.lengthSquared := by
  unfold lengthSquared; linarith [mul_self_nonneg a.x, mul_self_nonneg a.y, mul_self_nonneg a.z]

private theorem lengthSquared_zero {a : V3 ℝ} (h : a.lengthSquared = 0) : a = 0 := by
  unfold lengthSquared at h
  have hx : a.x = 0 := by nlinarith [mul_self_nonneg a.x, mul_self_nonneg a.y, mul_self_nonneg a.z]
  have hy : a.y = 0 := by nlinarith [mul_self_nonneg a.x, mul_self_nonneg a.y, mul_self_nonneg a.z]
  have hz : a.z = 0 := by nlinarith [mul_self_nonneg a.x, mul_self_nonneg a.y, mul_self_nonneg a.z]
  ext <;> assumption

private theorem length_sq (a : V3 ℝ) : a.length * a.length = a.lengthSquared :=
  Real.mul_self_sqrt (lengthSquared_nonneg a)

/-- C64: the cross product is perpendicular to both factors, changes sign with their order, and is as long as the
parallelogram they make is large. -/
theorem C64_cross (a b : V3 ℝ) :
    (a.cross b).dot a = 0 ∧ (a.cross b).dot b = 0 ∧ a.cross b = -(b.cross a) ∧
    (a.cross b).lengthSquared + a.dot b ^ 2 = a.lengthSquared * b.lengthSquared := by
  refine ⟨by simp only [dot, cross]; ring, by simp only [dot, cross]; ring, ?_, by rw [lagrange]; ring⟩
  ext <;> simp <;> ring

/-- C64: unless it is tiny, a normalised vector has length one and is a positive multiple of the vector; a tiny one
is refused. -/
theorem C64_normalize (a : V3 ℝ) :
    (1 / 10 ^ 20 < a.lengthSquared → ∃ n, a.normalize = .ok n ∧ n.length = 1 ∧ a = n.scale a.length) ∧
    (a.lengthSquared ≤ 1 / 10 ^ 20 → a.normalize = .panic) := by
  constructor
  · intro h
    have hpos : 0 < a.lengthSquared := lt_trans (by norm_num) h
    have hs : 0 < Real.sqrt a.lengthSquared := Real.sqrt_pos.2 hpos
    refine ⟨_, by unfold normalize; rw [if_pos h], ?_, ?_⟩
    · have : (a.scale (1 / Real.sqrt a.lengthSquared)).lengthSquared = 1 := by
        have h2 := Real.mul_self_sqrt hpos.le
        generalize Real.sqrt a.lengthSquared = S at hs h2
        simp only [lengthSquared, scale] at h2 ⊢
        field_simp
        linarith
      unfold length
      rw [this, Real.sqrt_one]
    · unfold length
      ext <;> simp only [scale] <;> field_simp
  · intro h
    unfold normalize
    rw [if_neg (not_lt.2 h)]

private theorem perp2 {x y S : ℝ} (hx : x ≠ 0) (hS : 0 < S) (h : S * S = x * x + y * y) :
    -y * (x / S) / x * (-y * (x / S) / x) + x / S * (x / S) = 1 := by
  field_simp
  linarith

/-- The perpendicular of a vector that is not tiny. -/
theorem perpendicular_of (a : V3 ℝ) (h : tiny < |a.x| ∨ tiny < |a.y| ∨ tiny < |a.z|) :
    ∃ p, a.getPerpendicular = .ok p ∧ p.length = 1 ∧ a.dot p = 0 := by
  have ht : (0 : ℝ) < tiny := by unfold tiny; positivity
  have ne0 : ∀ t : ℝ, tiny < |t| → t ≠ 0 := by
    intro t h e
    rw [e, abs_zero] at h
    linarith
  have hlen : ∀ p : V3 ℝ, p.lengthSquared = 1 → p.length = 1 := fun p h => by unfold length; rw [h, Real.sqrt_one]
  unfold getPerpendicular
  by_cases hx : tiny < |a.x|
  · rw [if_pos hx]
    have hx0 := ne0 _ hx
    have hp : 0 < a.x * a.x + a.y * a.y := by nlinarith [mul_self_pos.2 hx0, mul_self_nonneg a.y]
    have hS := Real.sqrt_pos.2 hp
    have hS2 := Real.mul_self_sqrt hp.le
    refine ⟨_, rfl, hlen _ ?_, ?_⟩
    · simp only [lengthSquared]
      rw [mul_zero, add_zero]
      exact perp2 hx0 hS hS2
    · simp only [dot]
      field_simp
      ring
  rw [if_neg hx]
  by_cases hy : tiny < |a.y|
  · rw [if_pos hy]
    have hy0 := ne0 _ hy
    have hp : 0 < a.x * a.x + a.y * a.y := by nlinarith [mul_self_pos.2 hy0, mul_self_nonneg a.x]
    have hS := Real.sqrt_pos.2 hp
    have hS2 := Real.mul_self_sqrt hp.le
    refine ⟨_, rfl, hlen _ ?_, ?_⟩
    · simp only [lengthSquared]
      rw [mul_zero, add_zero, add_comm]
      exact perp2 hy0 hS (by rw [hS2]; ring)
    · simp only [dot]
      field_simp
      ring
  rw [if_neg hy]
  have hz : tiny < |a.z| := (h.resolve_left hx).resolve_left hy
  rw [if_pos hz]
  have hz0 := ne0 _ hz
  have hp : 0 < a.z * a.z + a.x * a.x := by nlinarith [mul_self_pos.2 hz0, mul_self_nonneg a.x]
  have hS := Real.sqrt_pos.2 hp
  have hS2 := Real.mul_self_sqrt hp.le
  refine ⟨_, rfl, hlen _ ?_, ?_⟩
  · simp only [lengthSquared]
    rw [mul_zero, add_zero, add_comm]
    exact perp2 hz0 hS hS2
  · simp only [dot]
    field_simp
    ring

/-- C64: unless the vector is tiny, the perpendicular has length one and is exactly perpendicular. -/
theorem C64_perpendicular (a : V3 ℝ) (h : a.isZero = false) (hb : |a.x| ≠ tiny ∧ |a.y| ≠ tiny ∧ |a.z| ≠ tiny) :
    ∃ p, a.getPerpendicular = .ok p ∧ p.length = 1 ∧ a.dot p = 0 := by
  refine perpendicular_of a ?_
  by_contra hc
  rw [not_or, not_or, not_lt, not_lt, not_lt] at hc
  unfold isZero at h
  exact (of_decide_eq_false h) ⟨lt_of_le_of_ne hc.1 hb.1, lt_of_le_of_ne hc.2.1 hb.2.1, lt_of_le_of_ne hc.2.2 hb.2.2⟩

/-- C64: the squared distance to a line is the least of those to its points. -/
theorem C64_distance_to_line (p a b : V3 ℝ) (h : a.compareBy b (1 / 100000) = false) :
    ∃ d, p.squaredDistanceToLine a b = .ok d ∧ (∃ t : ℝ, p.squaredDistance (a + (b - a).scale t) = d) ∧
      ∀ t : ℝ, d ≤ p.squaredDistance (a + (b - a).scale t) := by
  have hl : 1 / 10 ^ 20 < (b - a).lengthSquared := by
    unfold compareBy at h
    have := of_decide_eq_false h
    rw [not_le] at this
    have e : (a - b).lengthSquared = (b - a).lengthSquared := by simp only [lengthSquared, sub_x, sub_y, sub_z]; ring
    rw [e] at this
    refine lt_trans ?_ this
    norm_num
  obtain ⟨n, hn, h1, h2⟩ := (C64_normalize (b - a)).1 hl
  have hn1 : n.lengthSquared = 1 := by
    have := length_sq n
    rw [h1] at this
    linarith
  have hlen : 0 < (b - a).length := Real.sqrt_pos.2 (lt_trans (by norm_num) hl)
  unfold squaredDistanceToLine
  rw [if_neg (by rw [h]; simp), hn]
  simp only [Outcome.bind]
  -- the distance to the point at `u` units along the line
  have key : ∀ u : ℝ, p.squaredDistance (a + n.scale u) =
      ((p - a) - n.scale ((p - a).dot n)).lengthSquared + (u - (p - a).dot n) ^ 2 := by
    intro u
    simp only [lengthSquared] at hn1
    simp only [squaredDistance, lengthSquared, dot, sub_x, sub_y, sub_z, add_x, add_y, add_z, scale_x, scale_y, scale_z]
    generalize hX : p.x - a.x = X
    generalize hY : p.y - a.y = Y
    generalize hZ : p.z - a.z = Z
    rw [show p.x = X + a.x by linarith, show p.y = Y + a.y by linarith, show p.z = Z + a.z by linarith]
    linear_combination (u ^ 2 - (X * n.x + Y * n.y + Z * n.z) ^ 2) * hn1
  have hpt : ∀ t : ℝ, (b - a).scale t = n.scale ((b - a).length * t) := by
    intro t
    conv_lhs => rw [h2]
    ext <;> simp <;> ring
  refine ⟨_, rfl, ⟨(p - a).dot n / (b - a).length, ?_⟩, fun t => ?_⟩
  · rw [hpt, mul_div_cancel₀ _ hlen.ne', key]
    simp
  · rw [hpt, key]
    nlinarith [sq_nonneg ((b - a).length * t - (p - a).dot n)]

/-- C64: the projection into a plane with a unit normal lies in the plane, is the nearest of its points, and is
the point itself when that lies in the plane. -/
theorem C64_projection (p anchor normal : V3 ℝ) (hn : normal.lengthSquared = 1) :
    (p.projectIntoPlane anchor normal - anchor).dot normal = 0 ∧
    (∀ q : V3 ℝ, (q - anchor).dot normal = 0 →
      p.squaredDistance (p.projectIntoPlane anchor normal) ≤ p.squaredDistance q) ∧
    ((p - anchor).dot normal = 0 → p.projectIntoPlane anchor normal = p) := by
  simp only [lengthSquared] at hn
  refine ⟨?_, fun q hq => ?_, fun h => ?_⟩
  · simp only [projectIntoPlane, distanceToPlane, dot, sub_x, sub_y, sub_z, scale_x, scale_y, scale_z]
    linear_combination (-((p.x - anchor.x) * normal.x + (p.y - anchor.y) * normal.y + (p.z - anchor.z) * normal.z)) * hn
  · have e : p.squaredDistance (p.projectIntoPlane anchor normal) = ((p - q).dot normal) ^ 2 := by
      have : (p - q).dot normal = (p - anchor).dot normal := by
        simp only [dot, sub_x, sub_y, sub_z] at hq ⊢
        linarith
      rw [this]
      simp only [squaredDistance, projectIntoPlane, distanceToPlane, dot, sub_x, sub_y, sub_z, scale_x, scale_y, scale_z]
      linear_combination (((p.x - anchor.x) * normal.x + (p.y - anchor.y) * normal.y + (p.z - anchor.z) * normal.z) ^ 2) * hn
    rw [e]
    have hc := lagrange (p - q) normal
    have h0 := lengthSquared_nonneg ((p - q).cross normal)
    have h1 : normal.lengthSquared = 1 := hn
    have h2 : (p - q).lengthSquared = p.squaredDistance q := by
      simp only [lengthSquared, squaredDistance, sub_x, sub_y, sub_z]
    rw [h1, h2] at hc
    nlinarith
  · unfold projectIntoPlane distanceToPlane
    rw [h]
    ext <;> simp

private theorem isZero_of_zero : (0 : V3 ℝ).isZero = true := by
  unfold isZero tiny
  rw [decide_eq_true_iff]
  simp

/-- C64: two parallel vectors, neither of them tiny, are always reported as parallel; and two vectors reported
as parallel make a parallelogram whose squared area is less than 1e-5. -/
theorem C64_parallel_partial (a b : V3 ℝ) :
    (a.isZero = false → b.isZero = false → Spec.Parallel a b → a.isParallel b = true) ∧
    (a.isParallel b = true → (a.cross b).lengthSquared < 1 / 100000 ∧ a.isZero = false ∧ b.isZero = false) ∧
    (a.isSameDirection b = true ↔ a.isParallel b = true ∧ 0 < a.dot b) := by
  refine ⟨fun ha hb h => ?_, fun h => ?_, ?_⟩
  · have hz : (a.cross b).lengthSquared = 0 := by
      rcases h with ⟨t, rfl⟩ | ⟨t, rfl⟩ <;> simp only [lengthSquared, cross, scale] <;> ring
    rw [lagrange] at hz
    unfold isParallel
    rw [ha, hb]
    simp only [Bool.or_self, Bool.false_eq_true, if_false, decide_eq_true_eq]
    rw [show a.dot b * a.dot b - a.lengthSquared * b.lengthSquared = 0 by linarith, abs_zero]
    norm_num
  · unfold isParallel at h
    by_cases hz : (b.isZero || a.isZero) = true
    · rw [if_pos hz] at h; cases h
    rw [if_neg hz, decide_eq_true_iff] at h
    rw [lagrange]
    have := (abs_lt.1 h).1
    refine ⟨by linarith, ?_, ?_⟩
    · cases ha : a.isZero with
      | false => rfl
      | true => exact absurd (by rw [ha]; simp) hz
    · cases hb : b.isZero with
      | false => rfl
      | true => exact absurd (by rw [hb]; simp) hz
  · unfold isSameDirection
    cases a.isParallel b <;> simp

/-- C64 fails: two perpendicular vectors of a centimetre are reported as parallel. -/
theorem C64_violated_parallel :
    ∃ a b : V3 ℝ, a.dot b = 0 ∧ a.length = 1 / 100 ∧ b.length = 1 / 100 ∧ a.isParallel b = true := by
  refine ⟨⟨1 / 100, 0, 0⟩, ⟨0, 1 / 100, 0⟩, by norm_num [dot], ?_, ?_, ?_⟩
  · unfold length lengthSquared
    rw [show (1 / 100 : ℝ) * (1 / 100) + 0 * 0 + 0 * 0 = (1 / 100) ^ 2 by norm_num, Real.sqrt_sq (by norm_num)]
  · unfold length lengthSquared
    rw [show (0 : ℝ) * 0 + 1 / 100 * (1 / 100) + 0 * 0 = (1 / 100) ^ 2 by norm_num, Real.sqrt_sq (by norm_num)]
  · unfold isParallel
    rw [if_neg]
    · rw [decide_eq_true_iff]
      norm_num [dot, lengthSquared, abs_lt]
    · norm_num [isZero, tiny, abs_lt, abs_of_pos]

private theorem compare_eq (a b : V3 ℝ) : a.compare b = decide (a.squaredDistance b ≤ 1 / 10 ^ 6) := by
  unfold compare compareBy
  congr 1
  simp only [lengthSquared, squaredDistance, sub_x, sub_y, sub_z]
  norm_num

/-- C64: three points on a line are always reported as collinear, unless the first one is within a millimetre of
both the others, which is refused. -/
theorem C64_collinear_partial (a b c : V3 ℝ) (hc : Spec.Collinear a b c)
    (h : ¬ (a.squaredDistance b ≤ 1 / 10 ^ 6 ∧ a.squaredDistance c ≤ 1 / 10 ^ 6)) :
    a.isCollinear b c = .ok true := by
  obtain ⟨p, d, hl⟩ := hc
  obtain ⟨t1, e1⟩ := hl a (by simp)
  obtain ⟨t2, e2⟩ := hl b (by simp)
  obtain ⟨t3, e3⟩ := hl c (by simp)
  unfold isCollinear
  rw [compare_eq a b, compare_eq a c, compare_eq b c]
  rw [if_neg (by simpa using h)]
  split_ifs
  · rfl
  · have : ((b - a).cross (c - b)).lengthSquared = 0 := by
      rw [e1, e2, e3]
      simp only [lengthSquared, cross, sub_x, sub_y, sub_z, add_x, add_y, add_z, scale_x, scale_y, scale_z]
      ring
    unfold length
    rw [this]
    simp

/-- C64 fails: the corners of a right triangle whose legs are two millimetres long are reported as collinear. -/
theorem C64_violated_collinear :
    ∃ a b c : V3 ℝ, ¬ Spec.Collinear a b c ∧ a.isCollinear b c = .ok true := by
  refine ⟨⟨2 / 1000, 0, 0⟩, ⟨0, 0, 0⟩, ⟨0, 2 / 1000, 0⟩, ?_, ?_⟩
  · rintro ⟨p, d, hl⟩
    obtain ⟨t1, e1⟩ := hl ⟨2 / 1000, 0, 0⟩ (by simp)
    obtain ⟨t2, e2⟩ := hl ⟨0, 0, 0⟩ (by simp)
    obtain ⟨t3, e3⟩ := hl ⟨0, 2 / 1000, 0⟩ (by simp)
    have x1 := congrArg V3.x e1
    have x2 := congrArg V3.x e2
    have x3 := congrArg V3.x e3
    have y1 := congrArg V3.y e1
    have y2 := congrArg V3.y e2
    have y3 := congrArg V3.y e3
    simp only [add_x, add_y, scale_x, scale_y] at x1 x2 x3 y1 y2 y3
    have hx : d.x * (t1 - t2) = 2 / 1000 := by linarith
    have hx' : d.x * (t3 - t2) = 0 := by linarith
    have hy : d.y * (t1 - t2) = 0 := by linarith
    have hy' : d.y * (t3 - t2) = 2 / 1000 := by linarith
    have : (d.x * (t1 - t2)) * (d.y * (t3 - t2)) = (d.x * (t3 - t2)) * (d.y * (t1 - t2)) := by ring
    rw [hx, hx', hy, hy'] at this
    norm_num at this
  · unfold isCollinear
    rw [compare_eq, compare_eq, compare_eq]
    rw [if_neg (by norm_num [squaredDistance]), if_neg (by norm_num [squaredDistance])]
    congr 1
    rw [decide_eq_true_iff]
    unfold length lengthSquared cross
    simp only [sub_x, sub_y, sub_z]
    rw [Real.sqrt_lt' (by norm_num)]
    norm_num

/-- A vector, a line and a plane that meet the hypotheses. -/
example : (1 / 10 ^ 20 : ℝ) < (⟨1, 2, 2⟩ : V3 ℝ).lengthSquared ∧ (⟨1, 2, 2⟩ : V3 ℝ).isZero = false ∧
    (⟨0, 0, 0⟩ : V3 ℝ).compareBy ⟨1, 2, 2⟩ (1 / 100000) = false ∧ (⟨3 / 5, 0, 4 / 5⟩ : V3 ℝ).lengthSquared = 1 := by
  refine ⟨by norm_num [lengthSquared], ?_, ?_, by norm_num [lengthSquared]⟩
  · unfold isZero tiny
    rw [decide_eq_false_iff_not]
    norm_num
  · unfold compareBy
    rw [decide_eq_false_iff_not]
    norm_num [lengthSquared]

end Simple.Geometry.V3
