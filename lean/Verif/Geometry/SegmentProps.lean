import Mathlib.Tactic.NormNum
import Mathlib.Tactic.Linarith
import Mathlib.Tactic.Ring
import Mathlib.Tactic.FieldSimp
import Mathlib.Tactic.Positivity
import Mathlib.Tactic.LinearCombination
import Verif.Geometry.SegmentModel
import Verif.Geometry.VecProps

/-! # C46: segments -/

namespace Simple.Geometry.Segment

namespace Spec

variable {K : Type*} [Field K]

/-- The point of the line of a segment at a fraction of its length. -/
def pointAt (s : Segment K) (t : K) : V3 K := s.start + (s.fin - s.start).scale t

/-- The cross product of the directions of two segments. -/
def normal (a b : Segment K) : V3 K := (a.fin - a.start).cross (b.fin - b.start)

/-- Two segments are in one plane. -/
def Coplanar (a b : Segment K) : Prop := (a.start - b.start).dot (normal a b) = 0

end Spec

variable {K : Type*} [Field K] [LinearOrder K] [IsStrictOrderedRing K]

/-- What `getIntersectionPt` found, in the three cases. -/
private theorem cases_of (a b : Segment K) (ta tb : K) (h : a.getIntersectionPt b = some (ta, tb)) :
    |(a.start - b.start).dot (Spec.normal a b)| ≤ 1 / 100000 ∧
    ((1 / 100000 < |(Spec.normal a b).z| ∧ (Spec.pointAt a ta - Spec.pointAt b tb).x = 0 ∧
        (Spec.pointAt a ta - Spec.pointAt b tb).y = 0 ∧
        (Spec.pointAt a ta - Spec.pointAt b tb).z * (Spec.normal a b).z = (a.start - b.start).dot (Spec.normal a b)) ∨
      (1 / 100000 < |(Spec.normal a b).x| ∧ (Spec.pointAt a ta - Spec.pointAt b tb).y = 0 ∧
        (Spec.pointAt a ta - Spec.pointAt b tb).z = 0 ∧
        (Spec.pointAt a ta - Spec.pointAt b tb).x * (Spec.normal a b).x = (a.start - b.start).dot (Spec.normal a b)) ∨
      (1 / 100000 < |(Spec.normal a b).y| ∧ (Spec.pointAt a ta - Spec.pointAt b tb).x = 0 ∧
        (Spec.pointAt a ta - Spec.pointAt b tb).z = 0 ∧
        (Spec.pointAt a ta - Spec.pointAt b tb).y * (Spec.normal a b).y = (a.start - b.start).dot (Spec.normal a b))) := by
  have hg : ∀ ta tb, Spec.pointAt a ta - Spec.pointAt b tb =
      (a.start - b.start) + ((a.fin - a.start).scale ta - (b.fin - b.start).scale tb) := by
    intro ta tb
    ext <;> simp [Spec.pointAt] <;> ring
  rw [hg]
  unfold getIntersectionPt at h
  dsimp only at h
  unfold Spec.normal
  generalize a.fin - a.start = d1 at *
  generalize b.fin - b.start = d2 at *
  generalize a.start - b.start = δ at *
  have pos : (0 : K) < 1 / 100000 := by positivity
  have ne : ∀ x : K, 1 / 100000 < |x| → x ≠ 0 := by
    rintro x hx rfl
    rw [abs_zero] at hx
    linarith
  split_ifs at h with h1 h2 h3 h4 h5
  · refine ⟨not_lt.1 h2, Or.inl ⟨h3, ?_⟩⟩
    have hd : d1.y * d2.x - d1.x * d2.y ≠ 0 := by
      have := ne _ h3
      intro h0
      apply this
      simp only [V3.cross_z]; linear_combination -h0
    obtain ⟨D, hD⟩ : ∃ D, D = d1.y * d2.x - d1.x * d2.y := ⟨_, rfl⟩
    rw [← hD] at hd h
    simp only [Option.some.injEq, Prod.mk.injEq] at h
    obtain ⟨rfl, rfl⟩ := h
    simp only [V3.add_x, V3.add_y, V3.add_z, V3.sub_x, V3.sub_y, V3.sub_z, V3.scale_x, V3.scale_y, V3.scale_z,
      V3.cross_z, V3.dot, V3.cross_x, V3.cross_y]
    refine ⟨?_, ?_, ?_⟩ <;> field_simp <;> rw [hD] <;> ring
  · refine ⟨not_lt.1 h2, Or.inr (Or.inl ⟨h4, ?_⟩)⟩
    have hd : d1.y * d2.z - d1.z * d2.y ≠ 0 := by
      have := ne _ h4
      intro h0
      apply this
      simp only [V3.cross_x]; linear_combination h0
    obtain ⟨D, hD⟩ : ∃ D, D = d1.y * d2.z - d1.z * d2.y := ⟨_, rfl⟩
    rw [← hD] at hd h
    simp only [Option.some.injEq, Prod.mk.injEq] at h
    obtain ⟨rfl, rfl⟩ := h
    simp only [V3.add_x, V3.add_y, V3.add_z, V3.sub_x, V3.sub_y, V3.sub_z, V3.scale_x, V3.scale_y, V3.scale_z,
      V3.cross_z, V3.dot, V3.cross_x, V3.cross_y]
    refine ⟨?_, ?_, ?_⟩ <;> field_simp <;> rw [hD] <;> ring
  · refine ⟨not_lt.1 h2, Or.inr (Or.inr ⟨h5, ?_⟩)⟩
    have hd : d1.x * d2.z - d1.z * d2.x ≠ 0 := by
      have := ne _ h5
      intro h0
      apply this
      simp only [V3.cross_y]; linear_combination -h0
    obtain ⟨D, hD⟩ : ∃ D, D = d1.x * d2.z - d1.z * d2.x := ⟨_, rfl⟩
    rw [← hD] at hd h
    simp only [Option.some.injEq, Prod.mk.injEq] at h
    obtain ⟨rfl, rfl⟩ := h
    simp only [V3.add_x, V3.add_y, V3.add_z, V3.sub_x, V3.sub_y, V3.sub_z, V3.scale_x, V3.scale_y, V3.scale_z,
      V3.cross_z, V3.dot, V3.cross_x, V3.cross_y]
    refine ⟨?_, ?_, ?_⟩ <;> field_simp <;> rw [hD] <;> ring

/-- C46: for segments of one plane the parameters reported locate the same point on both; with the test that is
made, they are never a unit of length apart.  (What is missing for segments that are not exactly of one plane is that
they are close: see `C46_violated_apart`.) -/
theorem C46_point_partial (a b : Segment K) (ta tb : K) (h : a.getIntersectionPt b = some (ta, tb)) :
    (Spec.Coplanar a b → Spec.pointAt a ta = Spec.pointAt b tb) ∧
    (Spec.pointAt a ta - Spec.pointAt b tb).lengthSquared < 1 := by
  obtain ⟨h0, h1⟩ := cases_of a b ta tb h
  have pos : (0 : K) < 1 / 100000 := by positivity
  have ne : ∀ x : K, 1 / 100000 < |x| → x ≠ 0 := by
    rintro x hx rfl
    rw [abs_zero] at hx
    linarith
  have lt1 : ∀ g n : K, 1 / 100000 < |n| → |g * n| ≤ 1 / 100000 → g * g < 1 := by
    intro g n hn hg
    rw [abs_mul] at hg
    have hg1 : |g| < 1 := by
      by_contra hc
      rw [not_lt] at hc
      have := mul_le_mul_of_nonneg_right hc (abs_nonneg n)
      linarith
    rw [← abs_mul_abs_self]
    nlinarith [abs_nonneg g]
  generalize Spec.pointAt a ta = p at *
  generalize Spec.pointAt b tb = q at *
  unfold Spec.Coplanar
  generalize (a.start - b.start).dot (Spec.normal a b) = D at *
  constructor
  · rintro rfl
    rcases h1 with ⟨hn, e1, e2, e3⟩ | ⟨hn, e1, e2, e3⟩ | ⟨hn, e1, e2, e3⟩ <;>
      (have e4 := (mul_eq_zero.1 e3).resolve_right (ne _ hn)
       simp only [V3.sub_x, V3.sub_y, V3.sub_z] at e1 e2 e4
       ext <;> linarith)
  · unfold V3.lengthSquared
    rcases h1 with ⟨hn, e1, e2, e3⟩ | ⟨hn, e1, e2, e3⟩ | ⟨hn, e1, e2, e3⟩ <;>
      (have := lt1 _ _ hn (by rw [e3]; exact h0)
       rw [e1, e2]
       linarith)

private theorem parallel_swap (x y : V3 K) : x.isParallel y = y.isParallel x := by
  unfold V3.isParallel
  rw [show x.dot y = y.dot x by simp only [V3.dot]; ring, mul_comm x.lengthSquared, Bool.or_comm]

/-- C46: swapping the segments swaps the parameters. -/
theorem C46_symmetric (a b : Segment K) : b.getIntersectionPt a = (a.getIntersectionPt b).map Prod.swap := by
  unfold getIntersectionPt
  dsimp only
  have hδ : b.start - a.start = -(a.start - b.start) := by ext <;> simp
  have hn : (b.fin - b.start).cross (a.fin - a.start) = -((a.fin - a.start).cross (b.fin - b.start)) := by
    ext <;> simp <;> ring
  rw [hδ, hn, parallel_swap]
  generalize a.fin - a.start = d1 at *
  generalize b.fin - b.start = d2 at *
  generalize a.start - b.start = δ at *
  have hd : (-δ).dot (-(d1.cross d2)) = δ.dot (d1.cross d2) := by simp only [V3.dot, V3.neg_x, V3.neg_y, V3.neg_z]; ring
  rw [hd]
  simp only [V3.neg_x, V3.neg_y, V3.neg_z, abs_neg]
  have key : ∀ p q D D' x y : K, D' = -D → x = -p → y = -q → (x / D', y / D') = (p / D, q / D) := by
    rintro p q D D' x y rfl rfl rfl
    rw [neg_div_neg_eq, neg_div_neg_eq]
  split_ifs
  · rfl
  · rfl
  · simp only [Option.map_some, Prod.swap]
    rw [key (d1.y * δ.x - d1.x * δ.y) (d2.y * δ.x - d2.x * δ.y) (d1.y * d2.x - d1.x * d2.y)] <;> ring
  · simp only [Option.map_some, Prod.swap]
    rw [key (d1.y * δ.z - d1.z * δ.y) (d2.y * δ.z - d2.z * δ.y) (d1.y * d2.z - d1.z * d2.y)] <;> ring
  · simp only [Option.map_some, Prod.swap]
    rw [key (d1.x * δ.z - d1.z * δ.x) (d2.x * δ.z - d2.z * δ.x) (d1.x * d2.z - d1.z * d2.x)] <;> ring
  · rfl

/-- C46: parallel segments do not intersect. -/
theorem C46_parallel (a b : Segment K) (h : Spec.normal a b = 0) : a.getIntersectionPt b = none := by
  unfold Spec.normal at h
  unfold getIntersectionPt
  dsimp only
  rw [h]
  have : ¬ (|(0 : K)| > 1 / 100000) := by rw [abs_zero]; exact not_lt.2 (by positivity)
  split_ifs with h1 h2 h3 h4 h5
  · rfl
  · rfl
  · exact absurd h3 this
  · exact absurd h4 this
  · exact absurd h5 this
  · rfl

/-- C46: the lines of two segments that meet are reported to, with the parameters of the point where they do, unless
the segments are so short or at so small an angle that their cross product is shorter than the square root of
1e-5. -/
theorem C46_complete (a b : Segment K) (ta tb : K) (h : Spec.pointAt a ta = Spec.pointAt b tb)
    (hn : 1 / 100000 ≤ (Spec.normal a b).lengthSquared) : a.getIntersectionPt b = some (ta, tb) := by
  have hδ : a.start - b.start = (b.fin - b.start).scale tb - (a.fin - a.start).scale ta := by
    have hx := congrArg V3.x h
    have hy := congrArg V3.y h
    have hz := congrArg V3.z h
    simp only [Spec.pointAt, V3.add_x, V3.add_y, V3.add_z, V3.scale_x, V3.scale_y, V3.scale_z, V3.sub_x, V3.sub_y,
      V3.sub_z] at hx hy hz
    ext
    · simp; linear_combination hx
    · simp; linear_combination hy
    · simp; linear_combination hz
  unfold getIntersectionPt
  dsimp only
  unfold Spec.normal at hn
  rw [hδ]
  generalize a.fin - a.start = d1 at *
  generalize b.fin - b.start = d2 at *
  have pos : (0 : K) < 1 / 100000 := by positivity
  have hp : d1.isParallel d2 = false := by
    unfold V3.isParallel
    split_ifs with hz
    · rfl
    · rw [decide_eq_false_iff_not, not_lt]
      have hl := V3.lagrange d1 d2
      rw [show d1.dot d2 * d1.dot d2 - d1.lengthSquared * d2.lengthSquared = -(d1.cross d2).lengthSquared by
        rw [hl]; ring, abs_neg]
      exact hn.trans (le_abs_self _)
  have hdot : (d2.scale tb - d1.scale ta).dot (d1.cross d2) = 0 := by simp [V3.dot]; ring
  rw [if_neg (by rw [hp]; simp), hdot, abs_zero, if_neg (not_lt.2 pos.le)]
  have ne : ∀ x : K, 1 / 100000 < |x| → x ≠ 0 := by
    rintro x hx rfl
    rw [abs_zero] at hx
    linarith
  by_cases h3 : |(d1.cross d2).z| > 1 / 100000
  · rw [if_pos h3]
    have hd : d1.y * d2.x - d1.x * d2.y ≠ 0 := by
      have := ne _ h3
      intro h0
      apply this
      simp only [V3.cross_z]; linear_combination -h0
    simp only [Option.some.injEq, Prod.mk.injEq, V3.sub_x, V3.sub_y, V3.sub_z, V3.scale_x, V3.scale_y, V3.scale_z]
    constructor <;> rw [div_eq_iff hd] <;> ring
  rw [if_neg h3]
  by_cases h4 : |(d1.cross d2).x| > 1 / 100000
  · rw [if_pos h4]
    have hd : d1.y * d2.z - d1.z * d2.y ≠ 0 := by
      have := ne _ h4
      intro h0
      apply this
      simp only [V3.cross_x]; linear_combination h0
    simp only [Option.some.injEq, Prod.mk.injEq, V3.sub_x, V3.sub_y, V3.sub_z, V3.scale_x, V3.scale_y, V3.scale_z]
    constructor <;> rw [div_eq_iff hd] <;> ring
  rw [if_neg h4]
  by_cases h5 : |(d1.cross d2).y| > 1 / 100000
  · rw [if_pos h5]
    have hd : d1.x * d2.z - d1.z * d2.x ≠ 0 := by
      have := ne _ h5
      intro h0
      apply this
      simp only [V3.cross_y]; linear_combination -h0
    simp only [Option.some.injEq, Prod.mk.injEq, V3.sub_x, V3.sub_y, V3.sub_z, V3.scale_x, V3.scale_y, V3.scale_z]
    constructor <;> rw [div_eq_iff hd] <;> ring
  exfalso
  have sq : ∀ x : K, ¬ |x| > 1 / 100000 → x * x ≤ 1 / 100000 * (1 / 100000) := by
    intro x hx
    rw [not_lt] at hx
    rw [← abs_mul_abs_self]
    exact mul_le_mul hx hx (abs_nonneg _) pos.le
  have := sq _ h3
  have := sq _ h4
  have := sq _ h5
  unfold V3.lengthSquared at hn
  have : (1 : K) / 100000 * (1 / 100000) * 3 < 1 / 100000 := by norm_num
  linarith

/-- C46: segments that touch are reported exactly when they do: the point is on both. -/
theorem C46_touches (a b : Segment K) (hc : Spec.Coplanar a b) (hn : 1 / 100000 ≤ (Spec.normal a b).lengthSquared)
    (p : V3 K) :
    a.touches b = some p ↔ ∃ ta tb : K, (0 ≤ ta ∧ ta ≤ 1) ∧ (0 ≤ tb ∧ tb ≤ 1) ∧ p = Spec.pointAt a ta ∧
      p = Spec.pointAt b tb := by
  unfold touches
  constructor
  · intro h
    cases hg : a.getIntersectionPt b with
    | none => rw [hg] at h; simp at h
    | some r =>
      obtain ⟨ta, tb⟩ := r
      rw [hg] at h
      dsimp only at h
      split_ifs at h with h1
      have e : Spec.pointAt a ta = p := Option.some.inj h
      exact ⟨ta, tb, h1.1, h1.2, e.symm, by rw [← e]; exact (C46_point_partial a b ta tb hg).1 hc⟩
  · rintro ⟨ta, tb, h1, h2, rfl, e⟩
    rw [C46_complete a b ta tb e hn]
    dsimp only
    rw [if_pos ⟨h1, h2⟩]
    rfl

/-- C46: an intersection reported is a point of the first segment (up to the tolerance at its ends) strictly within the
second; so for segments of one plane it is on both. -/
theorem C46_intersect (a b : Segment K) (hc : Spec.Coplanar a b) (hn : 1 / 100000 ≤ (Spec.normal a b).lengthSquared)
    (p : V3 K) :
    a.intersect b = some p ↔ ∃ ta tb : K, (-(1 / 10 ^ 12) ≤ ta ∧ ta < 1 + 1 / 10 ^ 7) ∧
      (1 / 10 ^ 8 ≤ tb ∧ tb < 1 - 1 / 10 ^ 8) ∧ p = Spec.pointAt a ta ∧ p = Spec.pointAt b tb := by
  unfold intersect
  constructor
  · intro h
    cases hg : a.getIntersectionPt b with
    | none => rw [hg] at h; simp at h
    | some r =>
      obtain ⟨ta, tb⟩ := r
      rw [hg] at h
      dsimp only at h
      split_ifs at h with h1
      have e : Spec.pointAt a ta = p := Option.some.inj h
      exact ⟨ta, tb, h1.1, h1.2, e.symm, by rw [← e]; exact (C46_point_partial a b ta tb hg).1 hc⟩
  · rintro ⟨ta, tb, h1, h2, rfl, e⟩
    rw [C46_complete a b ta tb e hn]
    dsimp only
    rw [if_pos ⟨h1, h2⟩]
    rfl

/-- C46 fails: two segments of length over one, almost in one plane, are reported to intersect, at points half a unit
apart. -/
theorem C46_violated_apart :
    ∃ (a b : Segment ℚ) (ta tb : ℚ), a.getIntersectionPt b = some (ta, tb) ∧ a.touches b ≠ none ∧
      1 ≤ (a.fin - a.start).lengthSquared ∧ 1 ≤ (b.fin - b.start).lengthSquared ∧
      Spec.pointAt a ta - Spec.pointAt b tb = ⟨0, 0, -1 / 2⟩ := by
  refine ⟨⟨⟨1 / 100000, -1 / 2, 0⟩, ⟨1 / 100000, 1 / 2, 0⟩⟩, ⟨⟨0, 0, 0⟩, ⟨1 / 50000, 0, 1⟩⟩, 1 / 2, 1 / 2,
    by decide +kernel, by decide +kernel, by decide +kernel, by decide +kernel, by decide +kernel⟩

/-- C46 fails: two short segments that cross at right angles are taken for parallel. -/
theorem C46_violated_short :
    ∃ a b : Segment ℚ, Spec.pointAt a (1 / 2) = Spec.pointAt b (1 / 2) ∧
      (a.fin - a.start).dot (b.fin - b.start) = 0 ∧ a.getIntersectionPt b = none :=
  ⟨⟨⟨-1 / 40, 0, 0⟩, ⟨1 / 40, 0, 0⟩⟩, ⟨⟨0, -1 / 40, 0⟩, ⟨0, 1 / 40, 0⟩⟩,
    by decide +kernel, by decide +kernel, by decide +kernel⟩

/-- Two segments that cross. -/
example : Spec.Coplanar (⟨⟨-1, 0, 0⟩, ⟨1, 0, 0⟩⟩ : Segment ℚ) ⟨⟨0, 0, -1⟩, ⟨0, 0, 1⟩⟩ ∧
    1 / 100000 ≤ (Spec.normal (⟨⟨-1, 0, 0⟩, ⟨1, 0, 0⟩⟩ : Segment ℚ) ⟨⟨0, 0, -1⟩, ⟨0, 0, 1⟩⟩).lengthSquared ∧
    (⟨⟨-1, 0, 0⟩, ⟨1, 0, 0⟩⟩ : Segment ℚ).getIntersectionPt ⟨⟨0, 0, -1⟩, ⟨0, 0, 1⟩⟩ = some (1 / 2, 1 / 2) := by
  refine ⟨?_, ?_, by decide +kernel⟩
  · simp [Spec.Coplanar, Spec.normal, V3.dot]
  · norm_num [Spec.normal, V3.lengthSquared]

/-- C46: a point of the line of a segment of at least a centimetre is contained exactly when it is between its ends
(up to the tolerance before the first). -/
theorem C46_contains (s : Segment ℝ) (hl : 1 / 100 ≤ s.start.distance s.fin) (t : ℝ) :
    s.containsPoint (Spec.pointAt s t) =
      .ok (decide (-(1 / 10 ^ 9) ≤ t * s.start.squaredDistance s.fin ∧ t ≤ 1)) := by
  have hsq : s.start.squaredDistance s.fin = s.start.distance s.fin * s.start.distance s.fin := by
    unfold V3.distance
    rw [Real.mul_self_sqrt]
    unfold V3.squaredDistance
    linarith [mul_self_nonneg (s.start.x - s.fin.x), mul_self_nonneg (s.start.y - s.fin.y),
      mul_self_nonneg (s.start.z - s.fin.z)]
  have hL : 1 / 10000 ≤ s.start.squaredDistance s.fin := by rw [hsq]; nlinarith
  have hcol : (Spec.pointAt s t).isCollinear s.start s.fin = .ok true := by
    unfold V3.isCollinear
    have hboth : ¬ (((Spec.pointAt s t).compare s.start && (Spec.pointAt s t).compare s.fin) = true) := by
      rw [Bool.and_eq_true]
      unfold V3.compare V3.compareBy
      rw [decide_eq_true_iff, decide_eq_true_iff]
      rintro ⟨h1, h2⟩
      have e1 : (Spec.pointAt s t - s.start).lengthSquared = t ^ 2 * s.start.squaredDistance s.fin := by
        simp only [Spec.pointAt, V3.lengthSquared, V3.squaredDistance, V3.add_x, V3.add_y, V3.add_z, V3.sub_x, V3.sub_y,
          V3.sub_z, V3.scale_x, V3.scale_y, V3.scale_z]; ring
      have e2 : (Spec.pointAt s t - s.fin).lengthSquared = (1 - t) ^ 2 * s.start.squaredDistance s.fin := by
        simp only [Spec.pointAt, V3.lengthSquared, V3.squaredDistance, V3.add_x, V3.add_y, V3.add_z, V3.sub_x, V3.sub_y,
          V3.sub_z, V3.scale_x, V3.scale_y, V3.scale_z]; ring
      rw [e1] at h1
      rw [e2] at h2
      nlinarith [sq_nonneg (t - 1 / 2), sq_nonneg t]
    rw [if_neg hboth]
    split_ifs with h
    · rfl
    · congr 1
      rw [decide_eq_true_iff]
      have : ((s.start - Spec.pointAt s t).cross (s.fin - s.start)) = 0 := by
        ext <;> simp [Spec.pointAt] <;> ring
      rw [this]
      simp [V3.length, V3.lengthSquared]
  unfold containsPoint
  rw [if_neg (not_lt.2 hl), hcol]
  simp only [Outcome.bind, Bool.not_true, Bool.false_eq_true, if_false]
  have e1 : (s.fin.x - s.start.x) * ((Spec.pointAt s t).x - s.start.x) + (s.fin.y - s.start.y) * ((Spec.pointAt s t).y - s.start.y) +
      (s.fin.z - s.start.z) * ((Spec.pointAt s t).z - s.start.z) = t * s.start.squaredDistance s.fin := by
    simp only [Spec.pointAt, V3.squaredDistance, V3.add_x, V3.add_y, V3.add_z, V3.sub_x, V3.sub_y,
      V3.sub_z, V3.scale_x, V3.scale_y, V3.scale_z]; ring
  have e2 : (s.fin.x - s.start.x) * (s.fin.x - s.start.x) + (s.fin.y - s.start.y) * (s.fin.y - s.start.y) +
      (s.fin.z - s.start.z) * (s.fin.z - s.start.z) = s.start.squaredDistance s.fin := by
    simp only [V3.squaredDistance]; ring
  rw [e1, e2]
  congr 1
  rw [decide_eq_decide]
  refine and_congr Iff.rfl ⟨fun h => ?_, fun h => ?_⟩
  · by_contra hc
    rw [not_le] at hc
    nlinarith
  · nlinarith

end Simple.Geometry.Segment
