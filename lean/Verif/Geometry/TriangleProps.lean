import Mathlib.Tactic.NormNum
import Mathlib.Tactic.Linarith
import Mathlib.Tactic.Ring
import Mathlib.Tactic.FieldSimp
import Mathlib.Tactic.Positivity
import Mathlib.Tactic.LinearCombination
import Verif.Geometry.TriangleModel
import Verif.Geometry.VecProps
import Verif.Geometry.BBoxProps

/-! # C44, C45 and C67: triangles -/

namespace Simple.Geometry.Triangle

namespace Spec

variable {K : Type*} [Field K]

/-- The point of the plane of a triangle with barycentric coordinates `u` and `v` of the second and third vertices. -/
def at_ (tr : Triangle K) (u v : K) : V3 K := tr.a + (tr.b - tr.a).scale u + (tr.c - tr.a).scale v

/-- Twice the area of the triangle, times the speed at which the ray crosses its plane. -/
def crossing (ray : Ray K) (tr : Triangle K) : K := ray.direction.dot ((tr.b - tr.a).cross (tr.c - tr.a))

/-- The vertices are not on a line. -/
def Proper (tr : Triangle K) : Prop := (tr.b - tr.a).cross (tr.c - tr.a) ≠ 0

end Spec

section Field

variable {K : Type*} [Field K]

private theorem cramer (s d e1 e2 : V3 K) :
    s.scale (e1.dot (d.cross e2)) + d.scale (e2.dot (s.cross e1)) =
      e1.scale (s.dot (d.cross e2)) + e2.scale (d.dot (s.cross e1)) := by
  ext <;> simp [V3.dot] <;> ring

private theorem crossing_eq (ray : Ray K) (tr : Triangle K) :
    (tr.b - tr.a).dot (ray.direction.cross (tr.c - tr.a)) = -Spec.crossing ray tr := by
  simp only [Spec.crossing, V3.dot, V3.cross]; ring

/-- A point of the ray that is in the plane of the triangle is given by Cramer's rule. -/
private theorem cramer_unique (ray : Ray K) (tr : Triangle K) (t u v : K) (h : ray.project t = Spec.at_ tr u v) :
    (ray.origin - tr.a).dot (ray.direction.cross (tr.c - tr.a)) =
      u * (tr.b - tr.a).dot (ray.direction.cross (tr.c - tr.a)) ∧
    ray.direction.dot ((ray.origin - tr.a).cross (tr.b - tr.a)) =
      v * (tr.b - tr.a).dot (ray.direction.cross (tr.c - tr.a)) ∧
    (tr.c - tr.a).dot ((ray.origin - tr.a).cross (tr.b - tr.a)) =
      t * (tr.b - tr.a).dot (ray.direction.cross (tr.c - tr.a)) := by
  have hs : ray.origin - tr.a = (tr.b - tr.a).scale u + (tr.c - tr.a).scale v - ray.direction.scale t := by
    have hx := congrArg V3.x h
    have hy := congrArg V3.y h
    have hz := congrArg V3.z h
    simp only [Ray.project, Spec.at_, V3.add_x, V3.add_y, V3.add_z, V3.scale_x, V3.scale_y, V3.scale_z, V3.sub_x,
      V3.sub_y, V3.sub_z] at hx hy hz
    ext
    · simp; linear_combination hx
    · simp; linear_combination hy
    · simp; linear_combination hz
  rw [hs]
  generalize tr.b - tr.a = e1
  generalize tr.c - tr.a = e2
  generalize ray.direction = d
  refine ⟨?_, ?_, ?_⟩ <;> simp [V3.dot] <;> ring

private theorem cramer_hit (ray : Ray K) (tr : Triangle K) {D : K}
    (hD : (tr.b - tr.a).dot (ray.direction.cross (tr.c - tr.a)) = D) (h0 : D ≠ 0) :
    ray.project (1 / D * (tr.c - tr.a).dot ((ray.origin - tr.a).cross (tr.b - tr.a))) =
      Spec.at_ tr (1 / D * (ray.origin - tr.a).dot (ray.direction.cross (tr.c - tr.a)))
        (1 / D * ray.direction.dot ((ray.origin - tr.a).cross (tr.b - tr.a))) := by
  have h := cramer (ray.origin - tr.a) ray.direction (tr.b - tr.a) (tr.c - tr.a)
  rw [hD] at h
  have hx := congrArg V3.x h
  have hy := congrArg V3.y h
  have hz := congrArg V3.z h
  simp only [V3.add_x, V3.add_y, V3.add_z, V3.scale_x, V3.scale_y, V3.scale_z] at hx hy hz
  generalize (tr.c - tr.a).dot ((ray.origin - tr.a).cross (tr.b - tr.a)) = T at *
  generalize (ray.origin - tr.a).dot (ray.direction.cross (tr.c - tr.a)) = U at *
  generalize ray.direction.dot ((ray.origin - tr.a).cross (tr.b - tr.a)) = V at *
  have h1 : D * (1 / D) = 1 := by field_simp
  ext
  · simp only [Ray.project, Spec.at_, V3.add_x, V3.scale_x, V3.sub_x] at hx ⊢
    linear_combination (1 / D) * hx - (ray.origin.x - tr.a.x) * h1
  · simp only [Ray.project, Spec.at_, V3.add_y, V3.scale_y, V3.sub_y] at hy ⊢
    linear_combination (1 / D) * hy - (ray.origin.y - tr.a.y) * h1
  · simp only [Ray.project, Spec.at_, V3.add_z, V3.scale_z, V3.sub_z] at hz ⊢
    linear_combination (1 / D) * hz - (ray.origin.z - tr.a.z) * h1

end Field

section Ordered

variable {K : Type*} [Field K] [LinearOrder K] [IsStrictOrderedRing K]

private theorem tiny_pos : (0 : K) < V3.tiny := by unfold V3.tiny; positivity

/-- C44, geometry, the part that holds: the point reported is on the ray, further than the tolerance, and is the one
with the barycentric coordinates reported, each of which is from zero to one.  (What is missing is that their sum is
at most one, so that the point is in the triangle: see `C44_violated_outside`.) -/
theorem C44_geometry_partial (ray : Ray K) (tr : Triangle K) (p : V3 K) (u v : K)
    (h : intersectTriangle ray tr.a tr.b tr.c = some (p, u, v)) :
    (∃ t, V3.tiny < t ∧ p = ray.project t) ∧ p = Spec.at_ tr u v ∧ 0 ≤ u ∧ u ≤ 1 ∧ 0 ≤ v ∧ v ≤ 1 := by
  unfold intersectTriangle at h
  dsimp only at h
  generalize hD : (tr.b - tr.a).dot (ray.direction.cross (tr.c - tr.a)) = D at h
  by_cases h1 : D > -V3.tiny ∧ D < V3.tiny
  · rw [if_pos h1] at h; exact absurd h (by simp)
  rw [if_neg h1] at h
  split_ifs at h with h2 h3 h4
  have h0 : D ≠ 0 := by
    rintro rfl
    exact h1 ⟨by simpa using tiny_pos, tiny_pos⟩
  simp only [Option.some.injEq, Prod.mk.injEq] at h
  obtain ⟨rfl, rfl, rfl⟩ := h
  exact ⟨⟨_, h4, rfl⟩, cramer_hit ray tr hD h0, h2.1, h2.2, h3.1, h3.2⟩

/-- C44, geometry: whenever the ray crosses the triangle further than the tolerance, and the triangle is not too small
or too tilted, the crossing is reported, with its point and coordinates. -/
theorem C44_geometry_complete (ray : Ray K) (tr : Triangle K) (t u v : K) (h : ray.project t = Spec.at_ tr u v)
    (hu : 0 ≤ u) (hv : 0 ≤ v) (huv : u + v ≤ 1) (ht : V3.tiny < t) (hc : V3.tiny ≤ |Spec.crossing ray tr|) :
    intersectTriangle ray tr.a tr.b tr.c = some (Spec.at_ tr u v, u, v) := by
  obtain ⟨e1, e2, e3⟩ := cramer_unique ray tr t u v h
  have hn : ∀ x : K, |x| = |-x| := fun x => (abs_neg x).symm
  rw [hn, ← crossing_eq] at hc
  unfold intersectTriangle
  dsimp only
  rw [e1, e2, e3]
  generalize (tr.b - tr.a).dot (ray.direction.cross (tr.c - tr.a)) = D at *
  have h0 : D ≠ 0 := by
    rintro rfl
    rw [abs_zero] at hc
    exact absurd hc (not_le.2 tiny_pos)
  have hq : ∀ x : K, 1 / D * (x * D) = x := fun x => by field_simp
  rw [if_neg (fun hb => absurd hc (not_le.2 (abs_lt.2 hb))), hq, hq, hq,
    if_neg (not_not.2 ⟨hu, by linarith⟩), if_neg (not_not.2 ⟨hv, by linarith⟩), if_pos ht, h]

/-- C44, rendering: the point reported is on the ray, further than the tolerance, is the one with the barycentric
coordinates reported, and is in the triangle up to the rounding unit. -/
theorem C44_rendering (ray : Ray K) (tr : Triangle K) (p : V3 K) (u v : K)
    (h : baricentric ray tr = some (p, u, v)) :
    (∃ t, 1 / 100000 < t ∧ p = ray.project t) ∧ p = Spec.at_ tr u v ∧
      -(1 / 2 ^ 52) ≤ u ∧ -(1 / 2 ^ 52) ≤ v ∧ u + v ≤ 1 + 1 / 2 ^ 52 := by
  unfold baricentric at h
  dsimp only at h
  generalize hD : (tr.b - tr.a).dot (ray.direction.cross (tr.c - tr.a)) = D at h
  by_cases h1 : D < 1 / 100000 ∧ D > -(1 / 100000)
  · rw [if_pos h1] at h; exact absurd h (by simp)
  rw [if_neg h1] at h
  split_ifs at h with h2 h3 h4
  rw [not_or, not_lt, not_lt] at h3
  have h0 : D ≠ 0 := by
    rintro rfl
    exact h1 ⟨by positivity, by simp⟩
  simp only [Option.some.injEq, Prod.mk.injEq] at h
  obtain ⟨rfl, rfl, rfl⟩ := h
  exact ⟨⟨_, h4, rfl⟩, cramer_hit ray tr hD h0, h2.1, h3.2, h3.1⟩

/-- C44, rendering: whenever the ray crosses the triangle further than the tolerance, and the triangle is not too small
or too tilted, the crossing is reported, with its point and coordinates. -/
theorem C44_rendering_complete (ray : Ray K) (tr : Triangle K) (t u v : K) (h : ray.project t = Spec.at_ tr u v)
    (hu : 0 ≤ u) (hv : 0 ≤ v) (huv : u + v ≤ 1) (ht : 1 / 100000 < t)
    (hc : 1 / 100000 ≤ |Spec.crossing ray tr|) :
    baricentric ray tr = some (Spec.at_ tr u v, u, v) := by
  obtain ⟨e1, e2, e3⟩ := cramer_unique ray tr t u v h
  have hn : ∀ x : K, |x| = |-x| := fun x => (abs_neg x).symm
  rw [hn, ← crossing_eq] at hc
  unfold baricentric
  dsimp only
  rw [e1, e2, e3]
  generalize (tr.b - tr.a).dot (ray.direction.cross (tr.c - tr.a)) = D at *
  have h0 : D ≠ 0 := by
    rintro rfl
    rw [abs_zero] at hc
    exact absurd hc (not_le.2 (by positivity))
  have heps : (0 : K) < 1 / 2 ^ 52 := by positivity
  have hq : ∀ x : K, 1 / D * (x * D) = x := fun x => by field_simp
  rw [if_neg (fun hb => absurd hc (not_le.2 (abs_lt.2 ⟨hb.2, hb.1⟩))), hq, hq, hq,
    if_neg (not_not.2 ⟨by linarith, by linarith⟩),
    if_neg (by rw [not_or, not_lt, not_lt]; exact ⟨by linarith, by linarith⟩), if_pos ht, h]

/-- C44 fails in the geometry library: a ray that passes beyond the third edge is reported to hit the triangle. -/
theorem C44_violated_outside :
    ∃ (ray : Ray ℚ) (tr : Triangle ℚ) (p : V3 ℚ) (u v : ℚ), intersectTriangle ray tr.a tr.b tr.c = some (p, u, v) ∧
      u + v = 9 / 5 ∧ tr.testPoint p = .outside :=
  ⟨⟨⟨9 / 10, 9 / 10, 1⟩, ⟨0, 0, -1⟩⟩, ⟨⟨0, 0, 0⟩, ⟨1, 0, 0⟩, ⟨0, 1, 0⟩⟩, ⟨9 / 10, 9 / 10, 0⟩, 9 / 10, 9 / 10,
    by decide +kernel, by decide +kernel, by decide +kernel⟩

/-- C44 fails in the renderer for small triangles: there is one, with two sides of three millimetres at a right angle,
that no ray of unit direction ever hits, although one goes straight through its middle. -/
theorem C44_violated_small :
    ∃ tr : Triangle ℚ, Spec.Proper tr ∧
      (∃ ray : Ray ℚ, ray.direction.lengthSquared = 1 ∧ ray.project 1 = Spec.at_ tr (1 / 3) (1 / 3)) ∧
      ∀ ray : Ray ℚ, ray.direction.lengthSquared = 1 → baricentric ray tr = none := by
  refine ⟨⟨⟨0, 0, 0⟩, ⟨3 / 1000, 0, 0⟩, ⟨0, 3 / 1000, 0⟩⟩, ?_, ⟨⟨⟨1 / 1000, 1 / 1000, 1⟩, ⟨0, 0, -1⟩⟩, ?_, ?_⟩, ?_⟩
  · intro h
    have := congrArg V3.z h
    simp at this
  · norm_num [V3.lengthSquared]
  · ext <;> norm_num [Ray.project, Spec.at_]
  · rintro ⟨o, d⟩ hd
    simp only [V3.lengthSquared] at hd
    have hz : d.z * d.z ≤ 1 := by nlinarith [mul_self_nonneg d.x, mul_self_nonneg d.y]
    have h1 : d.z ≤ 1 := by nlinarith
    have h2 : -1 ≤ d.z := by nlinarith
    unfold baricentric
    dsimp only
    rw [if_pos]
    simp only [V3.dot, V3.cross, V3.sub_x, V3.sub_y, V3.sub_z]
    constructor <;> norm_num <;> linarith

/-- A ray through the middle of a triangle. -/
example : (Ray.mk (⟨1 / 4, 1 / 4, 1⟩ : V3 ℚ) ⟨0, 0, -1⟩).project 1 =
      Spec.at_ ⟨⟨0, 0, 0⟩, ⟨1, 0, 0⟩, ⟨0, 1, 0⟩⟩ (1 / 4) (1 / 4) ∧
    (1 : ℚ) / 100000 ≤ |Spec.crossing (Ray.mk (⟨1 / 4, 1 / 4, 1⟩ : V3 ℚ) ⟨0, 0, -1⟩) ⟨⟨0, 0, 0⟩, ⟨1, 0, 0⟩, ⟨0, 1, 0⟩⟩| := by
  constructor
  · ext <;> norm_num [Ray.project, Spec.at_]
  · norm_num [Spec.crossing, V3.dot]

/-! ## Classification of points -/

/-- The class of a point with barycentric coordinates `alpha` (of the second vertex), `beta` (of the third) and
`w` (of the first). -/
def Spec.classOf (alpha beta w : K) : PointInTriangle :=
  if alpha < -V3.tiny ∨ beta < -V3.tiny ∨ w < -V3.tiny then .outside
  else if |alpha| ≤ V3.tiny ∧ |beta| ≤ V3.tiny then .vertexA
  else if |alpha| ≤ V3.tiny ∧ |w| ≤ V3.tiny then .vertexC
  else if |beta| ≤ V3.tiny ∧ |w| ≤ V3.tiny then .vertexB
  else if |alpha| ≤ V3.tiny then .edgeAC
  else if |w| ≤ V3.tiny then .edgeBC
  else if |beta| ≤ V3.tiny then .edgeAB
  else .inside

private theorem testPoint_eq (tr : Triangle K) (hp : Spec.Proper tr) (alpha beta gamma : K) :
    tr.testPoint (Spec.at_ tr alpha beta + ((tr.b - tr.a).cross (tr.c - tr.a)).scale gamma) =
      if alpha ≥ -V3.tiny ∧ beta ≥ -V3.tiny ∧ 1 - alpha - beta ≥ -V3.tiny then
        if alpha ≤ V3.tiny ∧ beta ≤ V3.tiny then .vertexA
        else if alpha ≤ V3.tiny ∧ 1 - alpha - beta ≤ V3.tiny then .vertexC
        else if beta ≤ V3.tiny ∧ 1 - alpha - beta ≤ V3.tiny then .vertexB
        else if alpha ≤ V3.tiny then .edgeAC
        else if 1 - alpha - beta ≤ V3.tiny then .edgeBC
        else if beta ≤ V3.tiny then .edgeAB
        else .inside
      else .outside := by
  have hdet : (tr.b - tr.a).dot (tr.b - tr.a) * (tr.c - tr.a).dot (tr.c - tr.a) -
      (tr.c - tr.a).dot (tr.b - tr.a) * (tr.c - tr.a).dot (tr.b - tr.a) ≠ 0 := by
    intro h0
    have hl := V3.lagrange (tr.b - tr.a) (tr.c - tr.a)
    have hz : ((tr.b - tr.a).cross (tr.c - tr.a)).lengthSquared = 0 := by
      rw [hl, ← h0]; simp only [V3.dot, V3.lengthSquared]; ring
    apply hp
    unfold V3.lengthSquared at hz
    generalize (tr.b - tr.a).cross (tr.c - tr.a) = n at hz
    have n1 := mul_self_nonneg n.x
    have n2 := mul_self_nonneg n.y
    have n3 := mul_self_nonneg n.z
    ext
    · exact mul_self_eq_zero.1 (by linarith)
    · exact mul_self_eq_zero.1 (by linarith)
    · exact mul_self_eq_zero.1 (by linarith)
  have hsub : Spec.at_ tr alpha beta + ((tr.b - tr.a).cross (tr.c - tr.a)).scale gamma - tr.a =
      (tr.b - tr.a).scale alpha + (tr.c - tr.a).scale beta + ((tr.b - tr.a).cross (tr.c - tr.a)).scale gamma := by
    ext <;> simp [Spec.at_] <;> ring
  unfold testPoint
  dsimp only
  rw [hsub]
  have e1 : ((tr.c - tr.a).dot (tr.c - tr.a) * (tr.b - tr.a).dot ((tr.b - tr.a).scale alpha + (tr.c - tr.a).scale beta +
        ((tr.b - tr.a).cross (tr.c - tr.a)).scale gamma) - (tr.c - tr.a).dot (tr.b - tr.a) *
        (tr.c - tr.a).dot ((tr.b - tr.a).scale alpha + (tr.c - tr.a).scale beta +
        ((tr.b - tr.a).cross (tr.c - tr.a)).scale gamma)) /
      ((tr.b - tr.a).dot (tr.b - tr.a) * (tr.c - tr.a).dot (tr.c - tr.a) -
        (tr.c - tr.a).dot (tr.b - tr.a) * (tr.c - tr.a).dot (tr.b - tr.a)) = alpha := by
    rw [div_eq_iff hdet]
    generalize tr.b - tr.a = x
    generalize tr.c - tr.a = y
    simp [V3.dot]; ring
  have e2 : (-(tr.c - tr.a).dot (tr.b - tr.a) * (tr.b - tr.a).dot ((tr.b - tr.a).scale alpha + (tr.c - tr.a).scale beta +
        ((tr.b - tr.a).cross (tr.c - tr.a)).scale gamma) + (tr.b - tr.a).dot (tr.b - tr.a) *
        (tr.c - tr.a).dot ((tr.b - tr.a).scale alpha + (tr.c - tr.a).scale beta +
        ((tr.b - tr.a).cross (tr.c - tr.a)).scale gamma)) /
      ((tr.b - tr.a).dot (tr.b - tr.a) * (tr.c - tr.a).dot (tr.c - tr.a) -
        (tr.c - tr.a).dot (tr.b - tr.a) * (tr.c - tr.a).dot (tr.b - tr.a)) = beta := by
    rw [div_eq_iff hdet]
    generalize tr.b - tr.a = x
    generalize tr.c - tr.a = y
    simp [V3.dot]; ring
  rw [e1, e2]

/-- C45: the class of a point is that of its barycentric coordinates: each of the eight classes is decided by which
of the three coordinates are negative or zero, up to the tolerance.  A point off the plane has the class of its
projection. -/
theorem C45_class (tr : Triangle K) (hp : Spec.Proper tr) (alpha beta gamma : K) :
    tr.testPoint (Spec.at_ tr alpha beta + ((tr.b - tr.a).cross (tr.c - tr.a)).scale gamma) =
      Spec.classOf alpha beta (1 - alpha - beta) := by
  rw [testPoint_eq tr hp]
  unfold Spec.classOf
  have ht := tiny_pos (K := K)
  by_cases h : alpha < -V3.tiny ∨ beta < -V3.tiny ∨ 1 - alpha - beta < -V3.tiny
  · rw [if_pos h, if_neg]
    rintro ⟨h1, h2, h3⟩
    rcases h with h | h | h
    · exact absurd h1 (not_le.2 h)
    · exact absurd h2 (not_le.2 h)
    · exact absurd h3 (not_le.2 h)
  · rw [if_neg h]
    rw [not_or, not_or, not_lt, not_lt, not_lt] at h
    obtain ⟨h1, h2, h3⟩ := h
    rw [if_pos ⟨h1, h2, h3⟩]
    have a1 : |alpha| ≤ V3.tiny ↔ alpha ≤ V3.tiny := by rw [abs_le]; exact ⟨fun h => h.2, fun h => ⟨h1, h⟩⟩
    have a2 : |beta| ≤ V3.tiny ↔ beta ≤ V3.tiny := by rw [abs_le]; exact ⟨fun h => h.2, fun h => ⟨h2, h⟩⟩
    have a3 : |1 - alpha - beta| ≤ V3.tiny ↔ 1 - alpha - beta ≤ V3.tiny := by
      rw [abs_le]; exact ⟨fun h => h.2, fun h => ⟨h3, h⟩⟩
    simp only [a1, a2, a3]

/-- C45: no point is near two vertices: at least one of the three coordinates is not near zero. -/
theorem C45_disjoint (alpha beta w : K) (h : alpha + beta + w = 1) :
    ¬ (|alpha| ≤ V3.tiny ∧ |beta| ≤ V3.tiny ∧ |w| ≤ V3.tiny) := by
  rintro ⟨h1, h2, h3⟩
  rw [abs_le] at h1 h2 h3
  have : (V3.tiny : K) < 1 / 3 := by unfold V3.tiny; norm_num
  linarith [h1.2, h2.2, h3.2]

/-- C45: the vertices, the points within the edges and the points within the triangle are classified as such, and the
ones with a coordinate below minus the tolerance as outside. -/
theorem C45_places (tr : Triangle K) (hp : Spec.Proper tr) :
    tr.testPoint tr.a = .vertexA ∧ tr.testPoint tr.b = .vertexB ∧ tr.testPoint tr.c = .vertexC ∧
    (∀ s : K, V3.tiny < s → s < 1 - V3.tiny →
      tr.testPoint (Spec.at_ tr s 0) = .edgeAB ∧ tr.testPoint (Spec.at_ tr 0 s) = .edgeAC ∧
      tr.testPoint (Spec.at_ tr (1 - s) s) = .edgeBC) ∧
    (∀ u v : K, V3.tiny < u → V3.tiny < v → u + v < 1 - V3.tiny → tr.testPoint (Spec.at_ tr u v) = .inside) ∧
    ∀ u v : K, u < -V3.tiny ∨ v < -V3.tiny ∨ 1 + V3.tiny < u + v → tr.testPoint (Spec.at_ tr u v) = .outside := by
  have ht := tiny_pos (K := K)
  have ht3 : (V3.tiny : K) < 1 / 3 := by unfold V3.tiny; norm_num
  have z : ∀ u v, tr.testPoint (Spec.at_ tr u v) = Spec.classOf u v (1 - u - v) := by
    intro u v
    rw [← C45_class tr hp u v 0]
    congr 1
    ext <;> simp
  have ea : Spec.at_ tr 0 0 = tr.a := by ext <;> simp [Spec.at_]
  have eb : Spec.at_ tr 1 0 = tr.b := by ext <;> simp [Spec.at_]
  have ec : Spec.at_ tr 0 1 = tr.c := by ext <;> simp [Spec.at_]
  have pos : ∀ x : K, V3.tiny < x → ¬ |x| ≤ V3.tiny := fun x hx => not_le.2 (lt_of_lt_of_le hx (le_abs_self x))
  have zero : |(0 : K)| ≤ V3.tiny := by rw [abs_zero]; exact ht.le
  have nneg : ∀ x : K, 0 ≤ x → ¬ x < -V3.tiny := fun x hx => not_lt.2 (by linarith)
  refine ⟨?_, ?_, ?_, fun s h1 h2 => ⟨?_, ?_, ?_⟩, fun u v h1 h2 h3 => ?_, fun u v h => ?_⟩
  · rw [← ea, z]
    unfold Spec.classOf
    rw [if_neg (by simp [nneg]), if_pos ⟨zero, zero⟩]
  · rw [← eb, z]
    unfold Spec.classOf
    rw [if_neg (by simp [nneg]), if_neg (fun h => pos 1 (by linarith) h.1), if_neg (fun h => pos 1 (by linarith) h.1),
      if_pos ⟨zero, by simpa using zero⟩]
  · rw [← ec, z]
    unfold Spec.classOf
    rw [if_neg (by simp [nneg]), if_neg (fun h => pos 1 (by linarith) h.2), if_pos ⟨zero, by simpa using zero⟩]
  · rw [z]
    unfold Spec.classOf
    have p1 := pos s h1
    have p3 := pos (1 - s - 0) (by linarith)
    rw [if_neg (by rw [not_or, not_or]; exact ⟨nneg _ (by linarith), nneg _ le_rfl, nneg _ (by linarith)⟩),
      if_neg (fun h => p1 h.1), if_neg (fun h => p1 h.1), if_neg (fun h => p3 h.2), if_neg p1, if_neg p3, if_pos zero]
  · rw [z]
    unfold Spec.classOf
    have p1 := pos s h1
    have p3 := pos (1 - 0 - s) (by linarith)
    rw [if_neg (by rw [not_or, not_or]; exact ⟨nneg _ le_rfl, nneg _ (by linarith), nneg _ (by linarith)⟩),
      if_neg (fun h => p1 h.2), if_neg (fun h => p3 h.2), if_neg (fun h => p1 h.1), if_pos zero]
  · rw [z]
    unfold Spec.classOf
    have p1 := pos s h1
    have p2 := pos (1 - s) (by linarith)
    have e : (1 : K) - (1 - s) - s = 0 := by ring
    rw [e, if_neg (by rw [not_or, not_or]; exact ⟨nneg _ (by linarith), nneg _ (by linarith), nneg _ le_rfl⟩),
      if_neg (fun h => p2 h.1), if_neg (fun h => p2 h.1), if_neg (fun h => p1 h.1), if_neg p2, if_pos zero]
  · rw [z]
    unfold Spec.classOf
    have p1 := pos u h1
    have p2 := pos v h2
    have p3 := pos (1 - u - v) (by linarith)
    rw [if_neg (by rw [not_or, not_or]; exact ⟨nneg _ (by linarith), nneg _ (by linarith), nneg _ (by linarith)⟩),
      if_neg (fun h => p1 h.1), if_neg (fun h => p1 h.1), if_neg (fun h => p2 h.1), if_neg p1, if_neg p3, if_neg p2]
  · rw [z]
    unfold Spec.classOf
    rw [if_pos]
    rcases h with h | h | h
    · exact Or.inl h
    · exact Or.inr (Or.inl h)
    · exact Or.inr (Or.inr (by linarith))

/-- C45: the box of a triangle has every point of it, and every box that has the vertices has the box. -/
theorem C45_bounds (tr : Triangle K) :
    (∀ u v : K, 0 ≤ u → 0 ≤ v → u + v ≤ 1 → BBox.Spec.Mem tr.bounds (Spec.at_ tr u v)) ∧
    ∀ c : BBox K, BBox.Spec.Mem c tr.a → BBox.Spec.Mem c tr.b → BBox.Spec.Mem c tr.c →
      BBox.Spec.Within tr.bounds c := by
  have h0 : BBox.Spec.Mem (BBox.fromPoint tr.a) tr.a := ⟨⟨le_rfl, le_rfl⟩, ⟨le_rfl, le_rfl⟩, le_rfl, le_rfl⟩
  obtain ⟨a1, a2, a3⟩ := BBox.C42_union_point (BBox.fromPoint tr.a) tr.b ⟨_, h0⟩
  obtain ⟨b1, b2, b3⟩ := BBox.C42_union_point (BBox.fromUnionPoint (BBox.fromPoint tr.a) tr.b) tr.c ⟨_, a2⟩
  have ma : BBox.Spec.Mem tr.bounds tr.a := b1 _ (a1 _ h0)
  have mb : BBox.Spec.Mem tr.bounds tr.b := b1 _ a2
  have mc : BBox.Spec.Mem tr.bounds tr.c := b2
  constructor
  · intro u v hu hv huv
    generalize tr.bounds = r at ma mb mc
    have key : ∀ lo hi a b c : K, lo ≤ a ∧ a ≤ hi → lo ≤ b ∧ b ≤ hi → lo ≤ c ∧ c ≤ hi →
        lo ≤ a + (b - a) * u + (c - a) * v ∧ a + (b - a) * u + (c - a) * v ≤ hi := by
      intro lo hi a b c ha hb hc
      have hw : 0 ≤ 1 - u - v := by linarith
      constructor
      · nlinarith [mul_nonneg hw (sub_nonneg.2 ha.1), mul_nonneg hu (sub_nonneg.2 hb.1), mul_nonneg hv (sub_nonneg.2 hc.1)]
      · nlinarith [mul_nonneg hw (sub_nonneg.2 ha.2), mul_nonneg hu (sub_nonneg.2 hb.2), mul_nonneg hv (sub_nonneg.2 hc.2)]
    exact ⟨key _ _ _ _ _ ma.1 mb.1 mc.1, key _ _ _ _ _ ma.2.1 mb.2.1 mc.2.1, key _ _ _ _ _ ma.2.2 mb.2.2 mc.2.2⟩
  · intro c ha hb hc
    apply b3 c _ hc
    apply a3 c _ hb
    rintro p ⟨⟨p1, p2⟩, ⟨p3, p4⟩, p5, p6⟩
    have : p = tr.a := by
      ext
      · exact le_antisymm p2 p1
      · exact le_antisymm p4 p3
      · exact le_antisymm p6 p5
    rw [this]
    exact ha

/-- A triangle in the plane. -/
example : Spec.Proper (⟨⟨0, 0, 0⟩, ⟨1, 0, 0⟩, ⟨0, 1, 0⟩⟩ : Triangle ℚ) := by
  intro h
  have := congrArg V3.z h
  simp at this

end Ordered

/-! ## Area, centres and normal -/

private theorem dist_sq (a b : V3 ℝ) : a.distance b ^ 2 = a.squaredDistance b := by
  unfold V3.distance
  apply Real.sq_sqrt
  unfold V3.squaredDistance
  linarith [mul_self_nonneg (a.x - b.x), mul_self_nonneg (a.y - b.y), mul_self_nonneg (a.z - b.z)]

private theorem heron (tr : Triangle ℝ) :
    (tr.a.distance tr.b + tr.b.distance tr.c + tr.c.distance tr.a) *
      (tr.b.distance tr.c + tr.c.distance tr.a - tr.a.distance tr.b) *
      (tr.c.distance tr.a + tr.a.distance tr.b - tr.b.distance tr.c) *
      (tr.a.distance tr.b + tr.b.distance tr.c - tr.c.distance tr.a) =
    4 * ((tr.b - tr.a).cross (tr.c - tr.a)).lengthSquared := by
  have h1 := dist_sq tr.a tr.b
  have h2 := dist_sq tr.b tr.c
  have h3 := dist_sq tr.c tr.a
  generalize tr.a.distance tr.b = x at *
  generalize tr.b.distance tr.c = y at *
  generalize tr.c.distance tr.a = z at *
  have e : (x + y + z) * (y + z - x) * (z + x - y) * (x + y - z) =
      4 * (x ^ 2) * (z ^ 2) - (x ^ 2 + z ^ 2 - y ^ 2) ^ 2 := by ring
  rw [e, h1, h2, h3, V3.lagrange]
  simp only [V3.squaredDistance, V3.lengthSquared, V3.dot, V3.sub_x, V3.sub_y, V3.sub_z]
  ring

/-- C67: the area of a triangle is half the length of the cross product of two sides. -/
theorem C67_area (tr : Triangle ℝ) : tr.area = ((tr.b - tr.a).cross (tr.c - tr.a)).length / 2 := by
  have h := heron tr
  unfold area V3.length
  dsimp only
  generalize tr.a.distance tr.b = x at *
  generalize tr.b.distance tr.c = y at *
  generalize tr.c.distance tr.a = z at *
  generalize ((tr.b - tr.a).cross (tr.c - tr.a)).lengthSquared = L at *
  have e : (z + y + x) * ((z + y + x) / 2 - x) * ((z + y + x) / 2 - y) * ((z + y + x) / 2 - z) / 2 = L / 2 ^ 2 := by
    linear_combination h / 16
  rw [e, Real.sqrt_div' _ (by positivity), Real.sqrt_sq (by norm_num)]

private theorem len_sq (a : V3 ℝ) : a.length * a.length = a.lengthSquared := by
  unfold V3.length
  apply Real.mul_self_sqrt
  unfold V3.lengthSquared
  linarith [mul_self_nonneg a.x, mul_self_nonneg a.y, mul_self_nonneg a.z]

private theorem nn_pos {tr : Triangle ℝ} (hp : Spec.Proper tr) :
    0 < ((tr.b - tr.a).cross (tr.c - tr.a)).lengthSquared := by
  unfold Spec.Proper at hp
  generalize (tr.b - tr.a).cross (tr.c - tr.a) = n at hp
  unfold V3.lengthSquared
  have n1 := mul_self_nonneg n.x
  have n2 := mul_self_nonneg n.y
  have n3 := mul_self_nonneg n.z
  by_contra hc
  apply hp
  ext
  · exact mul_self_eq_zero.1 (by linarith)
  · exact mul_self_eq_zero.1 (by linarith)
  · exact mul_self_eq_zero.1 (by linarith)

/-- C67: the circumcentre is in the plane of the triangle, and its distance to each vertex is the circumradius. -/
theorem C67_circumcenter (tr : Triangle ℝ) (hp : Spec.Proper tr) :
    (∃ u v, tr.circumcenter = Spec.at_ tr u v) ∧
    tr.circumcenter.distance tr.a = tr.circumradius ∧ tr.circumcenter.distance tr.b = tr.circumradius ∧
    tr.circumcenter.distance tr.c = tr.circumradius := by
  have hn := nn_pos hp
  have hh := heron tr
  have hr2 : tr.circumradius ^ 2 = tr.a.squaredDistance tr.b * tr.b.squaredDistance tr.c * tr.c.squaredDistance tr.a /
      (4 * ((tr.b - tr.a).cross (tr.c - tr.a)).lengthSquared) := by
    unfold circumradius
    dsimp only
    rw [hh, div_pow, Real.sq_sqrt (by positivity), mul_pow, mul_pow, dist_sq, dist_sq, dist_sq]
  have hr0 : 0 ≤ tr.circumradius := by
    unfold circumradius V3.distance
    positivity
  have hcx : tr.circumcenter = tr.a + (((((tr.b - tr.a).cross (tr.c - tr.a)).cross (tr.b - tr.a)).scale
      (tr.c - tr.a).lengthSquared + ((tr.c - tr.a).cross ((tr.b - tr.a).cross (tr.c - tr.a))).scale
      (tr.b - tr.a).lengthSquared).div (2 * ((tr.b - tr.a).cross (tr.c - tr.a)).lengthSquared)) := by
    unfold circumcenter
    dsimp only
    rw [len_sq, len_sq, len_sq]
  have hab : tr.a.squaredDistance tr.b = (tr.b - tr.a).lengthSquared := by
    simp only [V3.squaredDistance, V3.lengthSquared, V3.sub_x, V3.sub_y, V3.sub_z]; ring
  have hca : tr.c.squaredDistance tr.a = (tr.c - tr.a).lengthSquared := by
    simp only [V3.squaredDistance, V3.lengthSquared, V3.sub_x, V3.sub_y, V3.sub_z]
  have hbc : tr.b.squaredDistance tr.c = ((tr.b - tr.a) - (tr.c - tr.a)).lengthSquared := by
    simp only [V3.squaredDistance, V3.lengthSquared, V3.sub_x, V3.sub_y, V3.sub_z]; ring
  have hN := V3.lagrange (tr.b - tr.a) (tr.c - tr.a)
  -- the centre in terms of the sides
  have hcuv : tr.circumcenter = Spec.at_ tr
      ((tr.c - tr.a).lengthSquared * ((tr.b - tr.a).lengthSquared - (tr.b - tr.a).dot (tr.c - tr.a)) /
        (2 * ((tr.b - tr.a).cross (tr.c - tr.a)).lengthSquared))
      ((tr.b - tr.a).lengthSquared * ((tr.c - tr.a).lengthSquared - (tr.b - tr.a).dot (tr.c - tr.a)) /
        (2 * ((tr.b - tr.a).cross (tr.c - tr.a)).lengthSquared)) := by
    rw [hcx]
    have cr1 : ((tr.b - tr.a).cross (tr.c - tr.a)).cross (tr.b - tr.a) =
        (tr.c - tr.a).scale (tr.b - tr.a).lengthSquared - (tr.b - tr.a).scale ((tr.b - tr.a).dot (tr.c - tr.a)) := by
      ext <;> simp [V3.lengthSquared, V3.dot] <;> ring
    have cr2 : (tr.c - tr.a).cross ((tr.b - tr.a).cross (tr.c - tr.a)) =
        (tr.b - tr.a).scale (tr.c - tr.a).lengthSquared - (tr.c - tr.a).scale ((tr.b - tr.a).dot (tr.c - tr.a)) := by
      ext <;> simp [V3.lengthSquared, V3.dot] <;> ring
    rw [cr1, cr2]
    generalize ((tr.b - tr.a).cross (tr.c - tr.a)).lengthSquared = N at hn ⊢
    generalize (tr.b - tr.a).lengthSquared = X
    generalize (tr.c - tr.a).lengthSquared = Y
    generalize (tr.b - tr.a).dot (tr.c - tr.a) = D
    ext <;> simp [Spec.at_, V3.div] <;> field_simp <;> ring
  have hd : ∀ u v : ℝ,
      (Spec.at_ tr u v).squaredDistance tr.a = u ^ 2 * (tr.b - tr.a).lengthSquared +
        2 * u * v * (tr.b - tr.a).dot (tr.c - tr.a) + v ^ 2 * (tr.c - tr.a).lengthSquared ∧
      (Spec.at_ tr u v).squaredDistance tr.b = (u - 1) ^ 2 * (tr.b - tr.a).lengthSquared +
        2 * (u - 1) * v * (tr.b - tr.a).dot (tr.c - tr.a) + v ^ 2 * (tr.c - tr.a).lengthSquared ∧
      (Spec.at_ tr u v).squaredDistance tr.c = u ^ 2 * (tr.b - tr.a).lengthSquared +
        2 * u * (v - 1) * (tr.b - tr.a).dot (tr.c - tr.a) + (v - 1) ^ 2 * (tr.c - tr.a).lengthSquared := by
    intro u v
    refine ⟨?_, ?_, ?_⟩ <;>
      simp only [V3.squaredDistance, V3.lengthSquared, V3.dot, Spec.at_, V3.add_x, V3.add_y, V3.add_z, V3.scale_x,
        V3.scale_y, V3.scale_z, V3.sub_x, V3.sub_y, V3.sub_z] <;> ring
  have hZ : ((tr.b - tr.a) - (tr.c - tr.a)).lengthSquared =
      (tr.b - tr.a).lengthSquared + (tr.c - tr.a).lengthSquared - 2 * (tr.b - tr.a).dot (tr.c - tr.a) := by
    generalize tr.b - tr.a = x
    generalize tr.c - tr.a = y
    simp only [V3.lengthSquared, V3.dot, V3.sub_x, V3.sub_y, V3.sub_z]; ring
  rw [hab, hca, hbc, hZ] at hr2
  refine ⟨⟨_, _, hcuv⟩, ?_⟩
  have hsq : ∀ p : V3 ℝ, tr.circumcenter.squaredDistance p = tr.circumradius ^ 2 →
      tr.circumcenter.distance p = tr.circumradius := by
    intro p h
    unfold V3.distance
    rw [h, Real.sqrt_sq hr0]
  rw [hcuv] at hsq ⊢
  obtain ⟨d1, d2, d3⟩ := hd
      ((tr.c - tr.a).lengthSquared * ((tr.b - tr.a).lengthSquared - (tr.b - tr.a).dot (tr.c - tr.a)) /
        (2 * ((tr.b - tr.a).cross (tr.c - tr.a)).lengthSquared))
      ((tr.b - tr.a).lengthSquared * ((tr.c - tr.a).lengthSquared - (tr.b - tr.a).dot (tr.c - tr.a)) /
        (2 * ((tr.b - tr.a).cross (tr.c - tr.a)).lengthSquared))
  refine ⟨hsq _ ?_, hsq _ ?_, hsq _ ?_⟩
  · rw [d1, hr2]
    generalize ((tr.b - tr.a).cross (tr.c - tr.a)).lengthSquared = N at hn hN ⊢
    generalize (tr.b - tr.a).lengthSquared = X at hN ⊢
    generalize (tr.c - tr.a).lengthSquared = Y at hN ⊢
    generalize (tr.b - tr.a).dot (tr.c - tr.a) = D at hN ⊢
    field_simp
    rw [hN]; ring
  · rw [d2, hr2]
    generalize ((tr.b - tr.a).cross (tr.c - tr.a)).lengthSquared = N at hn hN ⊢
    generalize (tr.b - tr.a).lengthSquared = X at hN ⊢
    generalize (tr.c - tr.a).lengthSquared = Y at hN ⊢
    generalize (tr.b - tr.a).dot (tr.c - tr.a) = D at hN ⊢
    field_simp
    rw [hN]; ring
  · rw [d3, hr2]
    generalize ((tr.b - tr.a).cross (tr.c - tr.a)).lengthSquared = N at hn hN ⊢
    generalize (tr.b - tr.a).lengthSquared = X at hN ⊢
    generalize (tr.c - tr.a).lengthSquared = Y at hN ⊢
    generalize (tr.b - tr.a).dot (tr.c - tr.a) = D at hN ⊢
    field_simp
    rw [hN]; ring

/-- C67: the centroid is the point with three equal barycentric coordinates. -/
theorem C67_centroid (tr : Triangle ℝ) : tr.centroid = Spec.at_ tr (1 / 3) (1 / 3) := by
  ext <;> simp [centroid, Spec.at_] <;> ring

/-- C67: the aspect ratio of a triangle with some side under 10^19 is the circumradius over the
shortest side. -/
theorem C67_aspect_ratio (tr : Triangle ℝ)
    (h : min (tr.a.distance tr.b) (min (tr.b.distance tr.c) (tr.c.distance tr.a)) < 10 ^ 19) :
    tr.aspectRatio = tr.circumradius / min (tr.a.distance tr.b) (min (tr.b.distance tr.c) (tr.c.distance tr.a)) := by
  unfold aspectRatio
  dsimp only [List.foldl]
  have hmin : ∀ a b : ℝ, (if a < b then a else b) = min a b := by
    intro a b
    split_ifs with h
    · rw [min_eq_left h.le]
    · rw [min_eq_right (not_lt.1 h)]
  rw [hmin, hmin, hmin]
  congr 1
  generalize tr.a.distance tr.b = x at *
  generalize tr.b.distance tr.c = y at *
  generalize tr.c.distance tr.a = z at *
  have e : min z (min y (min x (10 ^ 19))) = min (min x (min y z)) (10 ^ 19) := by
    rw [min_comm z, min_assoc, min_assoc, min_comm (10 ^ 19) z, ← min_assoc x z, ← min_assoc y, min_left_comm y x z]
  rw [e, min_eq_left h.le]

/-- C67: three points are accepted exactly when they are more than a millimetre apart and the parallelogram they make
has at least 0.00001 of area; otherwise they are refused with an error, never with a panic. -/
theorem C67_accepted (a b c : V3 ℝ) :
    (new a b c = .ok ⟨a, b, c⟩ ↔ 1 / 1000 < a.distance b ∧ 1 / 1000 < a.distance c ∧ 1 / 1000 < b.distance c ∧
      1 / 100000 ≤ ((b - a).cross (c - a)).length) ∧
    (new a b c = .ok ⟨a, b, c⟩ ∨ new a b c = .err) ∧ (V3.Spec.Collinear a b c → new a b c = .err) := by
  have hcmp : ∀ p q : V3 ℝ, p.compare q = true ↔ p.distance q ≤ 1 / 1000 := by
    intro p q
    unfold V3.compare V3.compareBy V3.distance
    rw [decide_eq_true_eq, Real.sqrt_le_left (by norm_num)]
    show (p - q).lengthSquared ≤ _ ↔ p.squaredDistance q ≤ _
    rw [show p.squaredDistance q = (p - q).lengthSquared from rfl, sq]
  have hc : (b - a).cross (c - b) = (b - a).cross (c - a) := by ext <;> simp <;> ring
  have main : (new a b c = .ok ⟨a, b, c⟩ ∧ 1 / 1000 < a.distance b ∧ 1 / 1000 < a.distance c ∧ 1 / 1000 < b.distance c ∧
      1 / 100000 ≤ ((b - a).cross (c - a)).length) ∨
      (new a b c = .err ∧ ¬ (1 / 1000 < a.distance b ∧ 1 / 1000 < a.distance c ∧ 1 / 1000 < b.distance c ∧
      1 / 100000 ≤ ((b - a).cross (c - a)).length)) := by
    unfold new
    by_cases h1 : (a.compare b || a.compare c || b.compare c) = true
    · right
      rw [if_pos h1]
      refine ⟨rfl, ?_⟩
      rw [Bool.or_eq_true, Bool.or_eq_true, hcmp, hcmp, hcmp] at h1
      rintro ⟨x, y, z, -⟩
      rcases h1 with (h1 | h1) | h1 <;> linarith
    · rw [if_neg h1]
      simp only [Bool.or_eq_true, not_or, Bool.not_eq_true] at h1
      obtain ⟨⟨h1, h2⟩, h3⟩ := h1
      unfold V3.isCollinear
      rw [h1, h2, h3]
      simp only [Bool.and_self, Bool.or_self, Bool.false_eq_true, if_false, Outcome.bind, decide_eq_true_eq, hc]
      by_cases h4 : ((b - a).cross (c - a)).length < 1 / 100000
      · right
        rw [if_pos h4]
        exact ⟨rfl, fun h => absurd h.2.2.2 (not_le.2 h4)⟩
      · left
        rw [if_neg h4]
        rw [← Bool.not_eq_true, hcmp, not_le] at h1 h2 h3
        exact ⟨rfl, h1, h2, h3, not_lt.1 h4⟩
  refine ⟨?_, ?_, ?_⟩
  · rcases main with ⟨h, h'⟩ | ⟨h, h'⟩
    · exact ⟨fun _ => h', fun _ => h⟩
    · rw [h]
      exact ⟨fun e => (nomatch e), fun e => absurd e h'⟩
  · rcases main with ⟨h, -⟩ | ⟨h, -⟩
    · exact .inl h
    · exact .inr h
  · rintro ⟨p, d, hl⟩
    rcases main with ⟨-, -, -, -, h⟩ | ⟨h, -⟩
    · exfalso
      obtain ⟨t1, e1⟩ := hl a (by simp)
      obtain ⟨t2, e2⟩ := hl b (by simp)
      obtain ⟨t3, e3⟩ := hl c (by simp)
      have h0 : (b - a).cross (c - a) = 0 := by
        rw [e1, e2, e3]
        ext <;> simp <;> ring
      rw [h0] at h
      have : (0 : V3 ℝ).length = 0 := by simp [V3.length, V3.lengthSquared]
      rw [this] at h
      norm_num at h
    · exact h

/-- Half of a square of side one is accepted. -/
example : new ⟨0, 0, 0⟩ ⟨1, 0, 0⟩ ⟨0, 1, 0⟩ = .ok (⟨⟨0, 0, 0⟩, ⟨1, 0, 0⟩, ⟨0, 1, 0⟩⟩ : Triangle ℝ) := by
  rw [(C67_accepted _ _ _).1]
  have h2 : (1 : ℝ) < √2 := by rw [Real.lt_sqrt] <;> norm_num
  simp [V3.distance, V3.squaredDistance, V3.length, V3.lengthSquared]
  norm_num
  linarith

/-- C67: the normal of a triangle that was accepted has length one, is perpendicular to the sides, and sees the vertices
in counterclockwise order. -/
theorem C67_new (a b c : V3 ℝ) (tr : Triangle ℝ) (h : new a b c = .ok tr) :
    tr = ⟨a, b, c⟩ ∧ Spec.Proper tr ∧ 0 < tr.area ∧
    ∃ n, tr.normal = .ok n ∧ n.length = 1 ∧ n.dot (b - a) = 0 ∧ n.dot (c - a) = 0 ∧
      0 < n.dot ((b - a).cross (c - a)) := by
  unfold new at h
  split_ifs at h with h1
  simp only [Bool.or_eq_true, not_or, Bool.not_eq_true] at h1
  obtain ⟨⟨h1, h2⟩, h3⟩ := h1
  unfold V3.isCollinear at h
  rw [h1, h2, h3] at h
  simp only [Bool.and_self, Bool.or_self, Bool.false_eq_true, if_false, Outcome.bind, decide_eq_true_eq] at h
  split_ifs at h with h4
  have e : (⟨a, b, c⟩ : Triangle ℝ) = tr := Outcome.ok.inj h
  subst e
  rw [not_lt] at h4
  have hc : (b - a).cross (c - b) = (b - a).cross (c - a) := by ext <;> simp <;> ring
  rw [hc] at h4
  have hL : 1 / 10 ^ 20 < ((b - a).cross (c - a)).lengthSquared := by
    rw [← len_sq]
    nlinarith
  have hpr : Spec.Proper (⟨a, b, c⟩ : Triangle ℝ) := by
    intro h0
    rw [show (b - a).cross (c - a) = 0 from h0] at hL
    simp [V3.lengthSquared] at hL
    linarith
  refine ⟨rfl, hpr, ?_, ?_⟩
  · rw [C67_area]
    have : (0 : ℝ) < ((b - a).cross (c - a)).length := lt_of_lt_of_le (by norm_num) h4
    show 0 < ((b - a).cross (c - a)).length / 2
    positivity
  · unfold normal
    simp only [hc]
    obtain ⟨n, hn, hl, hs⟩ := (V3.C64_normalize ((b - a).cross (c - a))).1 hL
    have hpos : (0 : ℝ) < ((b - a).cross (c - a)).length := lt_of_lt_of_le (by norm_num) h4
    have hd : ∀ v : V3 ℝ, ((b - a).cross (c - a)).dot v = n.dot v * ((b - a).cross (c - a)).length := by
      intro v
      conv_lhs => rw [hs]
      simp only [V3.dot, V3.scale_x, V3.scale_y, V3.scale_z]; ring
    obtain ⟨z1, z2, -⟩ := V3.C64_cross (b - a) (c - a)
    rw [hd] at z1 z2
    refine ⟨n, hn, hl, ?_, ?_, ?_⟩
    · rcases mul_eq_zero.1 z1 with h | h
      · exact h
      · linarith
    · rcases mul_eq_zero.1 z2 with h | h
      · exact h
      · linarith
    · have h5 := hd ((b - a).cross (c - a))
      have h6 : 0 < ((b - a).cross (c - a)).dot ((b - a).cross (c - a)) := lt_trans (by norm_num) hL
      rw [h5] at h6
      exact (pos_iff_pos_of_mul_pos h6).2 hpos

end Simple.Geometry.Triangle
