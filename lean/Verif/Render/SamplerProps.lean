import Mathlib.MeasureTheory.Measure.Lebesgue.Integral
import Mathlib.Analysis.SpecialFunctions.Integrals.Basic
import Verif.Geometry.VecProps
import Verif.Render.SamplerModel

/-! # C57: samplers generate points in the sampled set, and evenly -/

namespace Simple.Render.Sampler

open Geometry MeasureTheory

namespace Spec

/-- The pairs of random numbers. -/
def square : Set (ℝ × ℝ) := Set.Ico 0 1 ×ˢ Set.Ico 0 1

/-- Two perpendicular directions of length one, perpendicular to the normal, which has length one too. -/
structure Triad (e1 e2 n : V3 ℝ) : Prop where
  unit1 : e1.dot e1 = 1
  unit2 : e2.dot e2 = 1
  unit : n.dot n = 1
  across : e1.dot e2 = 0
  flat1 : e1.dot n = 0
  flat2 : e2.dot n = 0

/-- Part of a triangle, in coordinates along two of its sides: up to `t` along the first, and the part `s` of what is
then left along the second. -/
def Piece (t s : ℝ) : Set (ℝ × ℝ) := {p | 0 < p.1 ∧ p.1 < t ∧ 0 < p.2 ∧ p.2 < s * (1 - p.1)}

/-- The point of a triangle with those coordinates. -/
def at' (a b c : V3 ℝ) (p : ℝ × ℝ) : V3 ℝ :=
  ⟨a.x + p.1 * (b.x - a.x) + p.2 * (c.x - a.x), a.y + p.1 * (b.y - a.y) + p.2 * (c.y - a.y),
    a.z + p.1 * (b.z - a.z) + p.2 * (c.z - a.z)⟩

/-- `rnd` rounds to numbers that it does not change, and keeps the order. -/
structure Rounding {K : Type*} [LinearOrder K] (rnd : K → K) : Prop where
  mono : Monotone rnd
  stable : ∀ x, rnd (rnd x) = rnd x

end Spec

open Spec

private theorem clamp_range {x lo hi : ℝ} (h : lo ≤ hi) : lo ≤ clamp x lo hi ∧ clamp x lo hi ≤ hi := by
  unfold clamp
  split_ifs with h1 h2
  · exact ⟨le_refl _, h⟩
  · exact ⟨h, le_refl _⟩
  · exact ⟨not_lt.1 h1, not_lt.1 h2⟩

private theorem clamp_id {x lo hi : ℝ} (h1 : lo ≤ x) (h2 : x ≤ hi) : clamp x lo hi = x := by
  unfold clamp
  rw [if_neg (not_lt.2 h1), if_neg (not_lt.2 h2)]

private theorem clamp_gt {x lo hi q : ℝ} (h1 : lo ≤ q) (h2 : q < hi) : q < clamp x lo hi ↔ q < x := by
  unfold clamp
  split_ifs with a b
  · constructor <;> intro h <;> linarith
  · constructor <;> intro h <;> linarith
  · rfl

private theorem clamp_lt {x lo hi q : ℝ} (h1 : lo < q) (h2 : q ≤ hi) : clamp x lo hi < q ↔ x < q := by
  unfold clamp
  split_ifs with a b
  · constructor <;> intro h <;> linarith
  · constructor <;> intro h <;> linarith
  · rfl

/-! ### Triangles -/

private theorem weights (u : ℝ × ℝ) :
    0 < 1 - Real.sqrt (clamp u.1 (1 / 10 ^ 8) (1 - 1 / 10 ^ 8)) ∧
    0 < clamp u.2 (1 / 10 ^ 8) (1 - 1 / 10 ^ 8) * Real.sqrt (clamp u.1 (1 / 10 ^ 8) (1 - 1 / 10 ^ 8)) ∧
    0 < Real.sqrt (clamp u.1 (1 / 10 ^ 8) (1 - 1 / 10 ^ 8)) ∧ clamp u.2 (1 / 10 ^ 8) (1 - 1 / 10 ^ 8) < 1 := by
  obtain ⟨h1, h2⟩ := clamp_range (x := u.1) (lo := 1 / 10 ^ 8) (hi := 1 - 1 / 10 ^ 8) (by norm_num)
  obtain ⟨h3, h4⟩ := clamp_range (x := u.2) (lo := 1 / 10 ^ 8) (hi := 1 - 1 / 10 ^ 8) (by norm_num)
  have p1 : 0 < Real.sqrt (clamp u.1 (1 / 10 ^ 8) (1 - 1 / 10 ^ 8)) := Real.sqrt_pos.2 (lt_of_lt_of_le (by norm_num) h1)
  have p2 : Real.sqrt (clamp u.1 (1 / 10 ^ 8) (1 - 1 / 10 ^ 8)) < 1 := by
    rw [Real.sqrt_lt' one_pos, one_pow]
    exact lt_of_le_of_lt h2 (by norm_num)
  exact ⟨by linarith, mul_pos (lt_of_lt_of_le (by norm_num) h3) p1, p1, lt_of_le_of_lt h4 (by norm_num)⟩

/-- C57: a sample of a triangle is a mean of its vertices, with weights that are all positive: it is inside the triangle. -/
theorem C57_triangle (u : ℝ × ℝ) (a b c : V3 ℝ) : ∃ α β γ : ℝ, 0 < α ∧ 0 < β ∧ 0 < γ ∧ α + β + γ = 1 ∧
    triangle u a b c = ⟨α * a.x + β * b.x + γ * c.x, α * a.y + β * b.y + γ * c.y, α * a.z + β * b.z + γ * c.z⟩ := by
  obtain ⟨h1, h2, h3, h4⟩ := weights u
  generalize hr2 : clamp u.2 (1 / 10 ^ 8) (1 - 1 / 10 ^ 8) = r2 at *
  generalize hs : Real.sqrt (clamp u.1 (1 / 10 ^ 8) (1 - 1 / 10 ^ 8)) = s at *
  refine ⟨s * (1 - r2), 1 - s, r2 * s, mul_pos h3 (by linarith), h1, h2, by ring, ?_⟩
  unfold triangle
  simp only
  rw [hr2, hs]
  ext <;> simp <;> ring

private theorem triangle_at (u : ℝ × ℝ) (a b c : V3 ℝ) : triangle u a b c =
    at' a b c (1 - Real.sqrt (clamp u.1 (1 / 10 ^ 8) (1 - 1 / 10 ^ 8)),
      clamp u.2 (1 / 10 ^ 8) (1 - 1 / 10 ^ 8) * Real.sqrt (clamp u.1 (1 / 10 ^ 8) (1 - 1 / 10 ^ 8))) := by
  unfold triangle at'
  ext <;> simp <;> ring

private theorem at_inj (a b c : V3 ℝ) (hd : (b - a).cross (c - a) ≠ ⟨0, 0, 0⟩) (p q : ℝ × ℝ) (h : at' a b c p = at' a b c q) : p = q := by
  obtain ⟨u, v⟩ := p
  obtain ⟨u', v'⟩ := q
  have h1 := congrArg V3.x h
  have h2 := congrArg V3.y h
  have h3 := congrArg V3.z h
  simp only [at'] at h1 h2 h3
  have key : ∀ k : ℝ, k * ((b - a).cross (c - a)).x = 0 → k * ((b - a).cross (c - a)).y = 0 → k * ((b - a).cross (c - a)).z = 0 → k = 0 := by
    intro k k1 k2 k3
    by_contra hk
    apply hd
    ext
    · exact (mul_eq_zero.1 k1).resolve_left hk
    · exact (mul_eq_zero.1 k2).resolve_left hk
    · exact (mul_eq_zero.1 k3).resolve_left hk
  have hu : u - u' = 0 := by
    apply key <;> simp only [V3.cross_x, V3.cross_y, V3.cross_z, V3.sub_x, V3.sub_y, V3.sub_z]
    · linear_combination (c.z - a.z) * h2 - (c.y - a.y) * h3
    · linear_combination (c.x - a.x) * h3 - (c.z - a.z) * h1
    · linear_combination (c.y - a.y) * h1 - (c.x - a.x) * h2
  have hv : v - v' = 0 := by
    apply key <;> simp only [V3.cross_x, V3.cross_y, V3.cross_z, V3.sub_x, V3.sub_y, V3.sub_z]
    · linear_combination (b.y - a.y) * h3 - (b.z - a.z) * h2
    · linear_combination (b.z - a.z) * h1 - (b.x - a.x) * h3
    · linear_combination (b.x - a.x) * h2 - (b.y - a.y) * h1
  rw [sub_eq_zero] at hu hv
  rw [hu, hv]

private theorem part_volume (t s : ℝ) (ht : 0 ≤ t) (ht1 : t ≤ 1) (hs : 0 ≤ s) :
    volume (Piece t s) = ENNReal.ofReal (s * (1 - (1 - t) ^ 2) / 2) := by
  have e : Piece t s = regionBetween (fun _ => (0 : ℝ)) (fun x => s * (1 - x)) (Set.Ioo 0 t) := by
    ext p
    simp only [Piece, regionBetween, Set.mem_ofPred_eq, Set.mem_Ioo]
    tauto
  rw [e, Measure.volume_eq_prod, volume_regionBetween_eq_integral]
  · congr 1
    rw [← integral_Ioc_eq_integral_Ioo, ← intervalIntegral.integral_of_le ht]
    simp only [Pi.sub_apply, sub_zero]
    rw [intervalIntegral.integral_const_mul, intervalIntegral.integral_sub (by simp) (by simp)]
    simp
    ring
  · exact integrableOn_const (by simp)
  · exact (Continuous.integrableOn_Icc (by fun_prop)).mono_set Set.Ioo_subset_Icc_self
  · exact measurableSet_Ioo
  · intro x hx
    exact mul_nonneg hs (by linarith [hx.2])

/-- C57: the samples are spread evenly over a triangle.  The random numbers for which the sample is in a part of the
triangle are to all of them as the area of the part is to the area of the triangle.  (But for the clamping of the
random numbers, which is why the parts are not to begin or end within 10⁻⁸ of the ends.) -/
theorem C57_triangle_even (a b c : V3 ℝ) (hd : (b - a).cross (c - a) ≠ ⟨0, 0, 0⟩) (t s : ℝ) (ht0 : 0 ≤ t) (ht1 : t ≤ 1)
    (h1 : 1 / 10 ^ 8 ≤ (1 - t) ^ 2) (h2 : (1 - t) ^ 2 < 1 - 1 / 10 ^ 8) (h3 : 1 / 10 ^ 8 < s) (h4 : s ≤ 1 - 1 / 10 ^ 8) :
    volume {u ∈ square | ∃ p ∈ Piece t s, triangle u a b c = at' a b c p} * volume (Piece 1 1) = volume (Piece t s) := by
  have e : {u ∈ square | ∃ p ∈ Piece t s, triangle u a b c = at' a b c p} = Set.Ioo ((1 - t) ^ 2) 1 ×ˢ Set.Ico 0 s := by
    ext u
    obtain ⟨w1, w2, w3, w4⟩ := weights u
    have hq := clamp_gt (x := u.1) h1 h2
    have hr := clamp_lt (x := u.2) h3 h4
    have hex : (∃ p ∈ Piece t s, triangle u a b c = at' a b c p) ↔ (1 - t) ^ 2 < u.1 ∧ u.2 < s := by
      rw [← hq, ← hr]
      rw [triangle_at]
      have hsq : (1 - t) ^ 2 < clamp u.1 (1 / 10 ^ 8) (1 - 1 / 10 ^ 8) ↔ 1 - t < Real.sqrt (clamp u.1 (1 / 10 ^ 8) (1 - 1 / 10 ^ 8)) := by
        rw [Real.lt_sqrt (by linarith)]
      rw [hsq]
      generalize Real.sqrt (clamp u.1 (1 / 10 ^ 8) (1 - 1 / 10 ^ 8)) = q at *
      generalize clamp u.2 (1 / 10 ^ 8) (1 - 1 / 10 ^ 8) = r at *
      constructor
      · rintro ⟨p, hp, he⟩
        have := at_inj a b c hd _ _ he
        rw [← this] at hp
        obtain ⟨p1, p2, p3, p4⟩ := hp
        simp only at p1 p2 p3 p4
        refine ⟨by linarith, ?_⟩
        rw [show s * (1 - (1 - q)) = s * q by ring] at p4
        exact lt_of_mul_lt_mul_right p4 w3.le
      · rintro ⟨g1, g2⟩
        refine ⟨_, ⟨w1, by simp only; linarith, w2, ?_⟩, rfl⟩
        simp only
        rw [show s * (1 - (1 - q)) = s * q by ring]
        exact mul_lt_mul_of_pos_right g2 w3
    simp only [Set.mem_ofPred_eq, square, Set.mem_prod, Set.mem_Ico, Set.mem_Ioo]
    rw [hex]
    have : 0 ≤ (1 - t) ^ 2 := sq_nonneg _
    constructor
    · rintro ⟨⟨⟨a1, a2⟩, a3, a4⟩, a5, a6⟩
      exact ⟨⟨a5, a2⟩, a3, a6⟩
    · rintro ⟨⟨a5, a2⟩, a3, a6⟩
      exact ⟨⟨⟨by linarith, a2⟩, a3, by linarith⟩, a5, a6⟩
  rw [e, part_volume t s ht0 ht1 (by linarith), part_volume 1 1 (by norm_num) le_rfl (by norm_num), Measure.volume_eq_prod, Measure.prod_prod,
    Real.volume_Ioo, Real.volume_Ico, ← ENNReal.ofReal_mul (by linarith), ← ENNReal.ofReal_mul (mul_nonneg (by linarith) (by linarith))]
  congr 1
  ring

/-! ### Discs -/

private theorem disc_radius (u : ℝ × ℝ) (radius : ℝ) (h : 0 ≤ u.1) :
    (horizontalDisc u radius).1 ^ 2 + (horizontalDisc u radius).2 ^ 2 = radius ^ 2 * u.1 := by
  unfold horizontalDisc
  simp only
  have := Real.sin_sq_add_cos_sq (2 * Real.pi * u.2)
  have hs := Real.sq_sqrt h
  calc (radius * √u.1 * Real.sin (2 * Real.pi * u.2)) ^ 2 + (radius * √u.1 * Real.cos (2 * Real.pi * u.2)) ^ 2
      = radius ^ 2 * √u.1 ^ 2 * (Real.sin (2 * Real.pi * u.2) ^ 2 + Real.cos (2 * Real.pi * u.2) ^ 2) := by ring
    _ = radius ^ 2 * u.1 := by rw [this, hs, mul_one]

/-- C57: a sample of a disc is in the disc. -/
theorem C57_disc (u : ℝ × ℝ) (hu : u ∈ square) (radius : ℝ) :
    (horizontalDisc u radius).1 ^ 2 + (horizontalDisc u radius).2 ^ 2 ≤ radius ^ 2 := by
  obtain ⟨⟨h1, h2⟩, -⟩ := hu
  rw [disc_radius u radius h1]
  nlinarith [sq_nonneg radius]

/-- C57: the samples of a disc are spread evenly over it, as far as the distance from the centre is concerned: those
within a smaller disc come from a part of the random numbers which is as its area. -/
theorem C57_disc_even (radius q : ℝ) (hr : 0 < radius) (h0 : 0 ≤ q) (h1 : q ≤ radius) :
    volume {u ∈ square | (horizontalDisc u radius).1 ^ 2 + (horizontalDisc u radius).2 ^ 2 < q ^ 2} = ENNReal.ofReal (q ^ 2 / radius ^ 2) := by
  have e : {u ∈ square | (horizontalDisc u radius).1 ^ 2 + (horizontalDisc u radius).2 ^ 2 < q ^ 2} =
      Set.Ico 0 (q ^ 2 / radius ^ 2) ×ˢ Set.Ico 0 1 := by
    ext u
    have hle : q ^ 2 / radius ^ 2 ≤ 1 := by
      rw [div_le_one (by positivity)]
      exact pow_le_pow_left₀ h0 h1 2
    simp only [Set.mem_ofPred_eq, square, Set.mem_prod, Set.mem_Ico]
    constructor
    · rintro ⟨⟨⟨a1, a2⟩, a3⟩, a5⟩
      rw [disc_radius u radius a1] at a5
      refine ⟨⟨a1, ?_⟩, a3⟩
      rw [lt_div_iff₀ (by positivity)]
      linarith
    · rintro ⟨⟨a1, a2⟩, a3⟩
      refine ⟨⟨⟨a1, by linarith⟩, a3⟩, ?_⟩
      rw [disc_radius u radius a1]
      rw [lt_div_iff₀ (by positivity)] at a2
      linarith
  rw [e, Measure.volume_eq_prod, Measure.prod_prod, Real.volume_Ico, Real.volume_Ico]
  simp

private theorem world_ok (checks : Bool) {e1 e2 n : V3 ℝ} (h : Triad e1 e2 n) (centre : V3 ℝ) (x y z : ℝ) :
    ∃ p, localToWorld checks e1 e2 n centre x y z = .ok p ∧ (p - centre).dot n = z ∧ (p - centre).lengthSquared = x ^ 2 + y ^ 2 + z ^ 2 := by
  obtain ⟨a1, a2, a3, a4, a5, a6⟩ := h
  have l1 : e1.lengthSquared = 1 := a1
  have l2 : e2.lengthSquared = 1 := a2
  have l3 : n.lengthSquared = 1 := a3
  unfold localToWorld
  rw [if_neg (by rw [l1, l2, l3]; norm_num)]
  refine ⟨_, rfl, ?_, ?_⟩
  · simp only [V3.dot, V3.sub_x, V3.sub_y, V3.sub_z] at *
    linear_combination x * a5 + y * a6 + z * a3
  · simp only [V3.dot, V3.lengthSquared, V3.sub_x, V3.sub_y, V3.sub_z] at *
    linear_combination x ^ 2 * a1 + y ^ 2 * a2 + z ^ 2 * a3 + 2 * x * y * a4 + 2 * x * z * a5 + 2 * y * z * a6

private theorem unit_coordinate (n : V3 ℝ) (h : n.dot n = 1) : V3.tiny < |n.x| ∨ V3.tiny < |n.y| ∨ V3.tiny < |n.z| := by
  by_contra hc
  rw [not_or, not_or, not_lt, not_lt, not_lt] at hc
  have ht : (V3.tiny : ℝ) ≤ 1 / 2 := by unfold V3.tiny; norm_num
  have ht0 : (0 : ℝ) ≤ V3.tiny := by unfold V3.tiny; positivity
  have q : ∀ t : ℝ, |t| ≤ V3.tiny → t * t ≤ 1 / 4 := by
    intro t h
    rw [← abs_mul_abs_self]
    nlinarith [abs_nonneg t]
  have := q _ hc.1
  have := q _ hc.2.1
  have := q _ hc.2.2
  unfold V3.dot at h
  linarith

private theorem triad_of (n p : V3 ℝ) (hn : n.dot n = 1) (hp : p.length = 1) (hd : n.dot p = 0) : Triad (p.cross n) p n := by
  have hp2 : p.dot p = 1 := by
    have : p.dot p = p.length ^ 2 := by
      unfold V3.length
      rw [Real.sq_sqrt (by unfold V3.lengthSquared; nlinarith [mul_self_nonneg p.x, mul_self_nonneg p.y, mul_self_nonneg p.z])]
      rfl
    rw [this, hp, one_pow]
  refine ⟨?_, hp2, hn, ?_, ?_, ?_⟩
  · simp only [V3.dot, V3.cross] at *
    linear_combination (n.x * n.x + n.y * n.y + n.z * n.z) * hp2 + hn - (n.x * p.x + n.y * p.y + n.z * p.z) * hd
  · simp only [V3.dot, V3.cross] at *; ring
  · simp only [V3.dot, V3.cross] at *; ring
  · simp only [V3.dot] at *; linear_combination hd

/-- C57: for a normal of length one, a sample of a tilted disc is generated without failure, lies in the plane of the
disc, and not further from the centre than the radius. -/
theorem C57_tilted_disc (checks : Bool) (u : ℝ × ℝ) (hu : u ∈ square) (radius : ℝ) (centre normal : V3 ℝ) (hn : normal.dot normal = 1) :
    ∃ p, tiltedDisc checks u radius centre normal = .ok p ∧ (p - centre).dot normal = 0 ∧ (p - centre).dot (p - centre) ≤ radius ^ 2 := by
  obtain ⟨e, he, hl, hd⟩ := V3.perpendicular_of normal (unit_coordinate normal hn)
  unfold tiltedDisc
  rw [he]
  obtain ⟨p, h1, h2, h3⟩ := world_ok checks (triad_of normal e hn hl hd) centre (horizontalDisc u radius).1 (horizontalDisc u radius).2 0
  refine ⟨p, h1, h2, ?_⟩
  have : (p - centre).dot (p - centre) = (p - centre).lengthSquared := rfl
  rw [this, h3]
  have := C57_disc u hu radius
  linarith

/-! ### Hemispheres and spheres -/

private theorem polar (r t : ℝ) (z : ℝ) (h : r ^ 2 = 1 - z * z) : (Real.cos t * r) ^ 2 + (Real.sin t * r) ^ 2 + z ^ 2 = 1 := by
  have := Real.sin_sq_add_cos_sq t
  calc (Real.cos t * r) ^ 2 + (Real.sin t * r) ^ 2 + z ^ 2 = r ^ 2 * (Real.sin t ^ 2 + Real.cos t ^ 2) + z ^ 2 := by ring
    _ = 1 := by rw [this, h]; ring

private theorem hemisphere_unit (u : ℝ × ℝ) (hu : u ∈ square) :
    (uniformHemisphere u).x ^ 2 + (uniformHemisphere u).y ^ 2 + (uniformHemisphere u).z ^ 2 = 1 := by
  obtain ⟨⟨h1, h2⟩, -⟩ := hu
  unfold uniformHemisphere
  simp only
  exact polar _ _ _ (Real.sq_sqrt (by nlinarith))

/-- C57: the samples of the hemisphere are directions of length one that look up, and every height is as likely as
every other, as on a sphere. -/
theorem C57_hemisphere : (∀ u ∈ square, (uniformHemisphere u).x ^ 2 + (uniformHemisphere u).y ^ 2 + (uniformHemisphere u).z ^ 2 = 1 ∧
      0 ≤ (uniformHemisphere u).z) ∧
    ∀ t : ℝ, 0 ≤ t → t ≤ 1 → volume {u ∈ square | (uniformHemisphere u).z < t} = ENNReal.ofReal t := by
  refine ⟨fun u hu => ⟨hemisphere_unit u hu, hu.1.1⟩, fun t h0 h1 => ?_⟩
  have e : {u ∈ square | (uniformHemisphere u).z < t} = Set.Ico 0 t ×ˢ Set.Ico 0 1 := by
    ext u
    simp only [uniformHemisphere, Set.mem_ofPred_eq, square, Set.mem_prod, Set.mem_Ico]
    constructor
    · rintro ⟨⟨⟨a1, a2⟩, a3⟩, a5⟩; exact ⟨⟨a1, a5⟩, a3⟩
    · rintro ⟨⟨a1, a5⟩, a3⟩; exact ⟨⟨⟨a1, by linarith⟩, a3⟩, a5⟩
  rw [e, Measure.volume_eq_prod, Measure.prod_prod, Real.volume_Ico, Real.volume_Ico]
  simp

/-- C57: the samples weighted with the cosine are directions of length one that look up; below the height `t` are as many
as the cosine asks for, `t²`. -/
theorem C57_cosine : (∀ u ∈ square, (cosineHemisphere u).x ^ 2 + (cosineHemisphere u).y ^ 2 + (cosineHemisphere u).z ^ 2 = 1 ∧
      0 ≤ (cosineHemisphere u).z) ∧
    ∀ t : ℝ, 0 ≤ t → t ≤ 1 → volume {u ∈ square | (cosineHemisphere u).z < t} = ENNReal.ofReal (t ^ 2) := by
  have hz : ∀ u ∈ square, (cosineHemisphere u).z = Real.sqrt (1 - u.1) := by
    rintro u ⟨⟨h1, h2⟩, -⟩
    have := disc_radius u 1 h1
    rw [one_pow, one_mul, pow_two, pow_two] at this
    unfold cosineHemisphere
    simp only
    rw [this, clamp_id h1 h2.le]
  refine ⟨fun u hu => ⟨?_, ?_⟩, fun t h0 h1 => ?_⟩
  · rw [hz u hu]
    have := disc_radius u 1 hu.1.1
    rw [one_pow, one_mul] at this
    rw [Real.sq_sqrt (by linarith [hu.1.2])]
    unfold cosineHemisphere
    simp only
    linarith
  · rw [hz u hu]; exact Real.sqrt_nonneg _
  have e : {u ∈ square | (cosineHemisphere u).z < t} = (Set.Ioo (1 - t ^ 2) 1 ∩ Set.Ico 0 1) ×ˢ Set.Ico 0 1 := by
    ext u
    constructor
    · rintro ⟨hu, hlt⟩
      rw [hz u hu] at hlt
      have hpos : 0 < t := lt_of_le_of_lt (Real.sqrt_nonneg _) hlt
      rw [Real.sqrt_lt' hpos] at hlt
      exact ⟨⟨⟨by linarith, hu.1.2⟩, hu.1⟩, hu.2⟩
    · rintro ⟨⟨⟨a1, a2⟩, a3⟩, a4⟩
      refine ⟨⟨a3, a4⟩, ?_⟩
      rw [hz u ⟨a3, a4⟩]
      rcases h0.lt_or_eq with hp | hp
      · rw [Real.sqrt_lt' hp]; linarith
      · subst hp; norm_num at a1; linarith
  have e2 : Set.Ioo (1 - t ^ 2) 1 ∩ Set.Ico 0 1 = Set.Ioo (1 - t ^ 2) 1 := by
    ext x
    constructor
    · exact fun h => h.1
    · intro h
      refine ⟨h, ?_, h.2⟩
      have : t ^ 2 ≤ 1 := by nlinarith
      linarith [h.1]
  rw [e, e2, Measure.volume_eq_prod, Measure.prod_prod, Real.volume_Ioo, Real.volume_Ico]
  simp

/-- C57: in a tilted hemisphere the samples are generated without failure, have length one and are on the side of the
normal. -/
theorem C57_tilted_hemisphere (checks : Bool) (u : ℝ × ℝ) (hu : u ∈ square) (e1 e2 n : V3 ℝ) (h : Triad e1 e2 n) :
    ∃ d, tiltedHemisphere checks u e1 e2 n = .ok d ∧ d.dot d = 1 ∧ d.dot n = u.1 ∧ 0 ≤ d.dot n := by
  obtain ⟨p, h1, h2, h3⟩ := world_ok checks h 0 (uniformHemisphere u).x (uniformHemisphere u).y (uniformHemisphere u).z
  have hp : p - 0 = p := by ext <;> simp
  rw [hp] at h2 h3
  rw [hemisphere_unit u hu] at h3
  unfold tiltedHemisphere
  simp only
  rw [h1]
  have hl : p.length = 1 := by unfold V3.length; rw [h3, Real.sqrt_one]
  refine ⟨p, ?_, h3, h2, ?_⟩
  · simp only [Outcome.bind]
    rw [if_neg (by rw [hl]; norm_num)]
  · rw [h2]; exact hu.1.1

/-- C57: the directions sampled by the cosine around any unit normal have length one, and the cosine sampled. -/
theorem C57_tilted_cosine (checks : Bool) (n : V3 ℝ) (hn : n.dot n = 1) :
    ∃ e, n.getPerpendicular = .ok e ∧ ∀ u ∈ square, ∃ d,
      localToWorld checks (e.cross n) e n 0 (cosineHemisphere u).x (cosineHemisphere u).y (cosineHemisphere u).z = .ok d ∧
        d.dot d = 1 ∧ d.dot n = (cosineHemisphere u).z := by
  obtain ⟨e, he, hl, hd⟩ := V3.perpendicular_of n (unit_coordinate n hn)
  refine ⟨e, he, fun u hu => ?_⟩
  obtain ⟨p, h1, h2, h3⟩ := world_ok checks (triad_of n e hn hl hd) 0 (cosineHemisphere u).x (cosineHemisphere u).y (cosineHemisphere u).z
  have hp : p - 0 = p := by ext <;> simp
  rw [hp] at h2 h3
  exact ⟨p, h1, h3.trans (C57_cosine.1 u hu).1, h2⟩

/-- C57: the samples of a sphere are on it, and every height is as likely as every other (but for the clamping, within
10⁻⁷ of the poles); those of a sphere with a centre and a radius are just inside it. -/
theorem C57_sphere : (∀ u, (sphere u).x ^ 2 + (sphere u).y ^ 2 + (sphere u).z ^ 2 = 1) ∧
    (∀ t : ℝ, -1 + 2 / 10 ^ 7 ≤ t → t < 1 - 2 / 10 ^ 7 → volume {u ∈ square | t < (sphere u).z} = ENNReal.ofReal ((1 - t) / 2)) ∧
    ∀ u centre radius, (sphereSurface u centre radius).squaredDistance centre = (radius * (1 - 1 / 10 ^ 5)) ^ 2 := by
  have hunit : ∀ u, (sphere u).x ^ 2 + (sphere u).y ^ 2 + (sphere u).z ^ 2 = 1 := by
    intro u
    obtain ⟨h1, h2⟩ := clamp_range (x := u.1) (lo := 1 / 10 ^ 7) (hi := 1 - 1 / 10 ^ 7) (by norm_num)
    unfold sphere
    simp only
    refine polar _ _ _ (Real.sq_sqrt ?_)
    have a1 : 0 ≤ clamp u.1 (1 / 10 ^ 7) (1 - 1 / 10 ^ 7) := le_trans (by norm_num) h1
    have a2 : clamp u.1 (1 / 10 ^ 7) (1 - 1 / 10 ^ 7) ≤ 1 := le_trans h2 (by norm_num)
    nlinarith
  refine ⟨hunit, fun t h1 h2 => ?_, fun u centre radius => ?_⟩
  · have e : {u ∈ square | t < (sphere u).z} = Set.Ico 0 ((1 - t) / 2) ×ˢ Set.Ico 0 1 := by
      ext u
      have hc : t < (sphere u).z ↔ u.1 < (1 - t) / 2 := by
        have e1 : (sphere u).z = 1 - 2 * clamp u.1 (1 / 10 ^ 7) (1 - 1 / 10 ^ 7) := rfl
        rw [e1]
        rw [← clamp_lt (x := u.1) (lo := 1 / 10 ^ 7) (hi := 1 - 1 / 10 ^ 7) (by linarith) (by linarith)]
        constructor <;> intro h <;> linarith
      simp only [Set.mem_ofPred_eq, square, Set.mem_prod, Set.mem_Ico]
      rw [hc]
      constructor
      · rintro ⟨⟨⟨a1, a2⟩, a3⟩, a5⟩; exact ⟨⟨a1, a5⟩, a3⟩
      · rintro ⟨⟨a1, a5⟩, a3⟩; exact ⟨⟨⟨a1, by linarith⟩, a3⟩, a5⟩
    rw [e, Measure.volume_eq_prod, Measure.prod_prod, Real.volume_Ico, Real.volume_Ico]
    simp
  · have := hunit u
    unfold V3.squaredDistance sphereSurface
    simp only
    linear_combination (radius * (1 - 1 / 10 ^ 5)) ^ 2 * this

/-- C57: the direction to a triangle leads to its centre, and the one to a sphere meets it first at the distance given. -/
theorem C57_directions (a b c point centre : V3 ℝ) (radius : ℝ) :
    ((a + b + c).scale (1 / 3) ≠ point → ∃ t d, triangleDirection a b c point = (t, d) ∧ d.dot d = 1 ∧
      point + d.scale t = (a + b + c).scale (1 / 3)) ∧
    (centre ≠ point → ∃ t d, sphereDirection centre radius point = (t, d) ∧ d.dot d = 1 ∧
      (point + d.scale t).squaredDistance centre = radius ^ 2) := by
  have key : ∀ v : V3 ℝ, v ≠ 0 → 0 < v.length ∧ (v.div v.length).dot (v.div v.length) = 1 ∧ v.length ^ 2 = v.lengthSquared := by
    intro v hv
    have hpos : 0 < v.lengthSquared := by
      by_contra hc
      rw [not_lt] at hc
      apply hv
      unfold V3.lengthSquared at hc
      ext
      · exact mul_self_eq_zero.1 (le_antisymm (by nlinarith [mul_self_nonneg v.y, mul_self_nonneg v.z]) (mul_self_nonneg _))
      · exact mul_self_eq_zero.1 (le_antisymm (by nlinarith [mul_self_nonneg v.x, mul_self_nonneg v.z]) (mul_self_nonneg _))
      · exact mul_self_eq_zero.1 (le_antisymm (by nlinarith [mul_self_nonneg v.y, mul_self_nonneg v.x]) (mul_self_nonneg _))
    have hl : 0 < v.length := Real.sqrt_pos.2 hpos
    have h2 : v.length ^ 2 = v.lengthSquared := Real.sq_sqrt hpos.le
    refine ⟨hl, ?_, h2⟩
    simp only [V3.dot, V3.div]
    field_simp
    rw [h2]
    simp only [V3.lengthSquared]
    ring
  have hne : ∀ p q : V3 ℝ, p ≠ q → p - q ≠ 0 := by
    intro p q h e
    apply h
    ext
    · have := congrArg V3.x e; simp only [V3.sub_x, V3.zero_x] at this; linarith
    · have := congrArg V3.y e; simp only [V3.sub_y, V3.zero_y] at this; linarith
    · have := congrArg V3.z e; simp only [V3.sub_z, V3.zero_z] at this; linarith
  constructor
  · intro h
    obtain ⟨k1, k2, k3⟩ := key _ (hne _ _ h)
    refine ⟨_, _, rfl, k2, ?_⟩
    generalize (a + b + c).scale (1 / 3) = m at *
    ext <;> simp only [V3.add_x, V3.add_y, V3.add_z, V3.scale, V3.div, V3.sub_x, V3.sub_y, V3.sub_z] <;> field_simp <;> ring
  · intro h
    obtain ⟨k1, k2, k3⟩ := key _ (hne _ _ h)
    refine ⟨_, _, rfl, k2, ?_⟩
    generalize (centre - point).length = L at *
    simp only [V3.squaredDistance, V3.add_x, V3.add_y, V3.add_z, V3.scale, V3.div, V3.sub_x, V3.sub_y, V3.sub_z, V3.lengthSquared] at *
    field_simp
    linear_combination (-(radius ^ 2)) * k3

/-! ### Choosing a triangle -/

section Pick

variable {K : Type*} [Field K] [LinearOrder K] [IsStrictOrderedRing K]

private theorem pickFrom_ok (rnd : K → K) (r : K) : ∀ (areas : List K) (acc : K) (i : ℕ), areas ≠ [] →
    r ≤ areas.foldl (fun acc a => rnd (acc + a)) acc → ∃ k, i ≤ k ∧ k < i + areas.length ∧ pickFrom rnd r acc i areas = .ok k := by
  intro areas
  induction areas with
  | nil => intro acc i h; exact absurd rfl h
  | cons a areas ih =>
    intro acc i _ hr
    unfold pickFrom
    by_cases h : r ≤ rnd (acc + a)
    · rw [if_pos h]; exact ⟨i, le_refl _, by simp, rfl⟩
    · rw [if_neg h]
      rw [List.foldl_cons] at hr
      have hne : areas ≠ [] := by rintro rfl; exact h hr
      obtain ⟨k, h1, h2, h3⟩ := ih (rnd (acc + a)) (i + 1) hne hr
      exact ⟨k, by omega, by rw [List.length_cons]; omega, h3⟩

/-- C57: the choice of a triangle never fails, however the operations are rounded. -/
theorem C57_pick (rnd : K → K) (hr : Rounding rnd) (areas : List K) (hne : areas ≠ []) (hpos : 0 ≤ total rnd areas) (r : K) (h1 : r ≤ 1) :
    ∃ k, k < areas.length ∧ pick rnd areas r = .ok k := by
  have hst : rnd (total rnd areas) = total rnd areas := by
    obtain ⟨l, a, rfl⟩ : ∃ l a, areas = l ++ [a] := ⟨areas.dropLast, areas.getLast hne, (List.dropLast_append_getLast hne).symm⟩
    unfold total
    rw [List.foldl_append, List.foldl_cons, List.foldl_nil, hr.stable]
  have hle : rnd (r * total rnd areas) ≤ total rnd areas := by
    rw [← hst]
    conv_lhs => rw [hst]
    exact hr.mono (by nlinarith)
  obtain ⟨k, -, h2, h3⟩ := pickFrom_ok rnd _ areas 0 0 hne hle
  exact ⟨k, by omega, h3⟩

private theorem pickFrom_spec (r : K) : ∀ (areas : List K) (acc : K) (i k : ℕ), (∀ a ∈ areas, 0 ≤ a) → k < areas.length →
    (acc + (areas.take k).sum < r → r ≤ acc + (areas.take (k + 1)).sum → pickFrom id r acc i areas = .ok (i + k)) ∧
    (acc ≤ r → pickFrom id r acc i areas = .ok (i + k) → acc + (areas.take k).sum ≤ r ∧ r ≤ acc + (areas.take (k + 1)).sum) := by
  intro areas
  induction areas with
  | nil => intro acc i k _ h; simp at h
  | cons a areas ih =>
    intro acc i k hp hk
    have hp' : ∀ x ∈ areas, 0 ≤ x := fun x hx => hp x (List.mem_cons_of_mem _ hx)
    unfold pickFrom
    simp only [id]
    cases k with
    | zero =>
      simp only [List.take_zero, List.sum_nil, add_zero, zero_add, List.take_succ_cons, List.sum_cons]
      refine ⟨fun _ h => by rw [if_pos h], fun h1 h2 => ⟨h1, ?_⟩⟩
      by_contra hc
      rw [if_neg hc] at h2
      have : ∀ (l : List K) (acc : K) (j n : ℕ), pickFrom id r acc j l = .ok n → j ≤ n := by
        intro l
        induction l with
        | nil => intro acc j n h; simp [pickFrom] at h
        | cons b l ih =>
          intro acc j n h
          unfold pickFrom at h
          split_ifs at h
          · exact (Outcome.ok.inj h).le
          · have := ih _ _ _ h; omega
      have := this _ _ _ _ h2
      omega
    | succ k =>
      have hk' : k < areas.length := by simpa using hk
      obtain ⟨i1, i2⟩ := ih (acc + a) (i + 1) k hp' hk'
      simp only [List.take_succ_cons, List.sum_cons, ← add_assoc]
      have hs : 0 ≤ (areas.take k).sum := List.sum_nonneg fun x hx => hp' x (List.mem_of_mem_take hx)
      constructor
      · intro g1 g2
        rw [if_neg (by rw [not_le]; linarith), i1 g1 g2]
        congr 1
        omega
      · intro g1 g2
        by_cases hc : r ≤ acc + a
        · rw [if_pos hc] at g2
          have := Outcome.ok.inj g2
          omega
        · rw [if_neg hc, show i + k + 1 = i + 1 + k by omega] at g2
          exact i2 (not_le.1 hc).le g2

end Pick

/-- C57: with exact numbers, each triangle is chosen in proportion to its area. -/
theorem C57_pick_even (areas : List ℝ) (hp : ∀ a ∈ areas, 0 ≤ a) (hs : 0 < areas.sum) (k : ℕ) (hk : k < areas.length) :
    volume {r ∈ Set.Ico (0 : ℝ) 1 | pick id areas r = .ok k} = ENNReal.ofReal (areas[k] / areas.sum) := by
  have ht : total id areas = areas.sum := by
    unfold total
    rw [List.sum_eq_foldl]
    rfl
  have hspec : ∀ r : ℝ, _ := fun r => pickFrom_spec (r * areas.sum) areas 0 0 k hp hk
  simp only [zero_add] at hspec
  have hpick : ∀ r, pick id areas r = pickFrom id (r * areas.sum) 0 0 areas := by
    intro r; unfold pick; rw [ht]; rfl
  have hsucc : (areas.take (k + 1)).sum = (areas.take k).sum + areas[k] := by
    rw [List.take_succ_eq_append_getElem hk, List.sum_append, List.sum_singleton]
  have h0 : 0 ≤ (areas.take k).sum := List.sum_nonneg fun x hx => hp x (List.mem_of_mem_take hx)
  have h1 : (areas.take (k + 1)).sum ≤ areas.sum := by
    conv_rhs => rw [← List.take_append_drop (k + 1) areas, List.sum_append]
    have : 0 ≤ (areas.drop (k + 1)).sum := List.sum_nonneg fun x hx => hp x (List.mem_of_mem_drop hx)
    linarith
  have hlen : (areas.take (k + 1)).sum / areas.sum - (areas.take k).sum / areas.sum = areas[k] / areas.sum := by
    rw [hsucc]; ring
  apply le_antisymm
  · calc volume {r ∈ Set.Ico (0 : ℝ) 1 | pick id areas r = .ok k}
        ≤ volume (Set.Icc ((areas.take k).sum / areas.sum) ((areas.take (k + 1)).sum / areas.sum)) := by
          apply measure_mono
          rintro r ⟨hr, he⟩
          rw [hpick] at he
          obtain ⟨a1, a2⟩ := (hspec r).2 (mul_nonneg hr.1 hs.le) he
          exact ⟨by rw [div_le_iff₀ hs]; exact a1, by rw [le_div_iff₀ hs]; exact a2⟩
      _ = _ := by rw [Real.volume_Icc, hlen]
  · calc ENNReal.ofReal (areas[k] / areas.sum)
        = volume (Set.Ioo ((areas.take k).sum / areas.sum) ((areas.take (k + 1)).sum / areas.sum)) := by rw [Real.volume_Ioo, hlen]
      _ ≤ _ := by
          apply measure_mono
          rintro r ⟨g1, g2⟩
          have hlt : r < 1 := lt_of_lt_of_le g2 (by rw [div_le_one hs]; exact h1)
          refine ⟨⟨le_trans (by positivity) g1.le, hlt⟩, ?_⟩
          rw [div_lt_iff₀ hs] at g1
          rw [lt_div_iff₀ hs] at g2
          rw [hpick]
          exact (hspec r).1 g1 g2.le

/-- C57: the points of a surface are generated without failure, each of them inside one of the triangles. -/
theorem C57_surface_point (triangles : List (V3 ℝ × V3 ℝ × V3 ℝ)) (areas : List ℝ) (hl : areas.length = triangles.length)
    (hne : triangles ≠ []) (hp : ∀ a ∈ areas, 0 ≤ a) (r : ℝ) (hr : r ≤ 1) (u : ℝ × ℝ) :
    ∃ p, surfacePoint triangles areas r u = .ok p ∧ ∃ t ∈ triangles, ∃ α β γ : ℝ, 0 < α ∧ 0 < β ∧ 0 < γ ∧ α + β + γ = 1 ∧
      p = ⟨α * t.1.x + β * t.2.1.x + γ * t.2.2.x, α * t.1.y + β * t.2.1.y + γ * t.2.2.y, α * t.1.z + β * t.2.1.z + γ * t.2.2.z⟩ := by
  have ht : total id areas = areas.sum := by
    unfold total
    rw [List.sum_eq_foldl]
    rfl
  have hne' : areas ≠ [] := by rintro rfl; exact hne (List.length_eq_zero_iff.1 hl.symm)
  obtain ⟨k, h1, h2⟩ := C57_pick id ⟨monotone_id, fun _ => rfl⟩ areas hne' (by rw [ht]; exact List.sum_nonneg hp) r hr
  rw [hl] at h1
  unfold surfacePoint
  rw [h2]
  simp only [Outcome.bind, Outcome.index_of_lt h1]
  exact ⟨_, rfl, _, List.getElem_mem h1, C57_triangle u _ _ _⟩

/-- A piece of a triangle that is not too close to the ends. -/
example : volume {u ∈ square | ∃ p ∈ Piece (1 / 2) (1 / 2), triangle u ⟨0, 0, 0⟩ ⟨1, 0, 0⟩ ⟨0, 1, 0⟩ = at' ⟨0, 0, 0⟩ ⟨1, 0, 0⟩ ⟨0, 1, 0⟩ p} *
    volume (Piece 1 1) = volume (Piece (1 / 2) (1 / 2)) :=
  C57_triangle_even _ _ _ (by simp [V3.cross, V3.ext_iff]) _ _ (by norm_num) (by norm_num) (by norm_num) (by norm_num) (by norm_num) (by norm_num)

/-- A triad, and a choice between three areas. -/
example : Triad ⟨1, 0, 0⟩ ⟨0, 1, 0⟩ ⟨0, 0, 1⟩ ∧ pick id [1, 2, (3 : ℚ)] (1 / 3) = .ok 1 := by
  refine ⟨by constructor <;> norm_num [V3.dot], by decide +kernel⟩

end Simple.Render.Sampler
