import Mathlib.Analysis.SpecialFunctions.Integrals.Basic
import Mathlib.Analysis.SpecialFunctions.Trigonometric.Bounds
import Verif.Geometry.DiskProps
import Verif.Geometry.TriangleProps
import Verif.Render.SamplerProps
import Verif.Render.LightModel

/-! # C73: lights, as seen from a point: the directions towards them and their density -/

namespace Simple.Render.Lights

open Geometry

namespace Spec

/-- The solid angle of the directions at most `α` away from an axis. -/
noncomputable def cone (α : ℝ) : ℝ := ∫ _φ in (0 : ℝ)..(2 * Real.pi), ∫ θ in (0 : ℝ)..α, Real.sin θ

/-- The angle between two directions. -/
noncomputable def angle (v w : V3 ℝ) : ℝ := Real.arccos (v.dot w / (v.length * w.length))

/-- The ray meets a sphere after leaving its origin. -/
def MeetsSphere (centre : V3 ℝ) (radius : ℝ) (origin direction : V3 ℝ) : Prop :=
  ∃ t, 0 < t ∧ (origin + direction.scale t).squaredDistance centre = radius ^ 2

/-- The ray meets the inside of a triangle after leaving its origin. -/
def MeetsTriangle (a b c origin direction : V3 ℝ) : Prop :=
  ∃ t α β γ : ℝ, 0 < t ∧ 0 < α ∧ 0 < β ∧ 0 < γ ∧ α + β + γ = 1 ∧
    origin + direction.scale t = a.scale α + b.scale β + c.scale γ

end Spec

open Spec

theorem cone_eq (α : ℝ) : cone α = 2 * Real.pi * (1 - Real.cos α) := by
  unfold cone
  simp only [integral_sin, Real.cos_zero, intervalIntegral.integral_const, smul_eq_mul, sub_zero]

private theorem nonneg (v : V3 ℝ) : 0 ≤ v.lengthSquared := by
  unfold V3.lengthSquared
  nlinarith [mul_self_nonneg v.x, mul_self_nonneg v.y, mul_self_nonneg v.z]

private theorem length_sq (v : V3 ℝ) : v.length ^ 2 = v.lengthSquared := Real.sq_sqrt (nonneg v)

private theorem length_nonneg (v : V3 ℝ) : 0 ≤ v.length := Real.sqrt_nonneg _

private theorem cauchy (v w : V3 ℝ) : (v.dot w) ^ 2 ≤ v.lengthSquared * w.lengthSquared := by
  unfold V3.dot V3.lengthSquared
  nlinarith [sq_nonneg (v.x * w.y - v.y * w.x), sq_nonneg (v.x * w.z - v.z * w.x), sq_nonneg (v.y * w.z - v.z * w.y)]

private theorem dot_le (v w : V3 ℝ) : |v.dot w| ≤ v.length * w.length := by
  have h := cauchy v w
  rw [← length_sq, ← length_sq, ← mul_pow] at h
  exact abs_le_of_sq_le_sq h (mul_nonneg (length_nonneg v) (length_nonneg w))

/-- An angle is at most `α` exactly when the product of the vectors is at least as large as its cosine asks for. -/
private theorem angle_le {v w : V3 ℝ} (hv : 0 < v.length) (hw : 0 < w.length) {α : ℝ} (h0 : 0 ≤ α) (h1 : α ≤ Real.pi) :
    angle v w ≤ α ↔ Real.cos α * (v.length * w.length) ≤ v.dot w := by
  have hp : 0 < v.length * w.length := mul_pos hv hw
  have hle := abs_le.1 (dot_le v w)
  have r1 : -1 ≤ v.dot w / (v.length * w.length) := by
    rw [le_div_iff₀ hp]
    linarith [hle.1]
  have r2 : v.dot w / (v.length * w.length) ≤ 1 := by
    rw [div_le_one hp]
    exact hle.2
  unfold angle
  rw [← le_div_iff₀ hp]
  constructor
  · intro h
    have := Real.cos_le_cos_of_nonneg_of_le_pi (Real.arccos_nonneg _) h1 h
    rwa [Real.cos_arccos r1 r2] at this
  · intro h
    rw [← Real.arccos_cos h0 h1]
    exact Real.arccos_le_arccos h

/-- C73: a distant source of angle `α` is hit by exactly the rays at most `α / 2` away from its direction, and the
density it reports is that of directions spread evenly over them. -/
theorem C73_source (direction : V3 ℝ) (α : ℝ) (h0 : 0 < α) (h1 : α ≤ 2 * Real.pi) (s : DistantSource)
    (h : DistantSource.new direction α = .ok s) :
    (∀ ray : Ray ℝ, 1 / 10 ^ 20 < ray.direction.lengthSquared →
      ∃ b, s.hits ray = .ok b ∧ (b = true ↔ angle ray.direction direction ≤ α / 2)) ∧
    sourcePdf s * cone (α / 2) = 1 := by
  unfold DistantSource.new at h
  cases hn : direction.normalize with
  | err => rw [hn] at h; cases h
  | panic => rw [hn] at h; cases h
  | ok n =>
    rw [hn] at h
    have e := Outcome.ok.inj h
    subst e
    constructor
    · intro ray hd
      have hdl : 0 < direction.lengthSquared := by
        unfold V3.normalize at hn
        by_cases hl : direction.lengthSquared > 1 / 10 ^ 20
        · exact lt_trans (by norm_num) hl
        · rw [if_neg hl] at hn; cases hn
      have hrl : 0 < ray.direction.lengthSquared := lt_trans (by norm_num) hd
      have p1 : 0 < direction.length := Real.sqrt_pos.2 hdl
      have p2 : 0 < ray.direction.length := Real.sqrt_pos.2 hrl
      have en : n = direction.scale (1 / direction.length) := by
        unfold V3.normalize at hn
        by_cases hl : direction.lengthSquared > 1 / 10 ^ 20
        · rw [if_pos hl] at hn
          exact (Outcome.ok.inj hn).symm
        · rw [if_neg hl] at hn; cases hn
      have er : ray.direction.normalize = .ok (ray.direction.scale (1 / ray.direction.length)) := by
        unfold V3.normalize
        rw [if_pos hd]
        rfl
      unfold DistantSource.hits
      rw [er]
      refine ⟨_, rfl, ?_⟩
      rw [decide_eq_true_eq, angle_le p2 p1 (by linarith) (by linarith), ge_iff_le, en]
      have : (ray.direction.scale (1 / ray.direction.length)).dot (direction.scale (1 / direction.length))
          = ray.direction.dot direction / (ray.direction.length * direction.length) := by
        unfold V3.dot
        simp only [V3.scale_x, V3.scale_y, V3.scale_z]
        field_simp
      rw [this, le_div_iff₀ (mul_pos p2 p1)]
    · unfold sourcePdf conePdf
      rw [cone_eq]
      simp only
      have : Real.cos (α / 2) < 1 := by
        rw [← Real.cos_zero]
        exact Real.cos_lt_cos_of_nonneg_of_le_pi (le_refl _) (by linarith) (by linarith)
      have h2 : 2 * Real.pi * (1 - Real.cos (α / 2)) ≠ 0 := by
        have := Real.pi_pos
        apply ne_of_gt
        apply mul_pos <;> linarith
      exact one_div_mul_cancel h2

/-- The sun: half a degree wide. -/
example : ∃ s, DistantSource.new ⟨0, 0, 2⟩ (Real.pi / 360) = .ok s ∧ sourcePdf s * cone (Real.pi / 360 / 2) = 1 := by
  have hp := Real.pi_pos
  have : ∃ s, DistantSource.new ⟨0, 0, 2⟩ (Real.pi / 360) = .ok s := by
    unfold DistantSource.new V3.normalize
    rw [if_pos (by norm_num [V3.lengthSquared])]
    exact ⟨_, rfl⟩
  obtain ⟨s, hs⟩ := this
  exact ⟨s, hs, (C73_source _ _ (by linarith) (by linarith) s hs).2⟩

/-- C73, violated by the solid angle that a distant source stores: it is that of a flat disk at distance one, larger than
that of the directions that hit the source. -/
theorem C73_violated_omega (direction : V3 ℝ) (α : ℝ) (h0 : 0 < α) (h1 : α < Real.pi) (s : DistantSource)
    (h : DistantSource.new direction α = .ok s) : cone (α / 2) < s.omega := by
  unfold DistantSource.new at h
  cases hn : direction.normalize with
  | err => rw [hn] at h; cases h
  | panic => rw [hn] at h; cases h
  | ok n =>
    rw [hn] at h
    have e := Outcome.ok.inj h
    subst e
    rw [cone_eq]
    simp only
    have hc0 : 0 < Real.cos (α / 2) := Real.cos_pos_of_mem_Ioo ⟨by linarith, by linarith⟩
    have hc1 : Real.cos (α / 2) < 1 := by
      rw [← Real.cos_zero]
      exact Real.cos_lt_cos_of_nonneg_of_le_pi (le_refl _) (by linarith) (by linarith)
    have hs : Real.sin (α / 2) ^ 2 = 1 - Real.cos (α / 2) ^ 2 := by linarith [Real.sin_sq_add_cos_sq (α / 2)]
    have ht : Real.tan (α / 2) * Real.tan (α / 2) = (1 - Real.cos (α / 2) ^ 2) / Real.cos (α / 2) ^ 2 := by
      rw [← hs, Real.tan_eq_sin_div_cos]
      ring
    rw [ht]
    generalize Real.cos (α / 2) = c at *
    have : 2 * (1 - c) < (1 - c ^ 2) / c ^ 2 := by
      rw [lt_div_iff₀ (by positivity)]
      nlinarith [mul_pos hc0 (sub_pos.2 hc1), sq_nonneg c, mul_pos (mul_pos hc0 hc0) (sub_pos.2 hc1), mul_pos (sub_pos.2 hc1) (sub_pos.2 hc1)]
    nlinarith [Real.pi_pos]

/-- C73: from outside of a sphere, the density reported is that of directions spread evenly over the cone of those that
meet the sphere.

Missing: spheres seen from inside and triangles (`C73_violated_inside`, `C73_violated_triangle`, `C73_violated_moved`). -/
theorem C73_sphere_partial (centre : V3 ℝ) (radius : ℝ) (hr : 0 < radius) (ray : Ray ℝ)
    (hout : radius ^ 2 < ray.origin.squaredDistance centre) :
    ∃ α, 0 < α ∧ α < Real.pi / 2 ∧
      (∀ d : V3 ℝ, d ≠ 0 → (MeetsSphere centre radius ray.origin d ↔ angle d (centre - ray.origin) ≤ α)) ∧
      spherePdf centre radius ray * cone α = 1 := by
  obtain ⟨w, hw⟩ : ∃ w, w = centre - ray.origin := ⟨_, rfl⟩
  have hwl : ray.origin.squaredDistance centre = w.lengthSquared := by
    rw [hw]
    unfold V3.squaredDistance V3.lengthSquared
    simp only [V3.sub_x, V3.sub_y, V3.sub_z]
    ring
  rw [hwl] at hout
  have hpos : 0 < w.lengthSquared := lt_trans (by positivity) hout
  have hD : 0 < w.length := Real.sqrt_pos.2 hpos
  have hD2 := length_sq w
  have hrD : radius < w.length := by
    rw [← hD2] at hout
    exact lt_of_pow_lt_pow_left₀ 2 hD.le hout
  have hq0 : 0 < radius / w.length := by positivity
  have hq1 : radius / w.length < 1 := by rwa [div_lt_one hD]
  refine ⟨Real.arcsin (radius / w.length), Real.arcsin_pos.2 hq0, ?_, ?_, ?_⟩
  · rw [Real.arcsin_lt_pi_div_two]
    exact hq1
  · intro d hd
    have hdl : 0 < d.lengthSquared := by
      rcases (nonneg d).lt_or_eq with h | h
      · exact h
      · exfalso
        apply hd
        unfold V3.lengthSquared at h
        have a := mul_self_nonneg d.x
        have b := mul_self_nonneg d.y
        have c := mul_self_nonneg d.z
        ext
        · exact mul_self_eq_zero.1 (by linarith)
        · exact mul_self_eq_zero.1 (by linarith)
        · exact mul_self_eq_zero.1 (by linarith)
    have hE : 0 < d.length := Real.sqrt_pos.2 hdl
    rw [← hw, angle_le hE hD (Real.arcsin_nonneg.2 hq0.le) (by linarith [Real.arcsin_le_pi_div_two (radius / w.length), Real.pi_pos]),
      Real.cos_arcsin]
    have hc : Real.sqrt (1 - (radius / w.length) ^ 2) * (d.length * w.length) = Real.sqrt (d.lengthSquared * (w.lengthSquared - radius ^ 2)) := by
      have e1 : d.lengthSquared * (w.lengthSquared - radius ^ 2) = (1 - (radius / w.length) ^ 2) * (d.length * w.length) ^ 2 := by
        rw [← length_sq, ← hD2]
        field_simp
      rw [e1, Real.sqrt_mul (by nlinarith), Real.sqrt_sq (mul_nonneg hE.le hD.le)]
    rw [hc]
    have hexp : ∀ t, (ray.origin + d.scale t).squaredDistance centre = d.lengthSquared * t ^ 2 - 2 * t * d.dot w + w.lengthSquared := by
      intro t
      rw [hw]
      unfold V3.squaredDistance V3.lengthSquared V3.dot
      simp only [V3.sub_x, V3.sub_y, V3.sub_z, V3.add_x, V3.add_y, V3.add_z, V3.scale_x, V3.scale_y, V3.scale_z]
      ring
    unfold MeetsSphere
    simp only [hexp]
    generalize d.dot w = k
    generalize d.lengthSquared = A at *
    generalize w.lengthSquared = W at *
    constructor
    · rintro ⟨t, ht, he⟩
      have hk : 0 < k := by
        by_contra hk
        rw [not_lt] at hk
        nlinarith [mul_pos hdl (pow_pos ht 2), mul_nonneg ht.le (neg_nonneg.2 hk)]
      rw [Real.sqrt_le_left hk.le]
      nlinarith [sq_nonneg (A * t - k)]
    · intro h
      have hAW : 0 < A * (W - radius ^ 2) := mul_pos hdl (by linarith)
      have hs := Real.sqrt_pos.2 hAW
      have hk : 0 < k := lt_of_lt_of_le hs h
      have hk2 : A * (W - radius ^ 2) ≤ k ^ 2 := (Real.sqrt_le_left hk.le).1 h
      have hdisc : 0 ≤ k ^ 2 - A * (W - radius ^ 2) := by linarith
      have hsd := Real.sq_sqrt hdisc
      have hsn := Real.sqrt_nonneg (k ^ 2 - A * (W - radius ^ 2))
      generalize Real.sqrt (k ^ 2 - A * (W - radius ^ 2)) = q at *
      refine ⟨(k + q) / A, by positivity, ?_⟩
      field_simp
      linear_combination hsd
  · unfold spherePdf conePdf
    rw [cone_eq, ← hw, Real.cos_arcsin]
    simp only
    have e : Sampler.clamp (1 - radius * radius / w.lengthSquared) 0 1 = 1 - (radius / w.length) ^ 2 := by
      rw [← hD2]
      have : radius * radius / w.length ^ 2 = (radius / w.length) ^ 2 := by
        rw [div_pow]; ring
      rw [this]
      unfold Sampler.clamp
      rw [if_neg (by nlinarith), if_neg (by nlinarith)]
    rw [e]
    have hlt : Real.sqrt (1 - (radius / w.length) ^ 2) < 1 := by
      rw [Real.sqrt_lt' one_pos]
      nlinarith
    have hne : 2 * Real.pi * (1 - Real.sqrt (1 - (radius / w.length) ^ 2)) ≠ 0 := by
      have := Real.pi_pos
      apply ne_of_gt
      apply mul_pos <;> linarith
    exact one_div_mul_cancel hne

/-- A sphere of radius one, seen from a distance of three. -/
example : ((1 : ℝ) ^ 2 < V3.squaredDistance ⟨3, 0, 0⟩ 0) ∧ spherePdf 0 1 ⟨⟨3, 0, 0⟩, ⟨1, 0, 0⟩⟩ =
    1 / (2 * Real.pi * (1 - Real.sqrt (8 / 9))) := by
  refine ⟨by norm_num [V3.squaredDistance], ?_⟩
  norm_num [spherePdf, conePdf, Sampler.clamp, V3.lengthSquared]

/-- C73, violated inside of a sphere: every direction meets it, so the solid angle is that of all directions, but the
density reported is that of a hemisphere, twice what it should be. -/
theorem C73_violated_inside (centre : V3 ℝ) (radius : ℝ) (ray : Ray ℝ)
    (hin : ray.origin.squaredDistance centre < radius ^ 2) (hne : ray.origin ≠ centre) :
    (∀ d : V3 ℝ, d ≠ 0 → MeetsSphere centre radius ray.origin d) ∧
      spherePdf centre radius ray * cone Real.pi = 2 := by
  obtain ⟨w, hw⟩ : ∃ w, w = centre - ray.origin := ⟨_, rfl⟩
  have hwl : ray.origin.squaredDistance centre = w.lengthSquared := by
    rw [hw]
    unfold V3.squaredDistance V3.lengthSquared
    simp only [V3.sub_x, V3.sub_y, V3.sub_z]
    ring
  have zero_of : ∀ v : V3 ℝ, v ≠ 0 → 0 < v.lengthSquared := by
    intro v hv
    rcases (nonneg v).lt_or_eq with h | h
    · exact h
    · exfalso
      apply hv
      unfold V3.lengthSquared at h
      have a := mul_self_nonneg v.x
      have b := mul_self_nonneg v.y
      have c := mul_self_nonneg v.z
      ext
      · exact mul_self_eq_zero.1 (by linarith)
      · exact mul_self_eq_zero.1 (by linarith)
      · exact mul_self_eq_zero.1 (by linarith)
  constructor
  · intro d hd
    have hA := zero_of d hd
    have hexp : ∀ t, (ray.origin + d.scale t).squaredDistance centre = d.lengthSquared * t ^ 2 - 2 * t * d.dot w + w.lengthSquared := by
      intro t
      rw [hw]
      unfold V3.squaredDistance V3.lengthSquared V3.dot
      simp only [V3.sub_x, V3.sub_y, V3.sub_z, V3.add_x, V3.add_y, V3.add_z, V3.scale_x, V3.scale_y, V3.scale_z]
      ring
    unfold MeetsSphere
    simp only [hexp]
    rw [hwl] at hin
    generalize d.dot w = k
    generalize d.lengthSquared = A at *
    generalize w.lengthSquared = W at *
    have hpos : k ^ 2 < k ^ 2 - A * (W - radius ^ 2) := by nlinarith
    have hsd := Real.sq_sqrt (le_trans (sq_nonneg k) hpos.le)
    have hlt : |k| < Real.sqrt (k ^ 2 - A * (W - radius ^ 2)) := by
      rw [← Real.sqrt_sq_eq_abs]
      exact Real.sqrt_lt_sqrt (sq_nonneg k) hpos
    have hk := neg_abs_le k
    generalize Real.sqrt (k ^ 2 - A * (W - radius ^ 2)) = q at *
    refine ⟨(k + q) / A, div_pos (by linarith) hA, ?_⟩
    field_simp
    linear_combination hsd
  · have hW : 0 < w.lengthSquared := by
      apply zero_of
      intro h0
      apply hne
      rw [h0] at hw
      have hx := congrArg V3.x hw
      have hy := congrArg V3.y hw
      have hz := congrArg V3.z hw
      simp only [V3.sub_x, V3.sub_y, V3.sub_z, V3.zero_x, V3.zero_y, V3.zero_z] at hx hy hz
      ext <;> linarith
    rw [hwl] at hin
    unfold spherePdf conePdf
    rw [cone_eq, ← hw]
    simp only
    have hgt : 1 < radius * radius / w.lengthSquared := by
      rw [lt_div_iff₀ hW]
      linarith
    have e : Sampler.clamp (1 - radius * radius / w.lengthSquared) 0 1 = 0 := by
      unfold Sampler.clamp
      rw [if_pos (by linarith)]
    rw [e, Real.sqrt_zero, Real.cos_pi]
    have := Real.pi_pos
    field_simp
    norm_num

example : V3.squaredDistance ⟨1 / 2, 0, 0⟩ 0 < (1 : ℝ) ^ 2 ∧ (⟨1 / 2, 0, 0⟩ : V3 ℝ) ≠ 0 := by
  refine ⟨by norm_num [V3.squaredDistance], fun h => ?_⟩
  have := congrArg V3.x h
  norm_num at this

/-- C73, violated by triangles: the density uses where the ray starts instead of its direction, so that, for instance,
seen from the origin of the coordinates every triangle has density zero (whatever the triangle, the point hit, the side hit
and the direction), in both implementations. -/
theorem C73_violated_triangle (tr : Triangle ℝ) (p normal direction : V3 ℝ) :
    trianglePdf tr p normal ⟨0, direction⟩ = 0 ∧ meshTrianglePdf tr.a tr.b tr.c p normal ⟨0, direction⟩ = 0 := by
  have : (0 : V3 ℝ).dot normal = 0 := by unfold V3.dot; simp
  constructor
  · unfold trianglePdf
    simp only
    rw [this, if_pos (by norm_num)]
  · unfold meshTrianglePdf
    simp only
    rw [this, if_pos (by norm_num)]

/-- C73, violated by triangles: moving the ray, the triangle and the point hit together along the normal changes the
density, as if the light became dimmer far away from the origin of the coordinates. -/
theorem C73_violated_moved (tr : Triangle ℝ) (p normal : V3 ℝ) (hn : normal.lengthSquared = 1) (ray : Ray ℝ) (hp : p ≠ ray.origin)
    (hA : 0 < tr.area) (hn0 : 1 / 10 ^ 7 ≤ ray.origin.dot normal) (k : ℝ) (hk : 0 < k) :
    let m := normal.scale k
    trianglePdf ⟨tr.a + m, tr.b + m, tr.c + m⟩ (p + m) normal ⟨ray.origin + m, ray.direction⟩ < trianglePdf tr p normal ray := by
  intro m
  have hm : (ray.origin + m).dot normal = ray.origin.dot normal + k := by
    have : (ray.origin + m).dot normal = ray.origin.dot normal + k * normal.lengthSquared := by
      unfold V3.dot V3.lengthSquared
      simp only [m, V3.add_x, V3.add_y, V3.add_z, V3.scale_x, V3.scale_y, V3.scale_z]
      ring
    rw [this, hn, mul_one]
  have hd : (p + m - (ray.origin + m)) = p - ray.origin := by
    ext <;> simp
  have ha : Triangle.area ⟨tr.a + m, tr.b + m, tr.c + m⟩ = tr.area := by
    rw [Triangle.C67_area, Triangle.C67_area]
    have e1 : tr.b + m - (tr.a + m) = tr.b - tr.a := by ext <;> simp
    have e2 : tr.c + m - (tr.a + m) = tr.c - tr.a := by ext <;> simp
    simp only
    rw [e1, e2]
  have hpos : 0 < (p - ray.origin).lengthSquared := by
    rcases (nonneg (p - ray.origin)).lt_or_eq with h | h
    · exact h
    · exfalso
      apply hp
      unfold V3.lengthSquared at h
      have a := mul_self_nonneg (p - ray.origin).x
      have b := mul_self_nonneg (p - ray.origin).y
      have c := mul_self_nonneg (p - ray.origin).z
      have hx := mul_self_eq_zero.1 (le_antisymm (by linarith) a)
      have hy := mul_self_eq_zero.1 (le_antisymm (by linarith) b)
      have hz := mul_self_eq_zero.1 (le_antisymm (by linarith) c)
      simp only [V3.sub_x, V3.sub_y, V3.sub_z] at hx hy hz
      ext <;> linarith
  unfold trianglePdf
  simp only
  have hq : 0 < ray.origin.dot normal := lt_of_lt_of_le (by norm_num) hn0
  rw [hm, hd, ha, if_neg (by linarith), if_neg (by linarith), abs_of_pos hq, abs_of_pos (by linarith)]
  apply div_lt_div_of_pos_right _ hA
  apply div_lt_div_of_pos_left hpos hq
  linarith

/-- C73: the area of a triangle used by the meshes of scenes is half the length of the cross product of two sides. -/
theorem C73_area (a b c : V3 ℝ) : meshTriangleArea a b c = ((b - a).cross (c - a)).length / 2 := by
  rw [← Triangle.C67_area ⟨a, b, c⟩]
  unfold meshTriangleArea Triangle.area V3.distance V3.squaredDistance
  simp only
  have e : ∀ x y z u v w : ℝ, (u - x) ^ 2 + (v - y) ^ 2 + (w - z) ^ 2 = (x - u) * (x - u) + (y - v) * (y - v) + (z - w) * (z - w) := by
    intros; ring
  simp only [e]

/-- C73: both implementations for triangles report the same density: the square of the distance over the area of the
triangle and a factor, which should be the cosine between the ray and the normal but is the product of the origin of the ray
and the normal. -/
theorem C73_densities (tr : Triangle ℝ) (p normal : V3 ℝ) (ray : Ray ℝ) (hA : 0 < ((tr.b - tr.a).cross (tr.c - tr.a)).length)
    (h : 1 / 10 ^ 7 ≤ ray.origin.dot normal) :
    meshTrianglePdf tr.a tr.b tr.c p normal ray = trianglePdf tr p normal ray ∧
    trianglePdf tr p normal ray * (((tr.b - tr.a).cross (tr.c - tr.a)).length / 2) * ray.origin.dot normal =
      (p - ray.origin).lengthSquared := by
  have hp : 0 < ray.origin.dot normal := lt_of_lt_of_le (by norm_num) h
  constructor
  · unfold meshTrianglePdf trianglePdf
    rw [C73_area, Triangle.C67_area]
  · unfold trianglePdf
    simp only
    rw [if_neg (not_lt.2 h), Triangle.C67_area, abs_of_pos hp]
    field_simp

/-- A right triangle one over a ray that starts one over the origin. -/
example : (⟨0, 0, 1⟩ : V3 ℝ).lengthSquared = 1 ∧ (⟨1 / 4, 1 / 4, 2⟩ : V3 ℝ) ≠ ⟨1 / 4, 1 / 4, 1⟩ ∧
    0 < Triangle.area ⟨⟨0, 0, 2⟩, ⟨1, 0, 2⟩, ⟨0, 1, 2⟩⟩ ∧ (1 : ℝ) / 10 ^ 7 ≤ (⟨1 / 4, 1 / 4, 1⟩ : V3 ℝ).dot ⟨0, 0, 1⟩ := by
  refine ⟨by norm_num [V3.lengthSquared], fun h => ?_, ?_, by norm_num [V3.dot]⟩
  · have := congrArg V3.z h
    norm_num at this
  · rw [Triangle.C67_area]
    norm_num [V3.length, V3.lengthSquared]

/-- The direction from a point to another. -/
private theorem toward {p point d : V3 ℝ} (h : (p - point).normalize = .ok d) :
    d.lengthSquared = 1 ∧ ∃ t, 0 < t ∧ point + d.scale t = p := by
  obtain ⟨hu, k, hk, e⟩ := Plane.unit_of_normalize h
  refine ⟨hu, 1 / k, by positivity, ?_⟩
  rw [e]
  ext
  · simp only [V3.scale_x, V3.add_x, V3.sub_x]; field_simp; ring
  · simp only [V3.scale_y, V3.add_y, V3.sub_y]; field_simp; ring
  · simp only [V3.scale_z, V3.add_z, V3.sub_z]; field_simp; ring

/-- C73: a direction sampled towards a sphere, from outside of it, meets the sphere. -/
theorem C73_aim_sphere (u : ℝ × ℝ) (centre : V3 ℝ) (radius : ℝ) (hr : 0 < radius) (point d : V3 ℝ)
    (hout : radius ^ 2 < point.squaredDistance centre) (h : aimSphere u centre radius point = .ok d) :
    d.lengthSquared = 1 ∧ MeetsSphere centre radius point d := by
  obtain ⟨hu, t, ht, e⟩ := toward h
  refine ⟨hu, ?_⟩
  have hin := Sampler.C57_sphere.2.2 u centre radius
  rw [← e] at hin
  have hexp : ∀ t, (point + d.scale t).squaredDistance centre = t ^ 2 - 2 * t * d.dot (centre - point) + point.squaredDistance centre := by
    intro t
    have : (point + d.scale t).squaredDistance centre = d.lengthSquared * t ^ 2 - 2 * t * d.dot (centre - point) + point.squaredDistance centre := by
      unfold V3.squaredDistance V3.lengthSquared V3.dot
      simp only [V3.sub_x, V3.sub_y, V3.sub_z, V3.add_x, V3.add_y, V3.add_z, V3.scale_x, V3.scale_y, V3.scale_z]
      ring
    rw [this, hu, one_mul]
  unfold MeetsSphere
  rw [hexp] at hin
  simp only [hexp]
  generalize d.dot (centre - point) = k at *
  generalize point.squaredDistance centre = W at *
  have hlt : t ^ 2 - 2 * t * k + W < radius ^ 2 := by
    rw [hin]
    nlinarith
  have hdisc : 0 < k ^ 2 - W + radius ^ 2 := by nlinarith [sq_nonneg (t - k)]
  have hk : 0 < k := by
    by_contra hk
    rw [not_lt] at hk
    nlinarith [mul_nonneg ht.le (neg_nonneg.2 hk)]
  refine ⟨k + Real.sqrt (k ^ 2 - W + radius ^ 2), by positivity, ?_⟩
  have := Real.sq_sqrt hdisc.le
  linear_combination this

/-- Sampling works from outside of a sphere that is not too small: the point sampled is far from the observer. -/
example (u : ℝ × ℝ) : ∃ d, aimSphere u 0 1 ⟨3, 0, 0⟩ = .ok d := by
  have h := Sampler.C57_sphere.2.2 u 0 1
  unfold aimSphere V3.normalize
  rw [if_pos]
  · exact ⟨_, rfl⟩
  · generalize Sampler.sphereSurface u 0 1 = p at *
    unfold V3.squaredDistance at h
    unfold V3.lengthSquared
    simp only [V3.sub_x, V3.sub_y, V3.sub_z, V3.zero_x, V3.zero_y, V3.zero_z, sub_zero] at h ⊢
    have hx : p.x < 1 := by nlinarith [mul_self_nonneg p.y, mul_self_nonneg p.z]
    norm_num at h ⊢
    nlinarith [mul_self_nonneg p.y, mul_self_nonneg p.z]

/-- C73: a direction sampled towards a triangle meets the inside of the triangle. -/
theorem C73_aim_triangle (u : ℝ × ℝ) (a b c point d : V3 ℝ) (h : aimTriangle u a b c point = .ok d) :
    d.lengthSquared = 1 ∧ MeetsTriangle a b c point d := by
  obtain ⟨hu, t, ht, e⟩ := toward h
  obtain ⟨α, β, γ, h1, h2, h3, hs, hp⟩ := Sampler.C57_triangle u a b c
  refine ⟨hu, t, α, β, γ, ht, h1, h2, h3, hs, ?_⟩
  rw [e, hp]
  ext <;> simp <;> ring

/-- C73: a direction sampled towards a distant source narrower than a hemisphere hits the source. -/
theorem C73_aim_source (checks : Bool) (u : ℝ × ℝ) (hu : u ∈ Sampler.Spec.square) (direction : V3 ℝ) (α : ℝ) (h0 : 0 < α)
    (h1 : α < Real.pi) (s : DistantSource) (h : DistantSource.new direction α = .ok s) (point : V3 ℝ) :
    ∃ d, aimSource checks u s point = .ok d ∧ d.lengthSquared = 1 ∧ angle d direction ≤ α / 2 := by
  have hsrc := C73_source direction α h0 (by linarith [Real.pi_pos]) s h
  unfold DistantSource.new at h
  cases hn : direction.normalize with
  | err => rw [hn] at h; cases h
  | panic => rw [hn] at h; cases h
  | ok n =>
    rw [hn] at h
    have e := Outcome.ok.inj h
    subst e
    obtain ⟨hnu, k, hk, en⟩ := Plane.unit_of_normalize hn
    unfold aimSource
    simp only
    rw [Plane.normalize_unit hnu]
    simp only [Outcome.bind]
    obtain ⟨p, hp, hflat, hrad⟩ := Sampler.C57_tilted_disc checks u hu (Real.tan (α / 2)) (point + n) n hnu
    rw [hp]
    simp only
    obtain ⟨v, hv⟩ : ∃ v, v = p - point := ⟨_, rfl⟩
    rw [← hv]
    have hvn : v.dot n = 1 := by
      have : v.dot n = (p - (point + n)).dot n + n.lengthSquared := by
        rw [hv]
        unfold V3.dot V3.lengthSquared
        simp only [V3.sub_x, V3.sub_y, V3.sub_z, V3.add_x, V3.add_y, V3.add_z]
        ring
      rw [this, hflat, hnu, zero_add]
    have hvl : v.lengthSquared = 1 + (p - (point + n)).dot (p - (point + n)) := by
      have : v.lengthSquared = n.lengthSquared + 2 * (p - (point + n)).dot n + (p - (point + n)).dot (p - (point + n)) := by
        rw [hv]
        unfold V3.dot V3.lengthSquared
        simp only [V3.sub_x, V3.sub_y, V3.sub_z, V3.add_x, V3.add_y, V3.add_z]
        ring
      rw [this, hflat, hnu]
      ring
    have hq0 : 0 ≤ (p - (point + n)).dot (p - (point + n)) := nonneg (p - (point + n))
    have hbig : 1 / 10 ^ 20 < v.lengthSquared := by
      rw [hvl]
      have : (1 : ℝ) / 10 ^ 20 < 1 := by norm_num
      linarith
    have hvpos : 0 < v.lengthSquared := lt_trans (by norm_num) hbig
    have hvlen : 0 < v.length := Real.sqrt_pos.2 hvpos
    have hnorm : v.normalize = .ok (v.scale (1 / v.length)) := by
      unfold V3.normalize
      rw [if_pos hbig]
      rfl
    refine ⟨_, hnorm, (Plane.unit_of_normalize hnorm).1, ?_⟩
    obtain ⟨b, hb, hiff⟩ := hsrc.1 ⟨point, v.scale (1 / v.length)⟩ (by rw [(Plane.unit_of_normalize hnorm).1]; norm_num)
    refine hiff.1 ?_
    unfold DistantSource.hits at hb
    simp only at hb
    rw [Plane.normalize_unit (Plane.unit_of_normalize hnorm).1] at hb
    rw [← Outcome.ok.inj hb, decide_eq_true_eq]
    have hdot : (v.scale (1 / v.length)).dot n = 1 / v.length := by
      have : (v.scale (1 / v.length)).dot n = v.dot n / v.length := by
        unfold V3.dot
        simp only [V3.scale_x, V3.scale_y, V3.scale_z]
        ring
      rw [this, hvn]
    rw [hdot]
    have hc0 : 0 < Real.cos (α / 2) := Real.cos_pos_of_mem_Ioo ⟨by linarith, by linarith⟩
    rw [ge_iff_le, le_div_iff₀ hvlen]
    have hsq : (Real.cos (α / 2) * v.length) ^ 2 ≤ 1 := by
      rw [mul_pow, length_sq, hvl]
      have ht : Real.cos (α / 2) ^ 2 * Real.tan (α / 2) ^ 2 = Real.sin (α / 2) ^ 2 := by
        rw [← mul_pow, mul_comm, Real.tan_mul_cos hc0.ne']
      have := Real.sin_sq_add_cos_sq (α / 2)
      nlinarith [mul_le_mul_of_nonneg_left hrad (sq_nonneg (Real.cos (α / 2)))]
    exact le_of_sq_le_sq (by rw [one_pow]; exact hsq) zero_le_one |>.trans (le_refl _)

end Simple.Render.Lights
