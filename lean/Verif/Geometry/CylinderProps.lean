import Verif.Geometry.SphereProps

/-! # C71: rays and cylinders -/

namespace Simple.Geometry.Cylinder

open Shape (approxRoots_spec firstHit_spec phiOf_spec sector_iff clamp_self checkPhi_ok radians_range)

namespace Spec

/-- The points of a cylinder around the third axis between two heights and two meridians. -/
def Patch (radius zmin zmax M : ℝ) (p : V3 ℝ) : Prop :=
  p.x ^ 2 + p.y ^ 2 = radius ^ 2 ∧ zmin ≤ p.z ∧ p.z ≤ zmax ∧ Shape.Spec.Sector M p.x p.y

/-- The ray starts on the (infinite) cylinder and is tangent to it. -/
def StartsTangent (radius : ℝ) (ray : Ray ℝ) : Prop :=
  ray.origin.x ^ 2 + ray.origin.y ^ 2 = radius ^ 2 ∧
    ray.origin.x * ray.direction.x + ray.origin.y * ray.direction.y = 0

/-- The ray is parallel to the axis. -/
def Parallel (ray : Ray ℝ) : Prop := ray.direction.x = 0 ∧ ray.direction.y = 0

/-- The points of the side of the cylinder between two points: their distance to the line through the points is the
radius, and they are between the planes through the points.  (Without square roots: `l` times the distance is the
product `|l × (p - p0)|`.) -/
def Tube (p0 p1 : V3 ℝ) (radius : ℝ) (p : V3 ℝ) : Prop :=
  ((p1 - p0).cross (p - p0)).lengthSquared = radius ^ 2 * (p1 - p0).lengthSquared ∧
    0 ≤ (p1 - p0).dot (p - p0) ∧ (p1 - p0).dot (p - p0) ≤ (p1 - p0).lengthSquared

end Spec

private def On (r : ℝ) (p : V3 ℝ) : Prop := p.x ^ 2 + p.y ^ 2 = r ^ 2

private theorem hitAt_on (c : Cylinder) (hr : 0 < c.radius) (ray : Ray ℝ) (t : ℝ) (h : On c.radius (ray.project t)) :
    c.hitAt ray t = (ray.project t, phiOf (ray.project t).x (ray.project t).y) := by
  have hl : Real.sqrt ((ray.project t).x * (ray.project t).x + (ray.project t).y * (ray.project t).y) = c.radius := by
    have : (ray.project t).x * (ray.project t).x + (ray.project t).y * (ray.project t).y = c.radius ^ 2 := by
      rw [← h]; ring
    rw [this, Real.sqrt_sq hr.le]
  unfold hitAt
  simp only [hl, div_self hr.ne', mul_one]

private theorem construct {radius zmin zmax phi : ℝ} (t : Option (Transform ℝ)) (hz : zmin ≤ zmax)
    (h0 : 0 ≤ phi) (h1 : phi ≤ 360) :
    newTransformed radius zmin zmax phi t = .ok ⟨radius, zmin, zmax, phi * (Real.pi / 180), t⟩ := by
  unfold newTransformed
  rw [if_neg (not_lt.2 hz), checkPhi_ok h0 h1]
  rfl

/-- C71: a cylinder in its own coordinates, for rays that are not parallel to the axis and do not start on its side as
tangents: the intersection returned is the first point of the part of the cylinder that the ray meets after leaving its
origin, and there is none exactly when the ray does not meet that part. -/
theorem C71_cylinder (radius zmin zmax phi : ℝ) (t : Option (Transform ℝ)) (hr : 0 < radius) (hz : zmin ≤ zmax)
    (hphi : 0 ≤ phi) (hphi' : phi ≤ 360) :
    ∃ c, newTransformed radius zmin zmax phi t = .ok c ∧ c.transform = t ∧
      ∀ ray : Ray ℝ, ¬ Spec.Parallel ray → ¬ Spec.StartsTangent radius ray →
        ∃ res, c.basicIntersection ray = .ok res ∧
          Shape.Spec.FirstHit ray (Spec.Patch radius zmin zmax (phi * (Real.pi / 180))) (res.map fun h => h.1) := by
  refine ⟨_, construct t hz hphi hphi', rfl, ?_⟩
  generalize hc : (⟨radius, zmin, zmax, phi * (Real.pi / 180), t⟩ : Cylinder) = c
  have e0 : c.radius = radius := by rw [← hc]
  have e1 : c.zmin = zmin := by rw [← hc]
  have e2 : c.zmax = zmax := by rw [← hc]
  have e3 : c.phiMax = phi * (Real.pi / 180) := by rw [← hc]
  subst e0
  rintro ⟨⟨ox, oy, oz⟩, dx, dy, dz⟩ hd ht
  have ha : dx * dx + dy * dy ≠ 0 := by
    intro h
    apply hd
    exact ⟨by nlinarith [sq_nonneg dx, sq_nonneg dy], by nlinarith [sq_nonneg dx, sq_nonneg dy]⟩
  have hbc : ¬ ((dx * ox + dy * oy) * 2 = 0 ∧ ox * ox + oy * oy - c.radius * c.radius = 0) := by
    rintro ⟨h1, h2⟩
    apply ht
    unfold Spec.StartsTangent
    simp only
    exact ⟨by linarith, by linarith⟩
  have hon : ∀ t, On c.radius (Ray.project ⟨⟨ox, oy, oz⟩, ⟨dx, dy, dz⟩⟩ t) ↔
      (dx * dx + dy * dy) * t ^ 2 + (dx * ox + dy * oy) * 2 * t + (ox * ox + oy * oy - c.radius * c.radius) = 0 := by
    intro t
    unfold On Ray.project
    simp only [V3.add_x, V3.add_y, V3.scale_x, V3.scale_y]
    constructor <;> intro h <;> linear_combination h
  have key : ∀ u, On c.radius (Ray.project ⟨⟨ox, oy, oz⟩, ⟨dx, dy, dz⟩⟩ u) →
      (c.hitAt ⟨⟨ox, oy, oz⟩, ⟨dx, dy, dz⟩⟩ u).1 = Ray.project ⟨⟨ox, oy, oz⟩, ⟨dx, dy, dz⟩⟩ u ∧
      (¬ c.Clipped (c.hitAt ⟨⟨ox, oy, oz⟩, ⟨dx, dy, dz⟩⟩ u) ↔
        Spec.Patch c.radius zmin zmax (phi * (Real.pi / 180)) (Ray.project ⟨⟨ox, oy, oz⟩, ⟨dx, dy, dz⟩⟩ u)) := by
    intro u hu
    rw [hitAt_on c hr _ u hu]
    refine ⟨rfl, ?_⟩
    unfold Clipped Spec.Patch
    rw [sector_iff (radians_range hphi hphi').1, e1, e2, e3]
    simp only [not_or, not_lt, gt_iff_lt]
    exact ⟨fun h => ⟨hu, h.1, h.2.1, h.2.2⟩, fun h => ⟨h.2.1, h.2.2.1, h.2.2.2⟩⟩
  unfold basicIntersection
  simp only
  rcases approxRoots_spec ha hbc with ⟨h, hno⟩ | ⟨t0, t1, h, hle, hx⟩
  · rw [h]
    exact ⟨none, rfl, fun u _ hp => hno u ((hon u).1 hp.1)⟩
  · rw [h]
    refine ⟨_, rfl, ?_⟩
    rcases firstHit_spec t0 t1 hle (c.hitAt ⟨⟨ox, oy, oz⟩, ⟨dx, dy, dz⟩⟩) c.Clipped with ⟨e, hm⟩ | ⟨u, hu, hpos, e, hnm, hm⟩
    · rw [e]
      intro u hu hp
      exact ((key u hp.1).2.2 hp) (hm u ((hx u).1 ((hon u).1 hp.1)) hu)
    · rw [e]
      have hu' := (hon u).2 ((hx u).2 hu)
      refine ⟨u, hpos, (key u hu').1, ?_, ?_⟩
      · change Spec.Patch _ _ _ _ (c.hitAt _ u).1
        rw [(key u hu').1]
        exact (key u hu').2.1 hnm
      · intro u' hpos' hlt hp
        exact ((key u' hp.1).2.2 hp) (hm u' ((hx u').1 ((hon u').1 hp.1)) hpos' hlt)

/-- A ray that meets the conditions and a part of a cylinder that it hits. -/
example : ¬ Spec.Parallel ⟨⟨-5, 0, 1⟩, ⟨1, 0, 0⟩⟩ ∧ ¬ Spec.StartsTangent 2 ⟨⟨-5, 0, 1⟩, ⟨1, 0, 0⟩⟩ ∧
    Spec.Patch 2 0 2 (360 * (Real.pi / 180)) (Ray.project ⟨⟨-5, 0, 1⟩, ⟨1, 0, 0⟩⟩ 3) := by
  refine ⟨by simp [Spec.Parallel], by norm_num [Spec.StartsTangent], by norm_num [Ray.project],
    by norm_num [Ray.project], by norm_num [Ray.project], Real.pi, Real.pi_pos.le, by linarith [Real.pi_pos], ?_, ?_⟩
  · have : Real.sqrt (4 : ℝ) = 2 := by rw [show (4 : ℝ) = 2 ^ 2 by norm_num, Real.sqrt_sq (by norm_num)]
    norm_num [Ray.project, this]
  · norm_num [Ray.project]

/-- C71: the box.  Every point of the part of the cylinder is inside the bounds. -/
theorem C71_bounds (radius zmin zmax phi : ℝ) (t : Option (Transform ℝ)) (hr : 0 < radius) (hz : zmin ≤ zmax)
    (hphi : 0 ≤ phi) (hphi' : phi ≤ 360) :
    ∃ c, newTransformed radius zmin zmax phi t = .ok c ∧
      ∀ p, Spec.Patch radius zmin zmax (phi * (Real.pi / 180)) p → BBox.Spec.Mem c.bounds p := by
  refine ⟨_, construct t hz hphi hphi', ?_⟩
  rintro p ⟨hon, hp1, hp2, -⟩
  unfold bounds BBox.new
  rw [BBox.getMinsMaxs_eq]
  have hx : -radius ≤ p.x ∧ p.x ≤ radius := by
    constructor <;> nlinarith [sq_nonneg p.y]
  have hy : -radius ≤ p.y ∧ p.y ≤ radius := by
    constructor <;> nlinarith [sq_nonneg p.x]
  exact ⟨⟨(min_le_left _ _).trans hx.1, hx.2.trans (le_max_right _ _)⟩,
    ⟨(min_le_left _ _).trans hy.1, hy.2.trans (le_max_right _ _)⟩,
    (min_le_left _ _).trans hp1, hp2.trans (le_max_right _ _)⟩

/-- C71: the normal.  At a point of the cylinder, the normal is along the radius and against the ray.  Which side is
reported is the subject of `C71_violated_side`. -/
theorem C71_normal (c : Cylinder) (ray : Ray ℝ) (p : V3 ℝ) (hr : 0 < c.radius) (hp : p.x ^ 2 + p.y ^ 2 = c.radius ^ 2)
    (hbig : 1 / 10 ^ 10 < c.phiMax * (c.zmax - c.zmin) * c.radius) :
    ∃ i, c.intersectionInfo ray p = .ok i ∧ i.p = p ∧
      (p.x * ray.direction.x + p.y * ray.direction.y < 0 →
        i.side = .back ∧ i.normal = ⟨p.x / c.radius, p.y / c.radius, 0⟩) ∧
      (0 < p.x * ray.direction.x + p.y * ray.direction.y →
        i.side = .front ∧ i.normal = ⟨-(p.x / c.radius), -(p.y / c.radius), 0⟩) := by
  obtain ⟨x, y, z⟩ := p
  simp only at hp
  set k := c.phiMax * (c.zmax - c.zmin) with hk
  have hk0 : 0 < k := by
    have : 0 < k * c.radius := lt_trans (by norm_num) hbig
    exact (pos_iff_pos_of_mul_pos this).2 hr
  have hcross : (⟨0, 0, c.zmax - c.zmin⟩ : V3 ℝ).cross ⟨-c.phiMax * y, c.phiMax * x, 0⟩ = ⟨-(k * x), -(k * y), 0⟩ := by
    ext
    · simp only [V3.cross_x, hk]; ring
    · simp only [V3.cross_y, hk]; ring
    · simp only [V3.cross_z]; ring
  have hnorm : (⟨-(k * x), -(k * y), 0⟩ : V3 ℝ).normalize = .ok ⟨-(x / c.radius), -(y / c.radius), 0⟩ := by
    have hl : (⟨-(k * x), -(k * y), 0⟩ : V3 ℝ).lengthSquared = (k * c.radius) ^ 2 := by
      unfold V3.lengthSquared
      simp only
      rw [mul_pow, ← hp]
      ring
    unfold V3.normalize
    rw [hl, if_pos, Real.sqrt_sq (by positivity)]
    · congr 1
      have hr' := hr.ne'
      have hk' := hk0.ne'
      ext
      · simp only [V3.scale_x]; field_simp
      · simp only [V3.scale_y]; field_simp
      · simp only [V3.scale_z, zero_mul]
    · have h2 : (1 / 10 ^ 10 : ℝ) ^ 2 < (k * c.radius) ^ 2 := pow_lt_pow_left₀ hbig (by norm_num) (by norm_num)
      rw [gt_iff_lt]
      refine lt_of_eq_of_lt ?_ h2
      norm_num
  unfold intersectionInfo HitInfo.new
  simp only [hcross, hnorm]
  have hdot : (⟨-(x / c.radius), -(y / c.radius), 0⟩ : V3 ℝ).dot ray.direction
      = -((x * ray.direction.x + y * ray.direction.y) / c.radius) := by
    unfold V3.dot
    simp only
    ring
  refine ⟨_, rfl, rfl, ?_, ?_⟩
  · intro h
    have h' := div_neg_of_neg_of_pos h hr
    unfold Side.get
    simp only [hdot]
    rw [if_neg (by linarith), if_pos (by linarith)]
    refine ⟨rfl, ?_⟩
    ext <;> simp
  · intro h
    have h' := div_pos h hr
    unfold Side.get
    simp only [hdot]
    rw [if_pos (by linarith)]
    exact ⟨rfl, rfl⟩

/-- C71, violated by the side: a ray that comes from outside meets the front of a sphere, but the back of a cylinder.
Here, at the point `(1, 0, 0)` of the sphere of radius one and of the cylinder of radius one. -/
theorem C71_violated_side :
    (∃ s, Sphere.new 1 0 = .ok s ∧ ∃ i, s.intersectionInfo ⟨⟨5, 0, 0⟩, ⟨-1, 0, 0⟩⟩ ⟨1, 0, 0⟩ = .ok i ∧ i.side = .front) ∧
    ∃ c, newTransformed 1 (-1) 1 360 none = .ok c ∧
      ∃ i, c.intersectionInfo ⟨⟨5, 0, 0⟩, ⟨-1, 0, 0⟩⟩ ⟨1, 0, 0⟩ = .ok i ∧ i.side = .back := by
  have hpi := Real.two_le_pi
  constructor
  · obtain ⟨s, hs, h0, h1, h2, h3, h4⟩ := Sphere.example_equator
    refine ⟨s, hs, ?_⟩
    obtain ⟨i, hi, -, hf, -⟩ := Sphere.C70_normal s ⟨⟨5, 0, 0⟩, ⟨-1, 0, 0⟩⟩ ⟨1, 0, 0⟩
      (by rw [h0]; exact one_pos) h1 h2 h3 h4
    exact ⟨i, hi, (hf (by norm_num [V3.dot])).1⟩
  · refine ⟨_, construct none (by norm_num) (by norm_num) le_rfl, ?_⟩
    obtain ⟨i, hi, -, hf, -⟩ := C71_normal ⟨1, -1, 1, 360 * (Real.pi / 180), none⟩ ⟨⟨5, 0, 0⟩, ⟨-1, 0, 0⟩⟩ ⟨1, 0, 0⟩
      one_pos (by norm_num) (by simp only; nlinarith)
    exact ⟨i, hi, (hf (by norm_num)).1⟩

/-- Where the transform of a cylinder takes the centre of its far end. -/
private theorem place_end (p0 l : V3 ℝ) :
    (place p0 l).pt ⟨0, 0, l.length⟩ = p0 + ⟨Real.sqrt (l.x * l.x + l.y * l.y), 0, l.z⟩ := by
  set q := Real.sqrt (l.x * l.x + l.y * l.y) with hq
  have hn : ‖(⟨l.z, q⟩ : ℂ)‖ = l.length := by
    rw [Complex.norm_eq_sqrt_sq_add_sq]
    unfold V3.length V3.lengthSquared
    congr 1
    simp only
    rw [hq, Real.sq_sqrt (by nlinarith [sq_nonneg l.x, sq_nonneg l.y])]
    ring
  have hc := Complex.norm_mul_cos_arg ⟨l.z, q⟩
  have hs := Complex.norm_mul_sin_arg ⟨l.z, q⟩
  rw [hn] at hc hs
  simp only at hc hs
  unfold place
  simp only [← hq]
  ext
  · simp [Transform.pt, Transform.mulPoint, Transform.mulAssign, Transform.mul4x4, Transform.translate, Transform.rotateY,
      Transform.rotateZ, V3.div]
    linarith
  · simp [Transform.pt, Transform.mulPoint, Transform.mulAssign, Transform.mul4x4, Transform.translate, Transform.rotateY,
      Transform.rotateZ, V3.div]
  · simp [Transform.pt, Transform.mulPoint, Transform.mulAssign, Transform.mul4x4, Transform.translate, Transform.rotateY,
      Transform.rotateZ, V3.div]
    linarith

private theorem place_start (p0 l : V3 ℝ) : (place p0 l).pt ⟨0, 0, 0⟩ = p0 := by
  unfold place
  ext <;> simp [Transform.pt, Transform.mulPoint, Transform.mulAssign, Transform.mul4x4, Transform.translate,
    Transform.rotateY, Transform.rotateZ, V3.div]

/-- C71: where a cylinder between two points is placed.  It starts at the first point; it ends at the second one exactly
when the vector between them has no second component and its first one is not negative. -/
theorem C71_violated_end (p0 p1 : V3 ℝ) (radius : ℝ) :
    ∃ c t, new p0 p1 radius = .ok c ∧ c.transform = some t ∧ t.pt ⟨0, 0, c.zmin⟩ = p0 ∧
      t.pt ⟨0, 0, c.zmax⟩ = p0 + ⟨Real.sqrt ((p1 - p0).x * (p1 - p0).x + (p1 - p0).y * (p1 - p0).y), 0, (p1 - p0).z⟩ ∧
      (t.pt ⟨0, 0, c.zmax⟩ = p1 ↔ (p1 - p0).y = 0 ∧ 0 ≤ (p1 - p0).x) := by
  have hl : 0 ≤ (p1 - p0).length := Real.sqrt_nonneg _
  refine ⟨_, place p0 (p1 - p0), construct _ hl (by norm_num) le_rfl, rfl, place_start _ _, place_end _ _, ?_⟩
  simp only
  rw [place_end]
  constructor
  · intro h
    have hx := congrArg V3.x h
    have hy := congrArg V3.y h
    simp only [V3.add_x, V3.add_y, V3.sub_x, V3.sub_y] at hx hy ⊢
    refine ⟨by linarith, ?_⟩
    have := Real.sqrt_nonneg ((p1.x - p0.x) * (p1.x - p0.x) + (p1.y - p0.y) * (p1.y - p0.y))
    linarith
  · rintro ⟨hy, hx⟩
    simp only [V3.sub_x, V3.sub_y] at hx hy
    ext
    · simp only [V3.add_x, V3.sub_x, V3.sub_y]
      rw [hy, mul_zero, add_zero, Real.sqrt_mul_self hx]
      ring
    · simp only [V3.add_y]
      linarith
    · simp only [V3.add_z, V3.sub_z]
      ring

private theorem place_vertical (p0 : V3 ℝ) {h : ℝ} (hh : 0 ≤ h) :
    place p0 ⟨0, 0, h⟩ = Transform.translate p0.x p0.y p0.z := by
  have h1 : Complex.arg ⟨h, Real.sqrt (0 * 0 + 0 * 0)⟩ = 0 := by
    have : (⟨h, Real.sqrt (0 * 0 + 0 * 0)⟩ : ℂ) = (h : ℂ) := by
      simp
      rfl
    rw [this, Complex.arg_ofReal_of_nonneg hh]
  have h2 : Complex.arg ⟨0, 0⟩ = 0 := by
    have : (⟨0, 0⟩ : ℂ) = 0 := rfl
    rw [this, Complex.arg_zero]
  unfold place
  simp only [h1, h2, Real.cos_zero, Real.sin_zero]
  ext i j
  · fin_cases i <;> fin_cases j <;>
      simp [Transform.mulAssign, Transform.mul4x4, Transform.translate, Transform.rotateY, Transform.rotateZ]
  · fin_cases i <;> fin_cases j <;>
      simp [Transform.mulAssign, Transform.mul4x4, Transform.translate, Transform.rotateY, Transform.rotateZ]

/-- C71, for cylinders between two points in the world, the part that holds: if the second point is straight above the
first one, then the point returned is the first one that the ray meets of the side of the cylinder between them.
Missing: the other positions, see `C71_violated_end` and `C71_violated_hit`. -/
theorem C71_world_partial (p0 : V3 ℝ) (h radius : ℝ) (hr : 0 < radius) (hh : 0 < h) :
    ∃ c, new p0 (p0 + ⟨0, 0, h⟩) radius = .ok c ∧
      ∀ ray : Ray ℝ, ¬ Spec.Parallel ray →
        ¬ Spec.StartsTangent radius ⟨ray.origin - p0, ray.direction⟩ →
        ∃ res, c.simpleIntersect ray = .ok res ∧
          Shape.Spec.FirstHit ray (Spec.Tube p0 (p0 + ⟨0, 0, h⟩) radius) res := by
  unfold new newPartial
  have hl : (p0 + ⟨0, 0, h⟩ - p0 : V3 ℝ) = ⟨0, 0, h⟩ := by ext <;> simp
  have hlen : (⟨0, 0, h⟩ : V3 ℝ).length = h := by
    unfold V3.length V3.lengthSquared
    simp only [mul_zero, add_zero, zero_add]
    rw [Real.sqrt_mul_self hh.le]
  simp only [hl, hlen, place_vertical p0 hh.le]
  obtain ⟨c, hc, ht, hray⟩ := C71_cylinder radius 0 h 360 (some (Transform.translate p0.x p0.y p0.z)) hr hh.le
    (by norm_num) le_rfl
  refine ⟨c, hc, fun ray hpar htan => ?_⟩
  have hinv : (Transform.translate p0.x p0.y p0.z).invRay ray = ⟨ray.origin - p0, ray.direction⟩ := by
    obtain ⟨⟨ox, oy, oz⟩, dx, dy, dz⟩ := ray
    simp [Transform.invRay, Transform.invPt, Transform.invVec, Transform.mulPoint, Transform.mulVec,
      Transform.translate, V3.div]
    ext <;> simp <;> ring
  obtain ⟨res, h1, h2⟩ := hray ((Transform.translate p0.x p0.y p0.z).invRay ray) (by rw [hinv]; exact hpar)
    (by rw [hinv]; exact htan)
  have hw := Shape.firstHit_transform _ (Transform.Spec.Primitive.translate (K := ℝ) p0.x p0.y p0.z) ray _ _ h2
  refine ⟨res.map fun h => (Transform.translate p0.x p0.y p0.z).pt h.1, ?_, ?_⟩
  · unfold simpleIntersect
    rw [ht]
    simp only [h1]
    rfl
  · have : (fun p => Spec.Patch radius 0 h (360 * (Real.pi / 180)) ((Transform.translate p0.x p0.y p0.z).invPt p))
        = Spec.Tube p0 (p0 + ⟨0, 0, h⟩) radius := by
      funext p
      have e : (Transform.translate p0.x p0.y p0.z).invPt p = p - p0 := by
        ext <;> simp [Transform.invPt, Transform.mulPoint, Transform.translate, V3.div] <;> ring
      rw [eq_iff_iff, e]
      unfold Spec.Patch Spec.Tube
      rw [hl, sector_iff (radians_range (by norm_num) le_rfl).1]
      have hphi := (phiOf_spec (p - p0).x (p - p0).y).2.1
      have h2 : 0 < h * h := by positivity
      simp only [V3.lengthSquared, V3.dot, V3.cross_x, V3.cross_y, V3.cross_z, zero_mul, zero_sub, sub_zero, zero_add,
        mul_zero, add_zero]
      constructor
      · rintro ⟨a, b, c, -⟩
        refine ⟨?_, by positivity, mul_le_mul_of_nonneg_left c hh.le⟩
        linear_combination (h * h) * a
      · rintro ⟨a, b, c⟩
        refine ⟨?_, ?_, le_of_mul_le_mul_left c hh, by linarith⟩
        · have : (h * h) * ((p - p0).x ^ 2 + (p - p0).y ^ 2) = (h * h) * radius ^ 2 := by linear_combination a
          exact mul_left_cancel₀ h2.ne' this
        · exact nonneg_of_mul_nonneg_right b hh
    rw [← this]
    convert hw using 1
    cases res <;> rfl

/-- C71, violated by a cylinder along the second axis: a ray that meets its side at `(1, 1/2, 0)` is told that it meets it
at `(1/2, 0, -1)`, which is not even on the ray. -/
theorem C71_violated_hit : ∃ c, new ⟨0, 0, 0⟩ ⟨0, 1, 0⟩ 1 = .ok c ∧
    c.simpleIntersect ⟨⟨5, 1 / 2, 0⟩, ⟨-1, 0, 0⟩⟩ = .ok (some ⟨1 / 2, 0, -1⟩) ∧
    Shape.Spec.FirstHit ⟨⟨5, 1 / 2, 0⟩, ⟨-1, 0, 0⟩⟩ (Spec.Tube ⟨0, 0, 0⟩ ⟨0, 1, 0⟩ 1) (some ⟨1, 1 / 2, 0⟩) ∧
    ∀ t, Ray.project ⟨⟨5, 1 / 2, 0⟩, ⟨-1, 0, 0⟩⟩ t ≠ (⟨1 / 2, 0, -1⟩ : V3 ℝ) := by
  have hl : ((⟨0, 1, 0⟩ : V3 ℝ) - ⟨0, 0, 0⟩) = ⟨0, 1, 0⟩ := by ext <;> simp
  have hlen : (⟨0, 1, 0⟩ : V3 ℝ).length = 1 := by
    unfold V3.length V3.lengthSquared
    norm_num
  have hI : Complex.arg ⟨0, 1⟩ = Real.pi / 2 := Complex.arg_I
  have hplace : place ⟨0, 0, 0⟩ ⟨0, 1, 0⟩ = ((Transform.translate 0 0 0).mulAssign (Transform.rotateY 0 1)).mulAssign
      (Transform.rotateZ 0 1) := by
    unfold place
    have : Real.sqrt (0 * 0 + 1 * 1) = 1 := by norm_num
    simp only [this, hI, Real.cos_pi_div_two, Real.sin_pi_div_two]
  unfold new newPartial
  simp only [hl, hlen, hplace]
  obtain ⟨c, hc, ht, hray⟩ := C71_cylinder 1 0 1 360 (some (((Transform.translate 0 0 0).mulAssign
    (Transform.rotateY 0 1)).mulAssign (Transform.rotateZ 0 1))) one_pos zero_le_one (by norm_num) le_rfl
  refine ⟨c, hc, ?_, ?_, ?_⟩
  · have hinv : (((Transform.translate (0 : ℝ) 0 0).mulAssign (Transform.rotateY 0 1)).mulAssign
        (Transform.rotateZ 0 1)).invRay ⟨⟨5, 1 / 2, 0⟩, ⟨-1, 0, 0⟩⟩ = ⟨⟨0, -5, 1 / 2⟩, ⟨0, 1, 0⟩⟩ := by
      simp [Transform.invRay, Transform.invPt, Transform.invVec, Transform.mulPoint, Transform.mulVec,
        Transform.translate, Transform.rotateY, Transform.rotateZ, Transform.mulAssign, Transform.mul4x4, V3.div]
    obtain ⟨res, h1, h2⟩ := hray ⟨⟨0, -5, 1 / 2⟩, ⟨0, 1, 0⟩⟩ (by simp [Spec.Parallel]) (by norm_num [Spec.StartsTangent])
    have hroots : ∀ u, Spec.Patch 1 0 1 (360 * (Real.pi / 180)) (Ray.project ⟨⟨0, -5, 1 / 2⟩, ⟨0, 1, 0⟩⟩ u) ↔ u = 4 ∨ u = 6 := by
      intro u
      unfold Spec.Patch
      rw [sector_iff (radians_range (by norm_num) le_rfl).1]
      have hphi := (phiOf_spec (Ray.project ⟨⟨0, -5, 1 / 2⟩, ⟨0, 1, 0⟩⟩ u).x (Ray.project ⟨⟨0, -5, 1 / 2⟩, ⟨0, 1, 0⟩⟩ u).y).2.1
      simp only [Ray.project, V3.add_x, V3.add_y, V3.add_z, V3.scale_x, V3.scale_y, V3.scale_z] at hphi ⊢
      constructor
      · rintro ⟨h, -⟩
        have : (u - 4) * (u - 6) = 0 := by linear_combination h
        rcases mul_eq_zero.1 this with h | h
        · left; linarith
        · right; linarith
      · rintro (rfl | rfl)
        · exact ⟨by norm_num, by norm_num, by norm_num, hphi.le.trans (by linarith [Real.pi_pos])⟩
        · exact ⟨by norm_num, by norm_num, by norm_num, hphi.le.trans (by linarith [Real.pi_pos])⟩
    have hres : res.map (fun h => h.1) = some ⟨0, -1, 1 / 2⟩ := by
      cases hr : res.map (fun h => h.1) with
      | none =>
        rw [hr] at h2
        exact absurd ((hroots 4).2 (Or.inl rfl)) (h2 4 (by norm_num))
      | some p =>
        rw [hr] at h2
        obtain ⟨u, hu, hp, hS, hmin⟩ := h2
        rw [hp] at hS
        rcases (hroots u).1 hS with rfl | rfl
        · rw [hp]
          congr 1
          ext <;> norm_num [Ray.project]
        · exact absurd ((hroots 4).2 (Or.inl rfl)) (hmin 4 (by norm_num) (by norm_num))
    unfold simpleIntersect
    rw [ht]
    simp only [hinv, h1]
    cases res with
    | none => simp at hres
    | some r =>
      simp only [Option.map_some, Option.some.injEq] at hres
      simp only [Outcome.map, Outcome.bind, Option.map_some, hres]
      congr 2
      ext <;> simp [Transform.pt, Transform.mulPoint, Transform.translate, Transform.rotateY, Transform.rotateZ,
        Transform.mulAssign, Transform.mul4x4, V3.div]
  · refine ⟨4, by norm_num, by ext <;> norm_num [Ray.project], ?_, ?_⟩
    · unfold Spec.Tube
      norm_num [V3.lengthSquared, V3.dot]
    · intro u hu hlt
      unfold Spec.Tube Ray.project
      simp only [V3.lengthSquared, V3.cross_x, V3.cross_y, V3.cross_z, V3.sub_x, V3.sub_y, V3.sub_z, V3.add_x, V3.add_y,
        V3.add_z, V3.scale_x, V3.scale_y, V3.scale_z]
      rintro ⟨h, -⟩
      nlinarith
  · intro t h
    have := congrArg V3.z h
    norm_num [Ray.project] at this

end Simple.Geometry.Cylinder
