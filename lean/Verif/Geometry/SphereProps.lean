import Verif.Geometry.ShapeProps

/-! # C70: rays and spheres -/

namespace Simple.Geometry.Sphere

open Shape (approxRoots_spec firstHit_spec phiOf_spec sector_iff clamp_self checkPhi_ok radians_range)

namespace Spec

/-- The points of a sphere around the origin between two heights and two meridians. -/
def Patch (radius zmin zmax M : ℝ) (p : V3 ℝ) : Prop :=
  p.x ^ 2 + p.y ^ 2 + p.z ^ 2 = radius ^ 2 ∧ zmin ≤ p.z ∧ p.z ≤ zmax ∧ Shape.Spec.Sector M p.x p.y

/-- Near the axis: within a hundred thousandth of the radius, in both coordinates. -/
def NearAxis (radius : ℝ) (p : V3 ℝ) : Prop := |p.x| < radius / 10 ^ 5 ∧ |p.y| < radius / 10 ^ 5

/-- The ray starts on the sphere and is tangent to it. -/
def StartsTangent (radius : ℝ) (ray : Ray ℝ) : Prop :=
  ray.origin.x ^ 2 + ray.origin.y ^ 2 + ray.origin.z ^ 2 = radius ^ 2 ∧ ray.origin.dot ray.direction = 0

/-- The same point, but for a change of at most `d` in its first coordinate. -/
def Shifted (d : ℝ) (p q : V3 ℝ) : Prop := |p.x - q.x| ≤ d ∧ p.y = q.y ∧ p.z = q.z

/-- The points at a distance from another one. -/
def Around (radius : ℝ) (centre p : V3 ℝ) : Prop :=
  (p.x - centre.x) ^ 2 + (p.y - centre.y) ^ 2 + (p.z - centre.z) ^ 2 = radius ^ 2

end Spec

private def On (r : ℝ) (p : V3 ℝ) : Prop := p.x ^ 2 + p.y ^ 2 + p.z ^ 2 = r ^ 2

private theorem hitAt_on (s : Sphere) (hr : 0 < s.radius) (ray : Ray ℝ) (t : ℝ) (h : On s.radius (ray.project t)) :
    s.hitAt ray t = (s.avoidPole (ray.project t), phiOf (s.avoidPole (ray.project t)).x (s.avoidPole (ray.project t)).y) := by
  have hl : (ray.project t).length = s.radius := by
    unfold V3.length V3.lengthSquared
    have : (ray.project t).x * (ray.project t).x + (ray.project t).y * (ray.project t).y
        + (ray.project t).z * (ray.project t).z = s.radius ^ 2 := by rw [← h]; ring
    rw [this, Real.sqrt_sq hr.le]
  unfold hitAt
  have e : (ray.project t).scale (s.radius / (ray.project t).length) = ray.project t := by
    rw [hl, div_self hr.ne']
    ext <;> simp
  simp only [e]

/-- What `basicIntersection` returns, in terms of the points on the whole sphere. -/
private theorem core (s : Sphere) (hr : 0 < s.radius) (ray : Ray ℝ) (hd : ray.direction ≠ 0)
    (ht : ¬ Spec.StartsTangent s.radius ray) :
    ∃ res, s.basicIntersection ray = .ok res ∧
      ((res = none ∧ ∀ t, On s.radius (ray.project t) → 0 < t → s.Clipped (s.hitAt ray t)) ∨
        ∃ t, On s.radius (ray.project t) ∧ 0 < t ∧ res = some (s.hitAt ray t) ∧ ¬ s.Clipped (s.hitAt ray t) ∧
          ∀ t', On s.radius (ray.project t') → 0 < t' → t' < t → s.Clipped (s.hitAt ray t')) := by
  obtain ⟨⟨ox, oy, oz⟩, dx, dy, dz⟩ := ray
  have ha : dx * dx + dy * dy + dz * dz ≠ 0 := by
    intro h
    apply hd
    have h1 : dx = 0 := by nlinarith [sq_nonneg dx, sq_nonneg dy, sq_nonneg dz]
    have h2 : dy = 0 := by nlinarith [sq_nonneg dx, sq_nonneg dy, sq_nonneg dz]
    have h3 : dz = 0 := by nlinarith [sq_nonneg dx, sq_nonneg dy, sq_nonneg dz]
    subst h1 h2 h3
    rfl
  have hbc : ¬ ((ox * dx + oy * dy + oz * dz) * 2 = 0 ∧ ox * ox + oy * oy + oz * oz - s.radius * s.radius = 0) := by
    rintro ⟨h1, h2⟩
    apply ht
    unfold Spec.StartsTangent V3.dot
    simp only
    exact ⟨by linarith, by linarith⟩
  have hon : ∀ t, On s.radius (Ray.project ⟨⟨ox, oy, oz⟩, ⟨dx, dy, dz⟩⟩ t) ↔
      (dx * dx + dy * dy + dz * dz) * t ^ 2 + (ox * dx + oy * dy + oz * dz) * 2 * t
        + (ox * ox + oy * oy + oz * oz - s.radius * s.radius) = 0 := by
    intro t
    unfold On Ray.project
    simp only [V3.add_x, V3.add_y, V3.add_z, V3.scale_x, V3.scale_y, V3.scale_z]
    constructor <;> intro h <;> linear_combination h
  unfold basicIntersection
  simp only
  rcases approxRoots_spec ha hbc with ⟨h, hno⟩ | ⟨t0, t1, h, hle, hx⟩
  · rw [h]
    refine ⟨none, rfl, Or.inl ⟨rfl, fun t hon' => ?_⟩⟩
    exact absurd ((hon t).1 hon') (hno t)
  · rw [h]
    refine ⟨_, rfl, ?_⟩
    rcases firstHit_spec t0 t1 hle (s.hitAt ⟨⟨ox, oy, oz⟩, ⟨dx, dy, dz⟩⟩) s.Clipped with ⟨e, hm⟩ | ⟨t, ht', hpos, e, hnm, hm⟩
    · left
      exact ⟨e, fun t hon' hp => hm t ((hx t).1 ((hon t).1 hon')) hp⟩
    · right
      exact ⟨t, (hon t).2 ((hx t).2 ht'), hpos, e, hnm, fun t' hon' hp hlt => hm t' ((hx t').1 ((hon t').1 hon')) hp hlt⟩

/-- What the constructor stores. -/
private theorem construct {radius zmin zmax phi : ℝ} (t : Option (Transform ℝ)) (hr : 0 < radius) (hz : zmin ≤ zmax)
    (h0 : 0 ≤ phi) (h1 : phi ≤ 360) :
    ∃ s, newPartialTransformed radius zmin zmax phi t = .ok s ∧ s.radius = radius ∧
      s.zmin = clampReal zmin (-radius) radius ∧ s.zmax = clampReal zmax (-radius) radius ∧
      s.phiMax = phi * (Real.pi / 180) ∧ s.transform = t := by
  unfold newPartialTransformed
  rw [if_neg (not_lt.2 hz), if_neg (not_lt.2 hr.le)]
  simp only [checkPhi_ok h0 h1]
  exact ⟨_, rfl, rfl, rfl, rfl, rfl, rfl⟩

private theorem on_range {r : ℝ} (hr : 0 < r) {p : V3 ℝ} (h : On r p) : -r ≤ p.z ∧ p.z ≤ r := by
  unfold On at h
  constructor <;> nlinarith [sq_nonneg p.x, sq_nonneg p.y]

/-- The clipping at the heights stored is the clipping at the heights given. -/
private theorem heights {r zmin zmax z : ℝ} (hr : 0 < r) (h1 : zmin ≤ r) (h2 : -r ≤ zmax) (hz : -r ≤ z ∧ z ≤ r) :
    ((clampReal zmin (-r) r > -r ∧ z < clampReal zmin (-r) r) ↔ z < zmin) ∧
    ((clampReal zmax (-r) r < r ∧ z > clampReal zmax (-r) r) ↔ zmax < z) := by
  unfold clampReal
  constructor
  · by_cases ha : zmin < -r
    · rw [if_pos ha]
      constructor
      · rintro ⟨h, -⟩
        exact absurd h (lt_irrefl _)
      · intro h
        linarith [hz.1]
    · rw [if_neg ha, if_neg (not_lt.2 h1)]
      constructor
      · exact fun h => h.2
      · exact fun h => ⟨by linarith [hz.1], h⟩
  · rw [if_neg (not_lt.2 h2)]
    by_cases ha : r < zmax
    · rw [if_pos ha]
      constructor
      · rintro ⟨h, -⟩
        exact absurd h (lt_irrefl _)
      · intro h
        linarith [hz.2]
    · rw [if_neg ha]
      constructor
      · exact fun h => h.2
      · exact fun h => ⟨by linarith [hz.2], h⟩

private theorem avoidPole_far (s : Sphere) {p : V3 ℝ} (h : ¬ Spec.NearAxis s.radius p) : s.avoidPole p = p := by
  unfold avoidPole
  rw [if_neg]
  rintro ⟨h1, h2⟩
  exact h ⟨by linarith, by linarith⟩

private theorem avoidPole_z (s : Sphere) (p : V3 ℝ) : (s.avoidPole p).z = p.z := by
  unfold avoidPole
  by_cases h : |p.x| < 1 / 10 ^ 5 * s.radius ∧ |p.y| < 1 / 10 ^ 5 * s.radius
  · rw [if_pos h]
  · rw [if_neg h]

private theorem avoidPole_shifted (s : Sphere) (hr : 0 < s.radius) (p : V3 ℝ) :
    Spec.Shifted (s.radius / 50000) (s.avoidPole p) p := by
  unfold avoidPole
  by_cases h : |p.x| < 1 / 10 ^ 5 * s.radius ∧ |p.y| < 1 / 10 ^ 5 * s.radius
  · rw [if_pos h]
    refine ⟨?_, rfl, rfl⟩
    have := abs_lt.1 h.1
    rw [abs_le]
    constructor <;> simp only <;> linarith
  · rw [if_neg h]
    refine ⟨?_, rfl, rfl⟩
    rw [sub_self, abs_zero]
    positivity

/-- C70: a partial sphere in its own coordinates, the part that holds.  If the ray neither starts on the sphere as a
tangent nor meets the sphere near the axis (`C70_violated_pole`), then the intersection returned is the first point of
the part of the sphere that the ray meets after leaving its origin, and there is none exactly when the ray does not meet
that part. -/
theorem C70_sphere_partial (radius zmin zmax phi : ℝ) (t : Option (Transform ℝ)) (hr : 0 < radius) (hz : zmin ≤ zmax)
    (h1 : zmin ≤ radius) (h2 : -radius ≤ zmax) (hphi : 0 ≤ phi) (hphi' : phi ≤ 360) :
    ∃ s, newPartialTransformed radius zmin zmax phi t = .ok s ∧
      ∀ ray : Ray ℝ, ray.direction ≠ 0 → ¬ Spec.StartsTangent radius ray →
        (∀ u, 0 < u → (ray.project u).x ^ 2 + (ray.project u).y ^ 2 + (ray.project u).z ^ 2 = radius ^ 2 →
          ¬ Spec.NearAxis radius (ray.project u)) →
        ∃ res, s.basicIntersection ray = .ok res ∧
          Shape.Spec.FirstHit ray (Spec.Patch radius zmin zmax (phi * (Real.pi / 180))) (res.map fun h => h.1) := by
  obtain ⟨s, hs, rfl, e1, e2, e3, -⟩ := construct t hr hz hphi hphi'
  refine ⟨s, hs, fun ray hd ht hpole => ?_⟩
  obtain ⟨res, hres, hcase⟩ := core s hr ray hd ht
  have key : ∀ u, 0 < u → On s.radius (ray.project u) →
      (s.hitAt ray u).1 = ray.project u ∧
      (¬ s.Clipped (s.hitAt ray u) ↔ Spec.Patch s.radius zmin zmax (phi * (Real.pi / 180)) (ray.project u)) := by
    intro u hu hon
    rw [hitAt_on s hr ray u hon, avoidPole_far s (hpole u hu hon)]
    refine ⟨rfl, ?_⟩
    unfold Clipped Spec.Patch
    obtain ⟨k1, k2⟩ := heights hr h1 h2 (on_range hr hon)
    rw [sector_iff (radians_range hphi hphi').1, e1, e2, e3]
    simp only [k1, k2, not_or, not_lt, gt_iff_lt]
    exact ⟨fun h => ⟨hon, h.1, h.2.1, h.2.2⟩, fun h => ⟨h.2.1, h.2.2.1, h.2.2.2⟩⟩
  refine ⟨res, hres, ?_⟩
  rcases hcase with ⟨rfl, hno⟩ | ⟨u, hon, hu, rfl, hnc, hmin⟩
  · intro u hu hp
    exact ((key u hu hp.1).2.2 hp) (hno u hp.1 hu)
  · refine ⟨u, hu, (key u hu hon).1, ?_, ?_⟩
    · change Spec.Patch _ _ _ _ (s.hitAt ray u).1
      rw [(key u hu hon).1]
      exact (key u hu hon).2.1 hnc
    · intro u' hu' hlt hp
      exact ((key u' hu' hp.1).2.2 hp) (hmin u' hp.1 hu' hlt)

/-- The hypotheses of `C70_sphere_partial` are met by a ray that crosses a hemisphere away from its pole. -/
example : ∃ ray : Ray ℝ, ray.direction ≠ 0 ∧ ¬ Spec.StartsTangent 2 ray ∧
    (∀ u, 0 < u → (ray.project u).x ^ 2 + (ray.project u).y ^ 2 + (ray.project u).z ^ 2 = (2 : ℝ) ^ 2 →
      ¬ Spec.NearAxis 2 (ray.project u)) ∧ Spec.Patch 2 0 2 (360 * (Real.pi / 180)) (ray.project 3) := by
  refine ⟨⟨⟨-5, 0, 0⟩, ⟨1, 0, 0⟩⟩, ?_, ?_, ?_, ?_⟩
  · intro h
    have := congrArg V3.x h
    simp at this
  · rintro ⟨h, -⟩
    norm_num at h
  · intro u _ h hn
    obtain ⟨hn, -⟩ := hn
    simp only [Ray.project, V3.add_x, V3.add_y, V3.add_z, V3.scale_x, V3.scale_y, V3.scale_z] at h hn
    have := abs_lt.1 hn
    nlinarith [this.1, this.2]
  · refine ⟨by norm_num [Ray.project], by norm_num [Ray.project], by norm_num [Ray.project], ?_⟩
    refine ⟨Real.pi, Real.pi_pos.le, by linarith [Real.pi_pos], ?_, ?_⟩
    · have : Real.sqrt (4 : ℝ) = 2 := by rw [show (4 : ℝ) = 2 ^ 2 by norm_num, Real.sqrt_sq (by norm_num)]
      norm_num [Ray.project, this]
    · norm_num [Ray.project]

/-- C70: a sphere without meridians left out.  Here the only condition is that the ray does not start on the sphere as a
tangent; the point returned is the first one of the sphere that the ray meets, moved by at most a fifty thousandth of the
radius, and never in height. -/
theorem C70_zone (radius zmin zmax : ℝ) (t : Option (Transform ℝ)) (hr : 0 < radius) (hz : zmin ≤ zmax)
    (h1 : zmin ≤ radius) (h2 : -radius ≤ zmax) :
    ∃ s, newPartialTransformed radius zmin zmax 360 t = .ok s ∧ s.transform = t ∧
      ∀ ray : Ray ℝ, ray.direction ≠ 0 → ¬ Spec.StartsTangent radius ray →
        ∃ res first, s.basicIntersection ray = .ok res ∧
          Shape.Spec.FirstHit ray (fun p => p.x ^ 2 + p.y ^ 2 + p.z ^ 2 = radius ^ 2 ∧ zmin ≤ p.z ∧ p.z ≤ zmax) first ∧
          Option.Rel (Spec.Shifted (radius / 50000)) (res.map fun h => h.1) first := by
  obtain ⟨s, hs, rfl, e1, e2, e3, e4⟩ := construct t hr hz (by norm_num) le_rfl
  refine ⟨s, hs, e4, fun ray hd ht => ?_⟩
  obtain ⟨res, hres, hcase⟩ := core s hr ray hd ht
  have key : ∀ u, 0 < u → On s.radius (ray.project u) →
      (s.hitAt ray u).1 = s.avoidPole (ray.project u) ∧
      (¬ s.Clipped (s.hitAt ray u) ↔ (zmin ≤ (ray.project u).z ∧ (ray.project u).z ≤ zmax)) := by
    intro u hu hon
    rw [hitAt_on s hr ray u hon]
    refine ⟨rfl, ?_⟩
    unfold Clipped
    obtain ⟨k1, k2⟩ := heights hr h1 h2 (on_range hr hon)
    have k3 : ∀ x y, ¬ (phiOf x y > 360 * (Real.pi / 180)) := by
      intro x y h
      have := (phiOf_spec x y).2.1
      linarith
    rw [e1, e2, e3]
    simp only [avoidPole_z, k1, k2, k3, not_or, not_lt, or_false]
  rcases hcase with ⟨rfl, hno⟩ | ⟨u, hon, hu, rfl, hnc, hmin⟩
  · refine ⟨none, none, hres, ?_, Option.Rel.none⟩
    intro u hu hp
    exact ((key u hu hp.1).2.2 hp.2) (hno u hp.1 hu)
  · refine ⟨_, some (ray.project u), hres, ⟨u, hu, rfl, ⟨hon, (key u hu hon).2.1 hnc⟩, ?_⟩, ?_⟩
    · intro u' hu' hlt hp
      exact ((key u' hu' hp.1).2.2 hp.2) (hmin u' hp.1 hu' hlt)
    · apply Option.Rel.some
      change Spec.Shifted _ (s.hitAt ray u).1 _
      rw [(key u hu hon).1]
      exact avoidPole_shifted s hr _

/-- C70: a whole sphere anywhere in the world.  (A centre that is taken for the origin because its coordinates are tiny
has to be the origin.) -/
theorem C70_world (radius : ℝ) (centre : V3 ℝ) (hr : 0 < radius) (hc : centre.isZero = true → centre = 0) :
    ∃ s, new radius centre = .ok s ∧ s.centre = centre ∧
      ∀ ray : Ray ℝ, ray.direction ≠ 0 →
        ¬ (Spec.Around radius centre ray.origin ∧ (ray.origin - centre).dot ray.direction = 0) →
        ∃ res first, s.simpleIntersect ray = .ok res ∧
          Shape.Spec.FirstHit ray (Spec.Around radius centre) first ∧
          Option.Rel (Spec.Shifted (radius / 50000)) res first := by
  unfold new newPartial
  have hset : ∀ p : V3 ℝ, (p.x ^ 2 + p.y ^ 2 + p.z ^ 2 = radius ^ 2 ∧ -2 * radius ≤ p.z ∧ p.z ≤ 2 * radius) ↔
      p.x ^ 2 + p.y ^ 2 + p.z ^ 2 = radius ^ 2 := by
    intro p
    refine ⟨fun h => h.1, fun h => ⟨h, ?_, ?_⟩⟩
    · linarith [(on_range hr h).1]
    · linarith [(on_range hr h).2]
  by_cases hz : centre.isZero = true
  · have h0 := hc hz
    subst h0
    simp only [hz]
    obtain ⟨s, hs, ht, hray⟩ := C70_zone radius (-2 * radius) (2 * radius) none hr (by linarith) (by linarith) (by linarith)
    refine ⟨s, hs, by unfold Sphere.centre; rw [ht], fun ray hd hn => ?_⟩
    have hinv : Transform.new.invRay ray = ray := by
      obtain ⟨⟨ox, oy, oz⟩, dx, dy, dz⟩ := ray
      simp [Transform.invRay, Transform.new, Transform.invPt, Transform.invVec, Transform.mulPoint, Transform.mulVec, V3.div]
    obtain ⟨res, first, h1, h2, h3⟩ := hray ray hd (by
      rintro ⟨a, b⟩
      apply hn
      refine ⟨by simpa [Spec.Around] using a, ?_⟩
      simpa [V3.dot] using b)
    refine ⟨_, first, ?_, ?_, h3⟩
    · unfold simpleIntersect
      rw [ht]
      simp only [hinv, h1]
      rfl
    · have : (fun p : V3 ℝ => p.x ^ 2 + p.y ^ 2 + p.z ^ 2 = radius ^ 2 ∧ -2 * radius ≤ p.z ∧ p.z ≤ 2 * radius)
          = Spec.Around radius 0 := by
        funext p
        rw [eq_iff_iff, hset]
        simp [Spec.Around]
      rw [← this]
      exact h2
  · simp only [Bool.not_eq_true] at hz
    simp only [hz, Bool.not_false, if_true]
    obtain ⟨s, hs, ht, hray⟩ := C70_zone radius (-2 * radius) (2 * radius)
      (some (Transform.translate centre.x centre.y centre.z)) hr (by linarith) (by linarith) (by linarith)
    refine ⟨s, hs, ?_, fun ray hd hn => ?_⟩
    · unfold Sphere.centre
      rw [ht]
      ext <;> simp [Transform.pt, Transform.mulPoint, Transform.translate, V3.div]
    · obtain ⟨res, first, h1, h2, h3⟩ := hray ((Transform.translate centre.x centre.y centre.z).invRay ray) (by
          intro h
          apply hd
          rw [← h]
          ext <;> simp [Transform.invRay, Transform.invVec, Transform.mulVec, Transform.translate]) (by
        rintro ⟨a, b⟩
        apply hn
        constructor
        · unfold Spec.Around
          simp only [Transform.invRay, Transform.invPt, Transform.mulPoint, Transform.translate, V3.div] at a
          simp only [Matrix.of_apply, Matrix.cons_val', Matrix.cons_val_zero, Matrix.cons_val_one, Matrix.cons_val] at a
          simp only [one_mul, zero_mul, add_zero, zero_add, div_one] at a
          linarith
        · simp only [Transform.invRay, Transform.invPt, Transform.mulPoint, Transform.translate, V3.div,
            Transform.invVec, Transform.mulVec, V3.dot] at b
          simp only [Matrix.of_apply, Matrix.cons_val', Matrix.cons_val_zero, Matrix.cons_val_one, Matrix.cons_val] at b
          simp only [one_mul, zero_mul, add_zero, zero_add, div_one] at b
          simp only [V3.dot, V3.sub_x, V3.sub_y, V3.sub_z]
          linarith)
      have hprim := Transform.Spec.Primitive.translate (K := ℝ) centre.x centre.y centre.z
      have hw := Shape.firstHit_transform _ hprim ray _ _ h2
      refine ⟨res.map fun h => (Transform.translate centre.x centre.y centre.z).pt h.1,
        first.map (Transform.translate centre.x centre.y centre.z).pt, ?_, ?_, ?_⟩
      · unfold simpleIntersect
        rw [ht]
        simp only [h1]
        rfl
      · have : (fun p : V3 ℝ => (fun q : V3 ℝ => q.x ^ 2 + q.y ^ 2 + q.z ^ 2 = radius ^ 2 ∧ -2 * radius ≤ q.z ∧ q.z ≤ 2 * radius)
            ((Transform.translate centre.x centre.y centre.z).invPt p)) = Spec.Around radius centre := by
          funext p
          rw [eq_iff_iff]
          refine (hset _).trans ?_
          simp [Spec.Around, Transform.invPt, Transform.mulPoint, Transform.translate, V3.div, sub_eq_add_neg]
        rw [← this]
        exact hw
      · cases res with
        | none =>
          cases first with
          | none => exact Option.Rel.none
          | some q => simp at h3
        | some p =>
          cases first with
          | none => simp at h3
          | some q =>
            simp only [Option.map_some, Option.rel_some_some] at h3 ⊢
            obtain ⟨a, b, c⟩ := h3
            refine ⟨?_, ?_, ?_⟩
            · simp [Transform.pt, Transform.mulPoint, Transform.translate, V3.div]
              exact a
            · simp [Transform.pt, Transform.mulPoint, Transform.translate, V3.div]
              exact b
            · simp [Transform.pt, Transform.mulPoint, Transform.translate, V3.div]
              exact c

private theorem whole (s : Sphere) (hs : new 1 0 = .ok s) :
    s.radius = 1 ∧ s.zmin = -1 ∧ s.zmax = 1 ∧ s.phiMax = 2 * Real.pi ∧ s.deltaTheta = Real.pi ∧ s.transform = none := by
  have h0 : (0 : V3 ℝ).isZero = true := by simp [V3.isZero, V3.tiny]
  have h1 : clampReal (-2 * 1) (-1) 1 = -1 := by norm_num [clampReal]
  have h2 : clampReal (2 * 1) (-1) 1 = 1 := by norm_num [clampReal]
  have h3 : clampReal (-1 / 1) (-1) 1 = -1 := by norm_num [clampReal]
  have h4 : clampReal (1 / 1) (-1) 1 = 1 := by norm_num [clampReal]
  unfold new newPartial newPartialTransformed at hs
  simp only [h0, h1, h2, h3, h4, checkPhi_ok (show (0 : ℝ) ≤ 360 by norm_num) le_rfl] at hs
  rw [if_neg (by norm_num), if_neg (by norm_num)] at hs
  simp only [Real.arccos_neg_one, Real.arccos_one, Real.pi_pos, gt_iff_lt, if_true] at hs
  have := Outcome.ok.inj hs
  subst this
  refine ⟨rfl, rfl, rfl, ?_, ?_, ?_⟩
  · simp only
    ring
  · simp
  · simp

private theorem pole_hit (s : Sphere) (hs : new 1 0 = .ok s) :
    s.basicIntersection ⟨⟨0, 0, 5⟩, ⟨0, 0, -1⟩⟩ = .ok (some (⟨1 / 10 ^ 5, 0, 1⟩, 0)) := by
  obtain ⟨hr, hz0, hz1, hphi, -, -⟩ := whole s hs
  have hon : ∀ t, On s.radius (Ray.project ⟨⟨0, 0, 5⟩, ⟨0, 0, -1⟩⟩ t) ↔ t = 4 ∨ t = 6 := by
    intro t
    rw [hr]
    unfold On Ray.project
    simp only [V3.add_x, V3.add_y, V3.add_z, V3.scale_x, V3.scale_y, V3.scale_z]
    constructor
    · intro h
      have : (t - 4) * (t - 6) = 0 := by linear_combination h
      rcases mul_eq_zero.1 this with h | h
      · left; linarith
      · right; linarith
    · rintro (rfl | rfl) <;> norm_num
  have hc : ∀ t, ¬ s.Clipped (s.hitAt ⟨⟨0, 0, 5⟩, ⟨0, 0, -1⟩⟩ t) := by
    intro t
    unfold Clipped
    rw [hr, hz0, hz1, hphi]
    simp only [gt_iff_lt, lt_self_iff_false, false_and, false_or, not_lt]
    exact (phiOf_spec _ _).2.1.le
  obtain ⟨res, hres, hcase⟩ := core s (by rw [hr]; norm_num) ⟨⟨0, 0, 5⟩, ⟨0, 0, -1⟩⟩ (by
      intro h
      have := congrArg V3.z h
      simp at this) (by
      rintro ⟨h, -⟩
      rw [hr] at h
      norm_num at h)
  have h4 := (hon 4).2 (Or.inl rfl)
  rcases hcase with ⟨-, hno⟩ | ⟨t, ht, hpos, rfl, -, hmin⟩
  · exact absurd (hno 4 h4 (by norm_num)) (hc 4)
  · rcases (hon t).1 ht with rfl | rfl
    · rw [hres, hitAt_on s (by rw [hr]; norm_num) _ _ h4]
      have e : s.avoidPole (Ray.project ⟨⟨0, 0, 5⟩, ⟨0, 0, -1⟩⟩ 4) = ⟨1 / 10 ^ 5, 0, 1⟩ := by
        unfold avoidPole Ray.project
        rw [hr]
        simp only [V3.add_x, V3.add_y, V3.add_z, V3.scale_x, V3.scale_y, V3.scale_z]
        norm_num
      rw [e]
      have : phiOf (1 / 10 ^ 5) 0 = 0 := by
        unfold phiOf
        have : (⟨1 / 10 ^ 5, 0⟩ : ℂ) = ((1 / 10 ^ 5 : ℝ) : ℂ) := rfl
        rw [this, Complex.arg_ofReal_of_nonneg (by norm_num)]
        simp
      rw [this]
    · exact absurd (hmin 4 h4 (by norm_num) (by norm_num)) (hc 4)

/-- C70, violated near the axis: a ray straight down the axis of a sphere of radius one is told that it meets the sphere at
a point that is neither on the ray nor on the sphere. -/
theorem C70_violated_pole : ∃ s, new 1 0 = .ok s ∧
    s.simpleIntersect ⟨⟨0, 0, 5⟩, ⟨0, 0, -1⟩⟩ = .ok (some ⟨1 / 10 ^ 5, 0, 1⟩) ∧
    ¬ Spec.Around 1 0 ⟨1 / 10 ^ 5, 0, 1⟩ ∧
    ∀ t, Ray.project ⟨⟨0, 0, 5⟩, ⟨0, 0, -1⟩⟩ t ≠ (⟨1 / 10 ^ 5, 0, 1⟩ : V3 ℝ) := by
  obtain ⟨s, hs, -⟩ := C70_world 1 0 one_pos (fun _ => rfl)
  refine ⟨s, hs, ?_, ?_, ?_⟩
  · unfold simpleIntersect
    rw [(whole s hs).2.2.2.2.2]
    have hinv : Transform.new.invRay ⟨⟨0, 0, 5⟩, ⟨0, 0, -1⟩⟩ = (⟨⟨0, 0, 5⟩, ⟨0, 0, -1⟩⟩ : Ray ℝ) := by
      simp [Transform.invRay, Transform.new, Transform.invPt, Transform.invVec, Transform.mulPoint, Transform.mulVec, V3.div]
    simp only [hinv, pole_hit s hs]
    rfl
  · unfold Spec.Around
    norm_num
  · intro t h
    have := congrArg V3.x h
    norm_num [Ray.project] at this

/-- C70, violated at the pole: asked for the details of the same intersection, the code panics. -/
theorem C70_violated_pole_panic : ∃ s, new 1 0 = .ok s ∧ s.intersect ⟨⟨0, 0, 5⟩, ⟨0, 0, -1⟩⟩ = .panic := by
  obtain ⟨s, hs, -⟩ := C70_world 1 0 one_pos (fun _ => rfl)
  refine ⟨s, hs, ?_⟩
  unfold intersect
  rw [(whole s hs).2.2.2.2.2]
  unfold intersectLocalRay
  rw [pole_hit s hs]
  unfold intersectionInfo
  rw [(whole s hs).1]
  have h4 : Real.sin (Real.arccos (clampReal (1 / 1) (-1) 1)) = 0 := by norm_num [clampReal]
  simp only [Outcome.bind, h4, if_true]
  rfl

/-- C70: the normal.  At a point of the sphere away from the poles, the normal is along the radius and against the ray,
and the side is the front one exactly when the ray comes from outside.  (The last hypothesis is the precision of
`normalize`: the sphere is not tiny, nor is the part of it.) -/
theorem C70_normal (s : Sphere) (ray : Ray ℝ) (p : V3 ℝ) (hr : 0 < s.radius)
    (hp : p.x ^ 2 + p.y ^ 2 + p.z ^ 2 = s.radius ^ 2) (hphi : 0 < s.phiMax) (hth : 0 < s.deltaTheta)
    (hbig : 1 / 10 ^ 10 < s.phiMax * s.deltaTheta * s.radius * Real.sqrt (p.x ^ 2 + p.y ^ 2)) :
    ∃ i, s.intersectionInfo ray p = .ok i ∧ i.p = p ∧
      (p.dot ray.direction < 0 → i.side = .front ∧ i.normal = p.scale (1 / s.radius)) ∧
      (0 < p.dot ray.direction → i.side = .back ∧ i.normal = p.scale (-(1 / s.radius))) ∧
      (p.dot ray.direction = 0 → i.side = .nonApplicable) := by
  obtain ⟨x, y, z⟩ := p
  simp only at hp hbig
  set ρ := Real.sqrt (x ^ 2 + y ^ 2) with hρ
  have hρ0 : 0 < ρ := by
    have : 0 < s.phiMax * s.deltaTheta * s.radius * ρ := lt_trans (by norm_num) hbig
    exact (pos_iff_pos_of_mul_pos this).1 (by positivity)
  have hρ2 : ρ ^ 2 = x ^ 2 + y ^ 2 := Real.sq_sqrt (by positivity)
  have hz := on_range hr (show On s.radius ⟨x, y, z⟩ from hp)
  simp only at hz
  have hcl : clampReal (z / s.radius) (-1) 1 = z / s.radius := by
    apply clamp_self
    · rw [le_div_iff₀ hr]; linarith
    · rw [div_le_iff₀ hr]; linarith
  have hsin : Real.sin (Real.arccos (z / s.radius)) = ρ / s.radius := by
    rw [Real.sin_arccos]
    have : 1 - (z / s.radius) ^ 2 = (ρ / s.radius) ^ 2 := by
      field_simp
      linarith
    rw [this, Real.sqrt_sq (by positivity)]
  have hcross : (V3.scale ⟨z * (x * (1 / s.radius / (ρ / s.radius))), z * (y * (1 / s.radius / (ρ / s.radius))),
        -s.radius * (ρ / s.radius)⟩ s.deltaTheta).cross ⟨-s.phiMax * y, s.phiMax * x, 0⟩
      = (⟨x, y, z⟩ : V3 ℝ).scale (s.deltaTheta * s.phiMax * ρ) := by
    have hr' := hr.ne'
    have hρ' := hρ0.ne'
    ext
    · simp only [V3.cross_x, V3.scale_x, V3.scale_y, V3.scale_z]
      field_simp
      ring
    · simp only [V3.cross_y, V3.scale_x, V3.scale_y, V3.scale_z]
      field_simp
      ring
    · simp only [V3.cross_z, V3.scale_x, V3.scale_y, V3.scale_z]
      field_simp
      linear_combination (-z) * hρ2
  have hk : 0 < s.deltaTheta * s.phiMax * ρ := by positivity
  have hnorm : ((⟨x, y, z⟩ : V3 ℝ).scale (s.deltaTheta * s.phiMax * ρ)).normalize = .ok ((⟨x, y, z⟩ : V3 ℝ).scale (1 / s.radius)) := by
    have hl : ((⟨x, y, z⟩ : V3 ℝ).scale (s.deltaTheta * s.phiMax * ρ)).lengthSquared = (s.deltaTheta * s.phiMax * ρ * s.radius) ^ 2 := by
      unfold V3.lengthSquared
      simp only [V3.scale_x, V3.scale_y, V3.scale_z]
      rw [mul_pow (s.deltaTheta * s.phiMax * ρ) s.radius, ← hp]
      ring
    unfold V3.normalize
    rw [hl, if_pos, Real.sqrt_sq (by positivity)]
    · congr 1
      have hr' := hr.ne'
      have hk' := hk.ne'
      ext <;> simp only [V3.scale_x, V3.scale_y, V3.scale_z] <;> field_simp
    · have : 1 / 10 ^ 10 < s.deltaTheta * s.phiMax * ρ * s.radius := by linarith
      have h2 : (1 / 10 ^ 10 : ℝ) ^ 2 < (s.deltaTheta * s.phiMax * ρ * s.radius) ^ 2 :=
        pow_lt_pow_left₀ this (by norm_num) (by norm_num)
      rw [gt_iff_lt]
      refine lt_of_eq_of_lt ?_ h2
      norm_num
  unfold intersectionInfo HitInfo.new
  simp only [hcl, hsin]
  rw [if_neg (by positivity), hcross, hnorm]
  refine ⟨_, rfl, rfl, ?_, ?_, ?_⟩
  all_goals
    intro h
    unfold Side.get
    have hdot : ((⟨x, y, z⟩ : V3 ℝ).scale (1 / s.radius)).dot ray.direction
        = (⟨x, y, z⟩ : V3 ℝ).dot ray.direction / s.radius := by
      unfold V3.dot
      simp only [V3.scale_x, V3.scale_y, V3.scale_z]
      ring
    simp only [hdot]
  · rw [if_pos (div_neg_of_neg_of_pos h hr)]
    exact ⟨rfl, rfl⟩
  · rw [if_neg (not_lt.2 (div_pos h hr).le), if_pos (div_pos h hr)]
    refine ⟨rfl, ?_⟩
    ext <;> simp
  · rw [h, zero_div, if_neg (lt_irrefl _), if_neg (lt_irrefl _)]

/-- The hypotheses of `C70_normal` are met at the equator of the sphere of radius one. -/
theorem example_equator : ∃ s, new 1 0 = .ok s ∧ s.radius = 1 ∧ (1 : ℝ) ^ 2 + 0 ^ 2 + 0 ^ 2 = s.radius ^ 2 ∧ 0 < s.phiMax ∧ 0 < s.deltaTheta ∧
    1 / 10 ^ 10 < s.phiMax * s.deltaTheta * s.radius * Real.sqrt (1 ^ 2 + 0 ^ 2) := by
  obtain ⟨s, hs, -⟩ := C70_world 1 0 one_pos (fun _ => rfl)
  obtain ⟨h1, -, -, h2, h3, -⟩ := whole s hs
  have hpi := Real.two_le_pi
  refine ⟨s, hs, h1, by rw [h1]; norm_num, by rw [h2]; positivity, by rw [h3]; positivity, ?_⟩
  rw [h1, h2, h3]
  norm_num
  nlinarith

/-- C70: the box.  Every point of the part of the sphere is inside the bounds. -/
theorem C70_bounds (radius zmin zmax phi : ℝ) (t : Option (Transform ℝ)) (hr : 0 < radius) (hz : zmin ≤ zmax)
    (h1 : zmin ≤ radius) (h2 : -radius ≤ zmax) (hphi : 0 ≤ phi) (hphi' : phi ≤ 360) :
    ∃ s, newPartialTransformed radius zmin zmax phi t = .ok s ∧
      ∀ p, Spec.Patch radius zmin zmax (phi * (Real.pi / 180)) p → BBox.Spec.Mem s.bounds p := by
  obtain ⟨s, hs, rfl, e1, e2, e3, -⟩ := construct t hr hz hphi hphi'
  refine ⟨s, hs, ?_⟩
  rintro p ⟨hon, hp1, hp2, -⟩
  have hz' := on_range hr (show On s.radius p from hon)
  unfold bounds BBox.new
  rw [BBox.getMinsMaxs_eq]
  have hx : -s.radius ≤ p.x ∧ p.x ≤ s.radius := by
    constructor <;> nlinarith [sq_nonneg p.y, sq_nonneg p.z]
  have hy : -s.radius ≤ p.y ∧ p.y ≤ s.radius := by
    constructor <;> nlinarith [sq_nonneg p.x, sq_nonneg p.z]
  have hlo : s.zmin ≤ p.z := by
    rw [e1]
    unfold clampReal
    split_ifs
    · exact hz'.1
    · linarith
    · exact hp1
  have hhi : p.z ≤ s.zmax := by
    rw [e2]
    unfold clampReal
    split_ifs
    · linarith
    · exact hz'.2
    · exact hp2
  exact ⟨⟨(min_le_left _ _).trans hx.1, hx.2.trans (le_max_right _ _)⟩,
    ⟨(min_le_left _ _).trans hy.1, hy.2.trans (le_max_right _ _)⟩,
    (min_le_left _ _).trans hlo, hhi.trans (le_max_right _ _)⟩

end Simple.Geometry.Sphere
