import Verif.Geometry.ShapeProps

/-! # C72: rays, planes and disks -/

namespace Simple.Geometry

namespace Plane

namespace Spec

/-- The points of the plane through a point, perpendicular to a vector. -/
def Points (point normal p : V3 ℝ) : Prop := normal.dot (p - point) = 0

end Spec

private theorem normalize_inv {v n : V3 ℝ} (h : v.normalize = .ok n) :
    n.lengthSquared = 1 ∧ ∃ k, 0 < k ∧ n = v.scale k := by
  unfold V3.normalize at h
  by_cases hl : v.lengthSquared > 1 / 10 ^ 20
  · rw [if_pos hl] at h
    have hpos : 0 < v.lengthSquared := lt_trans (by norm_num) hl
    have e := Outcome.ok.inj h
    have hs := Real.sqrt_pos.2 hpos
    refine ⟨?_, 1 / Real.sqrt v.lengthSquared, by positivity, e.symm⟩
    rw [← e]
    have h2 : Real.sqrt v.lengthSquared ^ 2 = v.lengthSquared := Real.sq_sqrt hpos.le
    have : (v.scale (1 / Real.sqrt v.lengthSquared)).lengthSquared = v.lengthSquared / Real.sqrt v.lengthSquared ^ 2 := by
      unfold V3.lengthSquared
      simp only [V3.scale_x, V3.scale_y, V3.scale_z]
      ring
    rw [this, h2, div_self hpos.ne']
  · rw [if_neg hl] at h
    cases h

theorem unit_of_normalize {v n : V3 ℝ} (h : v.normalize = .ok n) :
    n.lengthSquared = 1 ∧ ∃ k, 0 < k ∧ n = v.scale k := normalize_inv h

theorem normalize_unit {n : V3 ℝ} (h : n.lengthSquared = 1) : n.normalize = .ok n := by
  unfold V3.normalize
  rw [h, if_pos (by norm_num)]
  congr 1
  ext <;> simp

/-- C72: a plane made from a point and a normal.  Unless the ray is parallel to the plane (to the precision of the code),
the number returned is that of the only point of the ray in the plane, and nothing is returned exactly when that point is
behind the origin of the ray.  The point tested is in the plane when its distance to it is less than the precision. -/
theorem C72_plane (point normal : V3 ℝ) (pl : Plane) (h : new point normal = .ok pl) :
    (∀ ray : Ray ℝ, eps ≤ |pl.normal.dot ray.direction| →
      (∀ t, pl.intersect ray = some t ↔ 0 ≤ t ∧ Spec.Points point normal (ray.project t)) ∧
      (pl.intersect ray = none ↔ ∀ t, 0 ≤ t → ¬ Spec.Points point normal (ray.project t))) ∧
    (∀ ray : Ray ℝ, |pl.normal.dot ray.direction| < eps → pl.intersect ray = none) ∧
    ∀ p, pl.testPoint p = true ↔ |(p - point).dot pl.normal| < eps := by
  unfold new at h
  cases hn : normal.normalize with
  | err => rw [hn] at h; cases h
  | panic => rw [hn] at h; cases h
  | ok n =>
    rw [hn] at h
    have e := Outcome.ok.inj h
    subst e
    obtain ⟨hu, k, hk, hnk⟩ := normalize_inv hn
    have hd : ∀ p : V3 ℝ, normal.dot (p - point) = 0 ↔ n.dot p - n.dot point = 0 := by
      intro p
      have : n.dot p - n.dot point = k * normal.dot (p - point) := by
        rw [hnk]
        unfold V3.dot
        simp only [V3.scale_x, V3.scale_y, V3.scale_z, V3.sub_x, V3.sub_y, V3.sub_z]
        ring
      rw [this, mul_eq_zero]
      exact ⟨Or.inr, fun h => h.resolve_left hk.ne'⟩
    refine ⟨fun ray hden => ?_, fun ray hden => ?_, fun p => ?_⟩
    · have he : (0 : ℝ) < eps := by unfold eps; positivity
      simp only at hden
      have hden0 : n.dot ray.direction ≠ 0 := by
        intro h0
        rw [h0, abs_zero] at hden
        linarith
      have hproj : ∀ t, Spec.Points point normal (ray.project t) ↔ t = (n.dot point - n.dot ray.origin) / n.dot ray.direction := by
        intro t
        unfold Spec.Points
        rw [hd, eq_div_iff hden0]
        have : n.dot (ray.project t) = n.dot ray.origin + t * n.dot ray.direction := by
          unfold V3.dot Ray.project
          simp only [V3.scale_x, V3.scale_y, V3.scale_z, V3.add_x, V3.add_y, V3.add_z]
          ring
        rw [this]
        constructor <;> intro h <;> linarith
      unfold intersect
      simp only
      rw [if_neg (not_lt.2 hden)]
      by_cases hneg : (n.dot point - n.dot ray.origin) / n.dot ray.direction < 0
      · rw [if_pos hneg]
        constructor
        · intro t
          rw [hproj]
          constructor
          · intro h; cases h
          · rintro ⟨h0, rfl⟩; linarith
        · simp only [true_iff]
          intro t ht hp
          rw [hproj] at hp
          rw [hp] at ht
          linarith
      · rw [if_neg hneg]
        constructor
        · intro t
          rw [hproj, Option.some.injEq]
          constructor
          · rintro rfl; exact ⟨not_lt.1 hneg, rfl⟩
          · rintro ⟨_, rfl⟩; rfl
        · simp only [reduceCtorEq, false_iff]
          intro hall
          exact hall _ (not_lt.1 hneg) ((hproj _).2 rfl)
    · unfold intersect
      simp only
      rw [if_pos hden]
    · unfold testPoint
      simp only [decide_eq_true_eq]
      have : n.dot p - n.dot point = (p - point).dot n := by
        unfold V3.dot
        simp only [V3.sub_x, V3.sub_y, V3.sub_z]
        ring
      rw [this]

end Plane

namespace Disk

open Shape (phiOf_spec sector_iff clamp_self radians_range)

namespace Spec

/-- The vectors `n` and `e` are the normal given and the zero of the angles given, made unitary and perpendicular without
turning the normal, nor the zero other than towards the plane. -/
def Axes (normal phiZero n e : V3 ℝ) : Prop :=
  n.lengthSquared = 1 ∧ e.lengthSquared = 1 ∧ n.dot e = 0 ∧ (∃ k, 0 < k ∧ n = normal.scale k) ∧
    ∃ k m, 0 < k ∧ phiZero = e.scale k + n.scale m

/-- The points of a disk: in the plane, between the radii, and at an angle, counterclockwise as seen from the end of the
normal, between zero and `M`. -/
def Patch (centre n e : V3 ℝ) (radius innerRadius M : ℝ) (p : V3 ℝ) : Prop :=
  n.dot (p - centre) = 0 ∧ innerRadius ^ 2 ≤ (p - centre).lengthSquared ∧ (p - centre).lengthSquared ≤ radius ^ 2 ∧
    Shape.Spec.Sector M ((p - centre).dot e) ((p - centre).dot (n.cross e))

end Spec

private theorem construct {centre normal : V3 ℝ} {radius innerRadius : ℝ} {phiZero : V3 ℝ} {phi : ℝ}
    {t : Option (Transform ℝ)} {s : Disk} (h : newDetailed centre normal radius innerRadius phiZero phi t = .ok s) :
    Spec.Axes normal phiZero s.normal s.phiZero ∧ s.centre = centre ∧ s.radius = radius ∧
      s.innerRadius = innerRadius ∧ s.phiMax = clampReal phi 0 360 * (Real.pi / 180) ∧ s.transform = t ∧
      0 ≤ innerRadius ∧ innerRadius < radius := by
  unfold newDetailed at h
  cases hn : normal.normalize with
  | err => rw [hn] at h; cases h
  | panic => rw [hn] at h; cases h
  | ok n =>
    rw [hn] at h
    simp only [Outcome.bind] at h
    by_cases hp : n.isParallel phiZero = true
    · rw [if_pos hp] at h; cases h
    · rw [if_neg hp] at h
      cases he : (phiZero - n.scale (n.dot phiZero)).normalize with
      | err => rw [he] at h; cases h
      | panic => rw [he] at h; cases h
      | ok e =>
        rw [he] at h
        simp only at h
        by_cases h1 : radius ≤ innerRadius
        · rw [if_pos h1] at h; cases h
        · rw [if_neg h1] at h
          by_cases h2 : radius < 0
          · rw [if_pos h2] at h; cases h
          · rw [if_neg h2] at h
            by_cases h3 : innerRadius < 0
            · rw [if_pos h3] at h; cases h
            · rw [if_neg h3] at h
              have hs := Outcome.ok.inj h
              subst hs
              obtain ⟨u1, k1, hk1, e1⟩ := Plane.unit_of_normalize hn
              obtain ⟨u2, k2, hk2, e2⟩ := Plane.unit_of_normalize he
              refine ⟨⟨u1, u2, ?_, ⟨k1, hk1, e1⟩, 1 / k2, n.dot phiZero, by positivity, ?_⟩, rfl, rfl, rfl, rfl, rfl,
                not_lt.1 h3, not_le.1 h1⟩
              · simp only
                rw [e2]
                unfold V3.lengthSquared at u1
                unfold V3.dot
                simp only [V3.scale_x, V3.scale_y, V3.scale_z, V3.sub_x, V3.sub_y, V3.sub_z]
                linear_combination (-k2 * (n.x * phiZero.x + n.y * phiZero.y + n.z * phiZero.z)) * u1
              · simp only
                rw [e2]
                ext
                · simp only [V3.scale_x, V3.add_x, V3.sub_x]
                  field_simp
                  ring
                · simp only [V3.scale_y, V3.add_y, V3.sub_y]
                  field_simp
                  ring
                · simp only [V3.scale_z, V3.add_z, V3.sub_z]
                  field_simp
                  ring

/-- C72: a disk, for rays that do not start in its plane and are not parallel to it (to the precision of the code): the
intersection returned is the first point of the part of the disk that the ray meets after leaving its origin, and there is
none exactly when the ray does not meet it.

Missing: rays that start in the plane of the disk or are parallel to it (`C72_violated_leaving`). -/
theorem C72_disk_partial (centre normal : V3 ℝ) (radius innerRadius : ℝ) (phiZero : V3 ℝ) (phi : ℝ) (t : Option (Transform ℝ))
    (s : Disk) (h : newDetailed centre normal radius innerRadius phiZero phi t = .ok s) (h0 : 0 ≤ phi) (h1 : phi ≤ 360) :
    ∃ n e, Spec.Axes normal phiZero n e ∧
      ∀ ray : Ray ℝ, eps ≤ |n.dot ray.direction| → n.dot (ray.origin - centre) ≠ 0 →
        ∃ res, s.basicIntersection ray = .ok res ∧
          Shape.Spec.FirstHit ray (Spec.Patch centre n e radius innerRadius (phi * (Real.pi / 180)))
            (res.map fun h => h.1) := by
  obtain ⟨hax, e1, e2, e3, e4, -, hin, hlt⟩ := construct h
  refine ⟨s.normal, s.phiZero, hax, fun ray hden horig => ?_⟩
  obtain ⟨hu, -⟩ := hax
  rw [clamp_self h0 h1] at e4
  unfold basicIntersection
  have hpl : Plane.new s.centre s.normal = .ok ⟨s.normal, s.normal.dot s.centre⟩ := by
    unfold Plane.new
    rw [Plane.normalize_unit hu]
    rfl
  obtain ⟨hcase, -, -⟩ := Plane.C72_plane s.centre s.normal _ hpl
  obtain ⟨hsome, hnone⟩ := hcase ray hden
  rw [hpl]
  simp only [Outcome.bind]
  subst e1 e2 e3
  cases ht : (⟨s.normal, s.normal.dot s.centre⟩ : Plane).intersect ray with
  | none =>
    exact ⟨none, rfl, fun u hu' hp => hnone.1 ht u hu'.le hp.1⟩
  | some u =>
    obtain ⟨hu0, hplane⟩ := (hsome u).1 ht
    have hupos : 0 < u := by
      rcases hu0.lt_or_eq with h | h
      · exact h
      · exfalso
        apply horig
        have : ray.project u = ray.origin := by
          rw [← h]
          ext <;> simp [Ray.project]
        rw [this] at hplane
        exact hplane
    have huniq : ∀ u', 0 < u' → s.normal.dot (ray.project u' - s.centre) = 0 → u' = u := by
      intro u' h' hp
      have := (hsome u').2 ⟨h'.le, hp⟩
      rw [ht] at this
      exact (Option.some.inj this).symm
    have hy : ∀ r : V3 ℝ, (-r).dot (s.phiZero.cross s.normal) = r.dot (s.normal.cross s.phiZero) := by
      intro r
      unfold V3.dot
      simp only [V3.neg_x, V3.neg_y, V3.neg_z, V3.cross_x, V3.cross_y, V3.cross_z]
      ring
    simp only [hy]
    have hpatch : ∀ p, s.normal.dot (p - s.centre) = 0 →
        (Spec.Patch s.centre s.normal s.phiZero s.radius s.innerRadius (phi * (Real.pi / 180)) p ↔
          ¬ ((p - s.centre).lengthSquared > s.radius * s.radius ∨
            (p - s.centre).lengthSquared < s.innerRadius * s.innerRadius) ∧
          ¬ phiOf ((p - s.centre).dot s.phiZero) ((p - s.centre).dot (s.normal.cross s.phiZero)) > s.phiMax) := by
      intro p hp
      unfold Spec.Patch
      rw [sector_iff (radians_range h0 h1).1, e4, not_or, not_lt, not_lt, not_lt, ← sq, ← sq]
      tauto
    by_cases hr : (ray.project u - s.centre).lengthSquared > s.radius * s.radius ∨
        (ray.project u - s.centre).lengthSquared < s.innerRadius * s.innerRadius
    · rw [if_pos hr]
      refine ⟨none, rfl, fun u' hu' hp => ?_⟩
      have := huniq u' hu' hp.1
      subst this
      exact ((hpatch _ hp.1).1 hp).1 hr
    · rw [if_neg hr]
      by_cases hphi : phiOf ((ray.project u - s.centre).dot s.phiZero)
          ((ray.project u - s.centre).dot (s.normal.cross s.phiZero)) > s.phiMax
      · rw [if_pos hphi]
        refine ⟨none, rfl, fun u' hu' hp => ?_⟩
        have := huniq u' hu' hp.1
        subst this
        exact ((hpatch _ hp.1).1 hp).2 hphi
      · rw [if_neg hphi]
        refine ⟨_, rfl, u, hupos, rfl, (hpatch _ hplane).2 ⟨hr, hphi⟩, fun u' hu' hlt' hp => ?_⟩
        exact absurd (huniq u' hu' hp.1) hlt'.ne

/-- A disk that can be made: a half of a ring around the third axis. -/
example : ∃ s, newDetailed 0 ⟨0, 0, 1⟩ 2 1 ⟨1, 0, 0⟩ 180 none = .ok s := by
  unfold newDetailed
  rw [Plane.normalize_unit (by norm_num [V3.lengthSquared])]
  simp only [Outcome.bind]
  rw [if_neg (by norm_num [V3.isParallel, V3.isZero, V3.tiny, V3.dot, V3.lengthSquared])]
  have : (⟨1, 0, 0⟩ : V3 ℝ) - V3.scale ⟨0, 0, 1⟩ (V3.dot ⟨0, 0, 1⟩ ⟨1, 0, 0⟩) = ⟨1, 0, 0⟩ := by
    ext <;> simp [V3.dot]
  rw [this, Plane.normalize_unit (by norm_num [V3.lengthSquared])]
  simp only
  rw [if_neg (by norm_num), if_neg (by norm_num), if_neg (by norm_num)]
  exact ⟨_, rfl⟩

/-- C72, violated for rays that start in the plane: unlike for spheres and cylinders, a ray that leaves a disk meets the
disk it has just left. -/
theorem C72_violated_leaving : ∃ s, newDetailed 0 ⟨0, 0, 1⟩ 2 0 ⟨1, 0, 0⟩ 360 none = .ok s ∧
    s.basicIntersection ⟨⟨1, 0, 0⟩, ⟨0, 0, 1⟩⟩ = .ok (some (⟨1, 0, 0⟩, 0)) ∧
    Shape.Spec.FirstHit ⟨⟨1, 0, 0⟩, ⟨0, 0, 1⟩⟩
      (Spec.Patch 0 ⟨0, 0, 1⟩ ⟨1, 0, 0⟩ 2 0 (360 * (Real.pi / 180))) none := by
  have hmk : newDetailed 0 ⟨0, 0, 1⟩ 2 0 ⟨1, 0, 0⟩ 360 none
      = .ok ⟨0, ⟨0, 0, 1⟩, 2, 0, ⟨1, 0, 0⟩, 360 * (Real.pi / 180), none⟩ := by
    unfold newDetailed
    rw [Plane.normalize_unit (by norm_num [V3.lengthSquared])]
    simp only [Outcome.bind]
    rw [if_neg (by norm_num [V3.isParallel, V3.isZero, V3.tiny, V3.dot, V3.lengthSquared])]
    have : (⟨1, 0, 0⟩ : V3 ℝ) - V3.scale ⟨0, 0, 1⟩ (V3.dot ⟨0, 0, 1⟩ ⟨1, 0, 0⟩) = ⟨1, 0, 0⟩ := by
      ext <;> simp [V3.dot]
    rw [this, Plane.normalize_unit (by norm_num [V3.lengthSquared])]
    simp only
    rw [if_neg (by norm_num), if_neg (by norm_num), if_neg (by norm_num), clamp_self (by norm_num) (by norm_num)]
  refine ⟨_, hmk, ?_, ?_⟩
  · unfold basicIntersection Plane.new
    rw [Plane.normalize_unit (by norm_num [V3.lengthSquared])]
    have hi : (⟨⟨0, 0, 1⟩, V3.dot ⟨0, 0, 1⟩ 0⟩ : Plane).intersect ⟨⟨1, 0, 0⟩, ⟨0, 0, 1⟩⟩ = some 0 := by
      have hpl : Plane.new 0 ⟨0, 0, 1⟩ = .ok ⟨⟨0, 0, 1⟩, V3.dot ⟨0, 0, 1⟩ 0⟩ := by
        unfold Plane.new
        rw [Plane.normalize_unit (by norm_num [V3.lengthSquared])]
        rfl
      refine (((Plane.C72_plane _ _ _ hpl).1 _ ?_).1 0).2 ⟨le_refl _, ?_⟩
      · norm_num [V3.dot, eps]
      · norm_num [Plane.Spec.Points, V3.dot, Ray.project]
    simp only [Outcome.bind, hi]
    have hp : Ray.project ⟨⟨1, 0, 0⟩, ⟨0, 0, 1⟩⟩ (0 : ℝ) = ⟨1, 0, 0⟩ := by ext <;> simp [Ray.project]
    have hphi : phiOf 1 0 = 0 := by
      unfold phiOf
      have : (⟨1, 0⟩ : ℂ) = 1 := rfl
      rw [this]
      simp
    simp only [hp, V3.lengthSquared, V3.dot, V3.sub_x, V3.sub_y, V3.sub_z, V3.neg_x, V3.neg_y, V3.neg_z, V3.cross_x,
      V3.cross_y, V3.cross_z, V3.zero_x, V3.zero_y, V3.zero_z]
    norm_num [hphi]
    intro h
    have := Real.pi_pos
    linarith
  · intro u hu hp
    have := hp.1
    simp [V3.dot, Ray.project] at this
    exact hu.ne' this

end Disk

end Simple.Geometry
