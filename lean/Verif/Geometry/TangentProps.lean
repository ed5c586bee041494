import Mathlib.Analysis.SpecialFunctions.Trigonometric.Deriv
import Verif.Geometry.CylinderProps
import Verif.Geometry.DiskProps
import Verif.Geometry.SphereProps
import Verif.Geometry.TangentModel
import Verif.Geometry.TriangleProps

/-! # C113: coordinates, tangents and normals where a ray meets a surface -/

namespace Simple.Geometry

namespace Tangent.Spec

/-- The point moves with this velocity. -/
structure Moves (f : ℝ → V3 ℝ) (t : ℝ) (d : V3 ℝ) : Prop where
  x : HasDerivAt (fun t => (f t).x) d.x t
  y : HasDerivAt (fun t => (f t).y) d.y t
  z : HasDerivAt (fun t => (f t).z) d.z t

/-- The point that is told is the one with the coordinates that are told, and the tangents are the velocities along them. -/
structure Told (surface : ℝ → ℝ → V3 ℝ) (d : Detail) : Prop where
  point : d.info.p = surface d.u d.v
  along_u : Moves (fun u => surface u d.v) d.u d.info.dpdu
  along_v : Moves (fun v => surface d.u v) d.v d.info.dpdv

/-- The normal that is told is that of the point, and it changes along the coordinates as is told. -/
structure Turns (normal : ℝ → ℝ → V3 ℝ) (d : Detail) : Prop where
  here : d.info.normal = normal d.u d.v
  along_u : Moves (fun u => normal u d.v) d.u d.dndu
  along_v : Moves (fun v => normal d.u v) d.v d.dndv

/-- The points of a part of a sphere, by longitude and by latitude from above, each as a fraction of its range. -/
noncomputable def globe (radius phiMax thetaMin deltaTheta u v : ℝ) : V3 ℝ :=
  ⟨radius * Real.sin (thetaMin + v * deltaTheta) * Real.cos (u * phiMax), radius * Real.sin (thetaMin + v * deltaTheta) * Real.sin (u * phiMax),
    radius * Real.cos (thetaMin + v * deltaTheta)⟩

/-- The points of a part of a cylinder, by angle and by height. -/
noncomputable def tube (radius phiMax zmin zmax u v : ℝ) : V3 ℝ :=
  ⟨radius * Real.cos (u * phiMax), radius * Real.sin (u * phiMax), zmin + v * (zmax - zmin)⟩

/-- The direction away from the axis of a cylinder. -/
noncomputable def outward (phiMax u : ℝ) : V3 ℝ := ⟨Real.cos (u * phiMax), Real.sin (u * phiMax), 0⟩

/-- The points of a part of a ring, by angle and from the outside to the inside. -/
noncomputable def ring (centre normal phiZero : V3 ℝ) (radius innerRadius phiMax u v : ℝ) : V3 ℝ :=
  centre + (phiZero.scale (Real.cos (u * phiMax)) + (normal.cross phiZero).scale (Real.sin (u * phiMax))).scale (radius - v * (radius - innerRadius))

end Tangent.Spec

open Tangent.Spec

private theorem moves_scale {f : ℝ → V3 ℝ} {t : ℝ} {d : V3 ℝ} (h : Moves f t d) (k : ℝ) : Moves (fun t => (f t).scale k) t (d.scale k) :=
  ⟨h.x.mul_const k, h.y.mul_const k, h.z.mul_const k⟩

private theorem turn (k m t : ℝ) : HasDerivAt (fun u => k * Real.cos (u * m)) (k * (-Real.sin (t * m) * m)) t ∧
    HasDerivAt (fun u => k * Real.sin (u * m)) (k * (Real.cos (t * m) * m)) t := by
  have h : HasDerivAt (fun u : ℝ => u * m) m t := by simpa using (hasDerivAt_id t).mul_const m
  exact ⟨(h.cos).const_mul k, (h.sin).const_mul k⟩

private theorem globe_u (r m a w u v : ℝ) : Moves (fun u => globe r m a w u v) u ⟨-m * (globe r m a w u v).y, m * (globe r m a w u v).x, 0⟩ := by
  obtain ⟨h1, h2⟩ := turn (r * Real.sin (a + v * w)) m u
  refine ⟨h1.congr_deriv ?_, h2.congr_deriv ?_, hasDerivAt_const _ _⟩
  · simp only [globe]; ring
  · simp only [globe]; ring

private theorem globe_v (r m a w u v : ℝ) : Moves (fun v => globe r m a w u v) v
    ((⟨r * Real.cos (a + v * w) * Real.cos (u * m), r * Real.cos (a + v * w) * Real.sin (u * m), -r * Real.sin (a + v * w)⟩ : V3 ℝ).scale w) := by
  have h : HasDerivAt (fun v : ℝ => a + v * w) w v := by simpa using ((hasDerivAt_id v).mul_const w).const_add a
  refine ⟨?_, ?_, ?_⟩
  · refine (((h.sin).const_mul r).mul_const (Real.cos (u * m))).congr_deriv ?_
    simp only [V3.scale_x]; ring
  · refine (((h.sin).const_mul r).mul_const (Real.sin (u * m))).congr_deriv ?_
    simp only [V3.scale_y]; ring
  · refine ((h.cos).const_mul r).congr_deriv ?_
    simp only [V3.scale_z]; ring

private theorem info_new {ray : Ray ℝ} {p du dv : V3 ℝ} {i : HitInfo} (h : HitInfo.new ray p du dv = .ok i) : i.p = p ∧ i.dpdu = du ∧ i.dpdv = dv := by
  unfold HitInfo.new at h
  cases hn : (dv.cross du).normalize with
  | ok n =>
    rw [hn] at h
    have := Outcome.ok.inj h
    rw [← this]
    exact ⟨rfl, rfl, rfl⟩
  | err => rw [hn] at h; cases h
  | panic => rw [hn] at h; cases h

/-- C113, spheres: where a ray meets a part of a sphere, away from the poles and not as a tangent, the coordinates are those of the point, the
tangents are its velocities along them, and the normal is that of the sphere on the side of the ray and changes along them as is told. -/
theorem C113_sphere (s : Sphere) (ray : Ray ℝ) (p : V3 ℝ) (hr : 0 < s.radius) (hp : p.x ^ 2 + p.y ^ 2 + p.z ^ 2 = s.radius ^ 2) (hphi : 0 < s.phiMax)
    (hth : 0 < s.deltaTheta) (hbig : 1 / 10 ^ 10 < s.phiMax * s.deltaTheta * s.radius * Real.sqrt (p.x ^ 2 + p.y ^ 2))
    (hdir : p.dot ray.direction ≠ 0) :
    ∃ d, s.detail ray p (phiOf p.x p.y) = .ok d ∧ d.info.p = p ∧ Told (globe s.radius s.phiMax s.thetaMin s.deltaTheta) d ∧
      ∃ side : ℝ, (side = 1 ∨ side = -1) ∧ side * p.dot ray.direction < 0 ∧
        Turns (fun u v => (globe s.radius s.phiMax s.thetaMin s.deltaTheta u v).scale (side / s.radius)) d := by
  obtain ⟨i, hi, hip, hfront, hback, -⟩ := Sphere.C70_normal s ray p hr hp hphi hth hbig
  obtain ⟨-, -, hx, hy⟩ := Shape.phiOf_spec p.x p.y
  obtain ⟨x, y, z⟩ := p
  simp only at hp hbig hx hy hi hip hfront hback ⊢
  set ρ := Real.sqrt (x ^ 2 + y ^ 2) with hρ
  have hρ0 : 0 < ρ := by
    have : 0 < s.phiMax * s.deltaTheta * s.radius * ρ := lt_trans (by norm_num) hbig
    exact (pos_iff_pos_of_mul_pos this).1 (by positivity)
  have hρ2 : ρ ^ 2 = x ^ 2 + y ^ 2 := Real.sq_sqrt (by positivity)
  have hz1 : -s.radius ≤ z := by nlinarith [sq_nonneg x, sq_nonneg y]
  have hz2 : z ≤ s.radius := by nlinarith [sq_nonneg x, sq_nonneg y]
  have hcl : clampReal (z / s.radius) (-1) 1 = z / s.radius := by
    apply Shape.clamp_self
    · rw [le_div_iff₀ hr]; linarith
    · rw [div_le_iff₀ hr]; linarith
  have hsin : Real.sin (Real.arccos (z / s.radius)) = ρ / s.radius := by
    rw [Real.sin_arccos]
    have : 1 - (z / s.radius) ^ 2 = (ρ / s.radius) ^ 2 := by
      field_simp
      linarith
    rw [this, Real.sqrt_sq (by positivity)]
  have hcos : Real.cos (Real.arccos (z / s.radius)) = z / s.radius :=
    Real.cos_arccos (by rw [le_div_iff₀ hr]; linarith) (by rw [div_le_iff₀ hr]; linarith)
  set φ := phiOf x y with hφ
  set θ := Real.arccos (z / s.radius) with hθ
  have hu : φ / s.phiMax * s.phiMax = φ := by field_simp
  have hv : s.thetaMin + (θ - s.thetaMin) / s.deltaTheta * s.deltaTheta = θ := by field_simp; ring
  have hg : globe s.radius s.phiMax s.thetaMin s.deltaTheta (φ / s.phiMax) ((θ - s.thetaMin) / s.deltaTheta) = ⟨x, y, z⟩ := by
    unfold globe
    rw [hu, hv, hsin, hcos]
    have hr' := hr.ne'
    ext
    · simp only
      rw [mul_div_cancel₀ _ hr', ← hx]
    · simp only
      rw [mul_div_cancel₀ _ hr', ← hy]
    · simp only
      field_simp
  have hr' := hr.ne'
  have hρ' := hρ0.ne'
  have hcp : x * (1 / s.radius / (ρ / s.radius)) = Real.cos φ := by
    conv_lhs => rw [hx]
    field_simp
  have hsp : y * (1 / s.radius / (ρ / s.radius)) = Real.sin φ := by
    conv_lhs => rw [hy]
    field_simp
  unfold Sphere.intersectionInfo at hi
  dsimp only at hi
  rw [hcl, hsin, if_neg (by positivity), hcp, hsp] at hi
  obtain ⟨-, e1, e2⟩ := info_new hi
  have hdet : s.detail ray ⟨x, y, z⟩ φ = Detail.new ray ⟨x, y, z⟩ (φ / s.phiMax) ((θ - s.thetaMin) / s.deltaTheta)
      ⟨-s.phiMax * y, s.phiMax * x, 0⟩ ((⟨z * Real.cos φ, z * Real.sin φ, -s.radius * (ρ / s.radius)⟩ : V3 ℝ).scale s.deltaTheta)
      ((⟨x, y, 0⟩ : V3 ℝ).scale (-s.phiMax * s.phiMax)) ((⟨x, y, z⟩ : V3 ℝ).scale (-s.deltaTheta * s.deltaTheta))
      ((⟨-Real.sin φ, Real.cos φ, 0⟩ : V3 ℝ).scale (s.deltaTheta * z * s.phiMax)) := by
    unfold Sphere.detail
    dsimp only
    rw [hcl, ← hθ, hsin, if_neg (by positivity), hcp, hsp]
  rw [hdet]
  unfold Detail.new
  rw [hi]
  refine ⟨_, rfl, hip, ⟨?_, ?_, ?_⟩, ?_⟩
  · rw [hip]; exact hg.symm
  · dsimp only
    have := globe_u s.radius s.phiMax s.thetaMin s.deltaTheta (φ / s.phiMax) ((θ - s.thetaMin) / s.deltaTheta)
    rw [hg] at this
    rw [e1]
    exact this
  · dsimp only
    have := globe_v s.radius s.phiMax s.thetaMin s.deltaTheta (φ / s.phiMax) ((θ - s.thetaMin) / s.deltaTheta)
    rw [hu, hv, hsin, hcos, mul_div_cancel₀ _ hr'] at this
    rw [e2]
    exact this
  · have key : ∀ side : ℝ, side ^ 2 = 1 → i.normal = (⟨x, y, z⟩ : V3 ℝ).scale (side / s.radius) →
        Turns (fun u v => (globe s.radius s.phiMax s.thetaMin s.deltaTheta u v).scale (side / s.radius)) (Detail.mk i (φ / s.phiMax) ((θ - s.thetaMin) / s.deltaTheta)
          ((⟨-s.phiMax * y, s.phiMax * x, 0⟩ : V3 ℝ).scale (side / s.radius))
          (((⟨z * Real.cos φ, z * Real.sin φ, -s.radius * (ρ / s.radius)⟩ : V3 ℝ).scale s.deltaTheta).scale (side / s.radius))) := by
      intro side _ hn
      refine ⟨?_, ?_, ?_⟩
      · rw [hn]; dsimp only; rw [hg]
      · dsimp only
        have := globe_u s.radius s.phiMax s.thetaMin s.deltaTheta (φ / s.phiMax) ((θ - s.thetaMin) / s.deltaTheta)
        rw [hg] at this
        exact moves_scale this _
      · dsimp only
        have := globe_v s.radius s.phiMax s.thetaMin s.deltaTheta (φ / s.phiMax) ((θ - s.thetaMin) / s.deltaTheta)
        rw [hu, hv, hsin, hcos, mul_div_cancel₀ _ hr'] at this
        exact moves_scale this _
    have hxc : x = ρ * Real.cos φ := hx
    have hyc : y = ρ * Real.sin φ := hy
    have hsc := Real.sin_sq_add_cos_sq φ
    have hzr : z ^ 2 + ρ ^ 2 = s.radius ^ 2 := by rw [hρ2]; linarith
    have same : ∀ side : ℝ, i.normal = (⟨x, y, z⟩ : V3 ℝ).scale (side / s.radius) →
        ∀ (du dv : V3 ℝ), du = ⟨-s.phiMax * y, s.phiMax * x, 0⟩ →
        dv = (⟨z * Real.cos φ, z * Real.sin φ, -s.radius * (ρ / s.radius)⟩ : V3 ℝ).scale s.deltaTheta →
        du.dot du = s.phiMax ^ 2 * ρ ^ 2 ∧ du.dot dv = 0 ∧ dv.dot dv = s.deltaTheta ^ 2 * s.radius ^ 2 ∧
        i.normal.dot ((⟨x, y, 0⟩ : V3 ℝ).scale (-s.phiMax * s.phiMax)) = -(s.phiMax ^ 2 * ρ ^ 2) * (side / s.radius) ∧
        i.normal.dot ((⟨-Real.sin φ, Real.cos φ, 0⟩ : V3 ℝ).scale (s.deltaTheta * z * s.phiMax)) = 0 ∧
        i.normal.dot ((⟨x, y, z⟩ : V3 ℝ).scale (-s.deltaTheta * s.deltaTheta)) = -(s.deltaTheta ^ 2 * s.radius ^ 2) * (side / s.radius) := by
      intro side hn du dv hdu hdv
      rw [hn, hdu, hdv]
      simp only [V3.dot, V3.scale]
      have hρr : s.radius * (ρ / s.radius) = ρ := mul_div_cancel₀ _ hr'
      refine ⟨?_, ?_, ?_, ?_, ?_, ?_⟩
      · rw [hρ2]; ring
      · rw [hxc, hyc]; ring
      · have : -s.radius * (ρ / s.radius) = -ρ := by rw [neg_mul, hρr]
        rw [this]
        linear_combination s.deltaTheta ^ 2 * hzr + s.deltaTheta ^ 2 * z ^ 2 * hsc
      · rw [hρ2]; ring
      · rw [hxc, hyc]; ring
      · rw [← hp]; ring
    have hm : 0 < s.phiMax ^ 2 * ρ ^ 2 := by positivity
    have hw : 0 < s.deltaTheta ^ 2 * s.radius ^ 2 := by positivity
    have fin : ∀ side : ℝ, side ^ 2 = 1 → i.normal = (⟨x, y, z⟩ : V3 ℝ).scale (side / s.radius) → side * (⟨x, y, z⟩ : V3 ℝ).dot ray.direction < 0 →
        ∀ d : Detail, d.info = i → d.u = φ / s.phiMax → d.v = (θ - s.thetaMin) / s.deltaTheta →
        d.dndu = (⟨-s.phiMax * y, s.phiMax * x, 0⟩ : V3 ℝ).scale (side / s.radius) →
        d.dndv = ((⟨z * Real.cos φ, z * Real.sin φ, -s.radius * (ρ / s.radius)⟩ : V3 ℝ).scale s.deltaTheta).scale (side / s.radius) →
        Turns (fun u v => (globe s.radius s.phiMax s.thetaMin s.deltaTheta u v).scale (side / s.radius)) d := by
      intro side h1 h2 _ d g1 g2 g3 g4 g5
      obtain ⟨di, du, dv, dnu, dnv⟩ := d
      simp only at g1 g2 g3 g4 g5
      subst g1 g2 g3 g4 g5
      exact key side h1 h2
    have hE : ∀ a b c : ℝ, a ≠ 0 → b ≠ 0 → (0 * 0 - -a * c * b) * (1 / (a * b - 0 * 0)) = c := by
      intro a b c ha hb
      field_simp
      ring
    have hG : ∀ a b c : ℝ, a ≠ 0 → b ≠ 0 → (0 * 0 - -b * c * a) * (1 / (a * b - 0 * 0)) = c := by
      intro a b c ha hb
      field_simp
      ring
    rcases lt_or_gt_of_ne hdir with h | h
    · have h3 : (1 : ℝ) * (⟨x, y, z⟩ : V3 ℝ).dot ray.direction < 0 := by rw [one_mul]; exact h
      have h2 : i.normal = (⟨x, y, z⟩ : V3 ℝ).scale (1 / s.radius) := (hfront h).2
      refine ⟨1, .inl rfl, h3, fin 1 (by norm_num) h2 h3 _ rfl rfl rfl ?_ ?_⟩
      · obtain ⟨k1, k2, k3, k4, k5, -⟩ := same 1 h2 _ _ rfl rfl
        simp only [k1, k2, k3, k4, k5, hE _ _ _ hm.ne' hw.ne']
        ext <;> simp
      · obtain ⟨k1, k2, k3, -, k5, k6⟩ := same 1 h2 _ _ rfl rfl
        simp only [k1, k2, k3, k5, k6, hG _ _ _ hm.ne' hw.ne']
        ext <;> simp
    · have h3 : (-1 : ℝ) * (⟨x, y, z⟩ : V3 ℝ).dot ray.direction < 0 := by
        have : 0 < (⟨x, y, z⟩ : V3 ℝ).dot ray.direction := h
        linarith
      have h2 : i.normal = (⟨x, y, z⟩ : V3 ℝ).scale ((-1) / s.radius) := (hback h).2.trans (by rw [neg_div])
      refine ⟨(-1), .inr rfl, h3, fin (-1) (by norm_num) h2 h3 _ rfl rfl rfl ?_ ?_⟩
      · obtain ⟨k1, k2, k3, k4, k5, -⟩ := same (-1) h2 _ _ rfl rfl
        simp only [k1, k2, k3, k4, k5, hE _ _ _ hm.ne' hw.ne']
        ext <;> simp
      · obtain ⟨k1, k2, k3, -, k5, k6⟩ := same (-1) h2 _ _ rfl rfl
        simp only [k1, k2, k3, k5, k6, hG _ _ _ hm.ne' hw.ne']
        ext <;> simp

/-- A ray that meets the unit sphere as above. -/
example : ∃ d, (⟨1, -1, 1, 2 * Real.pi, Real.pi, 0, none⟩ : Sphere).detail ⟨⟨2, 0, 0⟩, ⟨-1, 0, 0⟩⟩ ⟨1, 0, 0⟩ (phiOf 1 0) = .ok d := by
  have hpi := Real.two_le_pi
  obtain ⟨d, hd, -⟩ := C113_sphere ⟨1, -1, 1, 2 * Real.pi, Real.pi, 0, none⟩ ⟨⟨2, 0, 0⟩, ⟨-1, 0, 0⟩⟩ ⟨1, 0, 0⟩ (by norm_num) (by norm_num)
    (by simp only; linarith) (by simp only; linarith) (by
      have : Real.sqrt ((1 : ℝ) ^ 2 + 0 ^ 2) = 1 := by norm_num
      simp only [this]
      nlinarith) (by norm_num [V3.dot])
  exact ⟨d, hd⟩

private theorem tube_u (r m a b u v : ℝ) : Moves (fun u => tube r m a b u v) u ⟨-m * (tube r m a b u v).y, m * (tube r m a b u v).x, 0⟩ := by
  obtain ⟨h1, h2⟩ := turn r m u
  refine ⟨h1.congr_deriv ?_, h2.congr_deriv ?_, hasDerivAt_const _ _⟩
  · simp only [tube]; ring
  · simp only [tube]; ring

private theorem tube_v (r m a b u v : ℝ) : Moves (fun v => tube r m a b u v) v ⟨0, 0, b - a⟩ := by
  refine ⟨hasDerivAt_const _ _, hasDerivAt_const _ _, ?_⟩
  have := ((hasDerivAt_id v).mul_const (b - a)).const_add a
  rw [one_mul] at this
  exact this

/-- C113, cylinders: where a ray meets a part of a cylinder, not as a tangent, the coordinates are those of the point, the tangents are its
velocities along them, and the normal is that of the cylinder on the side of the ray and changes along them as is told. -/
theorem C113_cylinder (c : Cylinder) (ray : Ray ℝ) (p : V3 ℝ) (hr : 0 < c.radius) (hp : p.x ^ 2 + p.y ^ 2 = c.radius ^ 2) (hphi : 0 < c.phiMax)
    (hbig : 1 / 10 ^ 10 < c.phiMax * (c.zmax - c.zmin) * c.radius) (hdir : p.x * ray.direction.x + p.y * ray.direction.y ≠ 0) :
    ∃ d, c.detail ray p (phiOf p.x p.y) = .ok d ∧ d.info.p = p ∧ Told (tube c.radius c.phiMax c.zmin c.zmax) d ∧
      ∃ side : ℝ, (side = 1 ∨ side = -1) ∧ side * (p.x * ray.direction.x + p.y * ray.direction.y) < 0 ∧
        Turns (fun u _ => (outward c.phiMax u).scale side) d := by
  obtain ⟨i, hi, hip, hfront, hback⟩ := Cylinder.C71_normal c ray p hr hp hbig
  obtain ⟨-, -, hx, hy⟩ := Shape.phiOf_spec p.x p.y
  obtain ⟨x, y, z⟩ := p
  simp only at hp hx hy hi hip hfront hback hdir ⊢
  rw [hp, Real.sqrt_sq hr.le] at hx hy
  have hh : 0 < c.zmax - c.zmin := by
    have h0 : 0 < c.phiMax * (c.zmax - c.zmin) * c.radius := lt_trans (by norm_num) hbig
    have h1 : 0 < c.phiMax * (c.zmax - c.zmin) := (pos_iff_pos_of_mul_pos h0).2 hr
    exact (pos_iff_pos_of_mul_pos h1).1 hphi
  set φ := phiOf x y with hφ
  have hr' := hr.ne'
  have hu : φ / c.phiMax * c.phiMax = φ := by field_simp
  have hv : c.zmin + (z - c.zmin) / (c.zmax - c.zmin) * (c.zmax - c.zmin) = z := by field_simp; ring
  have hg : tube c.radius c.phiMax c.zmin c.zmax (φ / c.phiMax) ((z - c.zmin) / (c.zmax - c.zmin)) = ⟨x, y, z⟩ := by
    unfold tube
    rw [hu, hv, ← hx, ← hy]
  have ho : outward c.phiMax (φ / c.phiMax) = ⟨x / c.radius, y / c.radius, 0⟩ := by
    unfold outward
    rw [hu]
    ext
    · simp only; rw [eq_div_iff hr', mul_comm]; exact hx.symm
    · simp only; rw [eq_div_iff hr', mul_comm]; exact hy.symm
    · rfl
  have hou : Moves (fun u => outward c.phiMax u) (φ / c.phiMax) ((⟨-c.phiMax * y, c.phiMax * x, 0⟩ : V3 ℝ).scale (1 / c.radius)) := by
    obtain ⟨h1, h2⟩ := turn 1 c.phiMax (φ / c.phiMax)
    simp only [one_mul] at h1 h2
    rw [hu] at h1 h2
    refine ⟨h1.congr_deriv ?_, h2.congr_deriv ?_, (hasDerivAt_const _ _).congr_deriv (by simp)⟩
    · rw [V3.scale_x]
      simp only
      conv_rhs => rw [hy]
      field_simp
    · rw [V3.scale_y]
      simp only
      conv_rhs => rw [hx]
      field_simp
  unfold Cylinder.intersectionInfo at hi
  obtain ⟨-, e1, e2⟩ := info_new hi
  unfold Cylinder.detail
  dsimp only
  unfold Detail.new
  rw [hi]
  have fin : ∀ side : ℝ, i.normal = (⟨x / c.radius, y / c.radius, 0⟩ : V3 ℝ).scale side →
      ∀ d : Detail, d.info = i → d.u = φ / c.phiMax → d.dndu = (⟨-c.phiMax * y, c.phiMax * x, 0⟩ : V3 ℝ).scale (side / c.radius) → d.dndv = 0 →
      Turns (fun u _ => (outward c.phiMax u).scale side) d := by
    intro side h1 d g1 g2 g3 g4
    refine ⟨?_, ?_, ?_⟩
    · rw [g1, h1, g2, ho]
    · rw [g2, g3]
      have := moves_scale hou side
      have e : ((⟨-c.phiMax * y, c.phiMax * x, 0⟩ : V3 ℝ).scale (1 / c.radius)).scale side = (⟨-c.phiMax * y, c.phiMax * x, 0⟩ : V3 ℝ).scale (side / c.radius) := by
        ext <;> simp only [V3.scale] <;> ring
      rw [e] at this
      exact this
    · rw [g4]
      exact ⟨hasDerivAt_const _ _, hasDerivAt_const _ _, hasDerivAt_const _ _⟩
  have hm : 0 < c.phiMax ^ 2 * c.radius ^ 2 := by positivity
  have hw : 0 < (c.zmax - c.zmin) ^ 2 := by positivity
  have same : ∀ side : ℝ, i.normal = (⟨x / c.radius, y / c.radius, 0⟩ : V3 ℝ).scale side →
      ∀ (du dv : V3 ℝ), du = ⟨-c.phiMax * y, c.phiMax * x, 0⟩ → dv = ⟨0, 0, c.zmax - c.zmin⟩ →
      du.dot du = c.phiMax ^ 2 * c.radius ^ 2 ∧ du.dot dv = 0 ∧ dv.dot dv = (c.zmax - c.zmin) ^ 2 ∧
      i.normal.dot ((⟨x, y, 0⟩ : V3 ℝ).scale (-c.phiMax * c.phiMax)) = -(c.phiMax ^ 2 * c.radius ^ 2) * (side / c.radius) ∧
      i.normal.dot 0 = 0 := by
    intro side hn du dv hdu hdv
    rw [hn, hdu, hdv, ← hp]
    simp only [V3.dot, V3.scale]
    refine ⟨by ring, by ring, by ring, ?_, by simp⟩
    field_simp
    ring
  have hE : ∀ a b k : ℝ, a ≠ 0 → b ≠ 0 → (0 * 0 - -a * k * b) * (1 / (a * b - 0 * 0)) = k := by
    intro a b k ha hb
    field_simp
    ring
  refine ⟨_, rfl, hip, ⟨?_, ?_, ?_⟩, ?_⟩
  · rw [hip]; exact hg.symm
  · dsimp only
    have := tube_u c.radius c.phiMax c.zmin c.zmax (φ / c.phiMax) ((z - c.zmin) / (c.zmax - c.zmin))
    rw [hg] at this
    rw [e1]
    exact this
  · dsimp only
    rw [e2]
    exact tube_v _ _ _ _ _ _
  · rcases lt_or_gt_of_ne hdir with h | h
    · have h2 : i.normal = (⟨x / c.radius, y / c.radius, 0⟩ : V3 ℝ).scale 1 := by
        rw [(hfront h).2]; ext <;> simp
      refine ⟨1, .inl rfl, by rw [one_mul]; exact h, fin 1 h2 _ rfl rfl ?_ ?_⟩
      · obtain ⟨k1, k2, k3, k4, k5⟩ := same 1 h2 _ _ rfl rfl
        simp only [k1, k2, k3, k4, k5, hE _ _ _ hm.ne' hw.ne']
        ext <;> simp
      · obtain ⟨k1, k2, k3, k4, k5⟩ := same 1 h2 _ _ rfl rfl
        simp only [k2, k5]
        ext <;> simp
    · have h2 : i.normal = (⟨x / c.radius, y / c.radius, 0⟩ : V3 ℝ).scale (-1) := by
        rw [(hback h).2]; ext <;> simp
      refine ⟨-1, .inr rfl, by have : 0 < x * ray.direction.x + y * ray.direction.y := h
                               linarith, fin (-1) h2 _ rfl rfl ?_ ?_⟩
      · obtain ⟨k1, k2, k3, k4, k5⟩ := same (-1) h2 _ _ rfl rfl
        simp only [k1, k2, k3, k4, k5, hE _ _ _ hm.ne' hw.ne']
        ext <;> simp
      · obtain ⟨k1, k2, k3, k4, k5⟩ := same (-1) h2 _ _ rfl rfl
        simp only [k2, k5]
        ext <;> simp

/-- C113, triangles: of a ray that meets a triangle, the point told is the one at the coordinates that were found, the first of which is told, and
the tangents are its velocities along them.  The normal is perpendicular to both, against the ray, and does not change.  What is missing is the second
coordinate. -/
theorem C113_triangle_partial (tr : Triangle ℝ) (ray : Ray ℝ) (p : V3 ℝ) (u v : ℝ) (h : Triangle.intersectTriangle ray tr.a tr.b tr.c = some (p, u, v)) (d : Detail)
    (hd : tr.detail ray (p, u, v) = .ok d) :
    d.info.p = p ∧ p = Triangle.Spec.at_ tr u v ∧ d.u = u ∧ Moves (fun u => Triangle.Spec.at_ tr u v) u d.info.dpdu ∧
      Moves (fun v => Triangle.Spec.at_ tr u v) v d.info.dpdv ∧ d.info.normal.lengthSquared = 1 ∧ d.info.normal.dot (tr.b - tr.a) = 0 ∧
      d.info.normal.dot (tr.c - tr.a) = 0 ∧ d.info.normal.dot ray.direction < 0 ∧ d.dndu = 0 ∧ d.dndv = 0 := by
  obtain ⟨-, hp, -⟩ := Triangle.C44_geometry_partial ray tr p u v h
  have hD : (tr.b - tr.a).dot (ray.direction.cross (tr.c - tr.a)) ≠ 0 := by
    intro h0
    unfold Triangle.intersectTriangle at h
    dsimp only at h
    rw [h0, if_pos (by norm_num [V3.tiny])] at h
    cases h
  unfold Triangle.detail at hd
  dsimp only at hd
  cases hn : ((tr.b - tr.a).cross (tr.c - tr.a)).normalize with
  | err => rw [hn] at hd; cases hd
  | panic => rw [hn] at hd; cases hd
  | ok n =>
    rw [hn] at hd
    have e := Outcome.ok.inj hd
    obtain ⟨h1, k, hk, hnk⟩ := Plane.unit_of_normalize hn
    have hx := congrArg V3.x hnk
    have hy := congrArg V3.y hnk
    have hz := congrArg V3.z hnk
    simp only [V3.scale_x, V3.scale_y, V3.scale_z, V3.cross_x, V3.cross_y, V3.cross_z] at hx hy hz
    have p1 : n.dot (tr.b - tr.a) = 0 := by
      unfold V3.dot; rw [hx, hy, hz]; ring
    have p2 : n.dot (tr.c - tr.a) = 0 := by
      unfold V3.dot; rw [hx, hy, hz]; ring
    have p3 : n.dot ray.direction = -(k * (tr.b - tr.a).dot (ray.direction.cross (tr.c - tr.a))) := by
      unfold V3.dot; simp only [V3.cross_x, V3.cross_y, V3.cross_z]; rw [hx, hy, hz]; ring
    have p4 : n.dot ray.direction ≠ 0 := by
      rw [p3]
      exact neg_ne_zero.2 (mul_ne_zero hk.ne' hD)
    have mu : Moves (fun u => Triangle.Spec.at_ tr u v) u (tr.b - tr.a) := by
      have := hasDerivAt_id u
      refine ⟨?_, ?_, ?_⟩
      · simpa [Triangle.Spec.at_] using (((this.const_mul (tr.b.x - tr.a.x)).const_add tr.a.x).add_const ((tr.c.x - tr.a.x) * v))
      · simpa [Triangle.Spec.at_] using (((this.const_mul (tr.b.y - tr.a.y)).const_add tr.a.y).add_const ((tr.c.y - tr.a.y) * v))
      · simpa [Triangle.Spec.at_] using (((this.const_mul (tr.b.z - tr.a.z)).const_add tr.a.z).add_const ((tr.c.z - tr.a.z) * v))
    have mv : Moves (fun v => Triangle.Spec.at_ tr u v) v (tr.c - tr.a) := by
      have := hasDerivAt_id v
      refine ⟨?_, ?_, ?_⟩
      · simpa [Triangle.Spec.at_] using (this.const_mul (tr.c.x - tr.a.x)).const_add (tr.a.x + (tr.b.x - tr.a.x) * u)
      · simpa [Triangle.Spec.at_] using (this.const_mul (tr.c.y - tr.a.y)).const_add (tr.a.y + (tr.b.y - tr.a.y) * u)
      · simpa [Triangle.Spec.at_] using (this.const_mul (tr.c.z - tr.a.z)).const_add (tr.a.z + (tr.b.z - tr.a.z) * u)
    rw [← e]
    refine ⟨rfl, hp, rfl, mu, mv, ?_⟩
    unfold Side.get
    dsimp only
    rcases lt_or_gt_of_ne p4 with h | h
    · rw [if_pos h]
      exact ⟨h1, p1, p2, h, rfl, rfl⟩
    · have h' : 0 < n.dot ray.direction := h
      rw [if_neg (not_lt.2 h'.le), if_pos h']
      have hneg : ∀ w : V3 ℝ, (n.scale (-1)).dot w = -n.dot w := by
        intro w; unfold V3.dot; simp only [V3.scale_x, V3.scale_y, V3.scale_z]; ring
      refine ⟨?_, ?_, ?_, ?_, rfl, rfl⟩
      · refine Eq.trans ?_ h1; unfold V3.lengthSquared; simp only [V3.scale_x, V3.scale_y, V3.scale_z]; ring
      · rw [hneg, p1, neg_zero]
      · rw [hneg, p2, neg_zero]
      · rw [hneg]; linarith

private theorem triangle_case : Triangle.intersectTriangle (⟨⟨1 / 4, 1 / 2, 1⟩, ⟨0, 0, -1⟩⟩ : Ray ℝ) ⟨0, 0, 0⟩ ⟨1, 0, 0⟩ ⟨0, 1, 0⟩ = some (⟨1 / 4, 1 / 2, 0⟩, 1 / 4, 1 / 2) ∧
    (⟨⟨0, 0, 0⟩, ⟨1, 0, 0⟩, ⟨0, 1, 0⟩⟩ : Triangle ℝ).detail ⟨⟨1 / 4, 1 / 2, 1⟩, ⟨0, 0, -1⟩⟩ (⟨1 / 4, 1 / 2, 0⟩, 1 / 4, 1 / 2)
      = .ok ⟨⟨⟨1 / 4, 1 / 2, 0⟩, ⟨0, 0, 1⟩, .front, ⟨1, 0, 0⟩, ⟨0, 1, 0⟩⟩, 1 / 4, 1 / 4, 0, 0⟩ := by
  constructor
  · unfold Triangle.intersectTriangle
    norm_num [V3.cross, V3.dot, V3.tiny, Ray.project]
    ext <;> norm_num
  · unfold Triangle.detail
    have h1 : (⟨1, 0, 0⟩ : V3 ℝ) - ⟨0, 0, 0⟩ = ⟨1, 0, 0⟩ := by ext <;> simp
    have h2 : (⟨0, 1, 0⟩ : V3 ℝ) - ⟨0, 0, 0⟩ = ⟨0, 1, 0⟩ := by ext <;> simp
    have h3 : (⟨1, 0, 0⟩ : V3 ℝ).cross ⟨0, 1, 0⟩ = ⟨0, 0, 1⟩ := by ext <;> simp
    dsimp only
    rw [h1, h2, h3, Plane.normalize_unit (by norm_num [V3.lengthSquared])]
    simp [Outcome.bind, Side.get, V3.dot]

/-- C113 is violated by triangles: the second coordinate that is told is the first one, so that a ray into a triangle is told a point
at other coordinates than its own. -/
theorem C113_violated_triangle : ∃ (tr : Triangle ℝ) (ray : Ray ℝ) (p : V3 ℝ) (u v : ℝ) (d : Detail),
    Triangle.intersectTriangle ray tr.a tr.b tr.c = some (p, u, v) ∧ tr.detail ray (p, u, v) = .ok d ∧ d.v ≠ v ∧ d.info.p ≠ Triangle.Spec.at_ tr d.u d.v := by
  refine ⟨⟨⟨0, 0, 0⟩, ⟨1, 0, 0⟩, ⟨0, 1, 0⟩⟩, ⟨⟨1 / 4, 1 / 2, 1⟩, ⟨0, 0, -1⟩⟩, _, _, _, _, triangle_case.1, triangle_case.2, by norm_num, fun h => ?_⟩
  have := congrArg V3.y h
  norm_num [Triangle.Spec.at_] at this

private theorem in_plane {n e r : V3 ℝ} (hn : n.lengthSquared = 1) (he : e.lengthSquared = 1) (hne : n.dot e = 0) (hr : n.dot r = 0) :
    r = e.scale (r.dot e) + (n.cross e).scale (r.dot (n.cross e)) := by
  obtain ⟨n1, n2, n3⟩ := n
  obtain ⟨e1, e2, e3⟩ := e
  obtain ⟨x, y, z⟩ := r
  simp only [V3.lengthSquared, V3.dot] at hn he hne hr
  -- the cross product of two vectors of the plane is along the normal
  set c1 := y * e3 - z * e2 with hc1
  set c2 := z * e1 - x * e3 with hc2
  set c3 := x * e2 - y * e1 with hc3
  have k1 : n2 * c3 - n3 * c2 = 0 := by rw [hc2, hc3]; linear_combination x * hne - e1 * hr
  have k2 : n3 * c1 - n1 * c3 = 0 := by rw [hc1, hc3]; linear_combination y * hne - e2 * hr
  have k3 : n1 * c2 - n2 * c1 = 0 := by rw [hc1, hc2]; linear_combination z * hne - e3 * hr
  set q := n1 * c1 + n2 * c2 + n3 * c3 with hq
  have m1 : c1 = n1 * q := by rw [hq]; linear_combination (-c1) * hn + n3 * k2 - n2 * k3
  have m2 : c2 = n2 * q := by rw [hq]; linear_combination (-c2) * hn + n1 * k3 - n3 * k1
  have m3 : c3 = n3 * q := by rw [hq]; linear_combination (-c3) * hn + n2 * k1 - n1 * k2
  have hyq : x * (n2 * e3 - n3 * e2) + y * (n3 * e1 - n1 * e3) + z * (n1 * e2 - n2 * e1) = -q := by
    rw [hq, hc1, hc2, hc3]; ring
  ext
  · simp only [V3.add_x, V3.scale_x, V3.cross_x, V3.dot, V3.cross_y, V3.cross_z]
    rw [hyq]
    linear_combination (-x) * he + e2 * (hc3.symm.trans m3) - e3 * (hc2.symm.trans m2)
  · simp only [V3.add_y, V3.scale_y, V3.cross_x, V3.dot, V3.cross_y, V3.cross_z]
    rw [hyq]
    linear_combination (-y) * he + e3 * (hc1.symm.trans m1) - e1 * (hc3.symm.trans m3)
  · simp only [V3.add_z, V3.scale_z, V3.cross_x, V3.dot, V3.cross_y, V3.cross_z]
    rw [hyq]
    linear_combination (-z) * he + e1 * (hc2.symm.trans m2) - e2 * (hc1.symm.trans m1)

private theorem turned (r n e : V3 ℝ) : (-r).dot (e.cross n) = r.dot (n.cross e) := by
  unfold V3.dot
  simp only [V3.neg_x, V3.neg_y, V3.neg_z, V3.cross_x, V3.cross_y, V3.cross_z]
  ring

/-- C113, disks: the coordinates told at a point of a disk other than its centre are those of the point, and the normal is that of the disk, against the ray, and
does not change.  The tangents are in the plane, but how much the first departs from the circle is as given: they are the velocities only where that is zero.  What
is missing is that the tangents are the velocities. -/
theorem C113_disk_partial (s : Disk) (ray : Ray ℝ) (p : V3 ℝ) (hn : s.normal.lengthSquared = 1) (he : s.phiZero.lengthSquared = 1)
    (hne : s.normal.dot s.phiZero = 0) (hplane : s.normal.dot (p - s.centre) = 0) (hphi : 0 < s.phiMax) (hr : s.innerRadius < s.radius)
    (hp : 0 < (p - s.centre).lengthSquared) (hdir : s.normal.dot ray.direction ≠ 0) (d : Detail)
    (hd : s.detail ray p (phiOf ((p - s.centre).dot s.phiZero) ((p - s.centre).dot (s.normal.cross s.phiZero))) = d) :
    d.info.p = p ∧ p = ring s.centre s.normal s.phiZero s.radius s.innerRadius s.phiMax d.u d.v ∧ 0 ≤ d.u ∧ d.u * s.phiMax < 2 * Real.pi ∧
      (d.info.normal = s.normal ∨ d.info.normal = s.normal.scale (-1)) ∧ d.info.normal.dot ray.direction < 0 ∧ d.dndu = 0 ∧ d.dndv = 0 ∧
      s.normal.dot d.info.dpdu = 0 ∧ s.normal.dot d.info.dpdv = 0 ∧
      d.info.dpdu.dot (p - s.centre) = (p - s.centre).dot s.phiZero * (p - s.centre).dot (s.normal.cross s.phiZero) *
        ((s.radius - s.innerRadius) / (p - s.centre).length - 1) := by
  have hpl := in_plane hn he hne hplane
  set r := p - s.centre with hrdef
  set x := r.dot s.phiZero with hx
  set y := r.dot (s.normal.cross s.phiZero) with hy
  obtain ⟨f1, f2, f3, f4⟩ := Shape.phiOf_spec x y
  have hmm : (s.normal.cross s.phiZero).dot (s.normal.cross s.phiZero) = 1 := by
    have : (s.normal.cross s.phiZero).dot (s.normal.cross s.phiZero) = s.normal.lengthSquared * s.phiZero.lengthSquared - s.normal.dot s.phiZero ^ 2 := by
      unfold V3.dot V3.lengthSquared
      simp only [V3.cross_x, V3.cross_y, V3.cross_z]
      ring
    rw [this, hn, he, hne]; norm_num
  have hlen : r.lengthSquared = x ^ 2 + y ^ 2 := by
    have h1 : r.lengthSquared = r.dot r := by unfold V3.lengthSquared V3.dot; ring
    have h2 : r.dot r = r.dot (s.phiZero.scale x + (s.normal.cross s.phiZero).scale y) := by rw [← hpl]
    rw [h1, h2]
    have h3 : r.dot (s.phiZero.scale x + (s.normal.cross s.phiZero).scale y) = x * r.dot s.phiZero + y * r.dot (s.normal.cross s.phiZero) := by
      unfold V3.dot
      simp only [V3.add_x, V3.add_y, V3.add_z, V3.scale_x, V3.scale_y, V3.scale_z]
      ring
    rw [h3, ← hx, ← hy]
    ring
  have hl : r.length = Real.sqrt (x ^ 2 + y ^ 2) := by unfold V3.length; rw [hlen]
  have hl0 : 0 < r.length := by rw [hl, Real.sqrt_pos, ← hlen]; exact hp
  rw [← hl] at f3 f4
  have hw : 0 < s.radius - s.innerRadius := by linarith
  have hu : phiOf x y / s.phiMax * s.phiMax = phiOf x y := by field_simp
  have hv : s.radius - (s.radius - r.length) / (s.radius - s.innerRadius) * (s.radius - s.innerRadius) = r.length := by field_simp; ring
  unfold Disk.detail at hd
  dsimp only at hd
  rw [← hrdef, turned, ← hx, ← hy] at hd
  have hnz : ∀ a b : ℝ, s.normal.dot (s.phiZero.scale a + (s.phiZero.cross s.normal).scale b) = 0 := by
    intro a b
    have : s.normal.dot (s.phiZero.scale a + (s.phiZero.cross s.normal).scale b) = a * s.normal.dot s.phiZero := by
      unfold V3.dot
      simp only [V3.add_x, V3.add_y, V3.add_z, V3.scale_x, V3.scale_y, V3.scale_z, V3.cross_x, V3.cross_y, V3.cross_z]
      ring
    rw [this, hne, mul_zero]
  subst hd
  refine ⟨rfl, ?_, div_nonneg f1 hphi.le, by dsimp only; rw [hu]; exact f2, ?_, ?_, rfl, rfl, hnz _ _, hnz _ _, ?_⟩
  · dsimp only
    unfold ring
    rw [hu, hv]
    have hpc : p = s.centre + r := by rw [hrdef]; ext <;> simp
    rw [hpc]
    conv_lhs => rw [hpl]
    congr 1
    ext
    · simp only [V3.add_x, V3.scale_x]
      linear_combination s.phiZero.x * f3 + (s.normal.cross s.phiZero).x * f4
    · simp only [V3.add_y, V3.scale_y]
      linear_combination s.phiZero.y * f3 + (s.normal.cross s.phiZero).y * f4
    · simp only [V3.add_z, V3.scale_z]
      linear_combination s.phiZero.z * f3 + (s.normal.cross s.phiZero).z * f4
  · dsimp only
    unfold Side.get
    dsimp only
    rcases lt_or_gt_of_ne hdir with h | h
    · rw [if_pos h]; exact .inl rfl
    · rw [if_neg (not_lt.2 (le_of_lt h)), if_pos h]; exact .inr rfl
  · dsimp only
    unfold Side.get
    dsimp only
    rcases lt_or_gt_of_ne hdir with h | h
    · rw [if_pos h]; exact h
    · rw [if_neg (not_lt.2 (le_of_lt h)), if_pos h]
      have hneg : (s.normal.scale (-1)).dot ray.direction = -s.normal.dot ray.direction := by
        unfold V3.dot; simp only [V3.scale_x, V3.scale_y, V3.scale_z]; ring
      have h' : 0 < s.normal.dot ray.direction := h
      simp only
      rw [hneg]; linarith
  · dsimp only
    have : ∀ a b : ℝ, (s.phiZero.scale a + (s.phiZero.cross s.normal).scale b).dot r = a * x - b * y := by
      intro a b
      rw [hx, hy]
      unfold V3.dot
      simp only [V3.add_x, V3.add_y, V3.add_z, V3.scale_x, V3.scale_y, V3.scale_z, V3.cross_x, V3.cross_y, V3.cross_z]
      ring
    rw [this]
    field_simp
    ring

/-- A point of a ring that meets the hypotheses. -/
example : ∃ d : Detail, d.info.p = (⟨1, 1, 0⟩ : V3 ℝ) ∧ d.info.dpdu.dot (⟨1, 1, 0⟩ : V3 ℝ) = (2 - 1) / (⟨1, 1, 0⟩ : V3 ℝ).length - 1 := by
  have hz : (⟨1, 1, 0⟩ : V3 ℝ) - 0 = ⟨1, 1, 0⟩ := by ext <;> simp
  obtain ⟨h1, -, -, -, -, -, -, -, -, -, h⟩ := C113_disk_partial ⟨0, ⟨0, 0, 1⟩, 2, 1, ⟨1, 0, 0⟩, 1, none⟩ ⟨⟨1, 1, 1⟩, ⟨0, 0, -1⟩⟩ ⟨1, 1, 0⟩ (by norm_num [V3.lengthSquared])
    (by norm_num [V3.lengthSquared]) (by norm_num [V3.dot]) (by norm_num [V3.dot]) (by norm_num) (by norm_num) (by norm_num [V3.lengthSquared]) (by norm_num [V3.dot]) _ rfl
  refine ⟨_, h1, ?_⟩
  simp only [hz] at h ⊢
  rw [h]
  norm_num [V3.dot]

/-- The velocity along the angle is along the circle around the centre. -/
private theorem ring_u (c n e : V3 ℝ) (R Ri m u v : ℝ) (hn : n.lengthSquared = 1) (he : e.lengthSquared = 1) (hne : n.dot e = 0) (w : V3 ℝ)
    (h : Moves (fun u => ring c n e R Ri m u v) u w) : w.dot (ring c n e R Ri m u v - c) = 0 := by
  have hd : HasDerivAt (fun t : ℝ => t * m) m u := by simpa using (hasDerivAt_id u).mul_const m
  have key : ∀ a b k : ℝ, HasDerivAt (fun t => k + (a * Real.cos (t * m) + b * Real.sin (t * m)) * (R - v * (R - Ri)))
      ((a * (-Real.sin (u * m) * m) + b * (Real.cos (u * m) * m)) * (R - v * (R - Ri))) u := fun a b k =>
    (((hd.cos.const_mul a).add (hd.sin.const_mul b)).mul_const _).const_add k
  have wx := h.x.unique (key e.x (n.cross e).x c.x)
  have wy := h.y.unique (key e.y (n.cross e).y c.y)
  have wz := h.z.unique (key e.z (n.cross e).z c.z)
  have hmm : (n.cross e).dot (n.cross e) = 1 := by
    have : (n.cross e).dot (n.cross e) = n.lengthSquared * e.lengthSquared - n.dot e ^ 2 := by
      unfold V3.dot V3.lengthSquared
      simp only [V3.cross_x, V3.cross_y, V3.cross_z]
      ring
    rw [this, hn, he, hne]; norm_num
  have hem : e.dot (n.cross e) = 0 := by
    unfold V3.dot
    simp only [V3.cross_x, V3.cross_y, V3.cross_z]
    ring
  have hee : e.dot e = 1 := by rw [← he]; unfold V3.lengthSquared V3.dot; ring
  unfold ring
  generalize n.cross e = q at *
  unfold V3.dot at hmm hem hee ⊢
  simp only [V3.sub_x, V3.sub_y, V3.sub_z, V3.add_x, V3.add_y, V3.add_z, V3.scale_x, V3.scale_y, V3.scale_z]
  rw [wx, wy, wz]
  linear_combination (R - v * (R - Ri)) ^ 2 * m * (Real.sin (u * m) * Real.cos (u * m) * (hmm - hee) + (Real.cos (u * m) ^ 2 - Real.sin (u * m) ^ 2) * hem)

/-- C113 is violated by disks: where a ray meets a disk of two metres of radius at one metre from its centre, the first tangent is not along the
circle, so that it is not the velocity along the angle. -/
theorem C113_violated_disk (ray : Ray ℝ) (d : Detail)
    (hd : (⟨0, ⟨0, 0, 1⟩, 2, 0, ⟨1, 0, 0⟩, 2 * Real.pi, none⟩ : Disk).detail ray ⟨3 / 5, 4 / 5, 0⟩ (phiOf (3 / 5) (4 / 5)) = d) :
    d.info.dpdu.dot ⟨3 / 5, 4 / 5, 0⟩ = 12 / 25 ∧ ¬ Told (ring 0 ⟨0, 0, 1⟩ ⟨1, 0, 0⟩ 2 0 (2 * Real.pi)) d := by
  have hl : (⟨3 / 5, 4 / 5, 0⟩ : V3 ℝ).length = 1 := by
    unfold V3.length V3.lengthSquared
    norm_num
  have hz : (⟨3 / 5, 4 / 5, 0⟩ : V3 ℝ) - 0 = ⟨3 / 5, 4 / 5, 0⟩ := by ext <;> simp
  have h1 : d.info.dpdu.dot ⟨3 / 5, 4 / 5, 0⟩ = 12 / 25 := by
    rw [← hd]
    unfold Disk.detail
    dsimp only
    rw [hz, hl]
    norm_num [V3.dot]
  have h2 : d.info.p = ⟨3 / 5, 4 / 5, 0⟩ := by rw [← hd]; rfl
  refine ⟨h1, fun h => ?_⟩
  have h3 := ring_u _ _ _ _ _ _ _ _ (by norm_num [V3.lengthSquared]) (by norm_num [V3.lengthSquared]) (by norm_num [V3.dot]) _ h.along_u
  rw [← h.point, h2, hz, h1] at h3
  norm_num at h3

end Simple.Geometry
