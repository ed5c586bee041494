import Verif.Geometry.DiskProps
import Verif.Render.CameraModel

/-! # C78: cameras and pixels -/

namespace Simple.Render.Camera

open Geometry

namespace Spec

/-- Three perpendicular directions of length one. -/
structure Upright (cam : Pinhole) : Prop where
  dd : cam.direction.dot cam.direction = 1
  uu : cam.up.dot cam.up = 1
  rr : cam.right.dot cam.right = 1
  du : cam.direction.dot cam.up = 0
  dr : cam.direction.dot cam.right = 0
  ur : cam.up.dot cam.right = 0

/-- How far to the right of the axis the middle of a column of pixels is, as part of half the width of the film. -/
noncomputable def across (cam : Pinhole) (column : ℕ) : ℝ := (2 * column + 1) / cam.width - 1

/-- How far above the axis the middle of a row of pixels is, in the same units; the first row is the highest. -/
noncomputable def above (cam : Pinhole) (row : ℕ) : ℝ := (cam.height - (2 * row + 1)) / cam.width

end Spec

open Spec

private theorem dot_self (v : V3 ℝ) : v.dot v = v.lengthSquared := by
  unfold V3.dot V3.lengthSquared
  ring

private theorem length_nonneg (v : V3 ℝ) : 0 ≤ v.lengthSquared := by
  unfold V3.lengthSquared
  nlinarith [sq_nonneg v.x, sq_nonneg v.y, sq_nonneg v.z]

/-! ### The camera -/

/-- C78: a camera looks in the direction of the view from its point, its picture is upright (what is up in the view is up in the picture, and right is at the right hand
of someone who looks), and its film is as wide as the field of view asks for. -/
theorem C78_camera (view : View) (width height : ℕ) (cam : Pinhole) (h : new view width height = .ok cam) :
    Upright cam ∧ cam.point = view.point ∧ cam.width = width ∧ cam.height = height ∧
      (∃ k, 0 < k ∧ cam.direction = view.direction.scale k) ∧ 0 < cam.up.dot view.up ∧
      cam.right = cam.direction.cross cam.up ∧
      (0 < view.fieldOfView → view.fieldOfView < 180 → 0 < cam.filmDistance ∧
        cam.filmDistance * Real.tan (view.fieldOfView * (Real.pi / 180) / 2) = 1) := by
  unfold new at h
  simp only at h
  cases hd : view.direction.normalize with
  | err => rw [hd] at h; cases h
  | panic => rw [hd] at h; cases h
  | ok d =>
    cases hu : ((view.direction.cross view.up).cross view.direction).normalize with
    | err => rw [hd, hu] at h; cases h
    | panic => rw [hd, hu] at h; cases h
    | ok u =>
      cases hr : (view.direction.cross view.up).normalize with
      | err => rw [hd, hu, hr] at h; cases h
      | panic => rw [hd, hu, hr] at h; cases h
      | ok r =>
        rw [hd, hu, hr] at h
        have e := Outcome.ok.inj h
        obtain ⟨d1, kd, hkd, ed⟩ := Plane.unit_of_normalize hd
        obtain ⟨u1, ku, hku, eu⟩ := Plane.unit_of_normalize hu
        obtain ⟨r1, kr, hkr, er⟩ := Plane.unit_of_normalize hr
        subst e
        simp only
        have hdr : d.dot r = 0 := by
          rw [ed, er]; unfold V3.dot V3.cross; simp only [V3.scale_x, V3.scale_y, V3.scale_z]; ring
        have hdu : d.dot u = 0 := by
          rw [ed, eu]; unfold V3.dot V3.cross; simp only [V3.scale_x, V3.scale_y, V3.scale_z]; ring
        have hur : u.dot r = 0 := by
          rw [eu, er]; unfold V3.dot V3.cross; simp only [V3.scale_x, V3.scale_y, V3.scale_z]; ring
        have hc : (view.direction.cross view.up).lengthSquared = V3.dot (view.direction.cross view.up) (view.direction.cross view.up) :=
          (dot_self _).symm
        have h3 : kr ^ 2 * (view.direction.cross view.up).lengthSquared = 1 := by
          rw [← r1, er]; unfold V3.lengthSquared; simp only [V3.scale_x, V3.scale_y, V3.scale_z]; ring
        have h1 : kd ^ 2 * view.direction.lengthSquared = 1 := by
          rw [← d1, ed]; unfold V3.lengthSquared; simp only [V3.scale_x, V3.scale_y, V3.scale_z]; ring
        have h2 : ku ^ 2 * ((view.direction.cross view.up).lengthSquared * view.direction.lengthSquared) = 1 := by
          rw [← u1, eu]; unfold V3.lengthSquared V3.cross; simp only [V3.scale_x, V3.scale_y, V3.scale_z]; ring
        have hcpos : 0 < (view.direction.cross view.up).lengthSquared := by
          have h0 : 0 ≤ (view.direction.cross view.up).lengthSquared := length_nonneg _
          rcases h0.lt_or_eq with h | h
          · exact h
          · rw [← h] at h3; simp at h3
        have hapos : 0 ≤ view.direction.lengthSquared := length_nonneg _
        have hk : kd * ku * view.direction.lengthSquared = kr := by
          refine (sq_eq_sq₀ (by positivity) hkr.le).1 ?_
          refine mul_right_cancel₀ hcpos.ne' ?_
          linear_combination h2 - h3 + ku ^ 2 * view.direction.lengthSquared * (view.direction.cross view.up).lengthSquared * h1
        refine ⟨⟨by rw [dot_self]; exact d1, by rw [dot_self]; exact u1, by rw [dot_self]; exact r1, hdu, hdr, hur⟩, trivial, trivial, trivial,
          ⟨kd, hkd, ed⟩, ?_, ?_, ?_⟩
        · have : u.dot view.up = ku * (view.direction.cross view.up).lengthSquared := by
            rw [eu]; unfold V3.lengthSquared V3.dot V3.cross; simp only [V3.scale_x, V3.scale_y, V3.scale_z]; ring
          rw [this]
          positivity
        · rw [er, ← hk, ed, eu]
          unfold V3.lengthSquared V3.cross
          ext <;> simp only [V3.scale_x, V3.scale_y, V3.scale_z] <;> ring
        · intro hf1 hf2
          have hpi := Real.pi_pos
          have ht : 0 < Real.tan (view.fieldOfView * (Real.pi / 180) / 2) := by
            apply Real.tan_pos_of_pos_of_lt_pi_div_two
            · positivity
            · nlinarith
          exact ⟨by positivity, by rw [one_div, inv_mul_cancel₀ ht.ne']⟩

/-- C78: a camera is made exactly when the directions given are not too short and not too close to each other. -/
theorem C78_made (view : View) (width height : ℕ) :
    ((∃ cam, new view width height = .ok cam) ↔
      view.direction.lengthSquared > 1 / 10 ^ 20 ∧ (view.direction.cross view.up).lengthSquared > 1 / 10 ^ 20 ∧
        ((view.direction.cross view.up).cross view.direction).lengthSquared > 1 / 10 ^ 20) ∧
      ((¬ ∃ cam, new view width height = .ok cam) → new view width height = .panic) := by
  unfold new
  simp only
  by_cases h1 : view.direction.lengthSquared > 1 / 10 ^ 20
  · by_cases h2 : ((view.direction.cross view.up).cross view.direction).lengthSquared > 1 / 10 ^ 20
    · by_cases h3 : (view.direction.cross view.up).lengthSquared > 1 / 10 ^ 20
      · rw [V3.normalize, if_pos h1, V3.normalize, if_pos h2, V3.normalize, if_pos h3]
        refine ⟨⟨fun _ => ⟨h1, h3, h2⟩, fun _ => ⟨_, rfl⟩⟩, fun h => absurd ⟨_, rfl⟩ h⟩
      · rw [V3.normalize, if_pos h1, V3.normalize, if_pos h2, V3.normalize, if_neg h3]
        exact ⟨⟨fun ⟨_, h⟩ => (by cases h), fun h => absurd h.2.1 h3⟩, fun _ => rfl⟩
    · rw [V3.normalize, if_pos h1, V3.normalize, if_neg h2]
      exact ⟨⟨fun ⟨_, h⟩ => (by cases h), fun h => absurd h.2.2 h2⟩, fun _ => rfl⟩
  · rw [V3.normalize, if_neg h1]
    exact ⟨⟨fun ⟨_, h⟩ => (by cases h), fun h => absurd h.1 h1⟩, fun _ => rfl⟩

/-- The default view is one: from the origin towards north. -/
example : ∃ cam, new ⟨⟨0, 0, 0⟩, ⟨0, 1, 0⟩, ⟨0, 0, 1⟩, 60⟩ 640 480 = .ok cam :=
  (C78_made _ _ _).1.2 (by unfold V3.lengthSquared V3.cross; norm_num)

/-! ### The ray of a pixel -/

private theorem pixel_x (w : ℕ) (hw : 0 < w) (p : ℕ) : (2 : ℝ) / w / 2 + p * (2 / w) - 2 / 2 = (2 * p + 1) / w - 1 := by
  have : (w : ℝ) ≠ 0 := by positivity
  field_simp
  ring

private theorem pixel_y (w h : ℕ) (hw : 0 < w) (hh : 0 < h) (p : ℕ) :
    (h : ℝ) / w * 2 / h / 2 + p * (h / w * 2 / h) - h / w * 2 / 2 = - ((h - (2 * p + 1)) / w) := by
  have : (w : ℝ) ≠ 0 := by positivity
  have : (h : ℝ) ≠ 0 := by positivity
  field_simp
  ring

/-- The direction of a pixel before it is made of length one. -/
private noncomputable def aim (cam : Pinhole) (x y : ℕ) : V3 ℝ :=
  cam.direction.scale cam.filmDistance + cam.right.scale (across cam x) + cam.up.scale (above cam y)

private theorem aim_dot (cam : Pinhole) (hu : Upright cam) (x y : ℕ) :
    cam.direction.dot (aim cam x y) = cam.filmDistance ∧ (aim cam x y).dot cam.right = across cam x ∧
      (aim cam x y).dot cam.up = above cam y ∧
      (aim cam x y).lengthSquared = cam.filmDistance ^ 2 + across cam x ^ 2 + above cam y ^ 2 := by
  obtain ⟨dd, uu, rr, du, dr, ur⟩ := hu
  unfold aim
  generalize across cam x = X
  generalize above cam y = Y
  generalize cam.filmDistance = f
  generalize cam.direction = d at *
  generalize cam.up = u at *
  generalize cam.right = r at *
  unfold V3.dot at *
  unfold V3.lengthSquared
  simp only [V3.scale_x, V3.scale_y, V3.scale_z, V3.add_x, V3.add_y, V3.add_z]
  refine ⟨?_, ?_, ?_, ?_⟩
  · linear_combination f * dd + X * dr + Y * du
  · linear_combination f * dr + X * rr + Y * ur
  · linear_combination f * du + X * ur + Y * uu
  · linear_combination f ^ 2 * dd + X ^ 2 * rr + Y ^ 2 * uu + 2 * f * X * dr + 2 * f * Y * du + 2 * X * Y * ur

private theorem genRay_eq (cam : Pinhole) (hw : 0 < cam.width) (hh : 0 < cam.height) (x y : ℕ) :
    genRay cam (x, y) = (aim cam x y).normalize.bind fun direction => .ok ⟨cam.point, direction⟩ := by
  unfold genRay aim
  simp only
  rw [pixel_x _ hw, pixel_y _ _ hw hh]
  congr 2
  unfold across above
  ext <;> simp only [V3.scale_x, V3.scale_y, V3.scale_z, V3.add_x, V3.add_y, V3.add_z, V3.sub_x, V3.sub_y, V3.sub_z] <;> ring

private theorem genRay_ok (cam : Pinhole) (hu : Upright cam) (hf : 1 / 10 ^ 10 < cam.filmDistance) (hw : 0 < cam.width)
    (hh : 0 < cam.height) (x y : ℕ) :
    ∃ t, 0 < t ∧ t ^ 2 = cam.filmDistance ^ 2 + across cam x ^ 2 + above cam y ^ 2 ∧
      genRay cam (x, y) = .ok ⟨cam.point, (aim cam x y).scale (1 / t)⟩ ∧ ((aim cam x y).scale (1 / t)).lengthSquared = 1 := by
  have hl := (aim_dot cam hu x y).2.2.2
  have hlen : (aim cam x y).lengthSquared > 1 / 10 ^ 20 := by
    rw [hl]
    have : (1 / 10 ^ 10 : ℝ) ^ 2 < cam.filmDistance ^ 2 := by
      apply pow_lt_pow_left₀ hf (by norm_num) (by norm_num)
    have e : (1 / 10 ^ 10 : ℝ) ^ 2 = 1 / 10 ^ 20 := by norm_num
    rw [e] at this
    nlinarith [sq_nonneg (across cam x), sq_nonneg (above cam y)]
  have hpos : 0 < (aim cam x y).lengthSquared := lt_trans (by norm_num) hlen
  refine ⟨Real.sqrt (aim cam x y).lengthSquared, Real.sqrt_pos.2 hpos, ?_, ?_, ?_⟩
  · rw [Real.sq_sqrt hpos.le, hl]
  · rw [genRay_eq cam hw hh, V3.normalize, if_pos hlen]
    rfl
  · exact (Plane.unit_of_normalize (v := aim cam x y) (by rw [V3.normalize, if_pos hlen])).1

/-- C78: the ray of a pixel starts at the point of view, has length one and goes through the middle of the pixel. -/
theorem C78_ray (cam : Pinhole) (hu : Upright cam) (hf : 1 / 10 ^ 10 < cam.filmDistance) (x y : ℕ) (hx : x < cam.width)
    (hy : y < cam.height) :
    ∃ ray t, genRay cam (x, y) = .ok ray ∧ ray.origin = cam.point ∧ ray.direction.dot ray.direction = 1 ∧ 0 < t ∧
      ray.direction.scale t =
        cam.direction.scale cam.filmDistance + cam.right.scale (across cam x) + cam.up.scale (above cam y) ∧
      |across cam x| < 1 ∧ |above cam y| < cam.height / cam.width := by
  obtain ⟨t, ht, -, h, h1⟩ := genRay_ok cam hu hf (by omega) (by omega) x y
  have hw : (0 : ℝ) < cam.width := by exact_mod_cast (by omega : 0 < cam.width)
  have hx' : (x : ℝ) + 1 ≤ cam.width := by exact_mod_cast hx
  have hy' : (y : ℝ) + 1 ≤ cam.height := by exact_mod_cast hy
  have hx0 : (0 : ℝ) ≤ x := Nat.cast_nonneg _
  have hy0 : (0 : ℝ) ≤ y := Nat.cast_nonneg _
  refine ⟨_, t, h, rfl, ?_, ht, ?_, ?_, ?_⟩
  · rw [dot_self]; exact h1
  · unfold aim
    have : t ≠ 0 := ht.ne'
    ext <;> simp only [V3.scale_x, V3.scale_y, V3.scale_z] <;> field_simp
  · unfold across
    rw [abs_lt]
    constructor
    · have : 0 < (2 * (x : ℝ) + 1) / cam.width := by positivity
      linarith
    · have : (2 * (x : ℝ) + 1) / cam.width < 2 := by rw [div_lt_iff₀ hw]; linarith
      linarith
  · unfold above
    rw [abs_div, abs_of_pos hw]
    apply div_lt_div_of_pos_right _ hw
    rw [abs_lt]
    constructor <;> linarith

/-- C78: no two pixels have the same ray. -/
theorem C78_distinct (cam : Pinhole) (hu : Upright cam) (hf : 1 / 10 ^ 10 < cam.filmDistance) (p q : ℕ × ℕ)
    (hp : p.1 < cam.width ∧ p.2 < cam.height) (hq : q.1 < cam.width ∧ q.2 < cam.height) (h : genRay cam p = genRay cam q) :
    p = q := by
  obtain ⟨x, y⟩ := p
  obtain ⟨x', y'⟩ := q
  simp only at hp hq
  obtain ⟨t, ht, -, h1, -⟩ := genRay_ok cam hu hf (by omega) (by omega) x y
  obtain ⟨t', ht', -, h1', -⟩ := genRay_ok cam hu hf (by omega) (by omega) x' y'
  rw [h1, h1'] at h
  have e : (aim cam x y).scale (1 / t) = (aim cam x' y').scale (1 / t') := congrArg Ray.direction (Outcome.ok.inj h)
  obtain ⟨a1, a2, a3, -⟩ := aim_dot cam hu x y
  obtain ⟨b1, b2, b3, -⟩ := aim_dot cam hu x' y'
  have hs1 : ∀ (v w : V3 ℝ) (k : ℝ), v.dot (w.scale k) = k * v.dot w := by
    intro v w k; unfold V3.dot; simp only [V3.scale_x, V3.scale_y, V3.scale_z]; ring
  have hs2 : ∀ (v w : V3 ℝ) (k : ℝ), (w.scale k).dot v = k * w.dot v := by
    intro v w k; unfold V3.dot; simp only [V3.scale_x, V3.scale_y, V3.scale_z]; ring
  have hf0 : cam.filmDistance ≠ 0 := (lt_trans (by norm_num) hf).ne'
  have c1 := congrArg (fun v => cam.direction.dot v) e
  have c2 := congrArg (fun v => V3.dot v cam.right) e
  have c3 := congrArg (fun v => V3.dot v cam.up) e
  simp only [hs1, hs2, a1, a2, a3, b1, b2, b3] at c1 c2 c3
  have ett : 1 / t = 1 / t' := mul_right_cancel₀ hf0 c1
  have hne : 1 / t' ≠ 0 := by positivity
  rw [ett] at c2 c3
  have d2 := mul_left_cancel₀ hne c2
  have d3 := mul_left_cancel₀ hne c3
  have hw : (cam.width : ℝ) ≠ 0 := by
    have : 0 < cam.width := by omega
    positivity
  unfold across at d2
  unfold above at d3
  field_simp at d2 d3
  have e1 : (x : ℝ) = x' := by linarith
  have e2 : (y : ℝ) = y' := by linarith
  rw [Nat.cast_inj.1 e1, Nat.cast_inj.1 e2]

/-! ### The pixel of a ray -/

private theorem back (cam : Pinhole) (hu : Upright cam) (hf : 1 / 10 ^ 10 < cam.filmDistance) (hh : cam.height ≤ 50 * cam.width)
    (x y : ℕ) (hx : x < cam.width) (hy : y < cam.height) :
    ∃ ray, genRay cam (x, y) = .ok ray ∧ pixelFromRay cam ray =
      if |above cam y| > 1 then .ok ((0, 0), 0)
      else .ok ((x, ⌊(y : ℝ) + (((cam.width : ℝ) - cam.height) / 2 + 1 / 2)⌋.toNat), 1) := by
  obtain ⟨t, ht, htt, h, h1⟩ := genRay_ok cam hu hf (by omega) (by omega) x y
  obtain ⟨ray, t0, hr, -, -, -, -, hax, hab⟩ := C78_ray cam hu hf x y hx hy
  obtain ⟨a1, a2, a3, -⟩ := aim_dot cam hu x y
  refine ⟨_, h, ?_⟩
  have hs1 : ∀ (v w : V3 ℝ) (k : ℝ), v.dot (w.scale k) = k * v.dot w := by
    intro v w k; unfold V3.dot; simp only [V3.scale_x, V3.scale_y, V3.scale_z]; ring
  have hs2 : ∀ (v w : V3 ℝ) (k : ℝ), (w.scale k).dot v = k * w.dot v := by
    intro v w k; unfold V3.dot; simp only [V3.scale_x, V3.scale_y, V3.scale_z]; ring
  have hf0 : 0 < cam.filmDistance := lt_trans (by norm_num) hf
  have hwn : 0 < cam.width := by omega
  have hhn : 0 < cam.height := by omega
  have hw : (0 : ℝ) < cam.width := by exact_mod_cast hwn
  have hh0 : (0 : ℝ) < cam.height := by exact_mod_cast hhn
  have hcos : cam.direction.dot ((aim cam x y).scale (1 / t)) = cam.filmDistance / t := by
    rw [hs1, a1]; ring
  have hd0 : cam.point.squaredDistance cam.point = 0 := by unfold V3.squaredDistance; simp
  unfold pixelFromRay
  simp only
  rw [if_neg (by rw [hd0]; norm_num), hcos, if_neg]
  swap
  · rw [not_lt, abs_of_pos (by positivity), le_div_iff₀ ht]
    have hb2 : |above cam y| ≤ 50 := by
      refine hab.le.trans ?_
      rw [div_le_iff₀ hw]
      exact_mod_cast hh
    have h2 : t ^ 2 ≤ cam.filmDistance ^ 2 + 2501 := by
      rw [htt]
      have i1 : across cam x ^ 2 ≤ 1 := by rw [← sq_abs]; nlinarith [abs_nonneg (across cam x)]
      have i2 : above cam y ^ 2 ≤ 2500 := by rw [← sq_abs]; nlinarith [abs_nonneg (above cam y)]
      linarith
    have h3 : (1 / 10 ^ 12 * t) ^ 2 ≤ cam.filmDistance ^ 2 := by
      have h4 : (1 / 10 ^ 10 : ℝ) ^ 2 < cam.filmDistance ^ 2 := pow_lt_pow_left₀ hf (by norm_num) (by norm_num)
      rw [mul_pow]
      norm_num at h4 ⊢
      nlinarith
    exact le_of_sq_le_sq h3 hf0.le
  have hlen : (cam.point + cam.direction.scale cam.filmDistance - cam.point).dot cam.direction / (cam.filmDistance / t) = t := by
    have : (cam.point + cam.direction.scale cam.filmDistance - cam.point).dot cam.direction = cam.filmDistance := by
      have := hu.dd
      unfold V3.dot at *
      simp only [V3.scale_x, V3.scale_y, V3.scale_z, V3.add_x, V3.add_y, V3.add_z, V3.sub_x, V3.sub_y, V3.sub_z]
      linear_combination cam.filmDistance * this
    rw [this]
    field_simp
  simp only [hlen, hs2, a2, a3]
  have hx2 : t * (1 / t * across cam x) = across cam x := by field_simp
  have hy2 : t * (1 / t * above cam y) = above cam y := by field_simp
  rw [hx2, hy2]
  by_cases hz : |above cam y| > 1
  · rw [if_pos (Or.inl hz), if_pos hz]
  · rw [if_neg (by push_neg; exact ⟨not_lt.1 hz, hax.le⟩), if_neg hz]
    have f1 : (across cam x + 1) / (2 / (cam.width : ℝ)) = (x : ℝ) + 1 / 2 := by
      unfold across
      field_simp
      ring
    have f2 : (1 - above cam y) / ((cam.height : ℝ) / cam.width * 2 / cam.height) =
        (y : ℝ) + (((cam.width : ℝ) - cam.height) / 2 + 1 / 2) := by
      unfold above
      field_simp
      ring
    rw [f1, f2]
    have f3 : ⌊(x : ℝ) + 1 / 2⌋.toNat = x := by
      have : ⌊(x : ℝ) + 1 / 2⌋ = (x : ℤ) := by
        rw [Int.floor_eq_iff]
        push_cast
        constructor <;> linarith
      rw [this]
      rfl
    rw [f3]

/-- C78: on a film that is square, or one row higher than wide, the pixel found for the ray of a pixel is that pixel, with
weight one.

Missing: the other films, on which it is false (`C78_violated_landscape`, `C78_violated_portrait`). -/
theorem C78_inverse_partial (cam : Pinhole) (hu : Upright cam) (hf : 1 / 10 ^ 10 < cam.filmDistance)
    (hs : cam.height = cam.width ∨ cam.height = cam.width + 1) (x y : ℕ) (hx : x < cam.width) (hy : y < cam.height) :
    ∃ ray, genRay cam (x, y) = .ok ray ∧ pixelFromRay cam ray = .ok ((x, y), 1) := by
  obtain ⟨ray, h, hb⟩ := back cam hu hf (by omega) x y hx hy
  obtain ⟨-, -, -, -, -, -, -, -, hab⟩ := C78_ray cam hu hf x y hx hy
  have hw : (0 : ℝ) < cam.width := by exact_mod_cast (by omega : 0 < cam.width)
  refine ⟨ray, h, ?_⟩
  rcases hs with hs | hs
  · rw [hs, div_self hw.ne'] at hab
    rw [hb, if_neg (not_lt.2 hab.le), hs]
    have : ⌊(y : ℝ) + (((cam.width : ℝ) - cam.width) / 2 + 1 / 2)⌋ = (y : ℤ) := by
      rw [Int.floor_eq_iff]
      push_cast
      constructor <;> linarith
    rw [this]
    rfl
  · have hh : (cam.height : ℝ) = cam.width + 1 := by rw [hs]; push_cast; ring
    have hy1 : (y : ℝ) ≤ cam.width := by exact_mod_cast (by omega : y ≤ cam.width)
    have hy0 : (0 : ℝ) ≤ y := Nat.cast_nonneg y
    have h1 : |above cam y| ≤ 1 := by
      unfold above
      rw [hh, abs_le]
      constructor
      · rw [← sub_nonneg]
        field_simp
        linarith
      · rw [← sub_nonneg]
        field_simp
        linarith
    rw [hb, if_neg (not_lt.2 h1), hh]
    have : ⌊(y : ℝ) + (((cam.width : ℝ) - (cam.width + 1)) / 2 + 1 / 2)⌋ = (y : ℤ) := by
      rw [Int.floor_eq_iff]
      push_cast
      constructor <;> linarith
    rw [this]
    rfl

/-- C78 is false for films wider than high: every pixel is found as one further down, possibly out of the film. -/
theorem C78_violated_landscape (cam : Pinhole) (hu : Upright cam) (hf : 1 / 10 ^ 10 < cam.filmDistance)
    (hs : cam.height < cam.width) (x y : ℕ) (hx : x < cam.width) (hy : y < cam.height) :
    ∃ ray, genRay cam (x, y) = .ok ray ∧ pixelFromRay cam ray = .ok ((x, y + (cam.width - cam.height + 1) / 2), 1) ∧
      (cam.width - cam.height + 1) / 2 ≠ 0 := by
  obtain ⟨ray, h, hb⟩ := back cam hu hf (by omega) x y hx hy
  obtain ⟨-, -, -, -, -, -, -, -, hab⟩ := C78_ray cam hu hf x y hx hy
  have hw : (0 : ℝ) < cam.width := by exact_mod_cast (by omega : 0 < cam.width)
  have hlt : (cam.height : ℝ) / cam.width < 1 := by rw [div_lt_one hw]; exact_mod_cast hs
  refine ⟨ray, h, ?_, by omega⟩
  rw [hb, if_neg (not_lt.2 (by linarith))]
  obtain ⟨n, hn⟩ : ∃ n, cam.width = cam.height + n := ⟨cam.width - cam.height, by omega⟩
  have hn' : (cam.width : ℝ) = cam.height + n := by exact_mod_cast hn
  have : ⌊(y : ℝ) + (((cam.width : ℝ) - cam.height) / 2 + 1 / 2)⌋ = ((y + (cam.width - cam.height + 1) / 2 : ℕ) : ℤ) := by
    rw [Int.floor_eq_iff, hn', hn, Nat.add_sub_cancel_left]
    have h1 : (n + 1) / 2 * 2 ≤ n + 1 := by omega
    have h2 : n + 1 < ((n + 1) / 2 + 1) * 2 := by omega
    generalize (n + 1) / 2 = m at *
    have h1' : (m : ℝ) * 2 ≤ n + 1 := by exact_mod_cast h1
    have h2' : (n : ℝ) + 1 < ((m : ℝ) + 1) * 2 := by exact_mod_cast h2
    push_cast
    constructor <;> linarith
  rw [this]
  rfl

/-- C78 is false for films higher than wide: the first row is in the picture, but its rays are said to be out of it. -/
theorem C78_violated_portrait (cam : Pinhole) (hu : Upright cam) (hf : 1 / 10 ^ 10 < cam.filmDistance)
    (hs : cam.width + 1 < cam.height) (hh : cam.height ≤ 50 * cam.width) (x : ℕ) (hx : x < cam.width) :
    ∃ ray, genRay cam (x, 0) = .ok ray ∧ pixelFromRay cam ray = .ok ((0, 0), 0) := by
  obtain ⟨ray, h, hb⟩ := back cam hu hf hh x 0 hx (by omega)
  have hw : (0 : ℝ) < cam.width := by exact_mod_cast (by omega : 0 < cam.width)
  have hs' : (cam.width : ℝ) + 1 < cam.height := by exact_mod_cast hs
  refine ⟨ray, h, ?_⟩
  rw [hb, if_pos]
  unfold above
  rw [gt_iff_lt, lt_abs]
  left
  rw [lt_div_iff₀ hw]
  push_cast
  linarith

/-- A camera for the theorems above. -/
example (w h : ℕ) : Upright ⟨⟨0, 0, 0⟩, ⟨0, 1, 0⟩, ⟨0, 0, 1⟩, ⟨1, 0, 0⟩, 1, w, h⟩ := by
  constructor <;> unfold V3.dot <;> norm_num

/-! ### Going over the pixels -/

/-- C78: the pixel of an index is the one counted by rows, although the division is rounded. -/
theorem C78_index (width p : ℕ) (hw : 0 < width) (hp : p < 2 ^ 53) : pixelAt width p = .ok (p % width, p / width) := by
  have hwq : (0 : ℚ) < width := by exact_mod_cast hw
  have hk : p / width < 2 ^ 53 := lt_of_le_of_lt (Nat.div_le_self _ _) hp
  have hlow : ((p / width : ℕ) : ℚ) ≤ (p : ℚ) / width := Nat.cast_div_le
  have hup : (p : ℚ) / width + 1 / width ≤ ((p / width : ℕ) : ℚ) + 1 := by
    rw [← add_div, div_le_iff₀ hwq]
    have := Nat.lt_mul_div_succ p hw
    have h2 : p + 1 ≤ (p / width + 1) * width := by rw [mul_comm]; exact this
    exact_mod_cast h2
  have hrep : Round.Spec.Representable ((p / width : ℕ) : ℚ) :=
    ⟨((p / width : ℕ) : ℤ), 0, by rw [abs_of_nonneg (by positivity)]; exact_mod_cast hk, by
      rw [zpow_zero, mul_one, Int.cast_natCast]⟩
  have hnear := Round.round53_nearest ((p : ℚ) / width) _ hrep
  have herr := Round.round53_error ((p : ℚ) / width)
  have hq0 : 0 ≤ (p : ℚ) / width := by positivity
  rw [abs_of_nonneg hq0] at herr
  have hsmall : (p : ℚ) / width / 2 ^ 53 < 1 / width := by
    rw [div_div, div_lt_div_iff₀ (by positivity) hwq]
    have : (p : ℚ) < 2 ^ 53 := by exact_mod_cast hp
    nlinarith
  have hfl : ⌊Round.round53 ((p : ℚ) / width)⌋ = ((p / width : ℕ) : ℤ) := by
    rw [Int.floor_eq_iff]
    generalize Round.round53 ((p : ℚ) / width) = r at *
    generalize (p : ℚ) / width = q at *
    rw [abs_of_nonpos (by linarith : ((p / width : ℕ) : ℚ) - q ≤ 0)] at hnear
    rw [abs_le] at hnear herr
    rw [Int.cast_natCast]
    generalize ((p / width : ℕ) : ℚ) = k at *
    constructor <;> linarith [hnear.1, hnear.2, herr.1, herr.2]
  unfold pixelAt
  simp only
  rw [hfl]
  have e : ((p / width : ℕ) : ℤ).toNat = p / width := rfl
  rw [e, if_neg (not_lt.2 (Nat.div_mul_le_self _ _))]
  have := Nat.div_add_mod' p width
  congr 2
  omega

private theorem places_eq (total : ℕ) : places total = (List.range total).map fun p => (p / 128, p % 128) := by
  have key : ∀ n, ((List.range n).flatMap fun chunk => (List.range (min 128 (total - chunk * 128))).map fun k => (chunk, k)) =
      (List.range (min (n * 128) total)).map fun p => (p / 128, p % 128) := by
    intro n
    induction n with
    | zero => simp
    | succ n ih =>
      rw [List.range_succ, List.flatMap_append, ih]
      simp only [List.flatMap_cons, List.flatMap_nil, List.append_nil]
      rcases Nat.le_total (n * 128) total with h | h
      · have e1 : min ((n + 1) * 128) total = n * 128 + min 128 (total - n * 128) := by omega
        have e2 : min (n * 128) total = n * 128 := by omega
        rw [e1, e2, List.range_add, List.map_append, List.map_map]
        congr 1
        apply List.map_congr_left
        intro k hk
        rw [List.mem_range] at hk
        simp only [Function.comp, Prod.mk.injEq]
        omega
      · have e1 : min ((n + 1) * 128) total = total := by omega
        have e2 : min (n * 128) total = total := by omega
        have e3 : min 128 (total - n * 128) = 0 := by omega
        rw [e1, e2, e3]
        simp
  unfold places
  rw [key]
  congr 2
  omega

/-- C78: every pixel of the image is written, with what is traced along the ray of that pixel. -/
theorem C78_pixels {α : Type} (cam : Pinhole) (hu : Upright cam) (hf : 1 / 10 ^ 10 < cam.filmDistance)
    (hsize : cam.width * cam.height < 2 ^ 53) (trace : ℕ → ℕ → Ray ℝ → α) :
    ∃ l, render cam trace = .ok l ∧ l.length = cam.width * cam.height ∧
      ∀ x y, x < cam.width → y < cam.height → ∃ ray chunk k, genRay cam (x, y) = .ok ray ∧
        l[y * cam.width + x]? = some (trace chunk k ray) := by
  have key : ∀ places : List ℕ, (∀ p ∈ places, p < cam.width * cam.height) →
      ∃ l, renderList cam trace (places.map fun p => (p / 128, p % 128)) = .ok l ∧
        List.Forall₂ (fun p v => ∃ ray, genRay cam (p % cam.width, p / cam.width) = .ok ray ∧
          v = trace (p / 128) (p % 128) ray) places l := by
    intro places
    induction places with
    | nil => intro _; exact ⟨[], rfl, .nil⟩
    | cons p rest ih =>
      intro h
      have hp := h p (List.mem_cons_self ..)
      have hw : 0 < cam.width := Nat.pos_of_ne_zero fun h0 => by rw [h0] at hp; omega
      have hh : 0 < cam.height := Nat.pos_of_ne_zero fun h0 => by rw [h0] at hp; omega
      obtain ⟨l, hl, hrel⟩ := ih fun q hq => h q (List.mem_cons_of_mem _ hq)
      obtain ⟨t, -, -, hr, -⟩ := genRay_ok cam hu hf hw hh (p % cam.width) (p / cam.width)
      refine ⟨trace (p / 128) (p % 128) ⟨cam.point, _⟩ :: l, ?_, .cons ⟨_, hr, rfl⟩ hrel⟩
      rw [List.map_cons, renderList]
      rw [Nat.div_add_mod' p 128, C78_index _ _ hw (lt_trans hp hsize)]
      simp only [Outcome.bind, hr, hl]
  obtain ⟨l, hl, hrel⟩ := key (List.range (cam.width * cam.height)) fun p hp => List.mem_range.1 hp
  refine ⟨l, ?_, ?_, ?_⟩
  · unfold render
    rw [places_eq]
    exact hl
  · rw [← hrel.length_eq, List.length_range]
  · intro x y hx hy
    have hlt : y * cam.width + x < cam.width * cam.height := by nlinarith
    have hlen : l.length = cam.width * cam.height := by rw [← hrel.length_eq, List.length_range]
    have hlt' : y * cam.width + x < l.length := by omega
    obtain ⟨ray, h1, h2⟩ := (List.forall₂_iff_get.1 hrel).2 (y * cam.width + x) (by simpa using hlt) hlt'
    have e1 : (y * cam.width + x) % cam.width = x := by rw [Nat.mul_add_mod_self_right, Nat.mod_eq_of_lt hx]
    have e2 : (y * cam.width + x) / cam.width = y := by
      rw [mul_comm, Nat.mul_add_div (by omega), Nat.div_eq_of_lt hx, add_zero]
    simp only [List.get_eq_getElem, List.getElem_range] at h1 h2
    rw [e1, e2] at h1
    exact ⟨ray, _, _, h1, by rw [List.getElem?_eq_getElem hlt', h2]⟩

end Simple.Render.Camera
