import Verif.Geometry.TriangleProps
import Verif.Render.FrameProps
import Verif.Render.MeshProps
import Verif.Render.ShadingModel

/-! # C118: the normals used to shade (feature `textures`) -/

namespace Simple.Render.Shading

open Geometry Materials Meshing
open Materials.Spec (Orthonormal)

namespace Spec

/-- The normal that the hit should have at the point with coordinates `u` and `v`: that of each vertex, weighted as the
point is. -/
noncomputable def blend (normals : Normals) (u v : ℝ) : V3 ℝ :=
  normals.1.scale (1 - u - v) + normals.2.1.scale u + normals.2.2.scale v

end Spec

private theorem dot_self (v : V3 ℝ) : v.dot v = v.lengthSquared := by unfold V3.dot V3.lengthSquared; ring

private theorem scale_dot (u v : V3 ℝ) (k : ℝ) : (u.scale k).dot v = k * u.dot v := by
  unfold V3.dot
  simp only [V3.scale_x, V3.scale_y, V3.scale_z]
  ring

private theorem neg_unit {n : V3 ℝ} (h : n.lengthSquared = 1) : (n.scale (-1)).lengthSquared = 1 := by
  unfold V3.lengthSquared at h ⊢
  simp only [V3.scale_x, V3.scale_y, V3.scale_z]
  linarith

private theorem hit_crosses {ray : Ray ℝ} {tr : Triangle ℝ} {r} (h : Triangle.baricentric ray tr = some r) :
    ((tr.b - tr.a).cross (tr.c - tr.a)).dot ray.direction ≠ 0 := by
  intro h0
  have hD : (tr.b - tr.a).dot (ray.direction.cross (tr.c - tr.a)) = 0 := by
    have : (tr.b - tr.a).dot (ray.direction.cross (tr.c - tr.a)) = -((tr.b - tr.a).cross (tr.c - tr.a)).dot ray.direction := by
      unfold V3.dot V3.cross; ring
    rw [this, h0, neg_zero]
  unfold Triangle.baricentric at h
  dsimp only at h
  rw [hD, if_pos (by norm_num)] at h
  cases h

private theorem shaded_inv {tr : Triangle ℝ} {normals : Normals} {ray : Ray ℝ} {n e1 e2 : V3 ℝ} {side : Side}
    (h : shadedFrame tr normals ray = .ok (some (n, side, e1, e2))) :
    ∃ p u v g, Triangle.baricentric ray tr = some (p, u, v) ∧ hitFrame tr.a tr.b tr.c ray.direction = .ok (g, side, e1, e2) ∧
      interpolateNormal normals u v side = .ok n := by
  unfold shadedFrame at h
  cases hb : Triangle.baricentric ray tr with
  | none => rw [hb] at h; simp at h
  | some r =>
    obtain ⟨p, u, v⟩ := r
    rw [hb] at h
    simp only at h
    cases hf : hitFrame tr.a tr.b tr.c ray.direction with
    | err => rw [hf] at h; simp [Outcome.bind] at h
    | panic => rw [hf] at h; simp [Outcome.bind] at h
    | ok f =>
      obtain ⟨g, s, x1, x2⟩ := f
      rw [hf] at h
      simp only [Outcome.bind] at h
      cases hi : interpolateNormal normals u v s with
      | err => rw [hi] at h; simp at h
      | panic => rw [hi] at h; simp at h
      | ok m =>
        rw [hi] at h
        simp only [Outcome.ok.injEq, Option.some.injEq, Prod.mk.injEq] at h
        obtain ⟨rfl, rfl, rfl, rfl⟩ := h
        exact ⟨p, u, v, g, rfl, rfl, hi⟩

private theorem interpolate_inv {normals : Normals} {u v : ℝ} {side : Side} {n : V3 ℝ}
    (h : interpolateNormal normals u v side = .ok n) :
    ∃ m k, 0 < k ∧ m.lengthSquared = 1 ∧
      m = (normals.1.scale u + normals.2.1.scale v + normals.2.2.scale (1 - u - v)).scale k ∧
      n = (if side = .back then m.scale (-1) else m) := by
  unfold interpolateNormal at h
  cases hn : (normals.1.scale u + normals.2.1.scale v + normals.2.2.scale (1 - u - v)).normalize with
  | err => rw [hn] at h; simp [Outcome.bind] at h
  | panic => rw [hn] at h; simp [Outcome.bind] at h
  | ok m =>
    obtain ⟨hu, k, hk, hm⟩ := Plane.unit_of_normalize hn
    rw [hn] at h
    refine ⟨m, k, hk, hu, hm, ?_⟩
    cases side <;> simpa [Outcome.bind] using h.symm

private theorem interpolate_unit {normals : Normals} {u v : ℝ} {m : V3 ℝ} (side : Side)
    (hm : normals.1.scale u + normals.2.1.scale v + normals.2.2.scale (1 - u - v) = m) (h1 : m.lengthSquared = 1) :
    interpolateNormal normals u v side = .ok (if side = .back then m.scale (-1) else m) := by
  unfold interpolateNormal
  rw [hm, Plane.normalize_unit h1]
  cases side <;> simp [Outcome.bind]

/-- C118: the normal used to shade is along the blend of the normals of the vertices, towards the side of the ray, if the
normals are given from that of the second vertex, and not from that of the first as meshing does. -/
theorem C118_rotated_partial (tr : Triangle ℝ) (na nb nc n e1 e2 : V3 ℝ) (ray : Ray ℝ) (side : Side)
    (h : shadedFrame tr (nb, nc, na) ray = .ok (some (n, side, e1, e2))) :
    ∃ p u v k, Triangle.baricentric ray tr = some (p, u, v) ∧ 0 < k ∧
      n = (Spec.blend (na, nb, nc) u v).scale (if side = .back then -k else k) := by
  obtain ⟨p, u, v, g, hb, -, hi⟩ := shaded_inv h
  obtain ⟨m, k, hk, -, rfl, rfl⟩ := interpolate_inv hi
  refine ⟨p, u, v, k, hb, hk, ?_⟩
  unfold Spec.blend
  split_ifs
  all_goals
    ext
    · simp only [V3.add_x, V3.scale_x]; ring
    · simp only [V3.add_y, V3.scale_y]; ring
    · simp only [V3.add_z, V3.scale_z]; ring

/-- C118: the normal used to shade has length one. -/
theorem C118_unit_partial (tr : Triangle ℝ) (normals : Normals) (ray : Ray ℝ) (n e1 e2 : V3 ℝ) (side : Side)
    (h : shadedFrame tr normals ray = .ok (some (n, side, e1, e2))) : n.lengthSquared = 1 := by
  obtain ⟨p, u, v, g, -, -, hi⟩ := shaded_inv h
  obtain ⟨m, k, -, hu, -, rfl⟩ := interpolate_inv hi
  split_ifs
  · exact neg_unit hu
  · exact hu

/-- C118: when the normals of the three vertices are on the same side of the triangle as seen along the ray, the normal used
to shade faces the ray. -/
theorem C118_faces_partial (tr : Triangle ℝ) (normals : Normals) (ray : Ray ℝ) (n e1 e2 p : V3 ℝ) (u v : ℝ) (side : Side)
    (h : shadedFrame tr normals ray = .ok (some (n, side, e1, e2)))
    (hb : Triangle.baricentric ray tr = some (p, u, v)) (hu : 0 ≤ u) (hv : 0 ≤ v) (huv : u + v ≤ 1)
    (hs : ∀ m, m = normals.1 ∨ m = normals.2.1 ∨ m = normals.2.2 →
      0 < m.dot ray.direction * ((tr.b - tr.a).cross (tr.c - tr.a)).dot ray.direction) :
    n.dot ray.direction < 0 := by
  have hx := hit_crosses hb
  obtain ⟨p', u', v', g, hb', hf, hi⟩ := shaded_inv h
  rw [hb] at hb'
  simp only [Option.some.injEq, Prod.mk.injEq] at hb'
  obtain ⟨rfl, rfl, rfl⟩ := hb'
  obtain ⟨m, k, hk, -, hm, rfl⟩ := interpolate_inv hi
  -- The side that the code found is that of the ray.
  have hside : (side = .back ↔ 0 < ((tr.b - tr.a).cross (tr.c - tr.a)).dot ray.direction) := by
    unfold hitFrame at hf
    dsimp only at hf
    cases hn : ((tr.b - tr.a).cross (tr.c - tr.a)).normalize with
    | err => rw [hn] at hf; simp [Outcome.bind] at hf
    | panic => rw [hn] at hf; simp [Outcome.bind] at hf
    | ok nn =>
      obtain ⟨-, l, hl, hnn⟩ := Plane.unit_of_normalize hn
      rw [hn] at hf
      simp only [Outcome.bind] at hf
      have hd : nn.dot ray.direction = l * ((tr.b - tr.a).cross (tr.c - tr.a)).dot ray.direction := by
        rw [hnn, scale_dot]
      have hs2 : side = (Side.get nn ray.direction).2 := by
        cases he : (tr.b - tr.a).normalize with
        | err => rw [he] at hf; simp at hf
        | panic => rw [he] at hf; simp at hf
        | ok x =>
          rw [he] at hf
          simp only at hf
          cases hc : ((Side.get nn ray.direction).1.cross x).normalize with
          | err => rw [hc] at hf; simp at hf
          | panic => rw [hc] at hf; simp at hf
          | ok y =>
            rw [hc] at hf
            simp only at hf
            cases hq : (Side.get nn ray.direction).2 <;> rw [hq] at hf <;> simp at hf <;> exact hf.2.1.symm
      rw [hs2]
      unfold Side.get
      dsimp only
      rw [hd]
      rcases lt_or_gt_of_ne hx with hlt | hgt
      · rw [if_pos (mul_neg_of_pos_of_neg hl hlt)]
        simpa using hlt.le
      · rw [if_neg (not_lt.2 (mul_pos hl hgt).le), if_pos (mul_pos hl hgt)]
        simpa using hgt
  have hmd : m.dot ray.direction = k * (u * normals.1.dot ray.direction + v * normals.2.1.dot ray.direction +
      (1 - u - v) * normals.2.2.dot ray.direction) := by
    rw [hm]
    unfold V3.dot
    simp only [V3.scale_x, V3.scale_y, V3.scale_z, V3.add_x, V3.add_y, V3.add_z]
    ring
  have h1 := hs _ (Or.inl rfl)
  have h2 := hs _ (Or.inr (Or.inl rfl))
  have h3 := hs _ (Or.inr (Or.inr rfl))
  have hpos : ∀ a b c : ℝ, 0 < a → 0 < b → 0 < c → 0 < u * a + v * b + (1 - u - v) * c := by
    intro a b c ha hb hc
    rcases hu.eq_or_lt with hu0 | hu0
    · rcases hv.eq_or_lt with hv0 | hv0
      · rw [← hu0, ← hv0]; linarith
      · have := mul_pos hv0 hb
        have := mul_nonneg hu ha.le
        have := mul_nonneg (by linarith : 0 ≤ 1 - u - v) hc.le
        linarith
    · have := mul_pos hu0 ha
      have := mul_nonneg hv hb.le
      have := mul_nonneg (by linarith : 0 ≤ 1 - u - v) hc.le
      linarith
  rcases lt_or_gt_of_ne hx with hlt | hgt
  · rw [if_neg (fun e => absurd (hside.1 e) (not_lt.2 hlt.le)), hmd]
    have q1 := neg_of_mul_pos_left h1 hlt.le
    have q2 := neg_of_mul_pos_left h2 hlt.le
    have q3 := neg_of_mul_pos_left h3 hlt.le
    have := hpos _ _ _ (neg_pos.2 q1) (neg_pos.2 q2) (neg_pos.2 q3)
    refine mul_neg_of_pos_of_neg hk ?_
    linarith
  · rw [if_pos (hside.2 hgt), scale_dot, hmd]
    have q1 := pos_of_mul_pos_left h1 hgt.le
    have q2 := pos_of_mul_pos_left h2 hgt.le
    have q3 := pos_of_mul_pos_left h3 hgt.le
    have := mul_pos hk (hpos _ _ _ q1 q2 q3)
    linarith

/-- C118: a triangle with the normals that meshing gives it is shaded as a flat one: the hit is the same as without
interpolation, from both sides. -/
theorem C118_flat_partial (tr : Triangle ℝ) (ray : Ray ℝ) (p : V3 ℝ) (u v : ℝ) (ts : List (Triangle ℝ)) (ns : List Normals)
    (normals : Normals) (hm : meshTriangle tr = .ok (ts, ns)) (hn : normals ∈ ns)
    (hside : 1 / 10 ^ 20 < (tr.b - tr.a).lengthSquared) (hb : Triangle.baricentric ray tr = some (p, u, v)) :
    ∃ n side e1 e2, hitFrame tr.a tr.b tr.c ray.direction = .ok (n, side, e1, e2) ∧
      shadedFrame tr normals ray = .ok (some (n, side, e1, e2)) := by
  have hx := hit_crosses hb
  obtain ⟨-, g, rfl, hg, k, hk, hgk⟩ := C80_triangle tr ts ns hm
  rw [List.mem_singleton] at hn
  subst hn
  have hnorm : ((tr.b - tr.a).cross (tr.c - tr.a)).normalize = .ok g := by
    unfold meshTriangle at hm
    simp only at hm
    cases hc : ((tr.b - tr.a).cross (tr.c - tr.a)).normalize with
    | err => rw [hc] at hm; simp [Outcome.bind] at hm
    | panic => rw [hc] at hm; simp [Outcome.bind] at hm
    | ok x =>
      rw [hc] at hm
      simp only [Outcome.bind, Outcome.ok.injEq, Prod.mk.injEq, List.cons.injEq, and_true] at hm
      rw [hm.2.1]
  have harea : 1 / 10 ^ 20 < ((tr.b - tr.a).cross (tr.c - tr.a)).lengthSquared := by
    by_contra hle
    unfold V3.normalize at hnorm
    rw [if_neg hle] at hnorm
    cases hnorm
  obtain ⟨n, side, e1, e2, hf, ho, hneg, -, -, hcase⟩ := C84_frame tr.a tr.b tr.c ray.direction harea hside hx
  refine ⟨n, side, e1, e2, hf, ?_⟩
  have hng : n = (if side = .back then g.scale (-1) else g) := by
    unfold hitFrame at hf
    dsimp only at hf
    rw [hnorm] at hf
    simp only [Outcome.bind] at hf
    cases he : (tr.b - tr.a).normalize with
    | err => rw [he] at hf; simp at hf
    | panic => rw [he] at hf; simp at hf
    | ok x =>
      rw [he] at hf
      simp only at hf
      cases hc : ((Side.get g ray.direction).1.cross x).normalize with
      | err => rw [hc] at hf; simp at hf
      | panic => rw [hc] at hf; simp at hf
      | ok y =>
        rw [hc] at hf
        simp only at hf
        have hgd : g.dot ray.direction = k * ((tr.b - tr.a).cross (tr.c - tr.a)).dot ray.direction := by
          rw [hgk, scale_dot]
        rcases lt_or_gt_of_ne hx with hlt | hgt
        · have hq : Side.get g ray.direction = (g, .front) := by
            unfold Side.get
            dsimp only
            rw [hgd, if_pos (mul_neg_of_pos_of_neg hk hlt)]
          rw [hq] at hf
          simp only [Outcome.ok.injEq, Prod.mk.injEq] at hf
          rw [← hf.1, ← hf.2.1]
          simp
        · have hq : Side.get g ray.direction = (g.scale (-1), .back) := by
            unfold Side.get
            dsimp only
            rw [hgd, if_neg (not_lt.2 (mul_pos hk hgt).le), if_pos (mul_pos hk hgt)]
          rw [hq] at hf
          simp only [Outcome.ok.injEq, Prod.mk.injEq] at hf
          rw [← hf.1, ← hf.2.1]
          simp
  have hsum : g.scale u + g.scale v + g.scale (1 - u - v) = g := by
    ext
    · simp only [V3.add_x, V3.scale_x]; ring
    · simp only [V3.add_y, V3.scale_y]; ring
    · simp only [V3.add_z, V3.scale_z]; ring
  unfold shadedFrame
  rw [hb]
  simp only
  rw [hf]
  simp only [Outcome.bind]
  rw [interpolate_unit (normals := (g, g, g)) side hsum hg, ← hng]

/-- C118: shading a hit inside a triangle does not panic when the normals of its vertices have length one and no two of them
are more than a right angle apart. -/
theorem C118_total_partial (normals : Normals) (u v : ℝ) (side : Side) (hu : 0 ≤ u) (hv : 0 ≤ v) (huv : u + v ≤ 1)
    (h0 : normals.1.lengthSquared = 1) (h1 : normals.2.1.lengthSquared = 1) (h2 : normals.2.2.lengthSquared = 1)
    (h01 : 0 ≤ normals.1.dot normals.2.1) (h02 : 0 ≤ normals.1.dot normals.2.2) (h12 : 0 ≤ normals.2.1.dot normals.2.2) :
    ∃ n, interpolateNormal normals u v side = .ok n := by
  have hl : (normals.1.scale u + normals.2.1.scale v + normals.2.2.scale (1 - u - v)).lengthSquared =
      u ^ 2 * normals.1.lengthSquared + v ^ 2 * normals.2.1.lengthSquared + (1 - u - v) ^ 2 * normals.2.2.lengthSquared +
        2 * (u * v * normals.1.dot normals.2.1 + u * (1 - u - v) * normals.1.dot normals.2.2 +
          v * (1 - u - v) * normals.2.1.dot normals.2.2) := by
    unfold V3.lengthSquared V3.dot
    simp only [V3.scale_x, V3.scale_y, V3.scale_z, V3.add_x, V3.add_y, V3.add_z]
    ring
  have hw : 0 ≤ 1 - u - v := by linarith
  have hbig : 1 / 3 ≤ (normals.1.scale u + normals.2.1.scale v + normals.2.2.scale (1 - u - v)).lengthSquared := by
    rw [hl, h0, h1, h2]
    have a := mul_nonneg (mul_nonneg hu hv) h01
    have b := mul_nonneg (mul_nonneg hu hw) h02
    have c := mul_nonneg (mul_nonneg hv hw) h12
    have : 1 / 3 ≤ u ^ 2 + v ^ 2 + (1 - u - v) ^ 2 := by
      nlinarith [sq_nonneg (u - v), sq_nonneg (u - (1 - u - v)), sq_nonneg (v - (1 - u - v))]
    linarith
  unfold interpolateNormal V3.normalize
  rw [if_pos (lt_of_lt_of_le (by norm_num) hbig)]
  cases side <;> simp [Outcome.bind]

/-- C118 fails: at each vertex of a triangle the hit gets the normal of another one.  The first vertex gets that of the
third, the second that of the first, and the third that of the second, from every side and whatever the normals are. -/
theorem C118_violated_vertex (tr : Triangle ℝ) (normals : Normals) (ray : Ray ℝ) (t : ℝ)
    (h0 : normals.1.lengthSquared = 1) (h1 : normals.2.1.lengthSquared = 1) (h2 : normals.2.2.lengthSquared = 1)
    (harea : 1 / 10 ^ 20 < ((tr.b - tr.a).cross (tr.c - tr.a)).lengthSquared)
    (hside : 1 / 10 ^ 20 < (tr.b - tr.a).lengthSquared)
    (ht : 1 / 100000 < t) (hc : 1 / 100000 ≤ |Triangle.Spec.crossing ray tr|) :
    ∃ side e1 e2, (∃ g, hitFrame tr.a tr.b tr.c ray.direction = .ok (g, side, e1, e2)) ∧
      (ray.project t = tr.a → shadedFrame tr normals ray =
        .ok (some (if side = .back then normals.2.2.scale (-1) else normals.2.2, side, e1, e2))) ∧
      (ray.project t = tr.b → shadedFrame tr normals ray =
        .ok (some (if side = .back then normals.1.scale (-1) else normals.1, side, e1, e2))) ∧
      (ray.project t = tr.c → shadedFrame tr normals ray =
        .ok (some (if side = .back then normals.2.1.scale (-1) else normals.2.1, side, e1, e2))) := by
  have hx : ((tr.b - tr.a).cross (tr.c - tr.a)).dot ray.direction ≠ 0 := by
    intro e
    have : Triangle.Spec.crossing ray tr = ((tr.b - tr.a).cross (tr.c - tr.a)).dot ray.direction := by
      unfold Triangle.Spec.crossing V3.dot; ring
    rw [this, e, abs_zero] at hc
    norm_num at hc
  obtain ⟨g, side, e1, e2, hf, -⟩ := C84_frame tr.a tr.b tr.c ray.direction harea hside hx
  refine ⟨side, e1, e2, ⟨g, hf⟩, ?_⟩
  have key : ∀ (u v : ℝ) (m : V3 ℝ), 0 ≤ u → 0 ≤ v → u + v ≤ 1 → ray.project t = Triangle.Spec.at_ tr u v →
      normals.1.scale u + normals.2.1.scale v + normals.2.2.scale (1 - u - v) = m → m.lengthSquared = 1 →
      shadedFrame tr normals ray = .ok (some (if side = .back then m.scale (-1) else m, side, e1, e2)) := by
    intro u v m hu hv huv hp hm h1
    unfold shadedFrame
    rw [Triangle.C44_rendering_complete ray tr t u v hp hu hv huv ht hc]
    simp only
    rw [hf]
    simp only [Outcome.bind]
    rw [interpolate_unit side hm h1]
  refine ⟨fun hp => key 0 0 _ le_rfl le_rfl (by norm_num) ?_ ?_ h2, fun hp => key 1 0 _ (by norm_num) le_rfl (by norm_num) ?_ ?_ h0,
    fun hp => key 0 1 _ le_rfl (by norm_num) (by norm_num) ?_ ?_ h1⟩
  all_goals
    try rw [hp]
    try unfold Triangle.Spec.at_
    ext <;> simp [V3.add_x, V3.add_y, V3.add_z, V3.scale_x, V3.scale_y, V3.scale_z, V3.sub_x, V3.sub_y, V3.sub_z]

/-- The triangle with corners on the first two axes, seen from above at its first vertex: its normal is the one that was
given for the third vertex, and not the one given for the first. -/
theorem C118_violated_blend :
    ∃ (tr : Triangle ℝ) (normals : Normals) (ray : Ray ℝ) (n e1 e2 : V3 ℝ),
      normals.1.lengthSquared = 1 ∧ normals.2.1.lengthSquared = 1 ∧ normals.2.2.lengthSquared = 1 ∧
      Triangle.baricentric ray tr = some (tr.a, 0, 0) ∧ shadedFrame tr normals ray = .ok (some (n, .front, e1, e2)) ∧
      ∀ k, n ≠ (Spec.blend normals 0 0).scale k := by
  have hc : Triangle.Spec.crossing (⟨⟨0, 0, 1⟩, ⟨0, 0, -1⟩⟩ : Ray ℝ) ⟨⟨0, 0, 0⟩, ⟨1, 0, 0⟩, ⟨0, 1, 0⟩⟩ = -1 := by
    norm_num [Triangle.Spec.crossing, V3.dot, V3.cross]
  have hp : (⟨⟨0, 0, 1⟩, ⟨0, 0, -1⟩⟩ : Ray ℝ).project 1 = ⟨0, 0, 0⟩ := by
    ext <;> norm_num [Ray.project]
  obtain ⟨side, e1, e2, ⟨g, hg⟩, ha, -⟩ := C118_violated_vertex ⟨⟨0, 0, 0⟩, ⟨1, 0, 0⟩, ⟨0, 1, 0⟩⟩
    (⟨0, 0, 1⟩, ⟨0, 0, 1⟩, ⟨0, 3 / 5, 4 / 5⟩) ⟨⟨0, 0, 1⟩, ⟨0, 0, -1⟩⟩ 1 (by norm_num [V3.lengthSquared])
    (by norm_num [V3.lengthSquared]) (by norm_num [V3.lengthSquared]) (by norm_num [V3.lengthSquared, V3.cross])
    (by norm_num [V3.lengthSquared]) (by norm_num) (by rw [hc]; norm_num)
  obtain ⟨g', side', x1, x2, hg', -, -, -, -, hq⟩ := C84_frame ⟨0, 0, 0⟩ ⟨1, 0, 0⟩ ⟨0, 1, 0⟩ ⟨0, 0, -1⟩
    (by norm_num [V3.cross, V3.lengthSquared]) (by norm_num [V3.lengthSquared]) (by norm_num [V3.cross, V3.dot])
  have hfront : side = .front := by
    have e := Outcome.ok.inj (hg.symm.trans hg')
    simp only [Prod.mk.injEq] at e
    rw [e.2.1]
    rcases hq with hq | hq
    · exact hq.2.1
    · have := hq.1
      norm_num [V3.cross, V3.dot] at this
  have ha := ha hp
  subst hfront
  refine ⟨_, _, _, _, e1, e2, ?_, ?_, ?_, ?_, ha, ?_⟩
  · norm_num [V3.lengthSquared]
  · norm_num [V3.lengthSquared]
  · norm_num [V3.lengthSquared]
  · have := Triangle.C44_rendering_complete (⟨⟨0, 0, 1⟩, ⟨0, 0, -1⟩⟩ : Ray ℝ) ⟨⟨0, 0, 0⟩, ⟨1, 0, 0⟩, ⟨0, 1, 0⟩⟩ 1 0 0
      (by rw [hp]; ext <;> simp [Triangle.Spec.at_]) le_rfl le_rfl (by norm_num) (by norm_num) (by rw [hc]; norm_num)
    rw [this]
    simp only [Option.some.injEq, Prod.mk.injEq, and_true]
    ext <;> simp [Triangle.Spec.at_]
  · intro k e
    rw [if_neg (by simp)] at e
    have := congrArg V3.y e
    norm_num [Spec.blend] at this

/-- C118 fails: unless the normal used to shade is that of the triangle, the axes of the hit are no longer at right angles,
and taking the normal of the triangle to the coordinates of the hit and back gives another vector. -/
theorem C118_violated_axes (tr : Triangle ℝ) (normals : Normals) (ray : Ray ℝ) (n e1 e2 : V3 ℝ) (side : Side)
    (hside : 1 / 10 ^ 20 < (tr.b - tr.a).lengthSquared)
    (harea : 1 / 10 ^ 20 < ((tr.b - tr.a).cross (tr.c - tr.a)).lengthSquared)
    (h : shadedFrame tr normals ray = .ok (some (n, side, e1, e2))) :
    ∃ g, hitFrame tr.a tr.b tr.c ray.direction = .ok (g, side, e1, e2) ∧
      (n ≠ g → n ≠ g.scale (-1) → ¬Orthonormal e1 e2 n ∧ toWorld n e1 e2 (toLocal n e1 e2 g) ≠ g) := by
  have hunit := C118_unit_partial tr normals ray n e1 e2 side h
  obtain ⟨p, u, v, g, hb, hf, -⟩ := shaded_inv h
  refine ⟨g, hf, fun ne1 ne2 => ?_⟩
  obtain ⟨g', side', x1, x2, hf', ho, -⟩ := C84_frame tr.a tr.b tr.c ray.direction harea hside (hit_crosses hb)
  rw [hf] at hf'
  have := Outcome.ok.inj hf'
  simp only [Prod.mk.injEq] at this
  obtain ⟨rfl, rfl, rfl, rfl⟩ := this
  have hback : toWorld n e1 e2 (toLocal n e1 e2 g) ≠ g := by
    intro e
    have hl : toWorld n e1 e2 (toLocal n e1 e2 g) = n.scale (g.dot n) := by
      unfold toWorld toLocal
      have z1 : g.dot e1 = 0 := by rw [← ho.onethree]; unfold V3.dot; ring
      have z2 : g.dot e2 = 0 := by rw [← ho.twothree]; unfold V3.dot; ring
      simp only [z1, z2]
      ext <;> simp
    rw [hl] at e
    have hs : g.dot n * g.dot n = 1 := by
      have h3 : g.dot g = 1 := ho.three
      have h5 : g.dot g = g.dot n * n.dot g := by
        conv_lhs => rw [← e]
        rw [scale_dot]
        conv_lhs => rw [e]
      have h6 : n.dot g = g.dot n := by unfold V3.dot; ring
      rw [h6, h3] at h5
      exact h5.symm
    rcases mul_self_eq_one_iff.1 hs with h1 | h1
    · exact ne1 (by rw [← e, h1]; ext <;> simp)
    · exact ne2 (by rw [← e, h1]; ext <;> simp)
  exact ⟨fun ho' => hback (C84_coordinates e1 e2 n ho' g g).1, hback⟩

/-- The triangle with corners on the first two axes and the normals that meshing gives it, seen from above and from below. -/
example (z : ℝ) (hz : z = 1 ∨ z = -1) : ∃ ts ns normals p u v, meshTriangle ⟨⟨0, 0, 0⟩, ⟨1, 0, 0⟩, ⟨0, 1, 0⟩⟩ = .ok (ts, ns) ∧ normals ∈ ns ∧
    Triangle.baricentric (⟨⟨1 / 4, 1 / 2, z⟩, ⟨0, 0, -z⟩⟩ : Ray ℝ) ⟨⟨0, 0, 0⟩, ⟨1, 0, 0⟩, ⟨0, 1, 0⟩⟩ = some (p, u, v) ∧
    (1 : ℝ) / 10 ^ 20 < ((⟨1, 0, 0⟩ : V3 ℝ) - ⟨0, 0, 0⟩).lengthSquared := by
  have hm : meshTriangle ⟨⟨0, 0, 0⟩, ⟨1, 0, 0⟩, ⟨0, 1, 0⟩⟩ =
      .ok ([⟨⟨0, 0, 0⟩, ⟨1, 0, 0⟩, ⟨0, 1, 0⟩⟩], [(⟨0, 0, 1⟩, ⟨0, 0, 1⟩, ⟨0, 0, 1⟩)]) := by
    unfold meshTriangle
    have : ((⟨1, 0, 0⟩ - ⟨0, 0, 0⟩ : V3 ℝ).cross (⟨0, 1, 0⟩ - ⟨0, 0, 0⟩)) = ⟨0, 0, 1⟩ := by
      ext <;> norm_num [V3.cross]
    simp only [this]
    rw [Plane.normalize_unit (by norm_num [V3.lengthSquared])]
    rfl
  refine ⟨_, _, _, Triangle.Spec.at_ ⟨⟨0, 0, 0⟩, ⟨1, 0, 0⟩, ⟨0, 1, 0⟩⟩ (1 / 4) (1 / 2), 1 / 4, 1 / 2, hm, List.mem_singleton.2 rfl, ?_, by norm_num [V3.lengthSquared]⟩
  refine Triangle.C44_rendering_complete _ _ 1 (1 / 4) (1 / 2) ?_ (by norm_num) (by norm_num) (by norm_num) (by norm_num) ?_
  · ext <;> norm_num [Ray.project, Triangle.Spec.at_]
  · rcases hz with rfl | rfl <;> norm_num [Triangle.Spec.crossing, V3.dot, V3.cross]

/-- Three normals at right angles. -/
example (side : Side) : ∃ n, interpolateNormal (⟨1, 0, 0⟩, ⟨0, 1, 0⟩, ⟨0, 0, 1⟩) (1 / 4) (1 / 2) side = .ok n :=
  C118_total_partial _ _ _ _ (by norm_num) (by norm_num) (by norm_num) (by norm_num [V3.lengthSquared])
    (by norm_num [V3.lengthSquared]) (by norm_num [V3.lengthSquared]) (by norm_num [V3.dot]) (by norm_num [V3.dot])
    (by norm_num [V3.dot])

/-- A curved triangle, seen from above: its normals are on the side of the ray, and the normal used to shade is not that of
the triangle. -/
example : ∃ n e1 e2, shadedFrame ⟨⟨0, 0, 0⟩, ⟨1, 0, 0⟩, ⟨0, 1, 0⟩⟩ (⟨0, 0, 1⟩, ⟨0, 0, 1⟩, ⟨0, 3 / 5, 4 / 5⟩)
      ⟨⟨0, 0, 1⟩, ⟨0, 0, -1⟩⟩ = .ok (some (n, .front, e1, e2)) ∧ ¬Orthonormal e1 e2 n ∧ n.dot ⟨0, 0, -1⟩ < 0 := by
  have hc : Triangle.Spec.crossing (⟨⟨0, 0, 1⟩, ⟨0, 0, -1⟩⟩ : Ray ℝ) ⟨⟨0, 0, 0⟩, ⟨1, 0, 0⟩, ⟨0, 1, 0⟩⟩ = -1 := by
    norm_num [Triangle.Spec.crossing, V3.dot, V3.cross]
  have hp : (⟨⟨0, 0, 1⟩, ⟨0, 0, -1⟩⟩ : Ray ℝ).project 1 = ⟨0, 0, 0⟩ := by
    ext <;> norm_num [Ray.project]
  obtain ⟨side, e1, e2, -, ha, -⟩ := C118_violated_vertex ⟨⟨0, 0, 0⟩, ⟨1, 0, 0⟩, ⟨0, 1, 0⟩⟩
    (⟨0, 0, 1⟩, ⟨0, 0, 1⟩, ⟨0, 3 / 5, 4 / 5⟩) ⟨⟨0, 0, 1⟩, ⟨0, 0, -1⟩⟩ 1 (by norm_num [V3.lengthSquared])
    (by norm_num [V3.lengthSquared]) (by norm_num [V3.lengthSquared]) (by norm_num [V3.lengthSquared, V3.cross])
    (by norm_num [V3.lengthSquared]) (by norm_num) (by rw [hc]; norm_num)
  have ha := ha hp
  obtain ⟨g, hg, hn⟩ := C118_violated_axes _ _ _ _ _ _ _ (by norm_num [V3.lengthSquared]) (by norm_num [V3.lengthSquared, V3.cross]) ha
  obtain ⟨g', side', x1, x2, hg', ho, -, hb, hc', hq⟩ := C84_frame ⟨0, 0, 0⟩ ⟨1, 0, 0⟩ ⟨0, 1, 0⟩ ⟨0, 0, -1⟩
    (by norm_num [V3.cross, V3.lengthSquared]) (by norm_num [V3.lengthSquared]) (by norm_num [V3.cross, V3.dot])
  have e := Outcome.ok.inj (hg.symm.trans hg')
  simp only [Prod.mk.injEq] at e
  obtain ⟨rfl, rfl, rfl, rfl⟩ := e
  have hfront : side = .front := by
    rcases hq with hq | hq
    · exact hq.2.1
    · have := hq.1
      norm_num [V3.cross, V3.dot] at this
  subst hfront
  rw [if_neg (by simp)] at ha hn
  have hy : g.y = 0 := by simpa [V3.dot] using hc'
  refine ⟨_, _, _, ha, (hn (fun e => ?_) (fun e => ?_)).1, by norm_num [V3.dot]⟩
  · have := congrArg V3.y e
    rw [hy] at this
    norm_num at this
  · have := congrArg V3.y e
    rw [V3.scale_y, hy] at this
    norm_num at this

end Simple.Render.Shading
