import Mathlib.Tactic.LinearCombination
import Verif.Geometry.DiskProps
import Verif.Render.MaterialModel

/-! # C84: the coordinates of a hit -/

namespace Simple.Render.Materials

open Geometry

namespace Spec

/-- Three directions of length one at right angles. -/
structure Orthonormal (e1 e2 n : V3 ℝ) : Prop where
  one : e1.dot e1 = 1
  two : e2.dot e2 = 1
  three : n.dot n = 1
  onetwo : e1.dot e2 = 0
  onethree : e1.dot n = 0
  twothree : e2.dot n = 0

/-- Six times the signed volume of the tetrahedron of three vectors: positive when they are right-handed. -/
def volume (u v w : V3 ℝ) : ℝ :=
  u.x * (v.y * w.z - v.z * w.y) - u.y * (v.x * w.z - v.z * w.x) + u.z * (v.x * w.y - v.y * w.x)

end Spec

open Spec

private theorem dot_comm (u v : V3 ℝ) : u.dot v = v.dot u := by unfold V3.dot; ring

private theorem basis {e1 e2 n : V3 ℝ} (h : Orthonormal e1 e2 n) (v : V3 ℝ) : toWorld n e1 e2 (toLocal n e1 e2 v) = v := by
  obtain ⟨a, b, c, d, e, f⟩ := h
  -- The rows are orthonormal, therefore so are the columns.
  have hm : !![e1.x, e1.y, e1.z; e2.x, e2.y, e2.z; n.x, n.y, n.z] * !![e1.x, e2.x, n.x; e1.y, e2.y, n.y; e1.z, e2.z, n.z] =
      (1 : Matrix (Fin 3) (Fin 3) ℝ) := by
    unfold V3.dot at a b c d e f
    ext i j
    fin_cases i <;> fin_cases j <;> simp [Matrix.mul_apply, Fin.sum_univ_three] <;> linarith
  have hm := mul_eq_one_comm.1 hm
  have q := fun i j => congrFun (congrFun hm i) j
  have q00 := q 0 0
  have q01 := q 0 1
  have q02 := q 0 2
  have q10 := q 1 0
  have q11 := q 1 1
  have q12 := q 1 2
  have q20 := q 2 0
  have q21 := q 2 1
  have q22 := q 2 2
  simp [Matrix.mul_apply, Fin.sum_univ_three] at q00 q01 q02 q10 q11 q12 q20 q21 q22
  unfold toWorld toLocal V3.dot
  ext
  · simp only [V3.add_x, V3.scale_x]
    linear_combination v.x * q00 + v.y * q01 + v.z * q02
  · simp only [V3.add_y, V3.scale_y]
    linear_combination v.x * q10 + v.y * q11 + v.z * q12
  · simp only [V3.add_z, V3.scale_z]
    linear_combination v.x * q20 + v.y * q21 + v.z * q22

/-- C84: with axes of length one at right angles, going to the coordinates of the hit and back, or there from them, gives
the same direction, and lengths and angles are the same in both. -/
theorem C84_coordinates (e1 e2 n : V3 ℝ) (h : Orthonormal e1 e2 n) (v w : V3 ℝ) :
    toWorld n e1 e2 (toLocal n e1 e2 v) = v ∧ toLocal n e1 e2 (toWorld n e1 e2 v) = v ∧
      (toLocal n e1 e2 v).dot (toLocal n e1 e2 w) = v.dot w ∧ (toWorld n e1 e2 v).dot (toWorld n e1 e2 w) = v.dot w ∧
      toWorld n e1 e2 ⟨0, 0, 1⟩ = n := by
  have back : ∀ v, toLocal n e1 e2 (toWorld n e1 e2 v) = v := by
    intro v
    obtain ⟨a, b, c, d, e, f⟩ := h
    unfold V3.dot at a b c d e f
    unfold toWorld toLocal V3.dot
    simp only [V3.add_x, V3.scale_x, V3.add_y, V3.scale_y, V3.add_z, V3.scale_z]
    ext <;> simp only
    · linear_combination v.x * a + v.y * d + v.z * e
    · linear_combination v.x * d + v.y * b + v.z * f
    · linear_combination v.x * e + v.y * f + v.z * c
  have iso : ∀ v w, (toWorld n e1 e2 v).dot (toWorld n e1 e2 w) = v.dot w := by
    intro v w
    obtain ⟨a, b, c, d, e, f⟩ := h
    unfold V3.dot at a b c d e f
    unfold toWorld V3.dot
    simp only [V3.add_x, V3.scale_x, V3.add_y, V3.scale_y, V3.add_z, V3.scale_z]
    linear_combination v.x * w.x * a + v.y * w.y * b + v.z * w.z * c + (v.x * w.y + v.y * w.x) * d +
      (v.x * w.z + v.z * w.x) * e + (v.y * w.z + v.z * w.y) * f
  refine ⟨basis h v, back v, ?_, iso v w, ?_⟩
  · rw [← iso, basis h, basis h]
  · unfold toWorld
    ext <;> simp

private theorem cross_dot (u v : V3 ℝ) : (u.cross v).dot u = 0 ∧ (u.cross v).dot v = 0 := by
  unfold V3.cross V3.dot
  constructor <;> simp only <;> ring

private theorem lagrange (u v : V3 ℝ) : (u.cross v).lengthSquared = u.lengthSquared * v.lengthSquared - u.dot v ^ 2 := by
  unfold V3.cross V3.dot V3.lengthSquared
  simp only
  ring

private theorem dot_self (v : V3 ℝ) : v.dot v = v.lengthSquared := by unfold V3.dot V3.lengthSquared; ring

private theorem normalize_ok {v : V3 ℝ} (h : 1 / 10 ^ 20 < v.lengthSquared) : ∃ n, v.normalize = .ok n := by
  unfold V3.normalize
  rw [if_pos h]
  exact ⟨_, rfl⟩

private theorem dot_scale (u v : V3 ℝ) (k : ℝ) : (u.scale k).dot v = k * u.dot v ∧ v.dot (u.scale k) = k * u.dot v := by
  unfold V3.dot
  simp only [V3.scale_x, V3.scale_y, V3.scale_z]
  constructor <;> ring

private theorem frame {a b c d nn m e1 : V3 ℝ} (hn : ((b - a).cross (c - a)).normalize = .ok nn) (he : (b - a).normalize = .ok e1)
    (hm : m = nn ∨ m = nn.scale (-1)) :
    (m.cross e1).normalize = .ok (m.cross e1) ∧ Orthonormal e1 (m.cross e1) m ∧ Orthonormal (m.cross e1) e1 m := by
  obtain ⟨un, k, hk, hkn⟩ := Plane.unit_of_normalize hn
  obtain ⟨ue, l, hl, hle⟩ := Plane.unit_of_normalize he
  have hne : nn.dot e1 = 0 := by
    rw [hkn, hle, (dot_scale _ _ _).1, (dot_scale _ _ _).2, dot_comm, (cross_dot _ _).1, mul_zero, mul_zero]
  have um : m.lengthSquared = 1 := by
    rcases hm with rfl | rfl
    · exact un
    · rw [← dot_self, (dot_scale _ _ _).1, (dot_scale _ _ _).2, dot_self, un]; norm_num
  have hme : m.dot e1 = 0 := by
    rcases hm with rfl | rfl
    · exact hne
    · rw [(dot_scale _ _ _).1, hne, mul_zero]
  have uc : (m.cross e1).lengthSquared = 1 := by rw [lagrange, um, ue, hme]; norm_num
  refine ⟨Plane.normalize_unit uc, ⟨?_, ?_, ?_, ?_, ?_, ?_⟩, ⟨?_, ?_, ?_, ?_, ?_, ?_⟩⟩
  · rw [dot_self, ue]
  · rw [dot_self, uc]
  · rw [dot_self, um]
  · rw [dot_comm, (cross_dot _ _).2]
  · rw [dot_comm, hme]
  · exact (cross_dot _ _).1
  · rw [dot_self, uc]
  · rw [dot_self, ue]
  · rw [dot_self, um]
  · exact (cross_dot _ _).2
  · exact (cross_dot _ _).1
  · rw [dot_comm, hme]

/-- C84: where a ray that is not parallel to a triangle hits it, the axes have length one and are at right angles, the
normal is at right angles with the sides of the triangle and faces the ray, and the side is the front exactly when the
vertices go counterclockwise as seen by the ray.  Seen from the front the axes are right-handed and the first one goes along
the first side; seen from the back they are left-handed and the second one does. -/
theorem C84_frame (a b c d : V3 ℝ) (harea : 1 / 10 ^ 20 < ((b - a).cross (c - a)).lengthSquared)
    (hside : 1 / 10 ^ 20 < (b - a).lengthSquared) (hd : ((b - a).cross (c - a)).dot d ≠ 0) :
    ∃ n side e1 e2, hitFrame a b c d = .ok (n, side, e1, e2) ∧ Orthonormal e1 e2 n ∧ n.dot d < 0 ∧
      n.dot (b - a) = 0 ∧ n.dot (c - a) = 0 ∧
      (((b - a).cross (c - a)).dot d < 0 ∧ side = .front ∧ volume e1 e2 n = 1 ∧ e1.dot (b - a) = (b - a).length ∨
        0 < ((b - a).cross (c - a)).dot d ∧ side = .back ∧ volume e1 e2 n = -1 ∧ e2.dot (b - a) = (b - a).length) := by
  obtain ⟨nn, hn⟩ := normalize_ok harea
  obtain ⟨e1, he⟩ := normalize_ok hside
  obtain ⟨un, k, hk, hkn⟩ := Plane.unit_of_normalize hn
  obtain ⟨ue, l, hl, hle⟩ := Plane.unit_of_normalize he
  have hdot : nn.dot d = k * ((b - a).cross (c - a)).dot d := by rw [hkn, (dot_scale _ _ _).1]
  have hb : nn.dot (b - a) = 0 := by rw [hkn, (dot_scale _ _ _).1, (cross_dot _ _).1, mul_zero]
  have hc : nn.dot (c - a) = 0 := by rw [hkn, (dot_scale _ _ _).1, (cross_dot _ _).2, mul_zero]
  have hlen : e1.dot (b - a) = (b - a).length := by
    rw [hle, (dot_scale _ _ _).1, dot_self]
    have h1 : l ^ 2 * (b - a).lengthSquared = 1 := by
      rw [← dot_self, hle, (dot_scale _ _ _).1, (dot_scale _ _ _).2, dot_self] at ue
      linarith
    have h2 : (b - a).length ^ 2 = (b - a).lengthSquared := by
      unfold V3.length
      exact Real.sq_sqrt (by unfold V3.lengthSquared; positivity)
    have h3 : 0 ≤ (b - a).length := Real.sqrt_nonneg _
    have h4 : l * (b - a).length = 1 := by
      have : (l * (b - a).length) ^ 2 = 1 := by rw [mul_pow, h2, h1]
      nlinarith [mul_nonneg hl.le h3]
    rw [← h2]
    linear_combination (b - a).length * h4
  have hvol : ∀ m : V3 ℝ, m.lengthSquared = 1 → m.dot e1 = 0 → volume e1 (m.cross e1) m = 1 ∧ volume (m.cross e1) e1 m = -1 := by
    intro m hm hme
    have key : volume e1 (m.cross e1) m = m.lengthSquared * e1.lengthSquared - m.dot e1 ^ 2 := by
      unfold volume V3.cross V3.lengthSquared V3.dot; simp only; ring
    have key2 : volume (m.cross e1) e1 m = -volume e1 (m.cross e1) m := by
      unfold volume; ring
    rw [key2, key, hm, ue, hme]
    norm_num
  have hne : nn.dot e1 = 0 := by rw [hle, (dot_scale _ _ _).2, dot_comm, hb, mul_zero]
  rcases lt_or_gt_of_ne hd with h | h
  · obtain ⟨hx, ho, -⟩ := frame (d := d) hn he (Or.inl rfl)
    have hneg : nn.dot d < 0 := by rw [hdot]; exact mul_neg_of_pos_of_neg hk h
    refine ⟨nn, .front, e1, nn.cross e1, ?_, ho, hneg, hb, hc, Or.inl ⟨h, rfl, (hvol nn un hne).1, hlen⟩⟩
    unfold hitFrame Side.get
    simp only [hn, he, Outcome.bind, if_pos hneg, hx]
  · obtain ⟨hx, -, ho⟩ := frame (d := d) hn he (Or.inr rfl)
    have hpos : 0 < nn.dot d := by rw [hdot]; exact mul_pos hk h
    have hscale : (nn.scale (-1)).lengthSquared = 1 := by
      rw [← dot_self, (dot_scale _ _ _).1, (dot_scale _ _ _).2, dot_self, un]; norm_num
    refine ⟨nn.scale (-1), .back, (nn.scale (-1)).cross e1, e1, ?_, ho, ?_, ?_, ?_, Or.inr ⟨h, rfl, (hvol _ hscale ?_).2, hlen⟩⟩
    · unfold hitFrame Side.get
      simp only [hn, he, Outcome.bind, if_neg (not_lt.2 hpos.le), if_pos hpos, hx]
    · rw [(dot_scale _ _ _).1]; linarith
    · rw [(dot_scale _ _ _).1, hb, mul_zero]
    · rw [(dot_scale _ _ _).1, hc, mul_zero]
    · rw [(dot_scale _ _ _).1, hne, mul_zero]

/-- The triangle with corners on the first two axes, hit from above, from below and at an angle. -/
example (d : V3 ℝ) (hd : d.z ≠ 0) : ∃ r, hitFrame ⟨0, 0, 0⟩ ⟨1, 0, 0⟩ ⟨0, 1, 0⟩ d = .ok r := by
  obtain ⟨n, s, e1, e2, h, -⟩ := C84_frame ⟨0, 0, 0⟩ ⟨1, 0, 0⟩ ⟨0, 1, 0⟩ d (by norm_num [V3.cross, V3.lengthSquared]) (by norm_num [V3.lengthSquared])
    (by simpa [V3.cross, V3.dot] using hd)
  exact ⟨_, h⟩

/-- C84: for a ray in the plane of the triangle there are no such axes: the normal is set to zero, and the program stops. -/
theorem C84_grazing (a b c d : V3 ℝ) (hd : ((b - a).cross (c - a)).dot d = 0) : hitFrame a b c d = .panic := by
  unfold hitFrame
  simp only
  cases hn : ((b - a).cross (c - a)).normalize with
  | err => unfold V3.normalize at hn; split_ifs at hn
  | panic => rfl
  | ok nn =>
    obtain ⟨-, k, -, hkn⟩ := Plane.unit_of_normalize hn
    have h0 : nn.dot d = 0 := by rw [hkn, (dot_scale _ _ _).1, hd, mul_zero]
    simp only [Outcome.bind, Side.get, h0, lt_irrefl, if_false]
    cases he : (b - a).normalize with
    | err => unfold V3.normalize at he; split_ifs at he
    | panic => rfl
    | ok e1 =>
      have : ((0 : V3 ℝ).cross e1).lengthSquared = 0 := by simp [V3.cross, V3.lengthSquared]
      simp only [V3.normalize, this]
      rw [if_neg (by norm_num)]

end Simple.Render.Materials
