import Mathlib.Tactic.Linarith
import Mathlib.Tactic.LinearCombination
import Mathlib.Tactic.FinCases
import Verif.Geometry.HitModel
import Verif.Geometry.TransformProps

/-! # C121: what is told about a hit, in the frame of a shape and in that of the world -/

namespace Simple.Geometry

open Transform

private theorem eq_of_dots {a b : V3 ℝ} (h : ∀ v, a.dot v = b.dot v) : a = b := by
  have h1 := h ⟨1, 0, 0⟩
  have h2 := h ⟨0, 1, 0⟩
  have h3 := h ⟨0, 0, 1⟩
  simp only [V3.dot, mul_one, mul_zero, add_zero, zero_add] at h1 h2 h3
  exact V3.ext h1 h2 h3

private theorem invNormal_dot (t : Transform ℝ) (m v : V3 ℝ) : (t.invNormal m).dot v = m.dot (t.vec v) := by
  simp only [invNormal, vec, mulVec, V3.dot]
  ring

private theorem normal_dot (t : Transform ℝ) (m v : V3 ℝ) : (t.normal m).dot v = m.dot (t.invVec v) := by
  simp only [normal, invVec, mulVec, V3.dot]
  ring

/-- C121: when a transform and its inverse cancel, all that is told about a hit comes back as it was, from the shape to the world and from the world to
the shape. -/
theorem C121_there_and_back (t : Transform ℝ) (h : Transform.Spec.Cancels t) (i : HitInfo) :
    (i.transform t).invTransform t = i ∧ (i.invTransform t).transform t = i := by
  have n1 : t.invNormal (t.normal i.normal) = i.normal := eq_of_dots fun v => by
    rw [invNormal_dot, normal_dot, (h v).2.2.1]
  have n2 : t.normal (t.invNormal i.normal) = i.normal := eq_of_dots fun v => by
    rw [normal_dot, invNormal_dot, (h v).2.2.2]
  constructor
  · unfold HitInfo.transform HitInfo.invTransform
    simp only [(h _).1, (h _).2.2.1, n1]
  · unfold HitInfo.transform HitInfo.invTransform
    simp only [(h _).2.1, (h _).2.2.2, n2]

/-- C121: the normal makes the same products with the tangents and with the direction of the ray as it did.  So it is perpendicular to the tangents if it
was, and on the side of the ray on which it was. -/
theorem C121_products (t : Transform ℝ) (h : Transform.Spec.Cancels t) (i : HitInfo) (direction : V3 ℝ) :
    (i.transform t).side = i.side ∧
    (i.transform t).normal.dot (i.transform t).dpdu = i.normal.dot i.dpdu ∧
    (i.transform t).normal.dot (i.transform t).dpdv = i.normal.dot i.dpdv ∧
    (i.transform t).normal.dot (t.vec direction) = i.normal.dot direction := by
  refine ⟨rfl, ?_, ?_, ?_⟩ <;>
  · unfold HitInfo.transform
    simp only
    rw [normal_dot, (h _).2.2.1]

/-- C121: moving and turning keep the length of the normal.

Missing: scaling (`C121_violated_scale`). -/
theorem C121_unit_partial (l : List (Transform ℝ))
    (hl : ∀ t ∈ l, (∃ x y z, t = translate x y z) ∨
      ∃ c s : ℝ, c * c + s * s = 1 ∧ (t = rotateX c s ∨ t = rotateY c s ∨ t = rotateZ c s)) (i : HitInfo) :
    (l.foldr (fun t i => HitInfo.transform i t) i).normal.lengthSquared = i.normal.lengthSquared := by
  induction l with
  | nil => rfl
  | cons t l ih =>
    rw [List.foldr_cons]
    rw [← ih fun u hu => hl u (List.mem_cons_of_mem _ hu)]
    generalize l.foldr (fun t i => HitInfo.transform i t) i = j
    unfold HitInfo.transform
    simp only
    rcases hl t List.mem_cons_self with ⟨x, y, z, rfl⟩ | ⟨c, s, hcs, rfl | rfl | rfl⟩
    · simp [normal, translate, V3.lengthSquared]
    · simp [normal, rotateX, V3.lengthSquared]
      linear_combination (j.normal.y * j.normal.y + j.normal.z * j.normal.z) * hcs
    · simp [normal, rotateY, V3.lengthSquared]
      linear_combination (j.normal.x * j.normal.x + j.normal.z * j.normal.z) * hcs
    · simp [normal, rotateZ, V3.lengthSquared]
      linear_combination (j.normal.x * j.normal.x + j.normal.y * j.normal.y) * hcs

/-- C121 is violated: every normal of a shape that is scaled by two has half its length in the world, since it is not normalised again. -/
theorem C121_violated_scale (i : HitInfo) (hi : i.normal.lengthSquared = 1) :
    Transform.Spec.Cancels (scale (2 : ℝ) 2 2) ∧ (i.transform (scale 2 2 2)).normal = i.normal.scale (1 / 2) ∧
      (i.transform (scale 2 2 2)).normal.lengthSquared = 1 / 4 := by
  have e : (i.transform (scale 2 2 2)).normal = i.normal.scale (1 / 2) := by
    unfold HitInfo.transform
    ext <;> simp [normal, Transform.scale, V3.scale] <;> ring
  refine ⟨C40_primitive _ (.scale _ _ _ two_ne_zero two_ne_zero two_ne_zero), e, ?_⟩
  rw [e]
  unfold V3.lengthSquared V3.scale at *
  simp only
  linear_combination (1 / 4) * hi

/-- Hypotheses of `C121_there_and_back` and `C121_products`: a turn by the angle with cosine 3/5. -/
example (i : HitInfo) : (i.transform (rotateZ (3 / 5) (4 / 5))).invTransform (rotateZ (3 / 5) (4 / 5)) = i :=
  (C121_there_and_back _ (C40_primitive _ (.rotateZ _ _ (by norm_num))) i).1

/-- Hypotheses of `C121_unit_partial`: a turn and a move. -/
example (i : HitInfo) : ((i.transform (translate 1 2 3)).transform (rotateX (3 / 5) (4 / 5))).normal.lengthSquared = i.normal.lengthSquared :=
  C121_unit_partial [rotateX (3 / 5) (4 / 5), translate 1 2 3]
    (by intro t ht
        rcases List.mem_cons.1 ht with rfl | ht
        · exact .inr ⟨_, _, by norm_num, .inl rfl⟩
        · rw [List.mem_singleton.1 ht]; exact .inl ⟨_, _, _, rfl⟩) i

end Simple.Geometry
