import Mathlib.Tactic.NormNum
import Mathlib.Tactic.Linarith
import Mathlib.Tactic.Ring
import Mathlib.Tactic.FieldSimp
import Mathlib.Tactic.LinearCombination
import Mathlib.Tactic.FinCases
import Verif.Geometry.TransformModel
import Verif.Geometry.BBoxProps

/-! # C40 and C41: transforms -/

namespace Simple.Geometry.Transform

variable {K : Type*} [Field K]

namespace Spec

/-- The primitive transforms, as they can be made: a scaling by zero has no inverse, and the cosine and sine of a
rotation are those of some angle. -/
inductive Primitive : Transform K → Prop where
  | new : Primitive new
  | translate (x y z : K) : Primitive (translate x y z)
  | scale (x y z : K) (hx : x ≠ 0) (hy : y ≠ 0) (hz : z ≠ 0) : Primitive (scale x y z)
  | rotateX (c s : K) (h : c * c + s * s = 1) : Primitive (rotateX c s)
  | rotateY (c s : K) (h : c * c + s * s = 1) : Primitive (rotateY c s)
  | rotateZ (c s : K) (h : c * c + s * s = 1) : Primitive (rotateZ c s)

/-- A transform and its inverse cancel, in both orders, on points and on vectors. -/
def Cancels (t : Transform K) : Prop :=
  ∀ p, t.invPt (t.pt p) = p ∧ t.pt (t.invPt p) = p ∧ t.invVec (t.vec p) = p ∧ t.vec (t.invVec p) = p

/-- What a transform is the product of, in the order in which `*=` was called. -/
def product (l : List (Transform K)) : Transform K := l.foldl mulAssign new

end Spec

/-- The last row of the matrix of an affine map. -/
private def Affine (m : Matrix (Fin 4) (Fin 4) K) : Prop := m 3 0 = 0 ∧ m 3 1 = 0 ∧ m 3 2 = 0 ∧ m 3 3 = 1

private theorem mul4x4_eq (a b : Matrix (Fin 4) (Fin 4) K) : mul4x4 a b = a * b := by
  ext i j
  simp [mul4x4, Matrix.mul_apply, Fin.sum_univ_four]

private theorem affine_mul {a b : Matrix (Fin 4) (Fin 4) K} (ha : Affine a) (hb : Affine b) : Affine (a * b) := by
  obtain ⟨a0, a1, a2, a3⟩ := ha
  obtain ⟨b0, b1, b2, b3⟩ := hb
  refine ⟨?_, ?_, ?_, ?_⟩ <;> simp [Matrix.mul_apply, Fin.sum_univ_four, a0, a1, a2, a3, b0, b1, b2, b3]

private theorem affine_one : Affine (1 : Matrix (Fin 4) (Fin 4) K) := by
  refine ⟨?_, ?_, ?_, ?_⟩ <;> simp

private theorem mulPoint_affine {m : Matrix (Fin 4) (Fin 4) K} (h : Affine m) (p : V3 K) :
    mulPoint m p = ⟨m 0 0 * p.x + m 0 1 * p.y + m 0 2 * p.z + m 0 3, m 1 0 * p.x + m 1 1 * p.y + m 1 2 * p.z + m 1 3,
      m 2 0 * p.x + m 2 1 * p.y + m 2 2 * p.z + m 2 3⟩ := by
  unfold mulPoint V3.div
  rw [h.1, h.2.1, h.2.2.1, h.2.2.2]
  simp

private theorem mulPoint_mul {a b : Matrix (Fin 4) (Fin 4) K} (ha : Affine a) (hb : Affine b) (p : V3 K) :
    mulPoint (a * b) p = mulPoint a (mulPoint b p) := by
  rw [mulPoint_affine (affine_mul ha hb), mulPoint_affine ha, mulPoint_affine hb]
  simp only [Matrix.mul_apply, Fin.sum_univ_four, hb.1, hb.2.1, hb.2.2.1, hb.2.2.2]
  ext <;> simp only <;> ring

private theorem mulVec_mul {a b : Matrix (Fin 4) (Fin 4) K} (hb : Affine b) (p : V3 K) :
    mulVec (a * b) p = mulVec a (mulVec b p) := by
  unfold mulVec
  simp only [Matrix.mul_apply, Fin.sum_univ_four, hb.1, hb.2.1, hb.2.2.1]
  ext <;> simp only <;> ring

private theorem mulPoint_one (p : V3 K) : mulPoint (1 : Matrix (Fin 4) (Fin 4) K) p = p := by
  rw [mulPoint_affine affine_one]
  ext <;> simp

private theorem mulVec_one (p : V3 K) : mulVec (1 : Matrix (Fin 4) (Fin 4) K) p = p := by
  ext <;> simp [mulVec]

private theorem eq_one {m : Matrix (Fin 4) (Fin 4) K} (hm : Affine m) (hp : ∀ p, mulPoint m p = p) : m = 1 := by
  have h0 := hp ⟨0, 0, 0⟩
  have hx := hp ⟨1, 0, 0⟩
  have hy := hp ⟨0, 1, 0⟩
  have hz := hp ⟨0, 0, 1⟩
  rw [mulPoint_affine hm] at h0 hx hy hz
  simp only [mul_zero, mul_one, zero_add, add_zero, V3.mk.injEq] at h0 hx hy hz
  obtain ⟨a1, a2, a3⟩ := h0
  obtain ⟨b1, b2, b3⟩ := hx
  obtain ⟨c1, c2, c3⟩ := hy
  obtain ⟨d1, d2, d3⟩ := hz
  rw [a1, add_zero] at b1 c1 d1
  rw [a2, add_zero] at b2 c2 d2
  rw [a3, add_zero] at b3 c3 d3
  obtain ⟨m0, m1, m2, m3⟩ := hm
  ext i j
  fin_cases i <;> fin_cases j <;> simp_all

/-- The matrices of a transform are affine. -/
private def IsAffine (t : Transform K) : Prop := Affine t.elements ∧ Affine t.invElements

/-- The matrices are inverses exactly when the transform cancels. -/
private theorem cancels_iff {t : Transform K} (h : IsAffine t) :
    Spec.Cancels t ↔ t.elements * t.invElements = 1 := by
  constructor
  · intro hc
    apply eq_one (affine_mul h.1 h.2)
    intro p
    rw [mulPoint_mul h.1 h.2]
    exact (hc p).2.1
  · intro hm p
    have hm' := mul_eq_one_comm.1 hm
    refine ⟨?_, ?_, ?_, ?_⟩
    · change mulPoint _ (mulPoint _ p) = p
      rw [← mulPoint_mul h.2 h.1, hm', mulPoint_one]
    · change mulPoint _ (mulPoint _ p) = p
      rw [← mulPoint_mul h.1 h.2, hm, mulPoint_one]
    · change mulVec _ (mulVec _ p) = p
      rw [← mulVec_mul h.1, hm', mulVec_one]
    · change mulVec _ (mulVec _ p) = p
      rw [← mulVec_mul h.2, hm, mulVec_one]

private theorem primitive_affine {t : Transform K} (h : Spec.Primitive t) : IsAffine t := by
  cases h <;> exact ⟨⟨rfl, rfl, rfl, rfl⟩, rfl, rfl, rfl, rfl⟩

/-- C40: every primitive transform cancels with its inverse. -/
theorem C40_primitive (t : Transform K) (h : Spec.Primitive t) : Spec.Cancels t := by
  rw [cancels_iff (primitive_affine h)]
  cases h with
  | new => ext i j; fin_cases i <;> fin_cases j <;> simp [new, Matrix.mul_apply, Fin.sum_univ_four]
  | translate x y z => ext i j; fin_cases i <;> fin_cases j <;> simp [translate, Matrix.mul_apply, Fin.sum_univ_four]
  | scale x y z hx hy hz =>
    ext i j
    fin_cases i <;> fin_cases j <;> simp [scale, Matrix.mul_apply, Fin.sum_univ_four, hx, hy, hz]
  | rotateX c s h =>
    ext i j
    fin_cases i <;> fin_cases j <;> simp [rotateX, Matrix.mul_apply, Fin.sum_univ_four] <;>
      first | done | ring1 | linear_combination h
  | rotateY c s h =>
    ext i j
    fin_cases i <;> fin_cases j <;> simp [rotateY, Matrix.mul_apply, Fin.sum_univ_four] <;>
      first | done | ring1 | linear_combination h
  | rotateZ c s h =>
    ext i j
    fin_cases i <;> fin_cases j <;> simp [rotateZ, Matrix.mul_apply, Fin.sum_univ_four] <;>
      first | done | ring1 | linear_combination h

private theorem product_spec (l : List (Transform K)) (h : ∀ t ∈ l, IsAffine t) :
    (Spec.product l).elements = (l.map elements).prod ∧ (Spec.product l).invElements = (l.map invElements).prod ∧
      IsAffine (Spec.product l) := by
  have gen : ∀ (l : List (Transform K)) (s : Transform K), (∀ t ∈ l, IsAffine t) → IsAffine s →
      (l.foldl mulAssign s).elements = s.elements * (l.map elements).prod ∧
      (l.foldl mulAssign s).invElements = s.invElements * (l.map invElements).prod ∧ IsAffine (l.foldl mulAssign s) := by
    intro l
    induction l with
    | nil => intro s _ hs; exact ⟨by simp, by simp, hs⟩
    | cons t l ih =>
      intro s hl hs
      have ht := hl t (by simp)
      have e1 : (mulAssign s t).elements = s.elements * t.elements := mul4x4_eq _ _
      have e2 : (mulAssign s t).invElements = s.invElements * t.invElements := mul4x4_eq _ _
      obtain ⟨h1, h2, h3⟩ := ih (mulAssign s t) (fun t h => hl t (by simp [h]))
        ⟨by rw [e1]; exact affine_mul hs.1 ht.1, by rw [e2]; exact affine_mul hs.2 ht.2⟩
      rw [List.foldl_cons, List.map_cons, List.prod_cons, List.map_cons, List.prod_cons]
      refine ⟨by rw [h1, e1, mul_assoc], by rw [h2, e2, mul_assoc], h3⟩
  have hone : (!![1, 0, 0, 0; 0, 1, 0, 0; 0, 0, 1, 0; 0, 0, 0, 1] : Matrix (Fin 4) (Fin 4) K) = 1 := by
    ext i j
    fin_cases i <;> fin_cases j <;> rfl
  obtain ⟨h1, h2, h3⟩ := gen l new h (primitive_affine .new)
  refine ⟨?_, ?_, h3⟩
  · unfold Spec.product
    rw [h1]
    simp only [new]
    rw [hone, one_mul]
  · unfold Spec.product
    rw [h2]
    simp only [new]
    rw [hone, one_mul]

/-- C40: a composition applies its transforms to points and vectors one after the other, the last one first,
whatever the history of the composition. -/
theorem C40_composition (l : List (Transform K)) (h : ∀ t ∈ l, Spec.Primitive t) (p : V3 K) :
    (Spec.product l).pt p = l.foldr (fun t p => t.pt p) p ∧ (Spec.product l).vec p = l.foldr (fun t p => t.vec p) p := by
  have ha : ∀ t ∈ l, IsAffine t := fun t ht => primitive_affine (h t ht)
  obtain ⟨h1, -, -⟩ := product_spec l ha
  unfold pt vec
  rw [h1]
  have gen : ∀ (l : List (Transform K)), (∀ t ∈ l, IsAffine t) → Affine (l.map elements).prod ∧
      mulPoint (l.map elements).prod p = l.foldr (fun t p => mulPoint t.elements p) p ∧
      mulVec (l.map elements).prod p = l.foldr (fun t p => mulVec t.elements p) p := by
    intro l
    induction l with
    | nil =>
      intro _
      simp only [List.map_nil, List.prod_nil, List.foldr_nil]
      exact ⟨affine_one, mulPoint_one p, mulVec_one p⟩
    | cons t l ih =>
      intro hl
      obtain ⟨i0, i1, i2⟩ := ih (fun t h => hl t (by simp [h]))
      have ht := hl t (by simp)
      rw [List.map_cons, List.prod_cons, List.foldr_cons, List.foldr_cons, mulPoint_mul ht.1 i0, mulVec_mul i0, i1, i2]
      exact ⟨affine_mul ht.1 i0, rfl, rfl⟩
  exact (gen l ha).2

/-- C40, the part that holds of compositions: the composition of two transforms cancels with its inverse exactly
when they commute. -/
theorem C40_pair_partial (s t : Transform K) (hs : Spec.Primitive s) (ht : Spec.Primitive t) :
    Spec.Cancels (mulAssign s t) ↔ ∀ p, s.pt (t.pt p) = t.pt (s.pt p) := by
  have as := primitive_affine hs
  have at' := primitive_affine ht
  have cs := (cancels_iff as).1 (C40_primitive s hs)
  have ct := (cancels_iff at').1 (C40_primitive t ht)
  have e1 : (mulAssign s t).elements = s.elements * t.elements := mul4x4_eq _ _
  have e2 : (mulAssign s t).invElements = s.invElements * t.invElements := mul4x4_eq _ _
  have ha : IsAffine (mulAssign s t) := ⟨by rw [e1]; exact affine_mul as.1 at'.1, by rw [e2]; exact affine_mul as.2 at'.2⟩
  rw [cancels_iff ha, e1, e2]
  have hinv : t.elements * s.elements * (s.invElements * t.invElements) = 1 := by
    rw [show t.elements * s.elements * (s.invElements * t.invElements) =
      t.elements * (s.elements * s.invElements) * t.invElements by simp only [mul_assoc], cs, mul_one, ct]
  constructor
  · intro h p
    change mulPoint _ (mulPoint _ p) = mulPoint _ (mulPoint _ p)
    rw [← mulPoint_mul as.1 at'.1, ← mulPoint_mul at'.1 as.1]
    congr 1
    have h' := mul_eq_one_comm.1 hinv
    calc s.elements * t.elements = s.elements * t.elements * ((s.invElements * t.invElements) * (t.elements * s.elements)) := by
          rw [h', mul_one]
      _ = (s.elements * t.elements * (s.invElements * t.invElements)) * (t.elements * s.elements) := by
          simp only [mul_assoc]
      _ = t.elements * s.elements := by rw [h, one_mul]
  · intro h
    have hpt : ∀ p, mulPoint ((mulAssign s t).elements * (mulAssign s t).invElements) p = p := by
      intro p
      rw [mulPoint_mul ha.1 ha.2, e1, mulPoint_mul as.1 at'.1]
      have := h (mulPoint (mulAssign s t).invElements p)
      change mulPoint _ (mulPoint _ _) = mulPoint _ (mulPoint _ _) at this
      rw [this, ← mulPoint_mul at'.1 as.1, e2, ← mulPoint_mul (affine_mul at'.1 as.1) (affine_mul as.2 at'.2), hinv,
        mulPoint_one]
    rw [← e1, ← e2]
    exact eq_one (affine_mul ha.1 ha.2) hpt

/-- C40, the part that holds of histories: a composition of transforms each two of which commute, such as any number
of translations or of rotations about one axis, cancels with its inverse.  (What is missing are the others: see
`C40_violated_composition`.) -/
theorem C40_history_partial (l : List (Transform K)) (h : ∀ t ∈ l, Spec.Primitive t)
    (hc : ∀ s ∈ l, ∀ t ∈ l, ∀ p, s.pt (t.pt p) = t.pt (s.pt p)) : Spec.Cancels (Spec.product l) := by
  have ha : ∀ t ∈ l, IsAffine t := fun t ht => primitive_affine (h t ht)
  obtain ⟨h1, h2, h3⟩ := product_spec l ha
  rw [cancels_iff h3, h1, h2]
  have hcomm : ∀ s ∈ l, ∀ t ∈ l, s.elements * t.elements = t.elements * s.elements := by
    intro s hs t ht
    have ps := h s hs
    have pt := h t ht
    have e := (C40_pair_partial s t ps pt).2 (hc s hs t ht)
    have e1 : (mulAssign s t).elements = s.elements * t.elements := mul4x4_eq _ _
    have e2 : (mulAssign s t).invElements = s.invElements * t.invElements := mul4x4_eq _ _
    have hm : IsAffine (mulAssign s t) :=
      ⟨by rw [e1]; exact affine_mul (ha s hs).1 (ha t ht).1, by rw [e2]; exact affine_mul (ha s hs).2 (ha t ht).2⟩
    have e3 := (cancels_iff hm).1 e
    rw [e1, e2] at e3
    have cs := (cancels_iff (ha s hs)).1 (C40_primitive s ps)
    have ct := (cancels_iff (ha t ht)).1 (C40_primitive t pt)
    have hinv : s.invElements * t.invElements * (t.elements * s.elements) = 1 := by
      rw [show s.invElements * t.invElements * (t.elements * s.elements) =
        s.invElements * (t.invElements * t.elements) * s.elements by simp only [mul_assoc], mul_eq_one_comm.1 ct, mul_one,
        mul_eq_one_comm.1 cs]
    calc s.elements * t.elements = s.elements * t.elements * (s.invElements * t.invElements * (t.elements * s.elements)) := by
          rw [hinv, mul_one]
      _ = (s.elements * t.elements * (s.invElements * t.invElements)) * (t.elements * s.elements) := by
          simp only [mul_assoc]
      _ = t.elements * s.elements := by rw [e3, one_mul]
  have gen : ∀ l' : List (Transform K), l' ⊆ l → (l'.map elements).prod * (l'.map invElements).prod = 1 := by
    intro l'
    induction l' with
    | nil => intro _; simp
    | cons t l' ih =>
      intro hsub
      have ht : t ∈ l := hsub (by simp)
      have hi := ih (fun x hx => hsub (by simp [hx]))
      have ct := (cancels_iff (ha t ht)).1 (C40_primitive t (h t ht))
      have hP : Commute t.elements (l'.map elements).prod := by
        apply Commute.list_prod_right
        intro x hx
        obtain ⟨s, hs, rfl⟩ := List.mem_map.1 hx
        exact hcomm t ht s (hsub (by simp [hs]))
      rw [List.map_cons, List.map_cons, List.prod_cons, List.prod_cons]
      calc t.elements * (l'.map elements).prod * (t.invElements * (l'.map invElements).prod)
          = (l'.map elements).prod * (t.elements * t.invElements) * (l'.map invElements).prod := by
            rw [hP.eq]; simp only [mul_assoc]
        _ = 1 := by rw [ct, mul_one, hi]
  exact gen l (fun _ h => h)

/-- C40 fails: a translation followed by `*=` with a rotation of a quarter of a turn does not cancel with its
inverse: the origin comes back elsewhere. -/
theorem C40_violated_composition :
    ∃ s t : Transform ℚ, Spec.Primitive s ∧ Spec.Primitive t ∧ ¬ Spec.Cancels (mulAssign s t) ∧
      (mulAssign s t).invPt ((mulAssign s t).pt ⟨0, 0, 0⟩) = ⟨-1, -1, 0⟩ := by
  have hw : (mulAssign (translate (1 : ℚ) 0 0) (rotateZ 0 1)).invPt
      ((mulAssign (translate (1 : ℚ) 0 0) (rotateZ 0 1)).pt ⟨0, 0, 0⟩) = ⟨-1, -1, 0⟩ := by
    simp [mulAssign, translate, rotateZ, mul4x4, pt, invPt, mulPoint, V3.div]
  refine ⟨translate 1 0 0, rotateZ 0 1, .translate 1 0 0, .rotateZ 0 1 (by norm_num), fun hc => ?_, hw⟩
  have := (hc ⟨0, 0, 0⟩).1
  rw [hw] at this
  have := congrArg V3.x this
  norm_num at this

/-- Two translations. -/
example : Spec.Cancels (Spec.product [translate (1 : ℚ) 2 3, translate 4 5 6]) := by
  apply C40_history_partial
  · intro t ht
    simp only [List.mem_cons, List.not_mem_nil, or_false] at ht
    rcases ht with rfl | rfl
    · exact .translate _ _ _
    · exact .translate _ _ _
  · intro s hs t ht p
    simp only [List.mem_cons, List.not_mem_nil, or_false] at hs ht
    rcases hs with rfl | rfl <;> rcases ht with rfl | rfl <;>
      (simp [pt, mulPoint, translate, V3.div] <;> (try refine ⟨?_, ?_, ?_⟩) <;> ring1)

/-! ## Normals -/

omit [Field K] in
/-- C41: a transform that cancels with its inverse keeps the product of a normal and a vector; so the transform of
a normal stays perpendicular to the transforms of the tangents.

Missing: compositions of transforms, which do not cancel with their inverses (`C41_violated_composition`). -/
theorem C41_normal_partial {K : Type*} [Field K] (t : Transform K) (h : Spec.Cancels t) (n v : V3 K) :
    (t.normal n).dot (t.vec v) = n.dot v ∧ (t.invNormal n).dot (t.invVec v) = n.dot v := by
  obtain ⟨-, -, h3, h4⟩ := h v
  constructor
  · have e : (t.normal n).dot (t.vec v) = n.dot (t.invVec (t.vec v)) := by
      simp only [normal, invVec, mulVec, V3.dot]; ring
    rw [e, h3]
  · have e : (t.invNormal n).dot (t.invVec v) = n.dot (t.vec (t.invVec v)) := by
      simp only [invNormal, vec, mulVec, V3.dot]; ring
    rw [e, h4]

/-- C41 fails for compositions: after a scaling and a rotation, a normal does not stay perpendicular to a
tangent. -/
theorem C41_violated_composition :
    ∃ (s t : Transform ℚ) (n v : V3 ℚ), Spec.Primitive s ∧ Spec.Primitive t ∧ n.dot v = 0 ∧
      ((mulAssign s t).normal n).dot ((mulAssign s t).vec v) ≠ 0 := by
  refine ⟨scale 1 2 1, rotateZ (3 / 5) (4 / 5), ⟨1, 0, 0⟩, ⟨0, 1, 0⟩,
    .scale _ _ _ one_ne_zero two_ne_zero one_ne_zero, .rotateZ _ _ (by norm_num), by norm_num [V3.dot], ?_⟩
  simp [mulAssign, scale, rotateZ, mul4x4, normal, vec, mulVec, V3.dot]
  norm_num

section Ordered

variable [LinearOrder K] [IsStrictOrderedRing K]

/-- C41: a transform is said to change hands exactly when it turns right-handed triples into left-handed ones. -/
theorem C41_hands (t : Transform K) (a b c : V3 K) (h : 0 < (a.cross b).dot c) :
    t.changesHands = true ↔ ((t.vec a).cross (t.vec b)).dot (t.vec c) < 0 := by
  have e : ((t.vec a).cross (t.vec b)).dot (t.vec c) =
      (t.elements 0 0 * (t.elements 1 1 * t.elements 2 2 - t.elements 1 2 * t.elements 2 1) -
        t.elements 0 1 * (t.elements 1 0 * t.elements 2 2 - t.elements 1 2 * t.elements 2 0)
      + t.elements 0 2 * (t.elements 1 0 * t.elements 2 1 - t.elements 1 1 * t.elements 2 0)) * (a.cross b).dot c := by
    simp only [vec, mulVec, V3.cross, V3.dot]; ring
  unfold changesHands
  simp only [decide_eq_true_eq]
  rw [e]
  constructor
  · intro hn
    exact mul_neg_of_neg_of_pos hn h
  · intro hn
    by_contra hc
    rw [not_lt] at hc
    exact absurd hn (not_lt.2 (mul_nonneg hc h.le))

/-! ## Boxes -/

private def corner (b : BBox K) (i j k : Bool) : V3 K :=
  ⟨if i then b.max.x else b.min.x, if j then b.max.y else b.min.y, if k then b.max.z else b.min.z⟩

omit [IsStrictOrderedRing K] in
private theorem bboxWith_spec (f : V3 K → V3 K) (b : BBox K) :
    (∀ i j k, BBox.Spec.Mem (bboxWith f b) (f (corner b i j k))) ∧
    ∀ c : BBox K, (∀ i j k, BBox.Spec.Mem c (f (corner b i j k))) → BBox.Spec.Within (bboxWith f b) c := by
  -- boxes of a list of points
  have gen : ∀ (l : List (V3 K)) (r : BBox K), BBox.Spec.Nonempty r →
      BBox.Spec.Within r (l.foldl BBox.fromUnionPoint r) ∧ (∀ p ∈ l, BBox.Spec.Mem (l.foldl BBox.fromUnionPoint r) p) ∧
      ∀ c : BBox K, BBox.Spec.Within r c → (∀ p ∈ l, BBox.Spec.Mem c p) → BBox.Spec.Within (l.foldl BBox.fromUnionPoint r) c := by
    intro l
    induction l with
    | nil => intro r _; exact ⟨fun p h => h, ⟨(fun p h => by simp at h), fun c h _ => h⟩⟩
    | cons q l ih =>
      intro r hr
      obtain ⟨h1, h2, h3⟩ := BBox.C42_union_point r q hr
      obtain ⟨i1, i2, i3⟩ := ih (BBox.fromUnionPoint r q) ⟨q, h2⟩
      rw [List.foldl_cons]
      refine ⟨fun p hp => i1 p (h1 p hp), fun p hp => ?_, fun c hw hm => ?_⟩
      · rcases List.mem_cons.1 hp with rfl | hp
        · exact i1 _ h2
        · exact i2 p hp
      · exact i3 c (h3 c hw (hm q (by simp))) (fun p hp => hm p (by simp [hp]))
  have e : bboxWith f b = [f (corner b true false false), f (corner b false true false), f (corner b false false true),
      f (corner b false true true), f (corner b true true false), f (corner b true false true),
      f (corner b true true true)].foldl BBox.fromUnionPoint (BBox.fromPoint (f (corner b false false false))) := rfl
  have h0 : BBox.Spec.Mem (BBox.fromPoint (f (corner b false false false))) (f (corner b false false false)) :=
    ⟨⟨le_refl _, le_refl _⟩, ⟨le_refl _, le_refl _⟩, le_refl _, le_refl _⟩
  rw [e]
  obtain ⟨g1, g2, g3⟩ := gen [f (corner b true false false), f (corner b false true false), f (corner b false false true),
      f (corner b false true true), f (corner b true true false), f (corner b true false true),
      f (corner b true true true)] (BBox.fromPoint (f (corner b false false false))) ⟨_, h0⟩
  refine ⟨fun i j k => ?_, fun c hc => g3 c ?_ ?_⟩
  · cases i <;> cases j <;> cases k
    · exact g1 _ h0
    all_goals exact g2 _ (by simp)
  · rintro p ⟨⟨p1, p2⟩, ⟨p3, p4⟩, p5, p6⟩
    have : p = f (corner b false false false) := by
      ext
      · exact le_antisymm p2 p1
      · exact le_antisymm p4 p3
      · exact le_antisymm p6 p5
    rw [this]
    exact hc _ _ _
  · intro p hp
    simp only [List.mem_cons, List.not_mem_nil, or_false] at hp
    rcases hp with rfl | rfl | rfl | rfl | rfl | rfl | rfl <;> exact hc _ _ _

private theorem affine_corner (b : BBox K) (α β γ δ : K) (p : V3 K) (hp : BBox.Spec.Mem b p) :
    (∃ i j k, α * p.x + β * p.y + γ * p.z + δ ≤
      α * (corner b i j k).x + β * (corner b i j k).y + γ * (corner b i j k).z + δ) ∧
    (∃ i j k, α * (corner b i j k).x + β * (corner b i j k).y + γ * (corner b i j k).z + δ ≤
      α * p.x + β * p.y + γ * p.z + δ) := by
  have one : ∀ (a lo hi x : K), lo ≤ x → x ≤ hi →
      (∃ i : Bool, a * x ≤ a * (if i then hi else lo)) ∧ ∃ i : Bool, a * (if i then hi else lo) ≤ a * x := by
    intro a lo hi x h1 h2
    rcases le_total 0 a with h | h
    · exact ⟨⟨true, mul_le_mul_of_nonneg_left h2 h⟩, ⟨false, mul_le_mul_of_nonneg_left h1 h⟩⟩
    · exact ⟨⟨false, mul_le_mul_of_nonpos_left h1 h⟩, ⟨true, mul_le_mul_of_nonpos_left h2 h⟩⟩
  obtain ⟨⟨i, hi⟩, i', hi'⟩ := one α _ _ _ hp.1.1 hp.1.2
  obtain ⟨⟨j, hj⟩, j', hj'⟩ := one β _ _ _ hp.2.1.1 hp.2.1.2
  obtain ⟨⟨k, hk⟩, k', hk'⟩ := one γ _ _ _ hp.2.2.1 hp.2.2.2
  refine ⟨⟨i, j, k, ?_⟩, ⟨i', j', k', ?_⟩⟩
  · simp only [corner]
    exact add_le_add (add_le_add (add_le_add hi hj) hk) le_rfl
  · simp only [corner]
    exact add_le_add (add_le_add (add_le_add hi' hj') hk') le_rfl

private theorem bbox_affine (m : Matrix (Fin 4) (Fin 4) K) (hm : Affine m) (b : BBox K) (p : V3 K)
    (hp : BBox.Spec.Mem b p) : BBox.Spec.Mem (bboxWith (mulPoint m) b) (mulPoint m p) := by
  have h := (bboxWith_spec (mulPoint m) b).1
  generalize bboxWith (mulPoint m) b = r at h
  simp only [mulPoint_affine hm] at h ⊢
  have hx := affine_corner b (m 0 0) (m 0 1) (m 0 2) (m 0 3) p hp
  have hy := affine_corner b (m 1 0) (m 1 1) (m 1 2) (m 1 3) p hp
  have hz := affine_corner b (m 2 0) (m 2 1) (m 2 2) (m 2 3) p hp
  obtain ⟨⟨i1, j1, k1, x1⟩, i2, j2, k2, x2⟩ := hx
  obtain ⟨⟨i3, j3, k3, y1⟩, i4, j4, k4, y2⟩ := hy
  obtain ⟨⟨i5, j5, k5, z1⟩, i6, j6, k6, z2⟩ := hz
  exact ⟨⟨(h i2 j2 k2).1.1.trans x2, x1.trans (h i1 j1 k1).1.2⟩,
    ⟨(h i4 j4 k4).2.1.1.trans y2, y1.trans (h i3 j3 k3).2.1.2⟩,
    (h i6 j6 k6).2.2.1.trans z2, z1.trans (h i5 j5 k5).2.2.2⟩

/-- C41: the transformed box has the transforms of all the points of the box, and is the least one that does,
whatever the history of the transform; the same for the inverse. -/
theorem C41_bbox (l : List (Transform K)) (h : ∀ t ∈ l, Spec.Primitive t) (b : BBox K) (hb : BBox.Spec.Nonempty b) :
    (∀ p, BBox.Spec.Mem b p → BBox.Spec.Mem ((Spec.product l).bbox b) ((Spec.product l).pt p)) ∧
    (∀ c : BBox K, (∀ p, BBox.Spec.Mem b p → BBox.Spec.Mem c ((Spec.product l).pt p)) →
      BBox.Spec.Within ((Spec.product l).bbox b) c) ∧
    ∀ p, BBox.Spec.Mem b p → BBox.Spec.Mem ((Spec.product l).invBBox b) ((Spec.product l).invPt p) := by
  obtain ⟨-, -, ha⟩ := product_spec l (fun t ht => primitive_affine (h t ht))
  refine ⟨fun p hp => bbox_affine _ ha.1 b p hp, fun c hc => ?_, fun p hp => bbox_affine _ ha.2 b p hp⟩
  apply (bboxWith_spec _ b).2
  intro i j k
  apply hc
  obtain ⟨p, ⟨p1, p2⟩, ⟨p3, p4⟩, p5, p6⟩ := hb
  refine ⟨?_, ?_, ?_⟩
  · simp only [corner]; split_ifs
    · exact ⟨p1.trans p2, le_rfl⟩
    · exact ⟨le_rfl, p1.trans p2⟩
  · simp only [corner]; split_ifs
    · exact ⟨p3.trans p4, le_rfl⟩
    · exact ⟨le_rfl, p3.trans p4⟩
  · simp only [corner]; split_ifs
    · exact ⟨p5.trans p6, le_rfl⟩
    · exact ⟨le_rfl, p5.trans p6⟩

end Ordered

/-- A mirror changes hands, a rotation does not. -/
example : (scale (-1 : ℚ) 1 1).changesHands = true ∧ (rotateZ (0 : ℚ) 1).changesHands = false := by
  constructor <;> simp [changesHands, scale, rotateZ]

end Simple.Geometry.Transform
