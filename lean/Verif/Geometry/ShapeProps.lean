import Mathlib.Tactic.NormNum
import Mathlib.Tactic.Linarith
import Mathlib.Tactic.Ring
import Mathlib.Tactic.FieldSimp
import Mathlib.Tactic.LinearCombination
import Verif.Geometry.ShapeModel
import Verif.Geometry.QuadraticProps
import Verif.Geometry.TransformProps

/-! Specifications and lemmas shared by the properties of spheres, cylinders and disks. -/

namespace Simple.Geometry.Shape

namespace Spec

/-- `r` is the first point where the ray, after leaving its origin, meets the set: nothing if it never does. -/
def FirstHit (ray : Ray ℝ) (S : V3 ℝ → Prop) : Option (V3 ℝ) → Prop
  | none => ∀ t, 0 < t → ¬ S (ray.project t)
  | some p => ∃ t, 0 < t ∧ p = ray.project t ∧ S p ∧ ∀ t', 0 < t' → t' < t → ¬ S (ray.project t')

/-- The point `(x, y)` is at an angle between zero and `M` from the axis of `x`. -/
def Sector (M x y : ℝ) : Prop :=
  ∃ φ, 0 ≤ φ ∧ φ ≤ M ∧ x = Real.sqrt (x ^ 2 + y ^ 2) * Real.cos φ ∧ y = Real.sqrt (x ^ 2 + y ^ 2) * Real.sin φ

end Spec

theorem approxRoots_eq {a b c : ℝ} (ha : a ≠ 0) : approxRoots a b c = Quadratic.solveQuadratic a b c := by
  unfold approxRoots Quadratic.solveQuadratic
  rw [if_neg ha]
  have h1 : b * b - a * c * 4 = b * b - 4 * a * c := by ring
  have h2 : ∀ x : ℝ, -x * (1 / 2) = -(1 / 2) * x := fun x => by ring
  simp only [h1, h2]

theorem approxRoots_spec {a b c : ℝ} (ha : a ≠ 0) (h : ¬ (b = 0 ∧ c = 0)) :
    (approxRoots a b c = none ∧ ∀ x, a * x ^ 2 + b * x + c ≠ 0) ∨
    ∃ t0 t1, approxRoots a b c = some (some t0, some t1) ∧ t0 ≤ t1 ∧
      ∀ x, a * x ^ 2 + b * x + c = 0 ↔ x = t0 ∨ x = t1 := by
  rw [approxRoots_eq ha]
  obtain ⟨h1, h2⟩ := Quadratic.C59_roots_partial a b c h
  cases hs : Quadratic.solveQuadratic a b c with
  | none =>
    left
    refine ⟨rfl, fun x hx => h1.1 hs ⟨x, hx⟩⟩
  | some r =>
    right
    obtain ⟨x1, x2, hr, hle, hx⟩ := h2 r hs
    exact ⟨x1, x2, by rw [hr], hle, hx⟩

theorem firstHit_spec (t0 t1 : ℝ) (hle : t0 ≤ t1) (hitAt : ℝ → V3 ℝ × ℝ) (miss : V3 ℝ × ℝ → Prop) :
    (firstHit t0 t1 hitAt miss = none ∧ ∀ t, t = t0 ∨ t = t1 → 0 < t → miss (hitAt t)) ∨
    ∃ t, (t = t0 ∨ t = t1) ∧ 0 < t ∧ firstHit t0 t1 hitAt miss = some (hitAt t) ∧ ¬ miss (hitAt t) ∧
      ∀ t', t' = t0 ∨ t' = t1 → 0 < t' → t' < t → miss (hitAt t') := by
  unfold firstHit
  by_cases h1 : t1 ≤ 0
  · left
    rw [if_pos h1]
    refine ⟨rfl, ?_⟩
    rintro t (rfl | rfl) ht
    · exact absurd ht (not_lt.2 (hle.trans h1))
    · exact absurd ht (not_lt.2 h1)
  · rw [if_neg h1]
    rw [not_le] at h1
    by_cases h0 : 0 < t0
    · dsimp only
      rw [show (if 0 < t0 then t0 else t1) = t0 from if_pos h0, show (if 0 < t0 then false else true) = false from if_pos h0]
      by_cases hm : miss (hitAt t0)
      · rw [if_pos hm, if_neg (by simp)]
        by_cases hm1 : miss (hitAt t1)
        · left
          rw [if_pos hm1]
          refine ⟨rfl, ?_⟩
          rintro t (rfl | rfl) _ <;> assumption
        · right
          rw [if_neg hm1]
          refine ⟨t1, Or.inr rfl, h1, rfl, hm1, ?_⟩
          rintro t (rfl | rfl) _ hlt
          · exact hm
          · exact absurd hlt (lt_irrefl _)
      · right
        rw [if_neg hm]
        refine ⟨t0, Or.inl rfl, h0, rfl, hm, ?_⟩
        rintro t (rfl | rfl) _ hlt
        · exact absurd hlt (lt_irrefl _)
        · exact absurd hlt (not_lt.2 hle)
    · dsimp only
      rw [show (if 0 < t0 then t0 else t1) = t1 from if_neg h0, show (if 0 < t0 then false else true) = true from if_neg h0]
      by_cases hm : miss (hitAt t1)
      · left
        rw [if_pos hm, if_pos (by simp)]
        refine ⟨rfl, ?_⟩
        rintro t (rfl | rfl) ht
        · exact absurd ht h0
        · exact hm
      · right
        rw [if_neg hm]
        refine ⟨t1, Or.inr rfl, h1, rfl, hm, ?_⟩
        rintro t (rfl | rfl) ht hlt
        · exact absurd ht h0
        · exact absurd hlt (lt_irrefl _)

theorem phiOf_spec (x y : ℝ) : 0 ≤ phiOf x y ∧ phiOf x y < 2 * Real.pi ∧
    x = Real.sqrt (x ^ 2 + y ^ 2) * Real.cos (phiOf x y) ∧ y = Real.sqrt (x ^ 2 + y ^ 2) * Real.sin (phiOf x y) := by
  have hpi := Real.pi_pos
  have h1 := Complex.neg_pi_lt_arg ⟨x, y⟩
  have h2 := Complex.arg_le_pi ⟨x, y⟩
  have hn : ‖(⟨x, y⟩ : ℂ)‖ = Real.sqrt (x ^ 2 + y ^ 2) := Complex.norm_eq_sqrt_sq_add_sq _
  have hc := Complex.norm_mul_cos_arg ⟨x, y⟩
  have hs := Complex.norm_mul_sin_arg ⟨x, y⟩
  rw [hn] at hc hs
  unfold phiOf
  dsimp only
  by_cases hneg : Complex.arg ⟨x, y⟩ < 0
  · rw [if_pos hneg, Real.cos_add_two_pi, Real.sin_add_two_pi]
    exact ⟨by linarith, by linarith, hc.symm, hs.symm⟩
  · rw [if_neg hneg]
    exact ⟨not_lt.1 hneg, by linarith, hc.symm, hs.symm⟩

theorem sector_iff {M : ℝ} (h0 : 0 ≤ M) (x y : ℝ) : Spec.Sector M x y ↔ phiOf x y ≤ M := by
  obtain ⟨a, b, c, d⟩ := phiOf_spec x y
  constructor
  · rintro ⟨φ, p0, p1, hx, hy⟩
    by_cases hρ : Real.sqrt (x ^ 2 + y ^ 2) = 0
    · have h : x ^ 2 + y ^ 2 ≤ 0 := Real.sqrt_eq_zero'.1 hρ
      have hx0 : x = 0 := by nlinarith [sq_nonneg x, sq_nonneg y]
      have hy0 : y = 0 := by nlinarith [sq_nonneg x, sq_nonneg y]
      subst hx0 hy0
      have : phiOf 0 0 = 0 := by
        unfold phiOf
        have : (⟨0, 0⟩ : ℂ) = 0 := rfl
        rw [this]
        simp
      rw [this]
      exact h0
    · have hc : Real.cos φ = Real.cos (phiOf x y) := mul_left_cancel₀ hρ (hx.symm.trans c)
      have hs : Real.sin φ = Real.sin (phiOf x y) := mul_left_cancel₀ hρ (hy.symm.trans d)
      by_cases hφ : φ < 2 * Real.pi
      · have : Real.cos (φ - phiOf x y) = 1 := by
          rw [Real.cos_sub, hc, hs]
          nlinarith [Real.sin_sq_add_cos_sq (phiOf x y)]
        rw [Real.cos_eq_one_iff_of_lt_of_lt (by linarith) (by linarith)] at this
        linarith
      · linarith
  · intro h
    exact ⟨_, a, h, c, d⟩

theorem clamp_self {x lo hi : ℝ} (h1 : lo ≤ x) (h2 : x ≤ hi) : clampReal x lo hi = x := by
  unfold clampReal
  rw [if_neg (not_lt.2 h1), if_neg (not_lt.2 h2)]

theorem checkPhi_ok {phi : ℝ} (h0 : 0 ≤ phi) (h1 : phi ≤ 360) : checkPhi phi = .ok (phi * (Real.pi / 180)) := by
  have he : (0 : ℝ) ≤ eps := by unfold eps; positivity
  unfold checkPhi
  rw [if_pos ⟨by linarith, by linarith⟩, clamp_self h0 h1]

theorem radians_range {phi : ℝ} (h0 : 0 ≤ phi) (h1 : phi ≤ 360) :
    0 ≤ phi * (Real.pi / 180) ∧ phi * (Real.pi / 180) ≤ 2 * Real.pi := by
  have hpi := Real.pi_pos
  constructor
  · positivity
  · have : phi * (Real.pi / 180) ≤ 360 * (Real.pi / 180) := mul_le_mul_of_nonneg_right h1 (by positivity)
    linarith

/-- A primitive transform takes rays to rays. -/
theorem invRay_project (t : Transform ℝ) (h : Transform.Spec.Primitive t) (ray : Ray ℝ) (u : ℝ) :
    (t.invRay ray).project u = t.invPt (ray.project u) := by
  cases h <;>
  · ext <;>
    simp [Transform.invRay, Ray.project, Transform.invPt, Transform.invVec, Transform.mulPoint, Transform.mulVec,
      V3.div, Transform.new, Transform.translate, Transform.scale, Transform.rotateX, Transform.rotateY,
      Transform.rotateZ] <;>
    ring

/-- The first hit in the coordinates of the object is the first hit in those of the world. -/
theorem firstHit_transform (t : Transform ℝ) (h : Transform.Spec.Primitive t) (ray : Ray ℝ) (S : V3 ℝ → Prop)
    (r : Option (V3 ℝ)) (hr : Spec.FirstHit (t.invRay ray) S r) :
    Spec.FirstHit ray (fun p => S (t.invPt p)) (r.map t.pt) := by
  have hc := Transform.C40_primitive t h
  cases r with
  | none =>
    intro u hu hS
    exact hr u hu (by rw [invRay_project t h]; exact hS)
  | some p =>
    obtain ⟨u, hu, hp, hS, hmin⟩ := hr
    have e : t.pt p = ray.project u := by rw [hp, invRay_project t h]; exact (hc _).2.1
    refine ⟨u, hu, e, ?_, ?_⟩
    · change S (t.invPt (t.pt p))
      rw [(hc p).1]
      exact hS
    · intro u' hu' hlt hS'
      exact hmin u' hu' hlt (by rw [invRay_project t h]; exact hS')

end Simple.Geometry.Shape
