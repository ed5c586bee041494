import Mathlib.Tactic.NormNum
import Mathlib.Tactic.Linarith
import Mathlib.Tactic.Ring
import Mathlib.Tactic.FieldSimp
import Mathlib.Tactic.LinearCombination
import Verif.Geometry.QuadraticModel

/-! # C59: the quadratic solver -/

namespace Simple.Geometry.Quadratic

/-- `x` is a root of `a x² + b x + c`. -/
def Spec.Root (a b c x : ℝ) : Prop := a * x ^ 2 + b * x + c = 0

/-- C59, the part that holds: unless the equation is `a x² = 0` (see `C59_violated_double_zero`) or `0 = 0`
(see `C59_violated_always`), the two values returned are in order and are exactly the roots, and nothing is returned
exactly when there is no root. -/
theorem C59_roots_partial (a b c : ℝ) (h : ¬ (b = 0 ∧ c = 0)) :
    (solveQuadratic a b c = none ↔ ¬ ∃ x, Spec.Root a b c x) ∧
    ∀ r, solveQuadratic a b c = some r → ∃ x1 x2 : ℝ, r = (some x1, some x2) ∧ x1 ≤ x2 ∧
      ∀ x, Spec.Root a b c x ↔ x = x1 ∨ x = x2 := by
  have main : (solveQuadratic a b c = none ∧ ¬ ∃ x, Spec.Root a b c x) ∨
      ∃ x1 x2 : ℝ, solveQuadratic a b c = some (some x1, some x2) ∧ x1 ≤ x2 ∧
        ∀ x, Spec.Root a b c x ↔ x = x1 ∨ x = x2 := by
    unfold solveQuadratic
    dsimp only
    by_cases ha : a = 0
    · rw [if_pos ha]
      subst ha
      by_cases hb : b = 0
      · rw [if_pos hb]
        subst hb
        left
        refine ⟨rfl, ?_⟩
        rintro ⟨x, hx⟩
        apply h
        unfold Spec.Root at hx
        exact ⟨rfl, by linarith⟩
      · rw [if_neg hb]
        right
        refine ⟨-c / b, -c / b, rfl, le_rfl, fun x => ?_⟩
        unfold Spec.Root
        rw [or_self, eq_div_iff hb]
        constructor <;> intro hx <;> linarith
    · rw [if_neg ha]
      by_cases hd : b * b - 4 * a * c < 0
      · rw [if_pos hd]
        left
        refine ⟨rfl, ?_⟩
        rintro ⟨x, hx⟩
        unfold Spec.Root at hx
        have e : (2 * a * x + b) ^ 2 = b * b - 4 * a * c := by linear_combination 4 * a * hx
        linarith [sq_nonneg (2 * a * x + b)]
      · rw [if_neg hd]
        rw [not_lt] at hd
        right
        have hs := Real.mul_self_sqrt hd
        have hs0 := Real.sqrt_nonneg (b * b - 4 * a * c)
        generalize Real.sqrt (b * b - 4 * a * c) = s at hs hs0
        obtain ⟨q, hq⟩ : ∃ q, q = if b < 0 then -(1 / 2) * (b - s) else -(1 / 2) * (b + s) := ⟨_, rfl⟩
        rw [← hq]
        -- `q` is the root of `q² + b q + a c`, away from zero
        have hqq : q * q + b * q + a * c = 0 := by
          rw [hq]
          split_ifs <;> nlinarith
        have hq0 : q ≠ 0 := by
          intro h0
          rw [h0] at hq
          have hc : c = 0 := by
            rw [h0] at hqq
            have : a * c = 0 := by linarith
            exact (mul_eq_zero.1 this).resolve_left ha
          split_ifs at hq with hb
          · linarith
          · apply h
            exact ⟨by linarith, hc⟩
        have e1 : quot q a = some (q / a) := by unfold quot; rw [if_neg ha]
        have e2 : quot c q = some (c / q) := by unfold quot; rw [if_neg hq0]
        rw [e1, e2]
        have roots : ∀ x, Spec.Root a b c x ↔ x = q / a ∨ x = c / q := by
          intro x
          unfold Spec.Root
          rw [eq_div_iff ha, eq_div_iff hq0]
          constructor
          · intro hx
            have : (x * a - q) * (x * q - c) = 0 := by linear_combination q * hx - x * hqq
            rcases mul_eq_zero.1 this with h | h
            · left; linarith
            · right; linarith
          · rintro (hx | hx)
            · have : a * (a * x ^ 2 + b * x + c) = 0 := by
                linear_combination (a * x + q + b) * hx + hqq
              exact (mul_eq_zero.1 this).resolve_left ha
            · have : q * (q * (a * x ^ 2 + b * x + c)) = 0 := by
                linear_combination (a * x * q + a * c + b * q) * hx + c * hqq
              exact (mul_eq_zero.1 ((mul_eq_zero.1 this).resolve_left hq0)).resolve_left hq0
        by_cases hgt : q / a > c / q
        · refine ⟨c / q, q / a, ?_, hgt.le, fun x => (roots x).trans or_comm⟩
          simp [gtB, hgt]
        · refine ⟨q / a, c / q, ?_, not_lt.1 hgt, roots⟩
          simp only [gtB, gt_iff_lt, decide_eq_true_eq]
          rw [if_neg hgt]
  rcases main with ⟨h1, h2⟩ | ⟨x1, x2, h1, h2, h3⟩
  · exact ⟨⟨fun _ => h2, fun _ => h1⟩, fun r hr => by rw [h1] at hr; cases hr⟩
  · refine ⟨⟨fun h0 => (by rw [h1] at h0; cases h0), fun h0 => absurd ⟨x1, (h3 x1).2 (Or.inl rfl)⟩ h0⟩, fun r hr => ?_⟩
    rw [h1] at hr
    exact ⟨x1, x2, (Option.some.inj hr).symm, h2, h3⟩

/-- C59 fails: the second root of `a x² = 0` is NaN. -/
theorem C59_violated_double_zero (a : ℝ) (ha : a ≠ 0) :
    solveQuadratic a 0 0 = some (some 0, none) ∧ ∀ x, Spec.Root a 0 0 x ↔ x = 0 := by
  constructor
  · unfold solveQuadratic
    dsimp only
    rw [if_neg ha, if_neg (by simp)]
    simp [quot, ha, gtB]
  · intro x
    unfold Spec.Root
    simp [ha]

/-- C59 fails: when all coefficients are zero every number is a root and none is returned. -/
theorem C59_violated_always : solveQuadratic 0 0 0 = none ∧ ∀ x, Spec.Root 0 0 0 x :=
  ⟨by simp [solveQuadratic], fun x => by simp [Spec.Root]⟩

/-- The equation `x² - 3 x + 2 = 0`. -/
example : ¬ ((-3 : ℝ) = 0 ∧ (2 : ℝ) = 0) ∧ Spec.Root 1 (-3) 2 1 ∧ Spec.Root 1 (-3) 2 2 := by
  unfold Spec.Root
  norm_num

end Simple.Geometry.Quadratic
