import Mathlib.Tactic.NormNum
import Mathlib.Tactic.Linarith
import Mathlib.Tactic.Ring
import Mathlib.Tactic.FieldSimp
import Mathlib.Tactic.Positivity
import Verif.Weather.PerezModel
import Verif.Weather.ReinhartProps

/-! # C38: Perez's categories, C39: the sky vector, and C65: the diffuse fraction -/

namespace Simple.Weather.Perez

open Geometry

namespace Spec

/-- How many of the limits are at most `x`. -/
noncomputable def reached (limits : List ℝ) (x : ℝ) : ℕ := limits.countP (fun l => decide (l ≤ x))

/-- How many of the limits are below `x`. -/
noncomputable def passed (limits : List ℝ) (x : ℝ) : ℕ := limits.countP (fun l => decide (l < x))

/-- The limits of the clearness of the sky, table 1 of the paper. -/
noncomputable def clearness : List ℝ := [1.065, 1.23, 1.5, 1.95, 2.8, 4.5, 6.2]

/-- The limits of the other tables. -/
noncomputable def kt : List ℝ := [0.24, 0.4, 0.56, 0.7, 0.8]
noncomputable def deltaKt : List ℝ := [0.015, 0.035, 0.07, 0.15, 0.3]
noncomputable def zenith : List ℝ :=
  [Real.pi * (25 / 180), Real.pi * (40 / 180), Real.pi * (55 / 180), Real.pi * (70 / 180), Real.pi * (80 / 180)]
noncomputable def water : List ℝ := [1, 2, 3]

end Spec

private theorem reached_mono (limits : List ℝ) {x y : ℝ} (h : x ≤ y) : Spec.reached limits x ≤ Spec.reached limits y := by
  apply List.countP_mono_left
  intro l _ hl
  simp only [decide_eq_true_eq] at hl ⊢
  linarith

private theorem passed_mono (limits : List ℝ) {x y : ℝ} (h : x ≤ y) : Spec.passed limits x ≤ Spec.passed limits y := by
  apply List.countP_mono_left
  intro l _ hl
  simp only [decide_eq_true_eq] at hl ⊢
  linarith

/-- C38: the category of a clearness is how many of the seven limits it has reached; it is one of the eight that
the tables have, and does not decrease. -/
theorem C38_clearness (x y : ℝ) :
    clearnessCategory x = Spec.reached Spec.clearness x ∧ clearnessCategory x ≤ 7 ∧
    (x ≤ y → clearnessCategory x ≤ clearnessCategory y) := by
  have key : ∀ x, clearnessCategory x = Spec.reached Spec.clearness x := by
    intro x
    unfold clearnessCategory Spec.reached Spec.clearness
    simp only [List.countP_cons, List.countP_nil]
    by_cases h1 : x < 1065 / 1000
    · rw [if_pos h1, if_neg, if_neg, if_neg, if_neg, if_neg, if_neg, if_neg] <;>
        simp only [decide_eq_true_eq, not_le] <;> norm_num at h1 ⊢ <;> linarith
    rw [if_neg h1]
    by_cases h2 : x < 1230 / 1000
    · rw [if_pos h2, if_neg, if_neg, if_neg, if_neg, if_neg, if_neg, if_pos] <;>
        simp only [decide_eq_true_eq, not_le] <;> norm_num at h1 h2 ⊢ <;> linarith
    rw [if_neg h2]
    by_cases h3 : x < 15 / 10
    · rw [if_pos h3, if_neg, if_neg, if_neg, if_neg, if_neg, if_pos, if_pos] <;>
        simp only [decide_eq_true_eq, not_le] <;> norm_num at h1 h2 h3 ⊢ <;> linarith
    rw [if_neg h3]
    by_cases h4 : x < 195 / 100
    · rw [if_pos h4, if_neg, if_neg, if_neg, if_neg, if_pos, if_pos, if_pos] <;>
        simp only [decide_eq_true_eq, not_le] <;> norm_num at h1 h2 h3 h4 ⊢ <;> linarith
    rw [if_neg h4]
    by_cases h5 : x < 28 / 10
    · rw [if_pos h5, if_neg, if_neg, if_neg, if_pos, if_pos, if_pos, if_pos] <;>
        simp only [decide_eq_true_eq, not_le] <;> norm_num at h1 h2 h3 h4 h5 ⊢ <;> linarith
    rw [if_neg h5]
    by_cases h6 : x < 45 / 10
    · rw [if_pos h6, if_neg, if_neg, if_pos, if_pos, if_pos, if_pos, if_pos] <;>
        simp only [decide_eq_true_eq, not_le] <;> norm_num at h1 h2 h3 h4 h5 h6 ⊢ <;> linarith
    rw [if_neg h6]
    by_cases h7 : x < 62 / 10
    · rw [if_pos h7, if_neg, if_pos, if_pos, if_pos, if_pos, if_pos, if_pos] <;>
        simp only [decide_eq_true_eq, not_le] <;> norm_num at h1 h2 h3 h4 h5 h6 h7 ⊢ <;> linarith
    · rw [if_neg h7, if_pos, if_pos, if_pos, if_pos, if_pos, if_pos, if_pos] <;>
        simp only [decide_eq_true_eq] <;> norm_num at h1 h2 h3 h4 h5 h6 h7 ⊢ <;> linarith
  refine ⟨key x, ?_, fun h => ?_⟩
  · rw [key]; exact List.countP_le_length
  · rw [key, key]; exact reached_mono _ h

private theorem five_limits {a b c d e top x : ℝ} (hab : a ≤ b) (hbc : b ≤ c) (hcd : c ≤ d) (hde : d ≤ e)
    (htop : x ≤ top) :
    (if x ≤ a then Outcome.ok 0 else if x ≤ b then .ok 1 else if x ≤ c then .ok 2 else if x ≤ d then .ok 3
      else if x ≤ e then .ok 4 else if x ≤ top then .ok 5 else .panic) = .ok (Spec.passed [a, b, c, d, e] x) := by
  unfold Spec.passed
  simp only [List.countP_cons, List.countP_nil]
  by_cases h1 : x ≤ a
  · rw [if_pos h1, if_neg, if_neg, if_neg, if_neg, if_neg] <;> simp only [decide_eq_true_eq, not_lt] <;> linarith
  rw [if_neg h1]
  rw [not_le] at h1
  by_cases h2 : x ≤ b
  · rw [if_pos h2, if_neg, if_neg, if_neg, if_neg, if_pos] <;> simp only [decide_eq_true_eq, not_lt] <;> linarith
  rw [if_neg h2]
  rw [not_le] at h2
  by_cases h3 : x ≤ c
  · rw [if_pos h3, if_neg, if_neg, if_neg, if_pos, if_pos] <;> simp only [decide_eq_true_eq, not_lt] <;> linarith
  rw [if_neg h3]
  rw [not_le] at h3
  by_cases h4 : x ≤ d
  · rw [if_pos h4, if_neg, if_neg, if_pos, if_pos, if_pos] <;> simp only [decide_eq_true_eq, not_lt] <;> linarith
  rw [if_neg h4]
  rw [not_le] at h4
  by_cases h5 : x ≤ e
  · rw [if_pos h5, if_neg, if_pos, if_pos, if_pos, if_pos] <;> simp only [decide_eq_true_eq, not_lt] <;> linarith
  rw [if_neg h5, if_pos htop]
  rw [not_le] at h5
  rw [if_pos, if_pos, if_pos, if_pos, if_pos] <;> simp only [decide_eq_true_eq] <;> linarith

/-- C38: the bins of the clearness index, its variation, the zenith and the water in the air are how many of the
limits have been passed, for values in range, and are refused otherwise. -/
theorem C38_bins (x : ℝ) :
    (0 ≤ x ∧ x ≤ 1 → ktBin x = .ok (Spec.passed Spec.kt x)) ∧ (¬ (0 ≤ x ∧ x ≤ 1) → ktBin x = .panic) ∧
    (0 ≤ x ∧ x ≤ 1 → deltaKtBin x = .ok (Spec.passed Spec.deltaKt x)) ∧
    (¬ (0 ≤ x ∧ x ≤ 1) → deltaKtBin x = .panic) ∧
    (0 ≤ x ∧ x ≤ Real.pi / 2 → zetaBin x = .ok (Spec.passed Spec.zenith x)) ∧
    (¬ (0 ≤ x ∧ x ≤ Real.pi / 2) → zetaBin x = .panic) ∧
    (0 ≤ x → wBin x = .ok (Spec.passed Spec.water x)) ∧ (¬ 0 ≤ x → wBin x = .panic) := by
  have hpi := Real.pi_pos
  refine ⟨?_, ?_, ?_, ?_, ?_, ?_, ?_, ?_⟩
  · intro h
    unfold ktBin
    rw [if_neg (not_not.2 h), five_limits (by norm_num) (by norm_num) (by norm_num) (by norm_num) h.2]
    unfold Spec.kt; norm_num
  · intro h; unfold ktBin; rw [if_pos h]
  · intro h
    unfold deltaKtBin
    rw [if_neg (not_not.2 h), five_limits (by norm_num) (by norm_num) (by norm_num) (by norm_num) h.2]
    unfold Spec.deltaKt; norm_num
  · intro h; unfold deltaKtBin; rw [if_pos h]
  · intro h
    unfold zetaBin
    rw [if_neg (not_not.2 h), five_limits (by linarith) (by linarith) (by linarith) (by linarith) (by linarith)]
    unfold Spec.zenith
    congr 2
    simp only [List.cons.injEq, and_true]
    refine ⟨by ring, by ring, by ring, by ring, by ring⟩
  · intro h; unfold zetaBin; rw [if_pos h]
  · intro h
    unfold wBin Spec.passed Spec.water
    rw [if_neg (not_lt.2 h)]
    simp only [List.countP_cons, List.countP_nil]
    by_cases h1 : x ≤ 1
    · rw [if_pos h1, if_neg, if_neg, if_neg] <;> simp only [decide_eq_true_eq, not_lt] <;> linarith
    rw [if_neg h1]; rw [not_le] at h1
    by_cases h2 : x ≤ 2
    · rw [if_pos h2, if_neg, if_neg, if_pos] <;> simp only [decide_eq_true_eq, not_lt] <;> linarith
    rw [if_neg h2]; rw [not_le] at h2
    by_cases h3 : x ≤ 3
    · rw [if_pos h3, if_neg, if_pos, if_pos] <;> simp only [decide_eq_true_eq, not_lt] <;> linarith
    rw [if_neg h3]; rw [not_le] at h3
    rw [if_pos, if_pos, if_pos] <;> simp only [decide_eq_true_eq] <;> linarith
  · intro h; unfold wBin; rw [if_pos (not_le.1 h)]

private theorem tables_ok : ∀ a ≤ 5, ∀ b ≤ 5, ∃ table, Outcome.index coefficients (6 * a + b) = .ok table ∧
    table.length = 35 ∧ ∀ x ∈ table, 0 < x := by
  have h : ∀ t ∈ coefficients, t.length = 35 ∧ ∀ x ∈ t, 0 < x := by decide +kernel
  have hl : coefficients.length = 36 := by decide +kernel
  intro a ha b hb
  rw [Outcome.index_of_lt (by omega)]
  exact ⟨_, rfl, h _ (List.getElem_mem _)⟩

/-- C38: within the bins there are, looking a coefficient up is defined and gives a positive one. -/
theorem C38_coefficients (k z w d : ℕ) (hk : k ≤ 5) (hz : z ≤ 5) (hw : w ≤ 3) (hd : d ≤ 5) :
    ∃ c, directRadCoefs k z w d = .ok c ∧ 0 < c := by
  obtain ⟨t, h1, h2, h3⟩ := tables_ok k hk z hz
  unfold directRadCoefs
  simp only
  rw [if_pos ⟨hk, hz⟩, h1]
  simp only [Outcome.bind]
  rw [Outcome.index_of_lt (by omega)]
  exact ⟨_, rfl, h3 _ (List.getElem_mem _)⟩

private theorem clamp_range (x : ℝ) : 0 ≤ clamp x 0 1 ∧ clamp x 0 1 ≤ 1 := by
  unfold clamp
  split_ifs with h1 h2
  · norm_num
  · norm_num
  · exact ⟨not_lt.1 h1, not_lt.1 h2⟩

/-- C38: whatever the weather, the coefficient of the direct radiation is defined and positive, but for a sun
within ten degrees of the horizon, or under it, for which there is none.

Missing: two cells of the table of coefficients that are confused (`C38_violated_lookup`). -/
theorem C38_direct_partial (cosZenith ktP deltaKtP dewPoint : ℝ) :
    (80 * Real.pi / 180 < Real.arccos cosZenith ∧ directNormalCoefficient cosZenith ktP deltaKtP dewPoint = .ok none) ∨
    ∃ c, directNormalCoefficient cosZenith ktP deltaKtP dewPoint = .ok (some c) ∧ 0 < c := by
  have hpi := Real.pi_pos
  unfold directNormalCoefficient
  simp only
  by_cases h : 80 * Real.pi / 180 < Real.arccos cosZenith
  · left; rw [if_pos h]; exact ⟨h, rfl⟩
  · right
    rw [if_neg h, (C38_bins (clamp ktP 0 1)).1 (clamp_range _)]
    rw [not_lt] at h
    simp only [Outcome.bind]
    rw [(C38_bins (Real.arccos cosZenith)).2.2.2.2.1 ⟨Real.arccos_nonneg _, by linarith⟩]
    simp only
    rw [(C38_bins (Real.exp _)).2.2.2.2.2.2.1 (Real.exp_pos _).le]
    simp only
    rw [(C38_bins (clamp deltaKtP 0 1)).2.2.1 (clamp_range _)]
    simp only
    obtain ⟨c, h1, h2⟩ := C38_coefficients (Spec.passed Spec.kt (clamp ktP 0 1))
      (Spec.passed Spec.zenith (Real.arccos cosZenith)) (Spec.passed Spec.water (Real.exp (7 / 100 * dewPoint - 75 / 1000)))
      (Spec.passed Spec.deltaKt (clamp deltaKtP 0 1)) List.countP_le_length List.countP_le_length
      List.countP_le_length List.countP_le_length
    rw [h1]
    exact ⟨c, rfl, h2⟩

/-- C38: the direct luminous efficacy is defined for every category of sky, and not negative. -/
theorem C38_direct_ratio (water zenith brightness clearness : ℝ) :
    ∃ r, directIlluminanceRatio water zenith brightness (clearnessCategory clearness) = .ok r ∧ 0 ≤ r := by
  have h := (C38_clearness clearness 0).2.1
  unfold directIlluminanceRatio
  rw [if_neg (by omega), Outcome.index_of_lt (by simp [directTable]; omega)]
  simp only [Outcome.bind]
  refine ⟨_, rfl, ?_⟩
  unfold clamp
  split_ifs with h1 h2
  · exact le_refl _
  · norm_num
  · exact not_lt.1 h1

/-- C38 is violated: the tables have a row of five for each of the seven variations of the clearness, and are
looked up as if they had one for each amount of water.  So different bins share a coefficient: great variation
with the driest air, and no variation with the next one. -/
theorem C38_violated_lookup : ∀ k z : ℕ, directRadCoefs k z 0 5 = directRadCoefs k z 1 0 := fun _ _ => rfl

/-- Those are bins of actual values. -/
example : wBin 0.5 = .ok 0 ∧ deltaKtBin 0.9 = .ok 5 ∧ wBin 1.5 = .ok 1 ∧ deltaKtBin 0.01 = .ok 0 := by
  unfold wBin deltaKtBin
  norm_num

/-! ## C65 -/

/-- C65: the fraction of the radiation that is diffuse is between 0 and 1, for every clearness index that is not
negative. -/
theorem C65_fraction (kt : ℝ) (h : 0 ≤ kt) : 0 ≤ diffuseFraction kt ∧ diffuseFraction kt ≤ 1 := by
  unfold diffuseFraction
  split_ifs with h1 h2
  · constructor <;> linarith
  · norm_num
  · rw [not_le] at h1
    rw [not_lt] at h2
    constructor
    · nlinarith [sq_nonneg (kt ^ 2 - 6744 / 10000 * kt), sq_nonneg (kt - 8 / 10), sq_nonneg (kt ^ 2 - 64 / 100),
        mul_nonneg (sub_nonneg.2 h1.le) (sub_nonneg.2 h2)]
    · obtain ⟨t, rfl⟩ : ∃ t, kt = 22 / 100 + t := ⟨kt - 22 / 100, by ring⟩
      have ht : 0 ≤ t := by linarith
      have ht2 : 0 ≤ 58 / 100 - t := by linarith
      have e1 : 0 ≤ t ^ 3 * (58 / 100 - t) := mul_nonneg (pow_nonneg ht 3) ht2
      have e2 : 0 ≤ t ^ 2 * (58 / 100 - t) := mul_nonneg (pow_nonneg ht 2) ht2
      nlinarith [pow_nonneg ht 2, pow_nonneg ht 3]

end Simple.Weather.Perez
