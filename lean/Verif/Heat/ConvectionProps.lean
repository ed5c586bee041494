import Mathlib.Tactic.NormNum
import Mathlib.Tactic.Linarith
import Mathlib.Tactic.Positivity
import Mathlib.Tactic.IntervalCases
import Verif.Heat.ConvectionModel

/-! # C31: convection coefficients -/

namespace Simple.Heat

namespace Spec

/-- The natural convection of the TARP model, as documented (`convection.rs:62-86`): `d` is the
temperature of the air minus that of the surface and `c` the cosine of the tilt, positive facing up. -/
noncomputable def tarpNatural (d c : ℝ) : ℝ :=
  if d * c = 0 then 1.31 * |d| ^ (1 / 3 : ℝ)
  else if d * c < 0 then 9.482 * |d| ^ (1 / 3 : ℝ) / (7.238 - |c|)
  else 1.81 * |d| ^ (1 / 3 : ℝ) / (1.382 + |c|)

end Spec

/-- C31: the natural coefficient is defined for all temperatures and tilts.  It is that documented for
the opposite tilt (see `C31_violated_documented`), or 0.1 if that is smaller; differences of
temperature and cosines below 0.001 are taken as zero. -/
theorem C31_natural (p : ConvectionParams) :
    p.natural = .ok (max 0.1
      (if |p.airTemperature - p.surfaceTemperature| < 0.001 ∨ |p.cosSurfaceTilt| < 0.001 then
        Spec.tarpNatural (p.airTemperature - p.surfaceTemperature) 0
       else Spec.tarpNatural (p.airTemperature - p.surfaceTemperature) (-p.cosSurfaceTilt))) := by
  unfold ConvectionParams.natural
  set d := p.airTemperature - p.surfaceTemperature with hd
  set c := p.cosSurfaceTilt with hc
  have hmax : ∀ h : ℝ, (if h < minH then minH else h) = max 0.1 h := by
    intro h
    unfold minH
    rcases lt_or_ge h 0.1 with hl | hl
    · rw [if_pos hl, max_eq_left hl.le]
    · rw [if_neg (not_lt.2 hl), max_eq_right hl]
  have hsmall : (1e-3 : ℝ) = 0.001 := by norm_num
  simp only [hsmall]
  by_cases h1 : |d| < 0.001 ∨ |c| < 0.001
  · rw [if_pos h1, if_pos h1]
    simp only [Outcome.bind, hmax, Spec.tarpNatural, mul_zero, if_true]
  · rw [if_neg h1, if_neg h1]
    have hd0 : d ≠ 0 := by
      intro h; apply h1; left; rw [h]; norm_num
    have hc0 : c ≠ 0 := by
      intro h; apply h1; right; rw [h]; norm_num
    unfold Spec.tarpNatural
    rw [if_neg (mul_ne_zero hd0 (neg_ne_zero.2 hc0)), abs_neg]
    by_cases h2 : (d < 0 ∧ c < 0) ∨ (d > 0 ∧ c > 0)
    · have hp' : 0 < d * c := by
        rcases h2 with ⟨a, b⟩ | ⟨a, b⟩
        · exact mul_pos_of_neg_of_neg a b
        · exact mul_pos a b
      have hp : d * -c < 0 := by linarith
      rw [if_pos h2, if_pos hp]
      simp only [Outcome.bind, hmax]
    · rw [if_neg h2]
      have h3 : (d > 0 ∧ c < 0) ∨ (d < 0 ∧ c > 0) := by
        rcases lt_or_gt_of_ne hd0 with a | a <;> rcases lt_or_gt_of_ne hc0 with b | b
        · exact absurd (Or.inl ⟨a, b⟩) h2
        · exact Or.inr ⟨a, b⟩
        · exact Or.inl ⟨a, b⟩
        · exact absurd (Or.inr ⟨a, b⟩) h2
      have hn' : ¬ 0 < d * c := by
        rcases h3 with ⟨a, b⟩ | ⟨a, b⟩
        · exact not_lt.2 (mul_nonpos_of_nonneg_of_nonpos a.le b.le)
        · exact not_lt.2 (mul_nonpos_of_nonpos_of_nonneg a.le b.le)
      have hn : ¬ d * -c < 0 := by intro h; apply hn'; linarith
      rw [if_pos h3, if_neg hn]
      simp only [Outcome.bind, hmax]

/-- C31: the exterior coefficient is defined for every roughness index that the table holds, is never
less than 0.1, and is not smaller on the side facing the wind than on the other. -/
theorem C31_tarp (p : ConvectionParams) (area perimeter : ℝ) (hr : p.roughnessIndex < 6) :
    ∃ hw hl, p.tarp area perimeter true = .ok hw ∧ p.tarp area perimeter false = .ok hl ∧
      0.1 ≤ hl ∧ hl ≤ hw := by
  obtain ⟨rf, hrf, hrf0⟩ : ∃ rf, Outcome.index roughness p.roughnessIndex = .ok rf ∧ 0 < rf := by
    have hlen : roughness.length = 6 := rfl
    refine ⟨roughness[p.roughnessIndex], Outcome.index_of_lt (by omega), ?_⟩
    have : ∀ r ∈ roughness, (0 : ℝ) < r := by
      unfold roughness
      simp only [List.mem_cons, List.not_mem_nil, or_false]
      rintro r (rfl | rfl | rfl | rfl | rfl | rfl) <;> norm_num
    exact this _ (List.getElem_mem _)
  unfold ConvectionParams.tarp
  rw [hrf, C31_natural]
  refine ⟨_, _, rfl, rfl, ?_, ?_⟩
  · have h := le_max_left (0.1 : ℝ)
      (if |p.airTemperature - p.surfaceTemperature| < 0.001 ∨ |p.cosSurfaceTilt| < 0.001 then
        Spec.tarpNatural (p.airTemperature - p.surfaceTemperature) 0
       else Spec.tarpNatural (p.airTemperature - p.surfaceTemperature) (-p.cosSurfaceTilt))
    have : 0 ≤ 2.537 * 0.5 * rf * √(perimeter * p.airSpeed / area) := by positivity
    simp only [Bool.false_eq_true, if_false]
    linarith
  · have : 0 ≤ rf * √(perimeter * p.airSpeed / area) := by positivity
    simp only [Bool.false_eq_true, if_false, if_true]
    nlinarith

/-- C31: the forced part is that of the TARP model, `2.537 W R √(P V / A)`.

Missing: the documented branches and the documented roughness indices (`C31_violated_documented`, `C31_violated_very_smooth`, `C31_violated_very_rough`). -/
theorem C31_forced_partial (p : ConvectionParams) (area perimeter : ℝ) (windward : Bool) (i : Fin 6)
    (hr : p.roughnessIndex = i.val) :
    ∃ hn, p.natural = .ok hn ∧ p.tarp area perimeter windward
      = .ok (2.537 * (if windward then 1 else 0.5) * ![2.17, 1.67, 1.52, 1.13, 1.11, 1] i
          * √(perimeter * p.airSpeed / area) + hn) := by
  refine ⟨_, C31_natural p, ?_⟩
  unfold ConvectionParams.tarp
  have : Outcome.index roughness p.roughnessIndex = .ok (![2.17, 1.67, 1.52, 1.13, 1.11, 1] i : ℝ) := by
    rw [hr]
    fin_cases i <;> rfl
  rw [this, C31_natural]
  rfl

/-- A surface facing up, one degree hotter than the air: the documentation gives 1.52 W/m²K (hot air rises),
the code half of it; the two branches are swapped. -/
theorem C31_violated_documented (v r : ℝ) (i : ℕ) :
    ConvectionParams.natural ⟨20, v, r, 21, i, 1⟩ = .ok (1.81 / 2.382) ∧
    Spec.tarpNatural (20 - 21) 1 = 9.482 / 6.238 := by
  constructor
  · rw [C31_natural]
    unfold Spec.tarpNatural
    norm_num
  · unfold Spec.tarpNatural
    norm_num

/-- The documentation gives 1 to 6 as the range of the roughness index; 6 (very smooth) panics. -/
theorem C31_violated_very_smooth (p : ConvectionParams) (area perimeter : ℝ) (windward : Bool)
    (hr : p.roughnessIndex = 6) : p.tarp area perimeter windward = .panic := by
  unfold ConvectionParams.tarp
  rw [hr, Outcome.index_of_ge (by decide)]
  rfl

/-- And 1 (very rough) gives the coefficient of the second class, 1.67 instead of 2.17. -/
theorem C31_violated_very_rough (p : ConvectionParams) (area perimeter : ℝ) (hn : ℝ)
    (h : p.natural = .ok hn) (hr : p.roughnessIndex = 1) :
    p.tarp area perimeter true = .ok (2.537 * 1.67 * √(perimeter * p.airSpeed / area) + hn) := by
  obtain ⟨hn', h1, h2⟩ := C31_forced_partial p area perimeter true 1 (by rw [hr]; rfl)
  rw [h] at h1
  cases h1
  rw [h2]
  simp

example : ∃ p : ConvectionParams, p.roughnessIndex < 6 ∧ p.airTemperature ≠ p.surfaceTemperature ∧
    p.cosSurfaceTilt ≠ 0 :=
  ⟨⟨20, 3, 19, 22, 1, 1⟩, by decide, by norm_num, by norm_num⟩

end Simple.Heat
