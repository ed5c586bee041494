import Verif.Air.Props

/-! # C33: the coefficients of buildings -/

namespace Simple.Air

namespace Spec

/-- How sheltered a building is. -/
def obstacles : Shelter → ℕ
  | .noObstructions => 0
  | .isolatedRural => 1
  | .urban => 2
  | .largeLotUrban => 3
  | .smallLotUrban => 4

end Spec

/-- C33: unless it is given, the stack coefficient is proportional to the number of storeys, up to three. -/
theorem C33_storeys (b : Bldg) (h : b.stackCoefficient = none) (n : ℕ) (hn : b.nStoreys = some n) (h0 : n ≠ 0) :
    stackCoefficient b = .ok (0.000145 * (min n 3 : ℕ)) := by
  unfold stackCoefficient
  rw [h, hn]
  simp only
  rw [if_neg h0]
  by_cases h1 : n = 1
  · subst h1; norm_num
  by_cases h2 : n = 2
  · subst h2; norm_num
  have : min n 3 = 3 := by omega
  rw [if_neg h1, if_neg h2, this]
  norm_num

/-- C33: a building that is higher or less sheltered than another, and whose coefficients are not given, has a wind coefficient that is not less than
that of the other; and that is more if it is less sheltered, whatever their heights if the shelters are two classes apart. -/
theorem C33_exposed (b b' : Bldg) (h : b.windCoefficient = none) (h' : b'.windCoefficient = none) (n n' : ℕ) (hn : b.nStoreys = some n)
    (hn' : b'.nStoreys = some n') (h0 : n ≠ 0) (s s' : Shelter) (hs : b.shelter = some s) (hs' : b'.shelter = some s') :
    ∃ c c', windCoefficient b = .ok c ∧ windCoefficient b' = .ok c' ∧ 0 < c ∧
      (n ≤ n' → Spec.obstacles s' ≤ Spec.obstacles s → c ≤ c') ∧ (n ≤ n' → Spec.obstacles s' < Spec.obstacles s → c < c') ∧
      (n' ≠ 0 → Spec.obstacles s' + 2 ≤ Spec.obstacles s → c < c') := by
  unfold windCoefficient
  rw [h, h', hn, hn', hs, hs']
  refine ⟨_, _, rfl, rfl, ?_, ?_, ?_, ?_⟩
  · cases s <;> simp only [shelterTable] <;> split_ifs <;> norm_num
  · intro hle hob
    cases s <;> cases s' <;> simp only [shelterTable] <;> (first | (exfalso; revert hob; decide) | (split_ifs <;> first | (exfalso; omega) | norm_num))
  · intro hle hob
    cases s <;> cases s' <;> simp only [shelterTable] <;> (first | (exfalso; revert hob; decide) | (split_ifs <;> first | (exfalso; omega) | norm_num))
  · intro hle hob
    cases s <;> cases s' <;> simp only [shelterTable] <;> (first | (exfalso; revert hob; decide) | (split_ifs <;> first | (exfalso; omega) | norm_num))

/-- It is not vacuous: a house in a city and one in the country. -/
example : ∃ c c', windCoefficient ⟨none, none, some 2, some .urban⟩ = .ok c ∧ windCoefficient ⟨none, none, some 1, some .noObstructions⟩ = .ok c' ∧ c < c' := by
  obtain ⟨c, c', h1, h2, -, -, -, h3⟩ := C33_exposed ⟨none, none, some 2, some .urban⟩ ⟨none, none, some 1, some .noObstructions⟩ rfl rfl 2 1 rfl rfl
    (by norm_num) _ _ rfl rfl
  exact ⟨c, c', h1, h2, h3 (by norm_num) (by decide)⟩

end Simple.Air
