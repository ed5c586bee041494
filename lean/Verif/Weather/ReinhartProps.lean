import Mathlib.Tactic.NormNum
import Mathlib.Tactic.Linarith
import Mathlib.Tactic.Ring
import Mathlib.Tactic.FieldSimp
import Mathlib.Tactic.Positivity
import Mathlib.Algebra.BigOperators.Group.Finset.Basic
import Mathlib.Algebra.BigOperators.Intervals
import Verif.Weather.ReinhartModel

/-! # C36 and C37: Reinhart's subdivision of the sky -/

namespace Simple.Weather.Reinhart

open Geometry

namespace Spec

/-- The patches of each band of Tregenza's sky. -/
def tregenza : ℕ → ℕ
  | 0 => 30
  | 1 => 30
  | 2 => 24
  | 3 => 24
  | 4 => 18
  | 5 => 12
  | _ => 6

/-- Reinhart's subdivision splits each band in `mf` rows, and each patch of it in `mf` slots. -/
def slots (mf row : ℕ) : ℕ := mf * tregenza (row / mf)

/-- The bins of the sky in the rows below a row. -/
def below (mf row : ℕ) : ℕ := ∑ r ∈ Finset.range row, slots mf r

/-- The height of a row: the seven bands and half of one for the cap make a right angle. -/
noncomputable def height (mf : ℕ) : ℝ := Real.pi / (14 * mf + 1)

/-- The direction with that altitude and that azimuth. -/
noncomputable def direction (altitude azimuth : ℝ) : V3 ℝ :=
  ⟨Real.sin azimuth * Real.cos altitude, Real.cos azimuth * Real.cos altitude, Real.sin altitude⟩

end Spec

/-! ## The rows -/

private theorem binsInRow_eq {mf row : ℕ} (h0 : 0 < mf) (h : row < 7 * mf) :
    binsInRow mf row = .ok (Spec.slots mf row) := by
  have hq : row / mf < 7 := Nat.div_lt_of_lt_mul (by rw [Nat.mul_comm]; exact h)
  have hfloor : ⌊((row : ℚ) + 1 / 2) / mf⌋ = ((row / mf : ℕ) : ℤ) := by
    have hm : (0 : ℚ) < mf := by exact_mod_cast h0
    have e1 : row / mf * mf ≤ row := Nat.div_mul_le_self row mf
    have e2 : row + 1 ≤ (row / mf + 1) * mf := by
      have := Nat.lt_div_mul_add h0 (a := row)
      rw [Nat.add_mul, Nat.one_mul]; omega
    generalize row / mf = q at e1 e2
    have e1 : (q : ℚ) * mf ≤ row := by exact_mod_cast e1
    have e2 : (row : ℚ) + 1 ≤ (q + 1) * mf := by exact_mod_cast e2
    rw [Int.floor_eq_iff]
    constructor
    · rw [le_div_iff₀ hm]
      push_cast
      linarith
    · rw [div_lt_iff₀ hm]
      push_cast
      linarith
  unfold binsInRow
  simp only
  rw [if_neg (by omega), if_neg (by omega), hfloor, Int.toNat_natCast]
  unfold Spec.slots
  generalize row / mf = q at hq
  obtain h | h | h | h | h | h | h : q = 0 ∨ q = 1 ∨ q = 2 ∨ q = 3 ∨ q = 4 ∨ q = 5 ∨ q = 6 := by omega
  all_goals subst h; rfl

private theorem slots_pos {mf : ℕ} (h0 : 0 < mf) (row : ℕ) : 0 < Spec.slots mf row := by
  unfold Spec.slots Spec.tregenza
  apply Nat.mul_pos h0
  split <;> norm_num

private theorem below_succ (mf row : ℕ) : Spec.below mf (row + 1) = Spec.below mf row + Spec.slots mf row :=
  Finset.sum_range_succ _ _

private theorem below_mono {mf a b : ℕ} (h : a ≤ b) : Spec.below mf a ≤ Spec.below mf b :=
  Finset.sum_le_sum_of_subset (Finset.range_mono h)

private theorem sum_bands (mf : ℕ) (f : ℕ → ℕ) : ∀ k : ℕ,
    ∑ r ∈ Finset.range (k * mf), f (r / mf) = mf * ∑ i ∈ Finset.range k, f i := by
  intro k
  induction k with
  | zero => simp
  | succ k ih =>
    rw [Nat.add_mul, Nat.one_mul, Finset.sum_range_add, ih, Finset.sum_range_succ, Nat.mul_add]
    congr 1
    rw [Finset.sum_congr rfl (g := fun _ => f k)]
    · simp
    · intro x hx
      have hx := Finset.mem_range.1 hx
      congr 1
      rw [Nat.mul_comm, Nat.mul_add_div (by omega), Nat.div_eq_of_lt hx, Nat.add_zero]

private theorem below_all (mf : ℕ) : Spec.below mf (7 * mf) = 144 * mf ^ 2 := by
  unfold Spec.below Spec.slots
  rw [← Finset.mul_sum, sum_bands mf Spec.tregenza 7]
  simp only [Finset.sum_range_succ, Finset.sum_range_zero, Spec.tregenza]
  ring

private theorem rowHeight_eq (mf : ℕ) : rowHeight mf = Spec.height mf := by
  unfold rowHeight Spec.height
  simp only [tnaz, List.length_cons, List.length_nil]
  push_cast
  rw [div_div, div_eq_div_iff (by positivity) (by positivity)]
  ring

/-! ## Construction -/

private theorem newLoop_eq {mf : ℕ} (h0 : 0 < mf) : ∀ n : ℕ, n ≤ 7 * mf + 1 →
    newLoop mf (List.range n) (0, [], []) = .ok (n * Spec.height mf,
      (List.range n).map (fun r : ℕ => Real.sin ((r + 1) * Spec.height mf)),
      (List.range n).map (Spec.below mf)) := by
  have append : ∀ (a b : List ℕ) (st : ℝ × List ℝ × List ℕ),
      newLoop mf (a ++ b) st = (newLoop mf a st).bind fun st => newLoop mf b st := by
    intro a
    induction a with
    | nil => intro b st; rfl
    | cons r a ih =>
      intro b st
      simp only [List.cons_append, newLoop]
      cases newStep mf st r with
      | ok st' => simp only [Outcome.bind]; exact ih b st'
      | err => rfl
      | panic => rfl
  intro n
  induction n with
  | zero => intro _; simp [newLoop]
  | succ n ih =>
    intro hn
    rw [List.range_succ, append, ih (by omega)]
    simp only [Outcome.bind, newLoop]
    unfold newStep
    simp only
    have hacc : (n : ℝ) * Spec.height mf + rowHeight mf = ((n : ℝ) + 1) * Spec.height mf := by
      rw [rowHeight_eq]; ring
    by_cases h : n = 0
    · subst h
      rw [if_pos rfl]
      simp only [Outcome.bind]
      simp [rowHeight_eq, Spec.below]
    · rw [if_neg h, Outcome.index_of_lt (by simp; omega)]
      simp only [Outcome.bind]
      rw [binsInRow_eq h0 (by omega)]
      simp only [Outcome.bind]
      rw [hacc]
      have : Spec.below mf (n - 1) + Spec.slots mf (n - 1) = Spec.below mf n := by
        rw [← below_succ]; congr 1; omega
      simp [this]

/-- The sky that is made. -/
private noncomputable def made (mf : ℕ) : Sky where
  mf := mf
  nRows := 7 * mf + 1
  rowMaxSin := (List.range (7 * mf + 1)).map (fun r : ℕ => Real.sin ((r + 1) * Spec.height mf))
  accBins := (List.range (7 * mf + 1)).map (Spec.below mf)
  nBins := 144 * mf ^ 2 + 2

private theorem new_eq {mf : ℕ} (h0 : 0 < mf) : new mf = .ok (made mf) := by
  unfold new
  rw [if_neg (by omega)]
  simp only
  rw [newLoop_eq h0 _ (le_refl _)]
  simp only [Outcome.bind]
  rw [Outcome.index_of_lt (by simp)]
  simp only [Outcome.bind, made]
  congr 2
  simp only [Nat.add_sub_cancel, List.getElem_map, List.getElem_range, below_all]
  omega

/-- C36: a subdivision of factor `mf` has 144 `mf`² + 2 bins, as said beforehand; a factor of zero is refused. -/
theorem C36_count (mf : ℕ) :
    (0 < mf → ∃ s, new mf = .ok s ∧ s.nBins = 144 * mf ^ 2 + 2 ∧ s.nBins = nBins mf ∧ s.mf = mf) ∧
    (mf = 0 → new mf = .panic) :=
  ⟨fun h => ⟨_, new_eq h, rfl, rfl, rfl⟩, fun h => by unfold new; rw [if_pos h]⟩

/-! ## From bins to rows -/

private theorem binsRowLoop_eq {mf : ℕ} (nbin notFound : ℕ) : ∀ (n row : ℕ),
    (∀ r, row ≤ r → r < row + n → Spec.below mf r < nbin) →
    ∀ rest : List ℕ, binsRowLoop nbin notFound ((List.range' row n).map (Spec.below mf) ++ rest) row =
      binsRowLoop nbin notFound rest (row + n) := by
  intro n
  induction n with
  | zero => intro row _ rest; rfl
  | succ n ih =>
    intro row h rest
    rw [List.range'_succ, List.map_cons, List.cons_append, binsRowLoop,
      if_neg (by have := h row (le_refl _) (by omega); omega),
      ih (row + 1) (fun r h1 h2 => h r (by omega) (by omega)) rest, show row + 1 + n = row + (n + 1) by omega]

private theorem binsRow_eq {mf row slot : ℕ} (hr : row < 7 * mf) (hs : slot < Spec.slots mf row) :
    binsRow (made mf) (Spec.below mf row + slot + 1) = .ok row := by
  unfold binsRow
  have h1 := below_mono (mf := mf) (show row + 1 ≤ 7 * mf by omega)
  rw [below_succ, below_all] at h1
  rw [if_neg (by simp only [made]; omega)]
  simp only [made]
  have hsplit : List.range (7 * mf + 1) = List.range' 0 (row + 1) ++ (row + 1) :: List.range' (row + 2) (7 * mf - row - 1) := by
    rw [List.range_eq_range', show 7 * mf + 1 = (row + 1) + (7 * mf - row - 1 + 1) by omega, ← List.range'_append]
    simp [List.range'_succ]
  rw [hsplit, List.map_append, List.map_cons, binsRowLoop_eq]
  · rw [binsRowLoop, if_pos (by rw [below_succ]; omega), if_neg (by omega)]
    congr 1
    omega
  · intro r _ h2
    have := below_mono (mf := mf) (show r ≤ row by omega)
    omega

private theorem find_row {mf : ℕ} : ∀ (R b : ℕ), b < Spec.below mf R →
    ∃ row slot, row < R ∧ slot < Spec.slots mf row ∧ b = Spec.below mf row + slot := by
  intro R
  induction R with
  | zero => intro b h; simp [Spec.below] at h
  | succ R ih =>
    intro b h
    by_cases hb : b < Spec.below mf R
    · obtain ⟨row, slot, h1, h2, h3⟩ := ih b hb
      exact ⟨row, slot, by omega, h2, h3⟩
    · rw [below_succ] at h
      exact ⟨R, b - Spec.below mf R, by omega, by omega, by omega⟩

private theorem row_unique {mf row row' slot slot' : ℕ} (hs : slot < Spec.slots mf row) (hs' : slot' < Spec.slots mf row')
    (h : Spec.below mf row + slot = Spec.below mf row' + slot') : row = row' ∧ slot = slot' := by
  have key : ∀ {a b s t : ℕ}, s < Spec.slots mf a → Spec.below mf a + s = Spec.below mf b + t → b ≤ a := by
    intro a b s t h1 h2
    by_contra hlt
    have := below_mono (mf := mf) (show a + 1 ≤ b by omega)
    rw [below_succ] at this
    omega
  have h1 := key hs h
  have h2 := key hs' h.symm
  have : row = row' := by omega
  subst this
  exact ⟨rfl, by omega⟩

/-- C36: each bin of the sky but the cap is one slot of one row, and the row found for it is that one. -/
theorem C36_row (mf b : ℕ) (s : Sky) (hs : new mf = .ok s) (hb : 0 < b ∧ b < s.nBins - 1) :
    ∃! p : ℕ × ℕ, p.1 < 7 * mf ∧ p.2 < Spec.slots mf p.1 ∧ b = Spec.below mf p.1 + p.2 + 1 ∧
      binsRow s b = .ok p.1 := by
  have h0 : 0 < mf := by
    by_contra h
    rw [(C36_count mf).2 (by omega)] at hs
    cases hs
  rw [new_eq h0] at hs
  cases hs
  have hb2 : b < 144 * mf ^ 2 + 1 := by simpa [made] using hb.2
  obtain ⟨row, slot, h1, h2, h3⟩ := find_row (mf := mf) (7 * mf) (b - 1) (by rw [below_all]; omega)
  have hb3 : b = Spec.below mf row + slot + 1 := by omega
  refine ⟨(row, slot), ⟨h1, h2, hb3, by rw [hb3]; exact binsRow_eq h1 h2⟩, ?_⟩
  rintro ⟨row', slot'⟩ ⟨-, h2', h3', -⟩
  obtain ⟨e1, e2⟩ := row_unique h2 h2' (by simp only at h3'; omega : Spec.below mf row + slot = Spec.below mf row' + slot')
  rw [e1, e2]

/-! ## From directions to bins -/

private theorem height_pos (mf : ℕ) : 0 < Spec.height mf := by
  unfold Spec.height
  exact div_pos Real.pi_pos (by positivity)

private theorem height_mul (mf : ℕ) : (7 * mf + 1 / 2 : ℝ) * Spec.height mf = Real.pi / 2 := by
  unfold Spec.height
  have : (14 * (mf : ℝ) + 1) ≠ 0 := by positivity
  field_simp
  ring

private theorem row_angle_le {mf r : ℕ} (h : r ≤ 7 * mf) : (r : ℝ) * Spec.height mf ≤ Real.pi / 2 - Spec.height mf / 2 := by
  have h1 := height_mul mf
  have h2 : (r : ℝ) ≤ 7 * mf := by exact_mod_cast h
  have h3 := mul_le_mul_of_nonneg_right h2 (height_pos mf).le
  linarith

private theorem sin_row_le {mf a b : ℕ} (h : a ≤ b) (hb : b ≤ 7 * mf) :
    Real.sin (a * Spec.height mf) ≤ Real.sin (b * Spec.height mf) := by
  have h1 : (a : ℝ) ≤ b := by exact_mod_cast h
  have h2 := height_pos mf
  have h3 := row_angle_le hb
  have h4 : 0 ≤ (a : ℝ) * Spec.height mf := by positivity
  apply Real.sin_le_sin_of_le_of_le_pi_div_two
  · linarith [Real.pi_pos]
  · linarith
  · exact mul_le_mul_of_nonneg_right h1 h2.le

/-- The sine of the top of the cap, as it is added up, is that of its bottom. -/
private theorem sin_cap (mf : ℕ) :
    Real.sin (((7 * mf : ℕ) + 1 : ℝ) * Spec.height mf) = Real.sin ((7 * mf : ℕ) * Spec.height mf) := by
  have h := height_mul mf
  rw [← Real.sin_pi_sub]
  congr 1
  push_cast
  linarith

private theorem altitudeLoop_none {mf : ℕ} {z : ℝ} : ∀ (n row : ℕ),
    (∀ r, row ≤ r → r < row + n → Real.sin ((r + 1) * Spec.height mf) ≤ z) →
    ∀ rest, altitudeLoop z ((List.range' row n).map (fun r : ℕ => Real.sin ((r + 1) * Spec.height mf)) ++ rest) row =
      altitudeLoop z rest (row + n) := by
  intro n
  induction n with
  | zero => intro row _ rest; rfl
  | succ n ih =>
    intro row h rest
    rw [List.range'_succ, List.map_cons, List.cons_append, altitudeLoop,
      if_neg (not_lt.2 (h row (le_refl _) (by omega))),
      ih (row + 1) (fun r h1 h2 => h r (by omega) (by omega)) rest, show row + 1 + n = row + (n + 1) by omega]

/-- A row that is not the cap. -/
private theorem altitude_row {mf row : ℕ} {z : ℝ} (hr : row < 7 * mf) (h1 : Real.sin (row * Spec.height mf) ≤ z)
    (h2 : z < Real.sin ((row + 1) * Spec.height mf)) (hz : 0 ≤ z) : sinAltitudeToRow (made mf) z = .ok row := by
  unfold sinAltitudeToRow
  rw [if_neg (not_lt.2 hz)]
  simp only [made]
  have hsplit : List.range (7 * mf + 1) = List.range' 0 row ++ row :: List.range' (row + 1) (7 * mf - row) := by
    rw [List.range_eq_range', show 7 * mf + 1 = row + (7 * mf - row + 1) by omega, ← List.range'_append]
    simp [List.range'_succ]
  rw [hsplit, List.map_append, List.map_cons, altitudeLoop_none]
  · rw [altitudeLoop, if_pos h2]
    simp
  · intro r _ h
    refine le_trans ?_ h1
    have := sin_row_le (mf := mf) (show r + 1 ≤ row by omega) (by omega)
    push_cast at this
    exact this

/-- The cap. -/
private theorem altitude_cap {mf : ℕ} {z : ℝ} (h1 : Real.sin ((7 * mf : ℕ) * Spec.height mf) ≤ z) (hz : 0 ≤ z) :
    sinAltitudeToRow (made mf) z = .ok (7 * mf) := by
  unfold sinAltitudeToRow
  rw [if_neg (not_lt.2 hz)]
  simp only [made]
  have := altitudeLoop_none (mf := mf) (z := z) (7 * mf + 1) 0 (by
    intro r _ h
    by_cases hr : r = 7 * mf
    · rw [hr, sin_cap]; exact h1
    · refine le_trans ?_ h1
      have := sin_row_le (mf := mf) (show r + 1 ≤ 7 * mf by omega) (le_refl _)
      push_cast at this ⊢
      exact this) []
  rw [List.append_nil] at this
  rw [List.range_eq_range', this]
  simp [altitudeLoop]

/-- Every height is in some row. -/
private theorem find_altitude {mf : ℕ} {z : ℝ} (hz : 0 ≤ z) : ∀ R : ℕ, R ≤ 7 * mf →
    Real.sin (R * Spec.height mf) ≤ z ∨ ∃ row, row < R ∧ Real.sin (row * Spec.height mf) ≤ z ∧
      z < Real.sin ((row + 1) * Spec.height mf) := by
  intro R
  induction R with
  | zero => intro _; left; simpa using hz
  | succ R ih =>
    intro hR
    rcases ih (by omega) with h | ⟨row, h1, h2, h3⟩
    · by_cases hc : Real.sin (((R + 1 : ℕ) : ℝ) * Spec.height mf) ≤ z
      · exact Or.inl hc
      · right
        refine ⟨R, by omega, h, ?_⟩
        push_cast at hc
        exact not_le.1 hc
    · exact Or.inr ⟨row, by omega, h2, h3⟩

private theorem azimuth_eq {c azimuth : ℝ} (hc : 0 < c) :
    ∃ j : ℤ, (if Complex.arg ⟨Real.cos azimuth * c, Real.sin azimuth * c⟩ < 0 then
        Complex.arg ⟨Real.cos azimuth * c, Real.sin azimuth * c⟩ + 2 * Real.pi
      else Complex.arg ⟨Real.cos azimuth * c, Real.sin azimuth * c⟩) = azimuth + j * (2 * Real.pi) := by
  have he : (⟨Real.cos azimuth * c, Real.sin azimuth * c⟩ : ℂ) =
      (c : ℂ) * (Complex.cos azimuth + Complex.sin azimuth * Complex.I) := by
    apply Complex.ext
    · simp [Complex.cos_ofReal_re, Complex.sin_ofReal_re, mul_comm]
    · simp [Complex.cos_ofReal_re, Complex.sin_ofReal_re, mul_comm]
  have h := Complex.arg_mul_cos_add_sin_mul_I_sub hc azimuth
  rw [← he] at h
  split_ifs with hneg
  · exact ⟨⌊(Real.pi - azimuth) / (2 * Real.pi)⌋ + 1, by push_cast; linarith⟩
  · exact ⟨⌊(Real.pi - azimuth) / (2 * Real.pi)⌋, by linarith⟩

private theorem xyToBin_eq {mf row slot : ℕ} {c azimuth : ℝ} (h0 : 0 < mf) (hr : row < 7 * mf)
    (hs : slot < Spec.slots mf row) (hc : 0 < c)
    (h1 : -(Real.pi / Spec.slots mf row) ≤ azimuth - 2 * Real.pi / Spec.slots mf row * slot)
    (h2 : azimuth - 2 * Real.pi / Spec.slots mf row * slot < Real.pi / Spec.slots mf row) :
    xyToBin (made mf) row (Real.sin azimuth * c) (Real.cos azimuth * c) = .ok slot := by
  have hpi := Real.pi_pos
  unfold xyToBin
  rw [if_neg (by simp only [made]; omega)]
  simp only [made]
  rw [binsInRow_eq h0 hr]
  simp only [Outcome.bind]
  have hn := slots_pos h0 row
  generalize Spec.slots mf row = n at hs h1 h2 hn
  have hnr : (0 : ℝ) < n := by exact_mod_cast hn
  rw [if_neg (by omega)]
  obtain ⟨j, hj⟩ := azimuth_eq (azimuth := azimuth) hc
  have hnonneg : 0 ≤ azimuth + j * (2 * Real.pi) := by
    rw [← hj]
    split_ifs with h
    · have := Complex.neg_pi_lt_arg (⟨Real.cos azimuth * c, Real.sin azimuth * c⟩ : ℂ)
      linarith
    · exact not_lt.1 h
  rw [hj]
  have hfloor : ⌊(azimuth + j * (2 * Real.pi) + 2 * Real.pi / n / 2) / (2 * Real.pi / n)⌋ = slot + j * n := by
    have hb : (0 : ℝ) < 2 * Real.pi / n := by positivity
    rw [Int.floor_eq_iff, le_div_iff₀ hb, div_lt_iff₀ hb]
    have e1 : (j : ℝ) * n * (2 * Real.pi / n) = j * (2 * Real.pi) := by field_simp
    have e2 : 2 * Real.pi / n / 2 = Real.pi / n := by field_simp
    have e3 : 2 * Real.pi / n = 2 * (Real.pi / n) := by ring
    push_cast
    constructor
    · rw [add_mul, e1, e2]; linarith
    · rw [add_mul, add_mul, e1, e2]
      linarith
  have hpos : (0 : ℤ) ≤ slot + j * n := by
    rw [← hfloor]
    apply Int.floor_nonneg.2
    apply div_nonneg _ (by positivity)
    have : 0 ≤ 2 * Real.pi / n / 2 := by positivity
    linarith
  rw [hfloor]
  congr 1
  have hz : (((slot + j * n : ℤ).toNat % n : ℕ) : ℤ) = (slot : ℤ) := by
    rw [Int.natCast_mod, Int.toNat_of_nonneg hpos, Int.add_mul_emod_self_right]
    exact Int.emod_eq_of_lt (by omega) (by omega)
  exact_mod_cast hz

/-- C36: the bin of a direction of the sky is the slot of the row that its altitude and its azimuth are in;
slots are counted from the north, on which the first one is centred. -/
theorem C36_direction (mf row slot : ℕ) (s : Sky) (altitude azimuth : ℝ) (hs : new mf = .ok s)
    (hrow : row < 7 * mf) (hslot : slot < Spec.slots mf row)
    (ha1 : row * Spec.height mf ≤ altitude) (ha2 : altitude < (row + 1) * Spec.height mf)
    (hz1 : -(Real.pi / Spec.slots mf row) ≤ azimuth - 2 * Real.pi / Spec.slots mf row * slot)
    (hz2 : azimuth - 2 * Real.pi / Spec.slots mf row * slot < Real.pi / Spec.slots mf row) :
    dirToBin s (Spec.direction altitude azimuth) = .ok (Spec.below mf row + slot + 1) := by
  have h0 : 0 < mf := by
    by_contra h
    rw [(C36_count mf).2 (by omega)] at hs
    cases hs
  rw [new_eq h0] at hs
  cases hs
  have hpi := Real.pi_pos
  have hh := height_pos mf
  have htop := row_angle_le (mf := mf) (show row + 1 ≤ 7 * mf by omega)
  push_cast at htop
  have hbot : (0 : ℝ) ≤ row * Spec.height mf := by positivity
  have hsin0 : 0 ≤ Real.sin altitude := Real.sin_nonneg_of_nonneg_of_le_pi (by linarith) (by linarith)
  have hcos : 0 < Real.cos altitude := Real.cos_pos_of_mem_Ioo ⟨by linarith, by linarith⟩
  have hrow' : sinAltitudeToRow (made mf) (Spec.direction altitude azimuth).z = .ok row := by
    apply altitude_row hrow _ _ hsin0
    · apply Real.sin_le_sin_of_le_of_le_pi_div_two <;> linarith
    · apply Real.sin_lt_sin_of_lt_of_le_pi_div_two <;> linarith
  have hslot' : xyToBin (made mf) row (Spec.direction altitude azimuth).x (Spec.direction altitude azimuth).y =
      .ok slot := xyToBin_eq h0 hrow hslot hcos hz1 hz2
  unfold dirToBin
  rw [if_neg (show ¬ (Spec.direction altitude azimuth).z < 0 from not_lt.2 hsin0), hrow']
  simp only [Outcome.bind]
  rw [if_neg (by simp only [made]; omega)]
  have hacc : raccum (made mf) row = .ok (Spec.below mf row) := by
    unfold raccum
    have : row < 144 * mf ^ 2 + 2 := by nlinarith
    rw [if_neg (by simp only [made]; omega), if_neg (by simp only [made]; omega)]
    simp only [made]
    rw [Outcome.index_of_lt (by simp; omega)]
    simp
  rw [hacc]
  simp only
  rw [hslot']
  simp only [Outcome.ok.injEq]
  omega

/-- C36: every direction has a bin, which is one of those of the sky. -/
theorem C36_in_range (mf : ℕ) (s : Sky) (dir : V3 ℝ) (hs : new mf = .ok s) :
    ∃ b, dirToBin s dir = .ok b ∧ b < s.nBins ∧ (b = 0 ↔ dir.z < 0) ∧
      (b = s.nBins - 1 ↔ Real.sin (Real.pi / 2 - Spec.height mf / 2) ≤ dir.z) := by
  have h0 : 0 < mf := by
    by_contra h
    rw [(C36_count mf).2 (by omega)] at hs
    cases hs
  rw [new_eq h0] at hs
  cases hs
  have hcap : Real.sin (Real.pi / 2 - Spec.height mf / 2) = Real.sin ((7 * mf : ℕ) * Spec.height mf) := by
    congr 1
    have := height_mul mf
    push_cast
    linarith
  have hcap0 : 0 ≤ Real.sin ((7 * mf : ℕ) * Spec.height mf) := by
    have := sin_row_le (mf := mf) (Nat.zero_le (7 * mf)) (le_refl _)
    simpa using this
  rw [hcap]
  unfold dirToBin
  by_cases hz : dir.z < 0
  · rw [if_pos hz]
    refine ⟨0, rfl, by simp [made], by simp [hz], ?_⟩
    simp only [made]
    constructor
    · intro h; omega
    · intro h; linarith
  · rw [if_neg hz]
    have hz' := not_lt.1 hz
    rcases find_altitude (mf := mf) hz' (7 * mf) (le_refl _) with h | ⟨row, h1, h2, h3⟩
    · rw [altitude_cap h hz']
      simp only [Outcome.bind]
      rw [if_pos (by simp [made])]
      refine ⟨_, rfl, by simp [made], by simp [made]; exact hz', ⟨fun _ => h, fun _ => rfl⟩⟩
    · rw [altitude_row h1 h2 h3 hz']
      simp only [Outcome.bind]
      rw [if_neg (by simp only [made]; omega)]
      have hacc : raccum (made mf) row = .ok (Spec.below mf row) := by
        unfold raccum
        have : row < 144 * mf ^ 2 + 2 := by nlinarith
        rw [if_neg (by simp only [made]; omega), if_neg (by simp only [made]; omega)]
        simp only [made]
        rw [Outcome.index_of_lt (by simp; omega)]
        simp
      rw [hacc]
      simp only
      have hn := slots_pos h0 row
      obtain ⟨k, hk, hk2⟩ : ∃ k, xyToBin (made mf) row dir.x dir.y = .ok k ∧ k < Spec.slots mf row := by
        unfold xyToBin
        rw [if_neg (by simp only [made]; omega)]
        simp only [made]
        rw [binsInRow_eq h0 h1]
        simp only [Outcome.bind]
        rw [if_neg (by omega)]
        exact ⟨_, rfl, Nat.mod_lt _ hn⟩
      rw [hk]
      simp only
      have hle := below_mono (mf := mf) (show row + 1 ≤ 7 * mf by omega)
      rw [below_succ, below_all] at hle
      refine ⟨_, rfl, by simp only [made]; omega, ?_, ?_⟩
      · constructor
        · intro h; omega
        · intro h; exact absurd h hz
      · simp only [made]
        constructor
        · intro h; omega
        · intro h
          exfalso
          have := sin_row_le (mf := mf) (show row + 1 ≤ 7 * mf by omega) (le_refl _)
          push_cast at this h
          linarith

/-- C36: the direction of the centre of each bin is in that bin. -/
theorem C36_round_trip (mf b : ℕ) (s : Sky) (hs : new mf = .ok s) (hb : b < s.nBins) :
    ∃ d, binDir s b = .ok d ∧ d.x ^ 2 + d.y ^ 2 + d.z ^ 2 = 1 ∧ dirToBin s d = .ok b := by
  have hs' := hs
  have h0 : 0 < mf := by
    by_contra h
    rw [(C36_count mf).2 (by omega)] at hs
    cases hs
  rw [new_eq h0] at hs
  cases hs
  unfold binDir
  by_cases hb0 : b = 0
  · rw [if_pos hb0]
    refine ⟨_, rfl, by norm_num, ?_⟩
    unfold dirToBin
    rw [if_pos (by norm_num), hb0]
  rw [if_neg hb0]
  by_cases hb1 : b = (made mf).nBins - 1
  · rw [if_pos hb1]
    refine ⟨_, rfl, by norm_num, ?_⟩
    obtain ⟨b', h1, -, -, h2⟩ := C36_in_range mf _ ⟨0, 0, 1⟩ hs'
    rw [h1, hb1, h2.2 (Real.sin_le_one _)]
  rw [if_neg hb1, if_neg (by omega)]
  obtain ⟨⟨row, slot⟩, ⟨h1, h2, h3, h4⟩, -⟩ := C36_row mf b _ hs' ⟨by omega, by omega⟩
  simp only at h1 h2 h3 h4
  have hacc : raccum (made mf) row = .ok (Spec.below mf row) := by
    unfold raccum
    have : row < 144 * mf ^ 2 + 2 := by nlinarith
    rw [if_neg (by simp only [made]; omega), if_neg (by simp only [made]; omega)]
    simp only [made]
    rw [Outcome.index_of_lt (by simp; omega)]
    simp
  have halt : rowAltitude (made mf) row = (row * Spec.height mf, (row + 1) * Spec.height mf) := by
    unfold rowAltitude
    simp only
    rw [if_neg (show ¬ row = (made mf).nRows - 1 by simp only [made]; omega), show (made mf).mf = mf from rfl,
      rowHeight_eq]
  rw [h4]
  simp only [Outcome.bind, hacc, halt]
  rw [show (made mf).mf = mf from rfl, binsInRow_eq h0 h1]
  simp only
  rw [if_neg (by omega), show b - Spec.below mf row - 1 = slot by omega]
  refine ⟨_, rfl, ?_, ?_⟩
  · simp only
    have e1 := Real.sin_sq_add_cos_sq (2 * Real.pi / Spec.slots mf row * slot)
    have e2 := Real.sin_sq_add_cos_sq ((row * Spec.height mf + (row + 1) * Spec.height mf) / 2)
    nlinarith
  · have hn := slots_pos h0 row
    have hh := height_pos mf
    have hpn : 0 < Real.pi / Spec.slots mf row := div_pos Real.pi_pos (by exact_mod_cast hn)
    rw [h3]
    exact C36_direction mf row slot _ _ _ hs' h1 h2 (by linarith) (by linarith) (by linarith) (by linarith)

/-- The bins of the sky are above the horizon. -/
theorem binDir_up (mf b : ℕ) (s : Sky) (d : V3 ℝ) (hs : new mf = .ok s) (h0 : 0 < b) (h1 : b < s.nBins)
    (hd : binDir s b = .ok d) : 0 < d.z := by
  have hs' := hs
  have hm : 0 < mf := by
    by_contra h
    rw [(C36_count mf).2 (by omega)] at hs
    cases hs
  rw [new_eq hm] at hs
  cases hs
  unfold binDir at hd
  rw [if_neg (by omega)] at hd
  by_cases hb1 : b = (made mf).nBins - 1
  · rw [if_pos hb1] at hd
    cases hd
    norm_num
  rw [if_neg hb1, if_neg (by omega)] at hd
  obtain ⟨⟨row, slot⟩, ⟨e1, e2, e3, e4⟩, -⟩ := C36_row mf b _ hs' ⟨by omega, by omega⟩
  simp only at e1 e2 e3 e4
  have hacc : raccum (made mf) row = .ok (Spec.below mf row) := by
    unfold raccum
    have : row < 144 * mf ^ 2 + 2 := by nlinarith
    rw [if_neg (by simp only [made]; omega), if_neg (by simp only [made]; omega)]
    simp only [made]
    rw [Outcome.index_of_lt (by simp; omega)]
    simp
  have halt : rowAltitude (made mf) row = (row * Spec.height mf, (row + 1) * Spec.height mf) := by
    unfold rowAltitude
    simp only
    rw [if_neg (show ¬ row = (made mf).nRows - 1 by simp only [made]; omega), show (made mf).mf = mf from rfl,
      rowHeight_eq]
  rw [e4] at hd
  simp only [Outcome.bind, hacc, halt] at hd
  rw [show (made mf).mf = mf from rfl, binsInRow_eq hm e1] at hd
  simp only at hd
  rw [if_neg (by omega)] at hd
  cases hd
  simp only
  have hh := height_pos mf
  have htop := row_angle_le (mf := mf) (show row + 1 ≤ 7 * mf by omega)
  push_cast at htop
  have hbot : (0 : ℝ) ≤ row * Spec.height mf := by positivity
  apply Real.sin_pos_of_pos_of_lt_pi <;> linarith [Real.pi_pos]

/-- The third slot of the second row of a sky with `mf = 2`, whose azimuth is 12 degrees. -/
example (s : Sky) (hs : new 2 = .ok s) :
    dirToBin s (Spec.direction (3 / 2 * Spec.height 2) (2 * Real.pi / 60 * 2)) = .ok 63 := by
  have h := height_pos 2
  have e : Spec.slots 2 1 = 60 := rfl
  have hp := Real.pi_pos
  have := C36_direction 2 1 2 s (3 / 2 * Spec.height 2) (2 * Real.pi / 60 * 2) hs (by norm_num) (by rw [e]; norm_num)
    (by push_cast; linarith) (by push_cast; linarith) (by rw [e]; push_cast; linarith) (by rw [e]; push_cast; linarith)
  rw [this]
  rfl

/-! ## Solid angles -/

private theorem binSolidAngle_eq {mf row slot : ℕ} (h0 : 0 < mf) (h1 : row < 7 * mf) (h2 : slot < Spec.slots mf row) :
    binSolidAngle (made mf) (Spec.below mf row + slot + 1) = .ok (2 * Real.pi *
      (Real.sin ((row + 1) * Spec.height mf) - Real.sin (row * Spec.height mf)) / Spec.slots mf row) := by
  have hle := below_mono (mf := mf) (show row + 1 ≤ 7 * mf by omega)
  rw [below_succ, below_all] at hle
  unfold binSolidAngle
  rw [if_neg (by omega), if_neg (by simp only [made]; omega), if_neg (by simp only [made]; omega),
    binsRow_eq h1 h2]
  simp only [Outcome.bind]
  rw [show (made mf).mf = mf from rfl, binsInRow_eq h0 h1]
  simp only
  have halt : rowAltitude (made mf) row = (row * Spec.height mf, (row + 1) * Spec.height mf) := by
    unfold rowAltitude
    simp only
    rw [if_neg (show ¬ row = (made mf).nRows - 1 by simp only [made]; omega), show (made mf).mf = mf from rfl,
      rowHeight_eq]
  rw [halt]
  rfl

/-- C37: the solid angles of all the bins are positive; those of the sky add up to half a sphere, and with that
of the ground to a whole one. -/
theorem C37_solid_angles (mf : ℕ) (s : Sky) (hs : new mf = .ok s) :
    ∃ angle : ℕ → ℝ, (∀ b < s.nBins, binSolidAngle s b = .ok (angle b) ∧ 0 < angle b) ∧
      ∑ b ∈ Finset.range (s.nBins - 1), angle (b + 1) = 2 * Real.pi ∧
      ∑ b ∈ Finset.range s.nBins, angle b = 4 * Real.pi := by
  have hs' := hs
  have h0 : 0 < mf := by
    by_contra h
    rw [(C36_count mf).2 (by omega)] at hs
    cases hs
  rw [new_eq h0] at hs
  cases hs
  have hpi := Real.pi_pos
  have hh := height_pos mf
  obtain ⟨angle, hangle⟩ : ∃ angle : ℕ → ℝ, ∀ b a, binSolidAngle (made mf) b = .ok a → angle b = a :=
    ⟨fun b => match binSolidAngle (made mf) b with | .ok a => a | _ => 0, fun b a h => by simp only [h]⟩
  have eground : binSolidAngle (made mf) 0 = .ok (2 * Real.pi) := by unfold binSolidAngle; rw [if_pos rfl]
  have hground := hangle _ _ eground
  have ecap : binSolidAngle (made mf) (144 * mf ^ 2 + 1) = .ok (2 * Real.pi * (1 - Real.cos (Spec.height mf / 2))) := by
    unfold binSolidAngle
    rw [if_neg (by omega), if_pos (by simp [made]), show (made mf).mf = mf from rfl, rowHeight_eq]
    rfl
  have hcap := hangle _ _ ecap
  have hbin : ∀ {row slot : ℕ}, row < 7 * mf → slot < Spec.slots mf row →
      angle (Spec.below mf row + slot + 1) = 2 * Real.pi *
      (Real.sin ((row + 1) * Spec.height mf) - Real.sin (row * Spec.height mf)) / Spec.slots mf row :=
    fun h1 h2 => hangle _ _ (binSolidAngle_eq h0 h1 h2)
  -- rows
  have hrows : ∀ R : ℕ, R ≤ 7 * mf → ∑ b ∈ Finset.range (Spec.below mf R), angle (b + 1) =
      2 * Real.pi * Real.sin (R * Spec.height mf) := by
    intro R
    induction R with
    | zero => intro _; simp [Spec.below]
    | succ R ih =>
      intro hR
      rw [below_succ, Finset.sum_range_add, ih (by omega)]
      rw [Finset.sum_congr rfl (fun slot hslot => hbin (by omega : R < 7 * mf) (Finset.mem_range.1 hslot))]
      have hn : (Spec.slots mf R : ℝ) ≠ 0 := by
        have := slots_pos h0 R
        exact_mod_cast (by omega : Spec.slots mf R ≠ 0)
      rw [Finset.sum_const, Finset.card_range, nsmul_eq_mul]
      push_cast
      field_simp
      ring
  have hsky : ∑ b ∈ Finset.range (144 * mf ^ 2 + 1), angle (b + 1) = 2 * Real.pi := by
    rw [Finset.sum_range_succ, hcap, ← below_all, hrows _ (le_refl _)]
    have : Real.sin ((7 * mf : ℕ) * Spec.height mf) = Real.cos (Spec.height mf / 2) := by
      rw [← Real.sin_pi_div_two_sub]
      congr 1
      have := height_mul mf
      push_cast
      linarith
    rw [this]
    ring
  refine ⟨angle, ?_, ?_, ?_⟩
  · intro b hb
    have hb' : b < 144 * mf ^ 2 + 2 := hb
    by_cases hb0 : b = 0
    · subst hb0
      exact ⟨by rw [hground, eground], by rw [hground]; linarith⟩
    by_cases hb1 : b = 144 * mf ^ 2 + 1
    · subst hb1
      refine ⟨by rw [hcap, ecap], ?_⟩
      rw [hcap]
      have hle : Spec.height mf ≤ Real.pi := by
        unfold Spec.height
        rw [div_le_iff₀ (by positivity)]
        have : (0 : ℝ) ≤ mf := by positivity
        nlinarith
      have : Real.cos (Spec.height mf / 2) < 1 := by
        rw [← Real.cos_zero]
        exact Real.cos_lt_cos_of_nonneg_of_le_pi (le_refl _) (by linarith) (by linarith)
      have : 0 < 1 - Real.cos (Spec.height mf / 2) := by linarith
      positivity
    · obtain ⟨⟨row, slot⟩, ⟨h1, h2, h3, -⟩, -⟩ := C36_row mf b _ hs' ⟨by omega, by simp only [made]; omega⟩
      simp only at h1 h2 h3
      subst h3
      refine ⟨by rw [hbin h1 h2, binSolidAngle_eq h0 h1 h2], ?_⟩
      rw [hbin h1 h2]
      have hn : (0 : ℝ) < Spec.slots mf row := by exact_mod_cast slots_pos h0 row
      have htop := row_angle_le (mf := mf) (show row + 1 ≤ 7 * mf by omega)
      push_cast at htop
      have hbot : (0 : ℝ) ≤ row * Spec.height mf := by positivity
      have : 0 < Real.sin ((row + 1) * Spec.height mf) - Real.sin (row * Spec.height mf) := by
        have := Real.sin_lt_sin_of_lt_of_le_pi_div_two (x := row * Spec.height mf) (y := (row + 1) * Spec.height mf)
          (by linarith) (by linarith) (by linarith)
        linarith
      positivity
  · exact hsky
  · show ∑ b ∈ Finset.range (144 * mf ^ 2 + 2), angle b = 4 * Real.pi
    rw [Finset.sum_range_succ', hsky, hground]
    ring

/-- The hypothesis of the theorems above can be met. -/
example : ∃ s, new 4 = .ok s ∧ s.nBins = 2306 := by
  obtain ⟨s, h1, h2, -, -⟩ := (C36_count 4).1 (by norm_num)
  exact ⟨s, h1, by rw [h2]; norm_num⟩

end Simple.Weather.Reinhart
