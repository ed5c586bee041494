import Mathlib.Data.Rat.Floor
import Mathlib.Data.Int.Log
import Mathlib.Tactic.Linarith
import Mathlib.Tactic.Positivity
import Mathlib.Tactic.FieldSimp
import Mathlib.Tactic.Ring
import Mathlib.Tactic.NormNum
import Mathlib.Algebra.Order.Ring.Abs

/-! Rounding to `f64`: to the nearest number with 53 significant bits, ties to even.  The exponent is not limited: there
is no overflow, and no subnormal number.  It is used where what the program does depends on rounding. -/

namespace Simple.Round

/-- The nearest integer, ties to even. -/
def nearestEven (s : ℚ) : ℤ :=
  if s - ⌊s⌋ < 1 / 2 then ⌊s⌋
  else if 1 / 2 < s - ⌊s⌋ then ⌊s⌋ + 1
  else if ⌊s⌋ % 2 = 0 then ⌊s⌋ else ⌊s⌋ + 1

/-- Two to an integer power. -/
def pow2 (k : ℤ) : ℚ := if 0 ≤ k then 2 ^ k.toNat else 1 / 2 ^ (-k).toNat

/-- The exponent of the leading bit. -/
def exponent (q : ℚ) : ℤ :=
  let k : ℤ := (Nat.log2 q.num.natAbs : ℤ) - Nat.log2 q.den
  if pow2 k ≤ |q| then k else k - 1

/-- The nearest number with 53 significant bits. -/
def round53 (q : ℚ) : ℚ :=
  if q = 0 then 0
  else
    let u := pow2 (exponent q - 52)
    nearestEven (q / u) * u

namespace Spec

/-- A number with 53 significant bits. -/
def Representable (y : ℚ) : Prop := ∃ m e : ℤ, |m| < 2 ^ 53 ∧ y = m * 2 ^ e

end Spec

open Spec

theorem pow2_eq (k : ℤ) : pow2 k = 2 ^ k := by
  unfold pow2
  split_ifs with h
  · obtain ⟨n, rfl⟩ := Int.eq_ofNat_of_zero_le h
    simp
  · obtain ⟨n, hn⟩ := Int.eq_ofNat_of_zero_le (show 0 ≤ -k by omega)
    have : k = -(n : ℤ) := by omega
    subst this
    simp

theorem zp (k : ℤ) : (0 : ℚ) < 2 ^ k := zpow_pos (by norm_num) k

private theorem scale53 (e : ℤ) : (9007199254740992 : ℚ) * 2 ^ (e - 52) = 2 ^ (e + 1) := by
  rw [show (9007199254740992 : ℚ) = 2 ^ (53 : ℤ) by norm_num, ← zpow_add₀ (by norm_num)]
  congr 1; ring

private theorem scale52 (e : ℤ) : (4503599627370496 : ℚ) * 2 ^ (e - 52) = 2 ^ e := by
  rw [show (4503599627370496 : ℚ) = 2 ^ (52 : ℤ) by norm_num, ← zpow_add₀ (by norm_num)]
  congr 1; ring

theorem exponent_spec (q : ℚ) (h : q ≠ 0) : (2 : ℚ) ^ exponent q ≤ |q| ∧ |q| < 2 ^ (exponent q + 1) := by
  have hn : q.num.natAbs ≠ 0 := by simpa using h
  have hd : q.den ≠ 0 := q.den_ne_zero
  have hq : |q| = (q.num.natAbs : ℚ) / q.den := by
    rw [← Rat.num_div_den q, abs_div]
    simp [Rat.num_div_den, Nat.cast_natAbs]
  obtain ⟨a1, a2⟩ : 2 ^ Nat.log2 q.num.natAbs ≤ q.num.natAbs ∧ q.num.natAbs < 2 ^ (Nat.log2 q.num.natAbs + 1) :=
    ⟨Nat.log2_self_le hn, Nat.lt_log2_self⟩
  obtain ⟨b1, b2⟩ : 2 ^ Nat.log2 q.den ≤ q.den ∧ q.den < 2 ^ (Nat.log2 q.den + 1) := ⟨Nat.log2_self_le hd, Nat.lt_log2_self⟩
  unfold exponent
  simp only [pow2_eq]
  generalize Nat.log2 q.num.natAbs = m at *
  generalize Nat.log2 q.den = n at *
  have hpos : (0 : ℚ) < q.den := by exact_mod_cast Nat.pos_of_ne_zero hd
  have a1' : (2 : ℚ) ^ m ≤ q.num.natAbs := by exact_mod_cast a1
  have a2' : (q.num.natAbs : ℚ) < 2 ^ (m + 1) := by exact_mod_cast a2
  have b1' : (2 : ℚ) ^ n ≤ q.den := by exact_mod_cast b1
  have b2' : (q.den : ℚ) < 2 ^ (n + 1) := by exact_mod_cast b2
  have hup : |q| < 2 ^ ((m : ℤ) - n + 1) := by
    rw [hq, div_lt_iff₀ hpos]
    calc (q.num.natAbs : ℚ) < 2 ^ (m + 1) := a2'
      _ = 2 ^ ((m : ℤ) - n + 1) * 2 ^ n := by
        rw [← zpow_natCast, ← zpow_natCast, ← zpow_add₀ (by norm_num)]
        congr 1; push_cast; ring
      _ ≤ 2 ^ ((m : ℤ) - n + 1) * q.den := by
        exact mul_le_mul_of_nonneg_left b1' (zp _).le
  have hlo : (2 : ℚ) ^ ((m : ℤ) - n - 1) < |q| := by
    rw [hq, lt_div_iff₀ hpos]
    calc (2 : ℚ) ^ ((m : ℤ) - n - 1) * q.den < 2 ^ ((m : ℤ) - n - 1) * 2 ^ (n + 1) := by
          exact mul_lt_mul_of_pos_left b2' (zp _)
      _ = 2 ^ m := by
        rw [← zpow_natCast, ← zpow_natCast, ← zpow_add₀ (by norm_num)]
        congr 1; push_cast; ring
      _ ≤ _ := a1'
  split_ifs with hc
  · exact ⟨hc, hup⟩
  · exact ⟨hlo.le, by rw [sub_add_cancel]; exact not_le.1 hc⟩

theorem nearestEven_near (s : ℚ) : |nearestEven s - s| ≤ 1 / 2 := by
  have h1 := Int.floor_le s
  have h2 := Int.lt_floor_add_one s
  unfold nearestEven
  split_ifs with a b c
  · rw [abs_of_nonpos (by linarith)]; linarith
  · push_cast; rw [abs_of_nonneg (by linarith)]; linarith
  · rw [abs_of_nonpos (by linarith)]; linarith
  · push_cast; rw [abs_of_nonneg (by linarith)]; linarith

private theorem nearestEven_best (s : ℚ) (k : ℤ) : |nearestEven s - s| ≤ |k - s| := by
  have h := nearestEven_near s
  by_cases hk : k = nearestEven s
  · rw [hk]
  have h1 : (1 : ℚ) ≤ |(k : ℚ) - nearestEven s| := by
    have : (1 : ℤ) ≤ |k - nearestEven s| := Int.one_le_abs (sub_ne_zero.2 hk)
    exact_mod_cast this
  have h2 : |(k : ℚ) - nearestEven s| ≤ |k - s| + |nearestEven s - s| := by
    have := abs_sub_le (k : ℚ) s (nearestEven s)
    rw [abs_sub_comm s] at this
    exact this
  linarith

/-- What `round53` gives has 53 significant bits. -/
theorem round53_representable (q : ℚ) : Representable (round53 q) := by
  unfold round53
  split_ifs with h
  · exact ⟨0, 0, by norm_num, by simp⟩
  obtain ⟨h1, h2⟩ := exponent_spec q h
  simp only [pow2_eq]
  generalize exponent q = e at *
  have hu : (0 : ℚ) < 2 ^ (e - 52) := zp _
  have hs : |q / 2 ^ (e - 52)| < 2 ^ 53 := by
    rw [abs_div, abs_of_pos hu, div_lt_iff₀ hu, show (2 : ℚ) ^ 53 = 9007199254740992 by norm_num, scale53]
    exact h2
  generalize q / 2 ^ (e - 52) = s at hs
  have hn := nearestEven_best s (2 ^ 53)
  have hn' := nearestEven_best s (-(2 ^ 53))
  have hle : |nearestEven s| ≤ 2 ^ 53 := by
    have hs' := abs_lt.1 hs
    have : |(nearestEven s : ℚ)| ≤ 2 ^ 53 := by
      rw [abs_le]
      push_cast at hn hn'
      rw [abs_of_pos (show (0 : ℚ) < 9007199254740992 - s by linarith)] at hn
      rw [abs_of_neg (show -9007199254740992 - s < 0 by linarith)] at hn'
      have e1 := abs_le.1 hn
      have e2 := abs_le.1 hn'
      exact ⟨by linarith, by linarith⟩
    exact_mod_cast this
  rcases lt_or_eq_of_le hle with hlt | heq
  · exact ⟨_, _, hlt, rfl⟩
  · rcases (abs_eq (by norm_num)).1 heq with h' | h'
    · refine ⟨1, e + 1, by norm_num, ?_⟩
      rw [h']; push_cast
      rw [one_mul, scale53]
    · refine ⟨-1, e + 1, by norm_num, ?_⟩
      rw [h']; push_cast
      rw [neg_mul, neg_mul, one_mul, scale53]

/-- No number with 53 significant bits is nearer than what `round53` gives. -/
theorem round53_nearest (q y : ℚ) (hy : Representable y) : |round53 q - q| ≤ |y - q| := by
  unfold round53
  split_ifs with h
  · rw [h]; simp
  obtain ⟨h1, h2⟩ := exponent_spec q h
  simp only [pow2_eq]
  generalize exponent q = e at *
  have hu : (0 : ℚ) < 2 ^ (e - 52) := zp _
  obtain ⟨s, hs⟩ : ∃ s, s = q / 2 ^ (e - 52) := ⟨_, rfl⟩
  have hq : q = s * 2 ^ (e - 52) := by rw [hs]; field_simp
  rw [← hs]
  have hs1 : 2 ^ 52 ≤ |s| := by
    rw [hs, abs_div, abs_of_pos hu, le_div_iff₀ hu, show (2 : ℚ) ^ 52 = 4503599627370496 by norm_num, scale52]
    exact h1
  obtain ⟨m, f, hm, rfl⟩ := hy
  obtain ⟨z, hz⟩ : ∃ z, z = (m : ℚ) * 2 ^ (f - (e - 52)) := ⟨_, rfl⟩
  have hzz : (m : ℚ) * 2 ^ f = z * 2 ^ (e - 52) := by
    rw [hz, mul_assoc, ← zpow_add₀ (by norm_num)]; congr 2; ring
  rw [hzz]
  have key : |(nearestEven s : ℚ) - s| ≤ |z - s| := by
    by_cases hf : 0 ≤ f - (e - 52)
    · obtain ⟨k, hk⟩ := Int.eq_ofNat_of_zero_le hf
      have : z = ((m * 2 ^ k : ℤ) : ℚ) := by rw [hz, hk]; push_cast; rw [zpow_natCast]
      rw [this]
      exact nearestEven_best s _
    · have hz1 : |z| ≤ 2 ^ 52 := by
        rw [hz, abs_mul, abs_of_pos (zp (f - (e - 52)))]
        have hm' : |(m : ℚ)| ≤ 2 ^ 53 := by exact_mod_cast hm.le
        have hp : (2 : ℚ) ^ (f - (e - 52)) ≤ 2 ^ (-1 : ℤ) := zpow_le_zpow_right₀ (by norm_num) (by omega)
        calc |(m : ℚ)| * 2 ^ (f - (e - 52)) ≤ 2 ^ 53 * 2 ^ (-1 : ℤ) := by
              exact mul_le_mul hm' hp (zp _).le (by norm_num)
          _ = 2 ^ 52 := by norm_num
      have hz2 := abs_le.1 hz1
      rcases le_or_gt 0 s with hp | hp
      · rw [abs_of_nonneg hp] at hs1
        refine (nearestEven_best s (2 ^ 52)).trans ?_
        push_cast
        rw [abs_of_nonpos (by linarith), abs_of_nonpos (by linarith)]
        linarith
      · rw [abs_of_neg hp] at hs1
        refine (nearestEven_best s (-(2 ^ 52))).trans ?_
        push_cast
        rw [abs_of_nonneg (by linarith), abs_of_nonneg (by linarith)]
        linarith
  calc |(nearestEven s : ℚ) * 2 ^ (e - 52) - q| = |(nearestEven s : ℚ) - s| * 2 ^ (e - 52) := by
        rw [← abs_of_pos hu, ← abs_mul, abs_of_pos hu]; congr 1; rw [hq]; ring
    _ ≤ |z - s| * 2 ^ (e - 52) := by apply mul_le_mul_of_nonneg_right key hu.le
    _ = _ := by rw [← abs_of_pos hu, ← abs_mul, abs_of_pos hu]; congr 1; rw [hq]; ring

/-- Rounding is within half a unit in the last place. -/
theorem round53_error (q : ℚ) : |round53 q - q| ≤ |q| / 2 ^ 53 := by
  unfold round53
  split_ifs with h
  · rw [h]; simp
  obtain ⟨h1, h2⟩ := exponent_spec q h
  simp only [pow2_eq]
  generalize exponent q = e at *
  have hu : (0 : ℚ) < 2 ^ (e - 52) := zp _
  obtain ⟨s, hs⟩ : ∃ s, s = q / 2 ^ (e - 52) := ⟨_, rfl⟩
  have hq : q = s * 2 ^ (e - 52) := by rw [hs]; field_simp
  rw [← hs]
  have hn := nearestEven_near s
  calc |(nearestEven s : ℚ) * 2 ^ (e - 52) - q| = |(nearestEven s : ℚ) - s| * 2 ^ (e - 52) := by
        rw [← abs_of_pos hu, ← abs_mul, abs_of_pos hu]; congr 1; rw [hq]; ring
    _ ≤ 1 / 2 * 2 ^ (e - 52) := by apply mul_le_mul_of_nonneg_right hn hu.le
    _ = 2 ^ e / 2 ^ 53 := by
      rw [zpow_sub₀ (by norm_num)]; norm_num; ring
    _ ≤ _ := by apply div_le_div_of_nonneg_right h1 (by positivity)

/-- A number with 53 significant bits is left as it is. -/
theorem round53_id (q : ℚ) (h : Representable q) : round53 q = q := by
  have := round53_nearest q q h
  rw [sub_self, abs_zero] at this
  exact sub_eq_zero.1 (abs_eq_zero.1 (le_antisymm this (abs_nonneg _)))

example : round53 (1 / 10) = 3602879701896397 / 36028797018963968 := by decide +kernel

end Simple.Round
