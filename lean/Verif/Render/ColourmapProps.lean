import Mathlib.Algebra.Order.Field.Basic
import Mathlib.Algebra.Order.Ring.Abs
import Mathlib.Tactic.Linarith
import Mathlib.Tactic.FieldSimp
import Mathlib.Tactic.Ring
import Mathlib.Tactic.NormNum
import Verif.Float.Round
import Verif.Render.ColourmapModel

/-! # C56: false colours -/

namespace Simple.Render.Colourmap

variable {K : Type*} [Field K] [LinearOrder K] [IsStrictOrderedRing K]

namespace Spec

/-- The colour that is `lam` of the way from `p` to `q`. -/
def mix (p q : Rgb K) (lam : K) : Rgb K := ⟨(1 - lam) * p.r + lam * q.r, (1 - lam) * p.g + lam * q.g, (1 - lam) * p.b + lam * q.b⟩

end Spec

open Spec

private theorem search_exact (x min delta : K) (map : List (Rgb K)) (hd : 0 < delta) : ∀ (n i : ℕ), 0 < i → i + n ≤ map.length →
    min + (i - 1 : ℕ) * delta ≤ x → x ≤ min + (i - 1 + n : ℕ) * delta → 0 < n →
    ∃ (k : ℕ) (lam : K) (p q : Rgb K), i ≤ k + 1 ∧ map[k]? = some p ∧ map[k + 1]? = some q ∧ 0 ≤ lam ∧ lam ≤ 1 ∧ x = min + (k + lam) * delta ∧
      search id x min delta map (List.range' i n) = .ok (mix p q lam) := by
  intro n
  induction n with
  | zero => intro i _ _ _ _ h; exact absurd h (lt_irrefl _)
  | succ n ih =>
    intro i hi hlen h1 h2 _
    obtain ⟨k, rfl⟩ : ∃ k, i = k + 1 := ⟨i - 1, by omega⟩
    rw [Nat.add_sub_cancel] at h1 h2
    rw [List.range'_succ]
    unfold search
    simp only [id, Nat.add_sub_cancel]
    by_cases hx : x ≤ min + (k : K) * delta + delta
    · rw [if_pos hx]
      obtain ⟨p, hp⟩ : ∃ p, map[k]? = some p := ⟨_, List.getElem?_eq_getElem (by omega)⟩
      obtain ⟨q, hq⟩ : ∃ q, map[k + 1]? = some q := ⟨_, List.getElem?_eq_getElem (by omega)⟩
      refine ⟨k, (x - (min + k * delta)) / delta, p, q, le_refl _, hp, hq, ?_, ?_, ?_, ?_⟩
      · exact div_nonneg (by linarith) hd.le
      · rw [div_le_one hd]; linarith
      · field_simp; ring
      · simp only [Outcome.index, hp, hq, Outcome.bind, blend, mix, id]
        congr 2 <;> ring
    · rw [if_neg hx]
      rw [not_le] at hx
      have hn : 0 < n := by
        rcases Nat.eq_zero_or_pos n with h | h
        · subst h
          push_cast at h2
          nlinarith
        · exact h
      obtain ⟨k', lam, p, q, e1, e⟩ := ih (k + 1 + 1) (by omega) (by omega) (by
          rw [show k + 1 + 1 - 1 = k + 1 by omega]; push_cast; linarith) (by
          rw [show k + 1 + 1 - 1 + n = k + (n + 1) by omega]; exact h2) hn
      exact ⟨k', lam, p, q, by omega, e⟩

/-- C56: with exact numbers and at least two colours, the mapping never panics.  Values up to the minimum get the first
colour, values from the maximum on the last one, and a value between them the colour at its place, between the two
consecutive colours that it falls between. -/
theorem C56_map_linear_partial (x min max : K) (map : List (Rgb K)) (h : 2 ≤ map.length) :
    (x ≤ min → ∃ c, map[0]? = some c ∧ mapLinear id x min max map = .ok c) ∧
    (min < x → max ≤ x → ∃ c, map[map.length - 1]? = some c ∧ mapLinear id x min max map = .ok c) ∧
    (min < x → x < max → ∃ (k : ℕ) (lam : K) (p q : Rgb K), map[k]? = some p ∧ map[k + 1]? = some q ∧ 0 ≤ lam ∧ lam ≤ 1 ∧
      (x - min) / (max - min) = (k + lam) / (map.length - 1) ∧ mapLinear id x min max map = .ok (mix p q lam)) := by
  unfold mapLinear
  refine ⟨fun hx => ?_, fun h1 h2 => ?_, fun h1 h2 => ?_⟩
  · rw [if_pos hx]
    refine ⟨map[0], List.getElem?_eq_getElem (by omega), ?_⟩
    unfold Outcome.index
    rw [List.getElem?_eq_getElem (by omega)]
  · rw [if_neg (not_le.2 h1), if_pos h2, List.getLast?_eq_getElem?, List.getElem?_eq_getElem (by omega)]
    exact ⟨_, rfl, rfl⟩
  · rw [if_neg (not_le.2 h1), if_neg (not_le.2 h2)]
    have hc : ((map.length - 1 : ℕ) : K) = (map.length : K) - 1 := by push_cast [Nat.cast_sub (show 1 ≤ map.length by omega)]; ring
    have hl : (0 : K) < (map.length : K) - 1 := by
      rw [← hc]
      exact_mod_cast (show 0 < map.length - 1 by omega)
    have hd : 0 < (max - min) / ((map.length - 1 : ℕ) : K) := by
      rw [hc]; exact div_pos (by linarith) hl
    obtain ⟨k, lam, p, q, -, e1, e2, e3, e4, e5, e6⟩ := search_exact x min _ map hd (map.length - 1) 1 (by omega) (by omega)
      (by simp; linarith) (by
        rw [show 1 - 1 + (map.length - 1) = map.length - 1 by omega, mul_div_cancel₀ _ (by rw [hc]; exact hl.ne')]
        linarith) (by omega)
    refine ⟨k, lam, p, q, e1, e2, e3, e4, ?_, e6⟩
    have hm : max - min ≠ 0 := by linarith
    rw [div_eq_div_iff hm hl.ne']
    rw [hc] at e5
    rw [e5]
    field_simp
    ring

/-- C56: when the limits are the wrong way round, or equal, there is still a colour. -/
theorem C56_no_range (x min max : K) (map : List (Rgb K)) (h : map ≠ []) (hm : max ≤ min) :
    ∃ c ∈ map, mapLinear id x min max map = .ok c := by
  unfold mapLinear
  have hp : 0 < map.length := List.length_pos_iff.2 h
  by_cases hx : x ≤ min
  · rw [if_pos hx]
    refine ⟨map[0], List.getElem_mem _, ?_⟩
    unfold Outcome.index
    rw [List.getElem?_eq_getElem hp]
  · rw [if_neg hx, if_pos (by linarith), List.getLast?_eq_getElem?, List.getElem?_eq_getElem (by omega)]
    exact ⟨_, List.getElem_mem _, rfl⟩

/-- A table with 256 colours, as many as each of those of the program has. -/
def grays : List (Rgb ℚ) := (List.range 256).map fun k => ⟨k / 256, k / 256, k / 256⟩

/-- C56 fails: rounding makes the last bin end before the maximum, and a value between them comes to the
`unreachable!()` at the end.  It is so for 256 colours from −3 (the default minimum of the logarithmic mapping, of
0.001 cd/m²) to −1/32, and the last number before the latter. -/
theorem C56_violated_rounding :
    Round.Spec.Representable (-3) ∧ Round.Spec.Representable (-(1 / 32)) ∧ Round.Spec.Representable (-(1 / 32) - 1 / 2 ^ 57) ∧
    mapLinear Round.round53 (-(1 / 32) - 1 / 2 ^ 57) (-3) (-(1 / 32)) grays = .panic := by
  refine ⟨⟨-3, 0, by norm_num, by norm_num⟩, ⟨-1, -5, by norm_num, by norm_num⟩, ⟨-(2 ^ 52 + 1), -57, by norm_num, by norm_num⟩, ?_⟩
  decide +kernel

/-- A value in the second of two bins. -/
example : mapLinear id (3 / 4 : ℚ) 0 1 [⟨0, 0, 0⟩, ⟨1, 0, 0⟩, ⟨1, 1, 0⟩] = .ok ⟨1, 1 / 2, 0⟩ := by decide +kernel

end Simple.Render.Colourmap
