import Mathlib.Algebra.BigOperators.Fin
import Mathlib.Algebra.Polynomial.Eval.Defs
import Mathlib.Algebra.Order.Ring.Rat
import Mathlib.Tactic.Ring
import Mathlib.Tactic.NormNum
import Verif.Polynomial.Model

/-! C13: a polynomial built coefficient by coefficient evaluates to `∑ cᵢ xⁱ`. -/

namespace Simple.Poly

open Finset

set_option linter.unusedSectionVars false

variable {K : Type*} [Semiring K]

/-- The specification: the value of the polynomial with coefficients `cs` at `x`. -/
def Spec.value (cs : List K) (x : K) : K := ∑ i : Fin cs.length, cs[i] * x ^ (i : ℕ)

/-- Invariant: the slots `0..len` hold `cs`, whatever the other slots hold. -/
def Holds (p : Polynomial K) (cs : List K) : Prop :=
  p.coefficients.length = capacity ∧ p.len = cs.length ∧ cs.length ≤ capacity ∧
    ∀ i, i < cs.length → p.coefficients[i]? = cs[i]?

theorem holds_new : Holds (Polynomial.new : Polynomial K) [] := by
  refine ⟨by simp [Polynomial.new], rfl, by simp, by simp⟩

theorem holds_push {p : Polynomial K} {cs : List K} (h : Holds p cs) (hlt : cs.length < capacity)
    (v : K) : ∃ q, p.push v = .ok q ∧ Holds q (cs ++ [v]) := by
  obtain ⟨h1, h2, h3, h4⟩ := h
  refine ⟨⟨p.coefficients.set p.len v, p.len + 1⟩, ?_, ?_, ?_, ?_, ?_⟩
  · unfold Polynomial.push
    rw [if_neg (by omega)]
  · simpa using h1
  · simp [h2]
  · simp; omega
  · intro i hi
    simp only [List.length_append, List.length_singleton] at hi
    rcases Nat.lt_or_ge i cs.length with hlt' | hge
    · rw [List.getElem?_append_left hlt', ← h4 i hlt', List.getElem?_set_ne (by omega)]
    · have : i = cs.length := by omega
      subst this
      rw [List.getElem?_append_right (le_refl _), h2]
      simp [h1, hlt]

theorem holds_pushAll {p : Polynomial K} {cs : List K} (h : Holds p cs) (vs : List K)
    (hle : cs.length + vs.length ≤ capacity) :
    ∃ q, p.pushAll vs = .ok q ∧ Holds q (cs ++ vs) := by
  induction vs generalizing p cs with
  | nil => exact ⟨p, rfl, by simpa using h⟩
  | cons v vs ih =>
    simp only [List.length_cons] at hle
    obtain ⟨q, hq, hq'⟩ := holds_push h (by omega) v
    obtain ⟨r, hr, hr'⟩ := ih hq' (by simp; omega)
    refine ⟨r, ?_, by simpa using hr'⟩
    simp [Polynomial.pushAll, hq, hr]

theorem pushAll_panic {p : Polynomial K} {cs : List K} (h : Holds p cs) (vs : List K)
    (hgt : capacity < cs.length + vs.length) : p.pushAll vs = .panic := by
  induction vs generalizing p cs with
  | nil => have := h.2.2.1; simp at hgt; omega
  | cons v vs ih =>
    simp only [List.length_cons] at hgt
    rcases Nat.lt_or_ge cs.length capacity with hlt | hge
    · obtain ⟨q, hq, hq'⟩ := holds_push h hlt v
      simp only [Polynomial.pushAll, hq]
      exact ih hq' (by simp; omega)
    · obtain ⟨h1, h2, h3, h4⟩ := h
      have : p.push v = .panic := by
        unfold Polynomial.push
        rw [if_pos (by omega)]
      simp [Polynomial.pushAll, this]

theorem evalLoop_eq {p : Polynomial K} {cs : List K} (h : Holds p cs) (x : K) (n i : ℕ) (y : K)
    (hi : n + i = cs.length) :
    p.evalLoop x n i y = .ok (y + ∑ j ∈ Finset.range n, cs.getD (i + j) 0 * x ^ (i + j)) := by
  induction n generalizing i y with
  | zero => simp [Polynomial.evalLoop]
  | succ n ih =>
    obtain ⟨h1, h2, h3, h4⟩ := h
    have hlt : i < p.coefficients.length := by omega
    have hc : p.coefficients[i]? = cs[i]? := h4 i (by omega)
    have hval : p.coefficients[i] = cs.getD i 0 := by
      rw [List.getD_eq_getElem?_getD, ← hc, List.getElem?_eq_getElem hlt, Option.getD_some]
    unfold Polynomial.evalLoop
    rw [Outcome.index_of_lt hlt]
    simp only
    rw [ih (i + 1) _ (by omega), Finset.sum_range_succ']
    simp only [hval, Nat.add_zero]
    congr 1
    rw [add_assoc, add_comm (cs.getD i 0 * x ^ i)]
    congr 2
    apply Finset.sum_congr rfl
    intro j _
    rw [show i + 1 + j = i + (j + 1) by omega]

theorem eval_of_holds {p : Polynomial K} {cs : List K} (h : Holds p cs) (x : K) :
    p.eval x = .ok (Spec.value cs x) := by
  unfold Polynomial.eval
  rw [evalLoop_eq h x p.len 0 0 (by have := h.2.1; omega), h.2.1]
  simp only [zero_add]
  congr 1
  unfold Spec.value
  rw [Finset.sum_range]
  apply Finset.sum_congr rfl
  intro j _
  rw [List.getD_eq_getElem?_getD, List.getElem?_eq_getElem j.2, Option.getD_some]
  rfl

/-- **C13** (built by pushes).  Pushing at most 12 coefficients `cs` onto an empty polynomial never
panics; the result has `cs.length` coefficients and evaluates to `∑ cᵢ xⁱ` for every `x`. -/
theorem C13_push_eval (cs : List K) (h : cs.length ≤ 12) :
    ∃ p, (Polynomial.new : Polynomial K).pushAll cs = .ok p ∧ p.len = cs.length ∧
      (p.isEmpty = true ↔ cs = []) ∧
      ∀ x, p.eval x = .ok (∑ i : Fin cs.length, cs[i] * x ^ (i : ℕ)) := by
  obtain ⟨q, hq, hq'⟩ := holds_pushAll (holds_new (K := K)) cs (by simpa [capacity] using h)
  rw [List.nil_append] at hq'
  refine ⟨q, hq, hq'.2.1, ?_, fun x => eval_of_holds hq' x⟩
  simp [Polynomial.isEmpty, hq'.2.1]

example : (⟨[1, 2, 3] ++ List.replicate 9 0, 3⟩ : Polynomial ℚ).eval 2 = .ok 17 := by decide +kernel

/-- **C13** (the 13th push).  A history of more than 12 pushes panics. -/
theorem C13_push_overflow (cs : List K) (h : 12 < cs.length) :
    (Polynomial.new : Polynomial K).pushAll cs = .panic :=
  pushAll_panic holds_new cs (by simpa [capacity] using h)

example : 12 < (List.replicate 13 (1 : ℚ)).length := by decide

/-- **C13** (unused slots).  Two polynomials with the same length and the same first `len`
coefficients evaluate to the same value, whatever the remaining slots contain. -/
theorem C13_unused_slots (p q : Polynomial K) (hl : p.len = q.len)
    (hp : p.len ≤ p.coefficients.length) (hq : q.len ≤ q.coefficients.length)
    (h : p.coefficients.take p.len = q.coefficients.take q.len) (x : K) :
    p.eval x = q.eval x ∧ ∃ y, p.eval x = .ok y := by
  have key : ∀ n i y, n + i = p.len → p.evalLoop x n i y = q.evalLoop x n i y ∧
      ∃ z, p.evalLoop x n i y = .ok z := by
    intro n
    induction n with
    | zero => intro i y _; exact ⟨rfl, y, rfl⟩
    | succ n ih =>
      intro i y hi
      have h1 : i < p.coefficients.length := by omega
      have h2 : i < q.coefficients.length := by omega
      have he : p.coefficients[i] = q.coefficients[i] := by
        have : (p.coefficients.take p.len)[i]? = (q.coefficients.take q.len)[i]? := by rw [h]
        rw [List.getElem?_take_of_lt (by omega), List.getElem?_take_of_lt (by omega),
          List.getElem?_eq_getElem h1, List.getElem?_eq_getElem h2] at this
        exact Option.some.inj this
      unfold Polynomial.evalLoop
      rw [Outcome.index_of_lt h1, Outcome.index_of_lt h2]
      simp only [he]
      exact ih (i + 1) _ (by omega)
  unfold Polynomial.eval
  rw [← hl]
  exact key p.len 0 0 (by omega)

example : (⟨[1, 2, 7], 2⟩ : Polynomial ℚ).eval 2 = (⟨[1, 2, 9], 2⟩ : Polynomial ℚ).eval 2 := by
  decide +kernel

theorem polyLoop_length (given : List K) (n i : ℕ) (c : List K) :
    (Polynomial.polyLoop given n i c).length = c.length := by
  induction n generalizing i c with
  | zero => rfl
  | succ n ih => simp [Polynomial.polyLoop, ih]

theorem polyLoop_get (given : List K) (n i : ℕ) (c : List K) (hc : n + i ≤ c.length) (j : ℕ) :
    (Polynomial.polyLoop given n i c)[j]? =
      if i ≤ j ∧ j < i + n then some (given.getD j 0) else c[j]? := by
  induction n generalizing i c with
  | zero => simp [Polynomial.polyLoop]
  | succ n ih =>
    rw [Polynomial.polyLoop, ih (i + 1) _ (by simp; omega)]
    rcases Nat.lt_trichotomy j i with h | h | h
    · rw [if_neg (by omega), if_neg (by omega), List.getElem?_set_ne (by omega)]
    · subst h
      rw [if_neg (by omega), if_pos (by omega)]
      simp [show j < c.length by omega]
    · by_cases h2 : j < i + 1 + n
      · rw [if_pos (by omega), if_pos (by omega)]
      · rw [if_neg (by omega), if_neg (by omega), List.getElem?_set_ne (by omega)]

/-- **C13** (the macro).  `poly![c0, c1, ...]` with at most 12 coefficients behaves as the
polynomial built by pushing them; with more it panics. -/
theorem C13_poly_macro (cs : List K) :
    (12 < cs.length → Polynomial.poly cs = .panic) ∧
    (cs.length ≤ 12 → ∃ p, Polynomial.poly cs = .ok p ∧ p.len = cs.length ∧
      ∀ x, p.eval x = .ok (∑ i : Fin cs.length, cs[i] * x ^ (i : ℕ))) := by
  constructor
  · intro h
    unfold Polynomial.poly
    rw [if_neg (by rintro rfl; simp at h), if_pos (by simpa [capacity] using h)]
  · intro h
    unfold Polynomial.poly
    by_cases he : cs = []
    · subst he
      rw [if_pos rfl]
      exact ⟨_, rfl, rfl, fun x => eval_of_holds holds_new x⟩
    · rw [if_neg he, if_neg (by simp [capacity]; omega)]
      refine ⟨_, rfl, rfl, fun x => eval_of_holds (cs := cs) ⟨?_, rfl, by simpa [capacity] using h, ?_⟩ x⟩
      · simp [polyLoop_length]
      · intro i hi
        simp only
        rw [polyLoop_get _ _ _ _ (by simp [capacity]; omega), if_pos (by omega),
          List.getD_eq_getElem?_getD, List.getElem?_eq_getElem hi, Option.getD_some]

example : (match (Polynomial.poly [1, 0, 5] : Outcome (Polynomial ℚ)) with
    | .ok p => p.eval 3 | .err => .err | .panic => .panic) = .ok 46 := by decide +kernel

end Simple.Poly
