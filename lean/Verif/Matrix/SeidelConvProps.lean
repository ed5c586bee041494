import Mathlib.Algebra.Order.Archimedean.Basic
import Mathlib.Tactic.LinearCombination
import Mathlib.Tactic.Linarith
import Mathlib.Tactic.Positivity
import Mathlib.Tactic.FinCases
import Mathlib.LinearAlgebra.Matrix.Notation
import Verif.Matrix.SeidelProps

/-! # C12: when the iterations of Gauss and Seidel end, and how far from the solution -/

namespace Simple.Matrix
open Spec

variable {K : Type*} [Field K] [LinearOrder K] [IsStrictOrderedRing K]

/-- The diagonal dominates each row: the others add up to no more than the fraction `q` of it. -/
def Spec.Dominant {n : ℕ} (q : K) (M : Matrix (Fin n) (Fin n) K) : Prop :=
  0 ≤ q ∧ q < 1 ∧ ∀ i, M i i ≠ 0 ∧ ∑ j ∈ Finset.univ.erase i, |M i j| ≤ q * |M i i|

/-- Two sweeps of the same system bring their vectors closer. -/
private theorem contraction {n : ℕ} {q : K} {M : Matrix (Fin n) (Fin n) K} (hM : Dominant q M) {b x y x' y' : Fin n → K} (h : IsSweep M b x y)
    (h' : IsSweep M b x' y') {D : K} (hD0 : 0 ≤ D) (hD : ∀ j, |x j - x' j| ≤ D) (i : Fin n) : |y i - y' i| ≤ q * D := by
  obtain ⟨hq0, hq1, hrow⟩ := hM
  have hqD : q * D ≤ D := by nlinarith
  induction hi : i.val using Nat.strong_induction_on generalizing i with
  | _ k ih =>
    subst hi
    obtain ⟨hne, hdom⟩ := hrow i
    have hpos : 0 < |M i i| := abs_pos.2 hne
    have hsum : ∑ j, M i j * (if j ≤ i then y j - y' j else x j - x' j) = 0 := by
      have e : ∀ j, M i j * (if j ≤ i then y j - y' j else x j - x' j)
          = M i j * (if j ≤ i then y j else x j) - M i j * (if j ≤ i then y' j else x' j) := by
        intro j
        by_cases hj : j ≤ i
        · rw [if_pos hj, if_pos hj, if_pos hj]; ring
        · rw [if_neg hj, if_neg hj, if_neg hj]; ring
      rw [Finset.sum_congr rfl fun j _ => e j, Finset.sum_sub_distrib, h i, h' i, sub_self]
    rw [← Finset.add_sum_erase _ _ (Finset.mem_univ i), if_pos le_rfl] at hsum
    have hle : |∑ j ∈ Finset.univ.erase i, M i j * (if j ≤ i then y j - y' j else x j - x' j)| ≤ (∑ j ∈ Finset.univ.erase i, |M i j|) * D := by
      refine (Finset.abs_sum_le_sum_abs _ _).trans ?_
      rw [Finset.sum_mul]
      refine Finset.sum_le_sum fun j hj => ?_
      rw [abs_mul]
      refine mul_le_mul_of_nonneg_left ?_ (abs_nonneg _)
      by_cases hji : j ≤ i
      · rw [if_pos hji]
        have hlt : j.val < i.val := lt_of_le_of_ne hji fun e => (Finset.mem_erase.1 hj).1 (Fin.ext e)
        exact (ih j.val hlt j rfl).trans hqD
      · rw [if_neg hji]; exact hD j
    have he : |M i i| * |y i - y' i| ≤ |M i i| * (q * D) := by
      rw [← abs_mul]
      have : M i i * (y i - y' i) = -∑ j ∈ Finset.univ.erase i, M i j * (if j ≤ i then y j - y' j else x j - x' j) := by linear_combination hsum
      rw [this, abs_neg]
      refine hle.trans ?_
      have := mul_le_mul_of_nonneg_right hdom hD0
      linarith
    exact le_of_mul_le_mul_left he hpos

/-- A bound for the distance of two vectors. -/
private theorem bound {n : ℕ} (x y : Fin n → K) : ∃ D, 0 ≤ D ∧ ∀ j, |x j - y j| ≤ D :=
  ⟨∑ j, |x j - y j|, Finset.sum_nonneg fun _ _ => abs_nonneg _, fun j => Finset.single_le_sum (f := fun j => |x j - y j|) (fun _ _ => abs_nonneg _) (Finset.mem_univ j)⟩

private theorem rep_column {n : ℕ} {x : GMatrix K} {X : Matrix (Fin n) (Fin 1) K} (hx : Rep x X) : x.data = List.ofFn fun i => X i 0 := by
  apply List.ext_getElem?
  intro k
  by_cases hk : k < n
  · have := hx.getElem ⟨k, hk⟩ 0
    simp only [Fin.val_zero, Nat.add_zero, Nat.one_mul] at this
    rw [this]; simp [hk]
  · rw [List.getElem?_eq_none (by rw [hx.length]; omega), List.getElem?_eq_none (by simp; omega)]

/-- The vectors that sweeps go through. -/
private theorem iterates {n : ℕ} {A : GMatrix K} {M : Matrix (Fin n) (Fin n) K} (hA : Rep A M) (hd : ∀ i, M i i ≠ 0) (b x : Fin n → K) :
    ∃ v : ℕ → Fin n → K, v 0 = x ∧ (∀ k, (fun w => gsSweep A (List.ofFn b) w n)^[k] (List.ofFn x) = List.ofFn (v k)) ∧ ∀ k, IsSweep M b (v k) (v (k + 1)) := by
  choose f hf using fun w : Fin n → K => C12_sweep hA b w hd
  refine ⟨fun k => f^[k] x, rfl, fun k => ?_, fun k => ?_⟩
  · induction k with
    | zero => rfl
    | succ k ih =>
      rw [Function.iterate_succ_apply', ih]
      dsimp only
      rw [Function.iterate_succ_apply']
      exact (hf _).1
  · simp only [Function.iterate_succ_apply']
    exact (hf _).2

/-- C12: with a diagonal that dominates, enough iterations always end in success, whatever the system, the first guess and the tolerance. -/
theorem C12_converges [Archimedean K] {n : ℕ} {q : K} {A b x : GMatrix K} {M : Matrix (Fin n) (Fin n) K} {B X : Matrix (Fin n) (Fin 1) K}
    (hA : Rep A M) (hb : Rep b B) (hx : Rep x X) (hM : Dominant q M) {lo conv : K} (hlo : lo < conv) (hconv : 0 < conv) :
    ∃ N, ∀ maxIter, N < maxIter → ∃ x', gaussSeidel lo A b x maxIter conv = (.ok (), x') := by
  have hbv := rep_column hb
  have hxv := rep_column hx
  obtain ⟨v, hv0, hv, hsw⟩ := iterates hA (fun i => (hM.2.2 i).1) (fun i => B i 0) fun i => X i 0
  obtain ⟨D, hD0, hD⟩ := bound (v 0) (v 1)
  have hstep : ∀ k, ∀ i, |v k i - v (k + 1) i| ≤ q ^ k * D := by
    intro k
    induction k with
    | zero => intro i; simpa using hD i
    | succ k ih =>
      intro i
      have := contraction hM (hsw k) (hsw (k + 1)) (mul_nonneg (pow_nonneg hM.1 k) hD0) ih i
      rw [pow_succ]
      linarith
  obtain ⟨N, hN⟩ : ∃ N, q ^ N * D < conv := by
    obtain ⟨N, hN⟩ := exists_pow_lt_of_lt_one (show 0 < conv / (D + 1) by positivity) hM.2.1
    refine ⟨N, ?_⟩
    rw [lt_div_iff₀ (by linarith)] at hN
    have := pow_nonneg hM.1 N
    nlinarith
  refine ⟨N, fun maxIter hmax => ?_⟩
  rcases C12_result_partial hA hb hx lo conv maxIter with ⟨k, -, e, -⟩ | ⟨-, h⟩
  · exact ⟨_, e⟩
  · exfalso
    obtain ⟨i, hi, hc⟩ := h hlo N hmax
    rw [hbv, hxv, hv, hv] at hc
    have e1 : ∀ k, (List.ofFn (v k)).getD i 0 = v k ⟨i, hi⟩ := by intro k; simp [hi]
    rw [e1, e1] at hc
    exact absurd ((hstep N ⟨i, hi⟩).trans_lt hN) (not_lt.2 hc)

/-- C12: with a diagonal that dominates, what is returned with success is close to the solution, in proportion to the tolerance. -/
theorem C12_error {n : ℕ} {q : K} {A b x : GMatrix K} {M : Matrix (Fin n) (Fin n) K} {B X : Matrix (Fin n) (Fin 1) K} (hA : Rep A M) (hb : Rep b B)
    (hx : Rep x X) (hM : Dominant q M) {lo conv : K} {maxIter : ℕ} {x' : GMatrix K} (hrun : gaussSeidel lo A b x maxIter conv = (.ok (), x'))
    {S : Fin n → K} (hS : ∀ i, M.mulVec S i = B i 0) :
    ∃ v : Fin n → K, Rep x' (Matrix.of fun i (_ : Fin 1) => v i) ∧ ∀ i, |v i - S i| ≤ conv / (1 - q) := by
  have hbv := rep_column hb
  have hxv := rep_column hx
  obtain ⟨v, -, hv, hsw⟩ := iterates hA (fun i => (hM.2.2 i).1) (fun i => B i 0) fun i => X i 0
  rcases C12_result_partial hA hb hx lo conv maxIter with ⟨k, -, h1, h2⟩ | ⟨h1, -⟩
  · rw [hrun] at h1
    simp only [Prod.mk.injEq, true_and] at h1
    rw [hbv, hxv] at h1 h2
    rw [hv] at h1
    refine ⟨v k, ?_, ?_⟩
    · subst h1
      refine Rep.of_getElem rfl rfl (by simp) fun i j => ?_
      have : j = 0 := Subsingleton.elim _ _
      subst this
      simp
    · have hstop : ∀ i, |v k i - v (k + 1) i| < conv := by
        intro i
        have := h2 i i.2
        rw [hv, hv] at this
        simpa using this
      have hfix : IsSweep M (fun i => B i 0) S S := by
        intro i
        refine Eq.trans ?_ (hS i)
        refine Finset.sum_congr rfl fun j _ => ?_
        rw [ite_self]
      have hq : 0 < 1 - q := by linarith [hM.2.1]
      intro i
      obtain ⟨m, -, hm⟩ := Finset.exists_max_image Finset.univ (fun j => |v k j - S j|) ⟨i, Finset.mem_univ i⟩
      have hc := contraction hM (hsw k) hfix (abs_nonneg (v k m - S m)) (fun j => hm j (Finset.mem_univ j)) m
      have ht : |v k m - S m| ≤ |v k m - v (k + 1) m| + |v (k + 1) m - S m| := by
        have : v k m - S m = (v k m - v (k + 1) m) + (v (k + 1) m - S m) := by ring
        rw [this]
        exact abs_add_le _ _
      have := hstop m
      refine (hm i (Finset.mem_univ i)).trans ?_
      rw [le_div_iff₀ hq]
      nlinarith
  · rw [hrun] at h1
    cases h1

/-- A system whose diagonal dominates. -/
example : Dominant (1 / 2 : ℚ) (!![4, 1; 2, 5] : Matrix (Fin 2) (Fin 2) ℚ) := by
  refine ⟨by norm_num, by norm_num, fun i => ?_⟩
  fin_cases i
  · refine ⟨by simp, ?_⟩
    have : (Finset.univ.erase (0 : Fin 2)) = {1} := by decide
    simp [this]; norm_num
  · refine ⟨by simp, ?_⟩
    have : (Finset.univ.erase (1 : Fin 2)) = {0} := by decide
    simp [this]; norm_num

end Simple.Matrix
