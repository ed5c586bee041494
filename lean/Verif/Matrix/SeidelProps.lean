import Verif.Matrix.SeidelModel
import Verif.Matrix.Lemmas
import Verif.Float.Ext
import Mathlib.Algebra.Order.Field.Basic
import Mathlib.Algebra.Order.BigOperators.Group.Finset

/-!
# Property C12: Gauss-Seidel
-/

set_option linter.unusedSectionVars false

namespace Simple.Matrix
open Spec

variable {K : Type*} [Field K] [LinearOrder K] [IsStrictOrderedRing K]

/-- Specification of a Gauss-Seidel sweep from `x` to `y`: each equation of the system is
satisfied when the unknowns up to its own have the new values, and the others the old ones. -/
def IsSweep {n : ℕ} (M : Matrix (Fin n) (Fin n) K) (b x y : Fin n → K) : Prop :=
  ∀ i, ∑ j, M i j * (if j ≤ i then y j else x j) = b i

omit [IsStrictOrderedRing K] in
private theorem foldl_range_sum (f : ℕ → K) (k : ℕ) :
    (List.range k).foldl (fun s j => s + f j) 0 = ∑ j ∈ Finset.range k, f j := by
  induction k with
  | zero => simp
  | succ k ih => rw [List.range_succ, List.foldl_append, ih, Finset.sum_range_succ]; rfl

omit [IsStrictOrderedRing K] in
private theorem foldl_range'_sum (f : ℕ → K) (a k : ℕ) :
    (List.range' a k).foldl (fun s j => s + f j) 0 = ∑ j ∈ Finset.Ico a (a + k), f j := by
  induction k with
  | zero => simp
  | succ k ih =>
    rw [List.range'_1_concat, List.foldl_append, ih, ← Nat.add_assoc,
      Finset.sum_Ico_succ_top (by omega)]; rfl

omit [IsStrictOrderedRing K] in
/-- The sweep writes component after component. -/
private theorem sweep_prefix (A : GMatrix K) (b x : List K) (n k : ℕ) :
    let L := fun k => (List.range k).foldl (fun newX i => newX ++ [gsComponent A b x newX n i]) []
    (L k).length = k ∧ ∀ i < k, (L k)[i]? = some (gsComponent A b x (L i) n i) := by
  intro L
  induction k with
  | zero => exact ⟨rfl, fun i hi => by omega⟩
  | succ k ih =>
    have hL : L (k + 1) = L k ++ [gsComponent A b x (L k) n k] := by
      simp only [L]; rw [List.range_succ, List.foldl_append]; rfl
    refine ⟨by rw [hL]; simp [ih.1], fun i hi => ?_⟩
    rw [hL]
    rcases Nat.lt_or_ge i k with h | h
    · rw [List.getElem?_append_left (by rw [ih.1]; exact h), ih.2 i h]
    · have : i = k := by omega
      subst this
      rw [List.getElem?_append_right (by rw [ih.1]), ih.1]; simp

omit [IsStrictOrderedRing K] in
theorem gsSweep_length (A : GMatrix K) (b x : List K) (n : ℕ) : (gsSweep A b x n).length = n :=
  (sweep_prefix A b x n n).1

omit [IsStrictOrderedRing K] in
private theorem component_congr (A : GMatrix K) (b x y z : List K) (n i : ℕ)
    (h : ∀ j < i, y.getD j 0 = z.getD j 0) : gsComponent A b x y n i = gsComponent A b x z n i := by
  unfold gsComponent
  rw [foldl_range_sum (fun j => A.data.getD (A.index i j) 0 * y.getD j 0),
    foldl_range_sum (fun j => A.data.getD (A.index i j) 0 * z.getD j 0),
    Finset.sum_congr rfl (fun j hj => by rw [h j (Finset.mem_range.1 hj)])]

omit [IsStrictOrderedRing K] in
private theorem sweep_eq (A : GMatrix K) (b x : List K) (n i : ℕ) (hi : i < n) :
    (gsSweep A b x n).getD i 0 = gsComponent A b x (gsSweep A b x n) n i := by
  have h := sweep_prefix A b x n
  simp only [] at h
  rw [List.getD_eq_getElem?_getD]
  have h1 := (h n).2 i hi
  unfold gsSweep
  rw [h1, Option.getD_some]
  apply component_congr
  intro j hj
  rw [List.getD_eq_getElem?_getD, List.getD_eq_getElem?_getD, (h i).2 j hj, (h n).2 j (by omega)]

omit [IsStrictOrderedRing K] in
private theorem getD_ofFn {n : ℕ} (f : Fin n → K) (i : Fin n) : (List.ofFn f).getD i 0 = f i := by
  simp [List.getD_eq_getElem?_getD]

omit [IsStrictOrderedRing K] in
/-- What a sweep computes, for a matrix without zeroes in the diagonal. -/
theorem C12_sweep {n : ℕ} {A : GMatrix K} {M : Matrix (Fin n) (Fin n) K} (hA : Rep A M)
    (b x : Fin n → K) (hd : ∀ i, M i i ≠ 0) :
    ∃ y, gsSweep A (List.ofFn b) (List.ofFn x) n = List.ofFn y ∧ IsSweep M b x y := by
  set L := gsSweep A (List.ofFn b) (List.ofFn x) n with hL
  have hlen : L.length = n := gsSweep_length _ _ _ _
  refine ⟨fun i => L.getD i 0, ?_, ?_⟩
  · apply List.ext_getElem?
    intro k
    by_cases hk : k < n
    · rw [List.getElem?_eq_getElem (by omega)]
      simp [hk, List.getD_eq_getElem?_getD, hlen]
    · rw [List.getElem?_eq_none (by omega), List.getElem?_eq_none (by simp; omega)]
  · intro i
    have hcomp := sweep_eq A (List.ofFn b) (List.ofFn x) n i i.2
    rw [← hL] at hcomp
    have hent : ∀ j : Fin n, A.data.getD (A.index i j) 0 = M i j := by
      intro j
      rw [List.getD_eq_getElem?_getD, GMatrix.index, hA.ncols, hA.getElem i j, Option.getD_some]
    unfold gsComponent at hcomp
    simp only [] at hcomp
    rw [foldl_range_sum (fun j => A.data.getD (A.index i j) 0 * L.getD j 0),
      foldl_range'_sum (fun j => A.data.getD (A.index i j) 0 * (List.ofFn x).getD j 0),
      hent i, getD_ofFn] at hcomp
    have hi := i.2
    rw [show i.val + 1 + (n - (i.val + 1)) = n by omega] at hcomp
    have htot : ∑ j, M i j * (if j ≤ i then L.getD j 0 else x j)
        = ∑ j ∈ Finset.range n, A.data.getD (A.index i j) 0 *
            (if j ≤ i.val then L.getD j 0 else (List.ofFn x).getD j 0) := by
      rw [Finset.sum_range]
      apply Finset.sum_congr rfl
      intro j _
      rw [hent j, getD_ofFn]
      rfl
    rw [htot, ← Finset.sum_range_add_sum_Ico _ (show i.val ≤ n by omega),
      Finset.sum_eq_sum_Ico_succ_bot (show i.val < n by omega)]
    have h1 : ∑ j ∈ Finset.range i.val, A.data.getD (A.index i j) 0 *
            (if j ≤ i.val then L.getD j 0 else (List.ofFn x).getD j 0)
        = ∑ j ∈ Finset.range i.val, A.data.getD (A.index i j) 0 * L.getD j 0 := by
      apply Finset.sum_congr rfl
      intro j hj
      rw [if_pos (by have := Finset.mem_range.1 hj; omega)]
    have h2 : ∑ j ∈ Finset.Ico (i.val + 1) n, A.data.getD (A.index i j) 0 *
            (if j ≤ i.val then L.getD j 0 else (List.ofFn x).getD j 0)
        = ∑ j ∈ Finset.Ico (i.val + 1) n, A.data.getD (A.index i j) 0 * (List.ofFn x).getD j 0 := by
      apply Finset.sum_congr rfl
      intro j hj
      rw [if_neg (by have := Finset.mem_Ico.1 hj; omega)]
    rw [h1, h2, if_pos (le_refl _), hent i, hcomp]
    field_simp [hd i]
    ring

private theorem absF_eq (x : K) : absF x = |x| := by
  unfold absF
  split_ifs with h
  · rw [abs_of_neg h]
  · rw [abs_of_nonneg (not_lt.1 h)]

private theorem maxErr_ge (lo : K) (x y : List K) (n : ℕ) :
    ∀ i < n, |x.getD i 0 - y.getD i 0| ≤ gsMaxErr lo x y n := by
  unfold gsMaxErr
  induction n with
  | zero => intro i hi; omega
  | succ n ih =>
    intro i hi
    rw [List.range_succ, List.foldl_append]
    simp only [List.foldl_cons, List.foldl_nil, absF_eq]
    simp only [absF_eq] at ih
    rcases Nat.lt_or_ge i n with h | h
    · split_ifs with hc
      · exact le_trans (ih i h) (le_of_lt hc)
      · exact ih i h
    · have : i = n := by omega
      subst this
      split_ifs with hc
      · exact le_refl _
      · exact not_lt.1 hc

private theorem maxErr_lt (lo conv : K) (x y : List K) (n : ℕ) (hlo : lo < conv)
    (h : ∀ i < n, |x.getD i 0 - y.getD i 0| < conv) : gsMaxErr lo x y n < conv := by
  unfold gsMaxErr
  induction n with
  | zero => exact hlo
  | succ n ih =>
    rw [List.range_succ, List.foldl_append]
    simp only [List.foldl_cons, List.foldl_nil]
    have := ih (fun i hi => h i (by omega))
    split_ifs
    · rw [absF_eq]; exact h n (by omega)
    · exact this

private theorem loop_spec (lo conv : K) (A : GMatrix K) (b : List K) (n k : ℕ) (x : List K) :
    ((gsLoop lo conv A b n k x).1 = .ok () ∧ ∃ j < k,
      (gsLoop lo conv A b n k x).2 = (fun v => gsSweep A b v n)^[j] x ∧
      gsMaxErr lo (gsLoop lo conv A b n k x).2 (gsSweep A b (gsLoop lo conv A b n k x).2 n) n < conv) ∨
    ((gsLoop lo conv A b n k x).1 = .err ∧
      (gsLoop lo conv A b n k x).2 = (fun v => gsSweep A b v n)^[k] x ∧
      ∀ j < k, ¬ gsMaxErr lo ((fun v => gsSweep A b v n)^[j] x)
        ((fun v => gsSweep A b v n)^[j + 1] x) n < conv) := by
  induction k generalizing x with
  | zero => exact Or.inr ⟨rfl, rfl, fun j hj => by omega⟩
  | succ k ih =>
    unfold gsLoop
    simp only []
    by_cases hc : gsMaxErr lo x (gsSweep A b x n) n < conv
    · rw [if_pos hc]
      exact Or.inl ⟨rfl, 0, by omega, rfl, hc⟩
    · rw [if_neg hc]
      rcases ih (gsSweep A b x n) with ⟨h1, j, hj, h2, h3⟩ | ⟨h1, h2, h3⟩
      · exact Or.inl ⟨h1, j + 1, by omega, by rw [h2]; rfl, h3⟩
      · refine Or.inr ⟨h1, by rw [h2]; rfl, fun j hj => ?_⟩
        cases j with
        | zero => exact hc
        | succ j => exact h3 j (by omega)

/-- Success: the returned vector is an iterate obtained with fewer than `max_iter` sweeps, and one
more sweep would move each of its components by less than the tolerance.  Otherwise exactly
`max_iter` sweeps were done, none of which met the tolerance.

Missing: values that are not numbers, with which convergence is claimed (`C12_violated_nan`). -/
theorem C12_result_partial {n : ℕ} {A b x : GMatrix K} {M : Matrix (Fin n) (Fin n) K}
    {B X : Matrix (Fin n) (Fin 1) K} (hA : Rep A M) (hb : Rep b B) (hx : Rep x X) (lo conv : K)
    (maxIter : ℕ) :
    (∃ k < maxIter, gaussSeidel lo A b x maxIter conv
        = (.ok (), ⟨n, 1, (fun v => gsSweep A b.data v n)^[k] x.data⟩) ∧
      ∀ i < n, |((fun v => gsSweep A b.data v n)^[k] x.data).getD i 0
        - ((fun v => gsSweep A b.data v n)^[k + 1] x.data).getD i 0| < conv) ∨
    (gaussSeidel lo A b x maxIter conv
        = (.err, ⟨n, 1, (fun v => gsSweep A b.data v n)^[maxIter] x.data⟩) ∧
      (lo < conv → ∀ k < maxIter, ∃ i < n,
        conv ≤ |((fun v => gsSweep A b.data v n)^[k] x.data).getD i 0
          - ((fun v => gsSweep A b.data v n)^[k + 1] x.data).getD i 0|)) := by
  unfold gaussSeidel
  rw [if_neg (by rw [hA.ncols, hA.nrows]; simp), if_neg (by rw [hA.ncols, hb.nrows]; simp),
    if_neg (by rw [hA.ncols, hx.nrows]; simp),
    if_neg (by rw [hx.length, hb.length, hA.nrows]; omega)]
  simp only []
  rw [hA.nrows, hx.nrows, hx.ncols]
  rcases loop_spec lo conv A b.data n maxIter x.data with ⟨h1, k, hk, h2, h3⟩ | ⟨h1, h2, h3⟩
  · left
    refine ⟨k, hk, by rw [h1, h2], fun i hi => ?_⟩
    have h4 := maxErr_ge lo _ _ n i hi |>.trans_lt h3
    rw [h2] at h4
    rw [Function.iterate_succ_apply']
    exact h4
  · right
    refine ⟨by rw [h1, h2], fun hlo k hk => ?_⟩
    by_contra hcon
    push Not at hcon
    exact h3 k hk (maxErr_lt lo conv _ _ n hlo hcon)

/-- Consequence for the user: on success, the residual of every equation is bounded by the
tolerance times the absolute sum of the lower part of its row. -/
theorem C12_residual {n : ℕ} {A b x : GMatrix K} {M : Matrix (Fin n) (Fin n) K}
    {B X : Matrix (Fin n) (Fin 1) K} (hA : Rep A M) (hb : Rep b B) (hx : Rep x X)
    (hd : ∀ i, M i i ≠ 0) (lo conv : K) (maxIter : ℕ) {x' : GMatrix K}
    (hrun : gaussSeidel lo A b x maxIter conv = (.ok (), x')) :
    ∃ v : Fin n → K, Rep x' (Matrix.of fun i (_ : Fin 1) => v i) ∧
      ∀ i, |B i 0 - (M.mulVec v) i| ≤ (∑ j ∈ Finset.univ.filter (· ≤ i), |M i j|) * conv := by
  have hcol : ∀ {C : GMatrix K} {P : Matrix (Fin n) (Fin 1) K}, Rep C P →
      C.data = List.ofFn (fun i => P i 0) := by
    intro C P hC
    apply List.ext_getElem?
    intro k
    by_cases hk : k < n
    · have := hC.getElem ⟨k, hk⟩ 0
      simp only [Fin.val_zero, Nat.add_zero, Nat.one_mul] at this
      rw [this]; simp [hk]
    · rw [List.getElem?_eq_none (by rw [hC.length]; omega), List.getElem?_eq_none (by simp; omega)]
  rcases C12_result_partial hA hb hx lo conv maxIter with ⟨k, _, h1, h2⟩ | ⟨h1, _⟩
  · rw [hrun] at h1
    simp only [Prod.mk.injEq, true_and] at h1
    -- every iterate is a vector of `n` components
    have hit : ∀ k, ∃ v : Fin n → K, (fun v => gsSweep A b.data v n)^[k] x.data = List.ofFn v := by
      intro k
      induction k with
      | zero => exact ⟨_, hcol hx⟩
      | succ k ih =>
        obtain ⟨v, hv⟩ := ih
        rw [Function.iterate_succ_apply', hv, hcol hb]
        obtain ⟨y, hy, _⟩ := C12_sweep hA (fun i => B i 0) v hd
        exact ⟨y, hy⟩
    obtain ⟨v, hv⟩ := hit k
    obtain ⟨y, hy, hsw⟩ := C12_sweep hA (fun i => B i 0) v hd
    refine ⟨v, ?_, fun i => ?_⟩
    · subst h1
      refine Rep.of_getElem rfl rfl (by rw [hv]; simp) fun i j => ?_
      have : j = 0 := Subsingleton.elim _ _
      subst this
      simp [hv]
    · have hclose : ∀ j : Fin n, |y j - v j| ≤ conv := by
        intro j
        have := h2 j j.2
        rw [Function.iterate_succ_apply', hv, hcol hb, hy, getD_ofFn, getD_ofFn] at this
        rw [abs_sub_comm]
        exact le_of_lt this
      have hdiff : B i 0 - (M.mulVec v) i
          = ∑ j ∈ Finset.univ.filter (· ≤ i), M i j * (y j - v j) := by
        have hi := hsw i
        simp only [] at hi
        rw [← hi, Finset.sum_filter]
        simp only [Matrix.mulVec, dotProduct]
        rw [← Finset.sum_sub_distrib]
        apply Finset.sum_congr rfl
        intro j _
        split_ifs <;> ring
      rw [hdiff, Finset.sum_mul]
      refine le_trans (Finset.abs_sum_le_sum_abs _ _) (Finset.sum_le_sum fun j _ => ?_)
      rw [abs_mul]
      exact mul_le_mul_of_nonneg_left (hclose j) (abs_nonneg _)
  · rw [hrun] at h1
    simp only [Prod.mk.injEq] at h1
    exact absurd h1.1 (by simp)

omit [IsStrictOrderedRing K] in
/-- A sweep starting at an exact solution stays there. -/
theorem C12_fixed_point {n : ℕ} {A : GMatrix K} {M : Matrix (Fin n) (Fin n) K} (hA : Rep A M)
    (hd : ∀ i, M i i ≠ 0) (b x : Fin n → K) (hsol : M.mulVec x = b) :
    gsSweep A (List.ofFn b) (List.ofFn x) n = List.ofFn x := by
  obtain ⟨y, hy, hsw⟩ := C12_sweep hA b x hd
  rw [hy]
  congr 1
  -- by strong induction on the component
  funext i
  obtain ⟨i, hi⟩ := i
  induction i using Nat.strong_induction_on with
  | _ i ih =>
    have h1 := hsw ⟨i, hi⟩
    have h2 := congrFun hsol ⟨i, hi⟩
    simp only [Matrix.mulVec, dotProduct] at h2
    rw [← h2, ← sub_eq_zero, ← Finset.sum_sub_distrib, Finset.sum_eq_single ⟨i, hi⟩] at h1
    · rw [if_pos (le_refl _), ← mul_sub] at h1
      rcases mul_eq_zero.1 h1 with h | h
      · exact absurd h (hd _)
      · exact sub_eq_zero.1 h
    · intro j _ hj
      obtain ⟨j, hjn⟩ := j
      split_ifs with hle
      · have : j < i := lt_of_le_of_ne hle (fun he => hj (Fin.ext he))
        rw [ih j this hjn, sub_self]
      · rw [sub_self]
    · intro h; exact absurd (Finset.mem_univ _) h

/-- An exact solution is accepted at once and returned unchanged. -/
theorem C12_exact_accepted {n : ℕ} {A b x : GMatrix K} {M : Matrix (Fin n) (Fin n) K}
    (hA : Rep A M) (hd : ∀ i, M i i ≠ 0) {B X : Matrix (Fin n) (Fin 1) K} (hb : Rep b B)
    (hx : Rep x X) (hsol : M * X = B) {lo conv : K} (hlo : lo < conv) (hconv : 0 < conv)
    {maxIter : ℕ} (hit : 0 < maxIter) :
    gaussSeidel lo A b x maxIter conv = (.ok (), x) := by
  have hcol : ∀ {C : GMatrix K} {P : Matrix (Fin n) (Fin 1) K}, Rep C P →
      C.data = List.ofFn (fun i => P i 0) := by
    intro C P hC
    apply List.ext_getElem?
    intro k
    by_cases hk : k < n
    · have := hC.getElem ⟨k, hk⟩ 0
      simp only [Fin.val_zero, Nat.add_zero, Nat.one_mul] at this
      rw [this]; simp [hk]
    · rw [List.getElem?_eq_none (by rw [hC.length]; omega), List.getElem?_eq_none (by simp; omega)]
  have hfix : gsSweep A b.data x.data n = x.data := by
    rw [hcol hb, hcol hx]
    apply C12_fixed_point hA hd
    funext i
    rw [← hsol, Matrix.mul_apply]; rfl
  unfold gaussSeidel
  rw [if_neg (by rw [hA.ncols, hA.nrows]; simp), if_neg (by rw [hA.ncols, hb.nrows]; simp),
    if_neg (by rw [hA.ncols, hx.nrows]; simp),
    if_neg (by rw [hx.length, hb.length, hA.nrows]; omega)]
  simp only []
  rw [hA.nrows]
  obtain ⟨m, rfl⟩ : ∃ m, maxIter = m + 1 := ⟨maxIter - 1, by omega⟩
  unfold gsLoop
  simp only []
  rw [hfix, if_pos]
  exact maxErr_lt lo conv _ _ n hlo fun i _ => by simpa using hconv

omit [IsStrictOrderedRing K] in
/-- Dimension mismatches are errors and leave `x` unchanged. -/
theorem C12_mismatch (A b x : GMatrix K) (lo conv : K) (maxIter : ℕ)
    (h : A.ncols ≠ A.nrows ∨ A.ncols ≠ b.nrows ∨ A.ncols ≠ x.nrows) :
    gaussSeidel lo A b x maxIter conv = (.err, x) := by
  unfold gaussSeidel
  by_cases h1 : A.ncols ≠ A.nrows
  · rw [if_pos h1]
  · rw [if_neg h1]
    by_cases h2 : A.ncols ≠ b.nrows
    · rw [if_pos h2]
    · rw [if_neg h2, if_pos (by tauto)]

/-- Finding: with a zero in the diagonal the iteration can produce NaN; every comparison with it is
false, so the recorded error stays at `-Float::MAX` and convergence is reported.  Here the starting
guess `(0, 1)` is returned as a solution of `[0 1; 1 0] x = (1, 5)`, whose second equation it misses
by 5. -/
theorem C12_violated_nan :
    gaussSeidel (XF.fin (-1000000)) ⟨2, 2, [.fin 0, .fin 1, .fin 1, .fin 0]⟩
      ⟨2, 1, [.fin 1, .fin 5]⟩ ⟨2, 1, [.fin 0, .fin 1]⟩ 10 (.fin (1 / 1000))
      = (.ok (), ⟨2, 1, [.fin 0, .fin 1]⟩) := by
  decide +kernel

/-- A concrete convergent run. -/
example : gaussSeidel (-1000 : ℚ) ⟨2, 2, [2, 1, 1, 3]⟩ ⟨2, 1, [3, 4]⟩ ⟨2, 1, [1, 1]⟩ 5 (1 / 100)
    = (.ok (), ⟨2, 1, [1, 1]⟩) := by decide +kernel

end Simple.Matrix
