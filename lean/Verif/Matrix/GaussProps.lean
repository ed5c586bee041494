import Verif.Matrix.GaussDominant
import Verif.Matrix.NDiagProps

/-!
# Property C11: banded Gaussian elimination solves the system
-/

set_option linter.unusedSectionVars false

namespace Simple.Matrix
open Spec

variable {K : Type*} [Field K] [LinearOrder K] [IsStrictOrderedRing K]

private theorem band_e {n w : ℕ} {A : GMatrix K} {M : Matrix (Fin n) (Fin n) K} (hA : Rep A M)
    (hband : Banded ((w - 1) / 2) M) :
    ∀ r < n, ∀ k < n, (r + (w - 1) / 2 < k ∨ k + (w - 1) / 2 < r) → A.e r k = 0 := by
  intro r hr k hk h
  have := rep_e hA ⟨r, hr⟩ ⟨k, hk⟩
  simp only [] at this
  rw [this]
  exact hband ⟨r, hr⟩ ⟨k, hk⟩ h

private theorem sol_iff {n m : ℕ} {A b : GMatrix K} {M : Matrix (Fin n) (Fin n) K}
    {B : Matrix (Fin n) (Fin m) K} (hA : Rep A M) (hb : Rep b B) (Y : Matrix (Fin n) (Fin m) K) :
    M * Y = B ↔ Sol n m A b (fun r q => if h : r < n ∧ q < m then Y ⟨r, h.1⟩ ⟨q, h.2⟩ else 0) := by
  have key : ∀ (i : Fin n) (q : Fin m), ∑ k ∈ Finset.range n, A.e i k *
      (if h : k < n ∧ q.val < m then Y ⟨k, h.1⟩ ⟨q.val, h.2⟩ else 0) = (M * Y) i q := by
    intro i q
    rw [Matrix.mul_apply, Finset.sum_range]
    apply Finset.sum_congr rfl
    intro k _
    rw [rep_e hA i k, dif_pos ⟨k.2, q.2⟩]
  constructor
  · intro h r hr q hq
    have h1 := key ⟨r, hr⟩ ⟨q, hq⟩
    simp only [] at h1
    rw [h1, h]
    exact (rep_e hb ⟨r, hr⟩ ⟨q, hq⟩).symm
  · intro h
    ext i q
    rw [← key i q, ← rep_e hb i q]
    exact h i i.2 q q.2

/-- When the elimination succeeds on a banded square matrix (without discarding a non-zero entry as
negligible, see `GState.skipped`), what it leaves in `b` is the one and only solution of the
system, and the matrix has been reduced to the identity. -/
theorem C11_solves {n m w : ℕ} {tiny : K} (ht : 0 < tiny) (hw : 0 < w) {A b : GMatrix K}
    {M : Matrix (Fin n) (Fin n) K} {B : Matrix (Fin n) (Fin m) K} (hA : Rep A M) (hb : Rep b B)
    (hband : Banded ((w - 1) / 2) M) {st : GState K}
    (hrun : mutNDiagGaussian tiny A b w = .ok st) (hs : st.skipped = false) :
    ∃ X : Matrix (Fin n) (Fin m) K, Rep st.b X ∧ M * X = B ∧ ∀ Y, M * Y = B → Y = X := by
  obtain ⟨h1, _, h3⟩ := gaussian_spec ht hw A b (WF.of_rep hA) (WF.of_rep hb) (band_e hA hband) st hrun hs
  refine ⟨_, h1.rep, ?_, ?_⟩
  · rw [sol_iff hA hb, h3]
    intro r hr q hq
    simp [hr, hq]
  · intro Y hY
    rw [sol_iff hA hb, h3] at hY
    ext i j
    have := hY i i.2 j j.2
    rw [dif_pos ⟨i.2, j.2⟩] at this
    exact this

/-- The non-mutating version returns that solution. -/
theorem C11_solves_copy {n m w : ℕ} {tiny : K} (ht : 0 < tiny) (hw : 0 < w) {A b x : GMatrix K}
    {M : Matrix (Fin n) (Fin n) K} {B : Matrix (Fin n) (Fin m) K} (hA : Rep A M) (hb : Rep b B)
    (hband : Banded ((w - 1) / 2) M) (hrun : nDiagGaussian tiny A b w = .ok (x, false)) :
    ∃ X : Matrix (Fin n) (Fin m) K, Rep x X ∧ M * X = B ∧ ∀ Y, M * Y = B → Y = X := by
  unfold nDiagGaussian at hrun
  cases hr : mutNDiagGaussian tiny A b w with
  | ok st =>
    rw [hr] at hrun
    have h := Outcome.ok.inj hrun
    simp only [Prod.mk.injEq] at h
    obtain ⟨rfl, h2⟩ := h
    exact C11_solves ht hw hA hb hband hr h2
  | err => rw [hr] at hrun; cases hrun
  | panic => rw [hr] at hrun; cases hrun

/-- On a square system it never panics. -/
theorem C11_no_panic {n m w : ℕ} {tiny : K} (hw : 0 < w) {A b : GMatrix K}
    {M : Matrix (Fin n) (Fin n) K} {B : Matrix (Fin n) (Fin m) K} (hA : Rep A M) (hb : Rep b B) :
    mutNDiagGaussian tiny A b w ≠ .panic := by
  unfold mutNDiagGaussian
  rw [if_neg (by omega)]
  simp only []
  rw [hA.ncols]
  rcases down_ok (tiny := tiny) (s := (w - 1) / 2) n 0 (by omega) ⟨A, b, false⟩ (WF.of_rep hA)
    (WF.of_rep hb) with h | ⟨st, h, _⟩
  · rw [h]; exact fun h => by cases h
  · rw [h]; exact fun h => by cases h

/-- A matrix without a solution, or with several, makes it fail: success implies that the
system is regular. -/
theorem C11_singular_fails {n m w : ℕ} {tiny : K} (ht : 0 < tiny) (hw : 0 < w) {A b : GMatrix K}
    {M : Matrix (Fin n) (Fin n) K} {B : Matrix (Fin n) (Fin m) K} (hA : Rep A M) (hb : Rep b B)
    (hband : Banded ((w - 1) / 2) M) (hns : ¬ ∃! X : Matrix (Fin n) (Fin m) K, M * X = B) :
    mutNDiagGaussian tiny A b w = .err ∨
      ∃ st, mutNDiagGaussian tiny A b w = .ok st ∧ st.skipped = true := by
  cases hr : mutNDiagGaussian tiny A b w with
  | ok st =>
    right
    refine ⟨st, rfl, ?_⟩
    by_contra hs
    obtain ⟨X, _, h2, h3⟩ := C11_solves ht hw hA hb hband hr (by simpa using hs)
    exact hns ⟨X, h2, fun Y hY => h3 Y hY⟩
  | err => exact Or.inl rfl
  | panic => exact absurd hr (C11_no_panic hw hA hb)

/-- It never fails on a matrix whose diagonal dominates every row by a margin not smaller than
the threshold (such as the matrices of implicit heat conduction). -/
theorem C11_dominant_succeeds {n m w : ℕ} {tiny δ : K} (hδ : 0 < δ) (hδt : tiny ≤ δ) (hw : 0 < w)
    {A b : GMatrix K} {M : Matrix (Fin n) (Fin n) K} {B : Matrix (Fin n) (Fin m) K}
    (hA : Rep A M) (hb : Rep b B) (hband : Banded ((w - 1) / 2) M)
    (hdom : ∀ i, ∑ j ∈ Finset.univ.erase i, |M i j| + δ ≤ |M i i|) :
    ∃ st, mutNDiagGaussian tiny A b w = .ok st := by
  cases hr : mutNDiagGaussian tiny A b w with
  | ok st => exact ⟨st, rfl⟩
  | panic => exact absurd hr (C11_no_panic hw hA hb)
  | err =>
    exfalso
    unfold mutNDiagGaussian at hr
    rw [if_neg (by omega)] at hr
    simp only [] at hr
    rw [hA.ncols] at hr
    have hne := down_dom (tiny := tiny) (s := (w - 1) / 2) hδ hδt n 0 (by omega) ⟨A, b, false⟩
      (WF.of_rep hA) (WF.of_rep hb)
      (fun i hi j hj hij => band_e hA hband i hi j hj (Or.inl hij)) (fun i _ hi => by
        unfold Dom
        simp only []
        have h1 := hdom ⟨i, hi⟩
        rw [← rep_e hA ⟨i, hi⟩ ⟨i, hi⟩] at h1
        simp only [] at h1
        convert h1 using 2
        rw [Finset.sum_erase_eq_sub (Finset.mem_univ _), Finset.sum_erase_eq_sub (Finset.mem_Ico.2 ⟨Nat.zero_le _, hi⟩),
          ← rep_e hA ⟨i, hi⟩ ⟨i, hi⟩]
        congr 1
        rw [Nat.Ico_zero_eq_range, Finset.sum_range]
        exact Finset.sum_congr rfl fun j _ => by rw [← rep_e hA ⟨i, hi⟩ j])
    cases hd : down tiny ((w - 1) / 2) n 0 ⟨A, b, false⟩ with
    | ok st => rw [hd] at hr; cases hr
    | err => exact hne hd
    | panic => rw [hd] at hr; cases hr

/-! ### The compact matrix -/

private theorem fillDense_spec {N n : ℕ} {D : NDiag N K} {M : Matrix (Fin n) (Fin n) K}
    (hD : NDiag.Rep D M) (l : List (ℕ × ℕ)) (hl : ∀ p ∈ l, p.1 < n ∧ p.2 < n) (A : GMatrix K)
    {P : Matrix (Fin n) (Fin n) K} (hA : Rep A P) :
    ∃ A', fillDense D l A = .ok A' ∧
      Rep A' (Matrix.of fun i j => if (i.val, j.val) ∈ l then M i j else P i j) := by
  induction l generalizing A P with
  | nil => exact ⟨A, rfl, by simp; exact hA⟩
  | cons p l ih =>
    obtain ⟨r, c⟩ := p
    have hrc := hl (r, c) (List.mem_cons_self)
    simp only [] at hrc
    unfold fillDense
    have hg := hD.get ⟨r, hrc.1⟩ ⟨c, hrc.2⟩
    simp only [] at hg
    rw [hg]
    simp only []
    have hlt : A.ncols * r + c < A.data.length := by
      rw [hA.ncols, hA.length]; exact idx_lt hrc.1 hrc.2
    set A1 : GMatrix K := ⟨A.nrows, A.ncols, A.data.set (A.ncols * r + c) (M ⟨r, hrc.1⟩ ⟨c, hrc.2⟩)⟩ with hA1
    have hset : A.set r c (M ⟨r, hrc.1⟩ ⟨c, hrc.2⟩) = (.ok (M ⟨r, hrc.1⟩ ⟨c, hrc.2⟩), A1) := by
      unfold GMatrix.set GMatrix.update
      rw [if_pos ⟨by rw [hA.nrows]; exact hrc.1, by rw [hA.ncols]; exact hrc.2⟩, dif_pos hlt]
    rw [hset]
    simp only []
    have hA1r : Rep A1 (Matrix.of fun (i : Fin n) (j : Fin n) =>
        if i.val = r ∧ j.val = c then M i j else P i j) := by
      refine Rep.of_getElem hA.nrows hA.ncols (by simpa [hA1] using hA.length) fun i j => ?_
      simp only [hA1]
      rw [List.getElem?_set, hA.ncols]
      by_cases hx : i.val = r ∧ j.val = c
      · obtain ⟨rfl, rfl⟩ := hx
        rw [if_pos rfl, if_pos (by rw [hA.length]; exact idx_lt i.2 j.2)]
        simp
      · rw [if_neg, hA.getElem i j]
        · simp [hx]
        · intro he
          obtain ⟨a, b⟩ := idx_inj hrc.2 j.2 he
          exact hx ⟨a.symm, b.symm⟩
    obtain ⟨A', e1, e2⟩ := ih (fun p hp => hl p (List.mem_cons_of_mem _ hp)) A1 hA1r
    refine ⟨A', e1, ?_⟩
    have heq : (Matrix.of fun (i : Fin n) (j : Fin n) => if (i.val, j.val) ∈ l then M i j
        else (Matrix.of fun (i : Fin n) (j : Fin n) =>
          if i.val = r ∧ j.val = c then M i j else P i j) i j)
        = Matrix.of fun i j => if (i.val, j.val) ∈ (r, c) :: l then M i j else P i j := by
      ext i j
      simp only [Matrix.of_apply, List.mem_cons, Prod.mk.injEq]
      by_cases h1 : (i.val, j.val) ∈ l
      · simp [h1]
      · by_cases h2 : i.val = r ∧ j.val = c <;> simp [h1, h2]
    rw [← heq]
    exact e2

/-- The dense copy of a compact matrix stands for the same matrix. -/
theorem dense_ok {N n : ℕ} {D : NDiag N K} {M : Matrix (Fin n) (Fin n) K} (hD : NDiag.Rep D M) :
    ∃ A, fillDense D ((List.range D.nrows).flatMap fun r => (List.range D.ncols).map fun c => (r, c))
      (GMatrix.new 0 D.ncols D.nrows) = .ok A ∧ Rep A M := by
  have hnew : Rep (GMatrix.new (0 : K) D.ncols D.nrows) (fun _ _ => (0 : K) : Matrix (Fin n) (Fin n) K) := by
    rw [hD.ncols, hD.nrows]; exact new_rep 0 n n
  set coords := (List.range D.nrows).flatMap fun r => (List.range D.ncols).map fun c => (r, c) with hco
  have hmem : ∀ r c, (r, c) ∈ coords ↔ r < n ∧ c < n := by
    intro r c
    simp only [hco, List.mem_flatMap, List.mem_range, List.mem_map, Prod.mk.injEq, hD.nrows, hD.ncols]
    constructor
    · rintro ⟨a, ha, b, hb, rfl, rfl⟩; exact ⟨ha, hb⟩
    · rintro ⟨h1, h2⟩; exact ⟨r, h1, c, h2, rfl, rfl⟩
  obtain ⟨A, e1, e2⟩ := fillDense_spec hD coords (fun p hp => (hmem p.1 p.2).1 hp) _ hnew
  refine ⟨A, e1, ?_⟩
  have : (Matrix.of fun (i : Fin n) (j : Fin n) =>
      if (i.val, j.val) ∈ coords then M i j else (0 : K)) = M := by
    ext i j
    rw [Matrix.of_apply, if_pos ((hmem i j).2 ⟨i.2, j.2⟩)]
  rw [← this]; exact e2

/-- The solver of the compact n-diagonal matrix. -/
theorem C11_compact {N n : ℕ} (hN : N % 2 = 1) {tiny : K} (ht : 0 < tiny) {D : NDiag N K}
    {M : Matrix (Fin n) (Fin n) K} (hD : NDiag.Rep D M) (b : Fin n → K) {x : List K}
    (hrun : D.mutGaussian tiny (List.ofFn b) = .ok (x, false)) :
    ∃ v : Fin n → K, x = List.ofFn v ∧ M.mulVec v = b ∧ ∀ u, M.mulVec u = b → u = v := by
  unfold NDiag.mutGaussian at hrun
  simp only [] at hrun
  obtain ⟨A, e1, hA⟩ := dense_ok hD
  rw [e1] at hrun
  simp only [] at hrun
  have hband : Banded ((N - 1) / 2) M := by
    intro i j h
    have := (C10_read_outside D i.val j.val).1 (by rw [hD.nrows]; exact i.2) (by rw [hD.ncols]; exact j.2) (by omega)
    rw [hD.get i j] at this
    exact Outcome.ok.inj this
  have hb : Rep (⟨(List.ofFn b).length, 1, List.ofFn b⟩ : GMatrix K)
      (Matrix.of fun (i : Fin n) (_ : Fin 1) => b i) := by
    refine Rep.of_getElem (by simp) rfl (by simp) fun i j => ?_
    have : j = 0 := Subsingleton.elim _ _
    subst this
    simp
  cases hr : mutNDiagGaussian tiny A ⟨(List.ofFn b).length, 1, List.ofFn b⟩ N with
  | ok st =>
    rw [hr] at hrun
    have h := Outcome.ok.inj hrun
    simp only [Prod.mk.injEq] at h
    obtain ⟨rfl, h2⟩ := h
    obtain ⟨X, g1, g2, g3⟩ := C11_solves ht (by omega) hA hb hband hr h2
    refine ⟨fun i => X i 0, ?_, ?_, ?_⟩
    · apply List.ext_getElem?
      intro k
      by_cases hk : k < n
      · have := g1.getElem ⟨k, hk⟩ 0
        simp only [Fin.val_zero, Nat.add_zero, Nat.one_mul] at this
        rw [this]; simp [hk]
      · rw [List.getElem?_eq_none (by rw [g1.length]; omega), List.getElem?_eq_none (by simp; omega)]
    · ext i
      have := congrFun (congrFun g2 i) 0
      rw [Matrix.mul_apply] at this
      simpa [Matrix.mulVec, dotProduct] using this
    · intro u hu
      have := g3 (Matrix.of fun i (_ : Fin 1) => u i) (by
        ext i j
        rw [Matrix.mul_apply]
        have := congrFun hu i
        simpa [Matrix.mulVec, dotProduct] using this)
      ext i
      have := congrFun (congrFun this i) 0
      simpa using this
  | err => rw [hr] at hrun; cases hrun
  | panic => rw [hr] at hrun; cases hrun

/-- A concrete run: the hypotheses are met by a tri-diagonal system. -/
example : (match nDiagGaussian (1 / 10 ^ 26 : ℚ) ⟨3, 3, [2, 1, 0, 1, 2, 1, 0, 1, 2]⟩ ⟨3, 1, [3, 4, 3]⟩ 3 with
    | .ok (x, f) => (x.data, f)
    | _ => ([], true)) = ([1, 1, 1], false) := by
  decide +kernel

end Simple.Matrix
