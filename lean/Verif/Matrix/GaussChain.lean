import Mathlib.Tactic.FieldSimp
import Mathlib.Tactic.Linarith
import Mathlib.Tactic.Positivity
import Verif.Matrix.GaussProps

/-! # C11: the elimination succeeds on a chain of nodes -/

namespace Simple.Matrix

open Spec

set_option linter.unusedSectionVars false

variable {K : Type*} [Field K] [LinearOrder K] [IsStrictOrderedRing K]

namespace Spec

/-- A chain of `n` nodes, each tied to what is before it with strength `β` and to what is after it with
strength `α`: the two sides of a node agree with its neighbours, and all is larger than the smallest
number that counts, `tiny` — but for what is before the first node, that may be nothing. -/
structure Chain (tiny : K) (n : ℕ) (β α : ℕ → K) : Prop where
  link : ∀ i, i + 1 < n → β (i + 1) = α i
  before : ∀ i < n, 0 ≤ β i
  after : ∀ i < n, tiny ≤ α i
  strong : ∀ i, i + 1 < n → tiny < α i
  share : ∀ i, i + 1 < n → tiny * (β i + α i) < α i

/-- Its matrix. -/
def chainMatrix (n : ℕ) (β α : ℕ → K) : Matrix (Fin n) (Fin n) K := fun i j =>
  if i.val = j.val then -(β i + α i)
  else if j.val = i.val + 1 then α i
  else if i.val = j.val + 1 then α j
  else 0

end Spec

private theorem down_chain {n m : ℕ} {tiny : K} (ht : 0 < tiny) {β α : ℕ → K} (h : Chain tiny n β α)
    (k c : ℕ) (hk : c + k = n) (γ : K) (hγ : 0 ≤ γ) (hγ' : c < n → γ ≤ β c) (st : GState K)
    (hA : WF st.A n n) (hb : WF st.b n m) (hcc : c < n → st.A.e c c = -(γ + α c))
    (hdiag : ∀ i, c < i → i < n → st.A.e i i = -(β i + α i))
    (hup : ∀ i, c ≤ i → i + 1 < n → st.A.e i (i + 1) = α i)
    (hlow : ∀ i, c ≤ i → i + 1 < n → st.A.e (i + 1) i = α i)
    (hdone : ∀ i < c, i + 1 < n → tiny < |st.A.e i (i + 1)|) (hs : st.skipped = false) :
    ∃ st', down tiny 1 k c st = .ok st' ∧ WF st'.A n n ∧ WF st'.b n m ∧ st'.skipped = false ∧
      ∀ i, i + 1 < n → tiny < |st'.A.e i (i + 1)| := by
  induction k generalizing c γ st with
  | zero => exact ⟨st, rfl, hA, hb, hs, fun i hi => hdone i (by omega) hi⟩
  | succ k ih =>
    have hc : c < n := by omega
    have hα : 0 < α c := lt_of_lt_of_le ht (h.after c hc)
    have hp : 0 < γ + α c := by linarith
    have hpiv : |st.A.e c c| = γ + α c := by rw [hcc hc, abs_neg, abs_of_pos hp]
    unfold down
    rw [hA.get hc hc]
    simp only []
    rw [if_neg (by rw [hpiv]; have := h.after c hc; linarith), if_pos (by rw [hb.nrows]; exact hc)]
    obtain ⟨w1, e1⟩ := auxScale_spec c (1 / st.A.e c c) 2 c st.A hA (le_of_lt hc)
    obtain ⟨w2, -⟩ := auxScale_spec c (1 / st.A.e c c) st.b.ncols 0 st.b hb (Nat.zero_le _)
    set A1 := auxScale st.A c (1 / st.A.e c c) (1 + 1) c with hA1
    set b1 := auxScale st.b c (1 / st.A.e c c) st.b.ncols 0 with hb1
    have hsr : scaleRow 1 st.A st.b c (1 / st.A.e c c) = (A1, b1) := rfl
    rw [hsr]
    simp only []
    by_cases hlast : c = A1.ncols - 1
    · rw [if_pos hlast]
      rw [w1.ncols] at hlast
      refine ⟨_, rfl, w1, w2, hs, fun i hi => ?_⟩
      show tiny < |A1.e i (i + 1)|
      rw [e1 i (by omega) (i + 1) hi, if_neg (by omega)]
      exact hdone i (by omega) hi
    · rw [if_neg hlast]
      rw [w1.ncols] at hlast
      have hc1 : c + 1 < n := by omega
      have hlc : A1.e (c + 1) c = α c := by
        rw [e1 (c + 1) hc1 c hc, if_neg (by omega)]
        exact hlow c le_rfl hc1
      unfold elimDown
      simp only []
      rw [w1.get hc1 hc]
      simp only []
      rw [hlc, abs_of_pos hα, if_pos (h.strong c hc1), if_pos (by rw [w2.nrows]; exact hc1)]
      obtain ⟨w3, e3⟩ := auxAdd_spec c (c + 1) hc (by omega) (-α c) 2 c A1 w1 (le_of_lt hc)
      obtain ⟨w4, -⟩ := auxAdd_spec c (c + 1) hc (by omega) (-α c) b1.ncols 0 b1 w2 (Nat.zero_le _)
      simp only [addRows, elimDown]
      have hcu : A1.e c (c + 1) = -(α c / (γ + α c)) := by
        rw [e1 c hc (c + 1) hc1, if_pos (by omega), hup c le_rfl hc1, hcc hc]
        field_simp
      refine ih (c + 1) (by omega) (α c * γ / (γ + α c)) (by positivity) (fun _ => ?_) _ w3 w4
        (fun _ => ?_) (fun i h1 h2 => ?_) (fun i h1 h2 => ?_) (fun i h1 h2 => ?_) (fun i h1 h2 => ?_) hs
      · rw [h.link c hc1, div_le_iff₀ hp]
        nlinarith
      · show (auxAdd A1 c (c + 1) (-α c) 2 c).e (c + 1) (c + 1) = _
        rw [e3 (c + 1) hc1 (c + 1) hc1, if_pos (by omega), hcu, e1 (c + 1) hc1 (c + 1) hc1, if_neg (by omega),
          hdiag (c + 1) (by omega) hc1, h.link c hc1]
        field_simp
        ring
      · show (auxAdd A1 c (c + 1) (-α c) 2 c).e i i = _
        rw [e3 i h2 i h2, if_neg (by omega), e1 i h2 i h2, if_neg (by omega)]
        exact hdiag i (by omega) h2
      · show (auxAdd A1 c (c + 1) (-α c) 2 c).e i (i + 1) = _
        rw [e3 i (by omega) (i + 1) h2, if_neg (by omega), e1 i (by omega) (i + 1) h2, if_neg (by omega)]
        exact hup i (by omega) h2
      · show (auxAdd A1 c (c + 1) (-α c) 2 c).e (i + 1) i = _
        rw [e3 (i + 1) h2 i (by omega), if_neg (by omega), e1 (i + 1) h2 i (by omega), if_neg (by omega)]
        exact hlow i (by omega) h2
      · show tiny < |(auxAdd A1 c (c + 1) (-α c) 2 c).e i (i + 1)|
        rw [e3 i (by omega) (i + 1) h2, if_neg (by omega)]
        by_cases hic : i = c
        · subst hic
          rw [hcu, abs_neg, abs_of_pos (by positivity), lt_div_iff₀ hp]
          refine lt_of_le_of_lt ?_ (h.share i hc1)
          have := hγ' hc
          exact mul_le_mul_of_nonneg_left (by linarith) ht.le
        · rw [e1 i (by omega) (i + 1) h2, if_neg (by omega)]
          exact hdone i (by omega) h2

private theorem up_chain {n m : ℕ} {tiny : K} (k : ℕ) (hk : k < n) (st : GState K)
    (hA : WF st.A n n) (hb : WF st.b n m) (hs : st.skipped = false)
    (hup : ∀ i < k, tiny < |st.A.e i (i + 1)|) :
    (up tiny 1 k st).skipped = false := by
  induction k generalizing st with
  | zero => exact hs
  | succ k ih =>
    unfold up
    simp only []
    have e : (if k + 1 < 1 then 0 else k + 1 - 1) = k := by rw [if_neg (by omega)]; omega
    rw [e, show k + 1 - k = 1 by omega]
    unfold elimUp
    simp only [Nat.add_zero]
    rw [hA.get (by omega : k < n) hk]
    simp only []
    rw [if_pos (hup k (by omega))]
    simp only [addRows, elimUp]
    obtain ⟨w3, e3⟩ := auxAdd_spec (k + 1) k hk (by omega) (-st.A.e k (k + 1)) 2 (k + 1) st.A hA (le_of_lt hk)
    obtain ⟨w4, -⟩ := auxAdd_spec (k + 1) k hk (by omega) (-st.A.e k (k + 1)) st.b.ncols 0 st.b hb
      (Nat.zero_le _)
    refine ih (by omega) _ w3 w4 hs fun i hi => ?_
    show tiny < |(auxAdd st.A (k + 1) k (-st.A.e k (k + 1)) 2 (k + 1)).e i (i + 1)|
    rw [e3 i (by omega) (i + 1) (by omega), if_neg (by omega)]
    exact hup i (by omega)

/-- C11: solving a chain always succeeds, and nothing is left out of the elimination. -/
theorem C11_chain_succeeds {n : ℕ} {tiny : K} (ht : 0 < tiny) (hn : 0 < n) {β α : ℕ → K}
    (h : Chain tiny n β α) {D : NDiag 3 K} (hD : NDiag.Rep D (chainMatrix n β α)) (b : Fin n → K) :
    ∃ v : Fin n → K, D.mutGaussian tiny (List.ofFn b) = .ok (List.ofFn v, false) ∧
      (chainMatrix n β α).mulVec v = b ∧ ∀ u, (chainMatrix n β α).mulVec u = b → u = v := by
  have hrun : ∃ x, D.mutGaussian tiny (List.ofFn b) = .ok (x, false) := by
    obtain ⟨A, e1, hA⟩ := dense_ok hD
    unfold NDiag.mutGaussian
    simp only []
    rw [e1]
    simp only []
    have hwA : WF A n n := WF.of_rep hA
    have hwb : WF (⟨(List.ofFn b).length, 1, List.ofFn b⟩ : GMatrix K) n 1 := ⟨by simp, rfl, by simp⟩
    have he : ∀ i j (hi : i < n) (hj : j < n), A.e i j = chainMatrix n β α ⟨i, hi⟩ ⟨j, hj⟩ :=
      fun i j hi hj => rep_e hA ⟨i, hi⟩ ⟨j, hj⟩
    have hd : ∀ i, i < n → A.e i i = -(β i + α i) := fun i hi => by
      rw [he i i hi hi]; simp [chainMatrix]
    have hu : ∀ i, i + 1 < n → A.e i (i + 1) = α i := fun i hi => by
      rw [he i (i + 1) (by omega) hi]; simp [chainMatrix]
    have hl : ∀ i, i + 1 < n → A.e (i + 1) i = α i := fun i hi => by
      rw [he (i + 1) i hi (by omega)]; simp [chainMatrix, show ¬ i = i + 1 + 1 by omega]
    obtain ⟨st, r1, w1, w2, s1, u1⟩ := down_chain ht h n 0 (by omega) (β 0) (h.before 0 hn) (fun _ => le_rfl)
      ⟨A, ⟨(List.ofFn b).length, 1, List.ofFn b⟩, false⟩ hwA hwb (fun h0 => hd 0 h0)
      (fun i _ hi => hd i hi) (fun i _ hi => hu i hi) (fun i _ hi => hl i hi)
      (fun i hi => absurd hi (by omega)) rfl
    unfold mutNDiagGaussian
    rw [if_neg (by omega)]
    simp only []
    rw [show (3 - 1) / 2 = 1 from rfl, hwA.ncols, r1]
    simp only []
    have := up_chain (tiny := tiny) (n - 1) (by omega) st w1 w2 s1 (fun i hi => u1 i (by omega))
    exact ⟨_, by rw [this]⟩
  obtain ⟨x, hx⟩ := hrun
  obtain ⟨v, rfl, h2, h3⟩ := C11_compact (by norm_num) ht hD b hx
  exact ⟨v, hx, h2, h3⟩

/-- A wall of three nodes between two films of air. -/
example : Chain (1 / 1000 : ℚ) 3 (fun i => if i = 0 then 10 else 2) (fun i => if i = 2 then 5 else 2) := by
  constructor <;> intro i hi
  · simp; omega
  · split_ifs <;> norm_num
  · split_ifs <;> norm_num
  · split_ifs <;> norm_num
  · split_ifs <;> norm_num

end Simple.Matrix
