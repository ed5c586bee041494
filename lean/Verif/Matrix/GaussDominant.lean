import Verif.Matrix.GaussLemmas

/-! # Diagonally dominant systems never make the elimination fail -/

set_option linter.unusedSectionVars false

namespace Simple.Matrix
open Spec

variable {K : Type*} [Field K] [LinearOrder K] [IsStrictOrderedRing K]

/-- Row `r` is dominated by its diagonal by a margin `δ`, looking at columns from `c` on. -/
def Dom (n : ℕ) (δ : K) (A : GMatrix K) (c r : ℕ) : Prop :=
  ∑ k ∈ (Finset.Ico c n).erase r, |A.e r k| + δ ≤ |A.e r r|

theorem Dom.mono {n : ℕ} {δ : K} {A : GMatrix K} {c r : ℕ} (h : Dom n δ A c r) :
    Dom n δ A (c + 1) r := by
  unfold Dom at *
  have : ∑ k ∈ (Finset.Ico (c + 1) n).erase r, |A.e r k| ≤ ∑ k ∈ (Finset.Ico c n).erase r, |A.e r k| := by
    apply Finset.sum_le_sum_of_subset_of_nonneg
    · intro k hk
      simp only [Finset.mem_erase, Finset.mem_Ico] at hk ⊢
      exact ⟨hk.1, by omega⟩
    · intro k _ _; exact abs_nonneg _
  linarith

theorem Dom.congr {n : ℕ} {δ : K} {A A' : GMatrix K} {c r : ℕ} (hr : r < n) (h : Dom n δ A c r)
    (he : ∀ k < n, A'.e r k = A.e r k) : Dom n δ A' c r := by
  unfold Dom at *
  rw [he r hr, Finset.sum_congr rfl (g := fun k => |A.e r k|)]
  · exact h
  · intro k hk
    simp only [Finset.mem_erase, Finset.mem_Ico] at hk
    rw [he k hk.2.2]

theorem Dom.step {n c r : ℕ} {δ : K} {A A' : GMatrix K} (hcr : c < r) (hr : r < n)
    (h : Dom n δ A c r) (hrow : ∑ k ∈ Finset.Ico (c + 1) n, |A.e c k| ≤ 1)
    (he : ∀ k < n, c < k → A'.e r k = A.e r k + (-A.e r c) * A.e c k) : Dom n δ A' (c + 1) r := by
  unfold Dom at *
  have hsplit : ∑ k ∈ (Finset.Ico c n).erase r, |A.e r k|
      = |A.e r c| + ∑ k ∈ (Finset.Ico (c + 1) n).erase r, |A.e r k| := by
    have : (Finset.Ico c n).erase r = insert c ((Finset.Ico (c + 1) n).erase r) := by
      ext k; simp only [Finset.mem_erase, Finset.mem_Ico, Finset.mem_insert]; omega
    rw [this, Finset.sum_insert]
    simp
  have hrow2 : |A.e c r| + ∑ k ∈ (Finset.Ico (c + 1) n).erase r, |A.e c k| ≤ 1 := by
    rw [Finset.add_sum_erase _ (fun k => |A.e c k|) (Finset.mem_Ico.2 ⟨hcr, hr⟩)]
    exact hrow
  have h1 : ∑ k ∈ (Finset.Ico (c + 1) n).erase r, |A'.e r k|
      ≤ ∑ k ∈ (Finset.Ico (c + 1) n).erase r, |A.e r k|
        + |A.e r c| * ∑ k ∈ (Finset.Ico (c + 1) n).erase r, |A.e c k| := by
    rw [Finset.mul_sum, ← Finset.sum_add_distrib]
    apply Finset.sum_le_sum
    intro k hk
    simp only [Finset.mem_erase, Finset.mem_Ico] at hk
    rw [he k hk.2.2 (by omega)]
    calc |A.e r k + -A.e r c * A.e c k| ≤ |A.e r k| + |-A.e r c * A.e c k| := abs_add_le _ _
      _ = |A.e r k| + |A.e r c| * |A.e c k| := by rw [abs_mul, abs_neg]
  have h2 : |A.e r r| ≤ |A'.e r r| + |A.e r c| * |A.e c r| := by
    rw [he r hr hcr]
    calc |A.e r r| = |(A.e r r + -A.e r c * A.e c r) - (-A.e r c * A.e c r)| := by ring_nf
      _ ≤ |A.e r r + -A.e r c * A.e c r| + |-A.e r c * A.e c r| := abs_sub _ _
      _ = _ := by rw [abs_mul (-A.e r c), abs_neg]
  have h3 : |A.e r c| * (|A.e c r| + ∑ k ∈ (Finset.Ico (c + 1) n).erase r, |A.e c k|) ≤ |A.e r c| :=
    mul_le_of_le_one_right (abs_nonneg _) hrow2
  rw [mul_add] at h3
  rw [hsplit] at h
  linarith

theorem elimDown_dom {n m s c : ℕ} {tiny δ : K} (hc : c < n) (k r : ℕ) (hr : c < r)
    (st st' : GState K) (hA : WF st.A n n) (hb : WF st.b n m)
    (hup : ∀ i < n, ∀ j < n, i + s < j → st.A.e i j = 0)
    (hrow : ∑ k ∈ Finset.Ico (c + 1) n, |st.A.e c k| ≤ 1)
    (hd1 : ∀ i, c < i → i < r → i < n → Dom n δ st.A (c + 1) i)
    (hd2 : ∀ i, r ≤ i → i < n → Dom n δ st.A c i)
    (hrun : elimDown tiny s c k r st = .ok st') :
    (∀ i < n, ∀ j < n, i + s < j → st'.A.e i j = 0) ∧
    ∀ i, c < i → i < n → Dom n δ st'.A (c + 1) i := by
  induction k generalizing r st with
  | zero =>
    obtain rfl : st = st' := Outcome.ok.inj hrun
    refine ⟨hup, fun i h1 h2 => ?_⟩
    rcases Nat.lt_or_ge i r with h3 | h3
    · exact hd1 i h1 h3 h2
    · exact (hd2 i h3 h2).mono
  | succ k ih =>
    unfold elimDown at hrun
    by_cases hrn : r < n
    · rw [hA.get hrn hc] at hrun
      simp only [] at hrun
      by_cases ht : |st.A.e r c| > tiny
      · rw [if_pos ht, if_pos (by rw [hb.nrows]; exact hrn)] at hrun
        have hne : c ≠ r := by omega
        have a1 := auxAdd_spec c r hc hne (-st.A.e r c) (s + 1) c st.A hA (le_of_lt hc)
        have a2 := auxAdd_spec c r hc hne (-st.A.e r c) st.b.ncols 0 st.b hb (Nat.zero_le _)
        simp only [addRows] at hrun
        set A' := auxAdd st.A c r (-st.A.e r c) (s + 1) c
        set b' := auxAdd st.b c r (-st.A.e r c) st.b.ncols 0
        have ho : ∀ i < n, i ≠ r → ∀ j < n, A'.e i j = st.A.e i j := by
          intro i hi hir j hj
          rw [a1.2 i hi j hj, if_neg (by tauto)]
        refine ih (r + 1) (by omega) ⟨A', b', st.skipped⟩ a1.1 a2.1 ?_ ?_ ?_ ?_ hrun
        · intro i hi j hj hij
          simp only []
          rw [a1.2 i hi j hj]
          split_ifs with hx
          · rw [hup i hi j hj hij, hup c hc j hj (by omega)]; ring
          · exact hup i hi j hj hij
        · simp only []
          rw [Finset.sum_congr rfl (g := fun k => |st.A.e c k|)]
          · exact hrow
          · intro j hj
            rw [ho c hc hne j (Finset.mem_Ico.1 hj).2]
        · intro i h1 h2 h3
          by_cases hir : i = r
          · subst hir
            refine Dom.step (A := st.A) h1 h3 (hd2 i (le_refl _) h3) hrow ?_
            intro j hj hcj
            simp only []
            rw [a1.2 i h3 j hj]
            by_cases hx : c ≤ j ∧ j < c + (s + 1)
            · rw [if_pos ⟨rfl, hx⟩]
            · rw [if_neg (by tauto), hup c hc j hj (by omega)]; ring
          · exact (hd1 i h1 (by omega) h3).congr h3 (ho i h3 hir)
        · intro i h1 h2
          exact (hd2 i (by omega) h2).congr h2 (ho i h2 (by omega))
      · rw [if_neg ht] at hrun
        refine ih (r + 1) (by omega) ⟨st.A, st.b, st.skipped || decide (st.A.e r c ≠ 0)⟩ hA hb hup hrow ?_ ?_ hrun
        · intro i h1 h2 h3
          rcases Nat.lt_or_ge i r with h4 | h4
          · exact hd1 i h1 h4 h3
          · exact (hd2 i h4 h3).mono
        · intro i h1 h2
          exact hd2 i (by omega) h2
    · rw [hA.get_err hrn] at hrun
      obtain rfl : st = st' := Outcome.ok.inj hrun
      refine ⟨hup, fun i h1 h2 => hd1 i h1 (by omega) h2⟩

theorem down_dom {n m s : ℕ} {tiny δ : K} (hδ : 0 < δ) (hδt : tiny ≤ δ) (k c : ℕ) (hk : c + k = n)
    (st : GState K) (hA : WF st.A n n) (hb : WF st.b n m)
    (hup : ∀ i < n, ∀ j < n, i + s < j → st.A.e i j = 0)
    (hd : ∀ i, c ≤ i → i < n → Dom n δ st.A c i) : down tiny s k c st ≠ .err := by
  induction k generalizing c st with
  | zero => unfold down; exact fun h => by cases h
  | succ k ih =>
    have hc : c < n := by omega
    unfold down
    rw [hA.get hc hc]
    simp only []
    have hdc := hd c (le_refl _) hc
    have hpiv : δ ≤ |st.A.e c c| := by
      unfold Dom at hdc
      have : 0 ≤ ∑ k ∈ (Finset.Ico c n).erase c, |st.A.e c k| :=
        Finset.sum_nonneg fun _ _ => abs_nonneg _
      linarith
    rw [if_neg (by linarith), if_pos (by rw [hb.nrows]; exact hc)]
    have a1 := auxScale_spec c (1 / st.A.e c c) (s + 1) c st.A hA (le_of_lt hc)
    have a2 := auxScale_spec c (1 / st.A.e c c) st.b.ncols 0 st.b hb (Nat.zero_le _)
    set sr := scaleRow s st.A st.b c (1 / st.A.e c c) with hsr
    have a1' : WF sr.1 n n := a1.1
    have a2' : WF sr.2 n m := a2.1
    have he : ∀ i < n, ∀ j < n, sr.1.e i j =
      if i = c ∧ c ≤ j ∧ j < c + (s + 1) then st.A.e i j * (1 / st.A.e c c) else st.A.e i j := a1.2
    by_cases hl : c = sr.1.ncols - 1
    · rw [if_pos hl]; exact fun h => by cases h
    · rw [if_neg hl]
      obtain ⟨st1, h1, h2, h3, _⟩ := elimDown_ok (tiny := tiny) (s := s) hc s (c + 1) (by omega)
        ⟨sr.1, sr.2, st.skipped⟩ a1' a2'
      rw [h1]
      simp only []
      have hp0 : 0 < |st.A.e c c| := lt_of_lt_of_le hδ hpiv
      have hrow : ∑ k ∈ Finset.Ico (c + 1) n, |sr.1.e c k| ≤ 1 := by
        have e1 : ∑ k ∈ Finset.Ico (c + 1) n, |sr.1.e c k|
            = (∑ k ∈ Finset.Ico (c + 1) n, |st.A.e c k|) / |st.A.e c c| := by
          rw [Finset.sum_div]
          apply Finset.sum_congr rfl
          intro j hj
          have hj' := Finset.mem_Ico.1 hj
          rw [he c hc j hj'.2]
          by_cases hx : c ≤ j ∧ j < c + (s + 1)
          · rw [if_pos ⟨rfl, hx⟩, abs_mul, abs_div, abs_one]; ring
          · rw [if_neg (by tauto), hup c hc j hj'.2 (by omega)]; simp
        rw [e1, div_le_one hp0]
        unfold Dom at hdc
        have : (Finset.Ico c n).erase c = Finset.Ico (c + 1) n := by
          ext k; simp only [Finset.mem_erase, Finset.mem_Ico]; omega
        rw [this] at hdc
        linarith
      have ho : ∀ i < n, i ≠ c → ∀ j < n, sr.1.e i j = st.A.e i j := by
        intro i hi hic j hj
        rw [he i hi j hj, if_neg (by tauto)]
      obtain ⟨f1, f2⟩ := elimDown_dom (δ := δ) hc s (c + 1) (by omega) ⟨sr.1, sr.2, st.skipped⟩ st1
        a1' a2' (fun i hi j hj hij => by
          simp only []
          rw [he i hi j hj, hup i hi j hj hij]; simp) hrow
        (fun i _ _ _ => by omega)
        (fun i h4 h5 => (hd i (by omega) h5).congr h5 (ho i h5 (by omega))) h1
      exact ih (c + 1) (by omega) st1 h2 h3 f1 (fun i h4 h5 => f2 i (by omega) h5)

end Simple.Matrix
