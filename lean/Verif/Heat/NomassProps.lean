import Mathlib.Algebra.Order.BigOperators.Group.Finset
import Mathlib.Algebra.BigOperators.Intervals
import Mathlib.Tactic.GCongr
import Verif.Heat.NomassModel
import Verif.Heat.MarchProps
import Verif.Matrix.GaussChain

/-! # C85: nodes without mass go to where heat balances -/

namespace Simple.Heat

open Simple.Matrix Spec

set_option linter.unusedSectionVars false

variable {F : Type*} [Field F] [LinearOrder F] [IsStrictOrderedRing F]

/-! ## Specification -/

namespace Spec

/-- The wall, at other temperatures. -/
def Wall.at (w : Wall F) (T : ℕ → F) : Wall F := { w with T := T }

/-- Radiative conductance from node `g` to what it sees. -/
def Wall.radiative (w : Wall F) (g : ℕ) : F :=
  (if g = 0 then w.frontRad else 0) + (if g + 1 = w.N then w.backRad else 0)

/-- Conductance from node `g` to the air. -/
def Wall.film (w : Wall F) (g : ℕ) : F :=
  (if g = 0 then w.frontHs else 0) + (if g + 1 = w.N then w.backHs else 0)

/-- The conductances of the chunk of `n` nodes from `ini` on are of a normal size: not so small that the
solver takes them for nothing, nor so different that one is nothing beside another. -/
structure Wall.Regular (w : Wall F) (tiny : F) (ini n : ℕ) : Prop where
  before : 0 ≤ w.before ini
  after : tiny ≤ w.after (ini + n - 1)
  inside : ∀ g, ini ≤ g → g + 1 < ini + n → tiny < w.U g
  frontRad : 0 ≤ w.frontRad
  backRad : 0 ≤ w.backRad
  share : ∀ g, ini ≤ g → g + 1 < ini + n → tiny * (w.before g + w.after g + w.radiative g) < w.U g

end Spec

theorem radiative_nonneg {w : Wall F} {tiny : F} {ini n : ℕ} (h : w.Regular tiny ini n) (g : ℕ) :
    0 ≤ w.radiative g := by
  unfold Wall.radiative
  apply add_nonneg
  · split_ifs
    · exact h.frontRad
    · exact le_rfl
  · split_ifs
    · exact h.backRad
    · exact le_rfl

/-! ## Chains -/

theorem K_eq_chain (w : Wall F) (ini n : ℕ) (hn : ini + n ≤ w.N) :
    w.K ini n = chainMatrix n (fun i => w.before (ini + i)) (fun i => w.after (ini + i)) := by
  funext i j
  have hi := i.2
  have hj := j.2
  unfold Wall.K chainMatrix
  by_cases e : i.val = j.val
  · rw [if_pos e, if_pos e]
  · rw [if_neg e, if_neg e]
    by_cases e2 : j.val = i.val + 1
    · rw [if_pos e2, if_pos e2]
      simp only [Wall.after]
      rw [if_neg (by omega)]
    · rw [if_neg e2, if_neg e2]
      by_cases e3 : i.val = j.val + 1
      · rw [if_pos e3, if_pos e3]
        simp only [Wall.after]
        rw [if_neg (by omega)]
      · rw [if_neg e3, if_neg e3]

theorem regular_chain {w : Wall F} {tiny : F} (ht : 0 < tiny) {ini n : ℕ} (hn : ini + n ≤ w.N)
    (h : w.Regular tiny ini n) :
    Chain tiny n (fun i => w.before (ini + i)) (fun i => w.after (ini + i)) := by
  have hafter : ∀ i, i + 1 < n → w.after (ini + i) = w.U (ini + i) := fun i hi => by
    unfold Wall.after
    rw [if_neg (by omega)]
  have hbefore : ∀ i, w.before (ini + (i + 1)) = w.U (ini + i) := fun i => by
    unfold Wall.before
    rw [if_neg (by omega), show ini + (i + 1) - 1 = ini + i by omega]
  have hU : ∀ i, i + 1 < n → tiny < w.U (ini + i) := fun i hi => h.inside _ (by omega) (by omega)
  refine ⟨fun i hi => ?_, fun i hi => ?_, fun i hi => ?_, fun i hi => ?_, fun i hi => ?_⟩
  · rw [hbefore, hafter i hi]
  · rcases i with _ | i
    · exact h.before
    · show 0 ≤ w.before (ini + (i + 1))
      rw [hbefore]
      exact (ht.trans (hU i (by omega))).le
  · by_cases hl : i + 1 < n
    · show tiny ≤ w.after (ini + i)
      rw [hafter i hl]
      exact (hU i hl).le
    · have := h.after
      rwa [show ini + n - 1 = ini + i by omega] at this
  · show tiny < w.after (ini + i)
    rw [hafter i hi]
    exact hU i hi
  · show tiny * (w.before (ini + i) + w.after (ini + i)) < w.after (ini + i)
    have h1 := h.share (ini + i) (by omega) (by omega)
    have h2 := radiative_nonneg h (ini + i)
    rw [hafter i hi] at h1 ⊢
    nlinarith

/-- A row of the matrix of a chain: what flows in from the two sides, beyond the ends of which all is
zero. -/
theorem chain_row {n : ℕ} {tiny : F} {β α : ℕ → F} (h : Chain tiny n β α) (g : Fin n → F) (i : Fin n) :
    (chainMatrix n β α).mulVec g i =
      β i * ((if h : 1 ≤ i.val then g ⟨i.val - 1, by omega⟩ else 0) - g i) +
      α i * ((if h : i.val + 1 < n then g ⟨i.val + 1, h⟩ else 0) - g i) := by
  unfold Matrix.mulVec dotProduct
  rw [sum_neighbours (fun j => chainMatrix n β α i j * g j) i (by
    intro j e1 e2 e3
    simp only [chainMatrix]
    rw [if_neg (fun h => e1 h.symm), if_neg e2, if_neg e3, zero_mul])]
  have hi := i.2
  have e0 : chainMatrix n β α i i = -(β i + α i) := by simp [chainMatrix]
  have e1 : ∀ h, chainMatrix n β α i ⟨i.val + 1, h⟩ = α i := fun h => by simp [chainMatrix]
  have e2 : ∀ h, 1 ≤ i.val → chainMatrix n β α i ⟨i.val - 1, h⟩ = β i := fun h' h1 => by
    have := h.link (i.val - 1) (by omega)
    rw [show i.val - 1 + 1 = i.val by omega] at this
    simp only [chainMatrix]
    rw [if_neg (by omega), if_neg (by omega), if_pos (by omega), this]
  rw [e0]
  by_cases c1 : 1 ≤ i.val
  · rw [dif_pos c1, dif_pos c1, e2 _ c1]
    by_cases c2 : i.val + 1 < n
    · rw [dif_pos c2, dif_pos c2, e1]; ring
    · rw [dif_neg c2, dif_neg c2]; ring
  · rw [dif_neg c1, dif_neg c1]
    by_cases c2 : i.val + 1 < n
    · rw [dif_pos c2, dif_pos c2, e1]; ring
    · rw [dif_neg c2, dif_neg c2]; ring

/-- Where heat is put in only at node `j`, a chain is nowhere negative, and it is at its largest there. -/
theorem chain_extremes {n : ℕ} {tiny : F} (ht : 0 < tiny) {β α : ℕ → F} (h : Chain tiny n β α)
    (j : Fin n) (ρ : F) (hρ : 0 ≤ ρ) (g : Fin n → F)
    (hg : (chainMatrix n β α).mulVec g = -Pi.single j ρ) :
    (∀ i, 0 ≤ g i) ∧ (∀ i, g i ≤ g j) := by
  have hrow := fun i => (chain_row h g i).symm.trans (congrFun hg i)
  have : Nonempty (Fin n) := ⟨j⟩
  have nonneg : ∀ i, 0 ≤ g i := by
    obtain ⟨i0, hi0⟩ := Finite.exists_min g
    by_contra hneg
    push Not at hneg
    obtain ⟨i1, hi1⟩ := hneg
    have hm : g i0 < 0 := lt_of_le_of_lt (hi0 i1) hi1
    obtain ⟨i, hi, hmax⟩ := Finset.exists_max_image (Finset.univ.filter fun i => g i = g i0) Fin.val
      ⟨i0, by simp⟩
    rw [Finset.mem_filter] at hi
    have hgi := hi.2
    have r := hrow i
    rw [Pi.neg_apply] at r
    have hs : 0 ≤ (Pi.single j ρ : Fin n → F) i := by
      by_cases e : i = j
      · subst e; rw [Pi.single_eq_same]; exact hρ
      · rw [Pi.single_eq_of_ne e]
    have t1 : 0 ≤ β i * ((if h : 1 ≤ i.val then g ⟨i.val - 1, by omega⟩ else 0) - g i) := by
      apply mul_nonneg (h.before i i.2)
      split_ifs with c
      · have := hi0 ⟨i.val - 1, by omega⟩
        linarith
      · linarith
    have t2 : 0 < α i * ((if h : i.val + 1 < n then g ⟨i.val + 1, h⟩ else 0) - g i) := by
      apply mul_pos (lt_of_lt_of_le ht (h.after i i.2))
      split_ifs with c
      · have h1 := hi0 ⟨i.val + 1, c⟩
        have h2 : g ⟨i.val + 1, c⟩ ≠ g i0 := fun e => by
          have := hmax ⟨i.val + 1, c⟩ (by simp [e])
          simp at this
        have := lt_of_le_of_ne h1 (Ne.symm h2)
        linarith
      · linarith
    linarith
  refine ⟨nonneg, ?_⟩
  obtain ⟨i0, hi0⟩ := Finite.exists_max g
  by_contra hneg
  push Not at hneg
  obtain ⟨i1, hi1⟩ := hneg
  have hm : g j < g i0 := lt_of_lt_of_le hi1 (hi0 i1)
  have hm0 : 0 < g i0 := lt_of_le_of_lt (nonneg j) hm
  obtain ⟨i, hi, hmax⟩ := Finset.exists_max_image (Finset.univ.filter fun i => g i = g i0) Fin.val
    ⟨i0, by simp⟩
  rw [Finset.mem_filter] at hi
  have hgi := hi.2
  have r := hrow i
  have hij : i ≠ j := fun e => by rw [e] at hgi; linarith
  rw [Pi.neg_apply, Pi.single_eq_of_ne hij, neg_zero] at r
  have t1 : β i * ((if h : 1 ≤ i.val then g ⟨i.val - 1, by omega⟩ else 0) - g i) ≤ 0 := by
    apply mul_nonpos_of_nonneg_of_nonpos (h.before i i.2)
    split_ifs with c
    · have := hi0 ⟨i.val - 1, by omega⟩
      linarith
    · linarith
  have t2 : α i * ((if h : i.val + 1 < n then g ⟨i.val + 1, h⟩ else 0) - g i) < 0 := by
    apply mul_neg_of_pos_of_neg (lt_of_lt_of_le ht (h.after i i.2))
    split_ifs with c
    · have h1 := hi0 ⟨i.val + 1, c⟩
      have h2 : g ⟨i.val + 1, c⟩ ≠ g i0 := fun e => by
        have := hmax ⟨i.val + 1, c⟩ (by simp [e])
        simp at this
      have := lt_of_le_of_ne h1 h2
      linarith
    · linarith
  linarith

/-- What leaves through the ends at a node is at most what is put in there. -/
theorem chain_ends {n : ℕ} {tiny : F} (ht : 0 < tiny) {β α : ℕ → F} (h : Chain tiny n β α)
    (j : Fin n) (ρ : F) (hρ : 0 ≤ ρ) (g : Fin n → F)
    (hg : (chainMatrix n β α).mulVec g = -Pi.single j ρ) :
    ((if j.val = 0 then β 0 else 0) + (if j.val + 1 = n then α j else 0)) * g j ≤ ρ := by
  obtain ⟨h0, h1⟩ := chain_extremes ht h j ρ hρ g hg
  have r := (chain_row h g j).symm.trans (congrFun hg j)
  rw [Pi.neg_apply, Pi.single_eq_same] at r
  have hj := j.2
  have t1 : β j * ((if h : 1 ≤ j.val then g ⟨j.val - 1, by omega⟩ else 0) - g j)
      ≤ -((if j.val = 0 then β 0 else 0) * g j) := by
    by_cases c : 1 ≤ j.val
    · rw [dif_pos c, if_neg (by omega), zero_mul, neg_zero]
      exact mul_nonpos_of_nonneg_of_nonpos (h.before j j.2) (by have := h1 ⟨j.val - 1, by omega⟩; linarith)
    · rw [dif_neg c, if_pos (by omega), show j.val = 0 by omega]
      linarith
  have t2 : α j * ((if h : j.val + 1 < n then g ⟨j.val + 1, h⟩ else 0) - g j)
      ≤ -((if j.val + 1 = n then α j else 0) * g j) := by
    by_cases c : j.val + 1 < n
    · rw [dif_pos c, if_neg (by omega), zero_mul, neg_zero]
      exact mul_nonpos_of_nonneg_of_nonpos (le_trans ht.le (h.after j j.2))
        (by have := h1 ⟨j.val + 1, c⟩; linarith)
    · rw [dif_neg c, if_pos (by omega)]
      linarith
  linarith

/-- A chain has a solution, and only one. -/
theorem chain_unit {n : ℕ} {tiny : F} (ht : 0 < tiny) {β α : ℕ → F} (h : Chain tiny n β α) :
    IsUnit (chainMatrix n β α) := by
  rw [← Matrix.mulVec_injective_iff_isUnit]
  have key : ∀ z : Fin n → F, (chainMatrix n β α).mulVec z = 0 → ∀ i, 0 ≤ z i := fun z hz i =>
    (chain_extremes ht h i 0 le_rfl z (by rw [hz]; simp)).1 i
  intro u v e
  have e1 : (chainMatrix n β α).mulVec (u - v) = 0 := by
    rw [Matrix.mulVec_sub, sub_eq_zero]; exact e
  have e2 : (chainMatrix n β α).mulVec (v - u) = 0 := by
    rw [Matrix.mulVec_sub, sub_eq_zero]; exact e.symm
  funext i
  have a := key _ e1 i
  have b := key _ e2 i
  simp only [Pi.sub_apply] at a b
  linarith

/-- Heat put in at each node in proportion `ρ` to a disturbance `d`, where `ρ` is small next to what
leaves the chain there: taking it away leaves at most one and a half times the disturbance. -/
theorem chain_contracts {n : ℕ} {tiny : F} (ht : 0 < tiny) {β α : ℕ → F} (h : Chain tiny n β α)
    (ρ : Fin n → F) (hρ : ∀ j, 0 ≤ ρ j)
    (h1 : ∀ j : Fin n, 2 * n * ρ j ≤ 5 * ((if j.val = 0 then β 0 else 0) + (if j.val + 1 = n then α j else 0)))
    (h2 : ∀ j : Fin n, 2 * ((n : F) - 2) * ρ j ≤
      ((if j.val = 0 then β 0 else 0) + (if j.val + 1 = n then α j else 0)))
    (d y : Fin n → F) (hy : (chainMatrix n β α).mulVec y = fun i => -(ρ i * d i)) :
    ∑ i, |d i - y i| ≤ 3 / 2 * ∑ i, |d i| := by
  have hu := chain_unit ht h
  have hsur := Matrix.mulVec_surjective_iff_isUnit.2 hu
  have hinj := Matrix.mulVec_injective_iff_isUnit.2 hu
  choose g hg using fun j : Fin n => hsur (-Pi.single j (ρ j))
  have hyg : y = ∑ j, d j • g j := by
    apply hinj
    rw [hy, Matrix.mulVec_sum]
    funext i
    rw [Finset.sum_apply]
    simp only [Matrix.mulVec_smul, hg, Pi.smul_apply, Pi.neg_apply, smul_eq_mul, mul_neg,
      Finset.sum_neg_distrib, neg_inj]
    rw [Finset.sum_eq_single i]
    · rw [Pi.single_eq_same, mul_comm]
    · intro j _ hj
      rw [Pi.single_eq_of_ne (Ne.symm hj), mul_zero]
    · intro h; exact absurd (Finset.mem_univ _) h
  -- one disturbed node
  have col : ∀ j, ∑ i, |(Pi.single j 1 : Fin n → F) i - g j i| ≤ 3 / 2 := by
    intro j
    obtain ⟨p1, p2⟩ := chain_extremes ht h j (ρ j) (hρ j) (g j) (hg j)
    have p3 := chain_ends ht h j (ρ j) (hρ j) (g j) (hg j)
    set φ := (if j.val = 0 then β 0 else 0) + (if j.val + 1 = n then α j else 0) with hφ
    have hj := j.2
    have hφ0 : 0 ≤ φ := by
      apply add_nonneg
      · split_ifs with c
        · exact h.before 0 (by omega)
        · exact le_rfl
      · split_ifs with c
        · exact ht.le.trans (h.after j j.2)
        · exact le_rfl
    have hn1 : (1 : F) ≤ n := by exact_mod_cast (by omega : 1 ≤ n)
    have hgj := p1 j
    have b1 : 2 * n * g j j ≤ 5 ∧ 2 * ((n : F) - 2) * g j j ≤ 1 := by
      rcases hφ0.eq_or_lt with e | e
      · have hr : ρ j = 0 := by
          have : 2 * n * ρ j ≤ 5 * φ := h1 j
          rw [← e, mul_zero] at this
          have h3 : 0 ≤ 2 * n * ρ j := by have := hρ j; positivity
          have h4 : 2 * (n : F) * ρ j = 0 := le_antisymm this h3
          have h5 : (2 * (n : F)) ≠ 0 := by positivity
          exact (mul_eq_zero.1 h4).resolve_left h5
        have hz : g j = 0 := by
          apply hinj
          rw [hg j, hr, Matrix.mulVec_zero]
          simp
        rw [hz]
        simp
      · constructor
        · have a := h1 j
          have b : (2 * n * g j j) * φ ≤ 5 * φ := by
            calc (2 * n * g j j) * φ = 2 * n * (φ * g j j) := by ring
              _ ≤ 2 * n * ρ j := by gcongr
              _ ≤ 5 * φ := a
          exact le_of_mul_le_mul_right b e
        · by_cases h2n : (2 : F) ≤ n
          · have a := h2 j
            have b : (2 * ((n : F) - 2) * g j j) * φ ≤ 1 * φ := by
              calc (2 * ((n : F) - 2) * g j j) * φ = 2 * ((n : F) - 2) * (φ * g j j) := by ring
                _ ≤ 2 * ((n : F) - 2) * ρ j := by
                  apply mul_le_mul_of_nonneg_left p3
                  linarith
                _ ≤ 1 * φ := by rw [one_mul]; exact a
            exact le_of_mul_le_mul_right b e
          · have : 2 * ((n : F) - 2) * g j j ≤ 0 :=
              mul_nonpos_of_nonpos_of_nonneg (by linarith) hgj
            linarith
    have hsum : ∑ i, |(Pi.single j 1 : Fin n → F) i - g j i|
        ≤ |1 - g j j| + ((n : F) - 1) * g j j := by
      rw [← Finset.add_sum_erase _ _ (Finset.mem_univ j), Pi.single_eq_same]
      gcongr
      have : ∑ i ∈ Finset.univ.erase j, |(Pi.single j 1 : Fin n → F) i - g j i|
          ≤ ∑ i ∈ Finset.univ.erase j, g j j := by
        apply Finset.sum_le_sum
        intro i hi
        rw [Pi.single_eq_of_ne (Finset.ne_of_mem_erase hi), zero_sub, abs_neg, abs_of_nonneg (p1 i)]
        exact p2 i
      refine this.trans (le_of_eq ?_)
      rw [Finset.sum_const, Finset.card_erase_of_mem (Finset.mem_univ j), Finset.card_univ, Fintype.card_fin,
        nsmul_eq_mul, Nat.cast_sub (by omega), Nat.cast_one]
    refine hsum.trans ?_
    rcases le_total (g j j) 1 with c | c
    · rw [abs_of_nonneg (by linarith)]
      linarith [b1.2]
    · rw [abs_of_nonpos (by linarith)]
      linarith [b1.1]
  calc ∑ i, |d i - y i| = ∑ i, |∑ j, d j * ((Pi.single j 1 : Fin n → F) i - g j i)| := by
        refine Finset.sum_congr rfl fun i _ => ?_
        congr 1
        rw [hyg, Finset.sum_apply]
        simp only [Pi.smul_apply, smul_eq_mul, mul_sub, Finset.sum_sub_distrib]
        congr 1
        rw [Finset.sum_eq_single i]
        · rw [Pi.single_eq_same, mul_one]
        · intro j _ hj
          rw [Pi.single_eq_of_ne (Ne.symm hj), mul_zero]
        · intro h; exact absurd (Finset.mem_univ _) h
    _ ≤ ∑ i, ∑ j, |d j| * |(Pi.single j 1 : Fin n → F) i - g j i| := by
        refine Finset.sum_le_sum fun i _ => (Finset.abs_sum_le_sum_abs _ _).trans (le_of_eq ?_)
        exact Finset.sum_congr rfl fun j _ => abs_mul _ _
    _ = ∑ j, |d j| * ∑ i, |(Pi.single j 1 : Fin n → F) i - g j i| := by
        rw [Finset.sum_comm]
        exact Finset.sum_congr rfl fun j _ => (Finset.mul_sum _ _ _).symm
    _ ≤ ∑ j, |d j| * (3 / 2) := by
        refine Finset.sum_le_sum fun j _ => mul_le_mul_of_nonneg_left (col j) (abs_nonneg _)
    _ = 3 / 2 * ∑ i, |d i| := by rw [← Finset.sum_mul, mul_comm]

/-! ## The loops -/

theorem nomassErr_ok (temps globalT : List F) : ∀ (count a b : ℕ) (err : F),
    a + count ≤ temps.length → b + count ≤ globalT.length →
    nomassErr temps globalT count a b err
      = .ok (err + ∑ k ∈ Finset.range count, |temps.getD (a + k) 0 - globalT.getD (b + k) 0|)
  | 0, a, b, err, _, _ => by simp [nomassErr]
  | count + 1, a, b, err, h1, h2 => by
    have ha : a < temps.length := by omega
    have hb : b < globalT.length := by omega
    rw [nomassErr, Outcome.index_of_lt ha]
    simp only [Outcome.bind, getT, List.getElem?_eq_getElem hb, need]
    rw [nomassErr_ok temps globalT count (a + 1) (b + 1) _ (by omega) (by omega),
      Finset.sum_range_succ']
    congr 1
    simp only [List.getD_eq_getElem?_getD, List.getElem?_eq_getElem ha, List.getElem?_eq_getElem hb,
      Nat.add_zero, Option.getD_some]
    rw [add_assoc, add_comm (Finset.sum _ _)]
    congr 2
    refine Finset.sum_congr rfl fun k _ => ?_
    rw [show a + 1 + k = a + (k + 1) by omega, show b + 1 + k = b + (k + 1) by omega]

theorem halfway_ok (temps : List F) : ∀ (count a b : ℕ) (l : List F),
    a + count ≤ temps.length → b + count ≤ l.length →
    ∃ l', halfway temps count a b l = .ok l' ∧ l'.length = l.length ∧
      ∀ j : ℕ, l'.getD j 0 = if b ≤ j ∧ j < b + count then (l.getD j 0 + temps.getD (a + (j - b)) 0) * (1 / 2)
        else l.getD j 0
  | 0, a, b, l, _, _ => ⟨l, rfl, rfl, fun j => by rw [if_neg (by omega)]⟩
  | count + 1, a, b, l, h1, h2 => by
    have ha : a < temps.length := by omega
    have hb : b < l.length := by omega
    obtain ⟨l', e1, e2, e3⟩ := halfway_ok temps count (a + 1) (b + 1) (l.set b ((l[b] + temps[a]) * (1 / 2)))
      (by omega) (by simp; omega)
    refine ⟨l', ?_, by simpa using e2, fun j => ?_⟩
    · rw [halfway, Outcome.index_of_lt ha]
      simp only [Outcome.bind, getT, List.getElem?_eq_getElem hb, need]
      exact e1
    · rw [e3]
      by_cases c1 : b + 1 ≤ j ∧ j < b + 1 + count
      · rw [if_pos c1, if_pos (by omega), show a + 1 + (j - (b + 1)) = a + (j - b) by omega]
        simp only [List.getD_eq_getElem?_getD]
        rw [List.getElem?_set_ne (by omega)]
      · rw [if_neg c1]
        by_cases c2 : b = j
        · subst c2
          rw [if_pos (by omega)]
          simp [List.getD_eq_getElem?_getD, hb, ha]
        · rw [if_neg (by omega)]
          simp only [List.getD_eq_getElem?_getD]
          rw [List.getElem?_set_ne c2]

/-! ## A turn -/

namespace Spec

/-- The memory of a chunk of `n` nodes. -/
def Ready (n : ℕ) (mem : ChunkMemory F) : Prop :=
  (∃ M : Matrix (Fin n) (Fin n) F, NDiag.Rep mem.k M) ∧ mem.q.length = n

/-- Only the nodes of the chunk of `n` nodes from `ini` on are at other temperatures. -/
def SameOutside (ini n : ℕ) (T T' : ℕ → F) : Prop := ∀ g, g < ini ∨ ini + n ≤ g → T' g = T g

end Spec

/-- What a chunk receives at other temperatures: only the radiation changes. -/
theorem q_at (w : Wall F) (ini n : ℕ) (T : ℕ → F) (h : SameOutside ini n w.T T) (i : Fin n) :
    (w.at T).q ini n i = w.q ini n i + ((w.at T).radiation (ini + i) - w.radiation (ini + i)) := by
  have hi := i.2
  have e1 : (w.at T).tBefore ini = w.tBefore ini := by
    unfold Wall.tBefore
    by_cases c : ini = 0
    · rw [if_pos c, if_pos c]; rfl
    · rw [if_neg c, if_neg c]; exact h _ (by omega)
  have e2 : i.val + 1 = n → (w.at T).tAfter (ini + i) = w.tAfter (ini + i) := fun c' => by
    unfold Wall.tAfter
    by_cases c : ini + i.val + 1 = w.N
    · have c2 : ini + i.val + 1 = (w.at T).N := c
      rw [if_pos c, if_pos c2]; rfl
    · have c2 : ¬ ini + i.val + 1 = (w.at T).N := c
      rw [if_neg c, if_neg c2]; exact h _ (by omega)
  have e3 : (w.at T).before = w.before := rfl
  have e4 : (w.at T).after = w.after := rfl
  unfold Wall.q
  rw [e1, e3, e4]
  by_cases c : i.val + 1 = n
  · rw [if_pos c, if_pos c, e2 c]; ring
  · rw [if_neg c, if_neg c]; ring

/-- C85: a turn of the loop finds the temperatures `S` of the chunk at which the heat into each of its
nodes — from those next to it, from the air and from the sun — would balance, if the radiation did not
change. -/
theorem C85_turn (tiny : F) (ht : 0 < tiny) (w : Wall F) (cav : CavityU F)
    (segments : List (F × UValue F)) (temps : List F) (h : w.Held cav segments temps) (ini n : ℕ)
    (hn0 : 0 < n) (hn : ini + n ≤ w.N) (hr : w.Regular tiny ini n) (sun : ℕ → F)
    (mem : ChunkMemory F) (hm : Ready n mem) :
    ∃ (S : ℕ → F) (mem' : ChunkMemory F),
      nomassTurn tiny cav segments temps ((List.range w.N).map sun) w.front w.frontHs w.frontRad
          w.back w.backHs w.backRad ini (ini + n) mem
        = .ok ((List.range n).map fun i => S (ini + i), mem') ∧ Ready n mem' ∧
      SameOutside ini n w.T S ∧
      (∀ g, ini ≤ g → g < ini + n →
        (w.at S).heat g + sun g = (w.at S).radiation g - w.radiation g) ∧
      ∀ S' : ℕ → F, SameOutside ini n w.T S' → (∀ g, ini ≤ g → g < ini + n →
        (w.at S').heat g + sun g = (w.at S').radiation g - w.radiation g) → S' = S := by
  obtain ⟨⟨M0, hk⟩, hq⟩ := hm
  obtain ⟨k, h1, h2⟩ := C28_matrix w cav segments temps h ini n hn0 hn mem M0 hk hq
  rw [K_eq_chain w ini n hn] at h2
  have hc := regular_chain ht hn hr
  obtain ⟨l, s1, s2, s3⟩ := addSolar_ok ((List.range w.N).map sun) n 0 ini (List.ofFn (w.q ini n))
    (by simp) (by simpa using hn)
  have hl : l = List.ofFn fun i : Fin n => w.q ini n i + sun (ini + i) := by
    apply List.ext_getElem?
    intro j
    rw [s3]
    by_cases hj : j < n
    · rw [if_pos (by omega)]
      have : ini + j < w.N := by omega
      simp [hj, this]
    · rw [if_neg (by omega)]
      simp [hj]
  obtain ⟨v, g1, g2, g3⟩ := C11_chain_succeeds ht hn0 hc h2
    ((-1 : F) • fun i : Fin n => w.q ini n i + sun (ini + i))
  have link : ∀ S : ℕ → F, SameOutside ini n w.T S → ∀ i : Fin n,
      (chainMatrix n (fun i => w.before (ini + i)) (fun i => w.after (ini + i))).mulVec
          (fun j => S (ini + j)) i + w.q ini n i + ((w.at S).radiation (ini + i) - w.radiation (ini + i))
        = (w.at S).heat (ini + i) := by
    intro S hS i
    have := heat_eq (w.at S) ini n hn i
    rw [q_at w ini n S hS i] at this
    rw [← this, show (w.at S).K ini n = w.K ini n from rfl, K_eq_chain w ini n hn]
    show _ = Matrix.mulVec _ (fun j : Fin n => S (ini + j)) i + _
    ring
  let S : ℕ → F := fun g => if c : ini ≤ g ∧ g < ini + n then v ⟨g - ini, by omega⟩ else w.T g
  have hSo : SameOutside ini n w.T S := fun g hg => dif_neg (by omega)
  have hSi : ∀ i : Fin n, S (ini + i) = v i := fun i => by
    have hi := i.2
    show dite _ _ _ = _
    rw [dif_pos ⟨by omega, by omega⟩]
    congr 1
    apply Fin.ext
    simp
  have hSv : (fun j : Fin n => S (ini + j)) = v := funext hSi
  refine ⟨S, { mem with k := k, q := scaleList l (-1) }, ?_, ⟨⟨_, h2⟩, ?_⟩, hSo, ?_, ?_⟩
  · unfold nomassTurn
    rw [h1]
    simp only [Outcome.bind, Nat.add_sub_cancel_left]
    rw [s1]
    simp only
    rw [hl, scaleList_ofFn, g1]
    simp only
    congr 2
    rw [← hSv]
    apply List.ext_getElem?
    intro j
    by_cases hj : j < n
    · simp [hj]
    · simp [hj]
  · simp [scaleList, hl]
  · intro g hg1 hg2
    obtain ⟨i, rfl⟩ : ∃ i, g = ini + i := ⟨g - ini, by omega⟩
    have hi : i < n := by omega
    have := link S hSo ⟨i, hi⟩
    rw [hSv, g2] at this
    simp only [Pi.smul_apply, smul_eq_mul] at this
    linarith
  · intro S' hS' hb
    have : (fun j : Fin n => S' (ini + j)) = v := by
      apply g3
      funext i
      have a := link S' hS' i
      have b := hb (ini + i) (by omega) (by have := i.2; omega)
      simp only [Pi.smul_apply, smul_eq_mul]
      linarith
    funext g
    by_cases c : ini ≤ g ∧ g < ini + n
    · have := congrFun this ⟨g - ini, by omega⟩
      simp only [show ini + (g - ini) = g by omega] at this
      rw [this]
      show _ = dite _ _ _
      rw [dif_pos c]
    · rw [hS' g (by omega), hSo g (by omega)]

/-- Mean change of the temperatures of a chunk. -/
def Spec.meanChange (ini n : ℕ) (T S : ℕ → F) : F := (∑ i ∈ Finset.range n, |S (ini + i) - T (ini + i)|) / n

private theorem getD_map (f : ℕ → F) (N j : ℕ) (h : j < N) : ((List.range N).map f).getD j 0 = f j := by
  simp [List.getD_eq_getElem?_getD, h]

private theorem map_of_getD (l : List F) (f : ℕ → F) (N : ℕ) (hl : l.length = N)
    (h : ∀ j < N, l.getD j 0 = f j) : l = (List.range N).map f := by
  apply List.ext_getElem (by simp [hl])
  intro j h1 h2
  have := h j (by omega)
  rw [List.getD_eq_getElem?_getD, List.getElem?_eq_getElem h1] at this
  simpa using this

/-- A turn of the loop. -/
theorem loop_step (tiny : F) (ht : 0 < tiny) (w : Wall F) (cav : CavityU F)
    (segments : List (F × UValue F)) (temps : List F) (h : w.Held cav segments temps) (ini n : ℕ)
    (hn0 : 0 < n) (hn : ini + n ≤ w.N) (hr : w.Regular tiny ini n) (sun : ℕ → F)
    (mem : ChunkMemory F) (hm : Ready n mem) :
    ∃ (S : ℕ → F) (mem' : ChunkMemory F), Ready n mem' ∧ SameOutside ini n w.T S ∧
      (∀ g, ini ≤ g → g < ini + n →
        (w.at S).heat g + sun g = (w.at S).radiation g - w.radiation g) ∧
      (∀ S' : ℕ → F, SameOutside ini n w.T S' → (∀ g, ini ≤ g → g < ini + n →
        (w.at S').heat g + sun g = (w.at S').radiation g - w.radiation g) → S' = S) ∧
      ∀ left oldErr, nomassLoop tiny cav segments ((List.range w.N).map sun) w.front w.frontHs w.frontRad
          w.back w.backHs w.backRad ini (ini + n) left oldErr temps mem
        = if meanChange ini n w.T S > oldErr then .ok (temps, mem')
          else if meanChange ini n w.T S < allowedError (19001 - left) then
            .ok ((List.range w.N).map fun g => (w.T g + S g) * (1 / 2), mem')
          else match left with
            | 0 => .ok ((List.range w.N).map fun g => (w.T g + S g) * (1 / 2), mem')
            | left + 1 => nomassLoop tiny cav segments ((List.range w.N).map sun) w.front w.frontHs w.frontRad
                w.back w.backHs w.backRad ini (ini + n) left (meanChange ini n w.T S)
                ((List.range w.N).map fun g => (w.T g + S g) * (1 / 2)) mem' := by
  obtain ⟨S, mem', t1, t2, t3, t4, t5⟩ := C85_turn tiny ht w cav segments temps h ini n hn0 hn hr sun mem hm
  refine ⟨S, mem', t2, t3, t4, t5, fun left oldErr => ?_⟩
  have hlen : temps.length = w.N := by rw [h.temperatures]; simp
  rw [nomassLoop, t1]
  simp only [Outcome.bind, Nat.add_sub_cancel_left]
  rw [nomassErr_ok _ _ n 0 ini 0 (by simp) (by rw [hlen]; exact hn)]
  simp only [zero_add]
  have hmean : (∑ k ∈ Finset.range n, |((List.range n).map fun i => S (ini + i)).getD k 0
      - temps.getD (ini + k) 0|) / (n : F) = meanChange ini n w.T S := by
    unfold meanChange
    congr 1
    refine Finset.sum_congr rfl fun k hk => ?_
    have hk := Finset.mem_range.1 hk
    rw [getD_map _ _ _ hk, h.temperatures, getD_map _ _ _ (by omega)]
  rw [hmean]
  obtain ⟨l, e1, e2, e3⟩ := halfway_ok ((List.range n).map fun i => S (ini + i)) n 0 ini temps (by simp)
    (by rw [hlen]; exact hn)
  have hl : l = (List.range w.N).map fun g => (w.T g + S g) * (1 / 2) := by
    apply map_of_getD _ _ _ (e2.trans hlen)
    intro j hj
    rw [e3, h.temperatures, getD_map _ _ _ hj]
    by_cases c : ini ≤ j ∧ j < ini + n
    · rw [if_pos c, getD_map _ _ _ (by omega), show ini + (0 + (j - ini)) = j by omega]
    · rw [if_neg c, t3 j (by omega)]
      ring
  by_cases c1 : meanChange ini n w.T S > oldErr
  · rw [if_pos c1, if_pos c1]
  · rw [if_neg c1, if_neg c1, e1]
    simp only [hl]
    cases left <;> rfl

/-- C85: temperatures at which the heat balances remain, and the memory is ready for the next march. -/
theorem C85_remains (tiny : F) (ht : 0 < tiny) (w : Wall F) (cav : CavityU F)
    (segments : List (F × UValue F)) (temps : List F) (h : w.Held cav segments temps) (ini n : ℕ)
    (hn0 : 0 < n) (hn : ini + n ≤ w.N) (hr : w.Regular tiny ini n) (sun : ℕ → F)
    (mem : ChunkMemory F) (hm : Ready n mem)
    (hb : ∀ g, ini ≤ g → g < ini + n → w.heat g + sun g = 0) :
    ∃ mem' : ChunkMemory F, marchNomass tiny cav segments temps ((List.range w.N).map sun)
        w.front w.frontHs w.frontRad w.back w.backHs w.backRad ini (ini + n) mem = .ok (temps, mem') ∧
      Ready n mem' := by
  obtain ⟨S, mem', t2, -, -, t5, t6⟩ := loop_step tiny ht w cav segments temps h ini n hn0 hn hr sun mem hm
  have hS : w.T = S := t5 w.T (fun _ _ => rfl) fun g h1 h2 => by
    have e : w.at w.T = w := rfl
    rw [e, hb g h1 h2, sub_self]
  have hz : meanChange ini n w.T S = 0 := by
    rw [← hS]; simp [meanChange]
  refine ⟨mem', ?_, t2⟩
  unfold marchNomass
  rw [t6, hz, if_neg (by norm_num), if_pos (by rw [allowedError, if_pos (by norm_num)]; norm_num), ← hS,
    h.temperatures]
  congr 3
  funext g
  ring

namespace Spec

/-- The conductances are the same at all temperatures, as they are where there are no cavities. -/
def Wall.Constant (w : Wall F) (cav : CavityU F) (segments : List (F × UValue F)) : Prop :=
  ∀ (i : ℕ) (s : F × UValue F), i + 1 < w.N → segments[i]? = some s →
    ∀ a b, s.2.uValue cav a b = .ok (w.U i)

/-- The radiation from the nodes of the chunk is weak compared to their convection, the more so the more
nodes there are: up to 5/4 of it in a chunk of two nodes. -/
def Wall.MildRadiation (w : Wall F) (ini n : ℕ) : Prop :=
  ∀ g, ini ≤ g → g < ini + n →
    2 * n * w.radiative g ≤ 5 * w.film g ∧ 2 * ((n : F) - 2) * w.radiative g ≤ w.film g

/-- The heat into each node of the chunk, and from the sun, balances. -/
def Wall.Balanced (w : Wall F) (sun : ℕ → F) (ini n : ℕ) : Prop :=
  ∀ g, ini ≤ g → g < ini + n → w.heat g + sun g = 0

end Spec

theorem radiation_at (w : Wall F) (T T' : ℕ → F) (g : ℕ) :
    (w.at T').radiation g - (w.at T).radiation g = w.radiative g * (T g - T' g) := by
  unfold Wall.radiation Wall.radiative Wall.at
  simp only
  split_ifs <;> ring

/-- The matrix of the chunk, as what it says about the heat at two sets of temperatures that only differ in
the chunk. -/
theorem heat_diff (w : Wall F) (ini n : ℕ) (hn : ini + n ≤ w.N) (T S : ℕ → F)
    (h : SameOutside ini n T S) (i : Fin n) :
    (chainMatrix n (fun i => w.before (ini + i)) (fun i => w.after (ini + i))).mulVec
        (fun j => S (ini + j) - T (ini + j)) i
      = (w.at S).heat (ini + i) - (w.at T).heat (ini + i)
        + w.radiative (ini + i) * (S (ini + i) - T (ini + i)) := by
  have a := heat_eq (w.at S) ini n hn i
  have b := heat_eq (w.at T) ini n hn i
  have c := q_at (w.at T) ini n S h i
  rw [show (w.at T).at S = w.at S from rfl, radiation_at] at c
  rw [c, show (w.at S).K ini n = w.K ini n from rfl, K_eq_chain w ini n hn] at a
  rw [show (w.at T).K ini n = w.K ini n from rfl, K_eq_chain w ini n hn] at b
  have e : (fun j : Fin n => S (ini + j) - T (ini + j))
      = (fun j : Fin n => (w.at S).T (ini + j)) - fun j : Fin n => (w.at T).T (ini + j) := rfl
  rw [e, Matrix.mulVec_sub, Pi.sub_apply]
  linarith

/-- `S` is where a turn wants to take the temperatures `T`. -/
private def Aim (w : Wall F) (sun : ℕ → F) (ini n : ℕ) (T S : ℕ → F) : Prop :=
  SameOutside ini n T S ∧ ∀ g, ini ≤ g → g < ini + n →
    (w.at S).heat g + sun g = w.radiative g * (T g - S g)

private theorem film_le (w : Wall F) (tiny : F) (ht : 0 < tiny) (ini n : ℕ) (hn : ini + n ≤ w.N)
    (hr : w.Regular tiny ini n) (j : Fin n) :
    w.film (ini + j) ≤ (if j.val = 0 then w.before (ini + 0) else 0)
      + (if j.val + 1 = n then w.after (ini + j) else 0) := by
  have hj := j.2
  unfold Wall.film
  apply add_le_add
  · by_cases c : ini + j.val = 0
    · have : ini = 0 := by omega
      rw [if_pos c, if_pos (by omega)]
      unfold Wall.before
      rw [if_pos (by omega)]
    · rw [if_neg c]
      split_ifs
      · exact hr.before
      · exact le_rfl
  · by_cases c : ini + j.val + 1 = w.N
    · rw [if_pos c, if_pos (by omega)]
      unfold Wall.after
      rw [if_pos c]
    · rw [if_neg c]
      split_ifs with c2
      · have := hr.after
        rw [show ini + n - 1 = ini + j.val by omega] at this
        linarith
      · exact le_rfl

private theorem mild_contracts (w : Wall F) (tiny : F) (ht : 0 < tiny) (ini n : ℕ) (hn : ini + n ≤ w.N)
    (hr : w.Regular tiny ini n) (hm : w.MildRadiation ini n) (d y : Fin n → F)
    (hy : (chainMatrix n (fun i => w.before (ini + i)) (fun i => w.after (ini + i))).mulVec y
      = fun i : Fin n => -(w.radiative (ini + i) * d i)) :
    ∑ i, |d i - y i| ≤ 3 / 2 * ∑ i, |d i| := by
  refine chain_contracts ht (regular_chain ht hn hr) (fun i => w.radiative (ini + i))
    (fun j => radiative_nonneg hr _) (fun j => ?_) (fun j => ?_) d y hy
  · have a := (hm (ini + j) (by omega) (by have := j.2; omega)).1
    have b := film_le w tiny ht ini n hn hr j
    refine a.trans ?_
    linarith
  · have a := (hm (ini + j) (by omega) (by have := j.2; omega)).2
    exact a.trans (film_le w tiny ht ini n hn hr j)

private theorem aim_contracts (w : Wall F) (tiny : F) (ht : 0 < tiny) (ini n : ℕ) (hn : ini + n ≤ w.N)
    (hr : w.Regular tiny ini n) (hm : w.MildRadiation ini n) (sun : ℕ → F) (T S T' S' : ℕ → F)
    (h : Aim w sun ini n T S) (hT' : ∀ g, T' g = (T g + S g) * (1 / 2)) (h' : Aim w sun ini n T' S') :
    meanChange ini n T' S' ≤ 3 / 4 * meanChange ini n T S := by
  have hSS : SameOutside ini n S S' := fun g hg => by
    rw [h'.1 g hg, hT', h.1 g hg]; ring
  have key := mild_contracts w tiny ht ini n hn hr hm (fun i => S (ini + i) - T (ini + i))
    ((-2 : F) • fun i : Fin n => S' (ini + i) - S (ini + i)) (by
      rw [Matrix.mulVec_smul]
      funext i
      have hi := i.2
      rw [Pi.smul_apply, heat_diff w ini n hn S S' hSS i, smul_eq_mul]
      have a := h.2 (ini + i) (by omega) (by omega)
      have b := h'.2 (ini + i) (by omega) (by omega)
      rw [hT'] at b
      linear_combination (-2) * b + 2 * a)
  have e : ∑ i : Fin n, |(fun i : Fin n => S (ini + i) - T (ini + i)) i
      - ((-2 : F) • fun i : Fin n => S' (ini + i) - S (ini + i)) i|
      = 2 * ∑ i : Fin n, |S' (ini + i) - T' (ini + i)| := by
    rw [Finset.mul_sum]
    refine Finset.sum_congr rfl fun i _ => ?_
    rw [← abs_two (α := F), ← abs_mul]
    congr 1
    simp only [Pi.smul_apply, smul_eq_mul, hT', abs_two]
    ring
  rw [e] at key
  unfold meanChange
  rw [Finset.sum_range (fun i => |S' (ini + i) - T' (ini + i)|),
    Finset.sum_range (fun i => |S (ini + i) - T (ini + i)|), ← mul_div_assoc]
  gcongr
  linarith

private theorem aim_distance (w : Wall F) (tiny : F) (ht : 0 < tiny) (ini n : ℕ) (hn : ini + n ≤ w.N)
    (hr : w.Regular tiny ini n) (hm : w.MildRadiation ini n) (sun : ℕ → F) (T S B : ℕ → F)
    (h : Aim w sun ini n T S) (hB : SameOutside ini n T B) (hb : (w.at B).Balanced sun ini n) :
    meanChange ini n B T ≤ 2 * meanChange ini n T S := by
  have hBS : SameOutside ini n B S := fun g hg => by rw [h.1 g hg, hB g hg]
  have key := mild_contracts w tiny ht ini n hn hr hm (fun i => T (ini + i) - B (ini + i))
    ((-1 : F) • fun i : Fin n => S (ini + i) - B (ini + i)) (by
      rw [Matrix.mulVec_smul]
      funext i
      have hi := i.2
      rw [Pi.smul_apply, heat_diff w ini n hn B S hBS i, smul_eq_mul]
      have a := h.2 (ini + i) (by omega) (by omega)
      have b := hb (ini + i) (by omega) (by omega)
      linear_combination (-1) * a + b)
  have e : ∀ i : Fin n, 2 * |T (ini + i) - B (ini + i)| ≤ |S (ini + i) - T (ini + i)| +
      |(fun i : Fin n => T (ini + i) - B (ini + i)) i - ((-1 : F) • fun i : Fin n => S (ini + i) - B (ini + i)) i| := by
    intro i
    simp only [Pi.smul_apply, smul_eq_mul]
    have h2 : 2 * |T (ini + i) - B (ini + i)| = |2 * (T (ini + i) - B (ini + i))| := by
      rw [abs_mul, abs_two]
    rw [h2]
    have := abs_sub (T (ini + i) - B (ini + i) - -1 * (S (ini + i) - B (ini + i))) (S (ini + i) - T (ini + i))
    calc |2 * (T (ini + i) - B (ini + i))|
        = |T (ini + i) - B (ini + i) - -1 * (S (ini + i) - B (ini + i)) - (S (ini + i) - T (ini + i))| := by
          congr 1; ring
      _ ≤ _ := this.trans (le_of_eq (add_comm _ _))
  have e2 := Finset.sum_le_sum fun (i : Fin n) (_ : i ∈ Finset.univ) => e i
  rw [← Finset.mul_sum, Finset.sum_add_distrib] at e2
  unfold meanChange
  rw [Finset.sum_range (fun i => |T (ini + i) - B (ini + i)|),
    Finset.sum_range (fun i => |S (ini + i) - T (ini + i)|), ← mul_div_assoc]
  gcongr
  linarith

/-- C85: there is one set of temperatures of the chunk at which its heat balances, and only one. -/
theorem C85_balance (tiny : F) (ht : 0 < tiny) (w : Wall F) (ini n : ℕ) (hn : ini + n ≤ w.N)
    (hr : w.Regular tiny ini n) (sun : ℕ → F) :
    ∃! B : ℕ → F, SameOutside ini n w.T B ∧ (w.at B).Balanced sun ini n := by
  let w' : Wall F := { w with frontHs := w.frontHs + w.frontRad, backHs := w.backHs + w.backRad }
  have hc := regular_chain ht hn hr
  have b' : ∀ g, w'.before g = w.before g + if g = 0 then w.frontRad else 0 := fun g => by
    unfold Wall.before
    split_ifs
    · rfl
    · exact (add_zero _).symm
  have a' : ∀ g, w'.after g = w.after g + if g + 1 = w.N then w.backRad else 0 := fun g => by
    unfold Wall.after
    by_cases c : g + 1 = w.N
    · have c' : g + 1 = w'.N := c
      rw [if_pos c, if_pos c, if_pos c']
    · have c' : ¬ g + 1 = w'.N := c
      rw [if_neg c, if_neg c, if_neg c']
      exact (add_zero _).symm
  have fr : ∀ g : ℕ, 0 ≤ (if g = 0 then w.frontRad else 0) := fun g => by
    split_ifs
    · exact hr.frontRad
    · exact le_rfl
  have br : ∀ g : ℕ, 0 ≤ (if g + 1 = w.N then w.backRad else 0) := fun g => by
    split_ifs
    · exact hr.backRad
    · exact le_rfl
  have ha : ∀ i, i + 1 < n → w'.after (ini + i) = w.after (ini + i) := fun i hi => by
    rw [a', if_neg (by omega), add_zero]
  have hc' : Chain tiny n (fun i => w'.before (ini + i)) (fun i => w'.after (ini + i)) := by
    refine ⟨fun i hi => ?_, fun i hi => ?_, fun i hi => ?_, fun i hi => ?_, fun i hi => ?_⟩
    · rw [b', if_neg (by omega), ha i hi, add_zero]
      exact hc.link i hi
    · rw [b']
      exact add_nonneg (hc.before i hi) (fr _)
    · rw [a']
      have := hc.after i hi
      have := br (ini + i)
      linarith
    · rw [ha i hi]
      exact hc.strong i hi
    · have h1 := hr.share (ini + i) (by omega) (by omega)
      have e1 : w.after (ini + i) = w.U (ini + i) := by
        unfold Wall.after
        rw [if_neg (by omega)]
      have e2 : w'.before (ini + i) + w'.after (ini + i)
          = w.before (ini + i) + w.after (ini + i) + w.radiative (ini + i) := by
        rw [a', b']
        unfold Wall.radiative
        ring
      rw [e2, ha i hi, e1]
      rw [e1] at h1
      exact h1
  have row : ∀ (z : Fin n → F) (i : Fin n),
      (chainMatrix n (fun i => w'.before (ini + i)) (fun i => w'.after (ini + i))).mulVec z i
        = (chainMatrix n (fun i => w.before (ini + i)) (fun i => w.after (ini + i))).mulVec z i
          - w.radiative (ini + i) * z i := by
    intro z i
    have hi := i.2
    rw [chain_row hc', chain_row hc]
    rw [a', b']
    unfold Wall.radiative
    by_cases c1 : ini + i.val = 0
    · rw [if_pos c1, dif_neg (by omega)]
      by_cases c2 : ini + i.val + 1 = w.N
      · rw [if_pos c2, dif_neg (show ¬ i.val + 1 < n by omega)]
        ring
      · rw [if_neg c2]
        ring
    · rw [if_neg c1]
      by_cases c2 : ini + i.val + 1 = w.N
      · rw [if_pos c2, dif_neg (show ¬ i.val + 1 < n by omega)]
        ring
      · rw [if_neg c2]
        ring
  have hu := chain_unit ht hc'
  have link : ∀ B : ℕ → F, SameOutside ini n w.T B → ∀ i : Fin n,
      (chainMatrix n (fun i => w'.before (ini + i)) (fun i => w'.after (ini + i))).mulVec
        (fun j => B (ini + j) - w.T (ini + j)) i = (w.at B).heat (ini + i) - w.heat (ini + i) := by
    intro B hB i
    rw [row, heat_diff w ini n hn w.T B hB i, show w.at w.T = w from rfl]
    ring
  obtain ⟨z, hz⟩ := Matrix.mulVec_surjective_iff_isUnit.2 hu
    (fun i : Fin n => -(w.heat (ini + i) + sun (ini + i)))
  let B : ℕ → F := fun g => if c : ini ≤ g ∧ g < ini + n then w.T g + z ⟨g - ini, by omega⟩ else w.T g
  have hBo : SameOutside ini n w.T B := fun g hg => dif_neg (by omega)
  have hBz : (fun j : Fin n => B (ini + j) - w.T (ini + j)) = z := by
    funext i
    have hi := i.2
    have : B (ini + i) = w.T (ini + i) + z i := by
      show dite _ _ _ = _
      rw [dif_pos ⟨by omega, by omega⟩]
      congr 2
      apply Fin.ext
      simp
    rw [this]
    ring
  refine ⟨B, ⟨hBo, fun g h1 h2 => ?_⟩, fun B' hB' => ?_⟩
  · obtain ⟨i, rfl⟩ : ∃ i, g = ini + i := ⟨g - ini, by omega⟩
    have hi : i < n := by omega
    have := link B hBo ⟨i, hi⟩
    rw [hBz, hz] at this
    simp only at this
    linarith
  · have : (fun j : Fin n => B' (ini + j) - w.T (ini + j)) = z := by
      apply Matrix.mulVec_injective_iff_isUnit.2 hu
      rw [hz]
      funext i
      have hi := i.2
      rw [link B' hB'.1 i]
      have := hB'.2 (ini + i) (by omega) (by omega)
      linarith
    funext g
    by_cases c : ini ≤ g ∧ g < ini + n
    · have h1 := congrFun (this.trans hBz.symm) ⟨g - ini, by omega⟩
      simp only [show ini + (g - ini) = g by omega] at h1
      linarith
    · rw [hB'.1 g (by omega), hBo g (by omega)]

private theorem aim_step (tiny : F) (ht : 0 < tiny) (w : Wall F) (cav : CavityU F)
    (segments : List (F × UValue F)) (hN : segments.length = w.N) (hs : w.Constant cav segments) (ini n : ℕ)
    (hn0 : 0 < n) (hn : ini + n ≤ w.N) (hr : w.Regular tiny ini n) (sun : ℕ → F) (T : ℕ → F)
    (mem : ChunkMemory F) (hmem : Ready n mem) :
    ∃ (S : ℕ → F) (mem' : ChunkMemory F), Ready n mem' ∧ Aim w sun ini n T S ∧
      ∀ left oldErr, nomassLoop tiny cav segments ((List.range w.N).map sun) w.front w.frontHs w.frontRad
          w.back w.backHs w.backRad ini (ini + n) left oldErr ((List.range w.N).map T) mem
        = if meanChange ini n T S > oldErr then .ok ((List.range w.N).map T, mem')
          else if meanChange ini n T S < allowedError (19001 - left) then
            .ok ((List.range w.N).map fun g => (T g + S g) * (1 / 2), mem')
          else match left with
            | 0 => .ok ((List.range w.N).map fun g => (T g + S g) * (1 / 2), mem')
            | left + 1 => nomassLoop tiny cav segments ((List.range w.N).map sun) w.front w.frontHs w.frontRad
                w.back w.backHs w.backRad ini (ini + n) left (meanChange ini n T S)
                ((List.range w.N).map fun g => (T g + S g) * (1 / 2)) mem' := by
  obtain ⟨S, mem', p1, p2, p3, -, p5⟩ := loop_step tiny ht (w.at T) cav segments ((List.range w.N).map T)
    ⟨hN, rfl, fun i s hi h => hs i s hi h _ _⟩ ini n hn0 hn
    ⟨hr.before, hr.after, hr.inside, hr.frontRad, hr.backRad, hr.share⟩ sun mem hmem
  refine ⟨S, mem', p1, ⟨p2, fun g h1 h2 => ?_⟩, p5⟩
  have := p3 g h1 h2
  rw [show (w.at T).at S = w.at S from rfl, radiation_at] at this
  exact this

/-- A turn does not want to go much farther than where the heat balances. -/
private theorem aim_near (w : Wall F) (tiny : F) (ht : 0 < tiny) (ini n : ℕ) (hn : ini + n ≤ w.N)
    (hr : w.Regular tiny ini n) (hm : w.MildRadiation ini n) (sun : ℕ → F) (T S B : ℕ → F)
    (h : Aim w sun ini n T S) (hB : SameOutside ini n T B) (hb : (w.at B).Balanced sun ini n) :
    meanChange ini n T S ≤ 7 / 2 * meanChange ini n T B := by
  have hBS : SameOutside ini n B S := fun g hg => by rw [h.1 g hg, hB g hg]
  have key := mild_contracts w tiny ht ini n hn hr hm (fun i => T (ini + i) - B (ini + i))
    ((-1 : F) • fun i : Fin n => S (ini + i) - B (ini + i)) (by
      rw [Matrix.mulVec_smul]
      funext i
      have hi := i.2
      rw [Pi.smul_apply, heat_diff w ini n hn B S hBS i, smul_eq_mul]
      have a := h.2 (ini + i) (by omega) (by omega)
      have b := hb (ini + i) (by omega) (by omega)
      linear_combination (-1) * a + b)
  have e : ∀ i : Fin n, |S (ini + i) - T (ini + i)| ≤ 2 * |T (ini + i) - B (ini + i)| +
      |(fun i : Fin n => T (ini + i) - B (ini + i)) i - ((-1 : F) • fun i : Fin n => S (ini + i) - B (ini + i)) i| := by
    intro i
    simp only [Pi.smul_apply, smul_eq_mul]
    have h2 : 2 * |T (ini + i) - B (ini + i)| = |2 * (T (ini + i) - B (ini + i))| := by
      rw [abs_mul, abs_two]
    rw [h2]
    have := abs_sub (T (ini + i) - B (ini + i) - -1 * (S (ini + i) - B (ini + i))) (2 * (T (ini + i) - B (ini + i)))
    calc |S (ini + i) - T (ini + i)|
        = |T (ini + i) - B (ini + i) - -1 * (S (ini + i) - B (ini + i)) - 2 * (T (ini + i) - B (ini + i))| := by
          congr 1; ring
      _ ≤ _ := this.trans (le_of_eq (add_comm _ _))
  have e2 := Finset.sum_le_sum fun (i : Fin n) (_ : i ∈ Finset.univ) => e i
  rw [Finset.sum_add_distrib, ← Finset.mul_sum] at e2
  have e3 : ∑ i : Fin n, |B (ini + i) - T (ini + i)| = ∑ i : Fin n, |T (ini + i) - B (ini + i)| :=
    Finset.sum_congr rfl fun i _ => abs_sub_comm _ _
  unfold meanChange
  rw [Finset.sum_range (fun i => |B (ini + i) - T (ini + i)|),
    Finset.sum_range (fun i => |S (ini + i) - T (ini + i)|), ← mul_div_assoc, e3]
  gcongr
  linarith

private theorem settles_loop (tiny : F) (ht : 0 < tiny) (w : Wall F) (cav : CavityU F)
    (segments : List (F × UValue F)) (hN : segments.length = w.N) (hs : w.Constant cav segments) (ini n : ℕ)
    (hn0 : 0 < n) (hn : ini + n ≤ w.N) (hr : w.Regular tiny ini n) (hm : w.MildRadiation ini n)
    (sun : ℕ → F) : ∀ (k left : ℕ) (oldErr : F) (T : ℕ → F) (mem : ChunkMemory F),
    Ready n mem → left ≤ 19001 → 19001 - left + k < 100 →
    (∀ S, Aim w sun ini n T S → meanChange ini n T S ≤ oldErr ∧ meanChange ini n T S * (3 / 4) ^ k < 1 / 100) →
    ∃ (T' : ℕ → F) (mem' : ChunkMemory F),
      nomassLoop tiny cav segments ((List.range w.N).map sun) w.front w.frontHs w.frontRad
          w.back w.backHs w.backRad ini (ini + n) left oldErr ((List.range w.N).map T) mem
        = .ok ((List.range w.N).map T', mem') ∧ Ready n mem' ∧ SameOutside ini n T T' ∧
      ∃ S' : ℕ → F, Aim w sun ini n T' S' ∧ meanChange ini n T' S' ≤ 3 / 400 := by
  intro k
  induction k with
  | zero =>
    intro left oldErr T mem hmem hleft hk hS
    obtain ⟨S, mem', p0, hA, p5⟩ := aim_step tiny ht w cav segments hN hs ini n hn0 hn hr sun T mem hmem
    obtain ⟨q1, q2⟩ := hS S hA
    rw [pow_zero, mul_one] at q2
    have hae : (allowedError (19001 - left) : F) = 1 / 100 := if_pos (by omega)
    rw [p5, if_neg (not_lt.2 q1), hae, if_pos q2]
    refine ⟨_, mem', rfl, p0, fun g hg => by
      show (T g + S g) * (1 / 2) = T g
      rw [hA.1 g hg]; ring, ?_⟩
    obtain ⟨S', -, -, hA', -⟩ := aim_step tiny ht w cav segments hN hs ini n hn0 hn hr sun _ mem' p0
    refine ⟨S', hA', ?_⟩
    have := aim_contracts w tiny ht ini n hn hr hm sun T S _ S' hA (fun g => rfl) hA'
    linarith
  | succ k ih =>
    intro left oldErr T mem hmem hleft hk hS
    obtain ⟨S, mem', p0, hA, p5⟩ := aim_step tiny ht w cav segments hN hs ini n hn0 hn hr sun T mem hmem
    obtain ⟨q1, q2⟩ := hS S hA
    have hae : (allowedError (19001 - left) : F) = 1 / 100 := if_pos (by omega)
    rw [p5, if_neg (not_lt.2 q1), hae]
    have hout : SameOutside ini n T (fun g => (T g + S g) * (1 / 2)) := fun g hg => by
      simp only []
      rw [hA.1 g hg]; ring
    have hpos : 0 ≤ meanChange ini n T S := by
      unfold meanChange
      positivity
    by_cases c : meanChange ini n T S < 1 / 100
    · rw [if_pos c]
      refine ⟨_, mem', rfl, p0, hout, ?_⟩
      obtain ⟨S', -, -, hA', -⟩ := aim_step tiny ht w cav segments hN hs ini n hn0 hn hr sun _ mem' p0
      refine ⟨S', hA', ?_⟩
      have := aim_contracts w tiny ht ini n hn hr hm sun T S _ S' hA (fun g => rfl) hA'
      linarith
    · rw [if_neg c]
      obtain ⟨left, rfl⟩ : ∃ l, left = l + 1 := ⟨left - 1, by omega⟩
      simp only []
      obtain ⟨T', mem'', r1, r2, r3, r4⟩ := ih left (meanChange ini n T S) (fun g => (T g + S g) * (1 / 2)) mem' p0
        (by omega) (by omega) (fun S' hA' => by
          have := aim_contracts w tiny ht ini n hn hr hm sun T S _ S' hA (fun g => rfl) hA'
          refine ⟨by linarith, lt_of_le_of_lt ?_ q2⟩
          rw [pow_succ]
          calc meanChange ini n (fun g => (T g + S g) * (1 / 2)) S' * (3 / 4) ^ k
              ≤ (3 / 4 * meanChange ini n T S) * (3 / 4) ^ k := by gcongr
            _ = _ := by ring)
      exact ⟨T', mem'', r1, r2, fun g hg => (r3 g hg).trans (hout g hg), r4⟩

/-- C85: where the conductances do not depend on the temperatures and radiation is not much stronger than
convection, the march ends well: with the chunk on average within 0.015 degrees of the temperatures `B` at
which its heat balances, and all the other nodes as they were.

Missing: strong radiation, with which it fails (`C85_violated_overshoots`), and cavities. -/
theorem C85_settles_partial (tiny : F) (ht : 0 < tiny) (w : Wall F) (cav : CavityU F)
    (segments : List (F × UValue F)) (hN : segments.length = w.N) (hs : w.Constant cav segments) (ini n : ℕ)
    (hn0 : 0 < n) (hn : ini + n ≤ w.N) (hr : w.Regular tiny ini n) (hm : w.MildRadiation ini n)
    (sun : ℕ → F) (mem : ChunkMemory F) (hmem : Ready n mem) (B : ℕ → F)
    (hB : SameOutside ini n w.T B) (hb : (w.at B).Balanced sun ini n)
    (hnear : meanChange ini n w.T B ≤ 28571) :
    ∃ (T' : ℕ → F) (mem' : ChunkMemory F),
      marchNomass tiny cav segments ((List.range w.N).map w.T) ((List.range w.N).map sun)
          w.front w.frontHs w.frontRad w.back w.backHs w.backRad ini (ini + n) mem
        = .ok ((List.range w.N).map T', mem') ∧ Ready n mem' ∧
      SameOutside ini n w.T T' ∧ meanChange ini n B T' ≤ 15 / 1000 := by
  unfold marchNomass
  obtain ⟨T', mem', r1, r2, r3, S', r4, r5⟩ := settles_loop tiny ht w cav segments hN hs ini n hn0 hn hr hm sun
    57 19001 99999 w.T mem hmem le_rfl (by norm_num) (fun S hA => by
      have := aim_near w tiny ht ini n hn hr hm sun w.T S B hA hB hb
      have h1 : meanChange ini n w.T S ≤ 99999 := by linarith
      refine ⟨h1, ?_⟩
      calc meanChange ini n w.T S * (3 / 4) ^ 57 ≤ 99999 * (3 / 4) ^ 57 := by gcongr
        _ < 1 / 100 := by norm_num)
  refine ⟨T', mem', r1, r2, r3, ?_⟩
  have := aim_distance w tiny ht ini n hn hr hm sun T' S' B r4 (fun g hg => by rw [hB g hg, r3 g hg]) hb
  linarith

/-- A pane of glass between a room at 20 degrees and outdoors at 0, 60 W of sun in each face. -/
example : let w : Wall ℚ := ⟨2, fun _ => 20, fun _ => 200, ⟨20, 20⟩, 8, 5, ⟨0, 0⟩, 10, 5⟩
    w.Regular (1 / 10 ^ 26) 0 2 ∧ w.MildRadiation 0 2 ∧
      w.Constant (fun _ _ _ => .panic) [(0, .solid 200), (0, .back)] ∧
      ∃! B : ℕ → ℚ, SameOutside 0 2 w.T B ∧ (w.at B).Balanced (fun _ => 60) 0 2 := by
  intro w
  have hreg : w.Regular (1 / 10 ^ 26) 0 2 := by
    refine ⟨by norm_num [w, Wall.before], by norm_num [w, Wall.after], fun g _ _ => by norm_num [w],
      by norm_num [w], by norm_num [w], fun g _ hg => ?_⟩
    obtain rfl : g = 0 := by omega
    norm_num [w, Wall.before, Wall.after, Wall.radiative]
  refine ⟨hreg, fun g _ hg => ?_, fun i s hi hs a b => ?_, C85_balance _ (by norm_num) w 0 2 (by norm_num [w]) hreg _⟩
  · rcases (by omega : g = 0 ∨ g = 1) with rfl | rfl <;> norm_num [w, Wall.film, Wall.radiative]
  · have hi : i + 1 < 2 := hi
    obtain rfl : i = 0 := by omega
    simp only [List.getElem?_cons_zero, Option.some.injEq] at hs
    subst hs
    rfl

/-- A single layer, all at `t + e` among surroundings at `t`. -/
private def layer (u h r t e : F) : Wall F :=
  ⟨2, fun _ => t + e, fun _ => u, ⟨t, t⟩, h, r, ⟨t, t⟩, h, r⟩

private theorem layer_step (tiny : F) (ht : 0 < tiny) (u h r t e : F) (cav : CavityU F)
    (c : F) (mem : ChunkMemory F) (hmem : Ready 2 mem) (hu : tiny < u) (hh : tiny ≤ h) (hr : 0 ≤ r)
    (hshare : tiny * (h + u + r) < u) :
    ∃ mem' : ChunkMemory F, Ready 2 mem' ∧
      ∀ left oldErr, nomassLoop tiny cav [(c, .solid u), (c, .back)] [0, 0] ⟨t, t⟩ h r ⟨t, t⟩ h r 0 2
          left oldErr [t + e, t + e] mem
        = if |e| * (1 + r / h) > oldErr then .ok ([t + e, t + e], mem')
          else if |e| * (1 + r / h) < allowedError (19001 - left) then
            .ok ([t + e * (1 - r / h) / 2, t + e * (1 - r / h) / 2], mem')
          else match left with
            | 0 => .ok ([t + e * (1 - r / h) / 2, t + e * (1 - r / h) / 2], mem')
            | left + 1 => nomassLoop tiny cav [(c, .solid u), (c, .back)] [0, 0] ⟨t, t⟩ h r ⟨t, t⟩ h r 0 2
                left (|e| * (1 + r / h)) [t + e * (1 - r / h) / 2, t + e * (1 - r / h) / 2] mem' := by
  have h0 : 0 < h := lt_of_lt_of_le ht hh
  have hreg : (layer u h r t e).Regular tiny 0 2 := by
    refine ⟨h0.le, hh, fun g _ _ => hu, hr, hr, fun g _ hg => ?_⟩
    obtain rfl : g = 0 := by omega
    simp only [layer, Wall.before, Wall.after, Wall.radiative]
    norm_num
    exact hshare
  have hheld : (layer u h r t e).Held cav [(c, .solid u), (c, .back)] [t + e, t + e] := by
    refine ⟨rfl, rfl, fun i s hi hs => ?_⟩
    have hi : i + 1 < 2 := hi
    obtain rfl : i = 0 := by omega
    simp only [List.getElem?_cons_zero, Option.some.injEq] at hs
    subst hs
    rfl
  obtain ⟨S, mem', p1, p2, p3, p4, p5⟩ := loop_step tiny ht (layer u h r t e) cav _ _ hheld 0 2 (by norm_num)
    (by norm_num [layer]) hreg (fun _ => 0) mem hmem
  have hS := p4 (fun g => if g < 2 then t - r / h * e else t + e)
    (fun g hg => if_neg (by omega)) (fun g _ hg => by
      rcases (by omega : g = 0 ∨ g = 1) with rfl | rfl <;>
      · simp [layer, Wall.at, Wall.heat, Wall.before, Wall.after, Wall.tBefore, Wall.tAfter, Wall.radiation]
        field_simp
        ring)
  refine ⟨mem', p1, fun left oldErr => ?_⟩
  have hmean : meanChange 0 2 (layer u h r t e).T S = |e| * (1 + r / h) := by
    rw [← hS]
    have : |t - r / h * e - (t + e)| = |e| * (1 + r / h) := by
      rw [← abs_of_nonneg (show 0 ≤ 1 + r / h by positivity), ← abs_mul,
        ← abs_neg (e * _)]
      congr 1
      ring
    simp [meanChange, layer, Finset.sum_range_succ, this]
  have hT : (List.range 2).map (fun g => ((layer u h r t e).T g + S g) * (1 / 2))
      = [t + e * (1 - r / h) / 2, t + e * (1 - r / h) / 2] := by
    rw [← hS]
    have : (t + e + (t - r / h * e)) * (1 / 2) = t + e * (1 - r / h) / 2 := by ring
    simp only [layer, List.range_succ, List.range_zero, List.map_append, List.map_cons, List.map_nil]
    norm_num
    ring
  have := p5 left oldErr
  rw [hmean] at this
  have e1 : (List.range (layer u h r t e).N).map (fun g => ((layer u h r t e).T g + S g) * (1 / 2))
      = [t + e * (1 - r / h) / 2, t + e * (1 - r / h) / 2] := hT
  rw [e1] at this
  exact this

/-- C85, not so: radiation stronger than three times the convection, as there is indoors when the air is
almost at the temperature of the wall.  A single layer at the temperature of its surroundings `t` plus `e`
ends up farther from them than it was, on the other side. -/
theorem C85_violated_overshoots (tiny : F) (ht : 0 < tiny) (u h r t e : F) (cav : CavityU F)
    (c : F) (mem : ChunkMemory F) (hmem : Ready 2 mem) (hu : tiny < u) (hh : tiny ≤ h)
    (hshare : tiny * (h + u + r) < u) (hr : 3 * h < r) (he : 1 / 100 ≤ |e|) (he' : |e| * (1 + r / h) ≤ 99999) :
    ∃ (e' : F) (mem' : ChunkMemory F),
      marchNomass tiny cav [(c, .solid u), (c, .back)] [t + e, t + e] [0, 0] ⟨t, t⟩ h r ⟨t, t⟩ h r 0 2 mem
        = .ok ([t + e', t + e'], mem') ∧ |e| < |e'| ∧ e * e' < 0 := by
  have h0 : 0 < h := lt_of_lt_of_le ht hh
  have hr0 : 0 ≤ r := by linarith
  have hq : 3 < r / h := by rw [lt_div_iff₀ h0]; exact hr
  have hepos : 0 < |e| := lt_of_lt_of_le (by norm_num) he
  have hne : e ≠ 0 := abs_pos.1 hepos
  obtain ⟨m1, r1, l1⟩ := layer_step tiny ht u h r t e cav c mem hmem hu hh hr0 hshare
  obtain ⟨m2, r2, l2⟩ := layer_step tiny ht u h r t (e * (1 - r / h) / 2) cav c m1 r1 hu hh hr0 hshare
  have habs : |e * (1 - r / h) / 2| = |e| * ((r / h - 1) / 2) := by
    rw [mul_div_assoc, abs_mul, abs_of_neg (show (1 - r / h) / 2 < 0 by linarith)]
    ring
  refine ⟨e * (1 - r / h) / 2, m2, ?_, ?_, ?_⟩
  · unfold marchNomass
    have hae : (allowedError (19001 - 19001) : F) = 1 / 100 := if_pos (by norm_num)
    rw [l1, if_neg (not_lt.2 he'), hae, if_neg (not_lt.2 (by nlinarith))]
    simp only []
    rw [l2, if_pos]
    rw [habs]
    have : |e| * (1 + r / h) < |e| * (1 + r / h) * ((r / h - 1) / 2) := by
      have h1 : 0 < |e| * (1 + r / h) := by positivity
      nlinarith
    nlinarith
  · rw [habs]
    nlinarith
  · have : e * (e * (1 - r / h) / 2) = (e * e) * ((1 - r / h) / 2) := by ring
    rw [this]
    apply mul_neg_of_pos_of_neg (mul_self_pos.2 hne)
    linarith

/-- A pane at 30 degrees, with all at 20 degrees around it, comes out of a march at 0 degrees. -/
example (mem : ChunkMemory ℚ) (hmem : Ready 2 mem) (cav : CavityU ℚ) :
    ∃ (e' : ℚ) (mem' : ChunkMemory ℚ),
      marchNomass (1 / 10 ^ 26) cav [(0, .solid 100), (0, .back)] [20 + 10, 20 + 10] [0, 0] ⟨20, 20⟩ 1 5 ⟨20, 20⟩ 1 5
          0 2 mem
        = .ok ([20 + e', 20 + e'], mem') ∧ |(10 : ℚ)| < |e'| ∧ 10 * e' < 0 :=
  C85_violated_overshoots (1 / 10 ^ 26) (by norm_num) 100 1 5 20 10 cav 0 mem hmem (by norm_num) (by norm_num)
    (by norm_num) (by norm_num) (by norm_num) (by norm_num)

end Simple.Heat
