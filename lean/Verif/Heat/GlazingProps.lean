import Mathlib.Algebra.Order.BigOperators.Group.List
import Mathlib.Tactic.NormNum
import Mathlib.Tactic.LinearCombination
import Verif.Heat.GlazingModel

/-! # C24: solar energy on a glazing system is conserved -/

namespace Simple.Heat

set_option linter.unusedSectionVars false

variable {F : Type*} [Field F] [LinearOrder F] [IsStrictOrderedRing F]

/-! ## Specification: the radiation within a system of layers -/

namespace Spec

/-- A piece of glass: nothing is negative, and all that reaches a side is transmitted, reflected or
absorbed. -/
structure Physical (g : Glazing F) : Prop where
  tau : 0 ≤ g.tau
  rhoFront : 0 ≤ g.rhoFront
  rhoBack : 0 ≤ g.rhoBack
  alphaFront : 0 ≤ g.alphaFront
  alphaBack : 0 ≤ g.alphaBack
  front : g.tau + g.rhoFront + g.alphaFront = 1
  back : g.tau + g.rhoBack + g.alphaBack = 1

/-- `a k` is what goes forwards between layers `k - 1` and `k`, `b k` what goes backwards: at each
layer, what leaves is what is transmitted through it plus what it reflects.  One unit reaches the
front, and nothing comes from behind. -/
structure Balance (layers : List (Glazing F)) (a b : ℕ → F) : Prop where
  incident : a 0 = 1
  behind : b layers.length = 0
  layer : ∀ (k : ℕ) (g : Glazing F), layers[k]? = some g →
    a (k + 1) = g.tau * a k + g.rhoBack * b (k + 1) ∧
    b k = g.rhoFront * a k + g.tau * b (k + 1)

/-- Glass on both sides of which radiation may bounce forever is excluded: only the last layer may
be a perfect mirror on its back. -/
def NoTrap (layers : List (Glazing F)) : Prop := ∀ g ∈ layers.dropLast, g.rhoBack < 1

end Spec

open Spec

/-! ## Lemmas -/

theorem new_ok (t f b : F) (ht : 0 ≤ t) (hf : 0 ≤ f) (hb : 0 ≤ b) (h1 : t + f ≤ 1) (h2 : t + b ≤ 1) :
    Glazing.new t f b = .ok ⟨t, f, b, 1 - t - f, 1 - t - b⟩ := by
  unfold Glazing.new
  rw [if_pos]
  exact ⟨ht, by linarith, hf, hb, by linarith, by linarith⟩

theorem denom_pos (g o : Glazing F) (hg : Physical g) (ho : Physical o) (h : g.rhoBack < 1) :
    0 < 1 - g.rhoBack * o.rhoFront := by
  have h1 : o.rhoFront ≤ 1 := by have := ho.front; linarith [ho.tau, ho.alphaFront]
  have := mul_le_of_le_one_right hg.rhoBack h1
  linarith

theorem combine_ok (g o : Glazing F) (hg : Physical g) (ho : Physical o) (h : g.rhoBack < 1) :
    ∃ r, g.combine o = .ok r ∧ Physical r ∧ r.tau = g.combinedTau o ∧
      r.rhoFront = g.combinedRhoFront o ∧ r.rhoBack = g.combinedRhoBack o ∧
      (o.rhoBack < 1 → r.rhoBack < 1) := by
  have hD := denom_pos g o hg ho h
  have hD' : 0 < 1 - o.rhoFront * g.rhoBack := by rw [mul_comm]; exact hD
  have e1 : 1 - g.combinedTau o - g.combinedRhoFront o = g.alphaFront
      + g.alphaBack * g.tau * o.rhoFront / (1 - g.rhoBack * o.rhoFront)
      + o.alphaFront * g.tau / (1 - g.rhoBack * o.rhoFront) := by
    have a1 : g.alphaFront = 1 - g.tau - g.rhoFront := by linarith [hg.front]
    have a2 : g.alphaBack = 1 - g.tau - g.rhoBack := by linarith [hg.back]
    have a3 : o.alphaFront = 1 - o.tau - o.rhoFront := by linarith [ho.front]
    unfold Glazing.combinedTau Glazing.combinedRhoFront
    rw [a1, a2, a3]
    field_simp
    ring
  have e2 : 1 - g.combinedTau o - g.combinedRhoBack o = o.alphaBack
      + o.alphaFront * o.tau * g.rhoBack / (1 - g.rhoBack * o.rhoFront)
      + g.alphaBack * o.tau / (1 - g.rhoBack * o.rhoFront) := by
    have a1 : o.alphaBack = 1 - o.tau - o.rhoBack := by linarith [ho.back]
    have a2 : g.alphaBack = 1 - g.tau - g.rhoBack := by linarith [hg.back]
    have a3 : o.alphaFront = 1 - o.tau - o.rhoFront := by linarith [ho.front]
    unfold Glazing.combinedTau Glazing.combinedRhoBack
    rw [a1, a2, a3, mul_comm o.rhoFront g.rhoBack]
    field_simp
    ring
  have p1 : 0 ≤ g.combinedTau o := div_nonneg (mul_nonneg hg.tau ho.tau) hD.le
  have p2 : 0 ≤ g.combinedRhoFront o :=
    add_nonneg hg.rhoFront (div_nonneg (mul_nonneg (sq_nonneg _) ho.rhoFront) hD.le)
  have p3 : 0 ≤ g.combinedRhoBack o :=
    add_nonneg ho.rhoBack (div_nonneg (mul_nonneg (sq_nonneg _) hg.rhoBack) hD'.le)
  have q1 : 0 ≤ 1 - g.combinedTau o - g.combinedRhoFront o := by
    rw [e1]
    exact add_nonneg (add_nonneg hg.alphaFront (div_nonneg (mul_nonneg (mul_nonneg hg.alphaBack
      hg.tau) ho.rhoFront) hD.le)) (div_nonneg (mul_nonneg ho.alphaFront hg.tau) hD.le)
  have q2 : 0 ≤ 1 - g.combinedTau o - g.combinedRhoBack o := by
    rw [e2]
    exact add_nonneg (add_nonneg ho.alphaBack (div_nonneg (mul_nonneg (mul_nonneg ho.alphaFront
      ho.tau) hg.rhoBack) hD.le)) (div_nonneg (mul_nonneg hg.alphaBack ho.tau) hD.le)
  refine ⟨_, new_ok _ _ _ p1 p2 p3 (by linarith) (by linarith), ⟨p1, p2, p3, q1, q2, ?_, ?_⟩,
    rfl, rfl, rfl, ?_⟩
  · simp
  · simp
  · intro ho1
    show g.combinedRhoBack o < 1
    by_cases ht : o.tau = 0
    · simpa [Glazing.combinedRhoBack, ht] using ho1
    · have htp : 0 < o.tau := lt_of_le_of_ne ho.tau (Ne.symm ht)
      have hlt : o.tau ^ 2 * g.rhoBack / (1 - o.rhoFront * g.rhoBack) < o.tau := by
        rw [div_lt_iff₀ hD']
        have : o.tau * g.rhoBack ≤ (1 - o.rhoFront) * g.rhoBack :=
          mul_le_mul_of_nonneg_right (by linarith [ho.front, ho.alphaFront]) hg.rhoBack
        have h3 : o.tau * g.rhoBack < 1 - o.rhoFront * g.rhoBack := by nlinarith
        nlinarith
      unfold Glazing.combinedRhoBack
      linarith [ho.back, ho.alphaBack]

theorem Spec.NoTrap.tail {g : Glazing F} {l : List (Glazing F)} (h : NoTrap (g :: l)) : NoTrap l := by
  intro x hx
  cases l with
  | nil => simp at hx
  | cons y l => exact h x (by simp [hx])

theorem combineLayers_ok (l : List (Glazing F)) (hne : l ≠ []) (hp : ∀ g ∈ l, Physical g)
    (ht : NoTrap l) :
    ∃ r, combineLayers l = .ok r ∧ Physical r ∧ ((∀ g ∈ l, g.rhoBack < 1) → r.rhoBack < 1) := by
  induction l with
  | nil => exact absurd rfl hne
  | cons g l ih =>
    cases l with
    | nil => exact ⟨g, rfl, hp g (by simp), fun h => h g (by simp)⟩
    | cons g' l =>
      obtain ⟨r, hr, hrp, hrb⟩ := ih (by simp) (fun x hx => hp x (by simp [hx])) ht.tail
      have hgb : g.rhoBack < 1 := ht g (by simp)
      obtain ⟨s, hs, hsp, _, _, _, hsb⟩ := combine_ok g r (hp g (by simp)) hrp hgb
      refine ⟨s, ?_, hsp, fun h => hsb (hrb fun x hx => h x (by simp [hx]))⟩
      rw [combineLayers, hr]
      exact hs

/-- The combined layer does to radiation what the layers do together. -/
theorem combineLayers_flux (l : List (Glazing F)) (r : Glazing F) (hp : ∀ g ∈ l, Physical g)
    (ht : NoTrap l) (hr : combineLayers l = .ok r) (a b : ℕ → F)
    (hl : ∀ (k : ℕ) (g : Glazing F), l[k]? = some g →
      a (k + 1) = g.tau * a k + g.rhoBack * b (k + 1) ∧
      b k = g.rhoFront * a k + g.tau * b (k + 1)) :
    a l.length = r.tau * a 0 + r.rhoBack * b l.length ∧
      b 0 = r.rhoFront * a 0 + r.tau * b l.length := by
  induction l generalizing r a b with
  | nil => simp [combineLayers] at hr
  | cons g l ih =>
    cases l with
    | nil =>
      simp only [combineLayers, Outcome.ok.injEq] at hr
      subst hr
      exact hl 0 g rfl
    | cons g' l =>
      obtain ⟨s, hs, hsp, _⟩ := combineLayers_ok (g' :: l) (by simp)
        (fun x hx => hp x (by simp [hx])) ht.tail
      have hgb : g.rhoBack < 1 := ht g (by simp)
      have hg := hp g (by simp)
      obtain ⟨r', hr', _, h1, h2, h3, _⟩ := combine_ok g s hg hsp hgb
      have : r = r' := by
        rw [combineLayers, hs] at hr
        have e : g.combine s = .ok r := hr
        rw [hr'] at e
        exact (Outcome.ok.inj e).symm
      subst this
      have hD := denom_pos g s hg hsp hgb
      obtain ⟨i1, i2⟩ := ih s (fun x hx => hp x (by simp [hx])) ht.tail hs
        (fun k => a (k + 1)) (fun k => b (k + 1)) (fun k x hx => hl (k + 1) x (by simpa using hx))
      obtain ⟨j1, j2⟩ := hl 0 g rfl
      simp only [zero_add] at i1 i2 j1 j2
      have hlen : (g :: g' :: l).length = (g' :: l).length + 1 := rfl
      rw [hlen, h1, h2, h3]
      set n := (g' :: l).length
      have hD1 : (1 - g.rhoBack * s.rhoFront) ≠ 0 := hD.ne'
      have hD2 : (1 - s.rhoFront * g.rhoBack) ≠ 0 := by rw [mul_comm]; exact hD1
      have key : a 1 = (g.tau * a 0 + g.rhoBack * (s.tau * b (n + 1))) /
          (1 - g.rhoBack * s.rhoFront) := by
        rw [eq_div_iff hD1]
        linear_combination j1 + g.rhoBack * i2
      unfold Glazing.combinedTau Glazing.combinedRhoFront Glazing.combinedRhoBack
      rw [mul_comm s.rhoFront g.rhoBack]
      constructor
      · rw [i1, key]
        field_simp
        ring
      · rw [j2, i2, key]
        field_simp
        ring

/-- The radiation exists and is not negative. -/
theorem flux_exists (l : List (Glazing F)) (hp : ∀ g ∈ l, Physical g) (ht : NoTrap l) (x y : F)
    (hx : 0 ≤ x) (hy : 0 ≤ y) :
    ∃ a b : ℕ → F, a 0 = x ∧ b l.length = y ∧ (∀ k, 0 ≤ a k) ∧ (∀ k, 0 ≤ b k) ∧
      ∀ (k : ℕ) (g : Glazing F), l[k]? = some g →
        a (k + 1) = g.tau * a k + g.rhoBack * b (k + 1) ∧
        b k = g.rhoFront * a k + g.tau * b (k + 1) := by
  induction l generalizing x with
  | nil => exact ⟨fun _ => x, fun _ => y, rfl, rfl, fun _ => hx, fun _ => hy, by simp⟩
  | cons g l ih =>
    have hg := hp g (by simp)
    -- what leaves the layer towards the rest
    obtain ⟨x1, hx1, hstep⟩ : ∃ x1 : F, 0 ≤ x1 ∧ ∀ a b : ℕ → F, a 0 = x1 → b l.length = y →
        (∀ (k : ℕ) (g : Glazing F), l[k]? = some g →
          a (k + 1) = g.tau * a k + g.rhoBack * b (k + 1) ∧
          b k = g.rhoFront * a k + g.tau * b (k + 1)) → x1 = g.tau * x + g.rhoBack * b 0 := by
      cases l with
      | nil =>
        refine ⟨g.tau * x + g.rhoBack * y, add_nonneg (mul_nonneg hg.tau hx)
          (mul_nonneg hg.rhoBack hy), ?_⟩
        intro a b _ hb _
        have : b 0 = y := hb
        rw [this]
      | cons g' l =>
        obtain ⟨s, hs, hsp, _⟩ := combineLayers_ok (g' :: l) (by simp)
          (fun z hz => hp z (by simp [hz])) ht.tail
        have hgb : g.rhoBack < 1 := ht g (by simp)
        have hD := denom_pos g s hg hsp hgb
        refine ⟨(g.tau * x + g.rhoBack * (s.tau * y)) / (1 - g.rhoBack * s.rhoFront),
          div_nonneg (add_nonneg (mul_nonneg hg.tau hx) (mul_nonneg hg.rhoBack
            (mul_nonneg hsp.tau hy))) hD.le, ?_⟩
        intro a b ha hb hl
        obtain ⟨_, i2⟩ := combineLayers_flux (g' :: l) s (fun z hz => hp z (by simp [hz])) ht.tail hs
          a b hl
        rw [ha, hb] at i2
        rw [i2]
        have := hD.ne'
        field_simp
        ring
    obtain ⟨a, b, ha, hb, han, hbn, hl⟩ := ih (fun z hz => hp z (by simp [hz])) ht.tail x1 hx1
    refine ⟨fun k => match k with | 0 => x | k + 1 => a k,
      fun k => match k with | 0 => g.rhoFront * x + g.tau * b 0 | k + 1 => b k, rfl, hb, ?_, ?_, ?_⟩
    · intro k; cases k with
      | zero => exact hx
      | succ k => exact han k
    · intro k; cases k with
      | zero => exact add_nonneg (mul_nonneg hg.rhoFront hx) (mul_nonneg hg.tau (hbn 0))
      | succ k => exact hbn k
    · intro k z hz
      cases k with
      | zero =>
        simp only [List.getElem?_cons_zero, Option.some.injEq] at hz
        subst hz
        refine ⟨?_, rfl⟩
        show a 0 = _
        rw [ha]
        exact hstep a b ha hb hl
      | succ k => exact hl k z (by simpa using hz)


theorem Spec.NoTrap.take {l : List (Glazing F)} (h : NoTrap l) (i : ℕ) : NoTrap (l.take i) := by
  induction l generalizing i with
  | nil => simpa using h
  | cons g l ih =>
    cases i with
    | zero => intro x hx; simp at hx
    | succ i =>
      intro x hx
      rw [List.take_succ_cons] at hx
      cases hl : l.take i with
      | nil => rw [hl] at hx; simp at hx
      | cons y t =>
        rw [hl, List.dropLast_cons_cons, ← hl] at hx
        rcases List.mem_cons.1 hx with rfl | hx
        · cases l with
          | nil => simp at hl
          | cons z l => exact h x (by simp)
        · exact ih h.tail i x hx

theorem Spec.NoTrap.drop {l : List (Glazing F)} (h : NoTrap l) (i : ℕ) : NoTrap (l.drop i) := by
  induction l generalizing i with
  | nil => simpa using h
  | cons g l ih =>
    cases i with
    | zero => simpa using h
    | succ i => exact ih h.tail i

theorem Spec.NoTrap.take_lt {l : List (Glazing F)} (h : NoTrap l) (i : ℕ) (hi : i < l.length) :
    ∀ g ∈ l.take i, g.rhoBack < 1 := by
  intro g hg
  apply h g
  obtain ⟨k, hk, rfl⟩ := List.mem_iff_getElem.1 hg
  rw [List.getElem_take]
  have hk' : k < i := by simp at hk; omega
  have : k < l.dropLast.length := by simp; omega
  rw [← List.getElem_dropLast this]
  exact List.getElem_mem this

/-- What the first `i` layers absorb, from what enters and leaves them. -/
theorem absorbed_first (l : List (Glazing F)) (hp : ∀ g ∈ l, Physical g) (ht : NoTrap l)
    (a b : ℕ → F) (hb : Balance l a b) (i : ℕ) (hi : 0 < i) (hi' : i < l.length) :
    ∃ g0 g1, combineLayers (l.take i) = .ok g0 ∧ combineLayers (l.drop i) = .ok g1 ∧
      (g0.combinedAlphas g1).1 = 1 + b i - a i - b 0 ∧
      (g0.combinedAlphas g1).2 = g1.alphaFront * a i := by
  obtain ⟨g0, h0, p0, q0⟩ := combineLayers_ok (l.take i)
    (by intro h; have := congrArg List.length h; rw [List.length_take, List.length_nil] at this; omega)
    (fun g hg => hp g (List.mem_of_mem_take hg)) (ht.take i)
  obtain ⟨g1, h1, p1, _⟩ := combineLayers_ok (l.drop i)
    (by intro h; have := congrArg List.length h; simp at this; omega)
    (fun g hg => hp g (List.mem_of_mem_drop hg)) (ht.drop i)
  refine ⟨g0, g1, h0, h1, ?_⟩
  have hD := denom_pos g0 g1 p0 p1 (q0 (ht.take_lt i hi'))
  obtain ⟨e1, e2⟩ := combineLayers_flux (l.take i) g0 (fun g hg => hp g (List.mem_of_mem_take hg))
    (ht.take i) h0 a b (fun k g hk => hb.layer k g (by
      rw [List.getElem?_take] at hk
      split_ifs at hk
      exact hk))
  obtain ⟨e3, e4⟩ := combineLayers_flux (l.drop i) g1 (fun g hg => hp g (List.mem_of_mem_drop hg))
    (ht.drop i) h1 (fun k => a (i + k)) (fun k => b (i + k)) (fun k g hk => hb.layer (i + k) g (by
      rw [List.getElem?_drop] at hk
      exact hk))
  have l1 : (l.take i).length = i := by simp; omega
  have l2 : i + (l.drop i).length = l.length := by simp; omega
  rw [l1, hb.incident] at e1 e2
  simp only [add_zero, l2, hb.behind, mul_zero] at e3 e4
  have hai : a i = g0.tau / (1 - g0.rhoBack * g1.rhoFront) := by
    rw [eq_div_iff hD.ne']
    linear_combination e1 + g0.rhoBack * e4
  have hA1 : g0.alphaFront = 1 - g0.tau - g0.rhoFront := by linarith [p0.front]
  have hA2 : g0.alphaBack = 1 - g0.tau - g0.rhoBack := by linarith [p0.back]
  constructor
  · have : (g0.combinedAlphas g1).1
        = g0.alphaFront + g0.alphaBack * (g1.rhoFront * (g0.tau / (1 - g0.rhoBack * g1.rhoFront))) := by
      simp only [Glazing.combinedAlphas]
      ring
    rw [this, ← hai, ← e4, hA1, hA2]
    linear_combination e2 + e1
  · simp only [Glazing.combinedAlphas]
    rw [hai]
    ring

/-- What layer `k` absorbs, from what enters and leaves it. -/
theorem absorbed_layer (l : List (Glazing F)) (hp : ∀ g ∈ l, Physical g) (a b : ℕ → F)
    (hb : Balance l a b) (k : ℕ) (g : Glazing F) (hk : l[k]? = some g) :
    g.alphaFront * a k + g.alphaBack * b (k + 1) = a k + b (k + 1) - a (k + 1) - b k := by
  obtain ⟨e1, e2⟩ := hb.layer k g hk
  have p := hp g (List.mem_of_getElem? hk)
  have hA1 : g.alphaFront = 1 - g.tau - g.rhoFront := by linarith [p.front]
  have hA2 : g.alphaBack = 1 - g.tau - g.rhoBack := by linarith [p.back]
  rw [hA1, hA2]
  linear_combination e1 + e2

theorem alphasLoop_spec (l : List (Glazing F)) (hp : ∀ g ∈ l, Physical g) (ht : NoTrap l)
    (a b : ℕ → F) (hb : Balance l a b) (count i : ℕ) (hi : i + count + 1 = l.length) :
    alphasLoop l count (i + 1) (1 + b i - a i - b 0) = .ok ((List.range count).map fun j =>
      a (i + j) + b (i + j + 1) - a (i + j + 1) - b (i + j)) := by
  induction count generalizing i with
  | zero => rfl
  | succ c ih =>
    obtain ⟨g0, g1, h0, h1, h2, _⟩ := absorbed_first l hp ht a b hb (i + 1) (by omega) (by omega)
    rw [alphasLoop, h0]
    simp only [Outcome.bind]
    rw [h1]
    simp only [Outcome.bind]
    rw [h2, ih (i + 1) (by omega)]
    simp only [Outcome.bind, List.range_succ_eq_map, List.map_cons, List.map_map]
    congr 2
    · simp only [add_zero]; ring
    · apply List.map_congr_left
      intro j _
      simp only [Function.comp]
      rw [show i + (j + 1) = i + 1 + j by omega]

/-! ## The properties -/

/-- Whatever the number of layers, no assertion fails, and the equivalent layer is physical. -/
theorem C24_combine_total (layers : List (Glazing F)) (hne : layers ≠ [])
    (hp : ∀ g ∈ layers, Physical g) (ht : NoTrap layers) :
    ∃ r, combineLayers layers = .ok r ∧ Physical r := by
  obtain ⟨r, h1, h2, _⟩ := combineLayers_ok layers hne hp ht
  exact ⟨r, h1, h2⟩

/-- The radiation between the layers exists, and none of it is negative. -/
theorem C24_balance_exists (layers : List (Glazing F)) (hp : ∀ g ∈ layers, Physical g)
    (ht : NoTrap layers) :
    ∃ a b : ℕ → F, Balance layers a b ∧ (∀ k, 0 ≤ a k) ∧ ∀ k, 0 ≤ b k := by
  obtain ⟨a, b, h1, h2, h3, h4, h5⟩ := flux_exists layers hp ht 1 0 zero_le_one le_rfl
  exact ⟨a, b, ⟨h1, h2, h5⟩, h3, h4⟩

/-- The transmittance and the reflectance of the equivalent layer are what leaves the system behind
and in front, when one unit reaches it. -/
theorem C24_combine_spec (layers : List (Glazing F)) (r : Glazing F)
    (hp : ∀ g ∈ layers, Physical g) (ht : NoTrap layers) (hr : combineLayers layers = .ok r)
    (a b : ℕ → F) (hb : Balance layers a b) :
    r.tau = a layers.length ∧ r.rhoFront = b 0 := by
  obtain ⟨h1, h2⟩ := combineLayers_flux layers r hp ht hr a b hb.layer
  rw [hb.incident, hb.behind] at h1 h2
  exact ⟨by linarith, by linarith⟩

/-- The absorptance of each layer of the system is what it absorbs of what reaches its front and its
back. -/
theorem C24_alphas_spec (layers : List (Glazing F)) (hp : ∀ g ∈ layers, Physical g)
    (ht : NoTrap layers) (a b : ℕ → F) (hb : Balance layers a b) :
    ∃ l, alphas layers = .ok l ∧ l.length = layers.length ∧
      ∀ (k : ℕ) (g : Glazing F), layers[k]? = some g →
        l[k]? = some (g.alphaFront * a k + g.alphaBack * b (k + 1)) := by
  match hl : layers with
  | [] => exact ⟨[], rfl, rfl, by simp⟩
  | [g] =>
    refine ⟨[g.alphaFront], rfl, rfl, ?_⟩
    intro k x hk
    have h0 : k = 0 := by
      have := (List.getElem?_eq_some_iff.1 hk).1
      simpa using this
    subst h0
    have hx : g = x := by simpa using hk
    have h1 : b 1 = 0 := hb.behind
    rw [← hx, zero_add, h1, hb.incident]
    simp
  | g :: g' :: rest =>
    rw [← hl] at hp ht hb ⊢
    have hlen : layers.length = rest.length + 2 := by simp [hl]
    have e0 : (0 : F) = 1 + b 0 - a 0 - b 0 := by rw [hb.incident]; ring
    have hloop := alphasLoop_spec layers hp ht a b hb (rest.length + 1) 0 (by omega)
    obtain ⟨g0, g1, h0, h1, _, h3⟩ := absorbed_first layers hp ht a b hb (rest.length + 1)
      (by omega) (by omega)
    have hlast : ∃ z, layers[rest.length + 1]? = some z :=
      ⟨_, List.getElem?_eq_getElem (by omega)⟩
    obtain ⟨z, hz⟩ := hlast
    have hdrop : layers.drop (rest.length + 1) = [z] := by
      obtain ⟨hlt, hz'⟩ := List.getElem?_eq_some_iff.1 hz
      rw [List.drop_eq_getElem_cons hlt, hz']
      congr 1
      rw [List.drop_eq_nil_iff]
      omega
    have hg1 : g1 = z := by
      rw [hdrop, combineLayers] at h1
      exact (Outcome.ok.inj h1).symm
    have hgl : layers.getLast? = some z := by
      rw [List.getLast?_eq_getElem?, hlen]
      exact hz
    refine ⟨((List.range (rest.length + 1)).map fun j =>
      a (0 + j) + b (0 + j + 1) - a (0 + j + 1) - b (0 + j)) ++ [g1.alphaFront * a (rest.length + 1)],
      ?_, by simp [hlen], ?_⟩
    · have : alphas layers = (alphasLoop layers (layers.length - 1) 1 0).bind fun ret =>
          (combineLayers (layers.take (layers.length - 1))).bind fun g0 =>
            match layers.getLast? with
            | some g1 => .ok (ret ++ [(g0.combinedAlphas g1).2])
            | none => .panic := by
        rw [hl]; rfl
      rw [this, show layers.length - 1 = rest.length + 1 by omega]
      rw [← e0, zero_add] at hloop
      rw [hloop]
      simp only [Outcome.bind]
      rw [h0, hgl]
      simp only [Outcome.bind]
      rw [← hg1, h3]
    · intro k x hk
      rw [absorbed_layer layers hp a b hb k x hk]
      have hkl := (List.getElem?_eq_some_iff.1 hk).1
      by_cases hkr : k < rest.length + 1
      · rw [List.getElem?_append_left (by simpa using hkr), List.getElem?_map,
          List.getElem?_range hkr]
        simp
      · have hk' : k = rest.length + 1 := by omega
        rw [List.getElem?_append_right (by simp; omega)]
        subst hk'
        simp only [List.length_map, List.length_range, Nat.sub_self, List.getElem?_cons_zero]
        rw [hz] at hk
        have hx : z = x := Option.some.inj hk
        have hbe : b (rest.length + 1 + 1) = 0 := by
          have := hb.behind
          rw [hlen] at this
          exact this
        have := absorbed_layer layers hp a b hb _ z hz
        rw [hbe, mul_zero, add_zero] at this
        rw [hg1, this, hbe]

theorem sum_telescope (n : ℕ) (l : List F) (f : ℕ → F) (hl : l.length = n)
    (h : ∀ k < n, l[k]? = some (f k - f (k + 1))) : l.sum = f 0 - f n := by
  induction n generalizing l f with
  | zero => rw [List.length_eq_zero_iff.1 hl]; simp
  | succ n ih =>
    cases l with
    | nil => simp at hl
    | cons x l =>
      have h0 : x = f 0 - f 1 := by simpa using h 0 (by omega)
      have := ih l (fun k => f (k + 1)) (by simpa using hl)
        (fun k hk => by simpa using h (k + 1) (by omega))
      rw [List.sum_cons, this, h0, zero_add]
      ring

/-- Conservation: what the layers absorb, what goes through and what is reflected add up to what
reaches the system; every part is a fraction of it. -/
theorem C24_conservation (layers : List (Glazing F)) (hne : layers ≠ [])
    (hp : ∀ g ∈ layers, Physical g) (ht : NoTrap layers) :
    ∃ r l, combineLayers layers = .ok r ∧ alphas layers = .ok l ∧ l.length = layers.length ∧
      l.sum + r.tau + r.rhoFront = 1 ∧ (∀ x ∈ l, 0 ≤ x ∧ x ≤ 1) ∧
      0 ≤ r.tau ∧ r.tau ≤ 1 ∧ 0 ≤ r.rhoFront ∧ r.rhoFront ≤ 1 := by
  obtain ⟨a, b, hb, ha0, hb0⟩ := C24_balance_exists layers hp ht
  obtain ⟨r, hr, hrp⟩ := C24_combine_total layers hne hp ht
  obtain ⟨l, hl, hlen, hspec⟩ := C24_alphas_spec layers hp ht a b hb
  obtain ⟨h1, h2⟩ := C24_combine_spec layers r hp ht hr a b hb
  have hnn : ∀ x ∈ l, 0 ≤ x := by
    intro x hx
    obtain ⟨k, hk, rfl⟩ := List.mem_iff_getElem.1 hx
    have hg : layers[k]? = some layers[k] := List.getElem?_eq_getElem (by omega)
    have p := hp _ (List.mem_of_getElem? hg)
    have := hspec k _ hg
    rw [List.getElem?_eq_getElem hk] at this
    rw [Option.some.inj this]
    exact add_nonneg (mul_nonneg p.alphaFront (ha0 k)) (mul_nonneg p.alphaBack (hb0 _))
  have hsum : l.sum = 1 - r.tau - r.rhoFront := by
    have := sum_telescope layers.length l (fun k => a k - b k) hlen (fun k hk => by
      have hg : layers[k]? = some layers[k] := List.getElem?_eq_getElem hk
      rw [hspec k _ hg, absorbed_layer layers hp a b hb k _ hg]
      congr 1
      ring)
    rw [this, hb.incident, hb.behind, h1, h2]
    ring
  refine ⟨r, l, hr, hl, hlen, by rw [hsum]; ring, ?_, hrp.tau, ?_, hrp.rhoFront, ?_⟩
  · intro x hx
    refine ⟨hnn x hx, ?_⟩
    have := List.single_le_sum hnn x hx
    linarith [hrp.tau, hrp.rhoFront]
  · linarith [hrp.front, hrp.rhoFront, hrp.alphaFront]
  · linarith [hrp.front, hrp.tau, hrp.alphaFront]

/-- Two glazings with the same optics are the same. -/
theorem Physical_ext (g h : Glazing F) (hg : Physical g) (hh : Physical h) (h1 : g.tau = h.tau)
    (h2 : g.rhoFront = h.rhoFront) (h3 : g.rhoBack = h.rhoBack) : g = h := by
  ext
  · exact h1
  · exact h2
  · exact h3
  · linarith [hg.front, hh.front]
  · linarith [hg.back, hh.back]

/-- The algebra of associativity. -/
theorem assoc_alg (t1 f1 b1 t2 f2 b2 t3 f3 b3 : F) (D1 : 1 - b1 * f2 ≠ 0) (D2 : 1 - b2 * f3 ≠ 0)
    (D3 : 1 - (b2 + t2 ^ 2 * b1 / (1 - b1 * f2)) * f3 ≠ 0) :
    t1 * (t2 * t3 / (1 - b2 * f3)) / (1 - b1 * (f2 + t2 ^ 2 * f3 / (1 - b2 * f3)))
      = t1 * t2 / (1 - b1 * f2) * t3 / (1 - (b2 + t2 ^ 2 * b1 / (1 - b1 * f2)) * f3) ∧
    f1 + t1 ^ 2 * (f2 + t2 ^ 2 * f3 / (1 - b2 * f3)) / (1 - b1 * (f2 + t2 ^ 2 * f3 / (1 - b2 * f3)))
      = f1 + t1 ^ 2 * f2 / (1 - b1 * f2) + (t1 * t2 / (1 - b1 * f2)) ^ 2 * f3
        / (1 - (b2 + t2 ^ 2 * b1 / (1 - b1 * f2)) * f3) ∧
    b3 + t3 ^ 2 * b2 / (1 - b2 * f3) + (t2 * t3 / (1 - b2 * f3)) ^ 2 * b1
        / (1 - b1 * (f2 + t2 ^ 2 * f3 / (1 - b2 * f3)))
      = b3 + t3 ^ 2 * (b2 + t2 ^ 2 * b1 / (1 - b1 * f2))
        / (1 - (b2 + t2 ^ 2 * b1 / (1 - b1 * f2)) * f3) := by
  obtain ⟨d1, hd1⟩ : ∃ d, d = 1 - b1 * f2 := ⟨_, rfl⟩
  obtain ⟨d2, hd2⟩ : ∃ d, d = 1 - b2 * f3 := ⟨_, rfl⟩
  obtain ⟨E, hE⟩ : ∃ e, e = d1 * d2 - t2 ^ 2 * b1 * f3 := ⟨_, rfl⟩
  rw [← hd1] at D1 D3
  rw [← hd2] at D2
  have c3 : 1 - (b2 + t2 ^ 2 * b1 / d1) * f3 = E / d1 := by
    rw [eq_div_iff D1]
    have : t2 ^ 2 * b1 / d1 * d1 = t2 ^ 2 * b1 := div_mul_cancel₀ _ D1
    linear_combination (-f3) * this - hE - d1 * hd2
  have c4 : 1 - b1 * (f2 + t2 ^ 2 * f3 / d2) = E / d2 := by
    rw [eq_div_iff D2]
    have : t2 ^ 2 * f3 / d2 * d2 = t2 ^ 2 * f3 := div_mul_cancel₀ _ D2
    linear_combination (-b1) * this - hE - d2 * hd1
  rw [c3] at D3
  have hEne : E ≠ 0 := fun h => D3 (by rw [h, zero_div])
  rw [← hd1, ← hd2, c3, c4]
  refine ⟨?_, ?_, ?_⟩
  · field_simp
  · field_simp
    linear_combination (-t1 ^ 2 * f2) * hE + t1 ^ 2 * t2 ^ 2 * f3 * hd1
  · field_simp
    linear_combination t3 ^ 2 * b2 * hE - t3 ^ 2 * t2 ^ 2 * b1 * hd2

/-- Combining is associative. -/
theorem C24_assoc (g h k : Glazing F) (hg : Physical g) (hh : Physical h) (hk : Physical k)
    (hgb : g.rhoBack < 1) (hhb : h.rhoBack < 1) :
    ∃ gh hk' r, g.combine h = .ok gh ∧ h.combine k = .ok hk' ∧
      gh.combine k = .ok r ∧ g.combine hk' = .ok r := by
  obtain ⟨gh, e1, p1, t1, f1, b1, q1⟩ := combine_ok g h hg hh hgb
  obtain ⟨hk', e2, p2, t2, f2, b2, _⟩ := combine_ok h k hh hk hhb
  obtain ⟨r, e3, p3, t3, f3, b3, _⟩ := combine_ok gh k p1 hk (q1 hhb)
  obtain ⟨s, e4, p4, t4, f4, b4, _⟩ := combine_ok g hk' hg p2 hgb
  refine ⟨gh, hk', r, e1, e2, e3, ?_⟩
  have D1 := (denom_pos g h hg hh hgb).ne'
  have D2 := (denom_pos h k hh hk hhb).ne'
  have D3 := (denom_pos gh k p1 hk (q1 hhb)).ne'
  rw [e4]
  congr 1
  rw [b1] at D3
  unfold Glazing.combinedRhoBack at D3
  rw [mul_comm h.rhoFront g.rhoBack] at D3
  obtain ⟨a1, a2, a3⟩ := assoc_alg g.tau g.rhoFront g.rhoBack h.tau h.rhoFront h.rhoBack k.tau
    k.rhoFront k.rhoBack D1 D2 D3
  apply Physical_ext s r p4 p3
  · rw [t4, t3]
    unfold Glazing.combinedTau
    rw [t2, f2, t1, b1]
    unfold Glazing.combinedTau Glazing.combinedRhoBack Glazing.combinedRhoFront
    rw [mul_comm h.rhoFront g.rhoBack]
    exact a1
  · rw [f4, f3]
    unfold Glazing.combinedRhoFront
    rw [f2, f1, t1, b1]
    unfold Glazing.combinedTau Glazing.combinedRhoBack Glazing.combinedRhoFront
    rw [mul_comm h.rhoFront g.rhoBack]
    exact a2
  · rw [b4, b3]
    unfold Glazing.combinedRhoBack
    rw [t2, b2, f2, b1]
    unfold Glazing.combinedTau Glazing.combinedRhoBack Glazing.combinedRhoFront
    rw [mul_comm h.rhoFront g.rhoBack, mul_comm k.rhoFront h.rhoBack,
      mul_comm (h.rhoFront + _) g.rhoBack, mul_comm k.rhoFront (h.rhoBack + _)]
    exact a3

/-- However the layers are grouped, the equivalent layer is the same. -/
theorem C24_grouping (l1 l2 : List (Glazing F)) (h1 : l1 ≠ []) (h2 : l2 ≠ [])
    (hp : ∀ g ∈ l1 ++ l2, Physical g) (ht : NoTrap (l1 ++ l2)) :
    ∃ g1 g2 r, combineLayers l1 = .ok g1 ∧ combineLayers l2 = .ok g2 ∧ g1.combine g2 = .ok r ∧
      combineLayers (l1 ++ l2) = .ok r := by
  have hb : ∀ (l1 : List (Glazing F)), NoTrap (l1 ++ l2) → ∀ g ∈ l1, g.rhoBack < 1 := by
    intro l1 ht g hg
    apply ht g
    rw [List.dropLast_append_of_ne_nil h2]
    exact List.mem_append_left _ hg
  have ht2 : NoTrap l2 := by
    have := ht.drop l1.length
    rwa [List.drop_left] at this
  obtain ⟨g2, e2, p2, _⟩ := combineLayers_ok l2 h2 (fun g hg => hp g (by simp [hg])) ht2
  induction l1 with
  | nil => exact absurd rfl h1
  | cons g l1 ih =>
    have hg := hp g (by simp)
    have hgb := hb (g :: l1) ht g (by simp)
    cases hl : l1 with
    | nil =>
      obtain ⟨y, l2', rfl⟩ := List.exists_cons_of_ne_nil h2
      obtain ⟨r, er, _⟩ := combine_ok g g2 hg p2 hgb
      refine ⟨g, g2, r, rfl, e2, er, ?_⟩
      rw [List.cons_append, List.nil_append, combineLayers, e2]
      exact er
    | cons x l =>
      rw [← hl]
      have hne : l1 ≠ [] := by simp [hl]
      have ht' : NoTrap (l1 ++ l2) := ht.tail
      obtain ⟨g1, g2', r, f1, f2, f3, f4⟩ := ih hne (fun z hz => hp z (by simp at hz ⊢; tauto)) ht'
      have : g2' = g2 := by rw [e2] at f2; exact (Outcome.ok.inj f2).symm
      subst this
      have ht1 : NoTrap l1 := by
        intro z hz
        exact hb l1 ht' z (List.dropLast_subset _ hz)
      obtain ⟨g1', f1', q1, q1b⟩ := combineLayers_ok l1 hne (fun z hz => hp z (by simp [hz])) ht1
      have : g1' = g1 := by rw [f1] at f1'; exact (Outcome.ok.inj f1').symm
      subst this
      obtain ⟨gg, hk, s, a1, a2, a3, a4⟩ := C24_assoc g g1' g2' hg q1 p2 hgb (q1b (hb l1 ht'))
      have : hk = r := by rw [f3] at a2; exact (Outcome.ok.inj a2).symm
      subst this
      refine ⟨gg, g2', s, ?_, e2, a3, ?_⟩
      · rw [hl, combineLayers, ← hl, f1]
        exact a1
      · rw [List.cons_append, hl, List.cons_append, combineLayers, ← List.cons_append, ← hl, f4]
        exact a4

/-- The layers that the thermal model takes from a construction meet the hypotheses above, so that
the energy is conserved in every construction whose absorptances are not negative. -/
theorem C24_from_construction (layers : List (Layer F)) (gs : List (Glazing F))
    (h : glazingFromIter layers = .ok gs)
    (ha : ∀ t f b, Layer.normal t f b ∈ layers → 0 ≤ f.getD 0.84 ∧ 0 ≤ b.getD 0.84) :
    gs ≠ [] ∧ (∀ g ∈ gs, Physical g) ∧ NoTrap gs := by
  induction hn : layers.length using Nat.strong_induction_on generalizing layers gs with
  | _ n ih =>
    match layers, hn with
    | [], _ => simp [glazingFromIter] at h
    | .gas :: _, _ => simp [glazingFromIter] at h
    | .normal t f b :: rest, hn =>
      obtain ⟨ha1, ha2⟩ := ha t f b (by simp)
      rw [glazingFromIter] at h
      simp only [Glazing.new] at h
      split_ifs at h with hc hs
      · have hg : Physical (⟨t.getD 0, 1 - t.getD 0 - f.getD 0.84, 1 - t.getD 0 - b.getD 0.84,
            1 - t.getD 0 - (1 - t.getD 0 - f.getD 0.84),
            1 - t.getD 0 - (1 - t.getD 0 - b.getD 0.84)⟩ : Glazing F) :=
          ⟨hc.1, hc.2.2.1, hc.2.2.2.1, by simpa using ha1, by simpa using ha2, by ring, by ring⟩
        have : gs = [_] := (Outcome.ok.inj h).symm
        subst this
        refine ⟨by simp, ?_, by simp [NoTrap]⟩
        intro g hgm
        rw [List.mem_singleton.1 hgm]
        exact hg
      · have hg : Physical (⟨t.getD 0, 1 - t.getD 0 - f.getD 0.84, 1 - t.getD 0 - b.getD 0.84,
            1 - t.getD 0 - (1 - t.getD 0 - f.getD 0.84),
            1 - t.getD 0 - (1 - t.getD 0 - b.getD 0.84)⟩ : Glazing F) :=
          ⟨hc.1, hc.2.2.1, hc.2.2.2.1, by simpa using ha1, by simpa using ha2, by ring, by ring⟩
        simp only [Outcome.bind] at h
        match rest, hn with
        | [], _ =>
          have : gs = [_] := (Outcome.ok.inj h).symm
          subst this
          refine ⟨by simp, ?_, by simp [NoTrap]⟩
          intro g hgm
          rw [List.mem_singleton.1 hgm]
          exact hg
        | .normal _ _ _ :: _, _ => simp at h
        | .gas :: rest, hn =>
          dsimp only at h
          cases hr : glazingFromIter rest with
          | err => rw [hr] at h; simp at h
          | panic => rw [hr] at h; simp at h
          | ok gs' =>
            rw [hr] at h
            have : gs = _ :: gs' := (Outcome.ok.inj h).symm
            obtain ⟨i1, i2, i3⟩ := ih rest.length (by simp at hn; omega) rest gs' hr
              (fun t f b hm => ha t f b (by simp [hm])) rfl
            subst this
            refine ⟨by simp, ?_, ?_⟩
            · intro g hgm
              rcases List.mem_cons.1 hgm with rfl | hgm
              · exact hg
              · exact i2 g hgm
            · intro g hgm
              obtain ⟨y, l, rfl⟩ := List.exists_cons_of_ne_nil i1
              rw [List.dropLast_cons_cons] at hgm
              rcases List.mem_cons.1 hgm with rfl | hgm
              · show 1 - t.getD 0 - b.getD 0.84 < 1
                have ht : (0 : F) < 1e-9 := by norm_num
                push Not at hs
                linarith
              · exact i3 g hgm
      all_goals simp [Outcome.bind] at h

/-! ## Non-vacuity -/

/-- Double glazing with an opaque, reflective layer behind it. -/
example : ∃ r l, combineLayers [⟨0.8, 0.1, 0.15, 0.1, 0.05⟩, ⟨0.7, 0.2, 0.1, 0.1, 0.2⟩,
      (⟨0, 1, 1, 0, 0⟩ : Glazing ℚ)] = .ok r ∧
    alphas [⟨0.8, 0.1, 0.15, 0.1, 0.05⟩, ⟨0.7, 0.2, 0.1, 0.1, 0.2⟩, ⟨0, 1, 1, 0, 0⟩] = .ok l ∧
    l.sum + r.tau + r.rhoFront = 1 := by
  obtain ⟨r, l, h1, h2, _, h3, _⟩ := C24_conservation (F := ℚ)
    [⟨0.8, 0.1, 0.15, 0.1, 0.05⟩, ⟨0.7, 0.2, 0.1, 0.1, 0.2⟩, ⟨0, 1, 1, 0, 0⟩] (by simp)
    (by
      intro g hg
      simp only [List.mem_cons, List.not_mem_nil, or_false] at hg
      rcases hg with rfl | rfl | rfl <;> constructor <;> norm_num)
    (by
      intro g hg
      simp only [List.dropLast_cons_cons, List.dropLast_singleton, List.mem_cons,
        List.not_mem_nil, or_false] at hg
      rcases hg with rfl | rfl <;> norm_num)
  exact ⟨r, l, h1, h2, h3⟩

/-- A construction from which layers are taken. -/
example : glazingFromIter [Layer.normal (some (0.8 : ℚ)) (some 0.1) (some 0.1), .gas,
    .normal none none none] = .ok [⟨0.8, 0.1, 0.1, 0.1, 0.1⟩, ⟨0, 0.16, 0.16, 0.84, 0.84⟩] := by
  decide +kernel

end Simple.Heat
