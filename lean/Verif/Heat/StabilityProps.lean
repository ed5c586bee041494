import Mathlib.Data.Matrix.Basic
import Mathlib.LinearAlgebra.Matrix.Notation
import Mathlib.Tactic.NormNum
import Mathlib.Tactic.Ring
import Mathlib.Tactic.FieldSimp
import Mathlib.Tactic.Linarith
import Mathlib.Tactic.Positivity
import Mathlib.Tactic.LinearCombination
import Verif.Heat.StabilityModel
import Verif.Heat.DiscretizationProps

/-! # C27: the time step and the elements of a construction are stable -/

namespace Simple.Heat

open Spec

namespace Spec

/-- The data of a layer: gases have none, and those of solids are positive. -/
def Positive (m : Mat ℝ) : Prop :=
  0 < m.thickness ∧ ∀ s, m.substance = .normal s →
    ∃ k rho cp : ℝ, s.conductivity = some k ∧ s.density = some rho ∧ s.specificHeat = some cp ∧
      0 < k ∧ 0 < rho ∧ 0 < cp

/-- The matrix `Δt C⁻¹ K` of an element of size `dx` on its own, the limit case of the documentation
of `min_dx` (`discretization.rs:356-363`): `R = dx / k`, `C = ρ c_p dx`, and a resistance of 0.05 at
both sides. -/
noncomputable def elementMatrix (dt dx k rho cp : ℝ) : Matrix (Fin 2) (Fin 2) ℝ :=
  let R := dx / k
  let C := rho * cp * dx
  let Rs : ℝ := 0.05
  !![-(dt / (C * R)) - dt / (C * Rs), dt / (C * R);
     dt / (C * R), -(dt / (C * R)) - dt / (C * Rs)]

/-- Half of the element satisfies the documented criterion (`discretization.rs:376-387`). -/
def HalfStable (dt dx k rho cp : ℝ) : Prop :=
  dt / (rho * cp * 0.05) * (dx / 2) + 2 * dt * k / (rho * cp) ≤ (dx / 2) ^ 2

/-- Subdividing the time step in `n` is possible, and good for elements of `dx`. -/
def Good (modelDt minDt dx k rho cp : ℝ) (n : ℕ) : Prop :=
  minDt ≤ modelDt / n ∧ HalfStable (modelDt / n) dx k rho cp

end Spec

/-! ## The quadratic -/

private theorem minDx_ok (dt k rho cp : ℝ) (hdt : 0 < dt) (hk : 0 < k) (hr : 0 < rho) (hc : 0 < cp) :
    ∃ m, minDx dt k rho cp = .ok m ∧
      ∀ x, 0 < x → (x ≥ 2 * m ↔ HalfStable dt x k rho cp) := by
  set B := dt / (rho * cp * maxRs) with hB
  set C := 2 * dt * k / (rho * cp) with hC
  have hRs : 0 < maxRs := by norm_num [maxRs]
  have hBp : 0 < B := by positivity
  have hCp : 0 < C := by positivity
  have hb : -dt / (rho * cp * maxRs) = -B := by rw [hB]; ring
  have hc' : -2 * dt * k / (rho * cp) = -C := by rw [hC]; ring
  have hdisc : (-B) * (-B) - 4 * 1 * (-C) = B ^ 2 + 4 * C := by ring
  have hdp : 0 < B ^ 2 + 4 * C := by positivity
  have hsq : √(B ^ 2 + 4 * C) ^ 2 = B ^ 2 + 4 * C := Real.sq_sqrt hdp.le
  have hsp : B < √(B ^ 2 + 4 * C) := by
    apply Real.lt_sqrt_of_sq_lt
    linarith
  refine ⟨(B + √(B ^ 2 + 4 * C)) / 2, ?_, ?_⟩
  · unfold minDx
    simp only [hb, hc', hdisc]
    rw [if_pos hdp.le, if_pos (by linarith)]
    congr 1
    ring
  · intro x hx
    set s := √(B ^ 2 + 4 * C)
    unfold HalfStable
    have e : dt / (rho * cp * 0.05) = B := by rw [hB, maxRs]; norm_num
    rw [e]
    have fac : (x / 2) ^ 2 - (B * (x / 2) + C) = (x / 2 - (B + s) / 2) * (x / 2 + (s - B) / 2) := by
      linear_combination (1 / 4 : ℝ) * hsq
    have hpos : 0 < x / 2 + (s - B) / 2 := by linarith
    constructor
    · intro h
      have : 0 ≤ (x / 2 - (B + s) / 2) * (x / 2 + (s - B) / 2) :=
        mul_nonneg (by linarith) hpos.le
      linarith
    · intro h
      by_contra hlt
      have : (x / 2 - (B + s) / 2) * (x / 2 + (s - B) / 2) < 0 :=
        mul_neg_of_neg_of_pos (by linarith [not_le.1 hlt]) hpos
      linarith

/-- Elements that are stable remain so with a shorter time step. -/
private theorem halfStable_mono (dt dt' dx k rho cp : ℝ) (hdx : 0 < dx) (hk : 0 < k) (hr : 0 < rho)
    (hc : 0 < cp) (h : dt' ≤ dt) (hs : HalfStable dt dx k rho cp) : HalfStable dt' dx k rho cp := by
  unfold HalfStable at *
  have h1 : dt' / (rho * cp * 0.05) * (dx / 2) ≤ dt / (rho * cp * 0.05) * (dx / 2) := by gcongr
  have h2 : 2 * dt' * k / (rho * cp) ≤ 2 * dt * k / (rho * cp) := by gcongr
  linarith

/-! ## The loop -/

private theorem loop_spec (modelDt minDt dx k rho cp : ℝ) (hm : 0 < modelDt) (hdx : 0 < dx)
    (hk : 0 < k) (hr : 0 < rho) (hc : 0 < cp) : ∀ (f n : ℕ), 14 - n = f → 1 ≤ n → n ≤ 13 →
    ∃ r, nsegmentsLoop modelDt minDt dx k rho cp n = .ok r ∧
      (∀ x, r = some x → n ≤ x ∧ x ≤ 13 ∧ Good modelDt minDt dx k rho cp x ∧
        ∀ y, n ≤ y → y < x → ¬ Good modelDt minDt dx k rho cp y) ∧
      (r = none → ∀ y, n ≤ y → y ≤ 13 → ¬ Good modelDt minDt dx k rho cp y)
  | 0, n, hf, h1, h2 => by omega
  | f + 1, n, hf, h1, h2 => by
    have hn : (0 : ℝ) < n := by exact_mod_cast h1
    rw [nsegmentsLoop]
    by_cases hlt : modelDt / n < minDt
    · rw [if_pos hlt]
      refine ⟨none, rfl, by simp, fun _ y hy _ hg => ?_⟩
      have hy' : (n : ℝ) ≤ y := by exact_mod_cast hy
      have : modelDt / y ≤ modelDt / n := by gcongr
      exact absurd hg.1 (not_le.2 (lt_of_le_of_lt this hlt))
    · rw [if_neg hlt]
      obtain ⟨m, hm1, hm2⟩ := minDx_ok (modelDt / n) k rho cp (by positivity) hk hr hc
      rw [hm1]
      simp only [Outcome.bind]
      by_cases hge : dx ≥ 2 * m
      · rw [if_pos hge]
        refine ⟨some n, rfl, ?_, by simp⟩
        intro x hx
        cases hx
        exact ⟨le_rfl, h2, ⟨not_lt.1 hlt, (hm2 dx hdx).1 hge⟩, fun y hy hy' => by omega⟩
      · rw [if_neg hge]
        have hbad : ¬ Good modelDt minDt dx k rho cp n := fun hg => hge ((hm2 dx hdx).2 hg.2)
        by_cases h12 : n > 12
        · rw [if_pos h12]
          refine ⟨none, rfl, by simp, fun _ y hy hy' => ?_⟩
          have : y = n := by omega
          rw [this]; exact hbad
        · rw [if_neg h12]
          obtain ⟨r, hr1, hr2, hr3⟩ := loop_spec modelDt minDt dx k rho cp hm hdx hk hr hc f (n + 1)
            (by omega) (by omega) (by omega)
          refine ⟨r, hr1, fun x hx => ?_, fun hn y hy hy' => ?_⟩
          · obtain ⟨a, b, c, d⟩ := hr2 x hx
            refine ⟨by omega, b, c, fun y hy hy' => ?_⟩
            by_cases e : y = n
            · rw [e]; exact hbad
            · exact d y (by omega) hy'
          · by_cases e : y = n
            · rw [e]; exact hbad
            · exact hr3 hn y (by omega) hy'

namespace Spec

/-- The number of elements of a layer of the given thickness. -/
noncomputable def count (maxDx : ℝ) (m : Mat ℝ) : ℕ := ⌈m.thickness / maxDx⌉.toNat

/-- A subdivision that is good for a (solid) layer in its `count` elements. -/
def LayerGood (modelDt maxDx minDt : ℝ) (m : Mat ℝ) (n : ℕ) : Prop :=
  ∃ s k rho cp, m.substance = .normal s ∧ s.conductivity = some k ∧ s.density = some rho ∧
    s.specificHeat = some cp ∧
    Good modelDt minDt (m.thickness / count maxDx m) k rho cp n

end Spec

private theorem count_pos (maxDx : ℝ) (m : Mat ℝ) (h : 0 < maxDx) (hm : 0 < m.thickness) :
    0 < count maxDx m ∧ (⌈m.thickness / maxDx⌉ : ℝ) = (count maxDx m : ℝ) := by
  have : 0 < ⌈m.thickness / maxDx⌉ := Int.ceil_pos.2 (by positivity)
  unfold count
  refine ⟨by omega, ?_⟩
  have h2 : ((⌈m.thickness / maxDx⌉.toNat : ℕ) : ℤ) = ⌈m.thickness / maxDx⌉ := Int.toNat_of_nonneg this.le
  rw [show ((⌈m.thickness / maxDx⌉.toNat : ℕ) : ℝ) = (((⌈m.thickness / maxDx⌉.toNat : ℕ) : ℤ) : ℝ) by
    push_cast; rfl, h2]

private theorem nsegments_spec (modelDt maxDx minDt : ℝ) (hm : 0 < modelDt) (hx : 0 < maxDx)
    (m : Mat ℝ) (hp : Positive m) :
    ∃ r, nsegments modelDt maxDx minDt m.thickness m.substance = .ok r ∧
      (∀ e x, r = some (e, x) → e = count maxDx m ∧ 1 ≤ x ∧ x ≤ 13 ∧
        LayerGood modelDt maxDx minDt m x ∧
        ∀ y, 1 ≤ y → y < x → ¬ LayerGood modelDt maxDx minDt m y) ∧
      (r = none → ∀ y, 1 ≤ y → y ≤ 13 → ¬ LayerGood modelDt maxDx minDt m y) := by
  obtain ⟨hc0, hceq⟩ := count_pos maxDx m hx hp.1
  cases hs : m.substance with
  | gas g =>
    refine ⟨none, rfl, by simp, fun _ y _ _ hg => ?_⟩
    obtain ⟨s, _, _, _, h, _⟩ := hg
    rw [hs] at h
    cases h
  | normal s =>
    obtain ⟨k, rho, cp, h1, h2, h3, hk, hr, hc⟩ := hp.2 s hs
    have hdx : 0 < m.thickness / count maxDx m := by
      have : (0 : ℝ) < count maxDx m := by exact_mod_cast hc0
      have := hp.1
      positivity
    obtain ⟨r, hr1, hr2, hr3⟩ := loop_spec modelDt minDt (m.thickness / count maxDx m) k rho cp hm hdx
      hk hr hc 13 1 rfl le_rfl (by omega)
    have hg : ∀ n, LayerGood modelDt maxDx minDt m n ↔
        Good modelDt minDt (m.thickness / count maxDx m) k rho cp n := by
      intro n
      constructor
      · rintro ⟨s', k', r', c', e, e1, e2, e3, h⟩
        rw [hs] at e
        cases e
        rw [h1] at e1; rw [h2] at e2; rw [h3] at e3
        cases e1; cases e2; cases e3
        exact h
      · intro h
        exact ⟨s, k, rho, cp, hs, h1, h2, h3, h⟩
    refine ⟨r.map fun n => (count maxDx m, n), ?_, ?_, ?_⟩
    · simp only [nsegments, h1, h2, h3]
      rw [hceq, hr1]
      rfl
    · intro e x hex
      cases r with
      | none => cases hex
      | some n =>
        simp only [Option.map_some, Option.some.injEq, Prod.mk.injEq] at hex
        obtain ⟨rfl, rfl⟩ := hex
        obtain ⟨a, b, c, d⟩ := hr2 n rfl
        refine ⟨rfl, a, b, (hg n).2 c, fun y hy hy' h => d y hy hy' ((hg y).1 h)⟩
    · intro hn y hy hy' h
      cases r with
      | none => exact hr3 rfl y hy hy' ((hg y).1 h)
      | some n => cases hn

/-! ## The layers -/

private theorem discretizeLoop_spec (modelDt maxDx minDt : ℝ) (hm : 0 < modelDt) (hx : 0 < maxDx) :
    ∀ (layers : List (Mat ℝ)) (n0 : ℕ), (∀ m ∈ layers, Positive m) →
    ∃ n es, discretizeLoop modelDt maxDx minDt layers n0 = .ok (n, es) ∧ es.length = layers.length ∧
      n0 ≤ n ∧
      (∀ (j : ℕ) (m : Mat ℝ) (e : ℕ), layers[j]? = some m → es[j]? = some e →
        (∃ x, 1 ≤ x ∧ x ≤ n ∧ x ≤ 13 ∧ e = count maxDx m ∧ LayerGood modelDt maxDx minDt m x ∧
          ∀ y, 1 ≤ y → y < x → ¬ LayerGood modelDt maxDx minDt m y) ∨
        (e = 0 ∧ ∀ y, 1 ≤ y → y ≤ 13 → ¬ LayerGood modelDt maxDx minDt m y)) ∧
      (n = n0 ∨ ∃ (j : ℕ) (m : Mat ℝ), layers[j]? = some m ∧ 1 ≤ n ∧ n ≤ 13 ∧ LayerGood modelDt maxDx minDt m n ∧
        ∀ y, 1 ≤ y → y < n → ¬ LayerGood modelDt maxDx minDt m y)
  | [], n0, _ => ⟨n0, [], rfl, rfl, le_rfl, by simp, .inl rfl⟩
  | m :: rest, n0, hp => by
    obtain ⟨r, h1, h2, h3⟩ := nsegments_spec modelDt maxDx minDt hm hx m (hp m (by simp))
    rw [discretizeLoop, h1]
    simp only [Outcome.bind]
    cases r with
    | none =>
      obtain ⟨n, es, i1, i2, i3, i4, i5⟩ := discretizeLoop_spec modelDt maxDx minDt hm hx rest n0
        (fun m' h => hp m' (by simp [h]))
      simp only [i1]
      refine ⟨n, 0 :: es, rfl, by simp [i2], i3, ?_, ?_⟩
      · intro j m' e hm' he
        cases j with
        | zero => cases hm'; cases he; exact .inr ⟨rfl, h3 rfl⟩
        | succ j => exact i4 j m' e hm' he
      · rcases i5 with i5 | ⟨j, m', i5⟩
        · exact .inl i5
        · exact .inr ⟨j + 1, m', i5⟩
    | some p =>
      obtain ⟨e0, x⟩ := p
      obtain ⟨a, b, c, d, f⟩ := h2 e0 x rfl
      subst a
      obtain ⟨n, es, i1, i2, i3, i4, i5⟩ := discretizeLoop_spec modelDt maxDx minDt hm hx rest
        (if x > n0 then x else n0) (fun m' h => hp m' (by simp [h]))
      simp only [i1]
      have hxn : x ≤ n ∧ n0 ≤ n := by split_ifs at i3 <;> omega
      refine ⟨n, count maxDx m :: es, rfl, by simp [i2], hxn.2, ?_, ?_⟩
      · intro j m' e hm' he
        cases j with
        | zero =>
          cases hm'; cases he
          exact .inl ⟨x, b, hxn.1, c, rfl, d, f⟩
        | succ j => exact i4 j m' e hm' he
      · rcases i5 with i5 | ⟨j, m', i5⟩
        · split_ifs at i5 with hx0
          · right
            refine ⟨0, m, rfl, ?_⟩
            rw [i5]
            exact ⟨b, c, d, f⟩
          · exact .inl i5
        · exact .inr ⟨j + 1, m', i5⟩

/-- The eigenvalues of a stable element. -/
private theorem lambdas (dt dx k rho cp : ℝ) (hdt : 0 < dt) (hdx : 0 < dx) (hk : 0 < k) (hr : 0 < rho)
    (hc : 0 < cp) (h : HalfStable dt dx k rho cp) :
    dt / (rho * cp * dx * 0.05) + 2 * (dt / (rho * cp * dx * (dx / k))) ≤ 1 / 2 := by
  unfold HalfStable at h
  have e : dt / (rho * cp * dx * 0.05) + 2 * (dt / (rho * cp * dx * (dx / k)))
      = (dt / (rho * cp * 0.05) * dx + 2 * dt * k / (rho * cp)) / dx ^ 2 := by
    field_simp
  rw [e, div_le_iff₀ (by positivity)]
  have : 0 < 2 * dt * k / (rho * cp) := by positivity
  nlinarith

private theorem check_ok (modelDt : ℝ) (n : ℕ) (m : Mat ℝ) (e : ℕ) (hm : 0 < modelDt)
    (hp : Positive m)
    (h : e ≠ 0 → 1 ≤ n ∧ ∃ s k rho cp, m.substance = .normal s ∧ s.conductivity = some k ∧
      s.density = some rho ∧ s.specificHeat = some cp ∧
      HalfStable (modelDt / n) (m.thickness / e) k rho cp) :
    checkLayer modelDt n m e = .ok () := by
  unfold checkLayer
  by_cases he : e = 0
  · rw [if_pos he]
  rw [if_neg he]
  obtain ⟨hn, s, k, rho, cp, hs, h1, h2, h3, hst⟩ := h he
  obtain ⟨k', rho', cp', e1, e2, e3, hk, hr, hc⟩ := hp.2 s hs
  rw [h1] at e1; rw [h2] at e2; rw [h3] at e3
  cases e1; cases e2; cases e3
  rw [hs]
  simp only [h1, h2, h3, need, Outcome.bind]
  have hn' : (0 : ℝ) < n := by exact_mod_cast hn
  have he' : (0 : ℝ) < e := by exact_mod_cast Nat.pos_of_ne_zero he
  have hdt : 0 < modelDt / n := by positivity
  have hdx : 0 < m.thickness / e := by have := hp.1; positivity
  have key := lambdas _ _ k rho cp hdt hdx hk hr hc hst
  generalize modelDt / (n : ℝ) = dt at *
  generalize m.thickness / (e : ℝ) = dx at *
  have p1 : 0 < dt / (rho * cp * dx * 0.05) := by positivity
  have p2 : 0 < dt / (rho * cp * dx * (dx / k)) := by positivity
  have l1 : -dt / (maxRs * rho * cp * dx) = -(dt / (rho * cp * dx * 0.05)) := by
    unfold maxRs
    rw [neg_div]
    congr 2
    norm_num
    ring
  have l2 : 2 * dt / (dx / k * rho * cp * dx) = 2 * (dt / (rho * cp * dx * (dx / k))) := by
    field_simp
  rw [l1, l2, if_pos]
  refine ⟨by linarith, by linarith, by linarith, by linarith⟩

private theorem checks_ok (modelDt : ℝ) (n : ℕ) : ∀ (ms : List (Mat ℝ)) (es : List ℕ),
    (∀ (j : ℕ) (m : Mat ℝ) (e : ℕ), ms[j]? = some m → es[j]? = some e → checkLayer modelDt n m e = .ok ()) →
    checkLayers modelDt n ms es = .ok ()
  | [], _, _ => rfl
  | _ :: _, [], _ => rfl
  | m :: ms, e :: es, h => by
    rw [checkLayers, h 0 m e rfl rfl]
    exact checks_ok modelDt n ms es fun j m' e' h1 h2 => h (j + 1) m' e' h1 h2

/-- C27: the discretisation of a construction of layers with positive properties always succeeds (its
assertions hold) with one number of elements for each layer and a subdivision of the time step of at
most 13, such that

* a layer has elements if and only if it can be made stable with some subdivision of at most 13 that
  respects the minimum time step, and then they are as many as needed to be no longer than `maxDx`;
* the subdivision is the least one that is good for all the layers that have elements, and the time
  step respects the minimum.

Missing: layers that lack a property, for which it panics (`C27_violated_missing_density`). -/
theorem C27_discretization_partial (debug : Bool) (layers : List (Mat ℝ)) (modelDt maxDx minDt : ℝ)
    (hm : 0 < modelDt) (hx : 0 < maxDx) (hp : ∀ m ∈ layers, Positive m) :
    ∃ n es, discretizeConstruction debug layers modelDt maxDx minDt = .ok (n, es) ∧
      es.length = layers.length ∧ n ≤ 13 ∧
      (∀ (j : ℕ) (m : Mat ℝ) (e : ℕ), layers[j]? = some m → es[j]? = some e →
        (e ≠ 0 → e = count maxDx m ∧ LayerGood modelDt maxDx minDt m n) ∧
        (e = 0 ↔ ∀ y, 1 ≤ y → y ≤ 13 → ¬ LayerGood modelDt maxDx minDt m y)) ∧
      (n = 0 ↔ ∀ e ∈ es, e = 0) ∧
      (∀ n', 1 ≤ n' → n' < n → ∃ (j : ℕ) (m : Mat ℝ) (e : ℕ), layers[j]? = some m ∧ es[j]? = some e ∧ e ≠ 0 ∧
        ¬ LayerGood modelDt maxDx minDt m n') := by
  obtain ⟨n, es, h1, h2, _, h4, h5⟩ := discretizeLoop_spec modelDt maxDx minDt hm hx layers 0 hp
  have hn13 : n ≤ 13 := by
    rcases h5 with h5 | ⟨_, _, _, _, h5, _⟩ <;> omega
  have hminDt : 1 ≤ n → minDt ≤ modelDt / n := by
    intro h
    rcases h5 with h5 | ⟨_, m, _, _, _, ⟨s, k, r, c, _, _, _, _, hg⟩, _⟩
    · omega
    · exact hg.1
  have hmono : ∀ m ∈ layers, ∀ x, 1 ≤ x → x ≤ n → LayerGood modelDt maxDx minDt m x →
      LayerGood modelDt maxDx minDt m n := by
    intro m hmem x hx1 hxn ⟨s, k, r, c, hs, e1, e2, e3, hg⟩
    refine ⟨s, k, r, c, hs, e1, e2, e3, hminDt (by omega), ?_⟩
    obtain ⟨k', r', c', e1', e2', e3', hk, hr, hc⟩ := (hp m hmem).2 s hs
    rw [e1] at e1'; rw [e2] at e2'; rw [e3] at e3'
    cases e1'; cases e2'; cases e3'
    have hcp := (count_pos maxDx m hx (hp m hmem).1).1
    have hcp' : (0 : ℝ) < count maxDx m := by exact_mod_cast hcp
    have ht := (hp m hmem).1
    apply halfStable_mono (modelDt / x) (modelDt / n) _ k r c (by positivity) hk hr hc _ hg.2
    have : (0 : ℝ) < x := by exact_mod_cast hx1
    have : (x : ℝ) ≤ n := by exact_mod_cast hxn
    gcongr
  have hlayer : ∀ (j : ℕ) (m : Mat ℝ) (e : ℕ), layers[j]? = some m → es[j]? = some e →
        (e ≠ 0 → 1 ≤ n ∧ e = count maxDx m ∧ LayerGood modelDt maxDx minDt m n) ∧
        (e = 0 ↔ ∀ y, 1 ≤ y → y ≤ 13 → ¬ LayerGood modelDt maxDx minDt m y) := by
    intro j m e hj he
    have hmem := List.mem_of_getElem? hj
    rcases h4 j m e hj he with ⟨x, a, b, c, d, f, g⟩ | ⟨a, b⟩
    · refine ⟨fun _ => ⟨by omega, d, hmono m hmem x a b f⟩, ?_⟩
      constructor
      · intro h0
        have := (count_pos maxDx m hx (hp m hmem).1).1
        omega
      · intro hall
        exact absurd f (hall x a c)
    · exact ⟨fun h => absurd a h, fun _ => b, fun _ => a⟩
  refine ⟨n, es, ?_, h2, hn13, fun j m e hj he => ⟨fun h => ((hlayer j m e hj he).1 h).2,
    (hlayer j m e hj he).2⟩, ?_, ?_⟩
  · unfold discretizeConstruction
    rw [h1]
    simp only [Outcome.bind]
    have : (if debug = true then checkLayers modelDt n layers es else Outcome.ok ()) = .ok () := by
      cases debug with
      | false => rfl
      | true =>
        rw [if_pos rfl]
        apply checks_ok
        intro j m e hj he
        apply check_ok modelDt n m e hm (hp m (List.mem_of_getElem? hj))
        intro hne
        obtain ⟨a, b, s, k, r, c, hs, e1, e2, e3, hg⟩ := (hlayer j m e hj he).1 hne
        refine ⟨a, s, k, r, c, hs, e1, e2, e3, ?_⟩
        rw [b]
        exact hg.2
    rw [this]
  · constructor
    · intro h0 e he
      obtain ⟨j, hj, rfl⟩ := List.mem_iff_getElem.1 he
      by_contra hne
      have := ((hlayer j layers[j] es[j] (List.getElem?_eq_getElem (by omega))
        (List.getElem?_eq_getElem hj)).1 hne).1
      omega
    · intro hall
      rcases h5 with h5 | ⟨j, m, hj, h1n, h13, hg, _⟩
      · exact h5
      · exfalso
        have hjl := (List.getElem?_eq_some_iff.1 hj).1
        have hje : es[j]? = some es[j] := List.getElem?_eq_getElem (by omega)
        have := (hlayer j m _ hj hje).2.1 (hall _ (List.getElem_mem _)) n h1n h13
        exact this hg
  · intro n' hn1 hn2
    rcases h5 with h5 | ⟨j, m, hj, h1n, h13, hg, hmin⟩
    · omega
    · have hjl := (List.getElem?_eq_some_iff.1 hj).1
      have hje : es[j]? = some es[j] := List.getElem?_eq_getElem (by omega)
      refine ⟨j, m, _, hj, hje, ?_, hmin n' hn1 hn2⟩
      intro h0
      exact (hlayer j m _ hj hje).2.1 h0 n h1n h13 hg

/-- C27: every element of a layer with mass is no longer than `maxDx`, the time step is no shorter than
the minimum and the eigenvalues of the limit case of the element are all between `-1/2` and 0, well
within the stability region of the Euler method, `(-2, 0)`. -/
theorem C27_stable (debug : Bool) (layers : List (Mat ℝ)) (modelDt maxDx minDt : ℝ)
    (hm : 0 < modelDt) (hx : 0 < maxDx) (hp : ∀ m ∈ layers, Positive m) (n : ℕ) (es : List ℕ)
    (h : discretizeConstruction debug layers modelDt maxDx minDt = .ok (n, es))
    (j : ℕ) (m : Mat ℝ) (e : ℕ) (hj : layers[j]? = some m) (he : es[j]? = some e) (hne : e ≠ 0) :
    m.thickness / e ≤ maxDx ∧ minDt ≤ modelDt / n ∧
    ∃ s k rho cp, m.substance = .normal s ∧ s.conductivity = some k ∧ s.density = some rho ∧
      s.specificHeat = some cp ∧
      ∀ (v : Fin 2 → ℝ) (ξ : ℝ), v ≠ 0 →
        (elementMatrix (modelDt / n) (m.thickness / e) k rho cp).mulVec v = ξ • v →
        -1 / 2 ≤ ξ ∧ ξ < 0 := by
  obtain ⟨n', es', h', hlen, _, hl, hz, _⟩ :=
    C27_discretization_partial debug layers modelDt maxDx minDt hm hx hp
  rw [h] at h'
  cases h'
  have hmem := List.mem_of_getElem? hj
  have hn1 : 1 ≤ n := by
    by_contra h0
    exact hne (hz.1 (by omega) e (List.mem_of_getElem? he))
  obtain ⟨hcount, s, k, rho, cp, hs, e1, e2, e3, hg⟩ := (hl j m e hj he).1 hne
  obtain ⟨k', r', c', e1', e2', e3', hk, hr, hc⟩ := (hp m hmem).2 s hs
  rw [e1] at e1'; rw [e2] at e2'; rw [e3] at e3'
  cases e1'; cases e2'; cases e3'
  have ht := (hp m hmem).1
  have he' : (0 : ℝ) < e := by exact_mod_cast Nat.pos_of_ne_zero hne
  have hn' : (0 : ℝ) < n := by exact_mod_cast hn1
  refine ⟨?_, hg.1, s, k, rho, cp, hs, e1, e2, e3, ?_⟩
  · rw [div_le_iff₀ he', hcount, ← (count_pos maxDx m hx ht).2]
    have := Int.le_ceil (m.thickness / maxDx)
    rw [div_le_iff₀ hx] at this
    linarith
  · intro v ξ hv hev
    rw [← hcount] at hg
    have key := lambdas (modelDt / n) (m.thickness / e) k rho cp (by positivity) (by positivity) hk hr hc
      hg.2
    have hdt : 0 < modelDt / n := by positivity
    have hdx : 0 < m.thickness / e := by positivity
    generalize modelDt / (n : ℝ) = dt at *
    generalize m.thickness / (e : ℝ) = dx at *
    have p1 : 0 < dt / (rho * cp * dx * 0.05) := by positivity
    have p2 : 0 < dt / (rho * cp * dx * (dx / k)) := by positivity
    have q0 := congrFun hev 0
    have q1 := congrFun hev 1
    simp only [elementMatrix, Matrix.mulVec, dotProduct, Fin.sum_univ_two, Matrix.of_apply,
      Matrix.cons_val', Matrix.cons_val_zero, Matrix.cons_val_one, Pi.smul_apply,
      smul_eq_mul, Matrix.cons_val_fin_one] at q0 q1
    generalize dt / (rho * cp * dx * 0.05) = b at *
    generalize dt / (rho * cp * dx * (dx / k)) = a at *
    have s1 : (ξ + b) * (v 0 + v 1) = 0 := by linear_combination -q0 - q1
    have s2 : (ξ + b + 2 * a) * (v 0 - v 1) = 0 := by linear_combination -q0 + q1
    rcases mul_eq_zero.1 s1 with s1 | s1
    · constructor <;> linarith
    · rcases mul_eq_zero.1 s2 with s2 | s2
      · constructor <;> linarith
      · exfalso
        apply hv
        funext i
        fin_cases i
        · show v 0 = 0; linarith
        · show v 1 = 0; linarith

/-- Not so when a property is missing: instead of the error that its signature announces, the
discretisation panics for any construction with a solid layer that lacks the density. -/
theorem C27_violated_missing_density (debug : Bool) (m : Mat ℝ) (s : NormalSubstance ℝ)
    (rest : List (Mat ℝ)) (modelDt maxDx minDt : ℝ) (hs : m.substance = .normal s)
    (hd : s.density = none) :
    discretizeConstruction debug (m :: rest) modelDt maxDx minDt = .panic := by
  have : nsegments modelDt maxDx minDt m.thickness m.substance = .panic := by
    obtain ⟨k, r, c, e1, e2⟩ := s
    simp only at hd
    subst hd
    rw [hs]
    cases k <;> rfl
  unfold discretizeConstruction
  rw [discretizeLoop, this]
  rfl

/-- C25, C27: from a construction to its nodes.  If its gases are standard and lie between solids, the
discretisation of a construction of layers with positive properties succeeds. -/
theorem C27_new (debug : Bool) (layers : List (Mat ℝ)) (modelDt maxDx minDt height angle : ℝ)
    (hm : 0 < modelDt) (hx : 0 < maxDx) (hp : ∀ m ∈ layers, Positive m) (hne : layers ≠ [])
    (hgas : ∀ (j : ℕ) (m : Mat ℝ) (g : Option GasSpec), layers[j]? = some m → m.substance = .gas g →
      g.isSome ∧ 0 < j ∧ IsSolid layers (j - 1) ∧ IsSolid layers (j + 1)) :
    ∃ d n es, discretizationNew debug layers modelDt maxDx minDt height angle = .ok d ∧
      discretizeConstruction debug layers modelDt maxDx minDt = .ok (n, es) ∧
      d.tstepSubdivision = n ∧ d.nElements = es := by
  obtain ⟨n, es, h, hlen, _⟩ := C27_discretization_partial debug layers modelDt maxDx minDt hm hx hp
  have hacc : Acceptable layers es := by
    intro j m e hj _
    refine ⟨fun s hs => ?_, fun g hg => hgas j m g hj hg⟩
    obtain ⟨k, r, c, h1, h2, h3, _⟩ := (hp m (List.mem_of_getElem? hj)).2 s hs
    simp [h1, h2, h3]
  obtain ⟨d, hd, h1, h2, _⟩ := (C25_build layers n es height angle hlen hne).1 hacc
  refine ⟨d, n, es, ?_, h, h1, h2⟩
  unfold discretizationNew
  rw [h]
  exact hd

/-! ### Non-vacuity: 20 cm of brick, 4 cm elements, in time steps of a quarter of an hour -/

noncomputable section

private def brickR : Mat ℝ := ⟨1/5, .normal ⟨some (4/5), some 1700, some 800, none, none⟩⟩

private theorem brick_positive : ∀ m ∈ [brickR], Positive m := by
  intro m hm
  rw [List.mem_singleton] at hm
  subst hm
  refine ⟨by norm_num [brickR], fun s hs => ?_⟩
  cases hs
  exact ⟨4/5, 1700, 800, rfl, rfl, rfl, by norm_num, by norm_num, by norm_num⟩

example : ∃ n, 0 < n ∧ discretizeConstruction true [brickR] 900 (1/25) 60 = .ok (n, [5]) := by
  obtain ⟨n, es, h, hlen, hn, hl, hz, _⟩ := C27_discretization_partial true [brickR] 900 (1/25) 60
    (by norm_num) (by norm_num) brick_positive
  obtain ⟨e, rfl⟩ := List.length_eq_one_iff.1 hlen
  have hc : count (1/25) brickR = 5 := by
    have : ⌈(1/5 : ℝ) / (1/25)⌉ = 5 := by
      rw [show (1/5 : ℝ) / (1/25) = ((5 : ℤ) : ℝ) by norm_num, Int.ceil_intCast]
    show ⌈(1/5 : ℝ) / (1/25)⌉.toNat = 5
    rw [this]; rfl
  have hgood : LayerGood 900 (1/25) 60 brickR 13 := by
    refine ⟨_, 4/5, 1700, 800, rfl, rfl, rfl, rfl, ?_, ?_⟩
    · norm_num
    · rw [hc]
      unfold HalfStable
      norm_num [brickR]
  have he : e ≠ 0 := fun h0 => ((hl 0 brickR e rfl rfl).2.1 h0) 13 (by norm_num) le_rfl hgood
  refine ⟨n, ?_, ?_⟩
  · by_contra h0
    exact he (hz.1 (by omega) e (by simp))
  · rw [h, ((hl 0 brickR e rfl rfl).1 he).1, hc]

end

end Simple.Heat
