import Mathlib.Analysis.SpecialFunctions.Integrals.Basic
import Mathlib.Data.Nat.Count
import Mathlib.Data.Int.CardIntervalMod
import Mathlib.Tactic.Positivity
import Mathlib.Tactic.FieldSimp
import Mathlib.Tactic.Linarith
import Verif.Geometry.DiskProps
import Verif.Render.TracerModel

/-! # C76: the estimates of the ray tracer -/

namespace Simple.Render.Tracer

open Geometry Materials MeasureTheory

namespace Spec

/-- There are no lights, and no material emits light. -/
def Dark (w : World) : Prop :=
  (∀ ray, w.distant ray = []) ∧ (∀ ray hit, w.cast ray = some hit → hit.emits = false) ∧ ∀ d ray, w.direct d ray = gray 0

/-- The sky has the same brightness everywhere, and no colour. -/
def UniformSky (w : World) (l : ℝ) : Prop := w.sky = some (fun _ => l) ∧ w.skyColour = none

/-- Surfaces are grey and do not make light: what a sample carries is the same for all channels, between the two values
given. -/
def Grey (w : World) (low high : ℝ) : Prop :=
  ∀ d ray hit s p, w.cast ray = some hit → w.sample d ray = some (s, p) →
    ∃ k, low ≤ k ∧ k ≤ high ∧ ∀ i, s.spectrum i * |hit.normal.dot s.wi| / s.pdf = k

/-- Nothing in the scene takes light away by being negative. -/
structure NonNegative (w : World) : Prop where
  distant : ∀ ray, ∀ l ∈ w.distant ray, ∀ c p, l = some (c, p) → ∀ i, 0 ≤ c i
  colour : ∀ ray hit, w.cast ray = some hit → ∀ i, 0 ≤ hit.colour i
  sky : ∀ f, w.sky = some f → ∀ v, 0 ≤ f v
  skyColour : ∀ c, w.skyColour = some c → ∀ i, 0 ≤ c i
  direct : ∀ d ray i, 0 ≤ w.direct d ray i
  sample : ∀ d ray s p, w.sample d ray = some (s, p) → 0 < s.pdf ∧ ∀ i, 0 ≤ s.spectrum i
  draw : ∀ d, 0 ≤ w.draw d ∧ w.draw d < 1

end Spec

open Spec

/-- C76: the weights of the two ways to find a light are between zero and one and add up to one. -/
theorem C76_weights (na nb : ℕ) (p q : ℝ) (hp : 0 ≤ p) (hq : 0 ≤ q) (h : 0 < na * p ∨ 0 < nb * q) :
    powerHeuristic na p nb q + powerHeuristic nb q na p = 1 ∧ 0 ≤ powerHeuristic na p nb q ∧ powerHeuristic na p nb q ≤ 1 ∧
      balanceHeuristic na p nb q + balanceHeuristic nb q na p = 1 ∧ 0 ≤ balanceHeuristic na p nb q ∧
      balanceHeuristic na p nb q ≤ 1 := by
  have ha : 0 ≤ (na : ℝ) * p := by positivity
  have hb : 0 ≤ (nb : ℝ) * q := by positivity
  unfold powerHeuristic balanceHeuristic
  simp only
  generalize (na : ℝ) * p = a at *
  generalize (nb : ℝ) * q = b at *
  have h1 : 0 < a * a + b * b := by
    rcases h with h | h
    · nlinarith [mul_pos h h, mul_nonneg hb hb]
    · nlinarith [mul_pos h h, mul_nonneg ha ha]
  have h2 : 0 < a + b := by rcases h with h | h <;> linarith
  refine ⟨?_, by positivity, ?_, ?_, by positivity, ?_⟩
  · rw [add_comm (b * b), ← add_div, div_self h1.ne']
  · rw [div_le_one h1]; nlinarith [mul_nonneg hb hb]
  · rw [add_comm b, ← add_div, div_self h2.ne']
  · rw [div_le_one h2]; linarith

example : powerHeuristic 1 1 1 3 = 1 / 10 ∧ balanceHeuristic 1 1 1 3 = 1 / 4 := by
  unfold powerHeuristic balanceHeuristic; norm_num

private theorem share (N m v : ℕ) (hN : 0 < N) (h : 0 < m) :
    |(((N / m + if v % m < N % m then 1 else 0 : ℕ) : ℝ)) / N - 1 / m| < 1 / N := by
  have hNpos : (0 : ℝ) < N := by exact_mod_cast hN
  have hmr : (0 : ℝ) < m := by exact_mod_cast h
  have hdiv : (N : ℝ) = m * ((N / m : ℕ) : ℝ) + ((N % m : ℕ) : ℝ) := by exact_mod_cast (Nat.div_add_mod N m).symm
  have hlt : ((N % m : ℕ) : ℝ) < m := by exact_mod_cast Nat.mod_lt N h
  have hge : (0 : ℝ) ≤ ((N % m : ℕ) : ℝ) := by positivity
  have key : ∀ c : ℝ, |c - N / m| < 1 → |c / N - 1 / m| < 1 / N := by
    intro c hc
    have : c / N - 1 / m = (c - N / m) / N := by field_simp
    rw [this, abs_div, abs_of_pos hNpos]
    exact div_lt_div_of_pos_right hc hNpos
  apply key
  have hq : (N : ℝ) / m = ((N / m : ℕ) : ℝ) + ((N % m : ℕ) : ℝ) / m := by
    rw [div_eq_iff hmr.ne', add_mul, div_mul_cancel₀ _ hmr.ne']
    linarith
  have hr1 : ((N % m : ℕ) : ℝ) / m < 1 := (div_lt_one hmr).2 hlt
  have hr0 : 0 ≤ ((N % m : ℕ) : ℝ) / m := by positivity
  by_cases hv' : v % m < N % m
  · rw [if_pos hv', hq]
    have : (0 : ℝ) < ((N % m : ℕ) : ℝ) := by exact_mod_cast Nat.pos_of_ne_zero (by omega)
    have : 0 < ((N % m : ℕ) : ℝ) / m := by positivity
    push_cast
    rw [abs_lt]
    constructor <;> linarith
  · rw [if_neg hv', hq]
    push_cast
    rw [abs_lt]
    constructor <;> linarith

/-- C76: when there are lights one of them is chosen, all with the probability told, up to the number of random integers
over which it is impossible to be exact. -/
theorem C76_choice (lights distant : ℕ) (h : 0 < lights + distant) (which : ℕ ⊕ ℕ)
    (hw : match which with | .inl k => k < lights | .inr k => k < distant) :
    (∀ i, ∃ k, sampleLight lights distant i = some (k, 1 / ((lights + distant : ℕ) : ℝ))) ∧
      |(Nat.count (fun i => (sampleLight lights distant i).map Prod.fst = some which) (2 ^ 64) : ℝ) / 2 ^ 64 -
        1 / ((lights + distant : ℕ) : ℝ)| < 1 / 2 ^ 64 := by
  have hn : ¬ (lights = 0 ∧ distant = 0) := by omega
  constructor
  · intro i
    unfold sampleLight
    rw [if_neg hn]
    simp only
    by_cases hi : i % (lights + distant) < lights
    · rw [if_pos hi]; exact ⟨_, rfl⟩
    · rw [if_neg hi]; exact ⟨_, rfl⟩
  · obtain ⟨v, hv, hiff⟩ : ∃ v, v < lights + distant ∧ ∀ i, (sampleLight lights distant i).map Prod.fst = some which ↔
        i ≡ v [MOD lights + distant] := by
      cases which with
      | inl k =>
        simp only at hw
        refine ⟨k, by omega, fun i => ?_⟩
        unfold sampleLight Nat.ModEq
        rw [if_neg hn, Nat.mod_eq_of_lt (a := k) (by omega)]
        simp only
        by_cases hi : i % (lights + distant) < lights
        · rw [if_pos hi]; simp
        · rw [if_neg hi]; simp; omega
      | inr k =>
        simp only at hw
        refine ⟨lights + k, by omega, fun i => ?_⟩
        unfold sampleLight Nat.ModEq
        rw [if_neg hn, Nat.mod_eq_of_lt (a := lights + k) (by omega)]
        simp only
        by_cases hi : i % (lights + distant) < lights
        · rw [if_pos hi]; simp; omega
        · rw [if_neg hi]; simp; omega
    have hcount : Nat.count (fun i => (sampleLight lights distant i).map Prod.fst = some which) (2 ^ 64) =
        Nat.count (fun i => i ≡ v [MOD lights + distant]) (2 ^ 64) :=
      le_antisymm (Nat.count_mono_left fun i _ => (hiff i).1) (Nat.count_mono_left fun i _ => (hiff i).2)
    rw [hcount, Nat.count_modEq_card _ h]
    have := share (2 ^ 64) (lights + distant) v (by positivity) h
    norm_num at this ⊢
    exact this

/-- C76: the roulette does not change the light that is expected: over all numbers drawn, what remains of a path has the
mean of what it was; paths that carry nothing always end. -/
theorem C76_roulette (beta : Spectrum) (i : Fin 3) :
    (0 < beta.radiance → ∫ u in (0 : ℝ)..1, (match roulette beta u with | none => 0 | some b => b i) = beta i) ∧
      (beta.radiance ≤ 0 → ∀ u, u < 1 → roulette beta u = none) := by
  constructor
  · intro h
    have hq1 : Max.max (1 - beta.radiance) 0 < 1 := max_lt (by linarith) one_pos
    have hq0 : 0 ≤ Max.max (1 - beta.radiance) 0 := le_max_right _ _
    unfold roulette
    simp only
    generalize Max.max (1 - beta.radiance) 0 = q at *
    have e : (fun u : ℝ => (match (if u < q then none else some fun i => beta i / (1 - q) : Option Spectrum) with
        | none => 0 | some b => b i)) = fun u => if u < q then 0 else beta i / (1 - q) := by
      funext u
      by_cases hu : u < q
      · rw [if_pos hu, if_pos hu]
      · rw [if_neg hu, if_neg hu]
    rw [e]
    have hae : ∀ᵐ x : ℝ, x ≠ q := by simp [ae_iff]
    have c1 : ∀ᵐ x : ℝ, x ∈ Set.uIoc 0 q → (fun _ => (0 : ℝ)) x = (fun u => if u < q then 0 else beta i / (1 - q)) x := by
      filter_upwards [hae] with x hx hm
      rw [Set.uIoc_of_le hq0] at hm
      exact (if_pos (lt_of_le_of_ne hm.2 hx)).symm
    have c2 : ∀ᵐ x : ℝ, x ∈ Set.uIoc q 1 → (fun _ => beta i / (1 - q)) x = (fun u => if u < q then 0 else beta i / (1 - q)) x := by
      filter_upwards with x hm
      rw [Set.uIoc_of_le hq1.le] at hm
      exact (if_neg (not_lt.2 hm.1.le)).symm
    have i1 : IntervalIntegrable (fun u => if u < q then 0 else beta i / (1 - q)) volume 0 q :=
      (intervalIntegrable_const (c := (0 : ℝ))).congr_ae ((ae_restrict_iff' measurableSet_uIoc).2 c1)
    have i2 : IntervalIntegrable (fun u => if u < q then 0 else beta i / (1 - q)) volume q 1 :=
      (intervalIntegrable_const (c := beta i / (1 - q))).congr_ae ((ae_restrict_iff' measurableSet_uIoc).2 c2)
    rw [← intervalIntegral.integral_add_adjacent_intervals i1 i2, ← intervalIntegral.integral_congr_ae c1,
      ← intervalIntegral.integral_congr_ae c2]
    simp only [intervalIntegral.integral_const, smul_eq_mul, mul_zero, zero_add]
    have : 1 - q ≠ 0 := by linarith
    field_simp
  · intro h u hu
    unfold roulette
    simp only
    rw [if_pos (lt_of_lt_of_le hu (le_trans (by linarith) (le_max_left _ _)))]

/-- A grey path with a quarter of its light survives one time out of four, and then carries all of it. -/
example : roulette (gray (1 / 4)) (1 / 2) = none ∧ roulette (gray (1 / 4)) (7 / 8) = some (gray 1) := by
  have h : (gray (1 / 4)).radiance = 1 / 4 := by unfold Spectrum.radiance gray; norm_num
  unfold roulette
  rw [h]
  constructor
  · norm_num
  · norm_num
    funext i
    simp [gray]

private theorem radiance_gray (b : ℝ) : (gray b).radiance = b := by
  unfold Spectrum.radiance gray
  ring

/-- In a dark scene of grey surfaces, under a uniform sky, all light carried is one. -/
private theorem furnace (w : World) (l : ℝ) (hd : Dark w) (hs : UniformSky w l) (hg : Grey w 0 1) (hdraw : ∀ d, w.draw d < 1) :
    ∀ left depth ray p specular, follow w left depth ray p (gray 1) specular = gray 0 ∨
      follow w left depth ray p (gray 1) specular = gray l := by
  intro left
  induction left with
  | zero =>
    intro depth ray p specular
    unfold follow
    cases hc : w.cast ray with
    | none =>
      right
      simp only
      funext i
      unfold outside
      rw [hd.1 ray, hs.1, hs.2]
      simp [gray]
    | some hit =>
      left
      simp only
      cases hp : hit.parallel with
      | true => simp
      | false =>
        rw [hd.2.1 ray hit hc]
        simp only [Bool.false_eq_true, if_false, hd.2.2]
        cases hit.specularOnly
        · funext i; simp [gray]
        · simp
  | succ left ih =>
    intro depth ray p specular
    unfold follow
    cases hc : w.cast ray with
    | none =>
      right
      simp only
      funext i
      unfold outside
      rw [hd.1 ray, hs.1, hs.2]
      simp [gray]
    | some hit =>
      simp only
      cases hp : hit.parallel with
      | true => simp
      | false =>
        rw [hd.2.1 ray hit hc]
        simp only [Bool.false_eq_true, if_false, hd.2.2]
        have hhere : (if hit.specularOnly = true then gray 0 else fun i => gray 1 i * gray 0 i) = gray 0 := by
          cases hit.specularOnly
          · funext i; simp [gray]
          · simp
        rw [hhere]
        cases hsm : w.sample depth ray with
        | none => simp
        | some sp =>
          obtain ⟨s, point⟩ := sp
          simp only
          obtain ⟨k, k0, k1, hk⟩ := hg depth ray hit s point hc hsm
          have hb : (fun i => gray 1 i * (s.spectrum i * |hit.normal.dot s.wi| / s.pdf)) = gray k := by
            funext i
            rw [hk i]
            simp [gray]
          rw [hb]
          unfold roulette
          simp only
          rw [radiance_gray, max_eq_left (by linarith)]
          by_cases hu : w.draw depth < 1 - k
          · rw [if_pos hu]; simp
          · rw [if_neg hu]
            have hkp : 0 < k := by
              rcases k0.eq_or_lt with h0 | h0
              · exfalso
                apply hu
                rw [← h0]
                linarith [hdraw depth]
              · exact h0
            have hone : (fun i => gray k i / (1 - (1 - k))) = gray 1 := by
              funext i
              simp only [gray]
              rw [sub_sub_cancel]
              exact div_self hkp.ne'
            simp only
            rw [hone]
            have hz : ∀ f : Spectrum, (fun i => gray 0 i + f i) = f := by
              intro f
              funext i
              simp [gray]
            rw [hz]
            exact ih (depth + 1) ⟨point, s.wi⟩ s.pdf s.flags.isSpecular

/-- C76: a scene without lights, of grey surfaces that do not make light, under a uniform sky: every ray sees either
nothing or the sky as bright as it is; on average over any samples, at most that. -/
theorem C76_furnace (w : World) (l : ℝ) (hl : 0 ≤ l) (hd : Dark w) (hs : UniformSky w l) (hg : Grey w 0 1) (hdraw : ∀ d, w.draw d < 1)
    (maxDepth : ℕ) (ray : Ray ℝ) :
    (traceRay w maxDepth ray = gray 0 ∨ traceRay w maxDepth ray = gray l) ∧
      ∀ i, 0 ≤ traceRay w maxDepth ray i ∧ traceRay w maxDepth ray i ≤ l := by
  have h := furnace w l hd hs hg hdraw maxDepth 0 ray 1 true
  refine ⟨h, fun i => ?_⟩
  unfold traceRay
  rcases h with h | h
  · rw [h]; exact ⟨le_refl _, hl⟩
  · rw [h]; exact ⟨hl, le_refl _⟩

/-- A scene with a white surface that sends every ray upwards, under a sky of brightness 5: the sky is seen after one
bounce. -/
private noncomputable def snow : World where
  cast := fun ray => if ray.direction.z < 0 then some ⟨false, false, false, gray 0, ⟨0, 0, 1⟩⟩ else none
  distant := fun _ => []
  sky := some fun _ => 5
  skyColour := none
  direct := fun _ _ => gray 0
  sample := fun _ _ => some (⟨gray 1, ⟨0, 0, 1⟩, 1, .diffuseReflection⟩, ⟨0, 0, 0⟩)
  draw := fun _ => 1 / 2

example : Dark snow ∧ UniformSky snow 5 ∧ Grey snow 0 1 ∧ traceRay snow 3 ⟨⟨0, 0, 1⟩, ⟨0, 0, -1⟩⟩ = gray 5 := by
  refine ⟨⟨fun _ => rfl, ?_, fun _ _ => rfl⟩, ⟨rfl, rfl⟩, ?_, ?_⟩
  · intro ray hit h
    simp only [snow] at h
    split at h
    · have := Option.some.inj h
      rw [← this]
    · cases h
  · intro d ray hit s p h1 h2
    simp only [snow] at h1 h2
    obtain ⟨rfl, rfl⟩ := Prod.mk.inj (Option.some.inj h2)
    split at h1
    · have := Option.some.inj h1
      refine ⟨1, by norm_num, by norm_num, fun i => ?_⟩
      rw [← this]
      simp [V3.dot, gray]
    · cases h1
  · funext i
    simp [traceRay, follow, snow, roulette, outside, gray, V3.dot, Spectrum.radiance]
    norm_num

/-- C76: and the mean over the rays of a pixel is at most the brightness of the sky. -/
theorem C76_furnace_mean (w : ℕ → World) (l : ℝ) (hl : 0 ≤ l) (hd : ∀ k, Dark (w k)) (hs : ∀ k, UniformSky (w k) l)
    (hg : ∀ k, Grey (w k) 0 1) (hdraw : ∀ k d, (w k).draw d < 1) (maxDepth nAmbient : ℕ) (hn : 0 < nAmbient) (ray : Ray ℝ) (i : Fin 3) :
    0 ≤ traceAll w maxDepth nAmbient ray i ∧ traceAll w maxDepth nAmbient ray i ≤ l := by
  unfold traceAll
  have hn' : 0 < (if maxDepth = 0 then 1 else nAmbient) := by split <;> omega
  generalize (if maxDepth = 0 then 1 else nAmbient) = n at hn'
  have hnr : (0 : ℝ) < n := by exact_mod_cast hn'
  have hb : ∀ k, 0 ≤ traceRay (w k) maxDepth ray i ∧ traceRay (w k) maxDepth ray i ≤ l := fun k =>
    (C76_furnace (w k) l hl (hd k) (hs k) (hg k) (hdraw k) maxDepth ray).2 i
  constructor
  · apply div_nonneg _ hnr.le
    apply List.sum_nonneg
    intro x hx
    obtain ⟨k, -, rfl⟩ := List.mem_map.1 hx
    exact (hb k).1
  · rw [div_le_iff₀ hnr]
    have := List.sum_le_card_nsmul ((List.range n).map fun k => traceRay (w k) maxDepth ray i) l (by
      intro x hx
      obtain ⟨k, -, rfl⟩ := List.mem_map.1 hx
      exact (hb k).2)
    rw [List.length_map, List.length_range, nsmul_eq_mul] at this
    linarith

/-- C76: in a scene where nothing is negative, no ray sees negative light. -/
theorem C76_nonnegative (w : World) (h : NonNegative w) (maxDepth : ℕ) (ray : Ray ℝ) (i : Fin 3) :
    0 ≤ traceRay w maxDepth ray i := by
  have hpow : ∀ a b : ℝ, 0 ≤ powerHeuristic 1 a 1 b := by
    intro a b
    unfold powerHeuristic
    simp only
    exact div_nonneg (mul_self_nonneg _) (add_nonneg (mul_self_nonneg _) (mul_self_nonneg _))
  have hout : ∀ ray first p i, 0 ≤ outside w ray first p i := by
    intro ray first p i
    unfold outside
    apply add_nonneg
    · apply List.sum_nonneg
      intro x hx
      obtain ⟨o, ho, rfl⟩ := List.mem_map.1 hx
      unfold seen
      cases o with
      | none => simp [gray]
      | some cp =>
        obtain ⟨c, q⟩ := cp
        simp only
        split
        · exact mul_nonneg (by split <;> [norm_num; exact hpow _ _]) (h.distant ray _ ho c q rfl i)
        · simp [gray]
    · cases hsky : w.sky with
      | none => simp
      | some f =>
        simp only
        apply mul_nonneg _ (h.sky f hsky _)
        cases hc : w.skyColour with
        | none => simp [gray]
        | some c => exact h.skyColour c hc i
  have key : ∀ left depth ray p beta specular, (∀ i, 0 ≤ beta i) → ∀ i, 0 ≤ follow w left depth ray p beta specular i := by
    intro left
    induction left with
    | zero =>
      intro depth ray p beta specular hb i
      unfold follow
      cases hc : w.cast ray with
      | none => exact mul_nonneg (hb i) (hout _ _ _ _)
      | some hit =>
        simp only
        split
        · exact le_refl _
        · split
          · split
            · exact mul_nonneg (hb i) (h.colour ray hit hc i)
            · exact le_refl _
          · split
            · exact le_refl _
            · exact mul_nonneg (hb i) (h.direct depth ray i)
    | succ left ih =>
      intro depth ray p beta specular hb i
      unfold follow
      cases hc : w.cast ray with
      | none => exact mul_nonneg (hb i) (hout _ _ _ _)
      | some hit =>
        simp only
        split
        · exact le_refl _
        · split
          · split
            · exact mul_nonneg (hb i) (h.colour ray hit hc i)
            · exact le_refl _
          · have hhere : ∀ i, 0 ≤ (if hit.specularOnly = true then gray 0 else fun i => beta i * w.direct depth ray i) i := by
              intro i
              split
              · exact le_refl _
              · exact mul_nonneg (hb i) (h.direct depth ray i)
            cases hsm : w.sample depth ray with
            | none => exact hhere i
            | some sp =>
              obtain ⟨s, point⟩ := sp
              simp only
              obtain ⟨hp, hsp⟩ := h.sample depth ray s point hsm
              cases hr : roulette (fun i => beta i * (s.spectrum i * |hit.normal.dot s.wi| / s.pdf)) (w.draw depth) with
              | none => exact hhere i
              | some b =>
                simp only
                apply add_nonneg (hhere i)
                apply ih
                intro j
                unfold roulette at hr
                simp only at hr
                split at hr
                · cases hr
                · rename_i hq
                  have hr := Option.some.inj hr
                  rw [← hr]
                  apply div_nonneg
                  · exact mul_nonneg (hb j) (div_nonneg (mul_nonneg (hsp j) (abs_nonneg _)) hp.le)
                  · linarith [not_lt.1 hq, (h.draw depth).2]
  exact key maxDepth 0 ray 1 (gray 1) true (fun _ => by simp [gray]) i

example : NonNegative snow where
  distant := by intro ray l h; simp [snow] at h
  colour := by
    intro ray hit h i
    simp only [snow] at h
    split at h
    · rw [← Option.some.inj h]; simp [gray]
    · cases h
  sky := by intro f h v; simp only [snow] at h; rw [← Option.some.inj h]; norm_num
  skyColour := by intro c h; simp [snow] at h
  direct := by intro d ray i; simp [snow, gray]
  sample := by
    intro d ray s p h
    simp only [snow] at h
    obtain ⟨rfl, rfl⟩ := Prod.mk.inj (Option.some.inj h)
    exact ⟨one_pos, fun i => by simp [gray]⟩
  draw := by intro d; simp only [snow]; norm_num

/-- C76: no more than `max_depth` bounces are made: what happens after them does not matter. -/
theorem C76_depth (w w' : World) (maxDepth : ℕ) (ray : Ray ℝ) (h1 : w'.cast = w.cast) (h2 : w'.distant = w.distant) (h3 : w'.sky = w.sky)
    (h4 : w'.skyColour = w.skyColour) (h5 : ∀ d ≤ maxDepth, w'.direct d = w.direct d) (h6 : ∀ d < maxDepth, w'.sample d = w.sample d)
    (h7 : ∀ d < maxDepth, w'.draw d = w.draw d) : traceRay w' maxDepth ray = traceRay w maxDepth ray := by
  have hout : ∀ ray first p, outside w' ray first p = outside w ray first p := by
    intro ray first p
    unfold outside
    rw [h2, h3, h4]
  have key : ∀ left depth, depth + left = maxDepth → ∀ ray p beta specular,
      follow w' left depth ray p beta specular = follow w left depth ray p beta specular := by
    intro left
    induction left with
    | zero =>
      intro depth hd ray p beta specular
      unfold follow
      rw [h1, h5 depth (by omega)]
      simp only [hout]
    | succ left ih =>
      intro depth hd ray p beta specular
      unfold follow
      rw [h1, h5 depth (by omega), h6 depth (by omega), h7 depth (by omega)]
      simp only [hout, ih (depth + 1) (by omega)]
  exact key maxDepth 0 (by omega) ray 1 (gray 1) true

/-- C76: without bounces, only the light that comes straight to the point seen counts. -/
theorem C76_no_bounces (w : World) (ray : Ray ℝ) (hit : Hit) (h : w.cast ray = some hit) (hp : hit.parallel = false) (he : hit.emits = false)
    (hs : hit.specularOnly = false) : traceRay w 0 ray = w.direct 0 ray := by
  unfold traceRay follow
  rw [h]
  simp only [hp, he, hs, Bool.false_eq_true, if_false]
  funext i
  simp [gray]

/-! ### Direct light -/

/-- C76: one shadow ray that reaches a light adds the value of the material times the light and the cosine, over the
density, times the weight of the power heuristic.

Missing: several lights and samples (`C76_violated_many`, `C76_violated_area`, `C76_violated_density`). -/
theorem C76_direct_partial (s : Surface) (light : View) (p : ℝ) (colour : Spectrum) (pdf : ℝ) (h : light.hit light.centre = some (colour, pdf))
    (hp : 1 / 10 ^ 18 ≤ pdf) (fuel : ℕ) (hf : 0 < fuel) :
    localIllumination s (some (light, p)) 1 fuel = some fun i =>
      powerHeuristic 1 (pdf * p) 1 (s.pdf light.centre s.wo) *
        (s.eval s.wo light.centre i * colour i * |s.normal.dot light.centre| / (pdf * p)) := by
  obtain ⟨k, rfl⟩ : ∃ k, fuel = k + 1 := ⟨fuel - 1, by omega⟩
  unfold localIllumination localLoop
  simp only [gt_iff_lt, Nat.lt_irrefl, if_false, Nat.zero_lt_one, if_true, h]
  rw [if_neg (not_lt.2 hp)]
  have hdone : ∀ acc, localLoop s light p 1 k (0 + 1) (0 + 1) acc = some acc := by
    intro acc
    cases k with
    | zero => unfold localLoop; simp
    | succ k => unfold localLoop; simp
  rw [hdone, Option.map_some]
  congr 1
  funext i
  unfold contribution gray
  simp only [Nat.cast_one, div_one, zero_add]
  ring

/-- A white wall that sees a light of brightness 2 straight ahead, with density 1. -/
example : localIllumination ⟨⟨0, 0, 1⟩, ⟨0, 0, 1⟩, fun _ _ => gray 1, fun _ _ => 0⟩
    (some (⟨⟨0, 0, 1⟩, fun _ => ⟨0, 0, 1⟩, fun _ => some (gray 2, 1)⟩, 1)) 1 1 = some (gray 2) := by
  rw [C76_direct_partial _ _ _ (gray 2) 1 rfl (by norm_num) 1 one_pos]
  congr 1
  funext i
  simp [powerHeuristic, gray, V3.dot]

/-- C76: without any light there is no direct light, and a light that is hidden adds nothing. -/
theorem C76_no_light (s : Surface) (n fuel : ℕ) :
    localIllumination s none n fuel = some (gray 0) ∧
      ∀ light p, (∀ v, ∃ c, light.hit v = some (c, 0)) → n ≤ fuel → localIllumination s (some (light, p)) n fuel = some (gray 0) := by
  constructor
  · unfold localIllumination
    simp
    rfl
  · intro light p hh hn
    have key : ∀ fuel turn i acc, n ≤ i + fuel → localLoop s light p n fuel turn i acc = some acc := by
      intro fuel
      induction fuel with
      | zero =>
        intro turn i acc hle
        unfold localLoop
        rw [if_neg (by omega)]
      | succ fuel ih =>
        intro turn i acc hle
        unfold localLoop
        by_cases hi : i < n
        · rw [if_pos hi]
          simp only
          obtain ⟨c, hc⟩ := hh (if n > 1 then light.sampled turn else light.centre)
          rw [hc]
          simp only
          rw [if_pos (by norm_num)]
          exact ih _ _ _ (by omega)
        · rw [if_neg hi]
    unfold localIllumination
    simp only
    rw [key fuel 0 0 (gray 0) (by omega), Option.map_some]
    congr 1
    funext i
    simp [gray]

/-- C76, violated: with one sample (the default), a light whose centre the shadow ray misses is tried for ever. -/
theorem C76_violated_endless (s : Surface) (light : View) (p : ℝ) (h : light.hit light.centre = none) (fuel : ℕ) :
    localIllumination s (some (light, p)) 1 fuel = none := by
  have key : ∀ fuel turn acc, localLoop s light p 1 fuel turn 0 acc = none := by
    intro fuel
    induction fuel with
    | zero => intro turn acc; unfold localLoop; simp
    | succ fuel ih =>
      intro turn acc
      unfold localLoop
      simp only [gt_iff_lt, Nat.lt_irrefl, if_false, Nat.zero_lt_one, if_true, h]
      exact ih _ _
  unfold localIllumination
  simp only
  rw [key, Option.map_none]

/-- C76: a light that is a triangle is missed in that way from all points of its plane. -/
theorem C76_violated_edge_on (a b c point d : V3 ℝ) (hp : (point - a).dot ((b - a).cross (c - a)) = 0)
    (hd : ((a + b + c).div 3 - point).normalize = .ok d) : Triangle.intersectTriangle ⟨point, d⟩ a b c = none := by
  obtain ⟨-, k, -, e⟩ := Plane.unit_of_normalize hd
  unfold Triangle.intersectTriangle
  simp only
  have h0 : (b - a).dot (d.cross (c - a)) = 0 := by
    rw [e]
    unfold V3.dot V3.cross V3.div at *
    simp only [V3.scale_x, V3.scale_y, V3.scale_z, V3.sub_x, V3.sub_y, V3.sub_z, V3.add_x, V3.add_y, V3.add_z] at *
    linear_combination k * hp
  rw [h0, if_pos]
  unfold V3.tiny
  norm_num

/-- A triangle on the floor, seen from a point of the floor. -/
example : ((⟨3, 0, 0⟩ : V3 ℝ) - ⟨0, 0, 0⟩).dot (((⟨1, 0, 0⟩ : V3 ℝ) - ⟨0, 0, 0⟩).cross ((⟨0, 1, 0⟩ : V3 ℝ) - ⟨0, 0, 0⟩)) = 0 := by
  simp [V3.dot, V3.cross]

/-- C76: with one distant light, one shadow ray and densities that agree, the light found by shadow rays and the light
found by following the samples of the material are weighted so that together they count once. -/
theorem C76_single (pdf b : ℝ) (h1 : 1 / 10 ^ 18 < pdf) (hb : 0 < b) (colour : Spectrum) (i : Fin 3) :
    powerHeuristic 1 (pdf * 1) 1 b * colour i + seen false b (some (colour, pdf)) i = colour i := by
  have hp : 0 < pdf := lt_trans (by norm_num) h1
  have hw := (C76_weights 1 1 pdf b hp.le hb.le (Or.inl (by simpa using hp))).1
  unfold seen
  simp only
  rw [if_pos h1]
  simp only [Bool.false_eq_true, if_false]
  rw [mul_one, ← add_mul, hw, one_mul]

/-- C76, violated: with two distant lights the two ways together do not count a light once. -/
theorem C76_violated_many : ∃ (pdf b : ℝ), 1 / 10 ^ 18 < pdf ∧ 0 < b ∧ ∀ (colour : Spectrum) (i : Fin 3), colour i ≠ 0 →
    powerHeuristic 1 (pdf * (1 / 2)) 1 b * colour i + seen false b (some (colour, pdf)) i ≠ colour i := by
  refine ⟨1, 1, by norm_num, by norm_num, fun colour i hc h => ?_⟩
  unfold seen at h
  simp only at h
  rw [if_pos (by norm_num)] at h
  simp only [Bool.false_eq_true, if_false] at h
  unfold powerHeuristic at h
  norm_num at h
  apply hc
  linarith

/-- C76, violated: the light of surfaces is lost.  After a bounce that is not specular a ray that reaches a surface that
emits light adds nothing, while the shadow rays towards it are weighted by less than one, as if it did. -/
theorem C76_violated_area :
    (∀ (w : World) (left depth : ℕ) (ray : Ray ℝ) (p : ℝ) (beta : Spectrum) (hit : Hit), w.cast ray = some hit → hit.emits = true →
      follow w left depth ray p beta false = gray 0) ∧
    ∀ pdf p b : ℝ, 0 < pdf → 0 < p → 0 < b → powerHeuristic 1 (pdf * p) 1 b < 1 := by
  constructor
  · intro w left depth ray p beta hit hc he
    cases left <;> unfold follow <;> rw [hc] <;> simp only <;> split <;> rfl
  · intro pdf p b h1 h2 h3
    unfold powerHeuristic
    simp only [Nat.cast_one, one_mul]
    have := mul_pos h1 h2
    rw [div_lt_one (by positivity)]
    nlinarith [mul_pos h3 h3]

/-- C76, violated: the weight of a shadow ray should use the density with which the material samples the direction of the
light; the arguments are exchanged, and a diffuse surface tells the density of the direction to the eye. -/
theorem C76_violated_density (s : Surface) (hpdf : s.pdf = diffusePdf) (wi : V3 ℝ) (hwo : 0 < s.wo.z) (hwi : 0 < wi.z)
    (hne : wi.z ≠ s.wo.z) : s.pdf wi s.wo = s.wo.z / Real.pi ∧ s.pdf wi s.wo ≠ diffusePdf s.wo wi := by
  have h1 : diffusePdf wi s.wo = s.wo.z / Real.pi := by
    unfold diffusePdf
    rw [if_pos (show SameHemisphere wi s.wo from mul_pos hwi hwo), abs_of_pos hwo]
  have h2 : diffusePdf s.wo wi = wi.z / Real.pi := by
    unfold diffusePdf
    rw [if_pos (show SameHemisphere s.wo wi from mul_pos hwo hwi), abs_of_pos hwi]
  rw [hpdf]
  refine ⟨h1, ?_⟩
  rw [h1, h2]
  intro h
  apply hne
  have := Real.pi_ne_zero
  field_simp at h
  exact h.symm

end Simple.Render.Tracer
