import Mathlib.Analysis.SpecialFunctions.Integrals.Basic
import Mathlib.MeasureTheory.Integral.IntervalIntegral.FundThmCalculus
import Mathlib.Analysis.SpecialFunctions.ExpDeriv
import Mathlib.Analysis.SpecialFunctions.Trigonometric.Deriv
import Mathlib.Tactic.Positivity
import Mathlib.Tactic.FieldSimp
import Mathlib.Tactic.Linarith
import Verif.Render.SamplerProps
import Verif.Render.SpecularProps

/-! # C75: diffuse, plastic and metal surfaces -/

namespace Simple.Render.Materials

open Geometry MeasureTheory

namespace Spec

/-- The direction with angle `θ` from the third axis and azimuth `φ`. -/
noncomputable def direction (θ φ : ℝ) : V3 ℝ := ⟨Real.sin θ * Real.cos φ, Real.sin θ * Real.sin φ, Real.cos θ⟩

/-- The integral of a function over the directions above the surface. -/
noncomputable def overHemisphere (f : V3 ℝ → ℝ) : ℝ :=
  ∫ φ in (0 : ℝ)..2 * Real.pi, ∫ θ in (0 : ℝ)..Real.pi / 2, f (direction θ φ) * Real.sin θ

/-- The part of the light from a direction that a surface sends away, in all directions together. -/
noncomputable def albedo (f : V3 ℝ → ℝ) : ℝ := overHemisphere fun w => f w * |w.z|

/-- The material looks the same when the directions of light and eye are exchanged. -/
def Reciprocal (f : V3 ℝ → V3 ℝ → Spectrum) : Prop := ∀ v w, v.lengthSquared = 1 → w.lengthSquared = 1 → f v w = f w v

end Spec

open Spec

private theorem integral_sin_cos : ∫ θ in (0 : ℝ)..Real.pi / 2, Real.cos θ * Real.sin θ = 1 / 2 := by
  have h : ∀ θ ∈ Set.uIcc (0 : ℝ) (Real.pi / 2), HasDerivAt (fun θ => Real.sin θ ^ 2 / 2) (Real.cos θ * Real.sin θ) θ := by
    intro θ _
    have := ((Real.hasDerivAt_sin θ).pow 2).div_const 2
    refine this.congr_deriv ?_
    simp
    ring
  rw [intervalIntegral.integral_eq_sub_of_hasDerivAt h
    ((Real.continuous_cos.mul Real.continuous_sin).intervalIntegrable _ _)]
  simp

private theorem cos_nonneg_of {θ : ℝ} (h : θ ∈ Set.uIcc (0 : ℝ) (Real.pi / 2)) : 0 ≤ Real.cos θ := by
  have hp := Real.pi_pos
  rw [Set.uIcc_of_le (by linarith)] at h
  exact Real.cos_nonneg_of_mem_Icc ⟨by linarith [h.1], h.2⟩

private theorem over_of {f : V3 ℝ → ℝ} {k : ℝ}
    (h : ∀ θ ∈ Set.uIcc (0 : ℝ) (Real.pi / 2), ∀ φ, f (direction θ φ) * Real.sin θ = k / Real.pi * (Real.cos θ * Real.sin θ)) :
    overHemisphere f = k := by
  unfold overHemisphere
  have : ∀ φ : ℝ, ∫ θ in (0 : ℝ)..Real.pi / 2, f (direction θ φ) * Real.sin θ = k / Real.pi * (1 / 2) := by
    intro φ
    rw [intervalIntegral.integral_congr (g := fun θ => k / Real.pi * (Real.cos θ * Real.sin θ)) fun θ hθ => h θ hθ φ,
      intervalIntegral.integral_const_mul, integral_sin_cos]
  simp only [this, intervalIntegral.integral_const, smul_eq_mul]
  have := Real.pi_ne_zero
  field_simp
  ring

/-- C75: a diffuse surface.  Light and eye may be exchanged; all the light that arrives is sent away, times the colour; the
densities add up to one. -/
theorem C75_diffuse (colour : Spectrum) :
    Reciprocal (diffuseEval colour) ∧
      ∀ wo : V3 ℝ, 0 < wo.z → (∀ i, albedo (fun wi => diffuseEval colour wo wi i) = colour i) ∧
        overHemisphere (diffusePdf wo) = 1 ∧ ∀ wi, wi.z < 0 → diffusePdf wo wi = 0 ∧ diffuseEval colour wo wi = gray 0 := by
  refine ⟨fun v w _ _ => ?_, fun wo hwo => ⟨fun i => ?_, ?_, fun wi hwi => ?_⟩⟩
  · have : SameHemisphere v w ↔ SameHemisphere w v := by unfold SameHemisphere; rw [mul_comm]
    unfold diffuseEval
    by_cases h : SameHemisphere v w
    · rw [if_pos h, if_pos (this.1 h)]
    · rw [if_neg h, if_neg fun h' => h (this.2 h')]
  · unfold albedo
    apply over_of
    intro θ hθ φ
    have hc := cos_nonneg_of hθ
    have hz : (direction θ φ).z = Real.cos θ := rfl
    rw [hz, abs_of_nonneg hc]
    unfold diffuseEval
    simp only
    rcases hc.eq_or_lt with h0 | h0
    · rw [← h0]; ring
    · rw [if_pos (show SameHemisphere wo (direction θ φ) from mul_pos hwo h0)]
      ring
  · apply over_of
    intro θ hθ φ
    have hc := cos_nonneg_of hθ
    unfold diffusePdf
    have hz : (direction θ φ).z = Real.cos θ := rfl
    rcases hc.eq_or_lt with h0 | h0
    · rw [if_neg (show ¬ SameHemisphere wo (direction θ φ) by unfold SameHemisphere; rw [hz, ← h0]; simp), ← h0]
      ring
    · rw [if_pos (show SameHemisphere wo (direction θ φ) from mul_pos hwo h0), hz, abs_of_pos h0]
      ring
  · have hn : ¬ SameHemisphere wo wi := fun h => absurd h (not_lt.2 (mul_nonpos_of_nonneg_of_nonpos hwo.le hwi.le))
    exact ⟨if_neg hn, if_neg hn⟩

private theorem newDiffuse_wi (f : Spectrum) (u : ℝ × ℝ) (hu : u ∈ Sampler.Spec.square) :
    (newDiffuse f u).wi = Sampler.cosineHemisphere u := by
  have h := (Sampler.C57_cosine.1 u hu).2
  unfold newDiffuse
  simp only
  rw [if_neg (not_lt.2 h)]

/-- C75: the samples of a diffuse surface are above it, their density is the one that is told for the direction, and each
carries the colour. -/
theorem C75_diffuse_sample (colour : Spectrum) (u : ℝ × ℝ) (hu : u ∈ Sampler.Spec.square) :
    (diffuseSample colour u).wi.lengthSquared = 1 ∧ 0 ≤ (diffuseSample colour u).wi.z ∧
      (diffuseSample colour u).flags.isReflective = true ∧
      (0 < (diffuseSample colour u).wi.z → weight (diffuseSample colour u) = colour ∧
        ∀ wo : V3 ℝ, 0 < wo.z → (diffuseSample colour u).pdf = diffusePdf wo (diffuseSample colour u).wi ∧
          (diffuseSample colour u).spectrum = diffuseEval colour wo (diffuseSample colour u).wi) := by
  have hw := newDiffuse_wi colour u hu
  obtain ⟨h1, h2⟩ := Sampler.C57_cosine.1 u hu
  unfold diffuseSample
  refine ⟨?_, by rw [hw]; exact h2, ?_, fun hz => ⟨?_, fun wo hwo => ⟨?_, ?_⟩⟩⟩
  · rw [hw]
    unfold V3.lengthSquared
    linear_combination h1
  · show Flag.diffuseReflection.isReflective = true
    decide
  · funext i
    show colour i / Real.pi * |(newDiffuse colour u).wi.z| / (|(newDiffuse colour u).wi.z| / Real.pi) = colour i
    have : |(newDiffuse colour u).wi.z| ≠ 0 := abs_ne_zero.2 hz.ne'
    have := Real.pi_ne_zero
    field_simp
  · unfold diffusePdf
    rw [if_pos (show SameHemisphere wo _ from mul_pos hwo hz)]
    rfl
  · unfold diffuseEval
    rw [if_pos (show SameHemisphere wo _ from mul_pos hwo hz)]
    rfl

example : ∃ u ∈ Sampler.Spec.square, 0 < (diffuseSample (gray 1) u).wi.z := by
  refine ⟨(0, 0), by simp [Sampler.Spec.square], ?_⟩
  unfold diffuseSample
  rw [newDiffuse_wi _ _ (by simp [Sampler.Spec.square])]
  simp [Sampler.cosineHemisphere, Sampler.horizontalDisc, Sampler.clamp]
  norm_num

/-! ### Glossy surfaces -/

private theorem wardDirection_plane (alpha beta : ℝ) (wo : V3 ℝ) (xi : ℝ × ℝ) :
    (wardDirection alpha beta wo xi).x * wo.y = (wardDirection alpha beta wo xi).y * wo.x := by
  unfold wardDirection
  simp only [V3.div]
  ring

private theorem div_length_unit (v : V3 ℝ) (h : 0 < v.lengthSquared) : (v.div v.length).lengthSquared = 1 := by
  have hs : v.length ^ 2 = v.lengthSquared := Real.sq_sqrt h.le
  have : (v.div v.length).lengthSquared = v.lengthSquared / v.length ^ 2 := by
    unfold V3.div V3.lengthSquared
    simp only
    ring
  rw [this, hs, div_self h.ne']

private theorem wardDirection_unit (alpha beta : ℝ) (wo : V3 ℝ) (xi : ℝ × ℝ) (hz : (wardDirection alpha beta wo xi).z ≠ 0) :
    (wardDirection alpha beta wo xi).lengthSquared = 1 := by
  unfold wardDirection at hz ⊢
  simp only at hz ⊢
  apply div_length_unit
  by_contra hc
  have hnn : ∀ v : V3 ℝ, ¬ 0 < v.lengthSquared → v.length = 0 := by
    intro v hv
    unfold V3.length
    exact Real.sqrt_eq_zero_of_nonpos (not_lt.1 hv)
  apply hz
  rw [hnn _ hc]
  simp [V3.div]

private theorem wardEval_nonneg (specularity alpha beta : ℝ) (wo wi : V3 ℝ) (h : 0 ≤ specularity) :
    0 ≤ (wardEval specularity alpha beta wo wi).1 := by
  unfold wardEval
  by_cases hs : SameHemisphere wo wi
  · rw [if_neg (not_not.2 hs)]
    simp only
    apply div_nonneg _ (abs_nonneg _)
    by_cases hp : specularity > 1 / 10 ^ 5
    · rw [if_pos hp]
      apply mul_nonneg _ (Real.exp_pos _).le
      apply div_nonneg
      · apply mul_nonneg h
        unfold V3.dot
        nlinarith [sq_nonneg ((wo + wi).div (wo + wi).length).x, sq_nonneg ((wo + wi).div (wo + wi).length).y,
          sq_nonneg ((wo + wi).div (wo + wi).length).z]
      · have a1 : (0 : ℝ) ≤ Max.max alpha (1 / 10 ^ 3) := le_trans (by norm_num) (le_max_right _ _)
        have a2 : (0 : ℝ) ≤ Max.max beta (1 / 10 ^ 3) := le_trans (by norm_num) (le_max_right _ _)
        have := Real.pi_pos
        positivity
    · rw [if_neg hp]
  · rw [if_pos hs]

private theorem wardEval_other (specularity alpha beta : ℝ) (wo wi : V3 ℝ) (h : ¬ SameHemisphere wo wi) :
    wardEval specularity alpha beta wo wi = (0, 0) := by
  unfold wardEval
  rw [if_pos h]

/-- What the samples of the glossy part look like. -/
private theorem wardLoop_spec (specularity alpha beta : ℝ) (wo : V3 ℝ) (hs : 0 ≤ specularity) (hz : wo.z < 0) (xi : List (ℝ × ℝ)) :
    ∀ n s, wardLoop specularity alpha beta wo n xi = some s → ∃ x ∈ xi, s.wi = -wardDirection alpha beta wo x ∧
      s.wi.lengthSquared = 1 ∧ 0 < s.wi.z ∧ 0 < s.pdf ∧ s.flags = .glossyReflection ∧
      (∀ i, s.spectrum i = (wardEval specularity alpha beta wo (wardDirection alpha beta wo x)).1 / |wo.z|) ∧
      weight s = gray (2 * s.wi.z / (s.wi.z - wo.z)) ∧ 1 / 10 ^ 5 < specularity := by
  induction xi with
  | nil => intro n s h; simp [wardLoop] at h
  | cons x xi ih =>
    intro n s h
    unfold wardLoop at h
    simp only at h
    rw [if_pos (Or.inr hz)] at h
    split at h
    · obtain ⟨y, hy, r⟩ := ih _ _ h
      exact ⟨y, List.mem_cons_of_mem _ hy, r⟩
    · rename_i hc
      have h := Option.some.inj h
      subst h
      obtain ⟨v, hv⟩ : ∃ v, v = wardDirection alpha beta wo x := ⟨_, rfl⟩
      rw [← hv] at hc
      have hsame : SameHemisphere wo v := by
        by_contra hn
        apply hc
        rw [wardEval_other _ _ _ _ _ hn]
        norm_num
      have hspecnn := wardEval_nonneg specularity alpha beta wo v hs
      have hspec : 0 < (wardEval specularity alpha beta wo v).1 := by
        rcases hspecnn.eq_or_lt with h0 | h0
        · exfalso
          apply hc
          rw [← h0]
          norm_num
        · exact h0
      have hvz : v.z < 0 := by
        have : wo.z * v.z > 0 := hsame
        by_contra hn
        nlinarith
      have hlarge : 1 / 10 ^ 5 < specularity := by
        by_contra hn
        unfold wardEval at hspec
        rw [if_neg (not_not.2 hsame)] at hspec
        simp only at hspec
        rw [if_neg hn] at hspec
        simp at hspec
      have hratio : 0 < v.z / wo.z := div_pos_of_neg_of_neg hvz hz
      have hunit := wardDirection_unit alpha beta wo x (by rw [← hv]; exact hvz.ne)
      refine ⟨x, List.mem_cons_self, rfl, ?_, ?_, ?_, rfl, fun i => ?_, ?_, hlarge⟩
      · show (-wardDirection alpha beta wo x).lengthSquared = 1
        unfold V3.lengthSquared at hunit ⊢
        simp only [V3.neg_x, V3.neg_y, V3.neg_z]
        linear_combination hunit
      · show 0 < -(wardDirection alpha beta wo x).z
        rw [← hv]
        linarith
      · show 0 < 1 / 2 * (1 + (wardDirection alpha beta wo x).z / wo.z) * (wardEval specularity alpha beta wo (wardDirection alpha beta wo x)).1
        rw [← hv]
        positivity
      · rfl
      · funext i
        show (wardEval specularity alpha beta wo (wardDirection alpha beta wo x)).1 / |wo.z| * |-(wardDirection alpha beta wo x).z| /
          (1 / 2 * (1 + (wardDirection alpha beta wo x).z / wo.z) * (wardEval specularity alpha beta wo (wardDirection alpha beta wo x)).1) =
          2 * (-(wardDirection alpha beta wo x).z) / (-(wardDirection alpha beta wo x).z - wo.z)
        rw [← hv]
        generalize (wardEval specularity alpha beta wo v).1 = e at *
        rw [abs_of_neg hz, abs_neg, abs_of_neg hvz]
        have h1 : e ≠ 0 := hspec.ne'
        have h2 : wo.z ≠ 0 := hz.ne
        have h3 : -v.z - wo.z ≠ 0 := by linarith
        have h4 : 1 + v.z / wo.z ≠ 0 := by positivity
        have e1 : 1 + v.z / wo.z = -(-v.z - wo.z) / wo.z := by field_simp; ring
        rw [e1]
        field_simp

/-- C75: a sample of plastic or metal is above the surface, when there is one; a glossy one carries `2 v / (v + l)`, for
the cosines `v` and `l` of the directions away from and towards the surface, and a diffuse one everything (times the
colour where it applies), whatever the parameters.

Missing: that samples spread out of the plane of incidence, that sampling ends, and their values (`C75_violated_spread`, `C75_violated_endless`, `C75_violated_value`). -/
theorem C75_glossy_sample_partial (colour : Spectrum) (specularity roughness : ℝ) (wo : V3 ℝ) (hs : 0 ≤ specularity)
    (hz : wo.z < 0) (u : ℝ) (hu1 : u < 1) (xi : List (ℝ × ℝ)) (ud : ℝ × ℝ) (hud : ud ∈ Sampler.Spec.square) (s : Sample) :
    (plasticSample colour specularity roughness wo u xi ud = some s → s.wi.lengthSquared = 1 ∧ 0 ≤ s.wi.z ∧
      (0 < s.wi.z → 0 < s.pdf ∧
        (u < specularity → weight s = gray (2 * s.wi.z / (s.wi.z - wo.z))) ∧ (specularity ≤ u → weight s = colour))) ∧
    (metalSample colour specularity roughness wo u xi ud = some s → s.wi.lengthSquared = 1 ∧ 0 ≤ s.wi.z ∧
      (0 < s.wi.z → 0 < s.pdf ∧
        (u < specularity → weight s = fun i => 2 * s.wi.z / (s.wi.z - wo.z) * colour i) ∧ (specularity ≤ u → weight s = colour))) := by
  have key : ∀ s, wardSample specularity roughness roughness wo u xi ud = some s → s.wi.lengthSquared = 1 ∧ 0 ≤ s.wi.z ∧
      (0 < s.wi.z → 0 < s.pdf ∧ (u < specularity → s.flags = .glossyReflection ∧ weight s = gray (2 * s.wi.z / (s.wi.z - wo.z))) ∧
        (specularity ≤ u → s.flags = .diffuseReflection ∧ weight s = gray 1)) := by
    intro s h
    unfold wardSample at h
    simp only at h
    by_cases hlt : u < specularity
    · rw [if_pos hlt] at h
      obtain ⟨x, -, -, h1, h2, h3, h4, -, h5, -⟩ := wardLoop_spec specularity _ _ wo hs hz xi 0 s h
      exact ⟨h1, h2.le, fun _ => ⟨h3, fun _ => ⟨h4, h5⟩, fun hn => absurd hlt (not_lt.2 hn)⟩⟩
    · rw [if_neg hlt] at h
      have h := Option.some.inj h
      subst h
      have hw := newDiffuse_wi (gray (1 - specularity)) ud hud
      obtain ⟨h1, h2⟩ := Sampler.C57_cosine.1 ud hud
      have hd : 0 < 1 - specularity := by linarith [not_lt.1 hlt]
      simp only
      refine ⟨?_, by rw [hw]; exact h2, fun hz => ⟨?_, fun hn => absurd hn hlt, fun _ => ⟨rfl, ?_⟩⟩⟩
      · rw [hw]
        unfold V3.lengthSquared
        linear_combination h1
      · show 0 < |(newDiffuse (gray (1 - specularity)) ud).wi.z| / Real.pi * (1 - specularity)
        have := Real.pi_pos
        have := abs_pos.2 hz.ne'
        positivity
      · funext i
        show (1 - specularity) / Real.pi * |(newDiffuse (gray (1 - specularity)) ud).wi.z| /
          (|(newDiffuse (gray (1 - specularity)) ud).wi.z| / Real.pi * (1 - specularity)) = 1
        have h1 := abs_ne_zero.2 hz.ne'
        have h2 := Real.pi_ne_zero
        have h3 := hd.ne'
        generalize |(newDiffuse (gray (1 - specularity)) ud).wi.z| = q at *
        rw [show (1 - specularity) / Real.pi * q = q / Real.pi * (1 - specularity) by ring]
        exact div_self (mul_ne_zero (div_ne_zero h1 h2) h3)
  constructor
  · intro h
    obtain ⟨r, hr, e⟩ := Option.map_eq_some_iff.1 h
    obtain ⟨h1, h2, h3⟩ := key r hr
    cases hf : r.flags <;> rw [hf] at e <;> simp only at e <;> subst e <;> refine ⟨h1, h2, fun hz' => ?_⟩ <;>
      obtain ⟨k1, k2, k3⟩ := h3 hz' <;> refine ⟨k1, fun hlt => ?_, fun hge => ?_⟩ <;>
      first
        | (exfalso; have := (k2 hlt).1; rw [hf] at this; simp at this; done)
        | (exfalso; have := (k3 hge).1; rw [hf] at this; simp at this; done)
        | exact (k2 hlt).2
        | (funext i
           have := congrFun (k3 hge).2 i
           unfold weight gray at this
           unfold weight
           simp only
           rw [show r.spectrum i * colour i * |r.wi.z| / r.pdf = (r.spectrum i * |r.wi.z| / r.pdf) * colour i by ring, this, one_mul])
  · intro h
    obtain ⟨r, hr, e⟩ := Option.map_eq_some_iff.1 h
    obtain ⟨h1, h2, h3⟩ := key r hr
    subst e
    refine ⟨h1, h2, fun hz' => ?_⟩
    obtain ⟨k1, k2, k3⟩ := h3 hz'
    refine ⟨k1, fun hlt => ?_, fun hge => ?_⟩
    · funext i
      have := congrFun (k2 hlt).2 i
      unfold weight gray at this
      unfold weight
      simp only
      rw [show r.spectrum i * colour i * |r.wi.z| / r.pdf = (r.spectrum i * |r.wi.z| / r.pdf) * colour i by ring, this]
    · funext i
      have := congrFun (k3 hge).2 i
      unfold weight gray at this
      unfold weight
      simp only
      rw [show r.spectrum i * colour i * |r.wi.z| / r.pdf = (r.spectrum i * |r.wi.z| / r.pdf) * colour i by ring, this, one_mul]

/-- C75, violated: rough surfaces should spread light around the mirror direction on all sides; all glossy samples are in
the plane of the incident ray and the normal, and for a ray along the normal all of them go straight back, whatever
the roughness. -/
theorem C75_violated_spread (specularity alpha beta : ℝ) (wo : V3 ℝ) (hs : 0 ≤ specularity) (hz : wo.z < 0) (u : ℝ)
    (hu : u < specularity) (xi : List (ℝ × ℝ)) (ud : ℝ × ℝ) (s : Sample)
    (h : wardSample specularity alpha beta wo u xi ud = some s) :
    s.wi.x * wo.y = s.wi.y * wo.x ∧ (wo = ⟨0, 0, -1⟩ → s.wi = ⟨0, 0, 1⟩) := by
  unfold wardSample at h
  simp only at h
  rw [if_pos hu] at h
  obtain ⟨x, -, e, h1, h2, -⟩ := wardLoop_spec specularity _ _ wo hs hz xi 0 s h
  constructor
  · rw [e]
    have := wardDirection_plane (Max.max alpha (1 / 10 ^ 3)) (Max.max beta (1 / 10 ^ 3)) wo x
    simp only [V3.neg_x, V3.neg_y]
    linarith
  · intro hw
    have hx : s.wi.x = 0 := by
      rw [e, hw]; simp [wardDirection, V3.div]
    have hy : s.wi.y = 0 := by
      rw [e, hw]; simp [wardDirection, V3.div]
    have hzz : s.wi.z = 1 := by
      unfold V3.lengthSquared at h1
      rw [hx, hy] at h1
      nlinarith
    ext
    · exact hx
    · exact hy
    · exact hzz

/-- C75, violated: with a specularity that is positive but at most 0.00001, sampling a glossy reflection never ends: no
list of random numbers is long enough. -/
theorem C75_violated_endless (specularity alpha beta : ℝ) (h0 : 0 < specularity) (h1 : specularity ≤ 1 / 10 ^ 5) (wo : V3 ℝ)
    (hz : wo.z < 0) (u : ℝ) (hu : u < specularity) (xi : List (ℝ × ℝ)) (ud : ℝ × ℝ) :
    wardSample specularity alpha beta wo u xi ud = none := by
  cases hc : wardSample specularity alpha beta wo u xi ud with
  | none => rfl
  | some s =>
    exfalso
    unfold wardSample at hc
    simp only at hc
    rw [if_pos hu] at hc
    obtain ⟨x, -, -, -, -, -, -, -, -, h⟩ := wardLoop_spec specularity _ _ wo h0.le hz xi 0 s hc
    linarith

/-- A glossy sample of a rough surface: the hypotheses of `C75_glossy_sample_partial`, `C75_violated_spread` and
`C75_violated_value` are met. -/
theorem glossy_example : ∃ s, wardSample 1 1 1 ⟨0, 0, -1⟩ 0 [(0, Real.exp (-(1 / 4)))] (0, 0) = some s := by
  have hm : Max.max (1 : ℝ) (1 / 10 ^ 3) = 1 := max_eq_left (by norm_num)
  have hd : wardDirection 1 1 ⟨0, 0, -1⟩ (0, Real.exp (-(1 / 4))) = ⟨0, 0, -1⟩ := by
    have hl : (⟨0, 0, -(3 / 5)⟩ : V3 ℝ).length = 3 / 5 := by
      unfold V3.length V3.lengthSquared
      rw [show (0 * 0 + 0 * 0 + -(3 / 5) * -(3 / 5) : ℝ) = (3 / 5) ^ 2 by norm_num]
      exact Real.sqrt_sq (by norm_num)
    have hs : Real.sqrt (1 / 4) = 1 / 2 := by
      rw [show (1 / 4 : ℝ) = (1 / 2) ^ 2 by norm_num]
      exact Real.sqrt_sq (by norm_num)
    have he : ¬ Real.exp (-(1 / 4)) < 1 / 10 ^ 9 := by
      have := Real.add_one_le_exp (-(1 / 4) : ℝ)
      norm_num at this ⊢
      linarith
    unfold wardDirection
    simp only
    rw [if_neg he]
    simp only [Real.log_exp]
    norm_num at hs
    norm_num [V3.dot, V3.div, hs]
    norm_num at hl
    rw [hl]
    norm_num
  have he : 1 / 10 ^ 8 ≤ (wardEval 1 1 1 ⟨0, 0, -1⟩ ⟨0, 0, -1⟩).1 := by
    have hl : ((⟨0, 0, -1⟩ : V3 ℝ) + ⟨0, 0, -1⟩).div ((⟨0, 0, -1⟩ : V3 ℝ) + ⟨0, 0, -1⟩).length = ⟨0, 0, -1⟩ := by
      have e : ((⟨0, 0, -1⟩ : V3 ℝ) + ⟨0, 0, -1⟩) = ⟨0, 0, -2⟩ := by ext <;> norm_num
      have hl : (⟨0, 0, -2⟩ : V3 ℝ).length = 2 := by
        unfold V3.length V3.lengthSquared
        rw [show (0 * 0 + 0 * 0 + -2 * -2 : ℝ) = 2 ^ 2 by norm_num]
        exact Real.sqrt_sq (by norm_num)
      rw [e, hl]
      norm_num [V3.div]
    unfold wardEval
    rw [if_neg (by norm_num [SameHemisphere])]
    simp only
    rw [if_pos (by norm_num), hl, hm]
    norm_num [V3.dot]
    have h3 := Real.pi_le_four
    have hp := Real.pi_pos
    have : (1 / 4 : ℝ) ≤ Real.pi⁻¹ := by
      rw [← one_div]
      exact one_div_le_one_div_of_le hp h3
    linarith
  unfold wardSample
  simp only
  rw [if_pos (by norm_num), hm]
  unfold wardLoop
  simp only
  rw [hd, if_pos (Or.inr (by norm_num)), if_neg]
  · exact ⟨_, rfl⟩
  · rintro ⟨-, h⟩
    exact absurd h (not_lt.2 he)
private theorem wardEval_neg (specularity alpha beta : ℝ) (v w : V3 ℝ) :
    wardEval specularity alpha beta (-v) w = wardEval specularity alpha beta v (-w) := by
  have hl : (-v + w).length = (v + -w).length := by
    unfold V3.length
    congr 1
    unfold V3.lengthSquared
    simp only [V3.add_x, V3.add_y, V3.add_z, V3.neg_x, V3.neg_y, V3.neg_z]
    ring
  have hs : SameHemisphere (-v) w ↔ SameHemisphere v (-w) := by
    unfold SameHemisphere
    rw [V3.neg_z, V3.neg_z, neg_mul, mul_neg]
  unfold wardEval
  by_cases h : SameHemisphere (-v) w
  · rw [if_neg (not_not.2 h), if_neg (not_not.2 (hs.1 h))]
    simp only
    rw [hl, V3.neg_z, abs_neg]
    have hx : ((-v + w).div (v + -w).length).x = -((v + -w).div (v + -w).length).x := by simp [V3.div]; ring
    have hy : ((-v + w).div (v + -w).length).y = -((v + -w).div (v + -w).length).y := by simp [V3.div]; ring
    have hz : ((-v + w).div (v + -w).length).z = -((v + -w).div (v + -w).length).z := by simp [V3.div]; ring
    unfold V3.dot
    rw [hx, hy, hz]
    simp only [neg_mul_neg, neg_div, even_two.neg_pow, (show Even 4 by decide).neg_pow]
  · rw [if_pos h, if_pos fun h' => h (hs.2 h')]

private theorem wardEval_max (specularity alpha beta : ℝ) (v w : V3 ℝ) :
    wardEval specularity (Max.max alpha (1 / 10 ^ 3)) (Max.max beta (1 / 10 ^ 3)) v w = wardEval specularity alpha beta v w := by
  unfold wardEval
  simp only [max_assoc, max_self]

/-- C75, violated: the value of a glossy sample should be the value of the material for those directions; it is that
value divided by the cosine of the incident ray once more. -/
theorem C75_violated_value (specularity alpha beta : ℝ) (wo : V3 ℝ) (hs : 0 ≤ specularity) (hz : wo.z < 0) (u : ℝ)
    (hu : u < specularity) (xi : List (ℝ × ℝ)) (ud : ℝ × ℝ) (s : Sample)
    (h : wardSample specularity alpha beta wo u xi ud = some s) (i : Fin 3) :
    s.spectrum i = (wardEval specularity alpha beta (-wo) s.wi).1 / |wo.z| ∧
      (|wo.z| < 1 → s.spectrum i ≠ (wardEval specularity alpha beta (-wo) s.wi).1) := by
  unfold wardSample at h
  simp only at h
  rw [if_pos hu] at h
  obtain ⟨x, -, e, h1, h2, h3, -, h4, h5, -⟩ := wardLoop_spec specularity _ _ wo hs hz xi 0 s h
  have hv : wardDirection (Max.max alpha (1 / 10 ^ 3)) (Max.max beta (1 / 10 ^ 3)) wo x = -s.wi := by
    rw [e]; ext <;> simp
  have key : s.spectrum i = (wardEval specularity alpha beta (-wo) s.wi).1 / |wo.z| := by
    rw [h4 i, wardEval_neg, hv, wardEval_max]
  refine ⟨key, fun hlt heq => ?_⟩
  have hpos : 0 < |wo.z| := abs_pos.2 hz.ne
  have hw := congrFun h5 i
  unfold weight gray at hw
  have hne : s.spectrum i ≠ 0 := by
    intro h0
    rw [h0, zero_mul, zero_div] at hw
    have : 0 < 2 * s.wi.z / (s.wi.z - wo.z) := div_pos (by linarith) (by linarith)
    linarith
  rw [← heq, eq_div_iff hpos.ne'] at key
  exact hne (by nlinarith [mul_self_pos.2 hne])

/-- C75: for two directions on the same side, metal and plastic reflect the same highlight, which does not depend on their
colour, and for the rest the part `1 - specularity` in all directions alike.  Metal colours both; plastic only the rest, so
that its highlight is white. -/
theorem C75_colour (specularity roughness : ℝ) (hs : 0 ≤ specularity) (wo wi : V3 ℝ) (h : SameHemisphere wo wi) :
    ∃ highlight, 0 ≤ highlight ∧ (1 / 10 ^ 5 < specularity → wo + wi ≠ 0 → 0 < highlight) ∧
      (specularity ≤ 1 / 10 ^ 5 → highlight = 0) ∧ ∀ (colour : Spectrum) (i : Fin 3),
        metalEval colour specularity roughness wo wi i = colour i * (highlight + (1 - specularity) / Real.pi) ∧
        plasticEval colour specularity roughness wo wi i = highlight + colour i * ((1 - specularity) / Real.pi) := by
  have h2 : (wardEval specularity roughness roughness wo wi).2 = (1 - specularity) / Real.pi := by
    unfold wardEval
    rw [if_neg (not_not.2 h)]
  refine ⟨(wardEval specularity roughness roughness wo wi).1, wardEval_nonneg _ _ _ _ _ hs, fun hp hne => ?_, fun hp => ?_,
    fun colour i => ⟨?_, ?_⟩⟩
  · unfold wardEval
    rw [if_neg (not_not.2 h)]
    simp only
    rw [if_pos hp]
    have hz : 0 < wo.z * wi.z := h
    have hwo : wo.z ≠ 0 := by intro e; rw [e, zero_mul] at hz; exact lt_irrefl _ hz
    have hsum : (wo + wi).z ≠ 0 := by
      rw [V3.add_z]
      intro e
      have : wi.z = -wo.z := by linarith
      rw [this] at hz
      nlinarith [mul_self_nonneg wo.z]
    have hlen : 0 < (wo + wi).length := by
      unfold V3.length
      apply Real.sqrt_pos.2
      unfold V3.lengthSquared
      have := mul_self_pos.2 hsum
      nlinarith [mul_self_nonneg (wo + wi).x, mul_self_nonneg (wo + wi).y]
    have hhz : ((wo + wi).div (wo + wi).length).z ≠ 0 := by
      simp only [V3.div]
      exact div_ne_zero hsum hlen.ne'
    generalize (wo + wi).div (wo + wi).length = q at *
    have hq : 0 < q.dot q := by
      unfold V3.dot
      have := mul_self_pos.2 hhz
      nlinarith [mul_self_nonneg q.x, mul_self_nonneg q.y]
    have hmax : (0 : ℝ) < Max.max roughness (1 / 10 ^ 3) := lt_max_of_lt_right (by norm_num)
    have hsp : 0 < specularity := lt_trans (by norm_num) hp
    have h4 : 0 < q.z ^ 4 := by positivity
    have := Real.pi_pos
    have := Real.exp_pos (-((q.x / Max.max roughness (1 / 10 ^ 3)) ^ 2 + (q.y / Max.max roughness (1 / 10 ^ 3)) ^ 2) / q.z ^ 2)
    have := abs_pos.2 hwo
    positivity
  · unfold wardEval
    rw [if_neg (not_not.2 h)]
    simp only
    rw [if_neg (not_lt.2 hp), zero_div]
  · unfold metalEval
    rw [h2]
  · unfold plasticEval
    rw [h2]

/-- A ray straight down and a ray at an angle are on the same side. -/
example : SameHemisphere (⟨0, 0, 1⟩ : V3 ℝ) ⟨3 / 5, 0, 4 / 5⟩ := by norm_num [SameHemisphere]

/-- C75: without a highlight, plastic and metal are diffuse, and the density that they report, asked with the directions
exchanged (as the tracer does), is that of directions over the hemisphere: its integral is one. -/
theorem C75_matte (colour : Spectrum) (roughness : ℝ) (wo wi : V3 ℝ) (h : SameHemisphere wo wi) :
    metalEval colour 0 roughness wo wi = diffuseEval colour wo wi ∧
    plasticEval colour 0 roughness wo wi = diffuseEval colour wo wi ∧
    wardPdf 0 roughness roughness wi wo = diffusePdf wo wi ∧
    (0 < wo.z → overHemisphere (fun w => wardPdf 0 roughness roughness w wo) = 1) := by
  obtain ⟨g, -, -, h0, hc⟩ := C75_colour 0 roughness le_rfl wo wi h
  have hg := h0 (by norm_num)
  have key : ∀ v w : V3 ℝ, SameHemisphere v w → wardPdf 0 roughness roughness v w = |v.z| / Real.pi := by
    intro v w hvw
    unfold wardPdf wardEval
    rw [if_neg (not_not.2 hvw), if_neg (not_not.2 hvw)]
    simp only
    rw [if_neg (by norm_num)]
    ring
  have hsym : SameHemisphere wi wo := by
    have : wo.z * wi.z > 0 := h
    unfold SameHemisphere
    linarith [mul_comm wo.z wi.z]
  refine ⟨funext fun i => ?_, funext fun i => ?_, ?_, fun hz => ?_⟩
  · rw [(hc colour i).1, hg]
    unfold diffuseEval
    simp [h]
    ring
  · rw [(hc colour i).2, hg]
    unfold diffuseEval
    simp [h]
    ring
  · rw [key _ _ hsym]
    unfold diffusePdf
    simp [h]
  · apply over_of
    intro θ hθ φ
    have hcn := cos_nonneg_of hθ
    rcases hcn.eq_or_lt with h0 | h0
    · have : ¬ SameHemisphere (direction θ φ) wo := by
        unfold SameHemisphere direction
        simp [← h0]
      unfold wardPdf
      rw [if_pos this, ← h0]
      ring
    · have : SameHemisphere (direction θ φ) wo := by
        unfold SameHemisphere direction
        exact mul_pos h0 hz
      rw [key _ _ this]
      simp only [direction]
      rw [abs_of_pos h0]
      ring

private theorem wardEval_swap (specularity alpha beta : ℝ) (v w : V3 ℝ) (h : SameHemisphere v w) :
    (wardEval specularity alpha beta v w).1 * |v.z| = (wardEval specularity alpha beta w v).1 * |w.z| := by
  have hz : v.z * w.z > 0 := h
  have h' : SameHemisphere w v := by
    unfold SameHemisphere
    linarith [mul_comm v.z w.z]
  have hv : |v.z| ≠ 0 := abs_ne_zero.2 fun e => by rw [e, zero_mul] at hz; exact lt_irrefl _ hz
  have hw : |w.z| ≠ 0 := abs_ne_zero.2 fun e => by rw [e, mul_zero] at hz; exact lt_irrefl _ hz
  have hc : w + v = v + w := by ext <;> simp [add_comm]
  unfold wardEval
  rw [if_neg (not_not.2 h), if_neg (not_not.2 h'), hc]
  simp only
  rw [div_mul_cancel₀ _ hv, div_mul_cancel₀ _ hw]

/-- C75, violated: the density reported for a direction, asked either way, should be the density of the samples.  For a
material that is all highlight, where all samples are glossy, it is the density of the sample times the ratio of the
cosines. -/
theorem C75_violated_density (alpha beta : ℝ) (wo : V3 ℝ) (hz : wo.z < 0) (u : ℝ) (hu : u < 1) (xi : List (ℝ × ℝ)) (ud : ℝ × ℝ)
    (s : Sample) (h : wardSample 1 alpha beta wo u xi ud = some s) :
    wardPdf 1 alpha beta s.wi (-wo) = s.pdf * (-wo.z / s.wi.z) ∧ wardPdf 1 alpha beta (-wo) s.wi = s.pdf * (-wo.z / s.wi.z) ∧
      (s.wi.z ≠ -wo.z → wardPdf 1 alpha beta s.wi (-wo) ≠ s.pdf ∧ wardPdf 1 alpha beta (-wo) s.wi ≠ s.pdf) := by
  have hval := (C75_violated_value 1 alpha beta wo zero_le_one hz u hu xi ud s h 0).1
  unfold wardSample at h
  simp only at h
  rw [if_pos hu] at h
  obtain ⟨x, -, e, h1, h2, h3, -, -, h5, -⟩ := wardLoop_spec 1 _ _ wo zero_le_one hz xi 0 s h
  have hw := congrFun h5 0
  unfold weight gray at hw
  rw [hval, abs_of_pos h2, abs_of_neg hz] at hw
  have hne : s.wi.z - wo.z ≠ 0 := by linarith
  have hz' : wo.z ≠ 0 := hz.ne
  rw [div_eq_div_iff h3.ne' hne] at hw
  have hpdf : (wardEval 1 alpha beta (-wo) s.wi).1 * (s.wi.z - wo.z) = s.pdf * 2 * -wo.z := by
    field_simp at hw
    linarith
  have hq : s.pdf = (wardEval 1 alpha beta (-wo) s.wi).1 * (s.wi.z - wo.z) / (2 * -wo.z) := by
    rw [hpdf]
    field_simp
  have same : SameHemisphere (-wo) s.wi := by
    unfold SameHemisphere
    rw [V3.neg_z]
    exact mul_pos (by linarith) h2
  have same' : SameHemisphere s.wi (-wo) := by
    unfold SameHemisphere
    rw [V3.neg_z]
    exact mul_pos h2 (by linarith)
  have sym := wardEval_swap 1 alpha beta s.wi (-wo) same'
  rw [V3.neg_z, abs_neg, abs_of_neg hz, abs_of_pos h2] at sym
  have r1 : wardPdf 1 alpha beta s.wi (-wo) = s.pdf * (-wo.z / s.wi.z) := by
    unfold wardPdf
    rw [if_neg (not_not.2 same')]
    simp only [V3.neg_z]
    have : (wardEval 1 alpha beta s.wi (-wo)).1 = (wardEval 1 alpha beta (-wo) s.wi).1 * -wo.z / s.wi.z := by
      rw [eq_div_iff h2.ne']
      linarith
    rw [this, hq]
    field_simp
    ring
  have r2 : wardPdf 1 alpha beta (-wo) s.wi = s.pdf * (-wo.z / s.wi.z) := by
    unfold wardPdf
    rw [if_neg (not_not.2 same)]
    simp only [V3.neg_z]
    rw [hq]
    field_simp
    ring
  refine ⟨r1, r2, fun hd => ?_⟩
  have : s.pdf * (-wo.z / s.wi.z) ≠ s.pdf := by
    intro e
    have : -wo.z / s.wi.z = 1 := by
      have := mul_left_cancel₀ h3.ne' (e.trans (mul_one _).symm)
      exact this
    rw [div_eq_one_iff_eq h2.ne'] at this
    exact hd this.symm
  rw [r1, r2]
  exact ⟨this, this⟩

private theorem metal_oblique : metalEval (gray 1) 1 1 ⟨0, 0, 1⟩ ⟨3 / 5, 0, 4 / 5⟩ 0 ≠
    metalEval (gray 1) 1 1 ⟨3 / 5, 0, 4 / 5⟩ ⟨0, 0, 1⟩ 0 := by
  have h1 : SameHemisphere (⟨0, 0, 1⟩ : V3 ℝ) ⟨3 / 5, 0, 4 / 5⟩ := by norm_num [SameHemisphere]
  have h2 : SameHemisphere (⟨3 / 5, 0, 4 / 5⟩ : V3 ℝ) ⟨0, 0, 1⟩ := by norm_num [SameHemisphere]
  have hc : (⟨3 / 5, 0, 4 / 5⟩ : V3 ℝ) + ⟨0, 0, 1⟩ = ⟨0, 0, 1⟩ + ⟨3 / 5, 0, 4 / 5⟩ := by ext <;> norm_num
  unfold metalEval wardEval
  simp only
  rw [if_neg (not_not.2 h1), if_neg (not_not.2 h2), hc]
  simp only
  rw [if_pos (by norm_num)]
  have hp : 0 < ((⟨0, 0, 1⟩ + ⟨3 / 5, 0, 4 / 5⟩ : V3 ℝ).div (⟨0, 0, 1⟩ + ⟨3 / 5, 0, 4 / 5⟩ : V3 ℝ).length).z := by
    simp only [V3.div, V3.add_z]
    apply div_pos (by norm_num)
    unfold V3.length
    apply Real.sqrt_pos.2
    norm_num [V3.lengthSquared]
  generalize (⟨0, 0, 1⟩ + ⟨3 / 5, 0, 4 / 5⟩ : V3 ℝ).div (⟨0, 0, 1⟩ + ⟨3 / 5, 0, 4 / 5⟩ : V3 ℝ).length = q at *
  have hq : 0 < q.dot q := by
    unfold V3.dot
    nlinarith [sq_nonneg q.x, sq_nonneg q.y, mul_pos hp hp]
  have hmax : Max.max (1 : ℝ) (1 / 10 ^ 3) = 1 := max_eq_left (by norm_num)
  rw [hmax]
  have hpos : 0 < 1 * q.dot q / (Real.pi * 1 * 1 * q.z ^ 4) * Real.exp (-((q.x / 1) ^ 2 + (q.y / 1) ^ 2) / q.z ^ 2) := by
    have := Real.pi_pos
    have := Real.exp_pos (-((q.x / 1) ^ 2 + (q.y / 1) ^ 2) / q.z ^ 2)
    positivity
  generalize 1 * q.dot q / (Real.pi * 1 * 1 * q.z ^ 4) * Real.exp (-((q.x / 1) ^ 2 + (q.y / 1) ^ 2) / q.z ^ 2) = e at *
  intro h
  rw [abs_of_pos (by norm_num : (0 : ℝ) < 1), abs_of_pos (by norm_num : (0 : ℝ) < 4 / 5)] at h
  simp only [gray] at h
  norm_num at h
  linarith

/-- C75, violated: a metal does not look the same when light and eye are exchanged. -/
theorem C75_violated_reciprocal : ¬ Reciprocal (metalEval (gray 1) 1 1) := by
  intro h
  have := h ⟨0, 0, 1⟩ ⟨3 / 5, 0, 4 / 5⟩ (by norm_num [V3.lengthSquared]) (by norm_num [V3.lengthSquared])
  exact metal_oblique (congrFun this 0)

/-! ### The light made by a glossy surface -/

/-- The glossy part for light along the normal, in terms of the cosine. -/
private theorem normal_incidence (specularity roughness : ℝ) (hs : 1 / 10 ^ 5 < specularity) (hr : 1 / 10 ^ 3 ≤ roughness) (θ φ : ℝ)
    (hc : 0 < Real.cos θ) :
    (wardEval specularity roughness roughness ⟨0, 0, 1⟩ (direction θ φ)).1 =
      4 * specularity / (Real.pi * roughness ^ 2 * (1 + Real.cos θ) ^ 2) *
        Real.exp (-((1 - Real.cos θ) / (1 + Real.cos θ)) / roughness ^ 2) := by
  have hsame : SameHemisphere ⟨0, 0, 1⟩ (direction θ φ) := by
    unfold SameHemisphere direction
    simpa using hc
  unfold wardEval
  rw [if_neg (not_not.2 hsame)]
  simp only
  rw [if_pos hs, max_eq_left hr, abs_one, div_one]
  have hr0 : 0 < roughness := lt_of_lt_of_le (by norm_num) hr
  have hsc := Real.sin_sq_add_cos_sq θ
  have hsp := Real.sin_sq_add_cos_sq φ
  have hls : ((⟨0, 0, 1⟩ : V3 ℝ) + direction θ φ).lengthSquared = 2 * (1 + Real.cos θ) := by
    unfold V3.lengthSquared direction
    simp only [V3.add_x, V3.add_y, V3.add_z]
    linear_combination (Real.sin θ) ^ 2 * hsp + hsc
  have hpos : 0 < ((⟨0, 0, 1⟩ : V3 ℝ) + direction θ φ).lengthSquared := by rw [hls]; linarith
  have hl2 : ((⟨0, 0, 1⟩ : V3 ℝ) + direction θ φ).length ^ 2 = 2 * (1 + Real.cos θ) := by
    rw [← hls]; exact Real.sq_sqrt hpos.le
  have hunit := div_length_unit _ hpos
  obtain ⟨q, hq⟩ : ∃ q, q = ((⟨0, 0, 1⟩ : V3 ℝ) + direction θ φ).div ((⟨0, 0, 1⟩ : V3 ℝ) + direction θ φ).length := ⟨_, rfl⟩
  have hz2 : q.z ^ 2 = (1 + Real.cos θ) / 2 := by
    rw [hq]
    simp only [V3.div, V3.add_z, div_pow]
    rw [hl2]
    have : (direction θ φ).z = Real.cos θ := rfl
    rw [this]
    have h1 : 1 + Real.cos θ ≠ 0 := by linarith
    field_simp
  rw [← hq] at hunit ⊢
  have hxy : q.x ^ 2 + q.y ^ 2 = (1 - Real.cos θ) / 2 := by
    unfold V3.lengthSquared at hunit
    linear_combination hunit - hz2
  have hdot : q.dot q = 1 := hunit
  rw [hdot, show q.z ^ 4 = (q.z ^ 2) ^ 2 by ring, hz2]
  have e2 : -((q.x / roughness) ^ 2 + (q.y / roughness) ^ 2) / ((1 + Real.cos θ) / 2) =
      -((1 - Real.cos θ) / (1 + Real.cos θ)) / roughness ^ 2 := by
    rw [div_pow, div_pow, ← add_div, hxy]
    have h1 : 1 + Real.cos θ ≠ 0 := by linarith
    field_simp
  rw [e2]
  congr 1
  have h1 : 1 + Real.cos θ ≠ 0 := by linarith
  have := Real.pi_ne_zero
  field_simp
  ring

/-- C75, violated: a metal makes light.  Of the light along its normal it sends away at least `1 + ρ (3 - 8 α²)` times as
much as arrives, for a specularity `ρ` and a roughness `α`: almost four times for a smooth metal. -/
theorem C75_violated_energy (specularity roughness : ℝ) (hs : 1 / 10 ^ 5 < specularity) (hr : 1 / 10 ^ 3 ≤ roughness) :
    1 + specularity * (3 - 8 * roughness ^ 2) ≤ albedo (fun wi => metalEval (gray 1) specularity roughness ⟨0, 0, 1⟩ wi 0) := by
  have hpi := Real.pi_pos
  have hr0 : 0 < roughness := lt_of_lt_of_le (by norm_num) hr
  have hs0 : 0 < specularity := lt_trans (by norm_num) hs
  obtain ⟨a, ha⟩ : ∃ a, a = roughness ^ 2 := ⟨_, rfl⟩
  have ha0 : 0 < a := by rw [ha]; positivity
  -- the value, for all angles
  have hval : ∀ θ ∈ Set.uIcc (0 : ℝ) (Real.pi / 2), ∀ φ,
      metalEval (gray 1) specularity roughness ⟨0, 0, 1⟩ (direction θ φ) 0 * |(direction θ φ).z| * Real.sin θ =
        (4 * specularity / (Real.pi * a * (1 + Real.cos θ) ^ 2) * Real.exp (-((1 - Real.cos θ) / (1 + Real.cos θ)) / a) +
          (1 - specularity) / Real.pi) * Real.cos θ * Real.sin θ := by
    intro θ hθ φ
    have hc := cos_nonneg_of hθ
    have hz : (direction θ φ).z = Real.cos θ := rfl
    rw [hz, abs_of_nonneg hc]
    rcases hc.eq_or_lt with h0 | h0
    · rw [← h0]; ring
    · unfold metalEval
      simp only [gray, one_mul]
      rw [normal_incidence specularity roughness hs hr θ φ h0, ← ha]
      have hsame : SameHemisphere ⟨0, 0, 1⟩ (direction θ φ) := by
        unfold SameHemisphere direction
        simpa using h0
      have h2 : (wardEval specularity roughness roughness ⟨0, 0, 1⟩ (direction θ φ)).2 = (1 - specularity) / Real.pi := by
        unfold wardEval
        rw [if_neg (not_not.2 hsame)]
      rw [h2]
  -- a smaller function with a known integral
  let F : ℝ → ℝ := fun θ =>
    2 * specularity / (Real.pi * a) * (Real.exp (-((1 - Real.cos θ) / (1 + Real.cos θ)) / a) *
      (a * (2 * a - 1) + 2 * a * ((1 - Real.cos θ) / (1 + Real.cos θ)))) + (1 - specularity) / Real.pi * (Real.sin θ ^ 2 / 2)
  let g : ℝ → ℝ := fun θ =>
    (4 * specularity / (Real.pi * a * (1 + Real.cos θ) ^ 2) * Real.exp (-((1 - Real.cos θ) / (1 + Real.cos θ)) / a)) *
      (1 - 2 * ((1 - Real.cos θ) / (1 + Real.cos θ))) * Real.sin θ + (1 - specularity) / Real.pi * (Real.cos θ * Real.sin θ)
  have hden : ∀ θ ∈ Set.uIcc (0 : ℝ) (Real.pi / 2), 1 + Real.cos θ ≠ 0 := fun θ hθ => by linarith [cos_nonneg_of hθ]
  have hderiv : ∀ θ ∈ Set.uIcc (0 : ℝ) (Real.pi / 2), HasDerivAt F (g θ) θ := by
    intro θ hθ
    have h1 := hden θ hθ
    have hu : HasDerivAt (fun θ => (1 - Real.cos θ) / (1 + Real.cos θ)) (2 * Real.sin θ / (1 + Real.cos θ) ^ 2) θ := by
      have n1 : HasDerivAt (fun θ => 1 - Real.cos θ) (Real.sin θ) θ := by
        simpa using (Real.hasDerivAt_cos θ).const_sub 1
      have n2 : HasDerivAt (fun θ => 1 + Real.cos θ) (-Real.sin θ) θ := by
        simpa using (Real.hasDerivAt_cos θ).const_add 1
      refine (n1.div n2 h1).congr_deriv ?_
      congr 1
      ring
    have he : HasDerivAt (fun θ => Real.exp (-((1 - Real.cos θ) / (1 + Real.cos θ)) / a))
        (Real.exp (-((1 - Real.cos θ) / (1 + Real.cos θ)) / a) * (-(2 * Real.sin θ / (1 + Real.cos θ) ^ 2) / a)) θ :=
      ((hu.neg).div_const a).exp
    have hp : HasDerivAt (fun θ => a * (2 * a - 1) + 2 * a * ((1 - Real.cos θ) / (1 + Real.cos θ)))
        (2 * a * (2 * Real.sin θ / (1 + Real.cos θ) ^ 2)) θ := (hu.const_mul (2 * a)).const_add _
    have hsn : HasDerivAt (fun θ => Real.sin θ ^ 2 / 2) (Real.cos θ * Real.sin θ) θ := by
      refine (((Real.hasDerivAt_sin θ).pow 2).div_const 2).congr_deriv ?_
      simp
      ring
    refine (((he.mul hp).const_mul (2 * specularity / (Real.pi * a))).add (hsn.const_mul ((1 - specularity) / Real.pi))).congr_deriv ?_
    simp only [g]
    generalize Real.exp (-((1 - Real.cos θ) / (1 + Real.cos θ)) / a) = e
    field_simp
    ring
  have hgc : ContinuousOn g (Set.uIcc (0 : ℝ) (Real.pi / 2)) := by
    intro θ hθ
    have h1 := hden θ hθ
    apply ContinuousAt.continuousWithinAt
    have h2 : Real.pi * a * (1 + Real.cos θ) ^ 2 ≠ 0 := by positivity
    simp only [g]
    fun_prop (disch := assumption)
  have hfc : ContinuousOn (fun θ => (4 * specularity / (Real.pi * a * (1 + Real.cos θ) ^ 2) *
      Real.exp (-((1 - Real.cos θ) / (1 + Real.cos θ)) / a) + (1 - specularity) / Real.pi) * Real.cos θ * Real.sin θ)
      (Set.uIcc (0 : ℝ) (Real.pi / 2)) := by
    intro θ hθ
    have h1 := hden θ hθ
    apply ContinuousAt.continuousWithinAt
    have h2 : Real.pi * a * (1 + Real.cos θ) ^ 2 ≠ 0 := by positivity
    fun_prop (disch := assumption)
  have hle : ∫ θ in (0 : ℝ)..Real.pi / 2, g θ ≤ ∫ θ in (0 : ℝ)..Real.pi / 2,
      (4 * specularity / (Real.pi * a * (1 + Real.cos θ) ^ 2) * Real.exp (-((1 - Real.cos θ) / (1 + Real.cos θ)) / a) +
        (1 - specularity) / Real.pi) * Real.cos θ * Real.sin θ := by
    apply intervalIntegral.integral_mono_on (by positivity) hgc.intervalIntegrable hfc.intervalIntegrable
    intro θ hθ
    have hθ' : θ ∈ Set.uIcc (0 : ℝ) (Real.pi / 2) := by rw [Set.uIcc_of_le (by positivity)]; exact hθ
    have hc := cos_nonneg_of hθ'
    have hsn : 0 ≤ Real.sin θ := Real.sin_nonneg_of_nonneg_of_le_pi hθ.1 (by linarith [hθ.2])
    have h1 : 0 < 1 + Real.cos θ := by linarith
    have hc1 := Real.cos_le_one θ
    have hmu : 1 - 2 * ((1 - Real.cos θ) / (1 + Real.cos θ)) ≤ Real.cos θ := by
      have : Real.cos θ - (1 - 2 * ((1 - Real.cos θ) / (1 + Real.cos θ))) = (1 - Real.cos θ) ^ 2 / (1 + Real.cos θ) := by
        field_simp
        ring
      have : 0 ≤ (1 - Real.cos θ) ^ 2 / (1 + Real.cos θ) := by positivity
      linarith
    have hE : 0 ≤ 4 * specularity / (Real.pi * a * (1 + Real.cos θ) ^ 2) * Real.exp (-((1 - Real.cos θ) / (1 + Real.cos θ)) / a) := by
      have := Real.exp_pos (-((1 - Real.cos θ) / (1 + Real.cos θ)) / a)
      positivity
    simp only [g]
    have := mul_le_mul_of_nonneg_right (mul_le_mul_of_nonneg_left hmu hE) hsn
    linarith
  have hint : ∫ θ in (0 : ℝ)..Real.pi / 2, g θ = F (Real.pi / 2) - F 0 :=
    intervalIntegral.integral_eq_sub_of_hasDerivAt hderiv hgc.intervalIntegrable
  have hF : (1 + specularity * (3 - 8 * a)) / (2 * Real.pi) ≤ F (Real.pi / 2) - F 0 := by
    simp only [F]
    rw [Real.cos_pi_div_two, Real.sin_pi_div_two, Real.cos_zero, Real.sin_zero]
    norm_num
    have he := Real.exp_pos (-1 / a)
    have hx : 0 ≤ 2 * specularity / (Real.pi * a) * (Real.exp (-1 / a) * (a * (2 * a - 1) + 2 * a)) := by
      have : 0 ≤ a * (2 * a - 1) + 2 * a := by nlinarith
      positivity
    have e1 : 2 * specularity / (Real.pi * a) * (a * (2 * a - 1)) = 2 * specularity * (2 * a - 1) / Real.pi := by
      field_simp
    have e2 : (1 + specularity * (3 - 8 * a)) / (2 * Real.pi) = (1 - specularity) / Real.pi * 2⁻¹ - 2 * specularity * (2 * a - 1) / Real.pi := by
      field_simp
      ring
    rw [e2]
    norm_num at hx
    linarith
  unfold albedo overHemisphere
  have hinner : ∀ φ : ℝ, ∫ θ in (0 : ℝ)..Real.pi / 2,
      metalEval (gray 1) specularity roughness ⟨0, 0, 1⟩ (direction θ φ) 0 * |(direction θ φ).z| * Real.sin θ = ∫ θ in (0 : ℝ)..Real.pi / 2,
      (4 * specularity / (Real.pi * a * (1 + Real.cos θ) ^ 2) * Real.exp (-((1 - Real.cos θ) / (1 + Real.cos θ)) / a) +
        (1 - specularity) / Real.pi) * Real.cos θ * Real.sin θ := fun φ =>
    intervalIntegral.integral_congr fun θ hθ => hval θ hθ φ
  simp only [hinner, intervalIntegral.integral_const, smul_eq_mul, sub_zero]
  rw [← ha]
  have := mul_le_mul_of_nonneg_left (hF.trans (hint ▸ hle)) (by positivity : 0 ≤ 2 * Real.pi)
  refine le_trans (le_of_eq ?_) this
  field_simp

example : albedo (fun wi => metalEval (gray 1) 1 (1 / 10) ⟨0, 0, 1⟩ wi 0) > 3 :=
  lt_of_lt_of_le (by norm_num) (C75_violated_energy 1 (1 / 10) (by norm_num) (by norm_num))

end Simple.Render.Materials
