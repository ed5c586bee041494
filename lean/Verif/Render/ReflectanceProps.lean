import Mathlib.MeasureTheory.Constructions.Pi
import Mathlib.MeasureTheory.Integral.Pi
import Mathlib.MeasureTheory.Integral.Prod
import Verif.Render.ReflectanceModel
import Verif.Render.GlossyProps

/-! # C117: reflectances of materials -/

namespace Simple.Render.Materials

open Geometry MeasureTheory Spec

private theorem fold_some {R : Type} (scale density : R → ℝ) (sample : R → Option Sample) : ∀ (rs : List R) (acc : Spectrum),
    (∀ r ∈ rs, ∀ s, sample r = some s → s.pdf * density r ≠ 0) →
    rs.foldl (fun rho r => addSample (scale r) (density r) (sample r) rho) (some acc) =
      some fun i => acc i + (rs.map fun r => ((sample r).elim 0 fun s => weight s i) * (scale r / density r)).sum
  | [], acc, _ => by simp
  | r :: rs, acc, h => by
    have hr := h r List.mem_cons_self
    have hrs : ∀ r ∈ rs, ∀ s, sample r = some s → s.pdf * density r ≠ 0 := fun r hr => h r (List.mem_cons_of_mem _ hr)
    rw [List.foldl_cons]
    cases hs : sample r with
    | none =>
      rw [show addSample (scale r) (density r) none (some acc) = some acc from rfl, fold_some scale density sample rs acc hrs]
      simp [hs]
    | some s =>
      have hn := hr s hs
      rw [show addSample (scale r) (density r) (some s) (some acc) =
        some fun i => acc i + s.spectrum i * |s.wi.z| * scale r / (s.pdf * density r) from by
          unfold addSample; simp only [Option.bind_some]; rw [if_neg hn], fold_some scale density sample rs _ hrs]
      congr 1
      funext i
      simp only [List.map_cons, List.sum_cons, hs, Option.elim_some]
      unfold weight
      rw [div_mul_div_comm]
      ring

/-- C117: the directional reflectance is the mean of what the samples carry: those that are not there carry nothing. -/
theorem C117_directional {R : Type} (sample : V3 ℝ → R → Option Sample) (wo : V3 ℝ) (rs : List R) (hne : rs ≠ [])
    (hp : ∀ r ∈ rs, ∀ s, sample wo r = some s → s.pdf ≠ 0) :
    directionalRho sample wo rs =
      some fun i => (rs.map fun r => (sample wo r).elim 0 fun s => weight s i).sum / rs.length := by
  unfold directionalRho
  rw [fold_some (fun _ => 1) (fun _ => 1) (sample wo) rs _ (by simpa using hp)]
  simp only [Option.bind_some]
  rw [if_neg (by simpa using hne)]
  simp [gray]

private theorem mean_const {R : Type} (rs : List R) (hne : rs ≠ []) (f : R → ℝ) (c : ℝ) (h : ∀ r ∈ rs, f r = c) :
    (rs.map f).sum / rs.length = c := by
  have hl : (rs.length : ℝ) ≠ 0 := by simpa using hne
  rw [List.map_congr_left h, List.map_const', List.sum_replicate, nsmul_eq_mul, mul_div_cancel_left₀ _ hl]

/-- C117: a reflectance is never outside of the range of what the samples carry; with samples that do not make light it
is between zero and one. -/
theorem C117_range {R : Type} (sample : V3 ℝ → R → Option Sample) (wo : V3 ℝ) (rs : List R) (hne : rs ≠ []) (m : ℝ) (hm : 0 ≤ m)
    (hp : ∀ r ∈ rs, ∀ s, sample wo r = some s → s.pdf ≠ 0 ∧ ∀ i, 0 ≤ weight s i ∧ weight s i ≤ m) :
    ∃ rho, directionalRho sample wo rs = some rho ∧ ∀ i, 0 ≤ rho i ∧ rho i ≤ m := by
  refine ⟨_, C117_directional sample wo rs hne fun r hr s hs => (hp r hr s hs).1, fun i => ?_⟩
  have hl : (0 : ℝ) < rs.length := by
    have := List.length_pos_of_ne_nil hne
    exact_mod_cast this
  have hb : ∀ x ∈ rs.map (fun r => (sample wo r).elim 0 fun s => weight s i), 0 ≤ x ∧ x ≤ m := by
    intro x hx
    obtain ⟨r, hr, rfl⟩ := List.mem_map.1 hx
    cases hs : sample wo r with
    | none => exact ⟨le_refl _, hm⟩
    | some s => exact (hp r hr s hs).2 i
  refine ⟨div_nonneg (List.sum_nonneg fun x hx => (hb x hx).1) hl.le, ?_⟩
  rw [div_le_iff₀ hl]
  have := List.sum_le_card_nsmul _ m fun x hx => (hb x hx).2
  rw [List.length_map, nsmul_eq_mul] at this
  linarith

private theorem cosine_pos (u : ℝ × ℝ) (hu : u ∈ Sampler.Spec.square) : 0 < (Sampler.cosineHemisphere u).z := by
  obtain ⟨⟨h1, h2⟩, _⟩ := hu
  unfold Sampler.cosineHemisphere Sampler.horizontalDisc Sampler.clamp
  simp only [one_mul]
  have e : Real.sqrt u.1 * Real.sin (2 * Real.pi * u.2) * (Real.sqrt u.1 * Real.sin (2 * Real.pi * u.2)) +
      Real.sqrt u.1 * Real.cos (2 * Real.pi * u.2) * (Real.sqrt u.1 * Real.cos (2 * Real.pi * u.2)) = u.1 := by
    have := Real.mul_self_sqrt h1
    have h := Real.sin_sq_add_cos_sq (2 * Real.pi * u.2)
    linear_combination (Real.sin (2 * Real.pi * u.2) ^ 2 + Real.cos (2 * Real.pi * u.2) ^ 2) * this + u.1 * h
  rw [e]
  apply Real.sqrt_pos.2
  split_ifs <;> linarith

private theorem diffuse_z (colour : Spectrum) (u : ℝ × ℝ) (hu : u ∈ Sampler.Spec.square) : 0 < (diffuseSample colour u).wi.z := by
  have h := cosine_pos u hu
  unfold diffuseSample newDiffuse
  simp only
  rw [if_neg (by linarith)]
  exact h

private theorem diffuse_pdf (colour : Spectrum) (u : ℝ × ℝ) (hu : u ∈ Sampler.Spec.square) : (diffuseSample colour u).pdf ≠ 0 := by
  have h := diffuse_z colour u hu
  have e : (diffuseSample colour u).pdf = |(diffuseSample colour u).wi.z| / Real.pi := rfl
  rw [e]
  exact div_ne_zero (abs_ne_zero.2 h.ne') Real.pi_ne_zero

/-- C117: the reflectance of a diffuse material is its colour, from every direction and with any number of samples. -/
theorem C117_diffuse (colour : Spectrum) (wo : V3 ℝ) (us : List (ℝ × ℝ)) (hne : us ≠ []) (hu : ∀ u ∈ us, u ∈ Sampler.Spec.square) :
    directionalRho (fun _ u => some (diffuseSample colour u)) wo us = some colour := by
  rw [C117_directional _ wo us hne fun r hr s hs => by
    rw [← Option.some.inj hs]; exact diffuse_pdf colour r (hu r hr)]
  congr 1
  funext i
  apply mean_const us hne
  intro u h
  simp only [Option.elim_some]
  rw [((C75_diffuse_sample colour u (hu u h)).2.2.2 (diffuse_z colour u (hu u h))).1]

/-- C117: so is that of a mirror, unless it is seen along its surface. -/
theorem C117_mirror {R : Type} (colour : Spectrum) (wo : V3 ℝ) (hz : wo.z ≠ 0) (rs : List R) (hne : rs ≠ []) :
    directionalRho (fun wo (_ : R) => some (mirrorSample colour wo)) wo rs = some colour := by
  rw [C117_directional _ wo rs hne fun r hr s hs => by
    rw [← Option.some.inj hs]; exact one_ne_zero]
  congr 1
  funext i
  apply mean_const rs hne
  intro u h
  simp only [Option.elim_some]
  rw [(C74_mirror colour wo hz).2.1]

/-- C117: with no samples there is no reflectance. -/
theorem C117_no_samples {R : Type} (sample : V3 ℝ → R → Option Sample) (wo : V3 ℝ) :
    directionalRho sample wo [] = none ∧ hemisphericalRho sample [] = none := ⟨rfl, rfl⟩

/-- C117: the hemispherical reflectance is the mean of what the samples carry, times twice the height of the direction. -/
theorem C117_hemispherical {R : Type} (sample : V3 ℝ → R → Option Sample) (rs : List ((ℝ × ℝ) × R)) (hne : rs ≠ [])
    (hp : ∀ r ∈ rs, ∀ s, sample (Sampler.uniformHemisphere r.1) r.2 = some s → s.pdf ≠ 0) :
    hemisphericalRho sample rs = some fun i => (rs.map fun r =>
      ((sample (Sampler.uniformHemisphere r.1) r.2).elim 0 fun s => weight s i) * (2 * |r.1.1|)).sum / rs.length := by
  unfold hemisphericalRho
  rw [fold_some (fun r : (ℝ × ℝ) × R => |(Sampler.uniformHemisphere r.1).z|) (fun _ => 1 / 2 / Real.pi)
    (fun r => sample (Sampler.uniformHemisphere r.1) r.2) rs _ (fun r hr s hs =>
      mul_ne_zero (hp r hr s hs) (by positivity))]
  simp only [Option.bind_some]
  rw [if_neg (by simpa using hne)]
  congr 1
  funext i
  have hl : (rs.length : ℝ) ≠ 0 := by simpa using hne
  have e : (rs.map fun r => ((sample (Sampler.uniformHemisphere r.1) r.2).elim 0 fun s => weight s i) *
      (|(Sampler.uniformHemisphere r.1).z| / (1 / 2 / Real.pi))) =
      (rs.map fun r => Real.pi * (((sample (Sampler.uniformHemisphere r.1) r.2).elim 0 fun s => weight s i) * (2 * |r.1.1|))) := by
    apply List.map_congr_left
    intro r _
    rw [show (Sampler.uniformHemisphere r.1).z = r.1.1 from rfl]
    field_simp
  rw [e, List.sum_map_mul_left]
  have := Real.pi_ne_zero
  simp only [gray, zero_add]
  rw [mul_div_mul_left _ _ this]

namespace Spec

/-- What random numbers do: pairs in the square, evenly, one for the direction and one for the sample. -/
noncomputable def evenly : Measure ((ℝ × ℝ) × (ℝ × ℝ)) := volume.restrict (Sampler.Spec.square ×ˢ Sampler.Spec.square)

end Spec

private theorem evenly_prod : Spec.evenly =
    ((volume.restrict (Set.Ico (0 : ℝ) 1)).prod (volume.restrict (Set.Ico (0 : ℝ) 1))).prod
    ((volume.restrict (Set.Ico (0 : ℝ) 1)).prod (volume.restrict (Set.Ico (0 : ℝ) 1))) := by
  unfold Spec.evenly Sampler.Spec.square
  rw [Measure.prod_restrict, Measure.prod_restrict]
  rfl

instance : IsProbabilityMeasure (volume.restrict (Set.Ico (0 : ℝ) 1)) := ⟨by simp⟩

instance : IsProbabilityMeasure Spec.evenly := by rw [evenly_prod]; infer_instance

private theorem mean_height (c : ℝ) : ∫ r, c * (2 * |r.1.1|) ∂Spec.evenly = c := by
  rw [evenly_prod, integral_fun_fst (f := fun p : ℝ × ℝ => c * (2 * |p.1|)), integral_fun_fst (f := fun p : ℝ => c * (2 * |p|))]
  simp only [probReal_univ, one_smul]
  rw [integral_Ico_eq_integral_Ioc, ← intervalIntegral.integral_of_le zero_le_one]
  rw [intervalIntegral.integral_congr (g := fun x => (2 * c) * x) (by
    intro x hx
    rw [Set.uIcc_of_le zero_le_one] at hx
    simp only [abs_of_nonneg hx.1]
    ring)]
  rw [intervalIntegral.integral_const_mul, integral_id]
  ring

private theorem height_integrable (c : ℝ) : Integrable (fun r : (ℝ × ℝ) × (ℝ × ℝ) => c * (2 * |r.1.1|)) Spec.evenly := by
  apply Integrable.const_mul
  apply Integrable.const_mul
  apply Integrable.of_bound (C := 1)
  · exact (measurable_fst.fst.norm).aestronglyMeasurable
  · unfold Spec.evenly
    rw [ae_restrict_iff' (by
      apply MeasurableSet.prod <;> exact measurableSet_Ico.prod measurableSet_Ico)]
    refine Filter.Eventually.of_forall fun r hr => ?_
    obtain ⟨⟨⟨h1, h2⟩, _⟩, _⟩ := hr
    rw [Real.norm_eq_abs, abs_abs, abs_of_nonneg h1]
    exact h2.le

private theorem square_measurable : MeasurableSet (Sampler.Spec.square ×ˢ Sampler.Spec.square) := by
  apply MeasurableSet.prod <;> exact measurableSet_Ico.prod measurableSet_Ico

private theorem ae_evenly : ∀ᵐ r ∂Spec.evenly, r ∈ Sampler.Spec.square ×ˢ Sampler.Spec.square ∧ r.1.1 ≠ 0 := by
  refine Filter.Eventually.and ?_ ?_
  · unfold Spec.evenly
    exact ae_restrict_mem square_measurable
  · have h0 : ∀ᵐ x : ℝ ∂volume.restrict (Set.Ico (0 : ℝ) 1), x ≠ 0 := by
      apply ae_restrict_of_ae
      rw [ae_iff]
      simp
    rw [evenly_prod]
    have h1 := (Measure.quasiMeasurePreserving_fst (μ := volume.restrict (Set.Ico (0 : ℝ) 1))
      (ν := volume.restrict (Set.Ico (0 : ℝ) 1))).ae h0
    exact Measure.quasiMeasurePreserving_fst.ae h1

/-- C117: if every sample of a material carries its colour, the hemispherical reflectance is right on the average,
whatever the number of samples, and no value is below zero or above twice the colour. -/
theorem C117_expected (sample : V3 ℝ → ℝ × ℝ → Option Sample) (colour : Spectrum) (hc : ∀ i, 0 ≤ colour i)
    (h : ∀ r ∈ Sampler.Spec.square ×ˢ Sampler.Spec.square, r.1.1 ≠ 0 →
      ∃ s, sample (Sampler.uniformHemisphere r.1) r.2 = some s ∧ s.pdf ≠ 0 ∧ weight s = colour)
    (n : ℕ) (hn : 0 < n) (i : Fin 3) :
    ∫ x, (hemisphericalRho sample (List.ofFn x)).getD (gray 0) i ∂Measure.pi (fun _ : Fin n => Spec.evenly) = colour i ∧
    ∀ x : Fin n → (ℝ × ℝ) × (ℝ × ℝ), (∀ k, x k ∈ Sampler.Spec.square ×ˢ Sampler.Spec.square ∧ (x k).1.1 ≠ 0) →
      ∃ rho, hemisphericalRho sample (List.ofFn x) = some rho ∧ 0 ≤ rho i ∧ rho i ≤ 2 * colour i := by
  have hl : (n : ℝ) ≠ 0 := by exact_mod_cast hn.ne'
  have key : ∀ x : Fin n → (ℝ × ℝ) × (ℝ × ℝ), (∀ k, x k ∈ Sampler.Spec.square ×ˢ Sampler.Spec.square ∧ (x k).1.1 ≠ 0) →
      hemisphericalRho sample (List.ofFn x) = some fun i => (∑ k, colour i * (2 * |(x k).1.1|)) / n := by
    intro x hx
    have hne : List.ofFn x ≠ [] := by
      rw [Ne, List.ofFn_eq_nil_iff]
      omega
    have hmem : ∀ r ∈ List.ofFn x, r ∈ Sampler.Spec.square ×ˢ Sampler.Spec.square ∧ r.1.1 ≠ 0 := by
      intro r hr
      obtain ⟨k, rfl⟩ := (List.mem_ofFn' _ _).1 hr
      exact hx k
    rw [C117_hemispherical sample _ hne fun r hr s hs => by
      obtain ⟨s', e, hp, _⟩ := h r (hmem r hr).1 (hmem r hr).2
      rw [e] at hs
      rw [← Option.some.inj hs]
      exact hp]
    congr 1
    funext i
    rw [List.length_ofFn, ← List.sum_ofFn,
      show (List.ofFn fun k => colour i * (2 * |(x k).1.1|)) = (List.ofFn x).map fun r => colour i * (2 * |r.1.1|) by
        rw [List.map_ofFn]; rfl]
    congr 2
    apply List.map_congr_left
    intro r hr
    obtain ⟨s', e, _, hw⟩ := h r (hmem r hr).1 (hmem r hr).2
    rw [e, Option.elim_some, hw]
  constructor
  · have hae : ∀ᵐ x ∂Measure.pi (fun _ : Fin n => Spec.evenly),
        (hemisphericalRho sample (List.ofFn x)).getD (gray 0) i = (∑ k, colour i * (2 * |(x k).1.1|)) / n := by
      have : ∀ᵐ x ∂Measure.pi (fun _ : Fin n => Spec.evenly),
          ∀ k, x k ∈ Sampler.Spec.square ×ˢ Sampler.Spec.square ∧ (x k).1.1 ≠ 0 := by
        rw [ae_all_iff]
        intro k
        exact (measurePreserving_eval (fun _ : Fin n => Spec.evenly) k).quasiMeasurePreserving.ae ae_evenly
      filter_upwards [this] with x hx
      rw [key x hx]
      rfl
    have hint : ∀ k ∈ (Finset.univ : Finset (Fin n)), Integrable (fun x : Fin n → (ℝ × ℝ) × (ℝ × ℝ) => colour i * (2 * |(x k).1.1|))
        (Measure.pi fun _ : Fin n => Spec.evenly) := fun k _ =>
      (measurePreserving_eval (fun _ : Fin n => Spec.evenly) k).integrable_comp_of_integrable (height_integrable (colour i))
    rw [integral_congr_ae hae, integral_div, integral_finsetSum _ hint]
    have hk : ∀ k : Fin n, ∫ x, colour i * (2 * |(x k).1.1|) ∂Measure.pi (fun _ : Fin n => Spec.evenly) = colour i := by
      intro k
      have mp := measurePreserving_eval (fun _ : Fin n => Spec.evenly) k
      have e := integral_map mp.measurable.aemeasurable (f := fun r : (ℝ × ℝ) × (ℝ × ℝ) => colour i * (2 * |r.1.1|))
        (by rw [mp.map_eq]; exact (height_integrable (colour i)).aestronglyMeasurable)
      rw [mp.map_eq, mean_height] at e
      exact e.symm
    rw [Finset.sum_congr rfl fun k _ => hk k, Finset.sum_const, Finset.card_univ, Fintype.card_fin, nsmul_eq_mul,
      mul_div_cancel_left₀ _ hl]
  · intro x hx
    refine ⟨_, key x hx, ?_, ?_⟩
    · apply div_nonneg _ (Nat.cast_nonneg n)
      exact Finset.sum_nonneg fun k _ => mul_nonneg (hc i) (by positivity)
    · rw [div_le_iff₀ (by exact_mod_cast hn)]
      have hb : ∀ k ∈ (Finset.univ : Finset (Fin n)), colour i * (2 * |(x k).1.1|) ≤ 2 * colour i := by
        intro k _
        obtain ⟨⟨⟨⟨h1, h2⟩, _⟩, _⟩, _⟩ := hx k
        rw [abs_of_nonneg h1]
        nlinarith [hc i]
      have := Finset.sum_le_card_nsmul _ _ _ hb
      rw [Finset.card_univ, Fintype.card_fin, nsmul_eq_mul] at this
      linarith

/-- C117: so it is for diffuse materials and for mirrors. -/
theorem C117_hemisphere (colour : Spectrum) (hc : ∀ i, 0 ≤ colour i) (n : ℕ) (hn : 0 < n) (i : Fin 3) :
    ∫ x, (hemisphericalRho (fun _ u => some (diffuseSample colour u)) (List.ofFn x)).getD (gray 0) i
      ∂Measure.pi (fun _ : Fin n => Spec.evenly) = colour i ∧
    ∫ x, (hemisphericalRho (fun wo (_ : ℝ × ℝ) => some (mirrorSample colour wo)) (List.ofFn x)).getD (gray 0) i
      ∂Measure.pi (fun _ : Fin n => Spec.evenly) = colour i :=
  ⟨(C117_expected _ colour hc (fun r hr _ => ⟨_, rfl, diffuse_pdf colour r.2 hr.2,
      ((C75_diffuse_sample colour r.2 hr.2).2.2.2 (diffuse_z colour r.2 hr.2)).1⟩) n hn i).1,
    (C117_expected _ colour hc (fun r _ h0 => ⟨_, rfl, one_ne_zero, (C74_mirror colour _ h0).2.1⟩) n hn i).1⟩

private theorem any_clear (i : Fin 3) : (anyTransmission (gray 1)).2 i = 1 := by
  unfold anyTransmission
  rw [if_neg (by norm_num [Spectrum.max, gray])]
  norm_num [gray]

/-- C117 fails for glass: the light that goes through is counted.  Every clear pane, whatever its index of refraction,
has a reflectance of one from every direction, with any number of samples; and that of index 3/2 reflects a thirteenth of
the light that meets it head-on. -/
theorem C117_violated_glass :
    (∀ (index : ℝ), 1 ≤ index → ∀ wo : V3 ℝ, wo.z ≠ 0 → ∀ us : List ℝ, us ≠ [] → (∀ u ∈ us, 0 < u ∧ u < 1) →
      directionalRho (glassSample (gray 1) index) wo us = some (gray 1)) ∧
    ∀ i, glassRefl (gray 1) (3 / 2) ⟨0, 0, -1⟩ i = 1 / 13 := by
  constructor
  · intro index hi wo hz us hne hu
    have hcol : ∀ i, 0 ≤ gray 1 i ∧ gray 1 i ≤ 1 := fun i => by norm_num [gray]
    have any : (anyTransmission (gray 1)).1 = true := by
      unfold anyTransmission
      rw [if_neg (by norm_num [Spectrum.max, gray])]
    have hs := C74_glass_clear index hi wo hz
    have hk := C74_glass (gray 1) hcol index hi wo hz
    have same : ∀ i j, glassRefl (gray 1) index wo i = glassRefl (gray 1) index wo j := by
      intro i j
      unfold glassRefl
      simp only [any_clear i, any_clear j]
    have hr : (glassRefl (gray 1) index wo).radiance = glassRefl (gray 1) index wo 0 := by
      unfold Spectrum.radiance
      rw [same 1 0, same 2 0]; ring
    have ht : (glassTrans (gray 1) index wo).radiance = 1 - glassRefl (gray 1) index wo 0 := by
      unfold Spectrum.radiance
      have h0 := hs 0
      have h1 := hs 1
      have h2 := hs 2
      rw [same 1 0] at h1
      rw [same 2 0] at h2
      linear_combination (265 / 1000) * h0 + (67 / 100) * h1 + (65 / 1000) * h2
    have hz' : |wo.z| ≠ 0 := abs_ne_zero.2 hz
    have one : ∀ u, 0 < u → u < 1 → ∃ s, glassSample (gray 1) index wo u = some s ∧ s.pdf ≠ 0 ∧ weight s = gray 1 := by
      intro u h0 h1
      unfold glassSample
      simp only [any, if_true, hr, ht]
      rw [show glassRefl (gray 1) index wo 0 + (1 - glassRefl (gray 1) index wo 0) = 1 by ring, div_one, div_one,
        if_neg (by rintro ⟨a, b⟩; norm_num at a b; linarith)]
      by_cases hle : u ≤ glassRefl (gray 1) index wo 0
      · rw [if_pos hle]
        have hp : glassRefl (gray 1) index wo 0 ≠ 0 := by linarith
        refine ⟨_, rfl, hp, ?_⟩
        funext i
        unfold weight mirrorDirection
        simp only [abs_neg]
        rw [div_mul_cancel₀ _ hz', same i 0, div_self hp]
        rfl
      · rw [if_neg hle]
        have hp : 1 - glassRefl (gray 1) index wo 0 ≠ 0 := by linarith
        refine ⟨_, rfl, hp, ?_⟩
        funext i
        unfold weight
        simp only
        have := hs i
        rw [same i 0] at this
        rw [div_mul_cancel₀ _ hz', show glassTrans (gray 1) index wo i = 1 - glassRefl (gray 1) index wo 0 by linarith, div_self hp]
        rfl
    rw [C117_directional _ wo us hne fun r hr s hs => by
      obtain ⟨s', e, hp, _⟩ := one r (hu r hr).1 (hu r hr).2
      rw [e] at hs
      rw [← Option.some.inj hs]
      exact hp]
    congr 1
    funext i
    apply mean_const us hne
    intro u h
    obtain ⟨s', e, _, hw⟩ := one u (hu u h).1 (hu u h).2
    rw [e, Option.elim_some, hw]
  · intro i
    have hc : transmittedCos (3 / 2) ⟨0, 0, -1⟩ = 1 := by
      unfold transmittedCos
      norm_num
    unfold glassRefl
    simp only [hc]
    rw [any_clear i]
    norm_num

/-! ## The hypotheses can be met -/

/-- A grey surface seen at an angle, with two samples. -/
example : directionalRho (fun _ u => some (diffuseSample (gray (1 / 2)) u)) ⟨1, 0, -1⟩ [(0, 1 / 2), (1 / 4, 1 / 3)] =
    some (gray (1 / 2)) := by
  apply C117_diffuse _ _ _ (by simp)
  intro u hu
  simp only [List.mem_cons, List.not_mem_nil, or_false] at hu
  rcases hu with rfl | rfl <;> refine ⟨⟨?_, ?_⟩, ⟨?_, ?_⟩⟩ <;> norm_num

/-- A mirror of which a sample in three is not there: its reflectance is less than its colour. -/
example : ∃ rho, directionalRho (fun wo b => if b then some (mirrorSample (gray 1) wo) else none) ⟨0, 0, -1⟩ [true, false, true] =
    some rho ∧ ∀ i, 0 ≤ rho i ∧ rho i ≤ 1 := by
  apply C117_range _ _ _ (by simp) 1 (by norm_num)
  intro r _ s hs
  cases r with
  | false => simp at hs
  | true =>
    simp only [if_true, Option.some.injEq] at hs
    rw [← hs, (C74_mirror (gray 1) ⟨0, 0, -1⟩ (by norm_num)).2.1]
    exact ⟨one_ne_zero, fun i => by norm_num [gray]⟩

end Simple.Render.Materials
