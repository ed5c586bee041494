import Verif.Weather.PerezSkyProps

/-! # C39, C100: the diffuse radiation of a sky, whatever its relative radiance -/

namespace Simple.Weather.Perez

open Simple.Geometry

noncomputable section

/-- C39: whatever the relative radiance of a sky, negative or not, the radiance is a multiple of it.  Either all of it is zero, or the 145 bins whose
radiance is not negative give, on the horizontal, exactly the diffuse irradiance given, `diffIllum / 179`.  All the bins give at most that, and less
if the radiance of one of them is negative. -/
theorem C39_any_sky (r : Reinhart.Sky) (angle : ℕ → ℝ) (dir : ℕ → V3 ℝ) (relative : V3 ℝ → ℝ) (diffIllum : ℝ)
    (hr : Reinhart.new 1 = .ok r) (hb : Spec.Bins r angle dir) (hd : 0 ≤ diffIllum) :
    ∃ sky, skyFunction relative diffIllum = .ok sky ∧ (∃ k, 0 ≤ k ∧ ∀ d, sky d = relative d * k) ∧
      ((∀ d, sky d = 0) ∨ ∑ b ∈ Finset.Ico 1 r.nBins, max (sky (dir b)) 0 * angle b * (dir b).z = diffIllum / 179) ∧
      ∑ b ∈ Finset.Ico 1 r.nBins, sky (dir b) * angle b * (dir b).z ≤ diffIllum / 179 ∧
      ((∃ b, 1 ≤ b ∧ b < r.nBins ∧ sky (dir b) < 0) →
        ∑ b ∈ Finset.Ico 1 r.nBins, sky (dir b) * angle b * (dir b).z < diffIllum / 179) := by
  have hn : 1 + (r.nBins - 1) = r.nBins := by
    obtain ⟨s, e1, e2, e3⟩ := (Reinhart.C36_count 1).1 one_pos
    rw [hr] at e1
    cases e1
    omega
  have hsum : 0 + ∑ i ∈ Finset.range (r.nBins - 1), max (relative (dir (1 + i))) 0 * angle (1 + i) * (dir (1 + i)).z =
      ∑ b ∈ Finset.Ico 1 r.nBins, max (relative (dir b)) 0 * angle b * (dir b).z := by
    rw [zero_add, Finset.sum_Ico_eq_sum_range]
  have hw : ∀ b ∈ Finset.Ico 1 r.nBins, 0 < angle b * (dir b).z := by
    intro b h
    rw [Finset.mem_Ico] at h
    exact mul_pos (hb.angle b h.2).2 (Reinhart.binDir_up 1 b r (dir b) hr h.1 h.2 (hb.dir b h.2).1)
  unfold skyFunction
  rw [hr]
  simp only [Outcome.bind]
  rw [normLoop_eq hb relative _ _ _ hn.le]
  simp only
  rw [hsum]
  generalize hS : ∑ b ∈ Finset.Ico 1 r.nBins, max (relative (dir b)) 0 * angle b * (dir b).z = S
  by_cases hdark : 1 / 10 ^ 4 < S
  · rw [if_pos hdark]
    have hp : 0 < S := lt_trans (by norm_num) hdark
    have hk : 0 ≤ diffIllum / (S * 179) := by positivity
    have hmax : ∑ b ∈ Finset.Ico 1 r.nBins, max (relative (dir b) * (diffIllum / (S * 179))) 0 * angle b * (dir b).z = diffIllum / 179 := by
      rw [Finset.sum_congr rfl (fun b _ => show max (relative (dir b) * (diffIllum / (S * 179))) 0 * angle b * (dir b).z =
        (diffIllum / (S * 179)) * (max (relative (dir b)) 0 * angle b * (dir b).z) by
          rw [show max (relative (dir b) * (diffIllum / (S * 179))) 0 = max (relative (dir b)) 0 * (diffIllum / (S * 179)) by
            rw [max_mul_of_nonneg _ _ hk, zero_mul]]
          ring), ← Finset.mul_sum, hS]
      field_simp
    have hle : ∀ b ∈ Finset.Ico 1 r.nBins, relative (dir b) * (diffIllum / (S * 179)) * angle b * (dir b).z ≤
        max (relative (dir b) * (diffIllum / (S * 179))) 0 * angle b * (dir b).z := by
      intro b h
      rw [mul_assoc, mul_assoc (max _ _)]
      exact mul_le_mul_of_nonneg_right (le_max_left _ _) (hw b h).le
    refine ⟨_, rfl, ⟨_, hk, fun d => rfl⟩, .inr hmax, ?_, ?_⟩
    · rw [← hmax]
      exact Finset.sum_le_sum hle
    · rintro ⟨b, h1, h2, h3⟩
      have hm : b ∈ Finset.Ico 1 r.nBins := Finset.mem_Ico.2 ⟨h1, h2⟩
      rw [← hmax]
      refine Finset.sum_lt_sum hle ⟨b, hm, ?_⟩
      rw [mul_assoc, mul_assoc (max _ _), max_eq_right h3.le, zero_mul]
      exact mul_neg_of_neg_of_pos h3 (hw b hm)
  · rw [if_neg hdark]
    refine ⟨_, rfl, ⟨0, le_rfl, fun d => rfl⟩, .inl fun d => mul_zero _, ?_, ?_⟩
    · simp only [mul_zero, zero_mul, Finset.sum_const_zero]
      positivity
    · rintro ⟨b, -, -, h⟩
      simp at h

/-- C100: whatever the position of the sun, the day, the dew point and the radiation given, there is a sky, and what its 145 bins give on the
horizontal is at most the diffuse radiation given.  Unless it is dark everywhere, the bins whose radiance is not negative give exactly that; it is
less when one is negative (as in `C100_violated_negative`). -/
theorem C100_never_more (sun : V3 ℝ) (day dewPoint diffuse direct : ℝ) (r : Reinhart.Sky) (angle : ℕ → ℝ) (dir : ℕ → V3 ℝ)
    (hr : Reinhart.new 1 = .ok r) (hb : Spec.Bins r angle dir) (hd : 0 ≤ diffuse) :
    ∃ sky, perezSky .solar sun day dewPoint diffuse direct = .ok sky ∧
      ((∀ d, sky d = 0) ∨ ∑ b ∈ Finset.Ico 1 r.nBins, max (sky (dir b)) 0 * angle b * (dir b).z = diffuse) ∧
      ∑ b ∈ Finset.Ico 1 r.nBins, sky (dir b) * angle b * (dir b).z ≤ diffuse ∧
      ((∃ b, 1 ≤ b ∧ b < r.nBins ∧ sky (dir b) < 0) → ∑ b ∈ Finset.Ico 1 r.nBins, sky (dir b) * angle b * (dir b).z < diffuse) := by
  unfold perezSky
  simp only
  generalize clamp (skyClearness diffuse direct (sunZenith sun.z)) (-9 * 10 ^ 9) 11.9 = clearness
  generalize clamp (skyBrightness diffuse _ _) _ _ = brightness
  have h := (C38_clearness clearness 0).2.1
  have hratio : ∃ ratio, diffuseIlluminanceRatio (waterContent dewPoint) sun.z brightness (clearnessCategory clearness) = .ok ratio := by
    unfold diffuseIlluminanceRatio
    rw [if_neg (by omega)]
    obtain ⟨x, hx⟩ : ∃ x, Outcome.index diffuseTable (clearnessCategory clearness) = .ok x := by
      unfold Outcome.index
      have hl : clearnessCategory clearness < diffuseTable.length := by
        have : diffuseTable.length = 8 := rfl
        omega
      rw [List.getElem?_eq_getElem hl]
      exact ⟨_, rfl⟩
    rw [hx]
    exact ⟨_, rfl⟩
  obtain ⟨ratio, hratio⟩ := hratio
  rw [hratio]
  simp only [Outcome.bind]
  obtain ⟨sky, e, -, g1, g2, g3⟩ := C39_any_sky r angle dir (relativeRadiance (calcParams (sunZenith sun.z) clearness brightness) sun) (diffuse * 179)
    hr hb (by positivity)
  rw [show diffuse * 179 / 179 = diffuse by ring] at g1 g2 g3
  exact ⟨sky, e, g1, g2, g3⟩

/-- Every subdivision has bins, so the theorems are about something: the sun above, 100 W/m2 of diffuse and 500 of direct radiation. -/
example : ∃ (r : Reinhart.Sky) (angle : ℕ → ℝ) (dir : ℕ → V3 ℝ), Reinhart.new 1 = .ok r ∧ Spec.Bins r angle dir ∧
    ∃ sky, perezSky .solar ⟨0, 0, 1⟩ 172 10 100 500 = .ok sky ∧ ∑ b ∈ Finset.Ico 1 r.nBins, sky (dir b) * angle b * (dir b).z ≤ 100 := by
  obtain ⟨r, hr, -, -⟩ := (Reinhart.C36_count 1).1 one_pos
  obtain ⟨angle, dir, hb⟩ := bins_exist hr
  obtain ⟨sky, h1, -, h2, -⟩ := C100_never_more ⟨0, 0, 1⟩ 172 10 100 500 r angle dir hr hb (by norm_num)
  exact ⟨r, angle, dir, hr, hb, sky, h1, h2⟩

end

end Simple.Weather.Perez
