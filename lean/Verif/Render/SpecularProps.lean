import Mathlib.Tactic.Positivity
import Mathlib.Tactic.FieldSimp
import Mathlib.Tactic.Linarith
import Verif.Geometry.DiskProps
import Verif.Render.MaterialModel

/-! # C74: mirrors, refraction and glass -/

namespace Simple.Render.Materials

open Geometry

namespace Spec

/-- The part of a vector along a surface. -/
noncomputable def along (normal v : V3 ℝ) : V3 ℝ := v - normal.scale (v.dot normal)

/-- The law of refraction: the direction stays in the plane of incidence, on the other side of the surface, and the indexes
of refraction times the sines of the angles are equal. -/
def Refracted (n1 n2 : ℝ) (normal v w : V3 ℝ) : Prop :=
  w.lengthSquared = 1 ∧ w.dot normal < 0 ∧ (along normal v).scale n1 = (along normal w).scale n2

/-- The law of reflection on the third axis: same angle, other side, same plane. -/
def Reflected (v w : V3 ℝ) : Prop := w.x = v.x ∧ w.y = v.y ∧ w.z = -v.z

/-- What a sample contributes: the value times the cosine, over the density. -/
noncomputable def weight (s : Sample) : Spectrum := fun i => s.spectrum i * |s.wi.z| / s.pdf

end Spec

open Spec

private theorem flagRefl : Flag.specularReflection.isReflective = true := by decide

private theorem flagTrans : Flag.specularTransmission.isTransmissive = true := by decide

private theorem dot_range {v n : V3 ℝ} (hv : v.lengthSquared = 1) (hn : n.lengthSquared = 1) : (v.dot n) ^ 2 ≤ 1 := by
  have : (v.dot n) ^ 2 ≤ v.lengthSquared * n.lengthSquared := by
    unfold V3.dot V3.lengthSquared
    nlinarith [sq_nonneg (v.x * n.y - v.y * n.x), sq_nonneg (v.x * n.z - v.z * n.x), sq_nonneg (v.y * n.z - v.z * n.y)]
  rwa [hv, hn, one_mul] at this

/-- C74: the law of refraction.  A ray in a medium of index `n1` that arrives at a material goes on into one of index `n2`,
that of the material, or of the air when it was already in the material.  There is no refracted ray exactly when the sine
of the angle of incidence is larger than `n2 / n1`; otherwise (and not at the critical angle exactly) the direction
computed obeys the law. -/
theorem C74_refraction (vin normal : V3 ℝ) (n1 index : ℝ) (hv : vin.lengthSquared = 1) (hn : normal.lengthSquared = 1)
    (hd : vin.dot normal < 0) (h1 : 0 < n1) (h2 : 0 < index) :
    ∃ n2 cos2, cosAndN vin n1 normal index = (n1, -(vin.dot normal), n2, cos2) ∧ 0 < n2 ∧
      (1 / 10 ^ 7 ≤ |n1 - index| → n2 = index) ∧ (|n1 - index| < 1 / 10 ^ 7 → n2 = 1) ∧
      (cos2 = none ↔ n2 < n1 * Real.sqrt (1 - (vin.dot normal) ^ 2)) ∧
      ∀ c, cos2 = some c → c ≠ 0 → 0 < c ∧ c ≤ 1 ∧
        Refracted n1 n2 normal vin (transmissionDir vin normal n1 (-(vin.dot normal)) n2 c) := by
  obtain ⟨n2, hn2⟩ : ∃ n2, n2 = if |n1 - index| < 1 / 10 ^ 7 then 1 else index := ⟨_, rfl⟩
  have hpos : 0 < n2 := by
    rw [hn2]
    by_cases hc : |n1 - index| < 1 / 10 ^ 7
    · rw [if_pos hc]; norm_num
    · rw [if_neg hc]; exact h2
  have hr := dot_range hv hn
  have hmax : max (1 - -(vin.dot normal) * -(vin.dot normal)) 0 = 1 - (vin.dot normal) ^ 2 := by
    rw [max_eq_left (by nlinarith)]
    ring
  have hs0 : 0 ≤ 1 - (vin.dot normal) ^ 2 := by linarith
  have hiff : n1 * n1 * (1 - (vin.dot normal) ^ 2) / (n2 * n2) > 1 ↔ n2 < n1 * Real.sqrt (1 - (vin.dot normal) ^ 2) := by
    rw [gt_iff_lt, one_lt_div (by positivity)]
    have hq := Real.sq_sqrt hs0
    have hq0 := Real.sqrt_nonneg (1 - (vin.dot normal) ^ 2)
    generalize Real.sqrt (1 - (vin.dot normal) ^ 2) = q at *
    rw [← hq]
    constructor
    · intro h
      apply lt_of_pow_lt_pow_left₀ 2 (by positivity)
      nlinarith
    · intro h
      have := pow_lt_pow_left₀ h hpos.le (two_ne_zero)
      nlinarith
  refine ⟨n2, if n1 * n1 * (1 - (vin.dot normal) ^ 2) / (n2 * n2) > 1 then none
    else some (Real.sqrt (1 - n1 * n1 * (1 - (vin.dot normal) ^ 2) / (n2 * n2))), ?_, hpos, ?_, ?_, ?_, ?_⟩
  · unfold cosAndN
    simp only
    rw [← hn2, abs_of_neg hd, hmax]
    by_cases hc : n1 * n1 * (1 - (vin.dot normal) ^ 2) / (n2 * n2) > 1
    · rw [if_pos hc, if_pos hc]
    · rw [if_neg hc, if_neg hc]
  · intro hc
    rw [hn2, if_neg (not_lt.2 hc)]
  · intro hc
    rw [hn2, if_pos hc]
  · by_cases hc : n1 * n1 * (1 - (vin.dot normal) ^ 2) / (n2 * n2) > 1
    · rw [if_pos hc]; exact ⟨fun _ => hiff.1 hc, fun _ => rfl⟩
    · rw [if_neg hc]; exact ⟨fun h => (by cases h), fun h => absurd (hiff.2 h) hc⟩
  · intro c hcos hc0
    by_cases hc : n1 * n1 * (1 - (vin.dot normal) ^ 2) / (n2 * n2) > 1
    · rw [if_pos hc] at hcos; cases hcos
    · rw [if_neg hc] at hcos
      have hcos := Option.some.inj hcos
      have hnn : 0 ≤ c := by rw [← hcos]; exact Real.sqrt_nonneg _
      have hcp : 0 < c := lt_of_le_of_ne hnn (Ne.symm hc0)
      have hsq : c ^ 2 = 1 - n1 * n1 * (1 - (vin.dot normal) ^ 2) / (n2 * n2) := by
        rw [← hcos]
        exact Real.sq_sqrt (by linarith [not_lt.1 hc])
      have hrat : 0 ≤ n1 * n1 * (1 - (vin.dot normal) ^ 2) / (n2 * n2) := by positivity
      refine ⟨hcp, by nlinarith, ?_⟩
      have hdot : (transmissionDir vin normal n1 (-(vin.dot normal)) n2 c).dot normal = -c := by
        have : (transmissionDir vin normal n1 (-(vin.dot normal)) n2 c).dot normal
            = n1 / n2 * vin.dot normal + (n1 / n2 * -(vin.dot normal) - c) * normal.lengthSquared := by
          unfold transmissionDir V3.dot V3.lengthSquared
          simp only [V3.add_x, V3.add_y, V3.add_z, V3.scale_x, V3.scale_y, V3.scale_z]
          ring
        rw [this, hn]
        ring
      refine ⟨?_, by rw [hdot]; linarith, ?_⟩
      · have : (transmissionDir vin normal n1 (-(vin.dot normal)) n2 c).lengthSquared
            = (n1 / n2) ^ 2 * vin.lengthSquared + 2 * (n1 / n2) * (n1 / n2 * -(vin.dot normal) - c) * vin.dot normal
              + (n1 / n2 * -(vin.dot normal) - c) ^ 2 * normal.lengthSquared := by
          unfold transmissionDir V3.dot V3.lengthSquared
          simp only [V3.add_x, V3.add_y, V3.add_z, V3.scale_x, V3.scale_y, V3.scale_z]
          ring
        rw [this, hn, hv]
        have e : n1 * n1 * (1 - (vin.dot normal) ^ 2) / (n2 * n2) = (n1 / n2) ^ 2 * (1 - (vin.dot normal) ^ 2) := by
          field_simp
        rw [e] at hsq
        linear_combination hsq
      · unfold along
        rw [hdot]
        unfold transmissionDir
        ext
        · simp only [V3.add_x, V3.scale_x, V3.sub_x]; field_simp; ring
        · simp only [V3.add_y, V3.scale_y, V3.sub_y]; field_simp; ring
        · simp only [V3.add_z, V3.scale_z, V3.sub_z]; field_simp; ring

private theorem ratio_sq {a b : ℝ} (ha : 0 < a) (hb : 0 < b) : 0 ≤ ((a - b) / (a + b)) ^ 2 ∧ ((a - b) / (a + b)) ^ 2 < 1 := by
  refine ⟨sq_nonneg _, ?_⟩
  rw [div_pow, div_lt_one (by positivity)]
  nlinarith [mul_pos ha hb]

/-- C74: the reflectance of an interface is at least zero and less than one, and it is the same in both directions. -/
theorem C74_fresnel (n1 cos1 n2 cos2 : ℝ) (h1 : 0 < n1) (h2 : 0 < cos1) (h3 : 0 < n2) (h4 : 0 < cos2) :
    0 ≤ fresnelReflectance n1 cos1 n2 cos2 ∧ fresnelReflectance n1 cos1 n2 cos2 < 1 ∧
      fresnelReflectance n1 cos1 n2 cos2 = fresnelReflectance n2 cos2 n1 cos1 ∧
      (cos1 = 1 → cos2 = 1 → fresnelReflectance n1 cos1 n2 cos2 = ((n1 - n2) / (n1 + n2)) ^ 2) := by
  have e1 := ratio_sq (mul_pos h1 h2) (mul_pos h3 h4)
  have e2 := ratio_sq (div_pos h1 h2) (div_pos h3 h4)
  unfold fresnelReflectance fresnelTe fresnelTm
  simp only
  refine ⟨by nlinarith, by nlinarith, ?_, ?_⟩
  · have s1 : (n2 / cos2 - n1 / cos1) / (n2 / cos2 + n1 / cos1) = -((n1 / cos1 - n2 / cos2) / (n1 / cos1 + n2 / cos2)) := by
      rw [add_comm (n2 / cos2), ← neg_div, neg_sub]
    have s2 : (n2 * cos2 - n1 * cos1) / (n2 * cos2 + n1 * cos1) = -((n1 * cos1 - n2 * cos2) / (n1 * cos1 + n2 * cos2)) := by
      rw [add_comm (n2 * cos2), ← neg_div, neg_sub]
    rw [s1, s2]
    ring
  · rintro rfl rfl
    simp only [div_one, mul_one]
    ring

/-- C74: a mirror sends rays where the law of reflection says, and their light is multiplied by the colour. -/
theorem C74_mirror (colour : Spectrum) (wo : V3 ℝ) (h : wo.z ≠ 0) :
    Reflected wo (mirrorSample colour wo).wi ∧ weight (mirrorSample colour wo) = colour ∧
      (mirrorSample colour wo).flags.isReflective = true := by
  refine ⟨⟨rfl, rfl, rfl⟩, ?_, flagRefl⟩
  have : |wo.z| ≠ 0 := abs_ne_zero.2 h
  funext i
  unfold weight mirrorSample mirrorDirection
  simp only [abs_neg]
  field_simp

/-- C74: a dielectric, hit from the side of its normal by a ray in a medium of index `eta`, not at the critical angle
exactly.  It never fails; there is a number in [0, 1] such that random numbers below it lead to a reflection and the others
to a refraction; a reflection keeps all the light; a refraction multiplies it by the colour and, for radiance, by the
square root of the ratio of the indexes.

Missing: the medium after a reflection and the factor of the radiance (`C74_violated_medium`, `C74_violated_inside`, `C74_violated_radiance`). -/
theorem C74_dielectric_partial (colour : Spectrum) (index : ℝ) (wo : V3 ℝ) (eta : ℝ) (mode : Mode) (hu : wo.lengthSquared = 1)
    (hz : wo.z < 0) (h1 : 0 < eta) (h2 : 0 < index)
    (hcrit : (cosAndN wo eta ⟨0, 0, 1⟩ index).2.2.2 ≠ some 0) :
    ∃ n2 R, 0 ≤ R ∧ R ≤ 1 ∧ (R = 1 → n2 < eta * Real.sqrt (1 - wo.z ^ 2)) ∧
      (|eta - index| < 1 / 10 ^ 7 → n2 = 1) ∧ (1 / 10 ^ 7 ≤ |eta - index| → n2 = index) ∧
      ∀ uc, 0 ≤ uc → uc < 1 → ∃ s, dielectricSample colour index wo eta uc mode = .ok s ∧
        (uc < R → Reflected wo s.wi ∧ weight s = gray 1 ∧ s.pdf = R ∧ s.flags.isReflective = true) ∧
        (R ≤ uc → Refracted eta n2 ⟨0, 0, 1⟩ wo s.wi ∧ s.pdf = 1 - R ∧ s.flags.isTransmissive = true ∧
          weight s = fun i => match mode with
            | .radiance => colour i * Real.sqrt (eta / n2)
            | .importance => colour i) := by
  have hdot : wo.dot ⟨0, 0, 1⟩ = wo.z := by unfold V3.dot; simp
  obtain ⟨n2, cos2, hc, hn2, hn2a, hn2b, hnone, hsome⟩ := C74_refraction wo ⟨0, 0, 1⟩ eta index hu
    (by norm_num [V3.lengthSquared]) (by rw [hdot]; exact hz) h1 h2
  rw [hdot] at hc hnone
  rw [hc] at hcrit
  simp only [ne_eq] at hcrit
  have hcos1 : 0 < -wo.z := by linarith
  unfold dielectricSample
  simp only [hc]
  cases cos2 with
  | none =>
    refine ⟨n2, 1, zero_le_one, le_refl _, fun _ => hnone.1 rfl, hn2b, hn2a, fun uc hu0 hu1 => ?_⟩
    simp only
    rw [if_pos (by norm_num; exact hu1)]
    refine ⟨_, rfl, fun _ => ⟨⟨rfl, rfl, rfl⟩, ?_, by norm_num, flagRefl⟩, fun h => absurd hu1 (not_lt.2 h)⟩
    funext i
    unfold weight mirrorDirection gray
    simp only [sub_self, add_zero, div_one]
    rw [abs_of_pos hcos1]
    have hne : -wo.z ≠ 0 := hcos1.ne'
    exact div_mul_cancel₀ _ hne
  | some c =>
    obtain ⟨hc0, hc1, href⟩ := hsome c rfl (fun h => hcrit (by rw [h]))
    rw [hdot] at href
    obtain ⟨hR0, hR1, -, -⟩ := C74_fresnel eta (-wo.z) n2 c h1 hcos1 hn2 hc0
    simp only
    generalize fresnelReflectance eta (-wo.z) n2 c = R at *
    refine ⟨n2, R, hR0, hR1.le, fun h => absurd h hR1.ne, hn2b, hn2a, fun uc hu0 hu1 => ?_⟩
    have hsum : R + (1 - R) = 1 := by ring
    rw [hsum, div_one, div_one]
    by_cases hlt : uc < R
    · rw [if_pos hlt]
      refine ⟨_, rfl, fun _ => ⟨⟨rfl, rfl, rfl⟩, ?_, rfl, flagRefl⟩, fun h => absurd hlt (not_lt.2 h)⟩
      have : R ≠ 0 := by linarith
      funext i
      unfold weight mirrorDirection gray
      simp only
      rw [abs_of_pos hcos1]
      have hne : -wo.z ≠ 0 := hcos1.ne'
      rw [div_mul_cancel₀ _ hne, div_self this]
    · rw [if_neg hlt]
      refine ⟨_, rfl, fun h => absurd h hlt, fun _ => ⟨href, rfl, flagTrans, ?_⟩⟩
      have hne : 1 - R ≠ 0 := by linarith
      have hwz : (transmissionDir wo ⟨0, 0, 1⟩ eta (-wo.z) n2 c).z = -c := by
        unfold transmissionDir
        simp only [V3.add_z, V3.scale_z]
        ring
      funext i
      unfold weight
      simp only
      rw [hwz, abs_neg, abs_of_pos hc0]
      cases mode
      · simp only
        field_simp
      · simp only
        field_simp

/-- Light falling on glass from the air. -/
example : (cosAndN ⟨0, 0, -1⟩ 1 ⟨0, 0, 1⟩ (3 / 2)).2.2.2 ≠ some 0 := by
  norm_num [cosAndN, V3.dot]

/-- C74, violated by the ray tracer: after a hit on the front of a dielectric the ray is taken to be in its material, also
when it was reflected and stays in the air. -/
theorem C74_violated_medium : ∃ (colour : Spectrum) (index : ℝ) (wo : V3 ℝ) (uc : ℝ) (s : Sample), wo.lengthSquared = 1 ∧
    wo.z < 0 ∧ 0 ≤ uc ∧ uc < 1 ∧ dielectricSample colour index wo 1 uc .radiance = .ok s ∧ s.flags.isReflective = true ∧
    0 < s.wi.z ∧ dielectricEta index .front ≠ 1 := by
  refine ⟨gray 1, 3 / 2, ⟨0, 0, -1⟩, 0, ⟨gray (1 / 25), ⟨0, 0, 1⟩, 1 / 25, .specularReflection⟩, by norm_num [V3.lengthSquared],
    by norm_num, le_refl _, by norm_num, ?_, flagRefl, by norm_num, by norm_num [dielectricEta]⟩
  have hc : cosAndN ⟨0, 0, -1⟩ 1 ⟨0, 0, 1⟩ (3 / 2) = (1, 1, 3 / 2, some 1) := by
    norm_num [cosAndN, V3.dot, abs_of_neg]
  unfold dielectricSample
  simp only [hc]
  have hf : fresnelReflectance 1 1 (3 / 2) 1 = 1 / 25 := by norm_num [fresnelReflectance, fresnelTe, fresnelTm]
  simp only [hf]
  rw [if_pos (by norm_num)]
  norm_num [mirrorDirection]

/-- C74, violated by the ray tracer: a ray that was reflected inside a dielectric is taken to be in the air. -/
theorem C74_violated_inside (colour : Spectrum) (index : ℝ) (h : 1 < index) (wo : V3 ℝ) (hu : wo.lengthSquared = 1) (hz : wo.z < 0)
    (htotal : 1 < index * Real.sqrt (1 - wo.z ^ 2)) (uc : ℝ) (hu1 : uc < 1) :
    ∃ s, dielectricSample colour index wo index uc .radiance = .ok s ∧ s.flags.isReflective = true ∧ Reflected wo s.wi ∧
      dielectricEta index .back ≠ index := by
  have hdot : wo.dot ⟨0, 0, 1⟩ = wo.z := by unfold V3.dot; simp
  obtain ⟨n2, cos2, hc, hn2, hn2a, hn2b, hnone, hsome⟩ := C74_refraction wo ⟨0, 0, 1⟩ index index hu
    (by norm_num [V3.lengthSquared]) (by rw [hdot]; exact hz) (by linarith) (by linarith)
  have hn : n2 = 1 := hn2b (by norm_num)
  rw [hdot] at hnone hc
  have : cos2 = none := hnone.2 (by rw [hn]; exact htotal)
  subst this
  unfold dielectricSample
  simp only [hc]
  rw [if_pos (by norm_num; exact hu1)]
  exact ⟨_, rfl, flagRefl, ⟨rfl, rfl, rfl⟩, by unfold dielectricEta; simp only; linarith⟩

example : ∃ wo : V3 ℝ, wo.lengthSquared = 1 ∧ wo.z < 0 ∧ 1 < (3 / 2 : ℝ) * Real.sqrt (1 - wo.z ^ 2) := by
  refine ⟨⟨4 / 5, 0, -(3 / 5)⟩, by norm_num [V3.lengthSquared], by norm_num, ?_⟩
  have : Real.sqrt (1 - (-(3 / 5) : ℝ) ^ 2) = 4 / 5 := by
    rw [show (1 - (-(3 / 5) : ℝ) ^ 2) = (4 / 5) ^ 2 by norm_num]
    exact Real.sqrt_sq (by norm_num)
  simp only
  rw [this]
  norm_num

/-- C74, violated: the radiance of light that enters a medium changes with the square of the ratio of the indexes of
refraction; that of the samples changes with its square root. -/
theorem C74_violated_radiance : ∃ s, dielectricSample (gray 1) 4 ⟨0, 0, -1⟩ 1 (1 / 2) .radiance = .ok s ∧
    s.flags.isTransmissive = true ∧ weight s = gray (1 / 2) ∧ (1 / 2 : ℝ) ≠ 1 * ((1 : ℝ) / 4) ^ 2 := by
  have hc : cosAndN ⟨0, 0, -1⟩ 1 ⟨0, 0, 1⟩ 4 = (1, 1, 4, some 1) := by
    norm_num [cosAndN, V3.dot, abs_of_neg]
  have hf : fresnelReflectance 1 1 4 1 = 9 / 25 := by norm_num [fresnelReflectance, fresnelTe, fresnelTm]
  unfold dielectricSample
  simp only [hc, hf]
  rw [if_neg (by norm_num)]
  refine ⟨_, rfl, flagTrans, ?_, by norm_num⟩
  have hs : Real.sqrt (1 / 4) = 1 / 2 := by
    rw [show (1 / 4 : ℝ) = (1 / 2) ^ 2 by norm_num]
    exact Real.sqrt_sq (by norm_num)
  funext i
  unfold weight gray transmissionDir
  simp only [V3.add_z, V3.scale_z]
  rw [hs]
  norm_num [abs_of_neg]

/-! ### Glass -/

private theorem pane {f t : ℝ} (f0 : 0 ≤ f) (f1 : f < 1) (t0 : 0 ≤ t) (t1 : t ≤ 1) :
    0 ≤ t * ((1 - f) ^ 2 / (1 - (t * f) ^ 2)) ∧ 0 ≤ f * (1 + (1 - 2 * f) * t ^ 2) / (1 - f ^ 2 * t ^ 2) ∧
      f * (1 + (1 - 2 * f) * t ^ 2) / (1 - f ^ 2 * t ^ 2) + t * ((1 - f) ^ 2 / (1 - (t * f) ^ 2)) ≤ 1 := by
  have htf : t * f < 1 := by nlinarith
  have htf0 : 0 ≤ t * f := mul_nonneg t0 f0
  have hden : 0 < 1 - (t * f) ^ 2 := by nlinarith
  have e : 1 - f ^ 2 * t ^ 2 = 1 - (t * f) ^ 2 := by ring
  have ht2 : t ^ 2 ≤ 1 := by nlinarith
  rw [e]
  refine ⟨by positivity, ?_, ?_⟩
  · apply div_nonneg _ hden.le
    apply mul_nonneg f0
    nlinarith [mul_nonneg f0 (sq_nonneg t)]
  · rw [← mul_div_assoc, ← add_div, div_le_one hden]
    have : 1 - (t * f) ^ 2 - (f * (1 + (1 - 2 * f) * t ^ 2) + t * (1 - f) ^ 2) = (1 - f) * (1 - t) * (1 + t * f) := by ring
    have hp : 0 ≤ (1 - f) * (1 - t) * (1 + t * f) := mul_nonneg (mul_nonneg (by linarith) (by linarith)) (by linarith)
    linarith

/-- C74: a pane of glass does not make light: for each channel, what it reflects and what it lets through are not negative
and together at most what arrived. -/
theorem C74_glass (colour : Spectrum) (hcol : ∀ i, 0 ≤ colour i ∧ colour i ≤ 1) (index : ℝ) (hi : 1 ≤ index) (wo : V3 ℝ)
    (h0 : wo.z ≠ 0) (i : Fin 3) :
    0 ≤ glassRefl colour index wo i ∧ 0 ≤ glassTrans colour index wo i ∧
      glassRefl colour index wo i + glassTrans colour index wo i ≤ 1 := by
  have hz : 0 < |wo.z| := abs_pos.2 h0
  have hip : 0 < index := by linarith
  have hle : 1 / index ^ 2 ≤ 1 := by
    rw [div_le_one (by positivity)]
    nlinarith
  have harg : 0 < 1 - 1 / index ^ 2 + (|wo.z| / index) ^ 2 := by
    have : 0 < (|wo.z| / index) ^ 2 := by positivity
    linarith
  have hc2 : 0 < transmittedCos index wo := Real.sqrt_pos.2 harg
  obtain ⟨a0, a1⟩ := ratio_sq hz (mul_pos hip hc2)
  obtain ⟨b0, b1⟩ := ratio_sq (div_pos one_pos hz) (div_pos hip hc2)
  unfold glassRefl glassTrans
  simp only
  generalize transmittedCos index wo = c at *
  generalize ((|wo.z| - index * c) / (|wo.z| + index * c)) ^ 2 = f at *
  generalize ((1 / |wo.z| - index / c) / (1 / |wo.z| + index / c)) ^ 2 = g at *
  unfold anyTransmission
  by_cases hm : colour.max < 1 / 10 ^ 15
  · rw [if_pos hm]
    simp only [Bool.false_eq_true, if_false]
    obtain ⟨p1, p2, p3⟩ := pane a0 a1 (hcol i).1 (hcol i).2
    obtain ⟨q1, q2, q3⟩ := pane b0 b1 (hcol i).1 (hcol i).2
    refine ⟨by linarith, le_refl _, by linarith⟩
  · rw [if_neg hm]
    simp only [if_true]
    obtain ⟨t, ht⟩ : ∃ t, t = (if colour i < 1 / 10 ^ 15 then (1 / 10 ^ 15 : ℝ) else colour i) ^ (1 / c) := ⟨_, rfl⟩
    rw [← ht]
    have hb0 : 0 ≤ (if colour i < 1 / 10 ^ 15 then (1 / 10 ^ 15 : ℝ) else colour i) := by
      split
      · norm_num
      · exact (hcol i).1
    have hb1 : (if colour i < 1 / 10 ^ 15 then (1 / 10 ^ 15 : ℝ) else colour i) ≤ 1 := by
      split
      · norm_num
      · exact (hcol i).2
    have t0 : 0 ≤ t := by rw [ht]; exact Real.rpow_nonneg hb0 _
    have t1 : t ≤ 1 := by rw [ht]; exact Real.rpow_le_one hb0 hb1 (by positivity)
    obtain ⟨p1, p2, p3⟩ := pane a0 a1 t0 t1
    obtain ⟨q1, q2, q3⟩ := pane b0 b1 t0 t1
    have e : t * (1 / 2) * ((1 - f) ^ 2 / (1 - (t * f) ^ 2) + (1 - g) ^ 2 / (1 - (t * g) ^ 2)) =
        1 / 2 * (t * ((1 - f) ^ 2 / (1 - (t * f) ^ 2)) + t * ((1 - g) ^ 2 / (1 - (t * g) ^ 2))) := by ring
    rw [e]
    refine ⟨by linarith, by linarith, by linarith⟩

/-- C74: clear glass loses nothing. -/
theorem C74_glass_clear (index : ℝ) (hi : 1 ≤ index) (wo : V3 ℝ) (h0 : wo.z ≠ 0) (i : Fin 3) :
    glassRefl (gray 1) index wo i + glassTrans (gray 1) index wo i = 1 := by
  have hz : 0 < |wo.z| := abs_pos.2 h0
  have hip : 0 < index := by linarith
  have hle : 1 / index ^ 2 ≤ 1 := by
    rw [div_le_one (by positivity)]
    nlinarith
  have harg : 0 < 1 - 1 / index ^ 2 + (|wo.z| / index) ^ 2 := by
    have : 0 < (|wo.z| / index) ^ 2 := by positivity
    linarith
  have hc2 : 0 < transmittedCos index wo := Real.sqrt_pos.2 harg
  obtain ⟨a0, a1⟩ := ratio_sq hz (mul_pos hip hc2)
  obtain ⟨b0, b1⟩ := ratio_sq (div_pos one_pos hz) (div_pos hip hc2)
  unfold glassRefl glassTrans
  simp only
  generalize transmittedCos index wo = c at *
  generalize ((|wo.z| - index * c) / (|wo.z| + index * c)) ^ 2 = f at *
  generalize ((1 / |wo.z| - index / c) / (1 / |wo.z| + index / c)) ^ 2 = g at *
  have hm : ¬ (gray 1).max < 1 / 10 ^ 15 := by norm_num [Spectrum.max, gray]
  have hg : ¬ gray 1 i < 1 / 10 ^ 15 := by norm_num [gray]
  have hone : gray 1 i = 1 := rfl
  unfold anyTransmission
  rw [if_neg hm]
  simp only [if_true]
  rw [if_neg hg, hone, Real.one_rpow]
  have k1 : 1 - f ^ 2 ≠ 0 := by nlinarith
  have k2 : 1 - g ^ 2 ≠ 0 := by nlinarith
  simp only [one_pow, mul_one, one_mul]
  field_simp
  ring

/-- C74: sampling glass.  There is a number `p` in [0, 1] such that random numbers up to it lead to the reflection and the
others go through without turning; what each sample carries, times its probability, is what the pane reflects or lets
through.  There is a sample unless the pane neither reflects nor lets through anything that counts. -/
theorem C74_glass_sample (colour : Spectrum) (hcol : ∀ i, 0 ≤ colour i ∧ colour i ≤ 1) (index : ℝ) (hi : 1 ≤ index) (wo : V3 ℝ)
    (h0 : wo.z ≠ 0) :
    ∃ p, 0 ≤ p ∧ p ≤ 1 ∧ ∀ uc, 0 ≤ uc → uc < 1 →
      (glassSample colour index wo uc = none → ∀ i, glassRefl colour index wo i + glassTrans colour index wo i < 1 / 10 ^ 17) ∧
      ∀ s, glassSample colour index wo uc = some s →
      (uc ≤ p → Reflected wo s.wi ∧ s.pdf = p ∧ s.flags.isReflective = true ∧
        (0 < p → ∀ i, p * weight s i = glassRefl colour index wo i)) ∧
      (p < uc → s.wi = wo ∧ s.pdf = 1 - p ∧ s.flags.isTransmissive = true ∧
        ∀ i, (1 - p) * weight s i = glassTrans colour index wo i) := by
  have hz : |wo.z| ≠ 0 := abs_ne_zero.2 h0
  have key := fun i => C74_glass colour hcol index hi wo h0 i
  have hrad : ∀ c : Spectrum, (∀ i, 0 ≤ c i) → 0 ≤ c.radiance := by
    intro c hc
    unfold Spectrum.radiance
    have := hc 0
    have := hc 1
    have := hc 2
    positivity
  have r0 := hrad _ fun i => (key i).1
  have t0 := hrad _ fun i => (key i).2.1
  obtain ⟨pr, hpr⟩ : ∃ pr, pr = if (anyTransmission colour).1 then (glassRefl colour index wo).radiance else 1 := ⟨_, rfl⟩
  obtain ⟨pt, hpt⟩ : ∃ pt, pt = if (anyTransmission colour).1 then (glassTrans colour index wo).radiance else 0 := ⟨_, rfl⟩
  have hpr0 : 0 ≤ pr := by
    rw [hpr]
    split
    · exact r0
    · norm_num
  have hpt0 : 0 ≤ pt := by
    rw [hpt]
    split
    · exact t0
    · norm_num
  refine ⟨pr / (pr + pt), by positivity, div_le_one_of_le₀ (by linarith) (by linarith), fun uc hu0 hu1 => ⟨fun hs i => ?_, fun s hs => ?_⟩⟩
  · unfold glassSample at hs
    simp only at hs
    rw [← hpr, ← hpt] at hs
    by_cases hnone : pr < 1 / 10 ^ 19 ∧ pt < 1 / 10 ^ 19
    · by_cases ha : (anyTransmission colour).1 = true
      · rw [if_pos ha] at hpr hpt
        rw [hpr, hpt] at hnone
        unfold Spectrum.radiance at hnone
        have a0 := key 0
        have a1 := key 1
        have a2 := key 2
        obtain ⟨n1, n2⟩ := hnone
        norm_num at n1 n2 ⊢
        fin_cases i <;> simp only [Fin.zero_eta, Fin.mk_one, Fin.reduceFinMk] <;> linarith
      · rw [if_neg ha] at hpr
        rw [hpr] at hnone
        norm_num at hnone
    · rw [if_neg hnone] at hs
      split at hs <;> cases hs
  unfold glassSample at hs
  simp only at hs
  rw [← hpr, ← hpt] at hs
  by_cases hnone : pr < 1 / 10 ^ 19 ∧ pt < 1 / 10 ^ 19
  · rw [if_pos hnone] at hs; cases hs
  · rw [if_neg hnone] at hs
    have hsum : 0 < pr + pt := by
      by_contra hc
      apply hnone
      constructor
      · have : pr ≤ 0 := by linarith
        exact lt_of_le_of_lt this (by norm_num)
      · have : pt ≤ 0 := by linarith
        exact lt_of_le_of_lt this (by norm_num)
    by_cases hle : uc ≤ pr / (pr + pt)
    · rw [if_pos hle] at hs
      have hs := Option.some.inj hs
      subst hs
      refine ⟨fun _ => ⟨⟨rfl, rfl, rfl⟩, rfl, flagRefl, fun hp i => ?_⟩, fun h => absurd hle (not_le.2 h)⟩
      unfold weight mirrorDirection
      simp only [abs_neg]
      rw [div_mul_cancel₀ _ hz, mul_div_cancel₀ _ hp.ne']
    · rw [if_neg hle] at hs
      have hs := Option.some.inj hs
      subst hs
      have h1p : 1 - pr / (pr + pt) = pt / (pr + pt) := by
        field_simp
        ring
      have hptpos : 0 < pt := by
        by_contra hc
        have : pt = 0 := le_antisymm (not_lt.1 hc) hpt0
        rw [this, add_zero, div_self (by linarith)] at hle
        linarith
      refine ⟨fun h => absurd h hle, fun _ => ⟨rfl, h1p.symm, flagTrans, fun i => ?_⟩⟩
      rw [h1p]
      unfold weight
      simp only
      field_simp

example : ∃ s, glassSample (gray 1) (3 / 2) ⟨0, 0, -1⟩ (1 / 2) = some s := by
  unfold glassSample
  simp only
  have ha : (anyTransmission (gray 1)).1 = true := by
    unfold anyTransmission
    rw [if_neg (by norm_num [Spectrum.max, gray])]
  rw [ha]
  simp only [if_true]
  have hs := fun i => C74_glass_clear (3 / 2) (by norm_num) ⟨0, 0, -1⟩ (by norm_num) i
  rw [if_neg]
  · by_cases h : 1 / 2 ≤ (glassRefl (gray 1) (3 / 2) ⟨0, 0, -1⟩).radiance /
        ((glassRefl (gray 1) (3 / 2) ⟨0, 0, -1⟩).radiance + (glassTrans (gray 1) (3 / 2) ⟨0, 0, -1⟩).radiance)
    · rw [if_pos h]; exact ⟨_, rfl⟩
    · rw [if_neg h]; exact ⟨_, rfl⟩
  · rintro ⟨h1, h2⟩
    have e : (glassRefl (gray 1) (3 / 2) ⟨0, 0, -1⟩).radiance + (glassTrans (gray 1) (3 / 2) ⟨0, 0, -1⟩).radiance = 1 := by
      unfold Spectrum.radiance
      linarith [hs 0, hs 1, hs 2]
    norm_num at h1 h2
    linarith

end Simple.Render.Materials
