import Verif.Light.IncidentModel
import Verif.Render.SamplerProps

/-! # C58: view factors and incident radiation -/

namespace Simple.Light

open Geometry Render.Sampler

namespace Spec

/-- The part of the rays that meet nothing. -/
noncomputable def freePart (blocked : Ray ℝ → Bool) (rays : List (Ray ℝ × List (ℝ × ℝ))) : ℝ :=
  ((rays.filter fun r => !blocked r.1).length : ℝ) / rays.length

/-- Every ray has a direction of length one and the same number of random numbers. -/
def Proper (rays : List (Ray ℝ × List (ℝ × ℝ))) (n : ℕ) : Prop :=
  ∀ r ∈ rays, r.1.direction.dot r.1.direction = 1 ∧ r.2.length = n ∧ ∀ u ∈ r.2, u ∈ Render.Sampler.Spec.square

end Spec

open Spec

private theorem triad (d : V3 ℝ) (h : d.dot d = 1) : ∃ e, d.getPerpendicular = .ok e ∧ Render.Sampler.Spec.Triad e (d.cross e) d := by
  have hc : V3.tiny < |d.x| ∨ V3.tiny < |d.y| ∨ V3.tiny < |d.z| := by
    by_contra hc
    rw [not_or, not_or, not_lt, not_lt, not_lt] at hc
    have ht : (V3.tiny : ℝ) ≤ 1 / 2 := by unfold V3.tiny; norm_num
    have q : ∀ t : ℝ, |t| ≤ V3.tiny → t * t ≤ 1 / 4 := by
      intro t h
      rw [← abs_mul_abs_self]
      nlinarith [abs_nonneg t]
    have := q _ hc.1
    have := q _ hc.2.1
    have := q _ hc.2.2
    unfold V3.dot at h
    linarith
  obtain ⟨e, he, hl, hd⟩ := V3.perpendicular_of d hc
  have he2 : e.dot e = 1 := by
    have : e.dot e = e.length ^ 2 := by
      unfold V3.length
      rw [Real.sq_sqrt (by unfold V3.lengthSquared; nlinarith [mul_self_nonneg e.x, mul_self_nonneg e.y, mul_self_nonneg e.z])]
      rfl
    rw [this, hl, one_pow]
  refine ⟨e, he, he2, ?_, h, ?_, ?_, ?_⟩
  · simp only [V3.dot, V3.cross] at *
    linear_combination (d.x * d.x + d.y * d.y + d.z * d.z) * he2 + h - (d.x * e.x + d.y * e.y + d.z * e.z) * hd
  · simp only [V3.dot, V3.cross]; ring
  · simp only [V3.dot] at *; linear_combination hd
  · simp only [V3.dot, V3.cross]; ring

private theorem samples_spec (checks : Bool) (blocked : Ray ℝ → Bool) (ray : Ray ℝ) (e1 e2 : V3 ℝ)
    (ht : Render.Sampler.Spec.Triad e1 e2 ray.direction) : ∀ (us : List (ℝ × ℝ)) (sky ground : ℝ), (∀ u ∈ us, u ∈ Render.Sampler.Spec.square) →
    ∃ sky' ground', castSamples checks blocked ray e1 e2 sky ground us = .ok (sky', ground') ∧ sky ≤ sky' ∧ ground ≤ ground' ∧
      sky' + ground' = sky + ground + (if blocked ray then 0 else us.length) := by
  intro us
  induction us with
  | nil => intro sky ground _; exact ⟨sky, ground, rfl, le_refl _, le_refl _, by simp⟩
  | cons u us ih =>
    intro sky ground hu
    obtain ⟨d, hd, -⟩ := C57_tilted_hemisphere checks u (hu u (List.mem_cons_self ..)) e1 e2 _ ht
    have hu' : ∀ v ∈ us, v ∈ Render.Sampler.Spec.square := fun v hv => hu v (List.mem_cons_of_mem _ hv)
    unfold castSamples
    rw [hd]
    simp only [Outcome.bind]
    by_cases hb : blocked ray = true
    · rw [if_neg (by simp [hb])]
      obtain ⟨s, g, h1, h2, h3, h4⟩ := ih sky ground hu'
      refine ⟨s, g, h1, h2, h3, ?_⟩
      rw [h4, if_pos hb, if_pos hb]
    · rw [if_pos (by simp [hb])]
      by_cases hz : d.z > 0
      · rw [if_pos hz]
        obtain ⟨s, g, h1, h2, h3, h4⟩ := ih (sky + 1) ground hu'
        refine ⟨s, g, h1, by linarith, h3, ?_⟩
        rw [if_neg hb] at h4 ⊢
        rw [h4, List.length_cons]
        push_cast
        ring
      · rw [if_neg hz]
        obtain ⟨s, g, h1, h2, h3, h4⟩ := ih sky (ground + 1) hu'
        refine ⟨s, g, h1, h2, by linarith, ?_⟩
        rw [if_neg hb] at h4 ⊢
        rw [h4, List.length_cons]
        push_cast
        ring

private theorem rays_spec (checks : Bool) (blocked : Ray ℝ → Bool) (n : ℕ) : ∀ (rays : List (Ray ℝ × List (ℝ × ℝ))) (sky ground : ℝ), Proper rays n →
    ∃ sky' ground', castRays checks blocked sky ground rays = .ok (sky', ground') ∧ sky ≤ sky' ∧ ground ≤ ground' ∧
      sky' + ground' = sky + ground + n * (rays.filter fun r => !blocked r.1).length := by
  intro rays
  induction rays with
  | nil => intro sky ground _; exact ⟨sky, ground, rfl, le_refl _, le_refl _, by simp⟩
  | cons r rays ih =>
    intro sky ground h
    obtain ⟨ray, us⟩ := r
    obtain ⟨hd, hl, hu⟩ := h (ray, us) (List.mem_cons_self ..)
    simp only at hd hl hu
    obtain ⟨e, he, ht⟩ := triad ray.direction hd
    obtain ⟨s, g, h1, h2, h3, h4⟩ := samples_spec checks blocked ray e (ray.direction.cross e) ht us sky ground hu
    obtain ⟨s', g', k1, k2, k3, k4⟩ := ih s g fun r hr => h r (List.mem_cons_of_mem _ hr)
    unfold castRays
    rw [he]
    simp only [Outcome.bind, h1]
    refine ⟨s', g', k1, h2.trans k2, h3.trans k3, ?_⟩
    rw [k4, h4, hl]
    by_cases hb : blocked ray = true
    · rw [if_pos hb, List.filter_cons_of_neg (by simp [hb])]; ring
    · rw [if_neg hb, List.filter_cons_of_pos (by simp [hb]), List.length_cons]; push_cast; ring

/-- C58: the view factors are calculated without failure, each of them is between zero and one, and together they are the
part of the rays that meet nothing. -/
theorem C58_view_factors_partial (checks : Bool) (blocked : Ray ℝ → Bool) (rays : List (Ray ℝ × List (ℝ × ℝ))) (n : ℕ) (hn : 0 < n)
    (hr : rays ≠ []) (hp : Proper rays n) :
    ∃ v, calcViewFactors checks blocked rays n = .ok (some v) ∧ 0 ≤ v.sky ∧ v.sky ≤ 1 ∧ 0 ≤ v.ground ∧ v.ground ≤ 1 ∧ 0 ≤ v.air ∧ v.air ≤ 1 ∧
      v.sky + v.ground + v.air = freePart blocked rays := by
  obtain ⟨s, g, h1, h2, h3, h4⟩ := rays_spec checks blocked n rays 0 0 hp
  have hlen : 0 < rays.length := List.length_pos_iff.2 hr
  have hN : (0 : ℝ) < n * rays.length := by positivity
  have hle : ((rays.filter fun r => !blocked r.1).length : ℝ) ≤ rays.length := by exact_mod_cast List.length_filter_le ..
  unfold calcViewFactors
  rw [h1]
  simp only [Outcome.bind]
  rw [if_neg hN.ne']
  have hs0 : 0 ≤ s / (n * rays.length) := by positivity
  have hg0 : 0 ≤ g / (n * rays.length) := by positivity
  have hsum : s / (n * rays.length) + g / (n * rays.length) = freePart blocked rays := by
    unfold freePart
    rw [← add_div, h4, zero_add, zero_add]
    field_simp
  have hf1 : freePart blocked rays ≤ 1 := by
    unfold freePart
    rw [div_le_one (by positivity)]
    exact hle
  generalize s / (n * rays.length : ℝ) = S at *
  generalize g / (n * rays.length : ℝ) = G at *
  have hb0 := Real.sqrt_nonneg S
  have hb1 : Real.sqrt S ≤ 1 := by rw [Real.sqrt_le_one]; linarith
  have hS1 : S ≤ 1 := by linarith
  refine ⟨_, rfl, ?_, ?_, ?_, ?_, ?_, ?_, ?_⟩
  · exact mul_nonneg hs0 hb0
  · simp only; nlinarith
  · exact hg0
  · simp only; linarith
  · exact mul_nonneg hs0 (by linarith)
  · simp only; nlinarith
  · simp only; rw [← hsum]; ring

/-- C58: the front rays of a surface leave a millimetre in front of its points in the direction of the normal, and the
back rays a millimetre behind them in the opposite direction; with a normal of length one, all have length one. -/
theorem C58_rays (s : Surface) (h : s.normal.dot s.normal = 1) :
    (frontRays s).length = s.points.length ∧ (backRays s).length = s.points.length ∧
    (∀ r ∈ frontRays s, r.direction.dot r.direction = 1 ∧ ∃ p ∈ s.points, (r.origin - p).dot s.normal = 1 / 1000 ∧
      r.direction.dot s.normal = 1) ∧
    ∀ r ∈ backRays s, r.direction.dot r.direction = 1 ∧ ∃ p ∈ s.points, (r.origin - p).dot s.normal = -(1 / 1000) ∧
      r.direction.dot s.normal = -1 := by
  refine ⟨by simp [frontRays], by simp [backRays], ?_, ?_⟩
  · intro r hr
    obtain ⟨p, hp, rfl⟩ := List.mem_map.1 hr
    refine ⟨h, p, hp, ?_, h⟩
    simp only [V3.dot, V3.sub_x, V3.sub_y, V3.sub_z, V3.add_x, V3.add_y, V3.add_z, V3.scale] at *
    linear_combination (1 / 1000 : ℝ) * h
  · intro r hr
    obtain ⟨p, hp, rfl⟩ := List.mem_map.1 hr
    simp only [V3.dot, V3.sub_x, V3.sub_y, V3.sub_z, V3.add_x, V3.add_y, V3.add_z, V3.scale] at *
    refine ⟨by linear_combination h, p, hp, ?_, ?_⟩
    · linear_combination (-1 / 1000 : ℝ) * h
    · linear_combination (-1 : ℝ) * h

/-- C58 fails: not the sampled directions are cast, but the normal, again and again.  Whatever is sampled, a thing so small
that it hides the direction of the normal only makes all view factors zero. -/
theorem C58_violated_direction (checks : Bool) (us : List (ℝ × ℝ)) (hne : us ≠ []) (hu : ∀ u ∈ us, u ∈ Render.Sampler.Spec.square) :
    ∃ (ray : Ray ℝ) (e1 e2 : V3 ℝ) (blocked : Ray ℝ → Bool),
      (∀ u ∈ us, ∃ d, tiltedHemisphere checks u e1 e2 ray.direction = .ok d ∧ blocked ⟨ray.origin, d⟩ = false) ∧
      ∃ v, calcViewFactors checks blocked [(ray, us)] us.length = .ok (some v) ∧ v.sky = 0 ∧ v.ground = 0 ∧ v.air = 0 := by
  classical
  have hup : (⟨0, 0, 1⟩ : V3 ℝ).dot ⟨0, 0, 1⟩ = 1 := by norm_num [V3.dot]
  obtain ⟨e, he, ht⟩ := triad ⟨0, 0, 1⟩ hup
  refine ⟨⟨⟨0, 0, 0⟩, ⟨0, 0, 1⟩⟩, e, (⟨0, 0, 1⟩ : V3 ℝ).cross e, fun r => decide (r.direction = ⟨0, 0, 1⟩), ?_, ?_⟩
  · intro u hu'
    obtain ⟨d, h1, h2, h3, -⟩ := C57_tilted_hemisphere checks u (hu u hu') _ _ _ ht
    refine ⟨d, h1, ?_⟩
    simp only [decide_eq_false_iff_not]
    intro hd
    rw [hd] at h3
    have := (hu u hu').1.2
    rw [← h3, hup] at this
    exact lt_irrefl _ this
  · obtain ⟨v, h1, h2, h3, h4, h5, h6, h7, h8⟩ := C58_view_factors_partial checks (fun r => decide (r.direction = ⟨0, 0, 1⟩))
      [(⟨⟨0, 0, 0⟩, ⟨0, 0, 1⟩⟩, us)] us.length (List.length_pos_iff.2 hne) (by simp) (by
        intro r hr
        rw [List.mem_singleton] at hr
        subst hr
        exact ⟨hup, rfl, hu⟩)
    refine ⟨v, h1, ?_⟩
    have : freePart (fun r => decide (r.direction = ⟨0, 0, 1⟩)) [(⟨⟨0, 0, 0⟩, ⟨0, 0, 1⟩⟩, us)] = 0 := by simp [freePart]
    rw [this] at h8
    exact ⟨by linarith, by linarith, by linarith⟩

/-- C58 fails without points: the factors are not numbers. -/
theorem C58_violated_no_points (checks : Bool) (blocked : Ray ℝ → Bool) (n : ℕ) : calcViewFactors checks blocked [] n = .ok none := by
  unfold calcViewFactors castRays
  simp [Outcome.bind]

/-! ### Radiation -/

private theorem ir_nonneg (t : ℝ) : 0 ≤ ir t 1 := by unfold ir; positivity

/-- C58: infrared irradiance is never negative, and outdoors, when nothing is in the way and the sky radiates like the air,
it is what the air radiates. -/
theorem C58_infrared (node : Option ℝ) (db horizontalIr old : ℝ) (v : ViewFactors) :
    (0 ≤ v.sky → 0 ≤ v.ground → 0 ≤ v.air → 0 ≤ horizontalIr → 0 ≤ old → ∀ b, 0 ≤ irIrradiance b node db horizontalIr v old) ∧
    (v.sky + v.ground + v.air = 1 → irIrradiance .outdoor node db (ir db 1) v old = ir db 1) := by
  constructor
  · intro h1 h2 h3 h4 h5 b
    unfold irIrradiance
    cases b with
    | space => exact ir_nonneg _
    | ambientTemperature t => exact ir_nonneg _
    | ground => exact h5
    | adiabatic => exact h5
    | outdoor => exact add_nonneg (mul_nonneg (by linarith) (ir_nonneg _)) (mul_nonneg h1 h4)
  · intro h
    unfold irIrradiance
    simp only
    linear_combination ir db 1 * h

/-- C58 fails behind obstructions: what is in the way counts for nothing, though it is said to be at the temperature of the
air.  A wall that sees other walls only gets no infrared radiation, so that it loses what it radiates. -/
theorem C58_violated_obstructed (checks : Bool) (rays : List (Ray ℝ × List (ℝ × ℝ))) (n : ℕ) (hn : 0 < n) (hr : rays ≠ []) (hp : Proper rays n)
    (node : Option ℝ) (db horizontalIr old : ℝ) (hdb : -27315 / 100 < db) :
    ∃ v, calcViewFactors checks (fun _ => true) rays n = .ok (some v) ∧ irIrradiance .outdoor node db horizontalIr v old = 0 ∧ 0 < ir db 1 := by
  obtain ⟨v, h1, h2, h3, h4, h5, h6, h7, h8⟩ := C58_view_factors_partial checks (fun _ => true) rays n hn hr hp
  have : freePart (fun _ => true) rays = 0 := by simp [freePart]
  rw [this] at h8
  refine ⟨v, h1, ?_, ?_⟩
  · have e1 : v.sky = 0 := by linarith
    have e2 : v.ground = 0 := by linarith
    have e3 : v.air = 0 := by linarith
    unfold irIrradiance
    simp only
    rw [e1, e2, e3]
    ring
  · unfold ir
    have : 0 < db + 27315 / 100 := by linarith
    positivity

/-- C58: whatever happens, the solar irradiance of a surface is never negative, and not more than the greatest value that
there was. -/
theorem C58_solar (b : Boundary) (most : ℝ) : ∀ (steps : List Step) (start : ℝ), 0 ≤ start → start ≤ most →
    (∀ v, Step.day v ∈ steps → v ≤ most) → 0 ≤ steps.foldl (solarSurface b) start ∧ steps.foldl (solarSurface b) start ≤ most := by
  intro steps
  induction steps with
  | nil => intro start h0 h1 _; exact ⟨h0, h1⟩
  | cons s steps ih =>
    intro start h0 h1 hv
    rw [List.foldl_cons]
    have hm : 0 ≤ most := h0.trans h1
    have hs : 0 ≤ solarSurface b start s ∧ solarSurface b start s ≤ most := by
      cases s with
      | night => exact ⟨le_refl _, hm⟩
      | day v =>
        have hv1 := hv v (List.mem_cons_self ..)
        unfold solarSurface
        simp only
        split_ifs <;> constructor <;> linarith
    exact ih _ hs.1 hs.2 fun v h => hv v (List.mem_cons_of_mem _ h)

/-- C58: a side that does not receive sun, the daylight coefficients of which are zero, gets nothing. -/
theorem C58_no_sun (b : Boundary) (h : receivesSun b = false) (old : ℝ) :
    solarSurface b old (.day 0) = 0 ∧ solarFenestration b old (.day 0) = 0 := by
  simp [solarSurface, solarFenestration, h]

/-- C58: the same holds of a fenestration when the products of its coefficients and the sky are not negative.  (They are not
limited as those of a surface are: see `C58_violated_fenestration`.) -/
theorem C58_fenestration_partial (b : Boundary) : ∀ (steps : List Step) (start : ℝ), 0 ≤ start →
    (∀ v, Step.day v ∈ steps → 0 ≤ v) → 0 ≤ steps.foldl (solarFenestration b) start := by
  intro steps
  induction steps with
  | nil => intro start h0 _; exact h0
  | cons s steps ih =>
    intro start h0 hv
    rw [List.foldl_cons]
    have hs : 0 ≤ solarFenestration b start s := by
      cases s with
      | night => exact le_refl _
      | day v =>
        have hv1 := hv v (List.mem_cons_self ..)
        unfold solarFenestration
        simp only
        split_ifs <;> linarith
    exact ih _ hs fun v h => hv v (List.mem_cons_of_mem _ h)

/-- C58 fails for fenestrations: a negative product in the first hour of the day is stored as it is, halved. -/
theorem C58_violated_fenestration (b : Boundary) (v : ℝ) (h : v < 0) :
    [Step.night, .day v].foldl (solarFenestration b) 0 < 0 ∧ [Step.night, .day v].foldl (solarSurface b) 0 = 0 := by
  constructor
  · simp only [List.foldl_cons, List.foldl_nil, solarFenestration, ite_self]
    linarith
  · simp [List.foldl_cons, List.foldl_nil, solarSurface, h]

/-- C58 fails: what is stored is not the average of the period.  When the same radiation comes hour after hour, starting from
darkness, it is never reached. -/
theorem C58_violated_average (b : Boundary) (hb : receivesSun b = true) (v : ℝ) (hv : 0 < v) (n : ℕ) :
    (List.replicate n (Step.day v)).foldl (solarSurface b) 0 = v * (1 - 1 / 2 ^ n) ∧
    (List.replicate n (Step.day v)).foldl (solarSurface b) 0 < v := by
  have h : ∀ (n : ℕ) (x : ℝ), (List.replicate n (Step.day v)).foldl (solarSurface b) x = v + (x - v) / 2 ^ n := by
    intro n
    induction n with
    | zero => intro x; simp
    | succ n ih =>
      intro x
      rw [List.replicate_succ, List.foldl_cons, ih]
      simp only [solarSurface, hb, if_true, if_neg (not_lt.2 hv.le)]
      field_simp
      ring
  have e : (List.replicate n (Step.day v)).foldl (solarSurface b) 0 = v * (1 - 1 / 2 ^ n) := by
    rw [h]; ring
  refine ⟨e, ?_⟩
  rw [e]
  have : (0 : ℝ) < 1 / 2 ^ n := by positivity
  nlinarith

/-- Two rays, one of which is blocked. -/
example : Proper [(⟨⟨0, 0, 0⟩, ⟨0, 0, 1⟩⟩, [(1 / 2, 1 / 4)]), (⟨⟨1, 0, 0⟩, ⟨0, 0, 1⟩⟩, [(1 / 3, 0)])] 1 ∧
    freePart (fun r => decide (r.origin.x < 1 / 2)) [(⟨⟨0, 0, 0⟩, ⟨0, 0, 1⟩⟩, [(1 / 2, 1 / 4)]), (⟨⟨1, 0, 0⟩, ⟨0, 0, 1⟩⟩, [(1 / 3, 0)])] = 1 / 2 := by
  constructor
  · intro r hr
    simp only [List.mem_cons, List.not_mem_nil, or_false] at hr
    rcases hr with rfl | rfl <;>
      refine ⟨by norm_num [V3.dot], rfl, ?_⟩ <;> intro u hu <;> rw [List.mem_singleton] at hu <;> subst hu <;>
      norm_num [Render.Sampler.Spec.square]
  · norm_num [freePart]

end Simple.Light
