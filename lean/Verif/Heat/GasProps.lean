import Mathlib.Tactic.NormNum
import Mathlib.Tactic.Linarith
import Mathlib.Tactic.Positivity
import Verif.Heat.GasModel

/-! # C32: heat transfer through gas cavities -/

namespace Simple.Heat

open Real

/-! ## Each correlation is at least one -/

private theorem aux_nonneg (x : ℝ) : 0 ≤ aux x := by
  unfold aux
  have := neg_abs_le x
  linarith

private theorem aux_nonpos (x : ℝ) (h : x ≤ 0) : aux x = 0 := by
  unfold aux
  rw [abs_of_nonpos h]
  ring

private theorem nu060_ge (ra gamma : ℝ) (hra : 0 < ra) (h0 : 0 ≤ gamma)
    (h1 : gamma < 2 * (30 * π / 180) - 0.5 * π / 180) : 1 ≤ nu060 ra gamma := by
  have hpi := pi_pos
  have hcos : 0 < cos gamma := cos_pos_of_mem_Ioo ⟨by linarith, by linarith⟩
  have hs0 : 0 ≤ sin (1.8 * gamma) :=
    sin_nonneg_of_nonneg_of_le_pi (by positivity) (by linarith)
  have hs1 : sin (1.8 * gamma) ≤ 1 := sin_le_one _
  have hp1 : sin (1.8 * gamma) ^ (1.6 : ℝ) ≤ 1 := rpow_le_one hs0 hs1 (by norm_num)
  have hx : 0 < ra * cos gamma := mul_pos hra hcos
  unfold nu060
  simp only
  have hc := aux_nonneg ((ra * cos gamma / 5830) ^ (1 / 3 : ℝ) - 1)
  have hab : 0 ≤ 1.44 * aux (1 - 1708 / (ra * cos gamma)) *
      (1 - 1708 * sin (1.8 * gamma) ^ (1.6 : ℝ) / (ra * cos gamma)) := by
    by_cases hle : ra * cos gamma ≤ 1708
    · have : 1 - 1708 / (ra * cos gamma) ≤ 0 := by
        have : 1 ≤ 1708 / (ra * cos gamma) := (one_le_div hx).2 hle
        linarith
      rw [aux_nonpos _ this]
      simp
    · have hle := not_le.1 hle
      apply mul_nonneg (mul_nonneg (by norm_num) (aux_nonneg _))
      have : 1708 * sin (1.8 * gamma) ^ (1.6 : ℝ) / (ra * cos gamma) ≤ 1 := by
        rw [div_le_one hx]
        nlinarith
      linarith
  linarith

private theorem nu60_ge (ra agi : ℝ) (hra : 0 < ra) : 1 ≤ nu60 ra agi := by
  unfold nu60
  simp only
  have h1 : 1 ≤ (1 + (0.0936 * ra ^ (0.314 : ℝ) / (1 + 0.5 / (1 + (ra / 3160) ^ (20.6 : ℝ)) ^ (0.1 : ℝ))) ^ 7)
      ^ (1 / 7 : ℝ) := by
    apply one_le_rpow _ (by norm_num)
    have : 0 ≤ (0.0936 * ra ^ (0.314 : ℝ) / (1 + 0.5 / (1 + (ra / 3160) ^ (20.6 : ℝ)) ^ (0.1 : ℝ))) ^ 7 := by
      positivity
    linarith
  split_ifs with h
  · exact h1
  · exact le_trans h1 (not_lt.1 h)

private theorem pow_ge {x : ℝ} (hx : (1e4 : ℝ) ≤ x) : 36 ≤ x ^ (0.4134 : ℝ) := by
  have h1 : (36 : ℝ) ≤ (1e4 : ℝ) ^ (0.4 : ℝ) := by
    have e : ((1e4 : ℝ) ^ (0.4 : ℝ)) ^ (5 : ℕ) = 1e8 := by
      rw [← rpow_natCast, ← rpow_mul (by norm_num)]
      norm_num
    by_contra hlt
    have hlt := not_le.1 hlt
    have hpos : (0 : ℝ) ≤ (1e4 : ℝ) ^ (0.4 : ℝ) := by positivity
    have := pow_lt_pow_left₀ hlt hpos (n := 5) (by norm_num)
    rw [e] at this
    norm_num at this
  calc (36 : ℝ) ≤ (1e4 : ℝ) ^ (0.4 : ℝ) := h1
    _ ≤ x ^ (0.4 : ℝ) := rpow_le_rpow (by norm_num) hx (by norm_num)
    _ ≤ x ^ (0.4134 : ℝ) := rpow_le_rpow_of_exponent_le (by linarith) (by norm_num)

private theorem cube_root_ge {x : ℝ} (hx : (5e4 : ℝ) ≤ x) : 36 ≤ x ^ (1 / 3 : ℝ) := by
  have e : ((36 : ℝ) ^ (3 : ℕ)) ^ (1 / 3 : ℝ) = 36 := by
    rw [← rpow_natCast, ← rpow_mul (by norm_num)]
    norm_num
  rw [← e]
  exact rpow_le_rpow (by norm_num) (by norm_num at hx ⊢; linarith) (by norm_num)

private theorem nu90_ok (ra agi : ℝ) (hra : 0 < ra) (h5 : ra ≠ 5e4) : ∃ nu, nu90 ra agi = .ok nu ∧ 1 ≤ nu := by
  have key : ∀ nu1 : ℝ, 1 ≤ nu1 → ∃ nu, (Outcome.ok (if nu1 > 0.242 * (ra / agi) ^ (0.272 : ℝ) then nu1
      else 0.242 * (ra / agi) ^ (0.272 : ℝ)) : Outcome ℝ) = .ok nu ∧ 1 ≤ nu := by
    intro nu1 h
    refine ⟨_, rfl, ?_⟩
    split_ifs with hc
    · exact h
    · exact le_trans h (not_lt.1 hc)
  unfold nu90
  by_cases h1 : ra ≤ 1e4
  · rw [if_pos h1]
    apply key
    have : 0 ≤ 1.7596678 * 1e-10 * ra ^ (2.2984755 : ℝ) := by positivity
    linarith
  · rw [if_neg h1]
    have h1 := not_le.1 h1
    by_cases h2 : ra < 5e4
    · rw [if_pos h2]
      apply key
      have := pow_ge h1.le
      nlinarith
    · rw [if_neg h2]
      have h3 : ra > 5e4 := lt_of_le_of_ne (not_lt.1 h2) (Ne.symm h5)
      rw [if_pos h3]
      apply key
      have := cube_root_ge h3.le
      nlinarith

private theorem frem_small (x : ℝ) (h0 : 0 ≤ x) (h1 : x < π) : frem x π = x := by
  have hpi := pi_pos
  unfold frem
  have hd : 0 ≤ x / π := by positivity
  have hf : ⌊x / π⌋ = 0 := by
    rw [Int.floor_eq_iff]
    constructor
    · simpa using hd
    · simp only [Int.cast_zero, zero_add]
      rwa [div_lt_one hpi]
  rw [if_pos hd, hf]
  simp

private theorem frem_pi : frem π π = 0 := by
  unfold frem
  rw [div_self pi_ne_zero]
  simp

/-- C32: for every positive Rayleigh number but 50000, every aspect ratio and every tilt between 0 and 180
degrees, the Nusselt number is defined and at least one: a cavity transfers no less heat than the gas
at rest.

Missing: a Rayleigh number of 50000, with which it panics (`C32_violated_rayleigh_50000`), and of zero, which `raleigh`
replaces by a positive one. -/
theorem C32_nusselt_partial (ra gamma agi : ℝ) (hra : 0 < ra) (h5 : ra ≠ 50000)
    (h0 : 0 ≤ gamma) (h1 : gamma ≤ π) : ∃ nu, nusselt ra gamma agi = .ok nu ∧ 1 ≤ nu := by
  have hpi := pi_pos
  have h5' : ra ≠ 5e4 := by norm_num; exact h5
  obtain ⟨nv, hnv, hnv1⟩ := nu90_ok ra agi hra h5'
  have h60 := nu60_ge ra agi hra
  have step : ∀ g : ℝ, frem gamma π = g → 0 ≤ g → g < π → ∃ nu, nusselt ra gamma agi = .ok nu ∧ 1 ≤ nu := by
    intro g hg hg0 hg1
    unfold nusselt
    simp only [hg]
    by_cases c1 : 0 ≤ g ∧ g < 2 * (30 * π / 180) - 0.5 * π / 180
    · rw [if_pos c1]
      exact ⟨_, rfl, nu060_ge ra g hra c1.1 c1.2⟩
    rw [if_neg c1]
    have c1 : 2 * (30 * π / 180) - 0.5 * π / 180 ≤ g := by
      by_contra h
      exact c1 ⟨hg0, not_le.1 h⟩
    by_cases c2 : g < 2 * (30 * π / 180) + 0.5 * π / 180
    · rw [if_pos c2]
      exact ⟨_, rfl, h60⟩
    rw [if_neg c2]
    have c2 := not_lt.1 c2
    by_cases c3 : g < 3 * (30 * π / 180) - 0.5 * π / 180
    · rw [if_pos c3]
      unfold nu6090
      rw [hnv]
      refine ⟨_, rfl, ?_⟩
      have hd : (0 : ℝ) < π / 2 - π / 3 := by linarith
      have x0 : 0 ≤ (g - π / 3) / (π / 2 - π / 3) := by
        apply div_nonneg _ hd.le
        linarith
      have x1 : (g - π / 3) / (π / 2 - π / 3) ≤ 1 := by
        rw [div_le_one hd]
        linarith
      nlinarith
    rw [if_neg c3]
    by_cases c4 : g < 3 * (30 * π / 180) + 0.5 * π / 180
    · rw [if_pos c4]
      exact ⟨_, hnv, hnv1⟩
    rw [if_neg c4]
    have c5 : g < 6 * (30 * π / 180) := by linarith
    rw [if_pos c5]
    unfold nu90180
    rw [hnv]
    refine ⟨_, rfl, ?_⟩
    have := sin_nonneg_of_nonneg_of_le_pi hg0 hg1.le
    have := mul_nonneg (sub_nonneg.2 hnv1) this
    linarith
  rcases lt_or_eq_of_le h1 with h | h
  · exact step gamma (frem_small gamma h0 h) h0 h
  · exact step 0 (by rw [h, frem_pi]) le_rfl hpi

/-- C32: between 60 and 90 degrees (away from both by half a degree) the Nusselt number is interpolated between those at
60 and at 90 degrees. -/
theorem C32_between (ra agi n60 n90 t : ℝ) (h60 : nusselt ra (π / 3) agi = .ok n60) (h90 : nusselt ra (π / 2) agi = .ok n90)
    (t0 : 1 / 60 ≤ t) (t1 : t < 59 / 60) :
    nusselt ra ((1 - t) * (π / 3) + t * (π / 2)) agi = .ok ((1 - t) * n60 + t * n90) := by
  have hpi := pi_pos
  have e60 : nusselt ra (π / 3) agi = .ok (nu60 ra agi) := by
    unfold nusselt
    simp only [frem_small (π / 3) (by linarith) (by linarith)]
    rw [if_neg (by intro h; linarith [h.2]), if_pos (by linarith)]
  have e90 : nusselt ra (π / 2) agi = nu90 ra agi := by
    unfold nusselt
    simp only [frem_small (π / 2) (by linarith) (by linarith)]
    rw [if_neg (by intro h; linarith [h.2] : ¬ (0 ≤ π / 2 ∧ π / 2 < 2 * (30 * π / 180) - 0.5 * π / 180)),
      if_neg (by intro h; linarith), if_neg (by intro h; linarith), if_pos (by linarith)]
  rw [e60] at h60
  rw [e90] at h90
  injection h60 with h60
  have hg : (1 - t) * (π / 3) + t * (π / 2) = π / 3 + t * (π / 6) := by ring
  have hlo : 1 / 60 * (π / 6) ≤ t * (π / 6) := mul_le_mul_of_nonneg_right t0 (by positivity)
  have hhi : t * (π / 6) < 59 / 60 * (π / 6) := mul_lt_mul_of_pos_right t1 (by positivity)
  rw [hg]
  unfold nusselt
  simp only [frem_small (π / 3 + t * (π / 6)) (by linarith) (by linarith)]
  rw [if_neg (by intro h; linarith [h.2] : ¬ (0 ≤ π / 3 + t * (π / 6) ∧ π / 3 + t * (π / 6) < 2 * (30 * π / 180) - 0.5 * π / 180)),
    if_neg (by intro h; linarith), if_pos (by linarith)]
  unfold nu6090
  rw [h90, h60]
  change Outcome.ok _ = _
  congr 1
  have : (π / 3 + t * (π / 6) - π / 3) / (π / 2 - π / 3) = t := by
    rw [div_eq_iff (by linarith)]; ring
  rw [this]
  ring

example : ∃ n60 n90, nusselt 1000 (π / 3) 10 = .ok n60 ∧ nusselt 1000 (π / 2) 10 = .ok n90 := by
  have hpi := pi_pos
  obtain ⟨a, ha, -⟩ := C32_nusselt_partial 1000 (π / 3) 10 (by norm_num) (by norm_num) (by linarith) (by linarith)
  obtain ⟨b, hb, -⟩ := C32_nusselt_partial 1000 (π / 2) 10 (by norm_num) (by norm_num) (by linarith) (by linarith)
  exact ⟨a, b, ha, hb⟩

/-- Not so for a Rayleigh number of 50000: the function panics, for a vertical cavity of any aspect. -/
theorem C32_violated_rayleigh_50000 (agi : ℝ) : nusselt 50000 (π / 2) agi = .panic := by
  have hpi := pi_pos
  unfold nusselt
  simp only [frem_small (π / 2) (by linarith) (by linarith)]
  rw [if_neg (by intro h; linarith [h.2] : ¬ (0 ≤ π / 2 ∧ π / 2 < 2 * (30 * π / 180) - 0.5 * π / 180)),
    if_neg (by intro h; linarith), if_neg (by intro h; linarith), if_pos (by linarith)]
  unfold nu90
  rw [if_neg (by norm_num), if_neg (by norm_num), if_neg (by norm_num)]
  rfl

/-- A horizontal cavity heated from above (a tilt of 180 degrees): the correlation for tilts up to there
tends to one (the gas is at rest), but the tilt is taken modulo 180 degrees, and the result is that
of a cavity heated from below. -/
theorem C32_violated_heated_from_above (agi : ℝ) :
    nusselt 17080 π agi = nusselt 17080 0 agi ∧
    (∃ nu, nusselt 17080 π agi = .ok nu ∧ 2 < nu) ∧
    (∃ nv, ∀ gamma, 100 * π / 180 ≤ gamma → gamma < π →
      nusselt 17080 gamma agi = .ok (1 + (nv - 1) * sin gamma)) := by
  have hpi := pi_pos
  have e : nusselt 17080 π agi = nusselt 17080 0 agi := by
    unfold nusselt
    rw [frem_pi, frem_small 0 le_rfl hpi]
  refine ⟨e, ?_, ?_⟩
  · rw [e]
    unfold nusselt
    simp only [frem_small 0 le_rfl hpi]
    rw [if_pos ⟨le_rfl, by linarith⟩]
    refine ⟨_, rfl, ?_⟩
    unfold nu060
    simp only [cos_zero, mul_zero, sin_zero, mul_one]
    rw [zero_rpow (by norm_num)]
    have hc := aux_nonneg ((17080 / 5830 : ℝ) ^ (1 / 3 : ℝ) - 1)
    have ha : aux (1 - 1708 / 17080) = 0.9 := by
      unfold aux
      norm_num
    rw [ha]
    linarith
  · obtain ⟨nv, hnv, _⟩ := nu90_ok 17080 agi (by norm_num) (by norm_num)
    refine ⟨nv, fun gamma h0 h1 => ?_⟩
    unfold nusselt
    simp only [frem_small gamma (by linarith) h1]
    rw [if_neg (by intro h; linarith [h.2] : ¬ (0 ≤ gamma ∧ gamma < 2 * (30 * π / 180) - 0.5 * π / 180)),
      if_neg (by intro h; linarith), if_neg (by intro h; linarith), if_neg (by intro h; linarith),
      if_pos (by linarith)]
    unfold nu90180
    rw [hnv]
    rfl

/-! ## The U-value of a cavity -/

/-- The properties of the gas are positive at all temperatures (in K). -/
def Spec.PhysicalGas (g : Gas) : Prop :=
  0 < g.mass ∧ ∀ t, 0 < t →
    0 < evalPoly g.thermalConductivity t ∧ 0 < evalPoly g.dynamicViscosity t ∧ 0 < evalPoly g.heatCapacity t

/-- C32: the gases there are have positive properties at all temperatures. -/
theorem C32_gases : Spec.PhysicalGas air ∧ Spec.PhysicalGas argon ∧ Spec.PhysicalGas krypton ∧ Spec.PhysicalGas xenon := by
  refine ⟨⟨?_, fun t ht => ⟨?_, ?_, ?_⟩⟩, ⟨?_, fun t ht => ⟨?_, ?_, ?_⟩⟩, ⟨?_, fun t ht => ⟨?_, ?_, ?_⟩⟩,
    ⟨?_, fun t ht => ⟨?_, ?_, ?_⟩⟩⟩ <;>
  simp only [air, argon, krypton, xenon, evalPoly, evalFrom] <;> positivity

theorem raleigh_pos (g : Gas) (hg : Spec.PhysicalGas g) (tFront tBack thickness : ℝ)
    (h1 : -273.15 < tFront) (h2 : -273.15 < tBack) (h3 : 0 < thickness) :
    0 < g.raleigh tFront tBack thickness := by
  unfold Gas.raleigh
  split_ifs with h
  · norm_num
  · have ht : 0 < (inKelvin tFront + inKelvin tBack) / 2 := by unfold inKelvin; linarith
    obtain ⟨hm, hp⟩ := hg
    obtain ⟨a, b, c⟩ := hp _ ht
    have hd : 0 < |tFront - tBack| := lt_of_lt_of_le (by norm_num) (not_lt.1 h)
    unfold Gas.density
    positivity

/-- C32: a cavity always conducts heat: its U-value is defined and positive, whatever its gas, size,
tilt and emissivities, and is at least the conductance of the gas at rest plus radiation
`4 σ T³ / (1/ε₁ + 1/ε₂ - 1)`.

Missing: a Rayleigh number of 50000. -/
theorem C32_u_value_partial (c : GasCavity) (hg : Spec.PhysicalGas c.gas) (tFront tBack : ℝ)
    (h1 : -273.15 < tFront) (h2 : -273.15 < tBack) (h3 : 0 < c.thickness)
    (ha0 : 0 ≤ c.angle) (ha1 : c.angle ≤ π) (he : 0 < c.ein) (he1 : c.ein ≤ 1)
    (ho : 0 < c.eout) (h5 : c.gas.raleigh tFront tBack c.thickness ≠ 50000) :
    ∃ u, c.uValue tFront tBack = .ok u ∧
      evalPoly c.gas.thermalConductivity ((tFront + tBack) / 2 + 273.15) / c.thickness
        + 4 * 5.670374419e-8 * ((tFront + tBack) / 2 + 273.15) ^ 3 / (1 / c.ein + 1 / c.eout - 1) ≤ u ∧
      0 < u := by
  have hra := raleigh_pos c.gas hg tFront tBack c.thickness h1 h2 h3
  have et : (inKelvin tFront + inKelvin tBack) / 2 = (tFront + tBack) / 2 + 273.15 := by
    unfold inKelvin; ring
  have ht : 0 < (tFront + tBack) / 2 + 273.15 := by linarith
  obtain ⟨hm, hp⟩ := hg
  obtain ⟨hk, _, _⟩ := hp _ ht
  obtain ⟨nu, hnu, hnu1⟩ := C32_nusselt_partial (c.gas.raleigh tFront tBack c.thickness)
    (if tFront > tBack then π - c.angle else c.angle) (c.height / c.thickness) hra h5
    (by split_ifs <;> linarith) (by split_ifs <;> linarith)
  unfold GasCavity.uValue Gas.cavityConvection
  rw [if_pos ⟨ha0, ha1⟩]
  simp only [hnu, Outcome.bind]
  rw [et]
  have hden : 1 - (1 - c.ein) * (1 - c.eout) = c.ein * c.eout * (1 / c.ein + 1 / c.eout - 1) := by
    field_simp
    ring
  have hs : 0 < 1 / c.ein + 1 / c.eout - 1 := by
    have : 1 ≤ 1 / c.ein := (one_le_div he).2 he1
    have : 0 < 1 / c.eout := by positivity
    linarith
  have hrad : 4 * ((tBack + tFront) / 2 + 273.15) ^ 3 * sigma * c.ein * c.eout / (1 - (1 - c.ein) * (1 - c.eout))
      = 4 * 5.670374419e-8 * ((tFront + tBack) / 2 + 273.15) ^ 3 / (1 / c.ein + 1 / c.eout - 1) := by
    rw [hden]
    unfold sigma
    have e1 := ne_of_gt hs
    rw [add_comm tBack tFront, div_eq_div_iff (by positivity) e1]
    ring
  have hconv : evalPoly c.gas.thermalConductivity ((tFront + tBack) / 2 + 273.15) / c.thickness
      ≤ nu * evalPoly c.gas.thermalConductivity ((tFront + tBack) / 2 + 273.15) / c.thickness := by
    apply div_le_div_of_nonneg_right _ h3.le
    nlinarith
  refine ⟨_, rfl, ?_, ?_⟩
  · rw [hrad]
    linarith
  · rw [hrad]
    have : 0 < 4 * 5.670374419e-8 * ((tFront + tBack) / 2 + 273.15) ^ 3 / (1 / c.ein + 1 / c.eout - 1) := by
      positivity
    have : 0 < evalPoly c.gas.thermalConductivity ((tFront + tBack) / 2 + 273.15) / c.thickness := by
      positivity
    linarith

/-- The hypotheses hold for air in a double glazing at rest. -/
example : Spec.PhysicalGas (GasCavity.gas ⟨0.0127, 1, air, 0.84, 0.84, π / 2⟩) ∧
    (GasCavity.gas ⟨0.0127, 1, air, 0.84, 0.84, π / 2⟩).raleigh 20 20 0.0127 ≠ 50000 := by
  refine ⟨C32_gases.1, ?_⟩
  unfold Gas.raleigh
  norm_num

end Simple.Heat
