import Verif.Heat.SurfaceProps

/-! # C120: what heaters do -/

namespace Simple.Heat

noncomputable section

/-- What the rooms become, in terms of the heat that they get. -/
theorem zones_future (x : Inputs) (dt : ℝ) (r : List ℝ) (h : zonesStep x dt = .ok r) :
    r.length = x.zones.length ∧ ∀ (z : ℕ) (zone : ZoneIn), x.zones[z]? = some zone → ∃ t a b, zone.temp = some t ∧
      (∀ T, a - b * T = Spec.heat x z zone T) ∧ r[z]? = some (futureTemp t a b (zone.volume * Spec.airHeat t) dt) := by
  unfold zonesStep at h
  cases h1 : currentTemps x.zones with
  | err => rw [h1] at h; cases h
  | panic => rw [h1] at h; cases h
  | ok ts =>
    rw [h1] at h
    simp only [Outcome.bind] at h
    cases h2 : calculateAbc x with
    | err => rw [h2] at h; cases h
    | panic => rw [h2] at h; cases h
    | ok abc =>
      rw [h2] at h
      obtain ⟨⟨a, b⟩, c⟩ := abc
      simp only at h
      obtain ⟨l1, l2⟩ := futureTemps_ok _ _ _ _ _ _ h
      obtain ⟨-, -, -, bl⟩ := C30_balance x a b c h2
      refine ⟨l1, fun z zone hz => ?_⟩
      have hzl : z < x.zones.length := by
        by_contra hc
        rw [List.getElem?_eq_none (by omega)] at hz
        cases hz
      obtain ⟨t, ht, hts⟩ := currentTemps_ok _ h1 z zone hz
      obtain ⟨hb, t', ht', hc⟩ := bl z zone hz
      rw [ht] at ht'
      cases ht'
      have hr := l2 z hzl
      rw [Nat.zero_add] at hr
      have e1 : ts.getD z 0 = t := by rw [List.getD_eq_getElem?_getD, hts]; rfl
      have e2 : c.getD z 0 = zone.volume * Spec.airHeat t := by rw [List.getD_eq_getElem?_getD, hc]; rfl
      rw [e1, e2] at hr
      exact ⟨t, _, _, ht, hb, hr⟩

/-- What a power adds to the temperature that an air that loses `b` watts per degree reaches after `dt`. -/
theorem future_more (t a b c dt q : ℝ) (hc : 0 < c) (hdt : 0 ≤ dt) (hq : 0 ≤ q) :
    futureTemp t a b c dt ≤ futureTemp t (a + q) b c dt ∧
      (0 ≤ b → futureTemp t (a + q) b c dt ≤ futureTemp t a b c dt + q * dt / c) ∧
      (0 < q → 0 < dt → futureTemp t a b c dt < futureTemp t (a + q) b c dt ∨ (futureTemp t a b c dt = t ∧ futureTemp t (a + q) b c dt = t)) := by
  unfold futureTemp
  by_cases hb : |b| > 1e-9
  · rw [if_pos hb, if_pos hb]
    have hb0 : b ≠ 0 := by
      rintro rfl
      rw [abs_zero] at hb
      norm_num at hb
    have diff : (a + q) / b + (t - (a + q) / b) * Real.exp (-b * dt / c) = a / b + (t - a / b) * Real.exp (-b * dt / c) +
        q * ((1 - Real.exp (-b * dt / c)) / b) := by
      field_simp
      ring
    have hexp : -b * dt / c + 1 ≤ Real.exp (-b * dt / c) := Real.add_one_le_exp _
    have e : -b * dt / c = -(b * (dt / c)) := by ring
    rw [diff]
    have hdc : 0 ≤ dt / c := div_nonneg hdt hc.le
    have hpos : 0 ≤ (1 - Real.exp (-b * dt / c)) / b := by
      rcases lt_or_gt_of_ne hb0 with h | h
      · apply div_nonneg_of_nonpos _ h.le
        have : 0 ≤ -b * dt / c := by rw [e]; nlinarith
        linarith [Real.one_le_exp this]
      · apply div_nonneg _ h.le
        have : -b * dt / c ≤ 0 := by rw [e]; nlinarith
        linarith [Real.exp_le_one_iff.2 this]
    refine ⟨by nlinarith, fun hb' => ?_, fun hq' hdt' => .inl ?_⟩
    · have hb1 : 0 < b := lt_of_le_of_ne hb' (Ne.symm hb0)
      have : (1 - Real.exp (-b * dt / c)) / b ≤ dt / c := by
        rw [div_le_iff₀ hb1]
        rw [e] at hexp ⊢
        linarith
      have := mul_le_mul_of_nonneg_left this hq
      have e3 : q * dt / c = q * (dt / c) := by ring
      linarith
    · have hdc' : 0 < dt / c := div_pos hdt' hc
      have : 0 < (1 - Real.exp (-b * dt / c)) / b := by
        rcases lt_or_gt_of_ne hb0 with h | h
        · apply div_pos_of_neg_of_neg _ h
          have : 0 < -b * dt / c := by rw [e]; nlinarith
          linarith [Real.one_lt_exp_iff.2 this]
        · apply div_pos _ h
          have : -b * dt / c < 0 := by rw [e]; nlinarith
          linarith [Real.exp_lt_one_iff.2 this]
      nlinarith
  · rw [if_neg hb, if_neg hb]
    exact ⟨le_rfl, fun _ => by have := div_nonneg (mul_nonneg hq hdt) hc.le; linarith, fun _ _ => .inr ⟨rfl, rfl⟩⟩

theorem airHeat_pos (t : ℝ) (h : -273.15 < t) : 0 < Spec.airHeat t := by
  unfold Spec.airHeat
  have : 0 < t + 273.15 := by linarith
  positivity

namespace Spec

/-- The watts that room `z` gets from heaters, coolers and lights. -/
def watts (st : HeatState) (z : ℕ) : ℝ := power z st.hvacs + power z st.luminaires

end Spec

open Spec

/-- C120: in a time step, if the heaters, coolers and lights of a building are set otherwise, the surfaces and fenestrations do the same, a room that gets
more watts is not colder, one that gets less is not warmer, and one that gets the same is as it would be.  A room that gets more is warmer, or else it
does not change at all.

Missing: that it gets warmer; it does not if the air of the room exchanges no heat (`C120_violated_isolated`). -/
theorem C120_heater_partial (st st' : HeatState) (same : st' = { st with hvacs := st'.hvacs, luminaires := st'.luminaires })
    (tiny : ℝ) (cav : CavityU ℝ) (index : String → Option ℕ) (w : StepWeather) (dt : ℝ) (hdt : 0 ≤ dt) (st1 st2 : HeatState)
    (h1 : st.step tiny cav index w dt = .ok st1) (h2 : st'.step tiny cav index w dt = .ok st2) :
    st2.surfaces = st1.surfaces ∧ st2.fenestrations = st1.fenestrations ∧
    ∀ (z : ℕ) (room : ZoneIn) (t : ℝ), st.rooms[z]? = some room → room.temp = some t → -273.15 < t → 0 < room.volume →
      ∃ t1 t2, st1.rooms[z]? = some { room with temp := some t1 } ∧ st2.rooms[z]? = some { room with temp := some t2 } ∧
        (watts st z ≤ watts st' z → t1 ≤ t2) ∧ (watts st' z ≤ watts st z → t2 ≤ t1) ∧
        (watts st z < watts st' z → 0 < dt → t1 < t2 ∨ (t1 = t ∧ t2 = t)) := by
  rw [same] at h2
  unfold HeatState.step at h1 h2
  simp only at h1 h2
  generalize hs : collect _ st.surfaces = S at h1 h2
  generalize hf : collect _ st.fenestrations = F at h1 h2
  cases S with
  | err => cases h1
  | panic => cases h1
  | ok S =>
    cases F with
    | err => cases h1
    | panic => cases h1
    | ok F =>
      simp only [Outcome.bind] at h1 h2
      generalize e1 : zonesStep _ dt = r1 at h1
      generalize e2 : zonesStep _ dt = r2 at h2
      cases r1 with
      | err => cases h1
      | panic => cases h1
      | ok r1 =>
        cases r2 with
        | err => cases h2
        | panic => cases h2
        | ok r2 =>
          cases h1
          cases h2
          refine ⟨rfl, rfl, fun z room t hz ht hk hv => ?_⟩
          obtain ⟨-, f1⟩ := zones_future _ _ _ e1
          obtain ⟨-, f2⟩ := zones_future _ _ _ e2
          obtain ⟨t', a, b, g1, g2, g3⟩ := f1 z room hz
          obtain ⟨t'', a', b', k1, k2, k3⟩ := f2 z room hz
          rw [ht] at g1 k1
          cases g1
          cases k1
          have hheat : ∀ T, a' - b' * T = a - b * T + (watts st' z - watts st z) := by
            intro T
            rw [g2, k2]
            unfold heat watts
            ring
          have ha : a' = a + (watts st' z - watts st z) := by linarith [hheat 0]
          have hb : b' = b := by linarith [hheat 0, hheat 1]
          subst hb
          have hc : 0 < room.volume * airHeat t := mul_pos hv (airHeat_pos t hk)
          refine ⟨futureTemp t a b' (room.volume * airHeat t) dt, futureTemp t a' b' (room.volume * airHeat t) dt, ?_, ?_, ?_, ?_, ?_⟩
          · simp only [List.getElem?_zipWith, hz, g3]
          · simp only [List.getElem?_zipWith, hz, k3]
          · intro hq
            rw [ha]
            exact (future_more t a b' _ dt _ hc hdt (sub_nonneg.2 hq)).1
          · intro hq
            have := (future_more t a' b' _ dt _ hc hdt (sub_nonneg.2 hq)).1
            rwa [show a' + (watts st z - watts st' z) = a by rw [ha]; ring] at this
          · intro hq hdt'
            rw [ha]
            exact (future_more t a b' _ dt _ hc hdt (sub_nonneg.2 hq.le)).2.2 (sub_pos.2 hq) hdt'

/-- C120, how much: if the air of a room gets no more heat when it is warmer, then `q` watts more for `dt` seconds make it warmer by at most the energy
`q * dt` divided by what it takes to warm that air by a degree. -/
theorem C120_energy (x x' : Inputs) (hz : x'.zones = x.zones) (hs : x'.surfaces = x.surfaces) (hf : x'.fenestrations = x.fenestrations)
    (dt : ℝ) (hdt : 0 ≤ dt) (r r' : List ℝ) (h : zonesStep x dt = .ok r) (h' : zonesStep x' dt = .ok r')
    (z : ℕ) (zone : ZoneIn) (t : ℝ) (hzone : x.zones[z]? = some zone) (ht : zone.temp = some t) (hk : -273.15 < t) (hv : 0 < zone.volume)
    (loses : heat x z zone 1 ≤ heat x z zone 0) (q : ℝ) (hq : 0 ≤ q)
    (more : power z x'.hvacs + power z x'.luminaires = power z x.hvacs + power z x.luminaires + q) :
    ∃ t1 t2, r[z]? = some t1 ∧ r'[z]? = some t2 ∧ t1 ≤ t2 ∧ (t2 - t1) * (zone.volume * airHeat t) ≤ q * dt := by
  obtain ⟨-, f1⟩ := zones_future _ _ _ h
  obtain ⟨-, f2⟩ := zones_future _ _ _ h'
  obtain ⟨t', a, b, g1, g2, g3⟩ := f1 z zone hzone
  obtain ⟨t'', a', b', k1, k2, k3⟩ := f2 z zone (by rw [hz]; exact hzone)
  rw [ht] at g1 k1
  cases g1
  cases k1
  have hheat : ∀ T, a' - b' * T = a - b * T + q := by
    intro T
    rw [g2, k2]
    unfold heat
    rw [hs, hf]
    linarith
  have ha : a' = a + q := by linarith [hheat 0]
  have hb : b' = b := by linarith [hheat 0, hheat 1]
  subst hb
  have hc : 0 < zone.volume * airHeat t := mul_pos hv (airHeat_pos t hk)
  have hb0 : 0 ≤ b' := by linarith [g2 0, g2 1]
  obtain ⟨m1, m2, -⟩ := future_more t a b' _ dt q hc hdt hq
  refine ⟨_, _, g3, k3, by rw [ha]; exact m1, ?_⟩
  rw [ha]
  have := m2 hb0
  rw [← le_div_iff₀ hc]
  linarith

/-- C120 is violated: a room whose air exchanges no heat is as warm with a heater of 2000 W as without, whatever the length of the step. -/
theorem C120_violated_isolated : ∃ st : HeatState, ∃ room : ZoneIn, st.rooms = [room] ∧ room.temp = some 20 ∧ 0 < room.volume ∧
    watts st 0 = 0 ∧ watts { st with hvacs := [(0, some 2000)] } 0 = 2000 ∧
    ∀ tiny cav index w dt, (∃ st1, st.step tiny cav index w dt = .ok st1 ∧ st1.rooms = [room]) ∧
      ∃ st2, ({ st with hvacs := [(0, some 2000)] } : HeatState).step tiny cav index w dt = .ok st2 ∧ st2.rooms = [room] := by
  refine ⟨⟨[⟨none, none, none, none, some 20, 30⟩], [(0, some 0)], [], [], []⟩, _, rfl, rfl, by norm_num, ?_, ?_, fun tiny cav index w dt =>
    ⟨⟨⟨[⟨none, none, none, none, some 20, 30⟩], [(0, some 0)], [], [], []⟩, ?_, rfl⟩,
      ⟨[⟨none, none, none, none, some 20, 30⟩], [(0, some 2000)], [], [], []⟩, ?_, rfl⟩⟩
  · simp [watts, power]
  · simp [watts, power]
  · simp [HeatState.step, collect, zonesStep, currentTemps, calculateAbc, addPowers, addAt, zoneLoop, addFlow, surfaceLoop, futureTemps,
      Outcome.bind, Outcome.index, futureTemp]
  · simp [HeatState.step, collect, zonesStep, currentTemps, calculateAbc, addPowers, addAt, zoneLoop, addFlow, surfaceLoop, futureTemps,
      Outcome.bind, Outcome.index, futureTemp]

/-- C120 is not vacuous: a room with infiltration whose heater is turned up. -/
example (tiny : ℝ) (cav : CavityU ℝ) (index : String → Option ℕ) (w : StepWeather) :
    ∃ st st' st1 st2 : HeatState, st' = { st with hvacs := st'.hvacs, luminaires := st'.luminaires } ∧
      st.step tiny cav index w 60 = .ok st1 ∧ st'.step tiny cav index w 60 = .ok st2 ∧ watts st 0 < watts st' 0 ∧
      ∃ room, st.rooms[0]? = some room ∧ room.temp = some 20 ∧ 0 < room.volume := by
  have hx : ∀ p : ℝ, ∃ st1, (⟨[⟨some 10, some 0.01, none, none, some 20, 30⟩], [(0, some p)], [], [], []⟩ : HeatState).step tiny cav index w 60 = .ok st1 := by
    intro p
    simp [HeatState.step, collect, zonesStep, currentTemps, calculateAbc, addPowers, addAt, zoneLoop, addFlow, surfaceLoop, futureTemps,
      Outcome.bind, Outcome.index]
  obtain ⟨st1, h1⟩ := hx 500
  obtain ⟨st2, h2⟩ := hx 2000
  refine ⟨_, _, st1, st2, rfl, h1, h2, ?_, _, rfl, rfl, by norm_num⟩
  simp only [watts, power, List.map_cons, List.map_nil, List.sum_cons, List.sum_nil]
  norm_num

/-- … and the room of `C120_energy` loses heat as it warms. -/
example : heat ⟨[(0, some 500)], [], [⟨some 10, some 0.01, none, none, some 20, 30⟩], [], []⟩ 0 ⟨some 10, some 0.01, none, none, some 20, 30⟩ 1
    ≤ heat ⟨[(0, some 500)], [], [⟨some 10, some 0.01, none, none, some 20, 30⟩], [], []⟩ 0 ⟨some 10, some 0.01, none, none, some 20, 30⟩ 0 := by
  simp [heat, power, surfaceHeat, flowHeat, airHeat]
  norm_num

end

end Simple.Heat
