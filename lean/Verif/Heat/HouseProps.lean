import Verif.Heat.WithinProps

/-! # C119: unheated buildings in the dark -/

namespace Simple.Heat

open Simple.Building

noncomputable section

namespace Spec

/-- A room between two temperatures, as is the air that enters it, if any. -/
structure RoomWithin (z : ZoneIn) (lo hi : ℝ) : Prop where
  temp : ∃ t, z.temp = some t ∧ lo ≤ t ∧ t ≤ hi
  volume : 0 < z.volume
  infiltration : ∀ t, z.infTemp = some t → (lo ≤ t ∧ t ≤ hi) ∧ ∃ v, z.infVolume = some v ∧ 0 ≤ v
  ventilation : ∀ t, z.ventTemp = some t → (lo ≤ t ∧ t ≤ hi) ∧ ∃ v, z.ventVolume = some v ∧ 0 ≤ v

/-- A surface or fenestration between two temperatures, in the dark; whatever weather of `W` comes, while it and the air are between them, so is what
it radiates to, the code finds its coefficients, and these are not negative and make it one that the code can handle.  The spaces next to it are
among the `n` of the building. -/
structure PartWithin (p : Part) (tiny : ℝ) (cav : CavityU ℝ) (dt lo hi : ℝ) (index : String → Option ℕ) (n : ℕ) (W : Set StepWeather) : Prop where
  chunked : Chunked p.surf
  nodes : 0 < p.surf.segments.length
  area : 0 ≤ p.surf.area
  fitting : Fitting p.surf p.mem
  temperatures : SurfaceWithin p.surf lo hi p.mem.temperatures
  front : lo ≤ p.readings.front ∧ p.readings.front ≤ hi
  back : lo ≤ p.readings.back ∧ p.readings.back ≤ hi
  frontGround : p.surf.frontBoundary ≠ .ground
  backGround : p.surf.backBoundary ≠ .ground
  frontAir : ∀ t, p.surf.frontBoundary = .ambientTemperature t → lo ≤ t ∧ t ≤ hi
  backAir : ∀ t, p.surf.backBoundary = .ambientTemperature t → lo ≤ t ∧ t ≤ hi
  handled : ∀ w ∈ W, ∀ front back tFront tBack : ℝ, lo ≤ front ∧ front ≤ hi → lo ≤ back ∧ back ≤ hi → lo ≤ tFront ∧ tFront ≤ hi →
    lo ≤ tBack ∧ tBack ≤ hi →
    (Moment.mk { p.readings with front := front, back := back } tFront tBack w.windDirection w.windSpeed).Mild p.surf tiny cav dt lo hi (massOf p.surf.segments) ∧
    ∀ f b, borderConditions p.surf { p.readings with front := front, back := back } tFront tBack w.windDirection w.windSpeed = .ok (f, b) →
      0 ≤ f.2 ∧ 0 ≤ b.2
  spaces : ∀ name, p.surf.frontBoundary = .space name ∨ p.surf.backBoundary = .space name → ∃ i, index name = some i ∧ i < n

/-- An unheated building between two temperatures. -/
structure HouseWithin (st : HeatState) (tiny : ℝ) (cav : CavityU ℝ) (dt lo hi : ℝ) (index : String → Option ℕ) (W : Set StepWeather) : Prop where
  rooms : ∀ z ∈ st.rooms, RoomWithin z lo hi
  hvacs : ∀ x ∈ st.hvacs, x.1 < st.rooms.length ∧ x.2 = some 0
  luminaires : ∀ x ∈ st.luminaires, x.1 < st.rooms.length ∧ x.2 = some 0
  surfaces : ∀ p ∈ st.surfaces, PartWithin p tiny cav dt lo hi index st.rooms.length W
  fenestrations : ∀ p ∈ st.fenestrations, PartWithin p tiny cav dt lo hi index st.rooms.length W

/-- A surface, as seen by the zones, between two temperatures. -/
structure InWithin (x : SurfaceIn) (lo hi : ℝ) (n : ℕ) : Prop where
  hFront : ∃ h, x.hFront = some h ∧ 0 ≤ h
  hBack : ∃ h, x.hBack = some h ∧ 0 ≤ h
  area : 0 ≤ x.area
  frontTemp : lo ≤ x.frontTemp ∧ x.frontTemp ≤ hi
  backTemp : lo ≤ x.backTemp ∧ x.backTemp ≤ hi
  front : ∀ i, x.front = .space i → ∃ j, i = some j ∧ j < n
  back : ∀ i, x.back = .space i → ∃ j, i = some j ∧ j < n

end Spec

open Spec

/-! ## Rooms -/

private theorem surfaces_some (lo hi : ℝ) (n : ℕ) : ∀ (l : List SurfaceIn) (ab : List ℝ × List ℝ),
    ab.1.length = n → ab.2.length = n → (∀ x ∈ l, InWithin x lo hi n) →
    ∃ ab', surfaceLoop l ab = .ok ab' ∧ ab'.1.length = n ∧ ab'.2.length = n
  | [], ab, h1, h2, _ => ⟨ab, rfl, h1, h2⟩
  | x :: l, ab, h1, h2, h => by
    have hx := h x (by simp)
    obtain ⟨hf, e1, -⟩ := hx.hFront
    obtain ⟨hb, e2, -⟩ := hx.hBack
    obtain ⟨ab1, a1, a2, a3⟩ := addSide_some x.front hf x.area x.frontTemp ab n h1 h2 hx.front
    obtain ⟨ab2, b1, b2, b3⟩ := addSide_some x.back hb x.area x.backTemp ab1 n a2 a3 hx.back
    obtain ⟨ab', r1, r2, r3⟩ := surfaces_some lo hi n l ab2 b2 b3 (fun y hy => h y (by simp [hy]))
    refine ⟨ab', ?_, r2, r3⟩
    rw [surfaceLoop, e1, e2]
    simp only [a1, b1, Outcome.bind, r1]

private theorem airHeat_nonneg {t : ℝ} (h : -273.15 < t) : 0 < airHeat t := by
  unfold airHeat
  have : 0 < t + 273.15 := by linarith
  positivity

/-- Heat is received from what is warmer, given to what is colder, and less of it the warmer the room is. -/
private theorem sideHeat_sign (z : ℕ) (side : Side) (h : ℝ) (area temp : ℝ) (hh : 0 ≤ h) (ha : 0 ≤ area) :
    (∀ T, T ≤ temp → 0 ≤ sideHeat z side (some h) area temp T) ∧ (∀ T, temp ≤ T → sideHeat z side (some h) area temp T ≤ 0) ∧
    sideHeat z side (some h) area temp 1 ≤ sideHeat z side (some h) area temp 0 := by
  have hp := mul_nonneg hh ha
  unfold sideHeat
  cases side with
  | other => simp
  | space i =>
    cases i with
    | none => simp
    | some i =>
      by_cases hi : i = z
      · simp only [if_pos hi]
        refine ⟨fun T hT => mul_nonneg hp (by linarith), fun T hT => mul_nonpos_of_nonneg_of_nonpos hp (by linarith), ?_⟩
        nlinarith
      · simp [hi]

private theorem surfaceHeat_sign (z n : ℕ) (lo hi : ℝ) : ∀ l : List SurfaceIn, (∀ x ∈ l, InWithin x lo hi n) →
    0 ≤ surfaceHeat z l lo ∧ surfaceHeat z l hi ≤ 0 ∧ surfaceHeat z l 1 ≤ surfaceHeat z l 0
  | [], _ => by simp [surfaceHeat]
  | x :: l, h => by
    obtain ⟨i1, i2, i3⟩ := surfaceHeat_sign z n lo hi l (fun y hy => h y (by simp [hy]))
    have hx := h x (by simp)
    obtain ⟨hf, e1, p1⟩ := hx.hFront
    obtain ⟨hb, e2, p2⟩ := hx.hBack
    obtain ⟨f1, f2, f3⟩ := sideHeat_sign z x.front hf x.area x.frontTemp p1 hx.area
    obtain ⟨b1, b2, b3⟩ := sideHeat_sign z x.back hb x.area x.backTemp p2 hx.area
    have g1 := f1 lo hx.frontTemp.1
    have g2 := f2 hi hx.frontTemp.2
    have g3 := b1 lo hx.backTemp.1
    have g4 := b2 hi hx.backTemp.2
    unfold surfaceHeat at i1 i2 i3 ⊢
    simp only [List.map_cons, List.sum_cons, e1, e2]
    exact ⟨by linarith, by linarith, by linarith⟩

private theorem flowHeat_sign (temp volume : Option ℝ) (lo hi : ℝ) (hlo : -273.15 < lo)
    (h : ∀ t, temp = some t → (lo ≤ t ∧ t ≤ hi) ∧ ∃ v, volume = some v ∧ 0 ≤ v) :
    0 ≤ flowHeat temp volume lo ∧ flowHeat temp volume hi ≤ 0 ∧ flowHeat temp volume 1 ≤ flowHeat temp volume 0 := by
  cases temp with
  | none => simp [flowHeat]
  | some t =>
    obtain ⟨⟨h1, h2⟩, v, rfl, hv⟩ := h t rfl
    have hp := mul_nonneg (airHeat_nonneg (lt_of_lt_of_le hlo h1)).le hv
    unfold flowHeat
    refine ⟨mul_nonneg hp (by linarith), mul_nonpos_of_nonneg_of_nonpos hp (by linarith), ?_⟩
    simp only
    nlinarith

private theorem future_within (t a b c dt lo hi : ℝ) (ht : lo ≤ t ∧ t ≤ hi) (hb : 0 ≤ b) (hc : 0 < c) (hdt : 0 ≤ dt) (h1 : 0 ≤ a - b * lo)
    (h2 : a - b * hi ≤ 0) : lo ≤ futureTemp t a b c dt ∧ futureTemp t a b c dt ≤ hi := by
  rcases eq_or_lt_of_le hb with hb0 | hb0
  · unfold futureTemp
    rw [if_neg (by rw [← hb0]; norm_num)]
    exact ht
  · have e1 : lo ≤ a / b := by rw [le_div_iff₀ hb0]; linarith
    have e2 : a / b ≤ hi := by rw [div_le_iff₀ hb0]; linarith
    obtain ⟨p1, p2, -⟩ := C30_between t a b c dt (a / b) hb hc hdt (by field_simp; ring)
    exact ⟨le_trans (le_min ht.1 e1) p1, le_trans p2 (max_le ht.2 e2)⟩

private theorem futureTemps_some (t a b c : List ℝ) (dt : ℝ) (n : ℕ) (ht : t.length = n) (ha : a.length = n) (hb : b.length = n)
    (hc : c.length = n) (P : ℝ → Prop)
    (h : ∀ i, i < n → P (futureTemp (t.getD i 0) (a.getD i 0) (b.getD i 0) (c.getD i 0) dt)) : ∀ (k i : ℕ), i + k = n →
    ∃ r, futureTemps t a b c dt k i = .ok r ∧ r.length = k ∧ ∀ y ∈ r, P y
  | 0, i, _ => ⟨[], rfl, rfl, by simp⟩
  | k + 1, i, hk => by
    obtain ⟨r, r1, r2, r3⟩ := futureTemps_some t a b c dt n ht ha hb hc P h k (i + 1) (by omega)
    have hP := h i (by omega)
    rw [List.getD_eq_getElem?_getD, List.getD_eq_getElem?_getD, List.getD_eq_getElem?_getD, List.getD_eq_getElem?_getD,
      List.getElem?_eq_getElem (by omega : i < a.length), List.getElem?_eq_getElem (by omega : i < b.length),
      List.getElem?_eq_getElem (by omega : i < t.length), List.getElem?_eq_getElem (by omega : i < c.length)] at hP
    simp only [Option.getD_some] at hP
    refine ⟨futureTemp t[i] a[i] b[i] c[i] dt :: r, ?_, by simp [r2], ?_⟩
    · rw [futureTemps, Outcome.index_of_lt (by omega : i < t.length), Outcome.index_of_lt (by omega : i < a.length),
        Outcome.index_of_lt (by omega : i < b.length), Outcome.index_of_lt (by omega : i < c.length)]
      simp only [Outcome.bind, r1]
    · intro y hy
      rcases List.mem_cons.1 hy with rfl | hy
      · exact hP
      · exact r3 y hy

private theorem currentTemps_some (lo hi : ℝ) : ∀ l : List ZoneIn, (∀ z ∈ l, RoomWithin z lo hi) →
    ∃ r, currentTemps l = .ok r ∧ r.length = l.length ∧ ∀ i, i < l.length → lo ≤ r.getD i 0 ∧ r.getD i 0 ≤ hi
  | [], _ => ⟨[], rfl, rfl, by simp⟩
  | z :: l, h => by
    obtain ⟨r, r1, r2, r3⟩ := currentTemps_some lo hi l (fun x hx => h x (by simp [hx]))
    obtain ⟨t, e, ht⟩ := (h z (by simp)).temp
    refine ⟨t :: r, ?_, by simp [r2], ?_⟩
    · rw [currentTemps, e]
      simp only [r1, Outcome.bind]
    · intro i hi
      cases i with
      | zero => simpa using ht
      | succ i => simpa using r3 i (by simpa using hi)

/-- Unheated rooms stay between the temperatures of their surfaces and of the air that enters them. -/
theorem zones_within (x : Inputs) (dt lo hi : ℝ) (hdt : 0 ≤ dt) (hlo : -273.15 < lo) (hz : ∀ z ∈ x.zones, RoomWithin z lo hi)
    (hh : ∀ y ∈ x.hvacs, y.1 < x.zones.length ∧ y.2 = some 0)
    (hl : ∀ y ∈ x.luminaires, y.1 < x.zones.length ∧ y.2 = some 0)
    (hs : ∀ y ∈ x.surfaces, InWithin y lo hi x.zones.length)
    (hf : ∀ y ∈ x.fenestrations, InWithin y lo hi x.zones.length) :
    ∃ r, zonesStep x dt = .ok r ∧ r.length = x.zones.length ∧ ∀ t ∈ r, lo ≤ t ∧ t ≤ hi := by
  obtain ⟨a1, p1, p2⟩ := addPowers_some .err x.zones.length x.hvacs (List.replicate x.zones.length 0) (by simp)
    (fun y hy => ⟨(hh y hy).1, by rw [(hh y hy).2]; rfl⟩)
  obtain ⟨a2, q1, q2⟩ := addPowers_some .panic x.zones.length x.luminaires a1 p2
    (fun y hy => ⟨(hl y hy).1, by rw [(hl y hy).2]; rfl⟩)
  obtain ⟨r, r1, r2, r3, r4⟩ := zoneLoop_some x.zones.length x.zones 0 (a2, List.replicate x.zones.length 0) q2
    (by simp) (by omega) (fun z h => by
      have e := hz z h
      obtain ⟨t, e1, -⟩ := e.temp
      refine ⟨by rw [e1]; rfl, fun h => ?_, fun h => ?_⟩
      · obtain ⟨t', ht⟩ := Option.isSome_iff_exists.1 h
        obtain ⟨-, v, hv, -⟩ := e.infiltration t' ht
        rw [hv]; rfl
      · obtain ⟨t', ht⟩ := Option.isSome_iff_exists.1 h
        obtain ⟨-, v, hv, -⟩ := e.ventilation t' ht
        rw [hv]; rfl)
  obtain ⟨ab1, s1, s2, s3⟩ := surfaces_some lo hi x.zones.length x.surfaces r.1 r2 r3 hs
  obtain ⟨ab2, f1, f2, f3⟩ := surfaces_some lo hi x.zones.length x.fenestrations ab1 s2 s3 hf
  have habc : calculateAbc x = .ok ((ab2.1, ab2.2), r.2) := by
    unfold calculateAbc
    rw [p1]
    simp only [Outcome.bind, q1, r1, s1, f1]
  obtain ⟨-, -, -, bal⟩ := C30_balance x ab2.1 ab2.2 r.2 habc
  obtain ⟨t, t1, t2, t3⟩ := currentTemps_some lo hi x.zones hz
  obtain ⟨u, u1, u2, u3⟩ := futureTemps_some t ab2.1 ab2.2 r.2 dt x.zones.length t2 f2 f3 r4 (fun y => lo ≤ y ∧ y ≤ hi) (fun i hi' => by
    obtain ⟨hb, ti, e1, e2⟩ := bal i x.zones[i] (List.getElem?_eq_getElem hi')
    have hroom := hz x.zones[i] (List.getElem_mem hi')
    obtain ⟨w1, w2, w3⟩ := flowHeat_sign _ _ lo hi hlo hroom.infiltration
    obtain ⟨v1, v2, v3⟩ := flowHeat_sign _ _ lo hi hlo hroom.ventilation
    obtain ⟨g1, g2, g3⟩ := surfaceHeat_sign i _ lo hi _ hs
    obtain ⟨k1, k2, k3⟩ := surfaceHeat_sign i _ lo hi _ hf
    have b0 := hb 0
    have b1 := hb 1
    have bl := hb lo
    have bh := hb hi
    unfold heat at b0 b1 bl bh
    rw [power_zero _ _ _ hh, power_zero _ _ _ hl] at b0 b1 bl bh
    obtain ⟨t', e3, e4, -⟩ := hroom.temp
    rw [e1] at e3
    cases e3
    refine future_within _ _ _ _ dt lo hi (t3 i hi') (by linarith) ?_ hdt (by linarith) (by linarith)
    rw [List.getD_eq_getElem?_getD, e2, Option.getD_some]
    exact mul_pos hroom.volume (airHeat_nonneg (lt_of_lt_of_le hlo e4))) x.zones.length 0 (by omega)
  refine ⟨u, ?_, u2, u3⟩
  unfold zonesStep
  rw [t1, habc]
  exact u1

/-! ## Surfaces -/

private theorem mass_of (s : Surf) : HasMass (massOf s.segments) s.segments := by
  intro i x hx
  simp [massOf, hx]

private theorem side_within (b : Boundary ℝ) (other tOut lo hi : ℝ) (spaces : String → Option ℝ) (hb : b ≠ .ground)
    (ha : ∀ t, b = .ambientTemperature t → lo ≤ t ∧ t ≤ hi) (ho : lo ≤ other ∧ other ≤ hi) (hout : lo ≤ tOut ∧ tOut ≤ hi)
    (hs : ∀ name, b = .space name → ∃ t, spaces name = some t ∧ lo ≤ t ∧ t ≤ hi) :
    ∃ t, temperatureAt b other tOut spaces = .ok t ∧ lo ≤ t ∧ t ≤ hi := by
  cases b with
  | ground => exact absurd rfl hb
  | adiabatic => exact ⟨other, rfl, ho⟩
  | outdoor => exact ⟨tOut, rfl, hout⟩
  | space name =>
    obtain ⟨t, e, ht⟩ := hs name rfl
    exact ⟨t, by simp [temperatureAt, boundaryTemperature, e], ht⟩
  | ambientTemperature t => exact ⟨t, rfl, ha t rfl⟩

/-- A part between two temperatures stays there, and so does what it leaves for the zones. -/
theorem part_within (p : Part) (tiny : ℝ) (htiny : 0 < tiny) (cav : CavityU ℝ) (dt lo hi : ℝ) (index : String → Option ℕ)
    (n : ℕ) (W : Set StepWeather) (h : PartWithin p tiny cav dt lo hi index n W)
    (spaces : String → Option ℝ) (hspace : ∀ name i, index name = some i → i < n → ∃ t, spaces name = some t ∧ lo ≤ t ∧ t ≤ hi)
    (w : StepWeather) (hw : w ∈ W) (hout : lo ≤ w.tOut ∧ w.tOut ≤ hi) :
    ∃ q, p.step tiny cav index spaces w.tOut w.windDirection w.windSpeed dt = .ok q ∧ q.1.surf = p.surf ∧
      PartWithin q.1 tiny cav dt lo hi index n W ∧ InWithin q.2 lo hi n := by
  obtain ⟨tf, f1, f2⟩ := side_within p.surf.frontBoundary p.readings.back w.tOut lo hi spaces h.frontGround h.frontAir h.back hout
    (fun name hn => by
      obtain ⟨i, hi, hin⟩ := h.spaces name (.inl hn)
      exact hspace name i hi hin)
  obtain ⟨tb, b1, b2⟩ := side_within p.surf.backBoundary tf w.tOut lo hi spaces h.backGround h.backAir f2 hout
    (fun name hn => by
      obtain ⟨i, hi, hin⟩ := h.spaces name (.inr hn)
      exact hspace name i hi hin)
  have sides : sideTemperatures p.surf p.readings w.tOut spaces = .ok (tf, tb) := by
    unfold sideTemperatures
    rw [f1]
    simp only [Outcome.bind, b1]
  obtain ⟨hmild, -⟩ := h.handled w hw p.readings.front p.readings.back tf tb h.front h.back f2 b2
  obtain ⟨mem', m1, m2, m3⟩ := C116_surface_partial p.surf h.chunked tiny htiny cav dt lo hi (massOf p.surf.segments) (mass_of p.surf) _ hmild
    p.mem h.fitting h.temperatures
  have m1' : p.surf.march tiny cav p.readings tf tb w.windDirection w.windSpeed dt p.mem = .ok mem' := m1
  have hlen : 0 < mem'.temperatures.length := by rw [m2.1]; exact h.nodes
  have hne : mem'.temperatures ≠ [] := List.ne_nil_of_length_pos hlen
  obtain ⟨x, hx⟩ : ∃ x, mem'.temperatures.head? = some x := ⟨_, List.head?_eq_some_head hne⟩
  obtain ⟨y, hy⟩ : ∃ y, mem'.temperatures.getLast? = some y := ⟨_, List.getLast?_eq_some_getLast hne⟩
  have hx' := m2.2 x (List.mem_of_mem_head? hx)
  have hy' := m2.2 y (List.mem_of_mem_getLast? hy)
  obtain ⟨hmild2, hpos⟩ := h.handled w hw x y tf tb hx' hy' f2 b2
  obtain ⟨f, b, hb, -, -⟩ := hmild2.border
  have hb' : borderConditions p.surf { p.readings with front := x, back := y } tf tb w.windDirection w.windSpeed = .ok (f, b) := hb
  obtain ⟨q1, q2⟩ := hpos f b hb'
  have side : ∀ b : Boundary ℝ, (∀ name, b = .space name → ∃ i, index name = some i ∧ i < n) →
      ∀ i, sideOf index b = .space i → ∃ j, i = some j ∧ j < n := by
    intro b hb i hi
    cases b with
    | space name =>
      obtain ⟨j, hj, hjn⟩ := hb name rfl
      simp only [sideOf, Side.space.injEq] at hi
      exact ⟨j, by rw [← hi, hj], hjn⟩
    | _ => simp [sideOf] at hi
  have step : p.step tiny cav index spaces w.tOut w.windDirection w.windSpeed dt =
      .ok ({ p with readings := { p.readings with front := x, back := y }, mem := mem' },
        p.toZones index ⟨mem'.temperatures, f.2, b.2, (x - tf) * f.2, (y - tb) * b.2⟩) := by
    unfold Part.step Surf.step
    rw [sides]
    simp only [Outcome.bind]
    rw [m1']
    simp only [hx, hy]
    rw [hb']
    simp only [hx, hy, Option.getD_some]
  refine ⟨_, step, rfl, ?_, ?_⟩
  · exact ⟨h.chunked, h.nodes, h.area, m3, m2, hx', hy', h.frontGround, h.backGround, h.frontAir, h.backAir, h.handled, h.spaces⟩
  · refine ⟨⟨_, rfl, q1⟩, ⟨_, rfl, q2⟩, h.area, ?_, ?_, side _ (fun name hb => h.spaces name (Or.inl hb)),
      side _ (fun name hb => h.spaces name (Or.inr hb))⟩
    · simpa [Part.toZones, hx] using hx'
    · simpa [Part.toZones, hy] using hy'

/-! ## Buildings -/

private theorem rooms_within (lo hi : ℝ) : ∀ (l : List ZoneIn) (r : List ℝ), r.length = l.length → (∀ z ∈ l, RoomWithin z lo hi) →
    (∀ t ∈ r, lo ≤ t ∧ t ≤ hi) →
    ∀ z ∈ List.zipWith (fun (z : ZoneIn) (t : ℝ) => { z with temp := some t }) l r, RoomWithin z lo hi
  | [], _, _, _, _ => by simp
  | z :: l, [], h, _, _ => by simp at h
  | z :: l, t :: r, h, hz, ht => by
    intro y hy
    rw [List.zipWith_cons_cons] at hy
    rcases List.mem_cons.1 hy with rfl | hy
    · have := hz z (by simp)
      exact ⟨⟨t, rfl, ht t (by simp)⟩, this.volume, this.infiltration, this.ventilation⟩
    · exact rooms_within lo hi l r (by simpa using h) (fun z h => hz z (by simp [h])) (fun t h => ht t (by simp [h])) y hy

/-- A step of an unheated building. -/
theorem house_step (st : HeatState) (tiny : ℝ) (htiny : 0 < tiny) (cav : CavityU ℝ) (dt lo hi : ℝ) (hdt : 0 ≤ dt) (hlo : -273.15 < lo)
    (index : String → Option ℕ) (W : Set StepWeather) (h : HouseWithin st tiny cav dt lo hi index W)
    (w : StepWeather) (hw : w ∈ W) (hout : lo ≤ w.tOut ∧ w.tOut ≤ hi) :
    ∃ st', st.step tiny cav index w dt = .ok st' ∧ HouseWithin st' tiny cav dt lo hi index W ∧ st'.rooms.length = st.rooms.length ∧
      st'.surfaces.map Part.surf = st.surfaces.map Part.surf ∧ st'.fenestrations.map Part.surf = st.fenestrations.map Part.surf := by
  have hspace : ∀ name i, index name = some i → i < st.rooms.length →
      ∃ t, ((index name).bind fun i => (st.rooms[i]?).bind fun z => z.temp) = some t ∧ lo ≤ t ∧ t ≤ hi := by
    intro name i h1 h2
    obtain ⟨t, e, ht⟩ := (h.rooms _ (List.getElem_mem h2)).temp
    refine ⟨t, ?_, ht⟩
    rw [h1]
    simp only [Option.bind_some, List.getElem?_eq_getElem h2]
    exact e
  have parts : ∀ l : List Part, (∀ p ∈ l, PartWithin p tiny cav dt lo hi index st.rooms.length W) →
      ∃ r, collect (fun p : Part => p.step tiny cav index
          (fun name => (index name).bind fun i => (st.rooms[i]?).bind fun z => z.temp)
          w.tOut w.windDirection w.windSpeed dt) l = .ok r ∧
        List.Forall₂ (fun (p : Part) (q : Part × SurfaceIn) => q.1.surf = p.surf ∧
          PartWithin q.1 tiny cav dt lo hi index st.rooms.length W ∧ InWithin q.2 lo hi st.rooms.length) l r := by
    intro l hl
    apply collect_forall₂
    intro p hp
    exact part_within p tiny htiny cav dt lo hi index st.rooms.length W (hl p hp) _ hspace w hw hout
  obtain ⟨rs, s1, s2⟩ := parts st.surfaces h.surfaces
  obtain ⟨rf, f1, f2⟩ := parts st.fenestrations h.fenestrations
  obtain ⟨ts, z1, z2, z3⟩ := zones_within ⟨st.hvacs, st.luminaires, st.rooms, rs.map Prod.snd, rf.map Prod.snd⟩ dt lo hi hdt hlo h.rooms h.hvacs
    h.luminaires
    (fun y hy => by
      obtain ⟨q, hq, rfl⟩ := List.mem_map.1 hy
      exact forall₂_right s2 (Q := fun q => InWithin q.2 lo hi st.rooms.length) (fun _ _ h => h.2.2) q hq)
    (fun y hy => by
      obtain ⟨q, hq, rfl⟩ := List.mem_map.1 hy
      exact forall₂_right f2 (Q := fun q => InWithin q.2 lo hi st.rooms.length) (fun _ _ h => h.2.2) q hq)
  have z2' : ts.length = st.rooms.length := z2
  have hlen : (List.zipWith (fun (z : ZoneIn) (t : ℝ) => { z with temp := some t }) st.rooms ts).length = st.rooms.length := by
    simp [z2']
  refine ⟨{ st with
      rooms := List.zipWith (fun z t => { z with temp := some t }) st.rooms ts
      surfaces := rs.map Prod.fst, fenestrations := rf.map Prod.fst }, ?_, ?_, hlen, ?_, ?_⟩
  · unfold HeatState.step
    simp only
    rw [s1]
    simp only [Outcome.bind]
    rw [f1]
    simp only
    rw [z1]
  · refine ⟨rooms_within lo hi st.rooms ts z2' h.rooms z3, ?_, ?_, ?_, ?_⟩
    · simp only [hlen]; exact h.hvacs
    · simp only [hlen]; exact h.luminaires
    · simp only [hlen]
      intro p hp
      obtain ⟨q, hq, rfl⟩ := List.mem_map.1 hp
      exact forall₂_right s2 (Q := fun q => PartWithin q.1 tiny cav dt lo hi index st.rooms.length W) (fun _ _ h => h.2.1) q hq
    · simp only [hlen]
      intro p hp
      obtain ⟨q, hq, rfl⟩ := List.mem_map.1 hp
      exact forall₂_right f2 (Q := fun q => PartWithin q.1 tiny cav dt lo hi index st.rooms.length W) (fun _ _ h => h.2.1) q hq
  · simp only [List.map_map]
    exact forall₂_map_eq s2 (fun _ _ h => h.1)
  · simp only [List.map_map]
    exact forall₂_map_eq f2 (fun _ _ h => h.1)

/-- The march of an unheated building. -/
theorem house_march (tiny : ℝ) (htiny : 0 < tiny) (cav : CavityU ℝ) (dt lo hi : ℝ) (hdt : 0 ≤ dt) (hlo : -273.15 < lo)
    (index : String → Option ℕ) (W : Set StepWeather) : ∀ (ws : List StepWeather) (st : HeatState),
    HouseWithin st tiny cav dt lo hi index W → (∀ w ∈ ws, w ∈ W ∧ lo ≤ w.tOut ∧ w.tOut ≤ hi) →
    ∃ st', HeatState.march tiny cav index dt ws st = .ok st' ∧ HouseWithin st' tiny cav dt lo hi index W ∧ st'.rooms.length = st.rooms.length ∧
      st'.surfaces.map Part.surf = st.surfaces.map Part.surf ∧ st'.fenestrations.map Part.surf = st.fenestrations.map Part.surf
  | [], st, h, _ => ⟨st, rfl, h, rfl, rfl, rfl⟩
  | w :: ws, st, h, hw => by
    obtain ⟨st1, a1, a2, a3, a4, a5⟩ := house_step st tiny htiny cav dt lo hi hdt hlo index W h w (hw w (by simp)).1 (hw w (by simp)).2
    obtain ⟨st2, b1, b2, b3, b4, b5⟩ := house_march tiny htiny cav dt lo hi hdt hlo index W ws st1 a2 (fun x hx => hw x (by simp [hx]))
    exact ⟨st2, by rw [HeatState.march, a1]; exact b1, b2, b3.trans a3, b4.trans a4, b5.trans a5⟩

/-- C119: in the dark and without any heating, however many steps go by and however the weather changes, the march succeeds, and no room and no node
of a surface or fenestration gets colder or warmer than they, the air and what they radiate to have been.

Missing: surfaces with a face without mass that radiates, for which it fails (`C119_violated_pane`), and nodes that exchange too much heat in one
interval, for which it fails (`C116_violated_cladding`). -/
theorem C119_building_partial (tiny : ℝ) (htiny : 0 < tiny) (cav : CavityU ℝ) (dt lo hi : ℝ) (hdt : 0 ≤ dt) (hlo : -273.15 < lo)
    (index : String → Option ℕ) (W : Set StepWeather) (ws : List StepWeather) (st : HeatState)
    (h : HouseWithin st tiny cav dt lo hi index W) (hw : ∀ w ∈ ws, w ∈ W ∧ lo ≤ w.tOut ∧ w.tOut ≤ hi) :
    ∃ st', HeatState.march tiny cav index dt ws st = .ok st' ∧
      st'.rooms.length = st.rooms.length ∧ (∀ z ∈ st'.rooms, ∃ t, z.temp = some t ∧ lo ≤ t ∧ t ≤ hi) ∧
      st'.surfaces.length = st.surfaces.length ∧ (∀ p ∈ st'.surfaces, ∀ t ∈ p.mem.temperatures, lo ≤ t ∧ t ≤ hi) ∧
      st'.fenestrations.length = st.fenestrations.length ∧ (∀ p ∈ st'.fenestrations, ∀ t ∈ p.mem.temperatures, lo ≤ t ∧ t ≤ hi) := by
  obtain ⟨st', a1, a2, a3, a4, a5⟩ := house_march tiny htiny cav dt lo hi hdt hlo index W ws st h hw
  exact ⟨st', a1, a3, fun z hz => (a2.rooms z hz).temp, by simpa using congrArg List.length a4, fun p hp => (a2.surfaces p hp).temperatures.2,
    by simpa using congrArg List.length a5, fun p hp => (a2.fenestrations p hp).temperatures.2⟩

/-! ## Cases -/

/-- `C119_building_partial` is not vacuous: a room at 18 degrees behind the wall of two leaves of `exampleLeaves`, at other temperatures, with a draught
from another place at 12 degrees, in any weather between 0 and 30 degrees. -/
example (cavity : Cavity ℝ) (cav : CavityU ℝ)
    (hcav : ∀ t1 t2 : ℝ, 0 ≤ t1 ∧ t1 ≤ 30 → 0 ≤ t2 ∧ t2 ≤ 30 → ∃ u, cav cavity t1 t2 = .ok u ∧ 1 ≤ u ∧ u ≤ 5)
    (ws : List StepWeather) (hw : ∀ w ∈ ws, 0 ≤ w.tOut ∧ w.tOut ≤ 30) :
    ∃ st st' : HeatState, st.surfaces.length = 1 ∧ st.rooms.length = 1 ∧ nodes st.surfaces = [[20, 21, 8, 7, 30, 0]] ∧
      HeatState.march 1e-9 cav (fun _ => some 0) 300 ws st = .ok st' ∧ st'.rooms.length = 1 ∧
      (∀ z ∈ st'.rooms, ∃ t, z.temp = some t ∧ 0 ≤ t ∧ t ≤ 30) ∧ ∀ p ∈ st'.surfaces, ∀ t ∈ p.mem.temperatures, 0 ≤ t ∧ t ≤ 30 := by
  obtain ⟨mem, a1, a2, a3⟩ := C87_allocated (exampleLeaves cavity) [20, 21, 8, 7, 30, 0]
  let st : HeatState :=
    { rooms := [⟨some 12, some 0.1, none, none, some 18, 50⟩], hvacs := [(0, some 0)], luminaires := []
      surfaces := [⟨exampleLeaves cavity, ⟨20, 0, 0, 0, some 0, none⟩, mem⟩], fenestrations := [] }
  have hst : HouseWithin st 1e-9 cav 300 0 30 (fun _ => some 0) Set.univ := by
    refine ⟨?_, ?_, ?_, ?_, ?_⟩
    · intro z hz
      obtain rfl := List.mem_singleton.1 hz
      refine ⟨⟨18, rfl, by norm_num, by norm_num⟩, by norm_num, fun t h => ?_, fun t h => by cases h⟩
      cases h
      exact ⟨⟨by norm_num, by norm_num⟩, _, rfl, by norm_num⟩
    · intro x hx
      obtain rfl := List.mem_singleton.1 hx
      exact ⟨by norm_num [st], rfl⟩
    · intro x hx
      cases hx
    · intro p hp
      obtain rfl := List.mem_singleton.1 hp
      refine ⟨⟨rfl, rfl, by simp [exampleLeaves], by simp [exampleLeaves]⟩, by simp [exampleLeaves], by norm_num [exampleLeaves, exampleWall], a2,
        ⟨by rw [a3]; rfl, ?_⟩, by norm_num, by norm_num, by simp [exampleLeaves], by simp [exampleLeaves, exampleWall], ?_, ?_, ?_, ?_⟩
      · intro x hx
        simp only [a3, List.mem_cons, List.not_mem_nil, or_false] at hx
        rcases hx with rfl | rfl | rfl | rfl | rfl | rfl <;> norm_num
      · intro t ht
        simp only [exampleLeaves, Boundary.ambientTemperature.injEq] at ht
        rw [← ht]
        norm_num
      · intro t ht
        simp [exampleLeaves, exampleWall] at ht
      · intro w _ front back tFront tBack h1 h2 h3 h4
        refine ⟨exampleLeaves_mild cavity cav hcav _ ⟨.inl rfl, .inr rfl⟩ ⟨h1, h2⟩ h4, fun f b hfb => ?_⟩
        unfold borderConditions frontConditions backConditions at hfb
        simp only [exampleLeaves, exampleWall, orElse, Outcome.bind] at hfb
        cases hfb
        norm_num
      · intro name _
        exact ⟨0, rfl, by norm_num [st]⟩
    · intro p hp
      cases hp
  obtain ⟨st', b1, b2, b3, -, b5, -⟩ := C119_building_partial 1e-9 (by norm_num) cav 300 0 30 (by norm_num) (by norm_num) (fun _ => some 0) Set.univ ws st
    hst (fun w h => ⟨trivial, hw w h⟩)
  exact ⟨st, st', rfl, rfl, by simp [nodes, st, a3], b1, b2, b3, b5⟩

/-! ## Where it fails -/

/-- A sheet of glass without mass between two rooms, where the air hardly moves. -/
def examplePane : Surf :=
  { exampleWall with frontHs := some 1, backHs := some 1, segments := [(0, .solid 250), (0, .back)], massiveChunks := [], nomassChunks := [(0, 2)] }

/-- C119, not so: a sheet of glass at 21 degrees between two rooms at 20, in the dark and without heating, gets colder than the rooms in a step of any
length. -/
theorem C119_violated_pane (cav : CavityU ℝ) (dt : ℝ) (w : StepWeather) :
    ∃ st st' : HeatState, st.rooms.map ZoneIn.temp = [some 20, some 20] ∧ (∀ z ∈ st.rooms, z.infTemp = none ∧ z.ventTemp = none) ∧
      st.hvacs = [] ∧ st.luminaires = [] ∧ st.surfaces = [] ∧ nodes st.fenestrations = [[21, 21]] ∧
      (∀ p ∈ st.fenestrations, p.surf.frontBoundary = .space "a" ∧ p.surf.backBoundary = .space "b" ∧
        p.readings.solarFront = some 0 ∧ p.readings.solarBack = some 0) ∧
      st.step 1e-9 cav (fun name => if name = "a" then some 0 else some 1) w dt = .ok st' ∧
      ∃ p ∈ st'.fenestrations, ∀ t ∈ p.mem.temperatures, t < 20 := by
  obtain ⟨mem, a1, a2, a3⟩ := C87_allocated examplePane [21, 21]
  obtain ⟨m, hm, -⟩ : ∃ m, mem.nomassChunks = [m] ∧ True := by
    have := a2.nomass
    simp only [examplePane] at this
    obtain ⟨m, l, -, h2, h3⟩ := List.forall₂_cons_left_iff.1 this
    cases h2
    exact ⟨m, h3, trivial⟩
  have hready : Ready 2 m := by
    have := a2.nomass
    rw [hm] at this
    simp only [examplePane] at this
    cases this with
    | cons h _ => exact h
  have hmass : mem.massiveChunks = [] := by
    have := a2.massive
    simp only [examplePane] at this
    cases h : mem.massiveChunks with
    | nil => rfl
    | cons a l => rw [h] at this; cases this
  have hR : 3 < 4 * 0.9 * sigma * (273.15 + (20 + 21 : ℝ) / 2) ^ 3 ∧ 4 * 0.9 * sigma * (273.15 + (20 + 21 : ℝ) / 2) ^ 3 ≤ 10 := by
    unfold sigma; constructor <;> norm_num
  generalize hr : 4 * 0.9 * sigma * (273.15 + (20 + 21 : ℝ) / 2) ^ 3 = R at hR
  obtain ⟨e', m', v1, v2, v3⟩ := C85_violated_overshoots (1e-9 : ℝ) (by norm_num) 250 1 R 20 1 cav 0 m hready (by norm_num) (by norm_num)
    (by norm_num; linarith [hR.2]) (by linarith [hR.1]) (by norm_num) (by norm_num; linarith [hR.2])
  have he : e' < 0 := by linarith
  let r : Readings := ⟨21, 21, 0, 0, some 0, some 0⟩
  let index : String → Option ℕ := fun name => if name = "a" then some 0 else some 1
  let rooms : List ZoneIn := [⟨none, none, none, none, some 20, 50⟩, ⟨none, none, none, none, some 20, 80⟩]
  let spaces : String → Option ℝ := fun name => (index name).bind fun i => (rooms[i]?).bind fun z => z.temp
  have sides : sideTemperatures examplePane r w.tOut spaces = .ok (20, 20) := by
    have e1 : spaces "a" = some 20 := rfl
    have e2 : spaces "b" = some 20 := rfl
    simp [sideTemperatures, temperatureAt, boundaryTemperature, examplePane, exampleWall, e1, e2, Outcome.bind]
  have sun : absorbedSun examplePane r 2 = .ok [0, 0] := by
    simp [absorbedSun, examplePane, exampleWall, solarIrradiance, r, scaleList, addAssign]
  have border : ∀ x y : ℝ, borderConditions examplePane { r with front := x, back := y } 20 20 w.windDirection w.windSpeed =
      .ok ((⟨20, 0, 20, x, 1, 0⟩, 1), (⟨20, 0, 20, y, 1, 0⟩, 1)) := fun x y => rfl
  have hrad : radHs 0.9 ⟨20, 0, 20, 21, 1, 0⟩ = R := hr
  have march : examplePane.march 1e-9 cav r 20 20 w.windDirection w.windSpeed dt mem = .ok ⟨[], [m'], [20 + e', 20 + e']⟩ := by
    have hb := border 21 21
    have v1' : marchNomass 1e-9 cav examplePane.segments [21, 21] [0, 0] ⟨20, 20⟩ 1 R ⟨20, 20⟩ 1 R 0 2 m = .ok ([20 + e', 20 + e'], m') := by
      have e : (20 : ℝ) + 1 = 21 := by norm_num
      rw [e] at v1
      exact v1
    unfold Surf.march
    rw [a3, show ([21, 21] : List ℝ).length = 2 from rfl, sun]
    simp only [Outcome.bind]
    rw [show borderConditions examplePane r 20 20 w.windDirection w.windSpeed = _ from hb]
    simp only [show examplePane.frontEmissivity = 0.9 from rfl, show examplePane.backEmissivity = 0.9 from rfl, hrad, hm, hmass,
      show examplePane.nomassChunks = [(0, 2)] from rfl, show examplePane.massiveChunks = [] from rfl, ConvectionParams.env]
    rw [chunksLoop]
    simp only [v1', Outcome.bind, chunksLoop]
  have step : (⟨examplePane, r, mem⟩ : Part).step 1e-9 cav index spaces w.tOut w.windDirection w.windSpeed dt =
      .ok (⟨examplePane, { r with front := 20 + e', back := 20 + e' }, ⟨[], [m'], [20 + e', 20 + e']⟩⟩,
        (⟨examplePane, r, mem⟩ : Part).toZones index ⟨[20 + e', 20 + e'], 1, 1, (20 + e' - 20) * 1, (20 + e' - 20) * 1⟩) := by
    unfold Part.step Surf.step
    simp only [sides, Outcome.bind, march, List.head?_cons, List.getLast?_cons_cons, List.getLast?_singleton]
    rw [border (20 + e') (20 + e')]
    rfl
  obtain ⟨r2, r1, r3, r4⟩ := zoneLoop_some 2 rooms 0 ([0, 0], [0, 0]) rfl rfl (by simp [rooms]) (by simp [rooms])
  obtain ⟨ab, s1, s2, s3⟩ := surfaceLoop_some (20 + e') 2
    [(⟨examplePane, r, mem⟩ : Part).toZones index ⟨[20 + e', 20 + e'], 1, 1, (20 + e' - 20) * 1, (20 + e' - 20) * 1⟩] r2.1 r3 r4.1
    (fun x hx => by
      obtain rfl := List.mem_singleton.1 hx
      refine ⟨rfl, rfl, rfl, rfl, fun i hi => ?_, fun i hi => ?_⟩ <;> cases hi
      · exact ⟨0, rfl, by norm_num⟩
      · exact ⟨1, rfl, by norm_num⟩)
  obtain ⟨u, u1, u2, -⟩ := futureTemps_some [20, 20] ab.1 ab.2 r2.2 dt 2 rfl s2 s3 r4.2 (fun _ => True) (fun _ _ => trivial) 2 0 rfl
  let st : HeatState := ⟨rooms, [], [], [], [⟨examplePane, r, mem⟩]⟩
  have zones : zonesStep ⟨[], [], rooms, [],
      [(⟨examplePane, r, mem⟩ : Part).toZones index ⟨[20 + e', 20 + e'], 1, 1, (20 + e' - 20) * 1, (20 + e' - 20) * 1⟩]⟩ dt = .ok u := by
    unfold zonesStep calculateAbc
    simp only [addPowers, Outcome.bind]
    rw [show currentTemps rooms = .ok [20, 20] from rfl, show List.replicate rooms.length (0 : ℝ) = [0, 0] from rfl, r1]
    simp only [show ∀ x : List ℝ × List ℝ, surfaceLoop [] x = .ok x from fun _ => rfl]
    rw [s1]
    exact u1
  refine ⟨st, { st with
      rooms := List.zipWith (fun z t => { z with temp := some t }) rooms u
      fenestrations := [⟨examplePane, { r with front := 20 + e', back := 20 + e' }, ⟨[], [m'], [20 + e', 20 + e']⟩⟩] },
    rfl, by simp [st, rooms], rfl, rfl, rfl, by simp [nodes, st, a3], ?_, ?_, _, List.mem_singleton_self _, ?_⟩
  · intro p hp
    obtain rfl := List.mem_singleton.1 hp
    exact ⟨rfl, rfl, rfl, rfl⟩
  · unfold HeatState.step
    simp only [st, collect, Outcome.bind]
    rw [show (⟨examplePane, r, mem⟩ : Part).step 1e-9 cav index (fun name => (index name).bind fun i => (rooms[i]?).bind fun z => z.temp)
      w.tOut w.windDirection w.windSpeed dt = _ from step]
    simp only [List.map_nil, List.map_cons]
    rw [zones]
  · intro t ht
    simp only [List.mem_cons, List.not_mem_nil, or_false, or_self] at ht
    rw [ht]
    linarith

end

end Simple.Heat
