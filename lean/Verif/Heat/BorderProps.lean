import Mathlib.Tactic.NormNum
import Mathlib.Tactic.Linarith
import Mathlib.Tactic.Positivity
import Verif.Heat.ConvectionProps
import Verif.Heat.SurfaceModel

/-! # C86: what is on the two sides of a surface -/

namespace Simple.Heat

open Simple.Building Simple.Geometry

noncomputable section

namespace Spec

/-- Natural convection of the TARP model at a side that faces a direction whose cosine with the vertical is
`c` (positive facing up), at least 0.1; differences of temperature and cosines below 0.001 are taken as
zero. -/
def naturalFilm (air surface c : ℝ) : ℝ :=
  max 0.1 (if |air - surface| < 0.001 ∨ |c| < 0.001 then tarpNatural (air - surface) 0
    else tarpNatural (air - surface) c)

/-- TARP convection of an outdoor side: with that of the wind, which is half as strong on the lee. -/
def outdoorFilm (air surface c speed area perimeter : ℝ) (windward : Bool) : ℝ :=
  2.537 * (if windward then 1 else 0.5) * 1.67 * √(perimeter * speed / area) + naturalFilm air surface c

/-- A side of a surface. -/
structure Face where
  /-- What is there. -/
  boundary : Boundary ℝ
  /-- Temperature of the air of the space, or outdoors. -/
  nearby : ℝ
  /-- Temperature of the side itself. -/
  surface : ℝ
  /-- Infrared irradiance on it. -/
  ir : ℝ
  /-- Cosine between the vertical and the direction that the side faces. -/
  facing : ℝ
  /-- Whether the wind blows against it, and how fast. -/
  windward : Bool
  speed : ℝ
  area : ℝ
  perimeter : ℝ
  /-- Convection coefficient, if given. -/
  fixed : Option ℝ

/-- Temperature of the air at a side. -/
def Face.air (x : Face) : ℝ :=
  match x.boundary with
  | .ambientTemperature t => t
  | _ => x.nearby

/-- These are the conditions and the coefficient of a side. -/
structure Face.Has (x : Face) (env : ConvectionParams) (h : ℝ) : Prop where
  air : env.airTemperature = x.air
  surface : env.surfaceTemperature = x.surface
  /-- Outdoors, a black body at the radiant temperature emits the infrared irradiance. -/
  sky : x.boundary = .outdoor → sigma * (env.radTemperature + 273.15) ^ 4 = x.ir
  walls : x.boundary ≠ .outdoor → env.radTemperature = x.air
  film : h = x.fixed.getD (if x.boundary = .outdoor
    then outdoorFilm x.air x.surface x.facing x.speed x.area x.perimeter x.windward
    else naturalFilm x.air x.surface x.facing)

/-- The front of a surface faces the direction of its normal. -/
def front (s : Surf) (r : Readings) (tFront windDirection windSpeed : ℝ) : Face where
  boundary := s.frontBoundary
  nearby := tFront
  surface := r.front
  ir := r.irFront
  facing := s.cosTilt
  windward := Wind.isWindward windDirection s.cosTilt s.normal
  speed := windSpeed * s.windSpeedModifier
  area := s.area
  perimeter := s.perimeter
  fixed := s.frontHs

/-- The back of a surface faces the opposite direction. -/
def back (s : Surf) (r : Readings) (tBack windDirection windSpeed : ℝ) : Face where
  boundary := s.backBoundary
  nearby := tBack
  surface := r.back
  ir := r.irBack
  facing := -s.cosTilt
  windward := Wind.isWindward windDirection (-s.cosTilt) ⟨-s.normal.x, -s.normal.y, -s.normal.z⟩
  speed := windSpeed * s.windSpeedModifier
  area := s.area
  perimeter := s.perimeter
  fixed := s.backHs

end Spec

open Spec

theorem natural_film (p : ConvectionParams) :
    p.natural = .ok (naturalFilm p.airTemperature p.surfaceTemperature (-p.cosSurfaceTilt)) := by
  rw [C31_natural, naturalFilm, abs_neg]

theorem tarp_film (p : ConvectionParams) (hr : p.roughnessIndex = 1) (area perimeter : ℝ) (windward : Bool) :
    p.tarp area perimeter windward
      = .ok (outdoorFilm p.airTemperature p.surfaceTemperature (-p.cosSurfaceTilt) p.airSpeed area perimeter
          windward) := by
  obtain ⟨hn, h1, h2⟩ := C31_forced_partial p area perimeter windward 1 hr
  rw [natural_film] at h1
  cases h1
  rw [h2]
  simp [outdoorFilm]

theorem sigma_pos : 0 < sigma := by unfold sigma; norm_num

theorem radiant_sky (ir : ℝ) (h : 0 ≤ ir) :
    sigma * ((ir / sigma) ^ (0.25 : ℝ) - 273.15 + 273.15) ^ 4 = ir := by
  have hs := sigma_pos
  rw [sub_add_cancel, ← Real.rpow_natCast, ← Real.rpow_mul (by positivity)]
  norm_num
  field_simp

theorem orElse_ok (fixed : Option ℝ) (h : ℝ) : orElse fixed (.ok h) = .ok (fixed.getD h) := by
  cases fixed <;> rfl

theorem film_vertical (air surface c c' : ℝ) (h : |c| < 0.001) (h' : |c'| < 0.001) :
    naturalFilm air surface c = naturalFilm air surface c' := by
  unfold naturalFilm
  rw [if_pos (Or.inr h), if_pos (Or.inr h')]

/-- C86: in front of a surface that leads to a space, to air at a given temperature or outdoors are the
conditions of that side.  The part that is missing, the coefficient of sides which do not lead outdoors and
are not vertical, is false: `C86_violated_front`. -/
theorem C86_front_partial (s : Surf) (r : Readings) (tFront tBack windDirection windSpeed : ℝ)
    (hg : s.frontBoundary ≠ .ground) (ha : s.frontBoundary ≠ .adiabatic) (hir : 0 ≤ r.irFront)
    (hf : s.frontBoundary = .outdoor ∨ s.frontHs.isSome ∨ |s.cosTilt| < 0.001) :
    ∃ env h, frontConditions s r tFront tBack windDirection windSpeed = .ok (env, h) ∧
      (front s r tFront windDirection windSpeed).Has env h := by
  have film : ∀ air surface : ℝ, s.frontBoundary ≠ .outdoor →
      s.frontHs.getD (naturalFilm air surface (-s.cosTilt)) = s.frontHs.getD (naturalFilm air surface s.cosTilt) := by
    intro air surface ho
    rcases hf with h | h | h
    · exact absurd h ho
    · obtain ⟨v, hv⟩ := Option.isSome_iff_exists.1 h
      rw [hv]; rfl
    · rw [film_vertical _ _ (-s.cosTilt) s.cosTilt (by rwa [abs_neg]) h]
  unfold frontConditions
  cases hb : s.frontBoundary with
  | ground => exact absurd hb hg
  | adiabatic => exact absurd hb ha
  | outdoor =>
    simp only [tarp_film, orElse_ok, Outcome.bind]
    refine ⟨_, _, rfl, ?_, rfl, fun _ => radiant_sky _ hir, fun h => absurd hb h, ?_⟩
    · simp [front, Face.air, hb]
    · simp [front, Face.air, hb]
  | space name =>
    simp only [natural_film, orElse_ok, Outcome.bind]
    refine ⟨_, _, rfl, ?_, rfl, fun h => ?_, fun _ => ?_, ?_⟩
    · simp [front, Face.air, hb]
    · simp [front, hb] at h
    · simp [front, Face.air, hb]
    · rw [film _ _ (by rw [hb]; simp)]
      simp [front, Face.air, hb]
  | ambientTemperature t =>
    simp only [natural_film, orElse_ok, Outcome.bind]
    refine ⟨_, _, rfl, ?_, rfl, fun h => ?_, fun _ => ?_, ?_⟩
    · simp [front, Face.air, hb]
    · simp [front, hb] at h
    · simp [front, Face.air, hb]
    · rw [film _ _ (by rw [hb]; simp)]
      simp [front, Face.air, hb]

/-- C86: behind a surface that leads to a space, to air at a given temperature or outdoors are the
conditions of that side, for all tilts.  Two parts are missing, as they are false: air at a given temperature
next to a surface whose sides are not equally warm (`C86_violated_back_ambient`), and the wind, unless the
surface is close to horizontal or there is none (`C86_violated_back_wind`). -/
theorem C86_back_partial (s : Surf) (r : Readings) (f : ConvectionParams × ℝ)
    (tBack windDirection windSpeed : ℝ)
    (hg : s.backBoundary ≠ .ground) (ha : s.backBoundary ≠ .adiabatic) (hir : 0 ≤ r.irBack)
    (ht : (∃ t, s.backBoundary = .ambientTemperature t) → r.front = r.back)
    (hw : s.backBoundary = .outdoor → s.backHs.isSome ∨ 0.98 ≤ |s.cosTilt| ∨ windSpeed = 0) :
    ∃ env h, backConditions s r f tBack windDirection windSpeed = .ok (env, h) ∧
      (back s r tBack windDirection windSpeed).Has env h := by
  unfold backConditions
  cases hb : s.backBoundary with
  | ground => exact absurd hb hg
  | adiabatic => exact absurd hb ha
  | outdoor =>
    simp only [tarp_film, orElse_ok, Outcome.bind]
    refine ⟨_, _, rfl, ?_, rfl, fun _ => radiant_sky _ hir, fun h => absurd hb h, ?_⟩
    · simp [back, Face.air, hb]
    · rcases hw hb with h | h | h
      · obtain ⟨v, hv⟩ := Option.isSome_iff_exists.1 h
        simp [back, hv]
      · have e1 : Wind.isWindward windDirection s.cosTilt s.normal = true := by
          unfold Wind.isWindward; rw [if_neg (by linarith)]
        have e2 : Wind.isWindward windDirection (-s.cosTilt) ⟨-s.normal.x, -s.normal.y, -s.normal.z⟩ = true := by
          unfold Wind.isWindward; rw [abs_neg, if_neg (by linarith)]
        simp [back, Face.air, hb, e1, e2]
      · simp [back, Face.air, hb, outdoorFilm, h]
  | space name =>
    simp only [natural_film, orElse_ok, Outcome.bind]
    refine ⟨_, _, rfl, ?_, rfl, fun h => ?_, fun _ => ?_, ?_⟩
    · simp [back, Face.air, hb]
    · simp [back, hb] at h
    · simp [back, Face.air, hb]
    · simp [back, Face.air, hb]
  | ambientTemperature t =>
    simp only [natural_film, orElse_ok, Outcome.bind]
    have := ht ⟨t, hb⟩
    refine ⟨_, _, rfl, ?_, ?_, fun h => ?_, fun _ => ?_, ?_⟩
    · simp [back, Face.air, hb]
    · simpa [back] using this
    · simp [back, hb] at h
    · simp [back, Face.air, hb]
    · simp [back, Face.air, hb, this]

/-- C86: an adiabatic back has the conditions of the front, and an adiabatic front those of a room at the
temperature behind, in touch with the back of the surface. -/
theorem C86_adiabatic (s : Surf) (r : Readings) (tFront tBack windDirection windSpeed : ℝ) :
    (s.backBoundary = .adiabatic → ∀ f, backConditions s r f tBack windDirection windSpeed = .ok f) ∧
    (s.frontBoundary = .adiabatic →
      ∃ env, frontConditions s r tFront tBack windDirection windSpeed
          = .ok (env, s.frontHs.getD (naturalFilm tBack r.back (-s.cosTilt))) ∧
        env.airTemperature = tBack ∧ env.radTemperature = tBack ∧ env.surfaceTemperature = r.back) := by
  constructor
  · intro h f
    unfold backConditions
    rw [h]
  · intro h
    unfold frontConditions
    rw [h]
    simp only [natural_film, orElse_ok, Outcome.bind]
    exact ⟨_, rfl, rfl, rfl, rfl⟩

/-- C86: the ground on any side is a panic, whatever the rest. -/
theorem C86_ground (s : Surf) (r : Readings) (tFront tBack windDirection windSpeed tOut : ℝ)
    (spaces : String → Option ℝ) :
    (s.frontBoundary = .ground → borderConditions s r tFront tBack windDirection windSpeed = .panic ∧
      sideTemperatures s r tOut spaces = .panic) ∧
    (s.backBoundary = .ground → sideTemperatures s r tOut spaces = .panic) := by
  constructor
  · intro h
    unfold borderConditions frontConditions sideTemperatures
    rw [h]
    exact ⟨rfl, rfl⟩
  · intro h
    unfold sideTemperatures
    rw [h]
    cases hb : s.frontBoundary <;> simp only [temperatureAt, boundaryTemperature, Outcome.bind]
    cases spaces _ <;> simp only

/-- C86: outdoors is at the temperature outdoors, a space at that of its air, and air at a given
temperature at that one; an adiabatic back at that of the front. -/
theorem C86_temperatures (s : Surf) (r : Readings) (tOut : ℝ) (spaces : String → Option ℝ) (tf tb : ℝ)
    (h : sideTemperatures s r tOut spaces = .ok (tf, tb)) :
    (match s.frontBoundary with
      | .outdoor => tf = tOut
      | .space name => spaces name = some tf
      | .ambientTemperature t => tf = t
      | .adiabatic => tf = r.back
      | .ground => False) ∧
    (match s.backBoundary with
      | .outdoor => tb = tOut
      | .space name => spaces name = some tb
      | .ambientTemperature t => tb = t
      | .adiabatic => tb = tf
      | .ground => False) := by
  have unspace : ∀ (name : String) (t : ℝ), boundaryTemperature (.space name) tOut spaces = .ok t →
      spaces name = some t := by
    intro name t ht
    unfold boundaryTemperature at ht
    cases e : spaces name with
    | none => simp [e] at ht
    | some v => simp only [e, Outcome.ok.injEq] at ht; rw [ht]
  have hbind : ∀ {α β : Type} {x : Outcome α} {f : α → Outcome β} {b : β}, x.bind f = .ok b →
      ∃ a, x = .ok a ∧ f a = .ok b := by
    intro α β x f b hx
    cases x with
    | ok a => exact ⟨a, rfl, hx⟩
    | err => cases hx
    | panic => cases hx
  unfold sideTemperatures at h
  obtain ⟨tf', h1, h2⟩ := hbind h
  obtain ⟨tb', h3, h4⟩ := hbind h2
  simp only [Outcome.ok.injEq, Prod.mk.injEq] at h4
  obtain ⟨rfl, rfl⟩ := h4
  constructor
  · cases hb : s.frontBoundary with
    | outdoor => rw [hb] at h1; simpa [temperatureAt, boundaryTemperature, eq_comm] using h1
    | ground => rw [hb] at h1; cases h1
    | space name => rw [hb] at h1; exact unspace _ _ h1
    | ambientTemperature t => rw [hb] at h1; simpa [temperatureAt, boundaryTemperature, eq_comm] using h1
    | adiabatic => rw [hb] at h1; simpa [temperatureAt, eq_comm] using h1
  · cases hb : s.backBoundary with
    | outdoor => rw [hb] at h3; simpa [temperatureAt, boundaryTemperature, eq_comm] using h3
    | ground => rw [hb] at h3; cases h3
    | space name => rw [hb] at h3; exact unspace _ _ h3
    | ambientTemperature t => rw [hb] at h3; simpa [temperatureAt, boundaryTemperature, eq_comm] using h3
    | adiabatic => rw [hb] at h3; simpa [temperatureAt, eq_comm] using h3

/-- C86: the heat that the radiative coefficient gives is that of Stefan and Boltzmann, but for the square
of half the difference of the temperatures over their mean: for 20 degrees around room temperature, a
thousandth. -/
theorem C86_radiation (emissivity : ℝ) (env : ConvectionParams)
    (hm : 0 < env.radTemperature + 273.15) (hs : 0 < env.surfaceTemperature + 273.15) :
    emissivity * sigma * ((env.radTemperature + 273.15) ^ 4 - (env.surfaceTemperature + 273.15) ^ 4)
      = radHs emissivity env * (env.radTemperature - env.surfaceTemperature) *
        (1 + ((env.radTemperature - env.surfaceTemperature) / 2 /
          ((env.radTemperature + 273.15 + (env.surfaceTemperature + 273.15)) / 2)) ^ 2) := by
  have : env.radTemperature + 273.15 + (env.surfaceTemperature + 273.15) ≠ 0 := by positivity
  unfold radHs
  field_simp
  ring

/-! ## Where it fails -/

private theorem tarp_down (d c : ℝ) (h : d * c < 0) : tarpNatural d c = 9.482 * |d| ^ (1 / 3 : ℝ) / (7.238 - |c|) := by
  unfold tarpNatural
  rw [if_neg h.ne, if_pos h]

private theorem tarp_up (d c : ℝ) (h : 0 < d * c) : tarpNatural d c = 1.81 * |d| ^ (1 / 3 : ℝ) / (1.382 + |c|) := by
  unfold tarpNatural
  rw [if_neg h.ne', if_neg (not_lt.2 h.le)]

/-- C86 fails: the front of a floor at 21 degrees, with a room at 20 above, gets the coefficient of a
ceiling (0.76) instead of that of a floor (1.52).  The same surface turned around gets the right one. -/
theorem C86_violated_front (s : Surf) (r : Readings) (name : String) (tBack windDirection windSpeed : ℝ)
    (hb : s.frontBoundary = .space name) (hc : s.cosTilt = 1) (hh : s.frontHs = none) (hr : r.front = 21) :
    (∃ env, frontConditions s r 20 tBack windDirection windSpeed = .ok (env, 1.81 / 2.382)) ∧
    naturalFilm 20 21 s.cosTilt = 9.482 / 6.238 := by
  constructor
  · unfold frontConditions
    rw [hb]
    simp only [natural_film, orElse_ok, Outcome.bind, hh, hc, hr, Option.getD_none]
    refine ⟨_, congrArg Outcome.ok (Prod.ext rfl ?_)⟩
    show naturalFilm 20 21 (-1) = 1.81 / 2.382
    unfold naturalFilm
    rw [if_neg (by norm_num), tarp_up _ _ (by norm_num)]
    norm_num
  · unfold naturalFilm
    rw [hc, if_neg (by norm_num), tarp_down _ _ (by norm_num)]
    norm_num

/-- C86 fails: behind a vertical surface that is at 20 degrees like the air there, the coefficient depends
on the other side of the surface: if that one is at 28, it is 2.62 instead of 0.1. -/
theorem C86_violated_back_ambient (s : Surf) (r : Readings) (f : ConvectionParams × ℝ)
    (tBack windDirection windSpeed : ℝ)
    (hb : s.backBoundary = .ambientTemperature 20) (hc : s.cosTilt = 0) (hh : s.backHs = none)
    (hr : r.front = 28) :
    (∃ env, backConditions s r f tBack windDirection windSpeed = .ok (env, 2.62)) ∧
    naturalFilm 20 20 (-s.cosTilt) = 0.1 := by
  constructor
  · unfold backConditions
    rw [hb]
    simp only [natural_film, orElse_ok, Outcome.bind, hh, hc, hr, Option.getD_none]
    refine ⟨_, congrArg Outcome.ok (Prod.ext rfl ?_)⟩
    show naturalFilm 20 28 (-0) = 2.62
    unfold naturalFilm tarpNatural
    rw [if_pos (by norm_num), if_pos (by norm_num)]
    have : (|(20 : ℝ) - 28|) ^ (1 / 3 : ℝ) = 2 := by
      rw [show |(20 : ℝ) - 28| = 2 ^ (3 : ℝ) by norm_num, ← Real.rpow_mul (by norm_num)]
      norm_num
    rw [this]
    norm_num
  · unfold naturalFilm tarpNatural
    rw [if_pos (by norm_num), if_pos (by norm_num)]
    norm_num

/-- C86 fails: when the wind blows against the back of a vertical surface (the front faces north, the wind
comes from the south) the back is taken to be on the lee. -/
theorem C86_violated_back_wind (s : Surf) (r : Readings) (f : ConvectionParams × ℝ) (tBack windSpeed : ℝ)
    (hb : s.backBoundary = .outdoor) (hc : s.cosTilt = 0) (hn : s.normal = ⟨0, 1, 0⟩) (hh : s.backHs = none)
    (hw : 0 < windSpeed * s.windSpeedModifier) (ha : 0 < s.area) (hp : 0 < s.perimeter) :
    (back s r tBack Real.pi windSpeed).windward = true ∧
    ∃ env h, backConditions s r f tBack Real.pi windSpeed = .ok (env, h) ∧
      h = outdoorFilm tBack r.back 0 (windSpeed * s.windSpeedModifier) s.area s.perimeter false ∧
      h < outdoorFilm tBack r.back 0 (windSpeed * s.windSpeedModifier) s.area s.perimeter true := by
  have lee : Wind.isWindward Real.pi 0 s.normal = false := by
    unfold Wind.isWindward
    rw [hn, if_pos (by norm_num)]
    simp [V3.dot]
  constructor
  · unfold back Wind.isWindward
    rw [hc, hn, if_pos (by norm_num)]
    simp [V3.dot]
  · unfold backConditions
    rw [hb]
    simp only [tarp_film, orElse_ok, Outcome.bind, hh, lee, Option.getD_none, hc, neg_zero]
    refine ⟨_, _, rfl, rfl, ?_⟩
    have : 0 < √(s.perimeter * (windSpeed * s.windSpeedModifier) / s.area) := Real.sqrt_pos.2 (by positivity)
    unfold outdoorFilm
    simp only [if_true, Bool.false_eq_true, if_false]
    nlinarith

/-! ## Examples -/

/-- A roof: outdoors in front, a room behind. -/
def exampleRoof : Surf where
  frontBoundary := .outdoor
  backBoundary := .space "attic"
  cosTilt := 0.8
  normal := ⟨0, 0.6, 0.8⟩
  area := 20
  perimeter := 18
  windSpeedModifier := 0.9
  frontHs := none
  backHs := none
  frontEmissivity := 0.9
  backEmissivity := 0.84
  frontAlphas := [0.7, 0]
  backAlphas := [0, 0.7]
  segments := []
  massiveChunks := []
  nomassChunks := [(0, 2)]

example (tOut tRoom wind speed : ℝ) :
    let r : Readings := ⟨30, 25, 350, 440, some 500, none⟩
    sideTemperatures exampleRoof r tOut (fun _ => some tRoom) = .ok (tOut, tRoom) ∧
    (∃ env h, frontConditions exampleRoof r tOut tRoom wind speed = .ok (env, h) ∧
      (front exampleRoof r tOut wind speed).Has env h) ∧
    ∀ f, ∃ env h, backConditions exampleRoof r f tRoom wind speed = .ok (env, h) ∧
      (back exampleRoof r tRoom wind speed).Has env h := by
  refine ⟨rfl, ?_, fun f => ?_⟩
  · exact C86_front_partial _ _ _ _ _ _ (by simp [exampleRoof]) (by simp [exampleRoof]) (by norm_num)
      (Or.inl rfl)
  · exact C86_back_partial _ _ _ _ _ _ (by simp [exampleRoof]) (by simp [exampleRoof]) (by norm_num)
      (fun ⟨t, h⟩ => by simp [exampleRoof] at h) (fun h => by simp [exampleRoof] at h)

end
end Simple.Heat
