import Mathlib.Data.List.Forall2
import Verif.Heat.BorderProps
import Verif.Heat.MarchProps
import Verif.Heat.NomassProps
import Verif.Heat.ZoneProps

/-! # C87: surfaces and buildings at rest, and the heat that surfaces give -/

namespace Simple.Heat

open Simple.Building Simple.Geometry Simple.Matrix

noncomputable section

namespace Spec

/-- A wall all at `t` between the conditions `f` and `b`, of the conductances `U`. -/
def restWall (s : Surf) (t : ℝ) (U : ℕ → ℝ) (f b : ConvectionParams × ℝ) : Wall ℝ where
  N := s.segments.length
  T := fun _ => t
  U := U
  front := f.1.env
  frontHs := f.2
  frontRad := radHs s.frontEmissivity f.1
  back := b.1.env
  backHs := b.2
  backRad := radHs s.backEmissivity b.1

/-- The surface is put together properly: absorptances for all its nodes, chunks within them (of at least
two nodes if they have mass) and conductances `U` when all is at `t`. -/
structure Sound (s : Surf) (cav : CavityU ℝ) (t : ℝ) (U : ℕ → ℝ) : Prop where
  nodes : 0 < s.segments.length
  frontAlphas : s.frontAlphas.length = s.segments.length
  backAlphas : s.backAlphas.length = s.segments.length
  conductance : ∀ (i : ℕ) (x : ℝ × UValue ℝ), i + 1 < s.segments.length → s.segments[i]? = some x →
    x.2.uValue cav t t = .ok (U i)
  nomass : ∀ c ∈ s.nomassChunks, c.1 < c.2 ∧ c.2 ≤ s.segments.length
  massive : ∀ c ∈ s.massiveChunks, c.1 + 2 ≤ c.2 ∧ c.2 ≤ s.segments.length

/-- The memory fits the chunks of the surface. -/
structure Fitting (s : Surf) (mem : SurfaceMemory) : Prop where
  nomass : List.Forall₂ (fun c m => Ready (c.2 - c.1) m) s.nomassChunks mem.nomassChunks
  massive : List.Forall₂ (fun c m => Fits (c.2 - c.1) m) s.massiveChunks mem.massiveChunks

/-- All that the surface sees is at `t`, and it is dark. -/
structure Still (s : Surf) (r : Readings) (t : ℝ) : Prop where
  kelvin : -273.15 < t
  front : r.front = t
  back : r.back = t
  frontDark : r.solarFront = some 0 ∨ r.solarFront = none
  backDark : r.solarBack = some 0 ∨ r.solarBack = none
  frontGround : s.frontBoundary ≠ .ground
  backGround : s.backBoundary ≠ .ground
  frontSky : s.frontBoundary = .outdoor → r.irFront = sigma * (t + 273.15) ^ 4
  backSky : s.backBoundary = .outdoor → r.irBack = sigma * (t + 273.15) ^ 4
  frontAir : ∀ t', s.frontBoundary = .ambientTemperature t' → t' = t
  backAir : ∀ t', s.backBoundary = .ambientTemperature t' → t' = t

end Spec

open Spec

/-! ## The border -/

theorem sky_at (t : ℝ) (h : -273.15 < t) :
    ((sigma * (t + 273.15) ^ 4) / sigma) ^ (0.25 : ℝ) - 273.15 = t := by
  have hs := sigma_pos
  have ht : 0 < t + 273.15 := by linarith
  rw [mul_div_cancel_left₀ _ hs.ne', ← Real.rpow_natCast, ← Real.rpow_mul ht.le]
  norm_num

/-- What is in front of a surface where all is at `t`. -/
theorem front_still (s : Surf) (r : Readings) (t : ℝ) (h : Still s r t) (windDirection windSpeed : ℝ) :
    ∃ f, frontConditions s r t t windDirection windSpeed = .ok f ∧ f.1.env = ⟨t, t⟩ := by
  unfold frontConditions
  cases hb : s.frontBoundary with
  | ground => exact absurd hb h.frontGround
  | adiabatic => simp only [natural_film, orElse_ok, Outcome.bind]; exact ⟨_, rfl, rfl⟩
  | space name => simp only [natural_film, orElse_ok, Outcome.bind]; exact ⟨_, rfl, rfl⟩
  | ambientTemperature t' =>
    simp only [natural_film, orElse_ok, Outcome.bind]
    exact ⟨_, rfl, by simp [ConvectionParams.env, h.frontAir t' hb]⟩
  | outdoor =>
    simp only [tarp_film, orElse_ok, Outcome.bind]
    refine ⟨_, rfl, ?_⟩
    simp only [ConvectionParams.env, h.frontSky hb, sky_at t h.kelvin]

theorem back_still (s : Surf) (r : Readings) (t : ℝ) (h : Still s r t) (windDirection windSpeed : ℝ)
    (f : ConvectionParams × ℝ) (hf : f.1.env = ⟨t, t⟩) :
    ∃ b, backConditions s r f t windDirection windSpeed = .ok b ∧ b.1.env = ⟨t, t⟩ := by
  unfold backConditions
  cases hb : s.backBoundary with
  | ground => exact absurd hb h.backGround
  | adiabatic => exact ⟨f, rfl, hf⟩
  | space name => simp only [natural_film, orElse_ok, Outcome.bind]; exact ⟨_, rfl, rfl⟩
  | ambientTemperature t' =>
    simp only [natural_film, orElse_ok, Outcome.bind]
    exact ⟨_, rfl, by simp [ConvectionParams.env, h.backAir t' hb]⟩
  | outdoor =>
    simp only [tarp_film, orElse_ok, Outcome.bind]
    refine ⟨_, rfl, ?_⟩
    simp only [ConvectionParams.env, h.backSky hb, sky_at t h.kelvin]

theorem border_still (s : Surf) (r : Readings) (t : ℝ) (h : Still s r t) (windDirection windSpeed : ℝ) :
    ∃ f b, borderConditions s r t t windDirection windSpeed = .ok (f, b) ∧
      f.1.env = ⟨t, t⟩ ∧ b.1.env = ⟨t, t⟩ := by
  obtain ⟨f, h1, h2⟩ := front_still s r t h windDirection windSpeed
  obtain ⟨b, h3, h4⟩ := back_still s r t h windDirection windSpeed f h2
  refine ⟨f, b, ?_, h2, h4⟩
  unfold borderConditions
  rw [h1]
  simp only [Outcome.bind, h3]

/-! ## Chunks -/

theorem chunksLoop_rest (march : MarchChunk) (P : ℕ × ℕ → ChunkMemory ℝ → Prop) (temps : List ℝ) :
    ∀ (chunks : List (ℕ × ℕ)) (mems : List (ChunkMemory ℝ)),
    (∀ c ∈ chunks, ∀ m, P c m → ∃ m', march c.1 c.2 m temps = .ok (temps, m') ∧ P c m') →
    List.Forall₂ P chunks mems →
    ∃ mems', chunksLoop march chunks mems temps = .ok (temps, mems') ∧ List.Forall₂ P chunks mems'
  | [], mems, _, hm => by
    cases hm
    exact ⟨[], rfl, .nil⟩
  | c :: chunks, mems, hc, hm => by
    obtain ⟨m, mems, hm1, hm2, rfl⟩ := List.forall₂_cons_left_iff.1 hm
    obtain ⟨m', h1, h2⟩ := hc c (by simp) m hm1
    obtain ⟨mems', h3, h4⟩ := chunksLoop_rest march P temps chunks mems
      (fun c hcm => hc c (by simp [hcm])) hm2
    refine ⟨m' :: mems', ?_, .cons h2 h4⟩
    rw [chunksLoop, h1]
    simp only [Outcome.bind, h3]

theorem addAssign_zero : ∀ (a b : List ℝ) (n : ℕ), a.length = n → b.length = n →
    addAssign (scaleList a 0) (scaleList b 0) = (List.range n).map fun _ => (0 : ℝ)
  | [], [], n, h1, h2 => by subst h1; simp [scaleList, addAssign]
  | [], b :: l, n, h1, h2 => by subst h1; simp at h2
  | a :: l, [], n, h1, h2 => by subst h2; simp at h1
  | a :: l, b :: l', n, h1, h2 => by
    obtain ⟨n, rfl⟩ : ∃ k, n = k + 1 := ⟨l.length, by simp at h1; omega⟩
    have := addAssign_zero l l' n (by simpa using h1) (by simpa using h2)
    simp only [scaleList, List.map_cons, addAssign] at this ⊢
    rw [this]
    simp [List.map_const']
    rfl

theorem absorbed_dark (s : Surf) (r : Readings) (t : ℝ) (h : Still s r t) (n : ℕ)
    (hf : s.frontAlphas.length = n) (hb : s.backAlphas.length = n) :
    absorbedSun s r n = .ok ((List.range n).map fun _ => 0) := by
  have : solarIrradiance r = (0, 0) := by
    unfold solarIrradiance
    rcases h.frontDark with e1 | e1 <;> rcases h.backDark with e2 | e2 <;> rw [e1, e2] <;> simp
  unfold absorbedSun
  rw [if_pos hf, if_pos hb, this, addAssign_zero _ _ n hf hb]

/-- A surface at rest marches, and stays. -/
theorem march_still (s : Surf) (tiny : ℝ) (htiny : 0 < tiny) (cav : CavityU ℝ) (t : ℝ) (U : ℕ → ℝ)
    (hs : Sound s cav t U) (r : Readings) (h : Still s r t) (windDirection windSpeed dt : ℝ)
    (hreg : ∀ f b, borderConditions s r t t windDirection windSpeed = .ok (f, b) →
      ∀ c ∈ s.nomassChunks, (restWall s t U f b).Regular tiny c.1 (c.2 - c.1))
    (mem : SurfaceMemory) (hm : Fitting s mem) (ht : mem.temperatures = List.replicate s.segments.length t) :
    ∃ mem', s.march tiny cav r t t windDirection windSpeed dt mem = .ok mem' ∧
      mem'.temperatures = mem.temperatures ∧ Fitting s mem' := by
  obtain ⟨f, b, hx, hf, hb⟩ := border_still s r t h windDirection windSpeed
  have hw : (restWall s t U f b).Uniform t := by
    refine ⟨fun _ => rfl, ?_, ?_, ?_, ?_⟩ <;> simp [restWall, hf, hb]
  have htemps : mem.temperatures = (List.range s.segments.length).map fun _ => t := by
    rw [ht, List.map_const', List.length_range]
  have held : (restWall s t U f b).Held cav s.segments mem.temperatures :=
    ⟨rfl, htemps, fun i x h1 h2 => hs.conductance i x h1 h2⟩
  have hlen : mem.temperatures.length = s.segments.length := by rw [ht, List.length_replicate]
  have hsun := absorbed_dark s r t h s.segments.length hs.frontAlphas hs.backAlphas
  obtain ⟨nm, n1, n2⟩ := chunksLoop_rest
    (fun ini fin m x => marchNomass tiny cav s.segments x ((List.range s.segments.length).map fun _ => 0)
      f.1.env f.2 (radHs s.frontEmissivity f.1) b.1.env b.2 (radHs s.backEmissivity b.1) ini fin m)
    (fun c m => Ready (c.2 - c.1) m) mem.temperatures s.nomassChunks mem.nomassChunks
    (fun c hc m hr => by
      obtain ⟨h1, h2⟩ := hs.nomass c hc
      have := C85_remains tiny htiny (restWall s t U f b) cav s.segments mem.temperatures held c.1 (c.2 - c.1)
        (by omega) (by show c.1 + (c.2 - c.1) ≤ s.segments.length; omega) (hreg f b hx c hc) (fun _ => 0) m hr
        (fun g _ _ => by rw [heat_uniform _ t hw, add_zero])
      rwa [show c.1 + (c.2 - c.1) = c.2 by omega] at this) hm.nomass
  obtain ⟨mm, m1, m2⟩ := chunksLoop_rest
    (fun ini fin m x => marchMass cav s.segments x ((List.range s.segments.length).map fun _ => 0) dt
      f.1.env f.2 (radHs s.frontEmissivity f.1) b.1.env b.2 (radHs s.backEmissivity b.1) ini fin m)
    (fun c m => Fits (c.2 - c.1) m) mem.temperatures s.massiveChunks mem.massiveChunks
    (fun c hc m hr => by
      obtain ⟨h1, h2⟩ := hs.massive c hc
      obtain ⟨M0, hk⟩ := hr.k
      have := C29_march_rest (restWall s t U f b) t hw cav s.segments mem.temperatures held
        (fun i => (s.segments[i]?.map Prod.fst).getD 0) (fun i x hx => by simp only; rw [hx]; rfl) dt c.1 (c.2 - c.1)
        (by omega) (by show c.1 + (c.2 - c.1) ≤ s.segments.length; omega) m hr.sized hr.c hr.q M0 hk
      rwa [show c.1 + (c.2 - c.1) = c.2 by omega] at this) hm.massive
  refine ⟨⟨mm, nm, mem.temperatures⟩, ?_, rfl, n2, m2⟩
  unfold Surf.march
  rw [hlen, hsun, hx]
  simp only [Outcome.bind, n1, m1]

/-- C87: in the dark, a surface that is at the temperature of all that it sees stays there, and gives no heat to
the air.  Its memory is fit for the next step. -/
theorem C87_rest (s : Surf) (tiny : ℝ) (htiny : 0 < tiny) (cav : CavityU ℝ) (t : ℝ) (U : ℕ → ℝ)
    (hs : Sound s cav t U) (r : Readings) (h : Still s r t) (spaces : String → Option ℝ)
    (hspace : ∀ name, s.frontBoundary = .space name ∨ s.backBoundary = .space name → spaces name = some t)
    (windDirection windSpeed dt : ℝ)
    (hreg : ∀ f b, borderConditions s r t t windDirection windSpeed = .ok (f, b) →
      ∀ c ∈ s.nomassChunks, (restWall s t U f b).Regular tiny c.1 (c.2 - c.1))
    (mem : SurfaceMemory) (hm : Fitting s mem) (ht : mem.temperatures = List.replicate s.segments.length t) :
    ∃ w mem', s.step tiny cav r t spaces windDirection windSpeed dt mem = .ok (w, mem') ∧
      w.temperatures = mem.temperatures ∧ w.frontFlow = 0 ∧ w.backFlow = 0 ∧
      mem'.temperatures = mem.temperatures ∧ Fitting s mem' := by
  obtain ⟨mem', h1, h2, h3⟩ := march_still s tiny htiny cav t U hs r h windDirection windSpeed dt hreg mem hm ht
  obtain ⟨f, b, hx, -, -⟩ := border_still s r t h windDirection windSpeed
  have key : ∀ bd : Boundary ℝ, bd ≠ .ground → (∀ t', bd = .ambientTemperature t' → t' = t) →
      (∀ name, bd = .space name → spaces name = some t) → temperatureAt bd t t spaces = .ok t := by
    intro bd e1 e3 e4
    cases bd with
    | ground => exact absurd rfl e1
    | adiabatic => rfl
    | outdoor => rfl
    | space name => simp [temperatureAt, boundaryTemperature, e4 name rfl]
    | ambientTemperature t' => simp [temperatureAt, boundaryTemperature, e3 t' rfl]
  have sides : sideTemperatures s r t spaces = .ok (t, t) := by
    unfold sideTemperatures
    rw [h.back, key s.frontBoundary h.frontGround h.frontAir (fun name hn => hspace name (Or.inl hn))]
    simp only [Outcome.bind]
    rw [key s.backBoundary h.backGround h.backAir (fun name hn => hspace name (Or.inr hn))]
  obtain ⟨n, hn⟩ : ∃ n, s.segments.length = n + 1 := ⟨s.segments.length - 1, by have := hs.nodes; omega⟩
  have hhead : mem'.temperatures.head? = some t := by rw [h2, ht, hn]; rfl
  have hlast : mem'.temperatures.getLast? = some t := by
    rw [h2, ht, hn]; simp [List.getLast?_replicate]
  have hr : { r with front := t, back := t } = r := by
    cases r
    have e1 := h.front
    have e2 := h.back
    simp only at e1 e2
    subst e1
    rw [e2]
  refine ⟨⟨mem'.temperatures, f.2, b.2, 0, 0⟩, mem', ?_, h2, rfl, rfl, h2, h3⟩
  unfold Surf.step
  rw [sides]
  simp only [Outcome.bind, h1, hhead, hlast, hr, hx, sub_self, zero_mul]


/-! ## Memory -/

theorem fresh_fits (ini fin : ℕ) : ∃ m, ChunkMemory.fresh ini fin = .ok m ∧ Fits (fin - ini) m ∧
    Ready (fin - ini) m := by
  have hk : ∃ k : NDiag 3 ℝ, NDiag.new 3 (0 : ℝ) (fin - ini) (fin - ini) = .ok k ∧
      ∃ M : _root_.Matrix (Fin (fin - ini)) (Fin (fin - ini)) ℝ, NDiag.Rep k M := by
    obtain ⟨k, h1, h2⟩ := C10_violated_new (N := 3) (by norm_num) (0 : ℝ) (fin - ini) (fin - ini)
    have e : k.nrows = fin - ini ∧ k.ncols = fin - ini ∧ k.data.length = NDiag.accNInRow 3 (fin - ini) (fin - ini) := by
      unfold NDiag.new at h1
      rw [if_neg (by norm_num)] at h1
      cases h1
      simp
    refine ⟨k, h1, fun i j => if i.val ≤ j.val + 1 ∧ j.val ≤ i.val + 1
      then ((NDiag.accNInRow 3 i (fin - ini) + j - NDiag.zeroesBefore 3 i : ℕ) : ℝ) else 0, e.1, e.2.1, e.2.2, fun i j => ?_⟩
    by_cases c : i.val ≤ j.val + 1 ∧ j.val ≤ i.val + 1
    · rw [if_pos c]; exact h2 i j (by simpa using c)
    · rw [if_neg c]
      exact (C10_read_outside k i.val j.val).1 (by rw [e.1]; exact i.2) (by rw [e.2.1]; exact j.2) (by omega)
  obtain ⟨k, h1, M, h2⟩ := hk
  refine ⟨_, by unfold ChunkMemory.fresh; simp only [h1, Outcome.bind]; rfl, ⟨⟨?_, ?_, ?_, ?_, ?_, ?_⟩, ?_, ?_, M, h2⟩, ⟨M, h2⟩, ?_⟩ <;> simp

theorem collect_forall₂ {α β : Type} (f : α → Outcome β) (P : α → β → Prop) : ∀ l : List α,
    (∀ a ∈ l, ∃ b, f a = .ok b ∧ P a b) → ∃ r, collect f l = .ok r ∧ List.Forall₂ P l r
  | [], _ => ⟨[], rfl, .nil⟩
  | a :: l, h => by
    obtain ⟨b, h1, h2⟩ := h a (by simp)
    obtain ⟨r, h3, h4⟩ := collect_forall₂ f P l (fun a' ha => h a' (by simp [ha]))
    exact ⟨b :: r, by rw [collect, h1]; simp only [Outcome.bind, h3], .cons h2 h4⟩

/-- C87: the memory that is allocated for a surface fits it. -/
theorem C87_allocated (s : Surf) (temperatures : List ℝ) :
    ∃ mem, s.allocate temperatures = .ok mem ∧ Fitting s mem ∧ mem.temperatures = temperatures := by
  obtain ⟨mm, h1, h2⟩ := collect_forall₂ (fun c : ℕ × ℕ => ChunkMemory.fresh c.1 c.2)
    (fun c m => Fits (c.2 - c.1) m) s.massiveChunks (fun c _ => by
      obtain ⟨m, a, b, -⟩ := fresh_fits c.1 c.2
      exact ⟨m, a, b⟩)
  obtain ⟨nm, h3, h4⟩ := collect_forall₂ (fun c : ℕ × ℕ => ChunkMemory.fresh c.1 c.2)
    (fun c m => Ready (c.2 - c.1) m) s.nomassChunks (fun c _ => by
      obtain ⟨m, a, -, b⟩ := fresh_fits c.1 c.2
      exact ⟨m, a, b⟩)
  refine ⟨⟨mm, nm, temperatures⟩, ?_, ⟨h4, h2⟩, rfl⟩
  unfold Surf.allocate
  rw [h1]
  simp only [Outcome.bind, h3]

/-! ## Buildings -/

namespace Spec

/-- A surface or fenestration at rest at `t`, whatever weather of `W` comes: put together properly, all that it
sees at `t`, memory that fits, and the spaces next to it are among the `n` of the building. -/
structure PartAtRest (p : Part) (tiny : ℝ) (cav : CavityU ℝ) (t : ℝ) (index : String → Option ℕ) (n : ℕ)
    (W : Set StepWeather) (U : ℕ → ℝ) : Prop where
  sound : Sound p.surf cav t U
  still : Still p.surf p.readings t
  fitting : Fitting p.surf p.mem
  temperatures : p.mem.temperatures = List.replicate p.surf.segments.length t
  regular : ∀ w ∈ W, ∀ f b,
    borderConditions p.surf p.readings t t w.windDirection w.windSpeed = .ok (f, b) →
      ∀ c ∈ p.surf.nomassChunks, (restWall p.surf t U f b).Regular tiny c.1 (c.2 - c.1)
  spaces : ∀ name, p.surf.frontBoundary = .space name ∨ p.surf.backBoundary = .space name →
    ∃ i, index name = some i ∧ i < n

/-- A building at rest at `t`: its rooms are at `t` and so is the air that enters them, if any, nothing heats them, and
all surfaces and fenestrations are at rest. -/
structure AtRest (st : HeatState) (tiny : ℝ) (cav : CavityU ℝ) (t : ℝ) (index : String → Option ℕ)
    (W : Set StepWeather) : Prop where
  rooms : ∀ z ∈ st.rooms, z.temp = some t ∧
    (∀ t', z.infTemp = some t' → ∃ v, z.infVolume = some v ∧ (t' = t ∨ v = 0)) ∧
    (∀ t', z.ventTemp = some t' → ∃ v, z.ventVolume = some v ∧ (t' = t ∨ v = 0))
  hvacs : ∀ x ∈ st.hvacs, x.1 < st.rooms.length ∧ x.2 = some 0
  luminaires : ∀ x ∈ st.luminaires, x.1 < st.rooms.length ∧ x.2 = some 0
  surfaces : ∀ p ∈ st.surfaces, ∃ U, PartAtRest p tiny cav t index st.rooms.length W U
  fenestrations : ∀ p ∈ st.fenestrations, ∃ U, PartAtRest p tiny cav t index st.rooms.length W U

/-- A surface, as seen by the zones, at `t`. -/
structure InAtRest (x : SurfaceIn) (t : ℝ) (n : ℕ) : Prop where
  hFront : x.hFront.isSome
  hBack : x.hBack.isSome
  frontTemp : x.frontTemp = t
  backTemp : x.backTemp = t
  front : ∀ i, x.front = .space i → ∃ j, i = some j ∧ j < n
  back : ∀ i, x.back = .space i → ∃ j, i = some j ∧ j < n

end Spec

theorem addAt_some {l : List ℝ} {i : ℕ} (v : ℝ) (h : i < l.length) :
    ∃ l', addAt l i v = .ok l' ∧ l'.length = l.length :=
  ⟨_, by unfold addAt; rw [if_pos h], by simp⟩

theorem addPowers_some (missing : Outcome (List ℝ)) (n : ℕ) : ∀ (l : List (ℕ × Option ℝ)) (a : List ℝ),
    a.length = n → (∀ x ∈ l, x.1 < n ∧ x.2.isSome) →
    ∃ a', addPowers missing l a = .ok a' ∧ a'.length = n
  | [], a, ha, _ => ⟨a, rfl, ha⟩
  | (i, none) :: l, a, _, h => by have := (h (i, none) (by simp)).2; simp at this
  | (i, some p) :: l, a, ha, h => by
    obtain ⟨a1, h1, h2⟩ := addAt_some (l := a) p (by rw [ha]; exact (h (i, some p) (by simp)).1)
    obtain ⟨a', h3, h4⟩ := addPowers_some missing n l a1 (by rw [h2, ha]) (fun x hx => h x (by simp [hx]))
    exact ⟨a', by rw [addPowers, h1]; exact h3, h4⟩

theorem addFlow_some (i : ℕ) (temp volume : Option ℝ) (ab : List ℝ × List ℝ) (n : ℕ)
    (h1 : ab.1.length = n) (h2 : ab.2.length = n) (hi : i < n) (h : temp.isSome → volume.isSome) :
    ∃ ab', addFlow i temp volume ab = .ok ab' ∧ ab'.1.length = n ∧ ab'.2.length = n := by
  unfold addFlow
  cases temp with
  | none => exact ⟨ab, rfl, h1, h2⟩
  | some t =>
    obtain ⟨v, hv⟩ := Option.isSome_iff_exists.1 (h rfl)
    rw [hv]
    obtain ⟨a, a1, a2⟩ := addAt_some (l := ab.1) (i := i)
      (air.density (t + 273.15) * v * evalPoly air.heatCapacity (t + 273.15) * t) (by omega)
    obtain ⟨b, b1, b2⟩ := addAt_some (l := ab.2) (i := i)
      (air.density (t + 273.15) * v * evalPoly air.heatCapacity (t + 273.15)) (by omega)
    refine ⟨(a, b), ?_, by simp only; omega, by simp only; omega⟩
    simp only [a1, b1, Outcome.bind]

theorem zoneLoop_some (n : ℕ) : ∀ (l : List ZoneIn) (i : ℕ) (ab : List ℝ × List ℝ),
    ab.1.length = n → ab.2.length = n → i + l.length ≤ n →
    (∀ z ∈ l, z.temp.isSome ∧ (z.infTemp.isSome → z.infVolume.isSome) ∧ (z.ventTemp.isSome → z.ventVolume.isSome)) →
    ∃ r, zoneLoop i l ab = .ok r ∧ r.1.1.length = n ∧ r.1.2.length = n ∧ r.2.length = l.length
  | [], i, ab, h1, h2, _, _ => ⟨(ab, []), rfl, h1, h2, rfl⟩
  | z :: l, i, ab, h1, h2, hi, h => by
    simp only [List.length_cons] at hi
    obtain ⟨z1, z2, z3⟩ := h z (by simp)
    obtain ⟨ab1, a1, a2, a3⟩ := addFlow_some i z.infTemp z.infVolume ab n h1 h2 (by omega) z2
    obtain ⟨ab2, b1, b2, b3⟩ := addFlow_some i z.ventTemp z.ventVolume ab1 n a2 a3 (by omega) z3
    obtain ⟨r, r1, r2, r3, r4⟩ := zoneLoop_some n l (i + 1) ab2 b2 b3 (by omega) (fun x hx => h x (by simp [hx]))
    obtain ⟨t, ht⟩ := Option.isSome_iff_exists.1 z1
    refine ⟨(r.1, mcp z.volume t :: r.2), ?_, r2, r3, by simp [r4]⟩
    rw [zoneLoop, a1]
    simp only [Outcome.bind, b1, ht, r1]

theorem addSide_some (side : Side) (h area temp : ℝ) (ab : List ℝ × List ℝ) (n : ℕ)
    (h1 : ab.1.length = n) (h2 : ab.2.length = n) (hs : ∀ i, side = .space i → ∃ j, i = some j ∧ j < n) :
    ∃ ab', addSide side h area temp ab = .ok ab' ∧ ab'.1.length = n ∧ ab'.2.length = n := by
  cases side with
  | other => exact ⟨ab, rfl, h1, h2⟩
  | space i =>
    obtain ⟨j, rfl, hj⟩ := hs i rfl
    obtain ⟨a, a1, a2⟩ := addAt_some (l := ab.1) (i := j) (h * area * temp) (by omega)
    obtain ⟨b, b1, b2⟩ := addAt_some (l := ab.2) (i := j) (h * area) (by omega)
    refine ⟨(a, b), ?_, by simp only; omega, by simp only; omega⟩
    simp only [addSide, a1, b1, Outcome.bind]

theorem surfaceLoop_some (t : ℝ) (n : ℕ) : ∀ (l : List SurfaceIn) (ab : List ℝ × List ℝ),
    ab.1.length = n → ab.2.length = n → (∀ x ∈ l, InAtRest x t n) →
    ∃ ab', surfaceLoop l ab = .ok ab' ∧ ab'.1.length = n ∧ ab'.2.length = n
  | [], ab, h1, h2, _ => ⟨ab, rfl, h1, h2⟩
  | x :: l, ab, h1, h2, h => by
    have hx := h x (by simp)
    obtain ⟨hf, e1⟩ := Option.isSome_iff_exists.1 hx.hFront
    obtain ⟨hb, e2⟩ := Option.isSome_iff_exists.1 hx.hBack
    obtain ⟨ab1, a1, a2, a3⟩ := addSide_some x.front hf x.area x.frontTemp ab n h1 h2 hx.front
    obtain ⟨ab2, b1, b2, b3⟩ := addSide_some x.back hb x.area x.backTemp ab1 n a2 a3 hx.back
    obtain ⟨ab', r1, r2, r3⟩ := surfaceLoop_some t n l ab2 b2 b3 (fun y hy => h y (by simp [hy]))
    refine ⟨ab', ?_, r2, r3⟩
    rw [surfaceLoop, e1, e2]
    simp only [a1, b1, Outcome.bind, r1]

theorem currentTemps_at (t : ℝ) : ∀ l : List ZoneIn, (∀ z ∈ l, z.temp = some t) →
    currentTemps l = .ok (List.replicate l.length t)
  | [], _ => rfl
  | z :: l, h => by
    rw [currentTemps, h z (by simp), currentTemps_at t l (fun x hx => h x (by simp [hx]))]
    rfl

theorem futureTemps_at (t : ℝ) (a b c : List ℝ) (dt : ℝ) (n : ℕ) (ha : a.length = n) (hb : b.length = n)
    (hc : c.length = n) (h : ∀ i, i < n → a.getD i 0 - b.getD i 0 * t = 0) : ∀ (k i : ℕ), i + k = n →
    futureTemps (List.replicate n t) a b c dt k i = .ok (List.replicate k t)
  | 0, i, _ => rfl
  | k + 1, i, hk => by
    rw [futureTemps, Outcome.index_of_lt (by simp; omega), Outcome.index_of_lt (by omega : i < a.length),
      Outcome.index_of_lt (by omega : i < b.length), Outcome.index_of_lt (by omega : i < c.length)]
    simp only [Outcome.bind]
    rw [futureTemps_at t a b c dt n ha hb hc h k (i + 1) (by omega)]
    simp only [List.getElem_replicate]
    have := h i (by omega)
    rw [List.getD_eq_getElem?_getD, List.getD_eq_getElem?_getD, List.getElem?_eq_getElem (by omega : i < a.length),
      List.getElem?_eq_getElem (by omega : i < b.length), Option.getD_some, Option.getD_some] at this
    rw [((C30_flow t _ _ _ dt 0).2.1 this).1]
    rfl

theorem power_zero (z n : ℕ) : ∀ l : List (ℕ × Option ℝ), (∀ x ∈ l, x.1 < n ∧ x.2 = some 0) → power z l = 0
  | [], _ => rfl
  | x :: l, h => by
    have := power_zero z n l (fun y hy => h y (by simp [hy]))
    unfold power at this ⊢
    rw [List.map_cons, List.sum_cons, this, (h x (by simp)).2]
    simp

theorem surfaceHeat_zero (z n : ℕ) (t : ℝ) : ∀ l : List SurfaceIn, (∀ x ∈ l, InAtRest x t n) →
    surfaceHeat z l t = 0
  | [], _ => rfl
  | x :: l, h => by
    have := surfaceHeat_zero z n t l (fun y hy => h y (by simp [hy]))
    have hx := h x (by simp)
    have side : ∀ (s : Side) (o : Option ℝ) (a : ℝ), sideHeat z s o a t t = 0 := by
      intro s o a
      unfold sideHeat
      split <;> simp
    unfold surfaceHeat at this ⊢
    rw [List.map_cons, List.sum_cons, this, hx.frontTemp, hx.backTemp, side, side]
    simp

/-- Zones at rest keep their temperatures. -/
theorem zones_rest (x : Inputs) (t : ℝ) (dt : ℝ)
    (hz : ∀ z ∈ x.zones, z.temp = some t ∧
      (∀ t', z.infTemp = some t' → ∃ v, z.infVolume = some v ∧ (t' = t ∨ v = 0)) ∧
      (∀ t', z.ventTemp = some t' → ∃ v, z.ventVolume = some v ∧ (t' = t ∨ v = 0)))
    (hh : ∀ y ∈ x.hvacs, y.1 < x.zones.length ∧ y.2 = some 0)
    (hl : ∀ y ∈ x.luminaires, y.1 < x.zones.length ∧ y.2 = some 0)
    (hs : ∀ y ∈ x.surfaces, InAtRest y t x.zones.length)
    (hf : ∀ y ∈ x.fenestrations, InAtRest y t x.zones.length) :
    zonesStep x dt = .ok (List.replicate x.zones.length t) := by
  obtain ⟨a1, p1, p2⟩ := addPowers_some .err x.zones.length x.hvacs (List.replicate x.zones.length 0) (by simp)
    (fun y hy => ⟨(hh y hy).1, by rw [(hh y hy).2]; rfl⟩)
  obtain ⟨a2, q1, q2⟩ := addPowers_some .panic x.zones.length x.luminaires a1 p2
    (fun y hy => ⟨(hl y hy).1, by rw [(hl y hy).2]; rfl⟩)
  obtain ⟨r, r1, r2, r3, r4⟩ := zoneLoop_some x.zones.length x.zones 0 (a2, List.replicate x.zones.length 0) q2
    (by simp) (by omega) (fun z h => by
      obtain ⟨e1, e2, e3⟩ := hz z h
      refine ⟨by rw [e1]; rfl, fun h => ?_, fun h => ?_⟩
      · obtain ⟨t', ht⟩ := Option.isSome_iff_exists.1 h
        obtain ⟨v, hv, -⟩ := e2 t' ht
        rw [hv]; rfl
      · obtain ⟨t', ht⟩ := Option.isSome_iff_exists.1 h
        obtain ⟨v, hv, -⟩ := e3 t' ht
        rw [hv]; rfl)
  obtain ⟨ab1, s1, s2, s3⟩ := surfaceLoop_some t x.zones.length x.surfaces r.1 r2 r3 hs
  obtain ⟨ab2, f1, f2, f3⟩ := surfaceLoop_some t x.zones.length x.fenestrations ab1 s2 s3 hf
  have habc : calculateAbc x = .ok ((ab2.1, ab2.2), r.2) := by
    unfold calculateAbc
    rw [p1]
    simp only [Outcome.bind, q1, r1, s1, f1]
  obtain ⟨-, -, -, bal⟩ := C30_balance x ab2.1 ab2.2 r.2 habc
  have flow : ∀ temp volume : Option ℝ, (∀ t', temp = some t' → ∃ v, volume = some v ∧ (t' = t ∨ v = 0)) → flowHeat temp volume t = 0 := by
    intro temp volume h
    cases temp with
    | none => rfl
    | some t' =>
      cases volume with
      | none => rfl
      | some v =>
        obtain ⟨v', e, hv⟩ := h t' rfl
        cases e
        rcases hv with rfl | rfl <;> simp [flowHeat]
  unfold zonesStep
  rw [currentTemps_at t x.zones (fun z h => (hz z h).1), habc]
  simp only [Outcome.bind]
  rw [futureTemps_at t ab2.1 ab2.2 r.2 dt x.zones.length f2 f3 r4 (fun i hi => ?_) x.zones.length 0 (by omega)]
  obtain ⟨hb, -⟩ := bal i x.zones[i] (List.getElem?_eq_getElem hi)
  obtain ⟨-, e2, e3⟩ := hz x.zones[i] (List.getElem_mem hi)
  rw [hb t, heat, power_zero _ _ _ hh, power_zero _ _ _ hl, surfaceHeat_zero _ _ _ _ hs,
    surfaceHeat_zero _ _ _ _ hf, flow _ _ e2, flow _ _ e3]
  simp

/-- A part at rest stays, and leaves `t` for the zones. -/
theorem part_rest (p : Part) (tiny : ℝ) (htiny : 0 < tiny) (cav : CavityU ℝ) (t : ℝ) (index : String → Option ℕ)
    (n : ℕ) (W : Set StepWeather) (U : ℕ → ℝ) (h : PartAtRest p tiny cav t index n W U)
    (spaces : String → Option ℝ) (hspace : ∀ name i, index name = some i → i < n → spaces name = some t)
    (w : StepWeather) (hw : w ∈ W) (hout : w.tOut = t) (dt : ℝ) :
    ∃ q, p.step tiny cav index spaces w.tOut w.windDirection w.windSpeed dt = .ok q ∧
      q.1.surf = p.surf ∧ q.1.readings = p.readings ∧ q.1.mem.temperatures = p.mem.temperatures ∧
      PartAtRest q.1 tiny cav t index n W U ∧ InAtRest q.2 t n := by
  obtain ⟨wr, mem', h1, h2, -, -, h5, h6⟩ := C87_rest p.surf tiny htiny cav t U h.sound p.readings h.still spaces
    (fun name hn => by
      obtain ⟨i, hi, hin⟩ := h.spaces name hn
      exact hspace name i hi hin) w.windDirection w.windSpeed dt (h.regular w hw) p.mem h.fitting h.temperatures
  obtain ⟨k, hk⟩ : ∃ k, p.surf.segments.length = k + 1 :=
    ⟨p.surf.segments.length - 1, by have := h.sound.nodes; omega⟩
  have hhead : wr.temperatures.head?.getD 0 = t := by rw [h2, h.temperatures, hk]; rfl
  have hlast : wr.temperatures.getLast?.getD 0 = t := by
    rw [h2, h.temperatures, hk]; simp [List.getLast?_replicate]
  have hr : { p.readings with front := t, back := t } = p.readings := by
    have e1 := h.still.front
    have e2 := h.still.back
    generalize p.readings = r at *
    cases r
    simp only at e1 e2
    subst e1
    rw [e2]
  have side : ∀ b : Boundary ℝ, (∀ name, b = .space name → ∃ i, index name = some i ∧ i < n) →
      ∀ i, sideOf index b = .space i → ∃ j, i = some j ∧ j < n := by
    intro b hb i hi
    cases b with
    | space name =>
      obtain ⟨j, hj, hjn⟩ := hb name rfl
      simp only [sideOf, Side.space.injEq] at hi
      exact ⟨j, by rw [← hi, hj], hjn⟩
    | _ => simp [sideOf] at hi
  refine ⟨({ p with readings := p.readings, mem := mem' }, p.toZones index wr), ?_, rfl, rfl, h5, ?_, ?_⟩
  · unfold Part.step
    rw [hout, h1]
    simp only [Outcome.bind, hhead, hlast, hr]
  · exact ⟨h.sound, h.still, h6, h5.trans h.temperatures, h.regular, h.spaces⟩
  · exact ⟨rfl, rfl, hhead, hlast, side _ (fun name hb => h.spaces name (Or.inl hb)),
      side _ (fun name hb => h.spaces name (Or.inr hb))⟩

theorem forall₂_map_eq {α β γ : Type} {P : α → β → Prop} {f : α → γ} {g : β → γ} :
    ∀ {l : List α} {r : List β}, List.Forall₂ P l r → (∀ a b, P a b → g b = f a) → r.map g = l.map f
  | _, _, .nil, _ => rfl
  | _, _, .cons h t, hp => by rw [List.map_cons, List.map_cons, hp _ _ h, forall₂_map_eq t hp]

theorem forall₂_right {α β : Type} {P : α → β → Prop} {Q : β → Prop} {l : List α} {r : List β}
    (h : List.Forall₂ P l r) (hq : ∀ a b, P a b → Q b) : ∀ b ∈ r, Q b := by
  induction h with
  | nil => simp
  | cons h _ ih =>
    intro b hb
    rcases List.mem_cons.1 hb with rfl | hb
    · exact hq _ _ h
    · exact ih b hb

/-- What a user sees of the parts: their temperatures. -/
def Spec.nodes (l : List Part) : List (List ℝ) := l.map fun p => p.mem.temperatures

/-- A step of a building at rest. -/
theorem step_rest (st : HeatState) (tiny : ℝ) (htiny : 0 < tiny) (cav : CavityU ℝ) (t : ℝ)
    (index : String → Option ℕ) (W : Set StepWeather) (h : AtRest st tiny cav t index W)
    (w : StepWeather) (hw : w ∈ W) (hout : w.tOut = t) (dt : ℝ) :
    ∃ st', st.step tiny cav index w dt = .ok st' ∧ AtRest st' tiny cav t index W ∧ st'.rooms = st.rooms ∧
      nodes st'.surfaces = nodes st.surfaces ∧ nodes st'.fenestrations = nodes st.fenestrations := by
  have hspace : ∀ name i, index name = some i → i < st.rooms.length →
      ((index name).bind fun i => (st.rooms[i]?).bind fun z => z.temp) = some t := by
    intro name i h1 h2
    rw [h1]
    simp only [Option.bind_some, List.getElem?_eq_getElem h2]
    exact (h.rooms _ (List.getElem_mem h2)).1
  have parts : ∀ l : List Part, (∀ p ∈ l, ∃ U, PartAtRest p tiny cav t index st.rooms.length W U) →
      ∃ r, collect (fun p : Part => p.step tiny cav index
          (fun name => (index name).bind fun i => (st.rooms[i]?).bind fun z => z.temp)
          w.tOut w.windDirection w.windSpeed dt) l = .ok r ∧
        List.Forall₂ (fun (p : Part) (q : Part × SurfaceIn) => q.1.mem.temperatures = p.mem.temperatures ∧
          (∃ U, PartAtRest q.1 tiny cav t index st.rooms.length W U) ∧ InAtRest q.2 t st.rooms.length) l r := by
    intro l hl
    apply collect_forall₂
    intro p hp
    obtain ⟨U, hU⟩ := hl p hp
    obtain ⟨q, q1, -, -, q4, q5, q6⟩ := part_rest p tiny htiny cav t index st.rooms.length W U hU
      (fun name => (index name).bind fun i => (st.rooms[i]?).bind fun z => z.temp) hspace w hw hout dt
    exact ⟨q, q1, q4, ⟨U, q5⟩, q6⟩
  obtain ⟨rs, s1, s2⟩ := parts st.surfaces h.surfaces
  obtain ⟨rf, f1, f2⟩ := parts st.fenestrations h.fenestrations
  have hz := zones_rest ⟨st.hvacs, st.luminaires, st.rooms, rs.map Prod.snd, rf.map Prod.snd⟩ t dt h.rooms h.hvacs h.luminaires
    (fun y hy => by
      obtain ⟨q, hq, rfl⟩ := List.mem_map.1 hy
      exact forall₂_right s2 (Q := fun q => InAtRest q.2 t st.rooms.length) (fun _ _ h => h.2.2) q hq)
    (fun y hy => by
      obtain ⟨q, hq, rfl⟩ := List.mem_map.1 hy
      exact forall₂_right f2 (Q := fun q => InAtRest q.2 t st.rooms.length) (fun _ _ h => h.2.2) q hq)
  have rooms : ∀ l : List ZoneIn, (∀ z ∈ l, z.temp = some t) →
      List.zipWith (fun (z : ZoneIn) (t : ℝ) => { z with temp := some t }) l (List.replicate l.length t) = l := by
    intro l
    induction l with
    | nil => intro _; rfl
    | cons z l ih =>
      intro hl
      rw [List.length_cons, List.replicate_succ, List.zipWith_cons_cons, ih (fun x hx => hl x (by simp [hx]))]
      congr 1
      have := hl z (by simp)
      cases z
      simp only at this
      rw [this]
  have hrooms := rooms st.rooms (fun z hz => (h.rooms z hz).1)
  refine ⟨{ st with surfaces := rs.map Prod.fst, fenestrations := rf.map Prod.fst }, ?_, ?_, rfl, ?_, ?_⟩
  · unfold HeatState.step
    simp only
    rw [s1]
    simp only [Outcome.bind]
    rw [f1]
    simp only
    rw [hz]
    simp only
    rw [hrooms]
  · refine ⟨h.rooms, h.hvacs, h.luminaires, ?_, ?_⟩
    · intro p hp
      obtain ⟨q, hq, rfl⟩ := List.mem_map.1 hp
      exact forall₂_right s2 (Q := fun q => ∃ U, PartAtRest q.1 tiny cav t index st.rooms.length W U)
        (fun _ _ h => h.2.1) q hq
    · intro p hp
      obtain ⟨q, hq, rfl⟩ := List.mem_map.1 hp
      exact forall₂_right f2 (Q := fun q => ∃ U, PartAtRest q.1 tiny cav t index st.rooms.length W U)
        (fun _ _ h => h.2.1) q hq
  · unfold nodes
    rw [List.map_map]
    exact forall₂_map_eq s2 (fun _ _ h => h.1)
  · unfold nodes
    rw [List.map_map]
    exact forall₂_map_eq f2 (fun _ _ h => h.1)

/-- C87: a building at rest, in the dark and without any heating, stays as it is however many steps go by and
however the wind blows: the rooms and all the nodes of its surfaces and fenestrations keep their temperature. -/
theorem C87_building (tiny : ℝ) (htiny : 0 < tiny) (cav : CavityU ℝ) (t : ℝ)
    (index : String → Option ℕ) (W : Set StepWeather) (dt : ℝ) : ∀ (ws : List StepWeather) (st : HeatState),
    AtRest st tiny cav t index W → (∀ w ∈ ws, w ∈ W ∧ w.tOut = t) →
    ∃ st', HeatState.march tiny cav index dt ws st = .ok st' ∧ AtRest st' tiny cav t index W ∧
      st'.rooms = st.rooms ∧
      nodes st'.surfaces = nodes st.surfaces ∧ nodes st'.fenestrations = nodes st.fenestrations
  | [], st, h, _ => ⟨st, rfl, h, rfl, rfl, rfl⟩
  | w :: ws, st, h, hw => by
    obtain ⟨st1, h1, h2, h3, h4, h5⟩ := step_rest st tiny htiny cav t index W h w (hw w (by simp)).1
      (hw w (by simp)).2 dt
    obtain ⟨st2, k1, k2, k3, k4, k5⟩ := C87_building tiny htiny cav t index W dt ws st1 h2
      (fun x hx => hw x (by simp [hx]))
    exact ⟨st2, by rw [HeatState.march, h1]; exact k1, k2, k3.trans h3, k4.trans h4, k5.trans h5⟩

/-! ## The heat that a surface gives -/

/-- C87: the heat flow that is reported for each side is the reported coefficient times how much warmer the
reported temperature of the side is than the air there. -/
theorem C87_flows (s : Surf) (tiny : ℝ) (cav : CavityU ℝ) (r : Readings) (tOut : ℝ) (spaces : String → Option ℝ)
    (windDirection windSpeed dt : ℝ) (mem mem' : SurfaceMemory) (w : Written)
    (h : s.step tiny cav r tOut spaces windDirection windSpeed dt mem = .ok (w, mem')) :
    ∃ tf tb tsf tsb, sideTemperatures s r tOut spaces = .ok (tf, tb) ∧
      w.temperatures.head? = some tsf ∧ w.temperatures.getLast? = some tsb ∧
      w.frontFlow = w.frontHs * (tsf - tf) ∧ w.backFlow = w.backHs * (tsb - tb) ∧
      ∃ ef eb, borderConditions s { r with front := tsf, back := tsb } tf tb windDirection windSpeed
        = .ok ((ef, w.frontHs), (eb, w.backHs)) := by
  unfold Surf.step at h
  cases h1 : sideTemperatures s r tOut spaces with
  | err => rw [h1] at h; cases h
  | panic => rw [h1] at h; cases h
  | ok t =>
    rw [h1] at h
    simp only [Outcome.bind] at h
    cases h2 : s.march tiny cav r t.1 t.2 windDirection windSpeed dt mem with
    | err => rw [h2] at h; cases h
    | panic => rw [h2] at h; cases h
    | ok m =>
      rw [h2] at h
      simp only at h
      cases e1 : m.temperatures.head? with
      | none => rw [e1] at h; cases h
      | some tsf =>
        cases e2 : m.temperatures.getLast? with
        | none => rw [e1, e2] at h; cases h
        | some tsb =>
          rw [e1, e2] at h
          simp only at h
          cases h3 : borderConditions s { r with front := tsf, back := tsb } t.1 t.2 windDirection windSpeed with
          | err => rw [h3] at h; cases h
          | panic => rw [h3] at h; cases h
          | ok x =>
            rw [h3] at h
            cases h
            exact ⟨t.1, t.2, tsf, tsb, rfl, e1, e2, mul_comm _ _, mul_comm _ _, x.1.1, x.2.1, h3⟩

/-- C87: a negative irradiance in front, or one that is not a number, counts as none.

Missing: the back of the surface (`C87_violated_back_sun`). -/
theorem C87_front_sun_partial (r : Readings) :
    (solarIrradiance r).1 = max 0 (r.solarFront.getD 0) := by
  unfold solarIrradiance
  cases r.solarFront with
  | none => simp
  | some v =>
    simp only [Option.getD_some]
    by_cases h : v < 0
    · rw [if_pos h, max_eq_left h.le]
    · rw [if_neg h, max_eq_right (not_lt.1 h)]

/-- C87 fails: a negative irradiance behind is not replaced, whatever there is in front; so the sun cools the
surface. -/
theorem C87_violated_back_sun (r : Readings) (v : ℝ) (h : r.solarBack = some v) :
    (solarIrradiance r).2 = v := by
  have h1 := C87_front_sun_partial r
  have h0 : 0 ≤ (solarIrradiance r).1 := by rw [h1]; exact le_max_left _ _
  unfold solarIrradiance at h0 ⊢
  simp only [h] at h0 ⊢
  rw [if_neg (not_lt.2 h0)]

/-- C87 fails: heat is lost between a surface and the room in front of it.  The first node loses, to a room that
is at `T`, what the room receives *and* the radiation, which no one receives. -/
theorem C87_violated_radiation_lost (s : Surf) (name : String) (hb : s.frontBoundary = .space name)
    (he : 0 < s.frontEmissivity) (ha : 0 < s.area) (r : Readings) (T tBack windDirection windSpeed : ℝ)
    (hT : -273.15 < T) (hr : -273.15 < r.front) (hne : r.front ≠ T) (cav : CavityU ℝ) (rest : List ℝ) (z : ℕ)
    (ab ab' : List ℝ × List ℝ) (env : ConvectionParams) (h : ℝ) (hc : frontConditions s r T tBack windDirection windSpeed = .ok (env, h))
    (hz : addSide (.space (some z)) h s.area r.front ab = .ok ab') :
    ∃ c q, frontBorder cav s.segments (r.front :: rest) 0 env.env h (radHs s.frontEmissivity env) = .ok (c, q) ∧
      s.area * (c * r.front - q) - ((ab'.1.getD z 0 - ab'.2.getD z 0 * T) - (ab.1.getD z 0 - ab.2.getD z 0 * T))
        = s.area * radHs s.frontEmissivity env * (r.front - T) ∧
      s.area * radHs s.frontEmissivity env * (r.front - T) ≠ 0 := by
  have henv : env.env = ⟨T, T⟩ ∧ env.surfaceTemperature = r.front := by
    unfold frontConditions at hc
    rw [hb] at hc
    simp only [natural_film, orElse_ok, Outcome.bind] at hc
    cases hc
    exact ⟨rfl, rfl⟩
  obtain ⟨e1, e2⟩ := henv
  have hrad : env.radTemperature = T := congrArg Env.radTemperature e1
  have hpos : 0 < radHs s.frontEmissivity env := by
    unfold radHs
    have := sigma_pos
    have h3 : 0 < 273.15 + (env.radTemperature + env.surfaceTemperature) / 2 := by
      rw [hrad, e2]; linarith
    positivity
  have hgain : (ab'.1.getD z 0 - ab'.2.getD z 0 * T) - (ab.1.getD z 0 - ab.2.getD z 0 * T)
      = h * s.area * (r.front - T) := by
    unfold addSide addAt at hz
    simp only at hz
    by_cases i1 : z < ab.1.length
    · by_cases i2 : z < ab.2.length
      · rw [if_pos i1, if_pos i2] at hz
        simp only [Outcome.bind] at hz
        cases hz
        simp only [List.getD_eq_getElem?_getD, List.getElem?_modify, List.getElem?_eq_getElem i1,
          List.getElem?_eq_getElem i2]
        simp
        ring
      · rw [if_pos i1, if_neg i2] at hz; cases hz
    · rw [if_neg i1] at hz; cases hz
  refine ⟨_, _, by unfold frontBorder; rw [if_pos rfl]; rfl, ?_, ?_⟩
  · rw [hgain, e1]
    ring
  · exact mul_ne_zero (mul_pos ha hpos).ne' (sub_ne_zero.2 hne)

/-! ## Examples -/

/-- A wall of two nodes with mass between two rooms, and a door without mass to the outdoors. -/
def exampleWall : Surf where
  frontBoundary := .space "a"
  backBoundary := .space "b"
  cosTilt := 0
  normal := ⟨0, 1, 0⟩
  area := 12
  perimeter := 14
  windSpeedModifier := 1
  frontHs := none
  backHs := none
  frontEmissivity := 0.9
  backEmissivity := 0.9
  frontAlphas := [0.7, 0]
  backAlphas := [0, 0.7]
  segments := [(50000, .solid 2), (50000, .back)]
  massiveChunks := [(0, 2)]
  nomassChunks := []

def exampleDoor : Surf :=
  { exampleWall with
    backBoundary := .outdoor, frontHs := some 10, backHs := some 10,
    segments := [(0, .solid 2), (0, .back)], massiveChunks := [], nomassChunks := [(0, 2)] }

def exampleReadings : Readings := ⟨20, 20, 0, sigma * (20 + 273.15) ^ 4, some 0, some 0⟩

theorem exampleWall_rest (cav : CavityU ℝ) (index : String → Option ℕ) (n : ℕ)
    (hi : ∀ name, ∃ i, index name = some i ∧ i < n) (mem : SurfaceMemory)
    (hm : exampleWall.allocate [20, 20] = .ok mem) (W : Set StepWeather) :
    PartAtRest ⟨exampleWall, exampleReadings, mem⟩ 1e-9 cav 20 index n W (fun _ => 2) := by
  obtain ⟨mem', h1, h2, h3⟩ := C87_allocated exampleWall [20, 20]
  rw [hm] at h1
  cases h1
  refine ⟨⟨by simp [exampleWall], rfl, rfl, ?_, by simp [exampleWall], by simp [exampleWall]⟩, ?_, h2, ?_, ?_, fun name _ => hi name⟩
  · intro i x hi hx
    have : i = 0 := by simp [exampleWall] at hi; omega
    subst this
    simp only [exampleWall, List.getElem?_cons_zero, Option.some.injEq] at hx
    rw [← hx]; rfl
  · refine ⟨by norm_num, rfl, rfl, Or.inl rfl, Or.inl rfl, ?_, ?_, ?_, ?_, ?_, ?_⟩ <;> simp [exampleWall]
  · show mem.temperatures = _
    rw [h3]; rfl
  · intro w _ f b _ c hc
    simp [exampleWall] at hc

theorem exampleDoor_rest (cav : CavityU ℝ) (index : String → Option ℕ) (n : ℕ)
    (hi : ∀ name, ∃ i, index name = some i ∧ i < n) (mem : SurfaceMemory)
    (hm : exampleDoor.allocate [20, 20] = .ok mem) (W : Set StepWeather) :
    PartAtRest ⟨exampleDoor, exampleReadings, mem⟩ 1e-9 cav 20 index n W (fun _ => 2) := by
  obtain ⟨mem', h1, h2, h3⟩ := C87_allocated exampleDoor [20, 20]
  rw [hm] at h1
  cases h1
  have still : Still exampleDoor exampleReadings 20 := by
    refine ⟨by norm_num, rfl, rfl, Or.inl rfl, Or.inl rfl, ?_, ?_, ?_, fun _ => rfl, ?_, ?_⟩ <;>
      simp [exampleDoor, exampleWall]
  refine ⟨⟨by simp [exampleDoor], rfl, rfl, ?_, by simp [exampleDoor], by simp [exampleDoor]⟩, still, h2, ?_, ?_, fun name _ => hi name⟩
  · intro i x hi hx
    have : i = 0 := by simp [exampleDoor] at hi; omega
    subst this
    simp only [exampleDoor, List.getElem?_cons_zero, Option.some.injEq] at hx
    rw [← hx]; rfl
  · show mem.temperatures = _
    rw [h3]; rfl
  · intro w _ f b hx c hc
    obtain ⟨f', b', e1, e2, e3⟩ := border_still exampleDoor exampleReadings 20 still w.windDirection w.windSpeed
    simp only at hx
    rw [e1] at hx
    cases hx
    have hf : f.2 = 10 ∧ f.1.surfaceTemperature = 20 ∧ b.2 = 10 ∧ b.1.surfaceTemperature = 20 := by
      unfold borderConditions frontConditions backConditions at e1
      simp only [exampleDoor, exampleWall, orElse, Outcome.bind] at e1
      cases e1
      exact ⟨rfl, rfl, rfl, rfl⟩
    obtain ⟨f1, f2, b1, b2⟩ := hf
    have r1 : f.1.radTemperature = 20 := congrArg Env.radTemperature e2
    have r2 : b.1.radTemperature = 20 := congrArg Env.radTemperature e3
    simp only [exampleDoor, List.mem_singleton] at hc
    subst hc
    have hR : (0 : ℝ) ≤ 4 * 0.9 * sigma * (273.15 + (20 + 20) / 2) ^ 3 ∧
        4 * 0.9 * sigma * (273.15 + (20 + 20) / 2) ^ 3 ≤ 10 := by
      unfold sigma; constructor <;> norm_num
    have e1 : (restWall exampleDoor 20 (fun _ => 2) f b).frontRad = 4 * 0.9 * sigma * (273.15 + (20 + 20) / 2) ^ 3 := by
      simp [restWall, radHs, f2, r1, exampleDoor, exampleWall]
    have e2 : (restWall exampleDoor 20 (fun _ => 2) f b).backRad = 4 * 0.9 * sigma * (273.15 + (20 + 20) / 2) ^ 3 := by
      simp [restWall, radHs, b2, r2, exampleDoor, exampleWall]
    refine ⟨?_, ?_, ?_, ?_, ?_, ?_⟩
    · simp [Wall.before, restWall, f1]
    · simp only [Wall.after, restWall, exampleDoor, b1]; norm_num
    · intro g _ _; simp only [restWall]; norm_num
    · rw [e1]; exact hR.1
    · rw [e2]; exact hR.1
    · intro g hg hg2
      have : g = 0 := by simp at hg2; omega
      subst this
      unfold Wall.radiative
      rw [e1, if_pos rfl, if_neg (by simp [restWall, exampleDoor]), add_zero]
      simp only [Wall.before, Wall.after, restWall, exampleDoor, f1]
      norm_num at hR ⊢
      linarith [hR.2]

/-- `C87_building` is not vacuous: two rooms with the wall between them and the door, in any wind. -/
example (cav : CavityU ℝ) (dt : ℝ) (ws : List StepWeather) (hw : ∀ w ∈ ws, w.tOut = 20) :
    ∃ st st' : HeatState, st.surfaces.length = 1 ∧ st.fenestrations.length = 1 ∧ st.rooms.length = 2 ∧
      nodes st.surfaces = [[20, 20]] ∧
      HeatState.march 1e-9 cav (fun name => if name = "a" then some 0 else some 1) dt ws st = .ok st' ∧
      st'.rooms = st.rooms ∧ nodes st'.surfaces = [[20, 20]] := by
  obtain ⟨m1, a1, -, a3⟩ := C87_allocated exampleWall [20, 20]
  obtain ⟨m2, b1, -, -⟩ := C87_allocated exampleDoor [20, 20]
  have hi : ∀ name : String, ∃ i, (if name = "a" then some 0 else some 1 : Option ℕ) = some i ∧ i < 2 := by
    intro name
    by_cases h : name = "a"
    · exact ⟨0, by rw [if_pos h], by norm_num⟩
    · exact ⟨1, by rw [if_neg h], by norm_num⟩
  let st : HeatState :=
    { rooms := [⟨some 20, some 0.1, none, none, some 20, 50⟩, ⟨none, none, none, none, some 20, 80⟩]
      hvacs := [(0, some 0)], luminaires := []
      surfaces := [⟨exampleWall, exampleReadings, m1⟩], fenestrations := [⟨exampleDoor, exampleReadings, m2⟩] }
  have hrest : AtRest st 1e-9 cav 20 (fun name => if name = "a" then some 0 else some 1) Set.univ := by
    refine ⟨?_, ?_, ?_, ?_, ?_⟩
    · intro z hz
      rcases List.mem_cons.1 hz with rfl | hz
      · exact ⟨rfl, fun t' h => ⟨_, rfl, .inl (Option.some.inj h).symm⟩, fun t' h => (by cases h)⟩
      · obtain rfl := List.mem_singleton.1 hz
        exact ⟨rfl, ⟨fun t' h => (by cases h), fun t' h => (by cases h)⟩⟩
    · intro x hx
      obtain rfl := List.mem_singleton.1 hx
      exact ⟨by norm_num [st], rfl⟩
    · intro x hx
      cases hx
    · intro p hp
      obtain rfl := List.mem_singleton.1 hp
      exact ⟨_, exampleWall_rest cav _ 2 hi m1 a1 _⟩
    · intro p hp
      obtain rfl := List.mem_singleton.1 hp
      exact ⟨_, exampleDoor_rest cav _ 2 hi m2 b1 _⟩
  obtain ⟨st', h1, -, h3, h4, -⟩ := C87_building 1e-9 (by norm_num) cav 20 _ Set.univ dt ws st hrest
    (fun w hm => ⟨Set.mem_univ _, hw w hm⟩)
  have hn : nodes st.surfaces = [[20, 20]] := by simp [nodes, st, a3]
  exact ⟨st, st', rfl, rfl, rfl, hn, h1, h3, h4.trans hn⟩

end
end Simple.Heat
