import Verif.Sim.PhysicsProps

/-! # C105: a whole simulation, controller and physics in turns -/

namespace Simple.Physics

open Wiring Wiring.Spec State Spec

noncomputable section

open Light.March.Spec (value Takes blackBody)

variable {calculated : Bool} {o o' : Objects} {h h' : Header ℚ} {terrain : Option Air.Terrain} {spaces : List Air.Space} {b : Models}

/-! ## What only the controller changes -/

namespace Spec

/-- The controller leaves the temperatures of nodes alone, and the number of values. -/
def SparesNodes (es : List Element) (control : List ℝ → Outcome (List ℝ)) : Prop :=
  ∀ st st', control st = .ok st' → st'.length = st.length ∧
    ∀ (kind : Kind) (i j k : ℕ), es[k]? = some (elementOf (.node kind i j)) → st'[k]? = st[k]?

end Spec

theorem bind_inv {α β : Type} {x : Outcome α} {f : α → Outcome β} {r : β} (h : x.bind f = .ok r) : ∃ a, x = .ok a ∧ f a = .ok r := by
  cases x with
  | ok a => exact ⟨a, rfl, h⟩
  | err => cases h
  | panic => cases h

theorem synced_of (hr : Ready calculated o o' h h' terrain spaces b) {mem : Heat.Whole.Memory} {st st2 : List ℝ}
    (hnode : ∀ (kind : Kind) (i j : ℕ) (k : ℕ), h'.elements[k]? = some (elementOf (.node kind i j)) → st2[k]? = st[k]?)
    (hs : Heat.Whole.Spec.Synced b.thermal mem st) : Heat.Whole.Spec.Synced b.thermal mem st2 :=
  ⟨nodes_synced hnode (fun tw ht => ⟨_, _, (at_surfaces hr tw ht).choose_spec.2⟩) hs.surfaces,
    nodes_synced hnode (fun tw ht => ⟨_, _, (at_fenestrations hr tw ht).choose_spec.2.2⟩) hs.fenestrations⟩

/-- **C105.**  In a whole simulation of any length, in any weather, a value that is not one of the physical quantities is what
the controller makes of it: what the controller preserves is preserved, and what it always sets is so in the end. -/
theorem C105_control (hr : Ready calculated o o' h h' terrain spaces b) (control : List ℝ → Outcome (List ℝ))
    (hc : SparesNodes h'.elements control) (k : ℕ) (hk : ∀ s, h'.elements[k]? ≠ some (elementOf s)) :
    ∀ (nows : List Moment), (∀ now ∈ nows, ∃ coefficients V, Lit o' b.solar coefficients now.sky V) →
    ∀ (mem mem' : Heat.Whole.Memory) (st st' : List ℝ), st.length = h'.elements.length → Heat.Whole.Spec.Synced b.thermal mem st →
    run b control nows mem st = .ok (mem', st') →
    (∀ P : Option ℝ → Prop, (∀ s s', control s = .ok s' → P s[k]? → P s'[k]?) → P st[k]? → P st'[k]?) ∧
    ∀ v, nows ≠ [] → (∀ s s', control s = .ok s' → s'[k]? = some v) → st'[k]? = some v
  | [], _, mem, mem', st, st', _, _, hx => by
    cases hx
    exact ⟨fun P _ h => h, fun v h => absurd rfl h⟩
  | now :: nows, hn, mem, mem', st, st', hl, hs, hx => by
    rw [run] at hx
    obtain ⟨st1, c1, hx⟩ := bind_inv hx
    obtain ⟨⟨mem2, st2⟩, c2, hx⟩ := bind_inv hx
    obtain ⟨c3, c4⟩ := hc st st1 c1
    obtain ⟨coefficients, V, hlit⟩ := hn now (by simp)
    obtain ⟨mid, -, s1, s2⟩ := C105_step hr coefficients now V hlit mem st1 (by rw [c3, hl]) (synced_of hr c4 hs)
    obtain ⟨hs', e⟩ := s2 _ c2
    obtain ⟨m3, s3, n1, -, n3, n4, -, n6⟩ := s1 hs' e
    rw [c2] at n1
    cases n1
    obtain ⟨q1, q2⟩ := C105_control hr control hc k hk nows (fun x hx => hn x (by simp [hx])) mem2 mem' st2 st' (by rw [n4, c3, hl]) n3 hx
    refine ⟨fun P hP h0 => q1 P hP ?_, fun v _ hv => ?_⟩
    · rw [n6 k hk]
      exact hP _ _ c1 h0
    · cases nows with
      | nil =>
        cases hx
        rw [n6 k hk]
        exact hv _ _ c1
      | cons a l => exact q2 v (by simp) hv

/-! ## A world at rest -/

namespace Spec

/-- What a thermal wall faces at a side. -/
def faces (s : Heat.Surf) : Side → Building.Boundary ℝ
  | .front => s.frontBoundary
  | .back => s.backBoundary

/-- The thermal walls of a kind. -/
def thermalWalls (m : Heat.Whole.ThermalModel) : Kind → List Heat.Whole.ThermalWall
  | .surface => m.surfaces
  | .fenestration => m.fenestrations

/-- A building that can be at rest at `t`, in the winds of `W`: its surfaces are put together properly, touch no ground nor
places at other temperatures, and their spaces are those of the building; sides that face the outdoors do so for the sun as
well, and the sky, the ground and the air are all that they see. -/
structure Calm (o' : Objects) (b : Models) (t : ℝ) (W : Set Heat.StepWeather) : Prop where
  tiny : 0 < b.tiny
  kelvin : -273.15 < t
  sound : ∀ kind, ∀ tw ∈ thermalWalls b.thermal kind, ∃ U, Heat.Spec.Sound tw.surf b.cav t U ∧
    ∀ r, Heat.Spec.Still tw.surf r t → ∀ w ∈ W, ∀ f c, Heat.borderConditions tw.surf r t t w.windDirection w.windSpeed = .ok (f, c) →
      ∀ x ∈ tw.surf.nomassChunks, (Heat.Spec.restWall tw.surf t U f c).Regular b.tiny x.1 (x.2 - x.1)
  nodes : ∀ kind, ∀ tw ∈ thermalWalls b.thermal kind, tw.surf.segments.length = tw.parent.nodes
  ground : ∀ kind, ∀ tw ∈ thermalWalls b.thermal kind, ∀ s, faces tw.surf s ≠ .ground
  ambient : ∀ kind, ∀ tw ∈ thermalWalls b.thermal kind, ∀ s t', faces tw.surf s = .ambientTemperature t' → t' = t
  spaces : ∀ kind, ∀ tw ∈ thermalWalls b.thermal kind, ∀ s name, faces tw.surf s = .space name →
    ∃ i, b.index name = some i ∧ i < b.thermal.rooms.length
  sky : ∀ kind, ∀ tw ∈ thermalWalls b.thermal kind, ∀ (i : ℕ) s, (walls o' kind)[i]? = some tw.parent → faces tw.surf s = .outdoor →
    b.lit.boundary kind i s = .outdoor ∧ ∃ v, (b.solar.info.viewFactors kind s)[i]? = some v ∧ v.sky + v.ground + v.air = 1
  appliances : ∀ a ∈ b.thermal.hvacs ++ b.thermal.luminaires, a.space < b.thermal.rooms.length

/-- A night at `t`, with the infrared radiation of a black body at `t`, and any wind of `W`. -/
structure CalmNight (t : ℝ) (W : Set Heat.StepWeather) (now : Moment) : Prop where
  dark : now.sky.directNormal + now.sky.diffuseHorizontal < 1 / 10 ^ 4
  dryBulb : now.sky.dryBulb = t
  infrared : now.sky.horizontalIr = blackBody t
  air : now.air.dryBulb = t
  heat : ∀ w ∈ now.heat, w ∈ W ∧ w.tOut = t

/-- The air of this temperature and volume, if any, does nothing to a room at `t`. -/
def Harmless (t : ℝ) (temp volume : Option ℝ) : Prop := ∀ t', temp = some t' → ∃ v, volume = some v ∧ (t' = t ∨ v = 0)

/-- A state at rest at `t`: all nodes and rooms are at `t`, nothing is heated, and air that spaces get by ventilation, or by what
is in the state of those without infiltration, does them nothing.  Radiation, and the air of spaces with infiltration, may be
anything. -/
structure Rests (o' : Objects) (spaces : List Air.Space) (b : Models) (t : ℝ) (st : List ℝ) : Prop where
  nodes : ∀ (kind : Kind) (i : ℕ) (w : Wall), (walls o' kind)[i]? = some w → Takes kind w → ∀ j < w.nodes, value o' st (.node kind i j) = some t
  rooms : ∀ i < o'.spaces.length, value o' st (.dryBulb i) = some t
  sealed : ∀ (i : ℕ) (s : Air.Space), spaces[i]? = some s → s.infiltration = none →
    Harmless t (value o' st (.infiltrationTemperature i)) (value o' st (.infiltrationVolume i))
  ventilation : ∀ z ∈ b.thermal.rooms,
    Harmless t (Heat.Whole.Spec.value st z.ventilationTemperature) (Heat.Whole.Spec.value st z.ventilationVolume)
  powers : ∀ a ∈ b.thermal.hvacs ++ b.thermal.luminaires, Heat.Whole.Spec.value st a.power = some 0

/-- The controller succeeds, and leaves physical quantities, ventilation and powers alone. -/
def Gentle (es : List Element) (control : List ℝ → Outcome (List ℝ)) : Prop :=
  ∀ st, st.length = es.length → ∃ st', control st = .ok st' ∧ st'.length = st.length ∧
    ∀ (k : ℕ) (e : Element), es[k]? = some e → ((∃ s, e = elementOf s) ∨ (∃ i, e = .spaceVentilationTemperature i ∨ e = .spaceVentilationVolume i ∨
      e = .heatingCoolingPowerConsumption i ∨ e = .luminairePowerConsumption i)) → st'[k]? = st[k]?

end Spec

/-- A state at rest and its memory. -/
structure Quiet (spaces : List Air.Space) (b : Models) (t : ℝ) (mem : Heat.Whole.Memory) (st : List ℝ) : Prop where
  synced : Heat.Whole.Spec.Synced b.thermal mem st
  surfaces : List.Forall₂ (fun (tw : Heat.Whole.ThermalWall) (m : Heat.SurfaceMemory) => Heat.Spec.Fitting tw.surf m ∧
    m.temperatures = List.replicate tw.parent.nodes t) b.thermal.surfaces mem.surfaces
  fenestrations : List.Forall₂ (fun (tw : Heat.Whole.ThermalWall) (m : Heat.SurfaceMemory) => Heat.Spec.Fitting tw.surf m ∧
    m.temperatures = List.replicate tw.parent.nodes t) b.thermal.fenestrations mem.fenestrations
  rooms : ∀ z ∈ b.thermal.rooms, Heat.Whole.Spec.value st z.places.dryBulb = some t
  sealed : ∀ (i : ℕ) (s : Air.Space) (z : Heat.Whole.Room), spaces[i]? = some s → b.thermal.rooms[i]? = some z → s.infiltration = none →
    Harmless t (Heat.Whole.Spec.value st z.places.infiltrationTemperature) (Heat.Whole.Spec.value st z.places.infiltrationVolume)
  ventilation : ∀ z ∈ b.thermal.rooms,
    Harmless t (Heat.Whole.Spec.value st z.ventilationTemperature) (Heat.Whole.Spec.value st z.ventilationVolume)
  powers : ∀ a ∈ b.thermal.hvacs ++ b.thermal.luminaires, Heat.Whole.Spec.value st a.power = some 0

theorem foreign (e : Element) (i : ℕ) (h : e = .spaceVentilationTemperature i ∨ e = .spaceVentilationVolume i ∨
    e = .heatingCoolingPowerConsumption i ∨ e = .luminairePowerConsumption i) (s : Slot) : e ≠ elementOf s := by
  rcases s with ⟨kk, _, ss, qq⟩ | ⟨kk, _, _⟩ | _ | _ | _
  · rcases h with rfl | rfl | rfl | rfl <;> cases kk <;> cases ss <;> cases qq <;> simp [elementOf]
  · rcases h with rfl | rfl | rfl | rfl <;> cases kk <;> simp [elementOf]
  all_goals rcases h with rfl | rfl | rfl | rfl <;> simp [elementOf]

theorem forall₂_of_parts (st : List ℝ) (Q : Heat.Surf → Heat.SurfaceMemory → Prop) : ∀ (ws : List Heat.Whole.ThermalWall)
    (mems : List Heat.SurfaceMemory), ws.length = mems.length → (∀ p ∈ List.zipWith (Heat.Whole.Spec.part st) ws mems, Q p.surf p.mem) →
    List.Forall₂ (fun tw m => Q tw.surf m) ws mems
  | [], [], _, _ => .nil
  | [], _ :: _, h, _ => by simp at h
  | _ :: _, [], h, _ => by simp at h
  | tw :: ws, m :: mems, h, hq =>
    .cons (hq (Heat.Whole.Spec.part st tw m) (by simp)) (forall₂_of_parts st Q ws mems (by simpa using h) fun p hp => hq p (by simp [hp]))

theorem parts_of {R : Heat.Whole.ThermalWall → Heat.SurfaceMemory → Prop} (st : List ℝ) {p : Heat.Part} : ∀ {ws : List Heat.Whole.ThermalWall}
    {mems : List Heat.SurfaceMemory}, List.Forall₂ R ws mems → p ∈ List.zipWith (Heat.Whole.Spec.part st) ws mems →
    ∃ tw ∈ ws, ∃ m, R tw m ∧ p = Heat.Whole.Spec.part st tw m
  | [], [], _, hp => by simp at hp
  | tw :: ws, m :: mems, .cons h1 h2, hp => by
    rw [List.zipWith_cons_cons] at hp
    rcases List.mem_cons.1 hp with rfl | hp
    · exact ⟨tw, by simp, m, h1, rfl⟩
    · obtain ⟨tw', a, m', b, c⟩ := parts_of st h2 hp
      exact ⟨tw', by simp [a], m', b, c⟩

theorem forall₂_and {α β : Type} {R S : α → β → Prop} : ∀ {l : List α} {l' : List β}, List.Forall₂ R l l' → List.Forall₂ S l l' →
    List.Forall₂ (fun a b => R a b ∧ S a b) l l'
  | _, _, .nil, _ => .nil
  | _, _, .cons a b, .cons c d => .cons ⟨a, c⟩ (forall₂_and b d)

/-- Where thermal walls are in the building. -/
theorem at_kind (hr : Ready calculated o o' h h' terrain spaces b) (kind : Kind) (tw : Heat.Whole.ThermalWall)
    (ht : tw ∈ thermalWalls b.thermal kind) :
    ∃ i : ℕ, (walls o' kind)[i]? = some tw.parent ∧ Takes kind tw.parent ∧ Heat.Whole.At h'.elements kind i tw.parent := by
  cases kind with
  | surface =>
    obtain ⟨i, a, c⟩ := at_surfaces hr tw ht
    exact ⟨i, a, by simp [Takes], c⟩
  | fenestration => exact at_fenestrations hr tw ht

theorem value_field {st : List ℝ} {kind : Kind} {i : ℕ} {w : Wall} (hi : (walls o' kind)[i]? = some w) (s : Side) (q : Quantity) :
    Heat.Whole.Spec.value st (w.field s q) = value o' st (.wall kind i s q) := by
  simp only [value, place, hi, Option.bind_some, Heat.Whole.Spec.value]

/-- A wall at rest, in a dark world at `t`. -/
theorem wall_still (hr : Ready calculated o o' h h' terrain spaces b) {t : ℝ} {W : Set Heat.StepWeather} (hb : Calm o' b t W)
    {coefficients : (kind : Kind) → Side → Matrix (Fin (walls o' kind).length) (Fin (Weather.Reinhart.nBins b.solar.mf)) ℝ}
    {now : Moment} {V : Matrix (Fin (Weather.Reinhart.nBins b.solar.mf)) (Fin 1) ℝ} (hw : CalmNight t W now) {st st2 : List ℝ}
    (hu : Updated o' h'.elements terrain spaces b coefficients now V st st2)
    (kind : Kind) (tw : Heat.Whole.ThermalWall) (ht : tw ∈ thermalWalls b.thermal kind) (m : Heat.SurfaceMemory)
    (hm : m.temperatures = List.replicate tw.parent.nodes t) (hs : Heat.Whole.Spec.InSync st2 tw m) :
    Heat.Spec.Still tw.surf (Heat.Whole.Spec.readings st2 tw.parent) t := by
  obtain ⟨i, hi, htk, hat⟩ := at_kind hr kind tw ht
  obtain ⟨hplaced, -⟩ := Heat.Whole.placed calculated o o' h h' hr.values hr.fresh hr.new hr.nodes
  have hpos := (hplaced kind i _ hi htk).2
  obtain ⟨a, a1, a2, a3⟩ := hat.ends
  have hnode : ∀ j < tw.parent.nodes, st2[a + j]? = some t := by
    intro j hj
    have := hs.2 j hj
    rw [hm, List.getElem?_replicate, if_pos hj, a1, Option.getD_some] at this
    exact this.symm
  have hlt : i < (walls o' kind).length := by
    by_contra hc
    rw [List.getElem?_eq_none (by omega)] at hi
    cases hi
  have hsun : ∀ s, Heat.Whole.Spec.value st2 (tw.parent.field s .sun) = some 0 := by
    intro s
    have hi' := hi
    rw [List.getElem?_eq_getElem hlt, Option.some.injEq] at hi'
    obtain ⟨old, -, e⟩ := hu.sun kind ⟨i, hlt⟩ s (by show Takes kind (walls o' kind)[i]; rw [hi']; exact htk)
    rw [value_field hi, e, if_pos hw.dark]
  have hir : ∀ s, faces tw.surf s = .outdoor → Heat.Whole.Spec.value st2 (tw.parent.field s .infrared) = some (Heat.sigma * (t + 273.15) ^ 4) := by
    intro s hf
    obtain ⟨c1, v, c2, c3⟩ := hb.sky kind tw ht i s hi hf
    obtain ⟨side, old, -, -, e⟩ := hu.infrared kind i tw.parent s v hi htk c2
    rw [value_field hi, e, c1]
    simp only [Light.March.Spec.infraredAfter, hw.dryBulb, hw.infrared]
    rw [← add_mul, ← add_assoc, c3, one_mul]
    rfl
  refine ⟨hb.kelvin, ?_, ?_, .inl ?_, .inl ?_, hb.ground kind tw ht .front, hb.ground kind tw ht .back, fun hf => ?_, fun hf => ?_,
    fun t' => hb.ambient kind tw ht .front t', fun t' => hb.ambient kind tw ht .back t'⟩
  · simp only [Heat.Whole.Spec.readings, Heat.Whole.Spec.value, a1, Option.bind_some]
    have := hnode 0 hpos
    rw [Nat.add_zero] at this
    rw [this, Option.getD_some]
  · simp only [Heat.Whole.Spec.readings, Heat.Whole.Spec.value, a2, Option.bind_some]
    have := hnode (tw.parent.nodes - 1) (by omega)
    rw [show a + (tw.parent.nodes - 1) = a + tw.parent.nodes - 1 by omega] at this
    rw [this, Option.getD_some]
  · simp only [Heat.Whole.Spec.readings, hsun, Option.getD_some]
  · simp only [Heat.Whole.Spec.readings, hsun, Option.getD_some]
  · simp only [Heat.Whole.Spec.readings, hir .front hf, Option.getD_some]
  · simp only [Heat.Whole.Spec.readings, hir .back hf, Option.getD_some]

/-- A step of a world at rest. -/
theorem quiet_step (hr : Ready calculated o o' h h' terrain spaces b) (t : ℝ) (W : Set Heat.StepWeather) (hb : Calm o' b t W)
    (now : Moment) (hw : CalmNight t W now) (mem : Heat.Whole.Memory) (st : List ℝ) (hl : st.length = h'.elements.length)
    (hq : Quiet spaces b t mem st) :
    ∃ mem' st', march b now mem st = .ok (mem', st') ∧ st'.length = st.length ∧ Quiet spaces b t mem' st' := by
  obtain ⟨hplaced, hspace⟩ := Heat.Whole.placed calculated o o' h h' hr.values hr.fresh hr.new hr.nodes
  obtain ⟨hW, hT⟩ := Heat.Whole.C104_wired calculated o o' h h' hr.values hr.fresh hr.new hr.nodes b.thermal hr.thermal
  obtain ⟨st2, e1, hu⟩ := updated hr (fun _ _ => 0) now 0 (fun hd => absurd hw.dark (not_lt.2 hd)) st hl
  have hl2 : st2.length = h'.elements.length := by rw [hu.length, hl]
  have hkeep : ∀ (k : ℕ) (s : Slot), h'.elements[k]? = some (elementOf s) → ¬Outer s → st2[k]? = st[k]? := by
    intro k s hk hs
    refine hu.rest k fun s' ho e => ?_
    rw [hk] at e
    have := elementOf_injective (Option.some.inj e)
    subst this
    exact hs ho
  have hs2 : Heat.Whole.Spec.Synced b.thermal mem st2 := synced_of hr (fun kind i j k hk => hkeep k _ hk (by simp [Outer])) hq.synced
  have hforeign : ∀ (k i : ℕ) (e : Element), h'.elements[k]? = some e → (e = .spaceVentilationTemperature i ∨ e = .spaceVentilationVolume i ∨
      e = .heatingCoolingPowerConsumption i ∨ e = .luminairePowerConsumption i) → st2[k]? = st[k]? := by
    intro k i e hk he
    refine hu.rest k fun s _ e' => ?_
    rw [hk] at e'
    exact foreign e i he s (Option.some.inj e')
  have hvent : ∀ z ∈ b.thermal.rooms, Heat.Whole.Spec.value st2 z.ventilationTemperature = Heat.Whole.Spec.value st z.ventilationTemperature ∧
      Heat.Whole.Spec.value st2 z.ventilationVolume = Heat.Whole.Spec.value st z.ventilationVolume := by
    intro z hz
    have := hr.thermal.ventilation z hz
    constructor
    · cases hv : z.ventilationTemperature with
      | none => rfl
      | some k =>
        obtain ⟨i, hi | hi⟩ := this k (.inl hv)
        · exact hforeign k i _ hi (by simp)
        · exact hforeign k i _ hi (by simp)
    · cases hv : z.ventilationVolume with
      | none => rfl
      | some k =>
        obtain ⟨i, hi | hi⟩ := this k (.inr hv)
        · exact hforeign k i _ hi (by simp)
        · exact hforeign k i _ hi (by simp)
  have hpow : ∀ a ∈ b.thermal.hvacs ++ b.thermal.luminaires, Heat.Whole.Spec.value st2 a.power = some 0 := by
    intro a ha
    rw [← hq.powers a ha]
    cases hp : a.power with
    | none => rfl
    | some k =>
      obtain ⟨i, hi | hi⟩ := hr.thermal.powers a ha k hp
      · exact hforeign k i _ hi (by simp)
      · exact hforeign k i _ hi (by simp)
  have hroomsLen : b.thermal.rooms.length = o'.spaces.length := by rw [← hr.thermal.rooms, List.length_map]
  have hroomAt : ∀ (i : ℕ) (z : Heat.Whole.Room), b.thermal.rooms[i]? = some z → o'.spaces[i]? = some z.places := by
    intro i z hz
    rw [← hr.thermal.rooms, List.getElem?_map, hz]
    rfl
  have hpart : ∀ (kind : Kind) (mems : List Heat.SurfaceMemory),
      List.Forall₂ (fun (tw : Heat.Whole.ThermalWall) (m : Heat.SurfaceMemory) => Heat.Spec.Fitting tw.surf m ∧
        m.temperatures = List.replicate tw.parent.nodes t) (thermalWalls b.thermal kind) mems →
      List.Forall₂ (Heat.Whole.Spec.InSync st2) (thermalWalls b.thermal kind) mems →
      ∀ p ∈ List.zipWith (Heat.Whole.Spec.part st2) (thermalWalls b.thermal kind) mems,
        ∃ U, Heat.Spec.PartAtRest p b.tiny b.cav t b.index b.thermal.rooms.length W U := by
    intro kind mems h1 h2 p hp
    obtain ⟨tw, ht, m, ⟨⟨f1, f2⟩, f3⟩, rfl⟩ := parts_of st2 (forall₂_and h1 h2) hp
    obtain ⟨U, u1, u2⟩ := hb.sound kind tw ht
    have hst := wall_still hr hb hw hu kind tw ht m f2 f3
    refine ⟨U, u1, hst, f1, ?_, fun w hw' f c hbc => u2 _ hst w hw' f c hbc, fun name hn => ?_⟩
    · show m.temperatures = List.replicate tw.surf.segments.length t
      rw [f2, hb.nodes kind tw ht]
    · rcases hn with hn | hn
      · exact hb.spaces kind tw ht .front name hn
      · exact hb.spaces kind tw ht .back name hn
  have hrest : Heat.Spec.AtRest (Heat.Whole.Spec.apart b.thermal mem st2) b.tiny b.cav t b.index W := by
    have hn : (Heat.Whole.Spec.apart b.thermal mem st2).rooms.length = b.thermal.rooms.length := by
      simp [Heat.Whole.Spec.apart]
    refine ⟨?_, ?_, ?_, ?_, ?_⟩
    · intro x hx
      obtain ⟨z, hz, rfl⟩ := List.mem_map.1 hx
      obtain ⟨i, hi, e⟩ := List.mem_iff_getElem.1 hz
      have hzi : b.thermal.rooms[i]? = some z := by rw [← e]; exact List.getElem?_eq_getElem hi
      have hsp := hroomAt i z hzi
      obtain ⟨⟨k, k1, k2⟩, ⟨l, l1, l2⟩, n, n1, n2⟩ := hspace i _ hsp
      have hsi : i < spaces.length := by rw [hr.count, ← hroomsLen]; exact hi
      refine ⟨?_, ?_, ?_⟩
      · show Heat.Whole.Spec.value st2 z.places.dryBulb = some t
        rw [← hq.rooms z hz, k1]
        exact hkeep k _ k2 (by simp [Outer])
      · show Harmless t (Heat.Whole.Spec.value st2 z.places.infiltrationTemperature) (Heat.Whole.Spec.value st2 z.places.infiltrationVolume)
        have ev : ∀ s : List ℝ, Heat.Whole.Spec.value s z.places.infiltrationVolume = value o' s (.infiltrationVolume i) := by
          intro s; simp only [value, place, hsp, Option.bind_some, Heat.Whole.Spec.value]
        have et : ∀ s : List ℝ, Heat.Whole.Spec.value s z.places.infiltrationTemperature = value o' s (.infiltrationTemperature i) := by
          intro s; simp only [value, place, hsp, Option.bind_some, Heat.Whole.Spec.value]
        cases hinf : (spaces[i]).infiltration with
        | none =>
          have := hq.sealed i spaces[i] z (List.getElem?_eq_getElem hsi) hzi hinf
          obtain ⟨c1, c2⟩ := hu.sealed i spaces[i] (List.getElem?_eq_getElem hsi) hinf
          rw [ev, et, c1, c2, ← ev, ← et]
          exact this
        | some inf =>
          have hai : i < b.air.length := by rw [hr.prepared, ← hroomsLen]; exact hi
          obtain ⟨-, -, -, -, -, -, -, hres⟩ := spots hr i b.air[i] spaces[i] (List.getElem?_eq_getElem hai) (List.getElem?_eq_getElem hsi)
          obtain ⟨cs, cw, hc⟩ := coefficients_of hres
          obtain ⟨room, -, c2, c3⟩ := hu.leaky i spaces[i] inf cs cw (List.getElem?_eq_getElem hsi) hinf hc
          rw [ev, et, c2, c3, hw.air]
          intro t' ht'
          exact ⟨_, rfl, .inl (Option.some.inj ht').symm⟩
      · show Harmless t (Heat.Whole.Spec.value st2 z.ventilationTemperature) (Heat.Whole.Spec.value st2 z.ventilationVolume)
        rw [(hvent z hz).1, (hvent z hz).2]
        exact hq.ventilation z hz
    · intro x hx
      obtain ⟨a, ha, rfl⟩ := List.mem_map.1 hx
      exact ⟨by rw [hn]; exact hb.appliances a (by simp [ha]), hpow a (by simp [ha])⟩
    · intro x hx
      obtain ⟨a, ha, rfl⟩ := List.mem_map.1 hx
      exact ⟨by rw [hn]; exact hb.appliances a (by simp [ha]), hpow a (by simp [ha])⟩
    · rw [hn]
      exact hpart .surface mem.surfaces hq.surfaces hs2.surfaces
    · rw [hn]
      exact hpart .fenestration mem.fenestrations hq.fenestrations hs2.fenestrations
  obtain ⟨mem', st', g1, g2, g3, g4, -⟩ := Heat.Whole.C104_rest b.tiny hb.tiny b.cav t b.index W b.dt now.heat mem st2 (by rw [hl2]; exact hW)
    hs2 hrest hw.heat
  refine ⟨mem', st', ?_, by rw [g3, hu.length], g2, ?_, ?_, ?_, ?_, ?_, ?_⟩
  · unfold march
    cases hx : Light.March.march b.solar b.lit now.sky st with
    | err => rw [hx] at e1; cases e1
    | panic => rw [hx] at e1; cases e1
    | ok st1 =>
      rw [hx] at e1
      simp only [Outcome.bind] at e1 ⊢
      rw [e1]
      exact g1
  · refine Heat.Whole.forall₂_imp_mem (fun tw ht m hm => ⟨hm.1, ?_⟩) (forall₂_of_parts st' (fun s m => Heat.Spec.Fitting s m ∧
      m.temperatures = List.replicate s.segments.length t) _ _ g2.surfaces.length_eq fun p hp => by
        obtain ⟨U, hU⟩ := g4.surfaces p hp
        exact ⟨hU.fitting, hU.temperatures⟩)
    rw [hm.2, hb.nodes .surface tw ht]
  · refine Heat.Whole.forall₂_imp_mem (fun tw ht m hm => ⟨hm.1, ?_⟩) (forall₂_of_parts st' (fun s m => Heat.Spec.Fitting s m ∧
      m.temperatures = List.replicate s.segments.length t) _ _ g2.fenestrations.length_eq fun p hp => by
        obtain ⟨U, hU⟩ := g4.fenestrations p hp
        exact ⟨hU.fitting, hU.temperatures⟩)
    rw [hm.2, hb.nodes .fenestration tw ht]
  · intro z hz
    exact (g4.rooms _ (List.mem_map.2 ⟨z, hz, rfl⟩)).1
  · intro i s z _ hz _
    exact (g4.rooms _ (List.mem_map.2 ⟨z, List.mem_of_getElem? hz, rfl⟩)).2.1
  · intro z hz
    exact (g4.rooms _ (List.mem_map.2 ⟨z, hz, rfl⟩)).2.2
  · intro a ha
    rcases List.mem_append.1 ha with ha | ha
    · exact (g4.hvacs _ (List.mem_map.2 ⟨a, ha, rfl⟩)).2
    · exact (g4.luminaires _ (List.mem_map.2 ⟨a, ha, rfl⟩)).2

theorem room_at (hr : Ready calculated o o' h h' terrain spaces b) (i : ℕ) (z : Heat.Whole.Room) (hz : b.thermal.rooms[i]? = some z) :
    o'.spaces[i]? = some z.places := by
  rw [← hr.thermal.rooms, List.getElem?_map, hz]
  rfl

/-- The memory that is allocated for a state at rest. -/
theorem quiet_of_rests (hr : Ready calculated o o' h h' terrain spaces b) (t : ℝ) (st : List ℝ) (hl : st.length = h'.elements.length)
    (hq : Rests o' spaces b t st) : ∃ mem, Heat.Whole.allocate b.thermal st = .ok mem ∧ Quiet spaces b t mem st := by
  obtain ⟨hW, -⟩ := Heat.Whole.C104_wired calculated o o' h h' hr.values hr.fresh hr.new hr.nodes b.thermal hr.thermal
  obtain ⟨s, s1, s2, s3⟩ := Heat.Whole.allocate_all st hl b.thermal.surfaces hW.surfaces
  obtain ⟨f, f1, f2, f3⟩ := Heat.Whole.allocate_all st hl b.thermal.fenestrations hW.fenestrations
  have temps : ∀ (kind : Kind) (mems : List Heat.SurfaceMemory), List.Forall₂ (Heat.Whole.Spec.InSync st) (thermalWalls b.thermal kind) mems →
      List.Forall₂ (fun (tw : Heat.Whole.ThermalWall) mem => Heat.Spec.Fitting tw.surf mem) (thermalWalls b.thermal kind) mems →
      List.Forall₂ (fun (tw : Heat.Whole.ThermalWall) (m : Heat.SurfaceMemory) => Heat.Spec.Fitting tw.surf m ∧
        m.temperatures = List.replicate tw.parent.nodes t) (thermalWalls b.thermal kind) mems := by
    intro kind mems h1 h2
    refine Heat.Whole.forall₂_imp_mem (fun tw ht m hm => ⟨hm.2, ?_⟩) (forall₂_and h1 h2)
    obtain ⟨i, hi, htk, hat⟩ := at_kind hr kind tw ht
    obtain ⟨a, a1, -, -⟩ := hat.ends
    apply List.ext_getElem?
    intro j
    rw [List.getElem?_replicate]
    by_cases hj : j < tw.parent.nodes
    · rw [if_pos hj, hm.1.2 j hj, a1, Option.getD_some]
      have := hq.nodes kind i _ hi htk j hj
      simpa only [value, place, hi, Option.bind_some, a1, Option.map_some] using this
    · rw [if_neg hj, List.getElem?_eq_none (by rw [hm.1.1]; omega)]
  refine ⟨⟨s, f⟩, ?_, ⟨s2, f2⟩, temps .surface s s2 s3, temps .fenestration f f2 f3, ?_, ?_, hq.ventilation, hq.powers⟩
  · unfold Heat.Whole.allocate
    dsimp only
    rw [s1, Outcome.bind, f1, Outcome.bind]
  · intro z hz
    obtain ⟨i, hi, e⟩ := List.mem_iff_getElem.1 hz
    have hsp := room_at hr i z (by rw [← e]; exact List.getElem?_eq_getElem hi)
    have := hq.rooms i (by rw [← hr.thermal.rooms, List.length_map]; exact hi)
    simpa only [value, place, hsp, Option.bind_some, Heat.Whole.Spec.value] using this
  · intro i s z hs hz hn
    have hsp := room_at hr i z hz
    have := hq.sealed i s hs hn
    simpa only [value, place, hsp, Option.bind_some, Heat.Whole.Spec.value] using this

theorem rests_of_quiet (hr : Ready calculated o o' h h' terrain spaces b) (t : ℝ) (mem : Heat.Whole.Memory) (st : List ℝ)
    (hq : Quiet spaces b t mem st) : Rests o' spaces b t st := by
  obtain ⟨hplaced, hspace⟩ := Heat.Whole.placed calculated o o' h h' hr.values hr.fresh hr.new hr.nodes
  have one : ∀ (kind : Kind) (mems : List Heat.SurfaceMemory), List.Forall₂ (Heat.Whole.Spec.InSync st) (thermalWalls b.thermal kind) mems →
      List.Forall₂ (fun (tw : Heat.Whole.ThermalWall) (m : Heat.SurfaceMemory) => Heat.Spec.Fitting tw.surf m ∧
        m.temperatures = List.replicate tw.parent.nodes t) (thermalWalls b.thermal kind) mems →
      ∀ tw ∈ thermalWalls b.thermal kind, ∀ j < tw.parent.nodes, st[tw.parent.first.getD 0 + j]? = some t := by
    intro kind mems h1 h2 tw ht j hj
    obtain ⟨i, hi, e⟩ := List.mem_iff_getElem.1 ht
    have hlen := h1.length_eq
    have g1 := h1.get hi (by omega)
    have g2 := h2.get hi (by omega)
    simp only [List.get_eq_getElem, e] at g1 g2
    rw [← g1.2 j hj, g2.2, List.getElem?_replicate, if_pos hj]
  refine ⟨?_, ?_, ?_, hq.ventilation, hq.powers⟩
  · intro kind i w hi ht j hj
    obtain ⟨a, a1, -, -⟩ := (hplaced kind i w hi ht).1.ends
    obtain ⟨tw, h1, rfl⟩ : ∃ tw ∈ thermalWalls b.thermal kind, tw.parent = w := by
      cases kind with
      | surface =>
        have : w ∈ b.thermal.surfaces.map Heat.Whole.ThermalWall.parent := by rw [hr.thermal.surfaces]; exact List.mem_of_getElem? hi
        exact List.mem_map.1 this
      | fenestration =>
        have : w ∈ b.thermal.fenestrations.map Heat.Whole.ThermalWall.parent := by
          rw [hr.thermal.fenestrations]
          refine List.mem_filter.2 ⟨List.mem_of_getElem? hi, ?_⟩
          cases hop : w.opening with
          | false => rfl
          | true => exact absurd ⟨rfl, hop⟩ ht
        exact List.mem_map.1 this
    have : st[tw.parent.first.getD 0 + j]? = some t := by
      cases kind with
      | surface => exact one .surface _ hq.synced.surfaces hq.surfaces tw h1 j hj
      | fenestration => exact one .fenestration _ hq.synced.fenestrations hq.fenestrations tw h1 j hj
    rw [a1, Option.getD_some] at this
    simpa only [value, place, hi, Option.bind_some, a1, Option.map_some] using this
  · intro i hi
    have hi' : i < b.thermal.rooms.length := by rw [← hr.thermal.rooms, List.length_map] at hi; exact hi
    have hsp := room_at hr i _ (List.getElem?_eq_getElem hi')
    have := hq.rooms _ (List.getElem_mem hi')
    simpa only [value, place, hsp, Option.bind_some, Heat.Whole.Spec.value] using this
  · intro i s hs hn
    have hi : i < b.thermal.rooms.length := by
      have : b.thermal.rooms.length = spaces.length := by rw [hr.count, ← hr.thermal.rooms, List.length_map]
      rw [this]
      by_contra hc
      rw [List.getElem?_eq_none (by omega)] at hs
      cases hs
    have hsp := room_at hr i _ (List.getElem?_eq_getElem hi)
    have := hq.sealed i s _ hs (List.getElem?_eq_getElem hi) hn
    simpa only [value, place, hsp, Option.bind_some, Heat.Whole.Spec.value] using this

/-- A gentle controller leaves a state at rest so. -/
theorem quiet_control (hr : Ready calculated o o' h h' terrain spaces b) (t : ℝ) (mem : Heat.Whole.Memory) (st st' : List ℝ)
    (hk : ∀ (k : ℕ) (e : Element), h'.elements[k]? = some e → ((∃ s, e = elementOf s) ∨ (∃ i, e = .spaceVentilationTemperature i ∨
      e = .spaceVentilationVolume i ∨ e = .heatingCoolingPowerConsumption i ∨ e = .luminairePowerConsumption i)) → st'[k]? = st[k]?)
    (hq : Quiet spaces b t mem st) : Quiet spaces b t mem st' := by
  obtain ⟨hplaced, hspace⟩ := Heat.Whole.placed calculated o o' h h' hr.values hr.fresh hr.new hr.nodes
  refine ⟨synced_of hr (fun kind i j k e => hk k _ e (.inl ⟨_, rfl⟩)) hq.synced, hq.surfaces, hq.fenestrations, ?_, ?_, ?_, ?_⟩
  · intro z hz
    obtain ⟨i, hi, e⟩ := List.mem_iff_getElem.1 hz
    obtain ⟨⟨k, k1, k2⟩, -, -⟩ := hspace i _ (room_at hr i z (by rw [← e]; exact List.getElem?_eq_getElem hi))
    rw [← hq.rooms z hz, k1]
    exact hk k _ k2 (.inl ⟨_, rfl⟩)
  · intro i s z hs hz hn
    have := hq.sealed i s z hs hz hn
    obtain ⟨-, ⟨l, l1, l2⟩, n, n1, n2⟩ := hspace i _ (room_at hr i z hz)
    rw [l1, n1] at this ⊢
    simp only [Heat.Whole.Spec.value, Option.bind_some] at this ⊢
    rw [hk l _ l2 (.inl ⟨_, rfl⟩), hk n _ n2 (.inl ⟨_, rfl⟩)]
    exact this
  · intro z hz
    have := hr.thermal.ventilation z hz
    have e1 : Heat.Whole.Spec.value st' z.ventilationTemperature = Heat.Whole.Spec.value st z.ventilationTemperature := by
      cases hv : z.ventilationTemperature with
      | none => rfl
      | some k =>
        obtain ⟨i, hi | hi⟩ := this k (.inl hv)
        · exact hk k _ hi (.inr ⟨i, by simp⟩)
        · exact hk k _ hi (.inr ⟨i, by simp⟩)
    have e2 : Heat.Whole.Spec.value st' z.ventilationVolume = Heat.Whole.Spec.value st z.ventilationVolume := by
      cases hv : z.ventilationVolume with
      | none => rfl
      | some k =>
        obtain ⟨i, hi | hi⟩ := this k (.inr hv)
        · exact hk k _ hi (.inr ⟨i, by simp⟩)
        · exact hk k _ hi (.inr ⟨i, by simp⟩)
    rw [e1, e2]
    exact hq.ventilation z hz
  · intro a ha
    rw [← hq.powers a ha]
    cases hp : a.power with
    | none => rfl
    | some k =>
      obtain ⟨i, hi | hi⟩ := hr.thermal.powers a ha k hp
      · exact hk k _ hi (.inr ⟨i, by simp⟩)
      · exact hk k _ hi (.inr ⟨i, by simp⟩)

theorem quiet_run (hr : Ready calculated o o' h h' terrain spaces b) (t : ℝ) (W : Set Heat.StepWeather) (hb : Calm o' b t W)
    (control : List ℝ → Outcome (List ℝ)) (hg : Gentle h'.elements control) :
    ∀ (nows : List Moment), (∀ now ∈ nows, CalmNight t W now) → ∀ (mem : Heat.Whole.Memory) (st : List ℝ), st.length = h'.elements.length →
    Quiet spaces b t mem st → ∃ mem' st', run b control nows mem st = .ok (mem', st') ∧ st'.length = st.length ∧ Quiet spaces b t mem' st'
  | [], _, mem, st, _, hq => ⟨mem, st, rfl, rfl, hq⟩
  | now :: nows, hn, mem, st, hl, hq => by
    obtain ⟨st1, c1, c2, c3⟩ := hg st hl
    obtain ⟨mem2, st2, d1, d2, d3⟩ := quiet_step hr t W hb now (hn now (by simp)) mem st1 (by rw [c2, hl]) (quiet_control hr t mem st st1 c3 hq)
    obtain ⟨mem', st', e1, e2, e3⟩ := quiet_run hr t W hb control hg nows (fun x hx => hn x (by simp [hx])) mem2 st2 (by rw [d2, c2, hl]) d3
    refine ⟨mem', st', ?_, by rw [e2, d2, c2], e3⟩
    rw [run, c1, Outcome.bind, d1, Outcome.bind]
    exact e1

/-- **C105.**  In a world all at one temperature, dark and unheated, whatever the winds and the infiltration, a whole simulation of
any length succeeds and all nodes of walls and all rooms stay at that temperature. -/
theorem C105_rest (hr : Ready calculated o o' h h' terrain spaces b) (t : ℝ) (W : Set Heat.StepWeather) (hb : Calm o' b t W)
    (control : List ℝ → Outcome (List ℝ)) (hg : Gentle h'.elements control) (nows : List Moment) (hn : ∀ now ∈ nows, CalmNight t W now)
    (st : List ℝ) (hl : st.length = h'.elements.length) (hq : Rests o' spaces b t st) :
    ∃ mem mem' st', Heat.Whole.allocate b.thermal st = .ok mem ∧ run b control nows mem st = .ok (mem', st') ∧ st'.length = st.length ∧
      Rests o' spaces b t st' := by
  obtain ⟨mem, a1, a2⟩ := quiet_of_rests hr t st hl hq
  obtain ⟨mem', st', e1, e2, e3⟩ := quiet_run hr t W hb control hg nows hn mem st hl a2
  exact ⟨mem, mem', st', a1, e1, e2, rests_of_quiet hr t mem' st' e3⟩

/-! ## Example -/

/-- A wall of three nodes between the only room and the outdoors. -/
def outerWall : Heat.Surf := { Heat.Whole.exampleThick with backBoundary := .outdoor }

theorem outerWall_sound (cav : Heat.CavityU ℝ) : Heat.Spec.Sound outerWall cav 20 fun _ => 2 := by
  refine ⟨by simp [outerWall, Heat.Whole.exampleThick], rfl, rfl, ?_, by simp [outerWall, Heat.Whole.exampleThick, Heat.exampleWall],
    by simp [outerWall, Heat.Whole.exampleThick]⟩
  intro i x hi hx
  have : i = 0 ∨ i = 1 := by simp [outerWall, Heat.Whole.exampleThick] at hi; omega
  rcases this with rfl | rfl
  · simp only [outerWall, Heat.Whole.exampleThick, List.getElem?_cons_zero, Option.some.injEq] at hx
    rw [← hx]; rfl
  · simp only [outerWall, Heat.Whole.exampleThick, List.getElem?_cons_succ, List.getElem?_cons_zero, Option.some.injEq] at hx
    rw [← hx]; rfl

/-- `C105_rest`, and with it `C105_step` and `C105_control`, are not vacuous: a room with a wall to the outdoors and an opening,
at 20 degrees, with the wind through its leaks, for as many steps as one likes. -/
theorem example_rest (cav : Heat.CavityU ℝ) (dt : ℝ) : ∃ o' h' spaces b, Ready true Wiring.small o' Header.new h' none spaces b ∧
    Calm o' b 20 Set.univ ∧ b.cav = cav ∧ b.dt = dt ∧ Rests o' spaces b 20 (List.replicate h'.elements.length 20) ∧
    b.thermal.surfaces.length = 1 ∧ b.thermal.rooms.length = 1 ∧ (∃ s ∈ spaces, s.infiltration ≠ none) := by
  have hfresh : Fresh Wiring.small :=
    ⟨fun kind w hw => by cases kind <;> simp [walls, Wiring.small] at hw <;> subst hw <;> exact ⟨rfl, rfl, fun _ _ => rfl⟩,
      fun z hz => by simp [Wiring.small] at hz; subst hz; exact ⟨rfl, rfl, rfl⟩⟩
  obtain ⟨o', h', w1, w2, w3, w4, w5, w6, -⟩ := C90_wired true Wiring.small Header.new (by simp [Header.new]) hfresh
  have hnodes : ∀ kind, ∀ w ∈ walls Wiring.small kind, Takes kind w → 0 < w.nodes := by
    intro kind w hw ht
    cases kind with
    | surface => simp [walls, Wiring.small] at hw; subst hw; norm_num
    | fenestration => simp [walls, Wiring.small] at hw; subst hw; exact absurd ⟨rfl, rfl⟩ ht
  obtain ⟨hplaced, hspace⟩ := Heat.Whole.placed true Wiring.small o' Header.new h' (by simp [Header.new]) hfresh w1 hnodes
  have hs := w4 .surface
  have hfe := w4 .fenestration
  simp only [walls, Wiring.small, List.map_cons, List.map_nil] at hs hfe w3
  obtain ⟨w, hw, e1, e2⟩ : ∃ w, o'.surfaces = [w] ∧ w.opening = false ∧ w.nodes = 3 := by
    cases h : o'.surfaces with
    | nil => rw [h] at hs; simp at hs
    | cons w l => rw [h] at hs; cases l with
      | nil => simp at hs; exact ⟨w, rfl, hs⟩
      | cons => simp at hs
  obtain ⟨f, hf, f1⟩ : ∃ f, o'.fenestrations = [f] ∧ f.opening = true := by
    cases h : o'.fenestrations with
    | nil => rw [h] at hfe; simp at hfe
    | cons w l => rw [h] at hfe; cases l with
      | nil => simp at hfe; exact ⟨w, rfl, hfe.1⟩
      | cons => simp at hfe
  obtain ⟨z, hz⟩ : ∃ z, o'.spaces = [z] := by
    cases h : o'.spaces with
    | nil => rw [h] at w3; simp at w3
    | cons z l => rw [h] at w3; cases l with
      | nil => exact ⟨z, rfl⟩
      | cons => simp at w3
  obtain ⟨⟨k, k1, k2⟩, ⟨l, l1, l2⟩, n, n1, n2⟩ := hspace 0 z (by rw [hz]; rfl)
  obtain ⟨hat, -⟩ := hplaced .surface 0 w (by simp [walls, hw]) (by simp)
  obtain ⟨a, a1, a2, a3⟩ := hat.ends
  have hfil : (o'.fenestrations.filter fun w => !w.opening) = [] := by rw [hf]; simp [f1]
  refine ⟨o', h', [⟨some (.constant 0.1), none, some k⟩],
    ⟨⟨⟨fun _ _ => [⟨0.4, 0.4, 0.2⟩], fun _ _ => Simple.Matrix.GMatrix.empty⟩, 1⟩,
      ⟨walls o', fun _ _ s => match s with | .front => .space | .back => .outdoor⟩,
      [⟨some k, l, n, .constant 0.1⟩], ⟨[⟨z, none, none, 50⟩], [⟨outerWall, w⟩], [], [], []⟩, 1e-9, cav, fun _ => some 0, dt⟩,
    ⟨by simp [Header.new], hfresh, w1, hnodes, rfl, ?_, ⟨by rw [hw]; rfl, by rw [hfil]; rfl, by rw [hz]; rfl, ?_, ?_⟩, by rw [hz]; rfl, ?_,
      by rw [hz]; rfl, ?_⟩, ⟨by norm_num, by norm_num, ?_, ?_, ?_, ?_, ?_, ?_, ?_⟩, rfl, rfl, ⟨?_, ?_, ?_, ?_, ?_⟩, rfl, rfl, ⟨_, List.mem_singleton_self _, by simp⟩⟩
  · intro kind s
    cases kind <;> simp [walls, hw, hf]
  · intro z' hz' k hk
    obtain rfl := List.mem_singleton.1 hz'
    rcases hk with hk | hk <;> cases hk
  · intro a ha
    cases ha
  · intro i s z' hi hz'
    cases i with
    | zero =>
      rw [hz] at hz'
      obtain rfl : z = z' := by simpa using hz'
      obtain rfl : _ = s := by simpa using hi
      exact k1.symm
    | succ i => simp at hi
  · intro i s z' p hi hz' hp
    cases i with
    | zero =>
      rw [hz] at hz'
      obtain rfl : z = z' := by simpa using hz'
      obtain rfl : _ = s := by simpa using hi
      obtain rfl : _ = p := by simpa using hp
      exact ⟨rfl, l1, n1, rfl⟩
    | succ i => simp at hi
  · intro kind tw ht
    cases kind with
    | surface =>
      obtain rfl := List.mem_singleton.1 ht
      refine ⟨_, outerWall_sound cav, fun r _ w' _ f' c _ x hx => ?_⟩
      simp [outerWall, Heat.Whole.exampleThick, Heat.exampleWall] at hx
    | fenestration => cases ht
  · intro kind tw ht
    cases kind with
    | surface => obtain rfl := List.mem_singleton.1 ht; rw [e2]; rfl
    | fenestration => cases ht
  · intro kind tw ht s
    cases kind with
    | surface => obtain rfl := List.mem_singleton.1 ht; cases s <;> simp [faces, outerWall, Heat.Whole.exampleThick, Heat.exampleWall]
    | fenestration => cases ht
  · intro kind tw ht s t'
    cases kind with
    | surface => obtain rfl := List.mem_singleton.1 ht; cases s <;> simp [faces, outerWall, Heat.Whole.exampleThick, Heat.exampleWall]
    | fenestration => cases ht
  · intro kind tw ht s name _
    exact ⟨0, rfl, by norm_num⟩
  · intro kind tw ht i s hi hs
    cases kind with
    | surface =>
      obtain rfl := List.mem_singleton.1 ht
      cases s with
      | front => simp [faces, outerWall, Heat.Whole.exampleThick, Heat.exampleWall] at hs
      | back =>
        cases i with
        | zero => exact ⟨rfl, _, rfl, by norm_num⟩
        | succ i => simp [walls, hw] at hi
    | fenestration => cases ht
  · intro a ha
    cases ha
  · intro kind i w' hi ht j hj
    obtain ⟨a', b1, -, b3⟩ := (hplaced kind i w' hi ht).1.ends
    simp only [value, place, hi, Option.bind_some, b1, Option.map_some]
    rw [List.getElem?_replicate, if_pos (Heat.Whole.lt_of_some (b3 j hj))]
  · intro i hi
    have hi0 : i = 0 := by rw [hz] at hi; simpa using hi
    subst hi0
    simp only [value, place, hz, List.getElem?_cons_zero, Option.bind_some, k1]
    rw [List.getElem?_replicate, if_pos (Heat.Whole.lt_of_some k2)]
  · intro i s hi hn
    cases i with
    | zero =>
      obtain rfl : _ = s := by simpa using hi
      cases hn
    | succ i => simp at hi
  · intro z' hz'
    obtain rfl := List.mem_singleton.1 hz'
    intro t' ht'
    cases ht'
  · intro a ha
    cases ha

/-- Hours of calm weather for that building, with any wind, and a controller that does nothing. -/
example (cav : Heat.CavityU ℝ) (dt wind direction : ℝ) (vector : ℕ → Outcome (Simple.Matrix.GMatrix ℝ)) (hours : ℕ) :
    ∃ (o' : Objects) (h' : Header ℚ) (b : Models) (mem mem' : Heat.Whole.Memory) (st st' : List ℝ), b.thermal.rooms.length = 1 ∧
      run b .ok (List.replicate hours ⟨⟨0, 0, 20, blackBody 20, vector⟩, ⟨20, wind⟩, [⟨20, direction, wind⟩, ⟨20, direction, wind⟩]⟩) mem st =
        .ok (mem', st') ∧ value o' st' (.dryBulb 0) = some 20 ∧ st'.length = h'.elements.length := by
  obtain ⟨o', h', spaces, b, r1, r2, -, -, r3, -, r4, -⟩ := example_rest cav dt
  obtain ⟨mem, mem', st', -, e2, e3, e4⟩ := C105_rest r1 20 Set.univ r2 .ok (fun st _ => ⟨st, rfl, rfl, fun _ _ _ _ => rfl⟩)
    (List.replicate hours ⟨⟨0, 0, 20, blackBody 20, vector⟩, ⟨20, wind⟩, [⟨20, direction, wind⟩, ⟨20, direction, wind⟩]⟩)
    (fun now hn => by
      rw [List.eq_of_mem_replicate hn]
      exact ⟨by norm_num, rfl, rfl, rfl, fun w hw => ⟨Set.mem_univ _, by simp at hw; rw [hw]⟩⟩) _ (by simp) r3
  refine ⟨o', h', b, mem, mem', _, st', r4, e2, e4.rooms 0 ?_, by rw [e3]; simp⟩
  rw [← r1.thermal.rooms, List.length_map, r4]
  norm_num

end
end Simple.Physics
