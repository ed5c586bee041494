import Verif.Air.Props
import Verif.Heat.WholeWiredProps
import Verif.Light.SolarMarchProps
import Verif.Sim.PhysicsModel

/-! # C105: a step of the whole physics on the state of a building -/

namespace Simple.Physics

open Wiring Wiring.Spec State

noncomputable section

open Light.March.Spec (value Takes Fits infraredAfter sunAfter sideNode blackBody)

namespace Spec

/-- A building and its models of physics, once they are built: `o` and `h` before, `o'` and `h'` afterwards; `spaces` are the
spaces as the model of air sees them, on a site of that `terrain`. -/
structure Ready (calculated : Bool) (o o' : Objects) (h h' : Header ℚ) (terrain : Option Air.Terrain) (spaces : List Air.Space)
    (b : Models) : Prop where
  values : h.defaultValues ≠ none
  fresh : Fresh o
  new : physicsNew calculated o h = .ok (o', h')
  nodes : ∀ kind, ∀ w ∈ walls o kind, Takes kind w → 0 < w.nodes
  lit : b.lit.walls = walls o'
  views : ∀ kind s, (b.solar.info.viewFactors kind s).length = (walls o' kind).length
  thermal : Heat.Whole.Spec.Built b.thermal o' h'.elements
  count : spaces.length = o'.spaces.length
  places : ∀ (i : ℕ) (s : Air.Space) (z : Zone), spaces[i]? = some s → o'.spaces[i]? = some z → s.dryBulb = z.dryBulb
  prepared : b.air.length = o'.spaces.length
  air : ∀ (i : ℕ) (s : Air.Space) (z : Zone) (p : Air.Prepared), spaces[i]? = some s → o'.spaces[i]? = some z → b.air[i]? = some p →
    p.dryBulb = s.dryBulb ∧ z.infiltrationVolume = some p.volumeIndex ∧ z.infiltrationTemperature = some p.temperatureIndex ∧
      Air.resolve terrain s = .ok p.resolver

/-- By day there are daylight coefficients for all the sides, and `V` is the radiation of the patches of the sky. -/
def Lit (o' : Objects) (m : Light.March.Solar)
    (coefficients : (kind : Kind) → Side → Matrix (Fin (walls o' kind).length) (Fin (Weather.Reinhart.nBins m.mf)) ℝ)
    (sky : Light.March.Sky) (V : Matrix (Fin (Weather.Reinhart.nBins m.mf)) (Fin 1) ℝ) : Prop :=
  sky.directNormal + sky.diffuseHorizontal ≥ 1 / 10 ^ 4 →
    Fits o' m coefficients ∧ ∃ vec, sky.vector m.mf = .ok vec ∧ Simple.Matrix.Spec.Rep vec V

/-- Quantities that come from outside: radiation on the sides of walls, and infiltration. -/
def Outer : Slot → Prop
  | .wall _ _ _ q => q = .sun ∨ q = .infrared
  | .infiltrationVolume _ => True
  | .infiltrationTemperature _ => True
  | _ => False

/-- The surroundings of the walls and rooms have been brought up to date, from the state `before` to `after`, each from the
temperatures before: sun and infrared radiation on every side (C103), air that enters every space (C33), nothing else. -/
structure Updated (o' : Objects) (es : List Element) (terrain : Option Air.Terrain) (spaces : List Air.Space) (b : Models)
    (coefficients : (kind : Kind) → Side → Matrix (Fin (walls o' kind).length) (Fin (Weather.Reinhart.nBins b.solar.mf)) ℝ)
    (now : Moment) (V : Matrix (Fin (Weather.Reinhart.nBins b.solar.mf)) (Fin 1) ℝ) (before after : List ℝ) : Prop where
  length : after.length = before.length
  infrared : ∀ (kind : Kind) (i : ℕ) (w : Wall) (s : Side) (v : Light.ViewFactors), (walls o' kind)[i]? = some w → Takes kind w →
    (b.solar.info.viewFactors kind s)[i]? = some v →
    ∃ side old, value o' before (sideNode kind i w.nodes s) = some side ∧ value o' before (.wall kind i s .infrared) = some old ∧
      value o' after (.wall kind i s .infrared) = some (infraredAfter (b.lit.boundary kind i s) side now.sky.dryBulb now.sky.horizontalIr v old)
  sun : ∀ (kind : Kind) (i : Fin (walls o' kind).length) (s : Side), Takes kind (walls o' kind)[i] →
    ∃ old, value o' before (.wall kind i s .sun) = some old ∧ value o' after (.wall kind i s .sun) =
      some (if now.sky.directNormal + now.sky.diffuseHorizontal < 1 / 10 ^ 4 then 0
        else sunAfter kind (b.lit.boundary kind i s) (∑ j, coefficients kind s i j * V j 0) old)
  sealed : ∀ (i : ℕ) (s : Air.Space), spaces[i]? = some s → s.infiltration = none →
    value o' after (.infiltrationVolume i) = value o' before (.infiltrationVolume i) ∧
      value o' after (.infiltrationTemperature i) = value o' before (.infiltrationTemperature i)
  leaky : ∀ (i : ℕ) (s : Air.Space) (inf : Air.Infiltration) (cs cw : ℝ), spaces[i]? = some s → s.infiltration = some inf →
    Air.Spec.Coefficients s cs cw → ∃ room, value o' before (.dryBulb i) = some room ∧
      value o' after (.infiltrationVolume i) =
        some (Air.Spec.flow (Air.siteModifier terrain 1) cs cw room now.air.dryBulb now.air.windSpeed inf) ∧
      value o' after (.infiltrationTemperature i) = some now.air.dryBulb
  rest : ∀ k : ℕ, (∀ s, Outer s → es[k]? ≠ some (elementOf s)) → after[k]? = before[k]?

end Spec

open Spec

/-! ## Air -/

/-- A space that is prepared, with its places. -/
structure Spot (es : List Element) (i : ℕ) (p : Air.Prepared) : Prop where
  dryBulb : ∃ d, p.dryBulb = some d ∧ es[d]? = some (elementOf (.dryBulb i))
  volume : es[p.volumeIndex]? = some (elementOf (.infiltrationVolume i))
  temperature : es[p.temperatureIndex]? = some (elementOf (.infiltrationTemperature i))

theorem slot_ne {es : List Element} {a b : ℕ} {s t : Slot} (ha : es[a]? = some (elementOf s)) (hb : es[b]? = some (elementOf t))
    (h : s ≠ t) : a ≠ b := by
  rintro rfl
  rw [ha] at hb
  exact h (elementOf_injective (Option.some.inj hb))

theorem coefficients_of {terrain : Option Air.Terrain} {s : Air.Space} {r : Air.Resolver} (h : Air.resolve terrain s = .ok r) :
    ∃ cs cw, Air.Spec.Coefficients s cs cw := by
  cases hinf : s.infiltration with
  | none => exact ⟨0, 0, fun a ha => by rw [hinf] at ha; cases ha⟩
  | some inf =>
    cases inf with
    | leakageArea area =>
      unfold Air.resolve at h
      rw [hinf] at h
      simp only at h
      cases hb : s.building with
      | none => rw [hb] at h; cases h
      | some ob =>
        cases ob with
        | none => rw [hb] at h; cases h
        | some b =>
          rw [hb] at h
          simp only at h
          cases h1 : Air.stackCoefficient b with
          | err => rw [h1] at h; cases h
          | panic => rw [h1] at h; cases h
          | ok cs =>
            rw [h1] at h
            simp only [Outcome.bind] at h
            cases h2 : Air.windCoefficient b with
            | err => rw [h2] at h; cases h
            | panic => rw [h2] at h; cases h
            | ok cw => exact ⟨cs, cw, fun a ha => ⟨b, hb, h1, h2⟩⟩
    | _ => exact ⟨0, 0, fun a ha => by rw [hinf] at ha; cases ha⟩

theorem lt_es {es : List Element} {st : List ℝ} (hl : st.length = es.length) {k : ℕ} {e : Element} (h : es[k]? = some e) : k < st.length :=
  hl ▸ Heat.Whole.lt_of_some h

theorem air_steps (es : List Element) (w : Air.Weather) (terrain : Option Air.Terrain) : ∀ (ps : List Air.Prepared) (ss : List Air.Space)
    (i : ℕ) (st : List ℝ), ps.length = ss.length → st.length = es.length →
    (∀ (j : ℕ) (p : Air.Prepared) (s : Air.Space), ps[j]? = some p → ss[j]? = some s →
      Spot es (i + j) p ∧ p.dryBulb = s.dryBulb ∧ Air.resolve terrain s = .ok p.resolver) →
    ∃ st', Air.march w ps st = .ok st' ∧ st'.length = st.length ∧
      (∀ k, (∀ p ∈ ps, k ≠ p.volumeIndex ∧ k ≠ p.temperatureIndex) → st'[k]? = st[k]?) ∧
      ∀ (j : ℕ) (p : Air.Prepared) (s : Air.Space), ps[j]? = some p → ss[j]? = some s →
        (s.infiltration = none → st'[p.volumeIndex]? = st[p.volumeIndex]? ∧ st'[p.temperatureIndex]? = st[p.temperatureIndex]?) ∧
        ∀ inf cs cw, s.infiltration = some inf → Air.Spec.Coefficients s cs cw → ∃ d room, p.dryBulb = some d ∧ st[d]? = some room ∧
          st'[p.volumeIndex]? = some (Air.Spec.flow (Air.siteModifier terrain 1) cs cw room w.dryBulb w.windSpeed inf) ∧
          st'[p.temperatureIndex]? = some w.dryBulb
  | [], ss, i, st, _, _, _ => ⟨st, rfl, rfl, fun _ _ => rfl, fun j p s h => by simp at h⟩
  | p :: ps, [], i, st, h, _, _ => by simp at h
  | p :: ps, s :: ss, i, st, hlen, hl, hall => by
    obtain ⟨spot, e1, e2⟩ := hall 0 p s rfl rfl
    rw [Nat.add_zero] at spot
    obtain ⟨d, d1, d2⟩ := spot.dryBulb
    have hdl : d < st.length := lt_es hl d2
    have hvl := lt_es hl spot.volume
    have htl := lt_es hl spot.temperature
    have hvt : p.volumeIndex ≠ p.temperatureIndex := slot_ne spot.volume spot.temperature (by simp)
    have hrun := fun cs cw hc => Air.run_ok terrain s cs cw hc p e1 e2 w st d st[d] (e1 ▸ d1) (List.getElem?_eq_getElem hdl) hvl htl
      (slot_ne d2 spot.temperature (by simp))
    obtain ⟨cs0, cw0, hc0⟩ := coefficients_of e2
    -- the state after the first space
    obtain ⟨st1, r1, r2, r3, r4, r5⟩ : ∃ st1, p.run w st = .ok st1 ∧ st1.length = st.length ∧
        (∀ k, k ≠ p.volumeIndex → k ≠ p.temperatureIndex → st1[k]? = st[k]?) ∧ (s.infiltration = none → st1 = st) ∧
        ∀ inf cs cw, s.infiltration = some inf → Air.Spec.Coefficients s cs cw →
          st1[p.volumeIndex]? = some (Air.Spec.flow (Air.siteModifier terrain 1) cs cw st[d] w.dryBulb w.windSpeed inf) ∧
          st1[p.temperatureIndex]? = some w.dryBulb := by
      cases hinf : s.infiltration with
      | none => exact ⟨st, (hrun cs0 cw0 hc0).1 hinf, rfl, fun _ _ _ => rfl, fun _ => rfl, fun inf cs cw h => by cases h⟩
      | some inf =>
        refine ⟨_, (hrun cs0 cw0 hc0).2 inf hinf, by simp, ?_, fun h => (by cases h), ?_⟩
        · intro k k1 k2
          rw [List.getElem?_set_ne (Ne.symm k1), List.getElem?_set_ne (Ne.symm k2)]
        · intro inf' cs cw h hc
          cases h
          have := ((hrun cs0 cw0 hc0).2 inf hinf).symm.trans ((hrun cs cw hc).2 inf hinf)
          rw [Outcome.ok.inj this]
          constructor
          · rw [List.getElem?_set_self (by simpa using hvl)]
          · rw [List.getElem?_set_ne hvt, List.getElem?_set_self htl]
    have hall' : ∀ (j : ℕ) (p' : Air.Prepared) (s' : Air.Space), ps[j]? = some p' → ss[j]? = some s' →
        Spot es (i + 1 + j) p' ∧ p'.dryBulb = s'.dryBulb ∧ Air.resolve terrain s' = .ok p'.resolver := by
      intro j p' s' hp hs
      have := hall (j + 1) p' s' (by simpa using hp) (by simpa using hs)
      rwa [show i + (j + 1) = i + 1 + j by omega] at this
    obtain ⟨st', m1, m2, m3, m4⟩ := air_steps es w terrain ps ss (i + 1) st1 (by simpa using hlen) (by rw [r2, hl]) hall'
    have hlen' : ps.length = ss.length := by simpa using hlen
    have later : ∀ p' ∈ ps, ∃ j, Spot es (i + 1 + j) p' := by
      intro p' hp
      obtain ⟨j, hj, e⟩ := List.mem_iff_getElem.1 hp
      exact ⟨j, (hall' j p' (ss[j]'(by omega)) (by rw [← e]; exact List.getElem?_eq_getElem hj) (List.getElem?_eq_getElem _)).1⟩
    have hv' : st'[p.volumeIndex]? = st1[p.volumeIndex]? := m3 _ fun p' hp => by
      obtain ⟨j, sp⟩ := later p' hp
      exact ⟨slot_ne spot.volume sp.volume (by simp; omega), slot_ne spot.volume sp.temperature (by simp)⟩
    have ht' : st'[p.temperatureIndex]? = st1[p.temperatureIndex]? := m3 _ fun p' hp => by
      obtain ⟨j, sp⟩ := later p' hp
      exact ⟨slot_ne spot.temperature sp.volume (by simp), slot_ne spot.temperature sp.temperature (by simp; omega)⟩
    refine ⟨st', ?_, by rw [m2, r2], ?_, ?_⟩
    · rw [Air.march, r1]
      exact m1
    · intro k hk
      rw [m3 k fun p' hp => hk p' (List.mem_cons_of_mem _ hp), r3 k (hk p (by simp)).1 (hk p (by simp)).2]
    · intro j p' s' hp hs
      cases j with
      | zero =>
        obtain rfl : p = p' := by simpa using hp
        obtain rfl : s = s' := by simpa using hs
        refine ⟨fun hn => ?_, fun inf cs cw hi hc => ⟨d, st[d], d1, List.getElem?_eq_getElem hdl, ?_⟩⟩
        · rw [hv', ht', r4 hn]
          exact ⟨rfl, rfl⟩
        · rw [hv', ht']
          exact r5 inf cs cw hi hc
      | succ j =>
        have hp' : ps[j]? = some p' := by simpa using hp
        have hs' : ss[j]? = some s' := by simpa using hs
        obtain ⟨sp, -, -⟩ := hall' j p' s' hp' hs'
        obtain ⟨q1, q2⟩ := m4 j p' s' hp' hs'
        refine ⟨fun hn => ?_, fun inf cs cw hi hc => ?_⟩
        · rw [(q1 hn).1, (q1 hn).2]
          exact ⟨r3 _ (slot_ne sp.volume spot.volume (by simp; omega)) (slot_ne sp.volume spot.temperature (by simp)),
            r3 _ (slot_ne sp.temperature spot.volume (by simp)) (slot_ne sp.temperature spot.temperature (by simp; omega))⟩
        · obtain ⟨d', room, x1, x2, x3⟩ := q2 inf cs cw hi hc
          refine ⟨d', room, x1, ?_, x3⟩
          obtain ⟨d'', y1, y2⟩ := sp.dryBulb
          rw [x1] at y1
          cases y1
          rw [← x2]
          exact (r3 _ (slot_ne y2 spot.volume (by simp)) (slot_ne y2 spot.temperature (by simp))).symm

/-! ## Sun, infrared radiation and air -/

variable {calculated : Bool} {o o' : Objects} {h h' : Header ℚ} {terrain : Option Air.Terrain} {spaces : List Air.Space} {b : Models}

theorem spots (hr : Ready calculated o o' h h' terrain spaces b) (i : ℕ) (p : Air.Prepared) (s : Air.Space) (hp : b.air[i]? = some p)
    (hs : spaces[i]? = some s) : ∃ z, o'.spaces[i]? = some z ∧ z.infiltrationVolume = some p.volumeIndex ∧
      z.infiltrationTemperature = some p.temperatureIndex ∧ z.dryBulb = p.dryBulb ∧
      Spot h'.elements i p ∧ p.dryBulb = s.dryBulb ∧ Air.resolve terrain s = .ok p.resolver := by
  obtain ⟨-, hspace⟩ := Heat.Whole.placed calculated o o' h h' hr.values hr.fresh hr.new hr.nodes
  have hi : i < o'.spaces.length := by
    rw [← hr.count]
    by_contra hc
    rw [List.getElem?_eq_none (by omega)] at hs
    cases hs
  have hz := List.getElem?_eq_getElem hi
  obtain ⟨a1, a2, a3, a4⟩ := hr.air i s _ p hs hz hp
  obtain ⟨⟨k, k1, k2⟩, ⟨l, l1, l2⟩, n, n1, n2⟩ := hspace i _ hz
  have a5 := hr.places i s _ hs hz
  rw [a2] at l1
  rw [a3] at n1
  cases l1
  cases n1
  exact ⟨_, hz, a2, a3, by rw [a1, a5], ⟨⟨k, by rw [a1, a5, k1], k2⟩, l2, n2⟩, a1, a4⟩

theorem nodes_synced {es : List Element} {st st2 : List ℝ}
    (hnode : ∀ (kind : Kind) (i j : ℕ) (k : ℕ), es[k]? = some (elementOf (.node kind i j)) → st2[k]? = st[k]?) :
    ∀ {ws : List Heat.Whole.ThermalWall} {mems : List Heat.SurfaceMemory},
    (∀ tw ∈ ws, ∃ kind i, Heat.Whole.At es kind i tw.parent) → List.Forall₂ (Heat.Whole.Spec.InSync st) ws mems →
    List.Forall₂ (Heat.Whole.Spec.InSync st2) ws mems := by
  intro ws mems hat h
  refine Heat.Whole.forall₂_imp_mem (fun tw ht mem hm => ⟨hm.1, fun j hj => ?_⟩) h
  obtain ⟨kind, i, ha⟩ := hat tw ht
  obtain ⟨a, a1, -, a3⟩ := ha.ends
  rw [hm.2 j hj, a1, Option.getD_some]
  exact (hnode kind i j _ (a3 j hj)).symm

theorem at_surfaces (hr : Ready calculated o o' h h' terrain spaces b) (tw : Heat.Whole.ThermalWall) (ht : tw ∈ b.thermal.surfaces) :
    ∃ i : ℕ, (walls o' .surface)[i]? = some tw.parent ∧ Heat.Whole.At h'.elements .surface i tw.parent := by
  obtain ⟨hplaced, -⟩ := Heat.Whole.placed calculated o o' h h' hr.values hr.fresh hr.new hr.nodes
  have : tw.parent ∈ o'.surfaces := by rw [← hr.thermal.surfaces]; exact List.mem_map.2 ⟨tw, ht, rfl⟩
  obtain ⟨i, hi, e⟩ := List.mem_iff_getElem.1 this
  have e' : (walls o' .surface)[i]? = some tw.parent := by rw [← e]; exact List.getElem?_eq_getElem hi
  exact ⟨i, e', (hplaced .surface i _ e' (by simp)).1⟩

theorem at_fenestrations (hr : Ready calculated o o' h h' terrain spaces b) (tw : Heat.Whole.ThermalWall) (ht : tw ∈ b.thermal.fenestrations) :
    ∃ i : ℕ, (walls o' .fenestration)[i]? = some tw.parent ∧ Takes .fenestration tw.parent ∧
      Heat.Whole.At h'.elements .fenestration i tw.parent := by
  obtain ⟨hplaced, -⟩ := Heat.Whole.placed calculated o o' h h' hr.values hr.fresh hr.new hr.nodes
  have : tw.parent ∈ o'.fenestrations.filter fun w => !w.opening := by rw [← hr.thermal.fenestrations]; exact List.mem_map.2 ⟨tw, ht, rfl⟩
  obtain ⟨this, hop⟩ := List.mem_filter.1 this
  obtain ⟨i, hi, e⟩ := List.mem_iff_getElem.1 this
  have e' : (walls o' .fenestration)[i]? = some tw.parent := by rw [← e]; exact List.getElem?_eq_getElem hi
  have hno : ¬(Kind.fenestration = .fenestration ∧ tw.parent.opening = true) := by rintro ⟨-, h⟩; rw [h] at hop; simp at hop
  exact ⟨i, e', hno, (hplaced .fenestration i _ e' hno).1⟩

theorem updated (hr : Ready calculated o o' h h' terrain spaces b)
    (coefficients : (kind : Kind) → Side → Matrix (Fin (walls o' kind).length) (Fin (Weather.Reinhart.nBins b.solar.mf)) ℝ)
    (now : Moment) (V : Matrix (Fin (Weather.Reinhart.nBins b.solar.mf)) (Fin 1) ℝ) (hlit : Lit o' b.solar coefficients now.sky V)
    (st : List ℝ) (hl : st.length = h'.elements.length) :
    ∃ st2, ((Light.March.march b.solar b.lit now.sky st).bind fun st => Air.march now.air b.air st) = .ok st2 ∧
      Updated o' h'.elements terrain spaces b coefficients now V st st2 := by
  have hb : b.lit = ⟨walls o', b.lit.boundary⟩ := by rw [← hr.lit]
  obtain ⟨hplaced, hspace⟩ := Heat.Whole.placed calculated o o' h h' hr.values hr.fresh hr.new hr.nodes
  -- light
  obtain ⟨st1, l1, ⟨l2, l3, l4⟩, l5⟩ : ∃ st1, Light.March.march b.solar b.lit now.sky st = .ok st1 ∧
      Light.March.Spec.Infrared o' h' b.lit.boundary b.solar now.sky st st1 ∧
      ∀ (kind : Kind) (i : Fin (walls o' kind).length) (s : Side), Takes kind (walls o' kind)[i] →
        ∃ old, value o' st (.wall kind i s .sun) = some old ∧ value o' st1 (.wall kind i s .sun) =
          some (if now.sky.directNormal + now.sky.diffuseHorizontal < 1 / 10 ^ 4 then 0
            else sunAfter kind (b.lit.boundary kind i s) (∑ j, coefficients kind s i j * V j 0) old) := by
    by_cases hd : now.sky.directNormal + now.sky.diffuseHorizontal < 1 / 10 ^ 4
    · obtain ⟨st1, a1, a2, a3⟩ := Light.March.C103_night calculated o o' h h' hr.values hr.fresh hr.new hr.nodes b.lit.boundary b.solar hr.views
        now.sky hd st hl
      refine ⟨st1, by rw [hb]; exact a1, a2, fun kind i s ht => ?_⟩
      simp only [if_pos hd]
      rw [a3 kind i s ht]
      have hi : (walls o' kind)[(i : ℕ)]? = some (walls o' kind)[i] := by simp
      obtain ⟨k, k1, k2⟩ := (hplaced kind i _ hi ht).1.fields s .sun
      refine ⟨st[k]'(lt_es hl k2), ?_, rfl⟩
      simp only [value, place, hi, Option.bind_some, k1]
      exact List.getElem?_eq_getElem (lt_es hl k2)
    · obtain ⟨f1, vec, f2, f3⟩ := hlit (not_lt.1 hd)
      obtain ⟨st1, a1, a2, a3⟩ := Light.March.C103_day_partial calculated o o' h h' hr.values hr.fresh hr.new hr.nodes b.lit.boundary b.solar coefficients f1
        now.sky (not_lt.1 hd) vec V f2 f3 st hl
      refine ⟨st1, by rw [hb]; exact a1, a2, fun kind i s ht => ?_⟩
      simp only [if_neg hd]
      exact a3 kind i s ht
  -- air
  obtain ⟨st2, a1, a2, a3, a4⟩ := air_steps h'.elements now.air terrain b.air spaces 0 st1 (by rw [hr.prepared, hr.count]) (by rw [l2, hl])
    fun j p s hp hs => by
      rw [Nat.zero_add]
      obtain ⟨z, -, -, -, -, q1, q2, q3⟩ := spots hr j p s hp hs
      exact ⟨q1, q2, q3⟩
  have spotOf : ∀ p ∈ b.air, ∃ i, Spot h'.elements i p := by
    intro p hp
    obtain ⟨j, hj, e⟩ := List.mem_iff_getElem.1 hp
    have hj' : j < spaces.length := by rw [hr.count, ← hr.prepared]; exact hj
    obtain ⟨z, -, -, -, -, q1, -, -⟩ := spots hr j p spaces[j] (by rw [← e]; exact List.getElem?_eq_getElem hj) (List.getElem?_eq_getElem hj')
    exact ⟨j, q1⟩
  -- the air changes no other quantity
  have hother : ∀ (k : ℕ), (∀ i, h'.elements[k]? ≠ some (elementOf (.infiltrationVolume i))) →
      (∀ i, h'.elements[k]? ≠ some (elementOf (.infiltrationTemperature i))) → st2[k]? = st1[k]? := by
    intro k k1 k2
    refine a3 k fun p hp => ?_
    obtain ⟨i, sp⟩ := spotOf p hp
    exact ⟨fun e => k1 i (e ▸ sp.volume), fun e => k2 i (e ▸ sp.temperature)⟩
  have hwall : ∀ (kind : Kind) (i : ℕ) (w : Wall) (s : Side) (q : Quantity), (walls o' kind)[i]? = some w → Takes kind w →
      value o' st2 (.wall kind i s q) = value o' st1 (.wall kind i s q) := by
    intro kind i w s q hi ht
    obtain ⟨k, k1, k2⟩ := (hplaced kind i w hi ht).1.fields s q
    simp only [value, place, hi, Option.bind_some, k1]
    refine hother k (fun j e => ?_) fun j e => ?_ <;>
    · rw [k2] at e
      have := elementOf_injective (Option.some.inj e)
      cases this
  -- and the light changes nothing of the air
  have hlight : ∀ (k : ℕ) (s : Slot), h'.elements[k]? = some (elementOf s) → (∀ kind i a q, s ≠ .wall kind i a q) → st1[k]? = st[k]? := by
    intro k s hk hs
    refine l4 k fun kind i a q _ e => ?_
    rw [hk] at e
    exact hs kind i a q (elementOf_injective (Option.some.inj e))
  have hpick : ∀ (i : ℕ) (s : Air.Space), spaces[i]? = some s → ∃ p, b.air[i]? = some p := by
    intro i s hs
    have hi : i < b.air.length := by
      rw [hr.prepared, ← hr.count]
      by_contra hc
      rw [List.getElem?_eq_none (by omega)] at hs
      cases hs
    exact ⟨_, List.getElem?_eq_getElem hi⟩
  refine ⟨st2, ?_, ⟨by rw [a2, l2], ?_, ?_, ?_, ?_, ?_⟩⟩
  · rw [l1]
    exact a1
  · intro kind i w s v hi ht hv
    rw [hwall kind i w s .infrared hi ht]
    exact l3 kind i w s v hi ht hv
  · intro kind i s ht
    have hi : (walls o' kind)[(i : ℕ)]? = some (walls o' kind)[i] := by simp
    rw [hwall kind i _ s .sun hi ht]
    exact l5 kind i s ht
  · intro i s hs hn
    obtain ⟨p, hp⟩ := hpick i s hs
    obtain ⟨z, z1, z2, z3, -, sp, -, -⟩ := spots hr i p s hp hs
    have := (a4 i p s hp hs).1 hn
    simp only [value, place, z1, Option.bind_some, z2, z3]
    rw [this.1, this.2]
    exact ⟨hlight _ _ sp.volume (by simp), hlight _ _ sp.temperature (by simp)⟩
  · intro i s inf cs cw hs hinf hc
    obtain ⟨p, hp⟩ := hpick i s hs
    obtain ⟨z, z1, z2, z3, z4, sp, -, -⟩ := spots hr i p s hp hs
    obtain ⟨d, room, d1, d2, d3, d4⟩ := (a4 i p s hp hs).2 inf cs cw hinf hc
    obtain ⟨d', e1, e2⟩ := sp.dryBulb
    rw [d1] at e1
    cases e1
    refine ⟨room, ?_, ?_, ?_⟩
    · simp only [value, place, z1, Option.bind_some, z4, d1]
      rw [← hlight _ _ e2 (by simp), d2]
    · simp only [value, place, z1, Option.bind_some, z2]
      exact d3
    · simp only [value, place, z1, Option.bind_some, z3]
      exact d4
  · intro k hk
    rw [hother k (fun i => hk _ trivial) fun i => hk _ trivial]
    exact l4 k fun kind i s q hq => hk (.wall kind i s q) hq

/-! ## The step -/

/-- **C105.**  For any building whose models were built, any state of it whose nodes the heat model has in memory, and any
weather: a step first brings the surroundings of walls and rooms up to date, each from the temperatures before the step; from
there the heat model does what its parts do, each object with its own values; it succeeds if they do, and only then; and
all that is neither temperature, convection, heat flow, radiation nor infiltration stays as it was. -/
theorem C105_step (hr : Ready calculated o o' h h' terrain spaces b)
    (coefficients : (kind : Kind) → Side → Matrix (Fin (walls o' kind).length) (Fin (Weather.Reinhart.nBins b.solar.mf)) ℝ)
    (now : Moment) (V : Matrix (Fin (Weather.Reinhart.nBins b.solar.mf)) (Fin 1) ℝ) (hlit : Lit o' b.solar coefficients now.sky V)
    (mem : Heat.Whole.Memory) (st : List ℝ) (hl : st.length = h'.elements.length) (hs : Heat.Whole.Spec.Synced b.thermal mem st) :
    ∃ between, Updated o' h'.elements terrain spaces b coefficients now V st between ∧
      (∀ hs, Heat.HeatState.march b.tiny b.cav b.index b.dt now.heat (Heat.Whole.Spec.apart b.thermal mem between) = .ok hs →
        ∃ mem' st', march b now mem st = .ok (mem', st') ∧ Heat.Whole.Spec.apart b.thermal mem' st' = hs ∧
          Heat.Whole.Spec.Synced b.thermal mem' st' ∧ st'.length = st.length ∧
          (∀ k : ℕ, (∀ s, Heat.Whole.Spec.Thermal s → h'.elements[k]? ≠ some (elementOf s)) → st'[k]? = between[k]?) ∧
          ∀ k : ℕ, (∀ s, h'.elements[k]? ≠ some (elementOf s)) → st'[k]? = st[k]?) ∧
      ∀ r, march b now mem st = .ok r →
        ∃ hs, Heat.HeatState.march b.tiny b.cav b.index b.dt now.heat (Heat.Whole.Spec.apart b.thermal mem between) = .ok hs := by
  obtain ⟨st2, e1, e2⟩ := updated hr coefficients now V hlit st hl
  obtain ⟨hW, hT⟩ := Heat.Whole.C104_wired calculated o o' h h' hr.values hr.fresh hr.new hr.nodes b.thermal hr.thermal
  have hl2 : st2.length = h'.elements.length := by rw [e2.length, hl]
  have hnode : ∀ (kind : Kind) (i j : ℕ) (k : ℕ), h'.elements[k]? = some (elementOf (.node kind i j)) → st2[k]? = st[k]? := by
    intro kind i j k hk
    refine e2.rest k fun s ho e => ?_
    rw [hk] at e
    have := elementOf_injective (Option.some.inj e)
    subst this
    exact ho
  have hs2 : Heat.Whole.Spec.Synced b.thermal mem st2 :=
    ⟨nodes_synced hnode (fun tw ht => ⟨_, _, (at_surfaces hr tw ht).choose_spec.2⟩) hs.surfaces,
      nodes_synced hnode (fun tw ht => ⟨_, _, (at_fenestrations hr tw ht).choose_spec.2.2⟩) hs.fenestrations⟩
  have hm : march b now mem st = Heat.Whole.march b.thermal b.tiny b.cav b.index b.dt now.heat mem st2 := by
    unfold march
    cases hx : Light.March.march b.solar b.lit now.sky st with
    | err => rw [hx] at e1; cases e1
    | panic => rw [hx] at e1; cases e1
    | ok st1 =>
      rw [hx] at e1
      simp only [Outcome.bind] at e1 ⊢
      rw [e1]
  obtain ⟨m1, m2⟩ := Heat.Whole.C104_march b.tiny b.cav b.index b.dt now.heat mem st2 (by rw [hl2]; exact hW) hs2
  have hkeep : ∀ k : ℕ, (∀ s, Heat.Whole.Spec.Thermal s → h'.elements[k]? ≠ some (elementOf s)) → k ∉ Heat.Whole.Spec.writes b.thermal := by
    intro k hk hin
    obtain ⟨s, s1, s2⟩ := hT k hin
    exact hk s s1 s2
  refine ⟨st2, e2, ?_, ?_⟩
  · intro hs' hx
    obtain ⟨mem', st', n1, n2, n3, n4, n5⟩ := m1 hs' hx
    refine ⟨mem', st', by rw [hm]; exact n1, n2, n3, by rw [n4, e2.length], fun k hk => n5 k (hkeep k hk), fun k hk => ?_⟩
    rw [n5 k (hkeep k fun s _ => hk s), e2.rest k fun s _ => hk s]
  · intro r hx
    rw [hm] at hx
    exact m2 r hx

end
end Simple.Physics
