import Verif.Heat.WholeRunProps

/-! # C104: the heat model of a building finds everything in its place -/

namespace Simple.Heat.Whole

open Simple.Building Wiring State Spec

noncomputable section

namespace Spec

/-- The model of heat of a building whose objects have the places of `o`, in a state with the elements `es`: a thermal surface
for each surface, a thermal fenestration for each that is not an opening, a room for each space; the ventilation of spaces,
heaters and luminaires have the places of their own elements, or none. -/
structure Built (m : ThermalModel) (o : Objects) (es : List Element) : Prop where
  surfaces : m.surfaces.map ThermalWall.parent = o.surfaces
  fenestrations : m.fenestrations.map ThermalWall.parent = o.fenestrations.filter fun w => !w.opening
  rooms : m.rooms.map Room.places = o.spaces
  ventilation : ∀ z ∈ m.rooms, ∀ k, z.ventilationTemperature = some k ∨ z.ventilationVolume = some k →
    ∃ i, es[k]? = some (.spaceVentilationTemperature i) ∨ es[k]? = some (.spaceVentilationVolume i)
  powers : ∀ a ∈ m.hvacs ++ m.luminaires, ∀ k, a.power = some k →
    ∃ i, es[k]? = some (.heatingCoolingPowerConsumption i) ∨ es[k]? = some (.luminairePowerConsumption i)

/-- What the heat model writes: temperatures of nodes and rooms, convection coefficients and heat flows. -/
def Thermal : Wiring.Spec.Slot → Prop
  | .wall _ _ _ q => q = .convection ∨ q = .heatFlow
  | .node _ _ _ => True
  | .dryBulb _ => True
  | _ => False

end Spec

open Wiring.Spec (Slot elementOf walls place Has Fresh)

/-- The quantities that are written for a surface. -/
def slotsOf (kind : Kind) (i nodes : ℕ) : List Slot :=
  (List.range nodes).map (Slot.node kind i) ++
    [.wall kind i .front .convection, .wall kind i .back .convection, .wall kind i .front .heatFlow, .wall kind i .back .heatFlow]

theorem slotsOf_nodup (kind : Kind) (i nodes : ℕ) : (slotsOf kind i nodes).Nodup := by
  unfold slotsOf
  rw [List.nodup_append]
  refine ⟨List.Nodup.map (fun a b h => by cases h; rfl) List.nodup_range, by simp, ?_⟩
  intro a ha b hb
  obtain ⟨j, -, rfl⟩ := List.mem_map.1 ha
  simp only [List.mem_cons, List.not_mem_nil, or_false] at hb
  rcases hb with rfl | rfl | rfl | rfl <;> simp

/-- Which surface a quantity belongs to. -/
def owner : Slot → Option (Kind × ℕ)
  | .wall kind i _ _ => some (kind, i)
  | .node kind i _ => some (kind, i)
  | _ => none

theorem slotsOf_mem {kind : Kind} {i nodes : ℕ} {s : Slot} (h : s ∈ slotsOf kind i nodes) : owner s = some (kind, i) ∧ Thermal s := by
  rcases List.mem_append.1 h with h | h
  · obtain ⟨j, -, rfl⟩ := List.mem_map.1 h
    exact ⟨rfl, trivial⟩
  · simp only [List.mem_cons, List.not_mem_nil, or_false] at h
    rcases h with rfl | rfl | rfl | rfl <;> simp [owner, Thermal]

/-- All the quantities that are written. -/
def slots (o : Objects) : List Slot :=
  o.surfaces.zipIdx.flatMap (fun x => slotsOf .surface x.2 x.1.nodes) ++
    (o.fenestrations.zipIdx.filter fun x => !x.1.opening).flatMap (fun x => slotsOf .fenestration x.2 x.1.nodes) ++
    (List.range o.spaces.length).map Slot.dryBulb

theorem slots_group (kind : Kind) (l : List (Wiring.Wall × ℕ)) (h : l.Pairwise fun a b => a.2 ≠ b.2) :
    (l.flatMap fun x => slotsOf kind x.2 x.1.nodes).Nodup := by
  rw [List.nodup_flatMap]
  refine ⟨fun x _ => slotsOf_nodup _ _ _, h.imp fun {a b} hab s hs hs' => ?_⟩
  have := (slotsOf_mem hs).1.symm.trans (slotsOf_mem hs').1
  simp only [Option.some.injEq, Prod.mk.injEq, true_and] at this
  exact hab this

theorem zipIdx_pairwise (l : List Wiring.Wall) : l.zipIdx.Pairwise fun a b => a.2 ≠ b.2 := by
  have h : (l.zipIdx.map Prod.snd).Nodup := by
    rw [List.zipIdx_map_snd]
    exact List.nodup_range'
  exact List.pairwise_map.1 h

theorem slots_nodup (o : Objects) : (slots o).Nodup := by
  unfold slots
  rw [List.nodup_append, List.nodup_append]
  refine ⟨⟨slots_group _ _ (zipIdx_pairwise _), slots_group _ _ ((zipIdx_pairwise _).filter _), ?_⟩,
    List.Nodup.map (fun a b h => by cases h; rfl) List.nodup_range, ?_⟩
  · rintro s hs _ hs' rfl
    obtain ⟨x, -, hx⟩ := List.mem_flatMap.1 hs
    obtain ⟨y, -, hy⟩ := List.mem_flatMap.1 hs'
    have := (slotsOf_mem hx).1.symm.trans (slotsOf_mem hy).1
    simp at this
  · rintro s hs _ hs' rfl
    obtain ⟨i, -, rfl⟩ := List.mem_map.1 hs'
    rcases List.mem_append.1 hs with hs | hs
    · obtain ⟨x, -, hx⟩ := List.mem_flatMap.1 hs
      have := (slotsOf_mem hx).1
      simp [owner] at this
    · obtain ⟨x, -, hx⟩ := List.mem_flatMap.1 hs
      have := (slotsOf_mem hx).1
      simp [owner] at this

theorem slots_thermal {o : Objects} {s : Slot} (h : s ∈ slots o) : Thermal s := by
  unfold slots at h
  rcases List.mem_append.1 h with h | h
  · rcases List.mem_append.1 h with h | h
    · obtain ⟨x, -, hx⟩ := List.mem_flatMap.1 h
      exact (slotsOf_mem hx).2
    · obtain ⟨x, -, hx⟩ := List.mem_flatMap.1 h
      exact (slotsOf_mem hx).2
  · obtain ⟨i, -, rfl⟩ := List.mem_map.1 h
    trivial

/-- A wall with all its places, each holding its element. -/
structure At (es : List Element) (kind : Kind) (i : ℕ) (w : Wiring.Wall) : Prop where
  fields : ∀ s q, ∃ k, w.field s q = some k ∧ es[k]? = some (elementOf (.wall kind i s q))
  ends : ∃ a, w.first = some a ∧ w.last = some (a + w.nodes - 1) ∧ ∀ j < w.nodes, es[a + j]? = some (elementOf (.node kind i j))

theorem lt_of_some {es : List Element} {k : ℕ} {e : Element} (h : es[k]? = some e) : k < es.length := by
  by_contra hc
  rw [List.getElem?_eq_none (by omega)] at h
  cases h

theorem At.complete {es : List Element} {kind : Kind} {i : ℕ} {w : Wiring.Wall} (h : At es kind i w) (hn : 0 < w.nodes) :
    Complete es.length w := by
  obtain ⟨a, a1, a2, a3⟩ := h.ends
  refine ⟨fun s q => ?_, hn, a, a1, a2, ?_⟩
  · obtain ⟨k, k1, k2⟩ := h.fields s q
    exact ⟨k, k1, lt_of_some k2⟩
  · have := lt_of_some (a3 (w.nodes - 1) (by omega))
    omega

theorem At.keys {es : List Element} {kind : Kind} {i : ℕ} {w : Wiring.Wall} (h : At es kind i w) :
    (Spec.keys w).map (es[·]?) = (slotsOf kind i w.nodes).map fun s => some (elementOf s) := by
  obtain ⟨a, a1, a2, a3⟩ := h.ends
  unfold Spec.keys slotsOf
  rw [List.map_append, List.map_append, List.map_map, List.map_map]
  congr 1
  · apply List.map_congr_left
    intro j hj
    simp only [Function.comp_apply, a1, Option.getD_some]
    exact a3 j (List.mem_range.1 hj)
  · have f : ∀ s q, es[(w.field s q).getD 0]? = some (elementOf (.wall kind i s q)) := by
      intro s q
      obtain ⟨k, k1, k2⟩ := h.fields s q
      rw [k1]
      exact k2
    simp only [List.map_cons, List.map_nil, f]

theorem filter_zipIdx (l : List Wiring.Wall) : ((l.zipIdx.filter fun x => !x.1.opening).map Prod.fst) = l.filter fun w => !w.opening := by
  rw [show (fun x : Wiring.Wall × ℕ => !x.1.opening) = (fun w : Wiring.Wall => !w.opening) ∘ Prod.fst from rfl, ← List.filter_map,
    List.zipIdx_map_fst]

theorem flatMap_via {α : Type} (f : α → Wiring.Wall) (l : List α) : l.flatMap (fun x => Spec.keys (f x)) = (l.map f).flatMap Spec.keys := by
  induction l with
  | nil => rfl
  | cons a l ih => rw [List.flatMap_cons, ih, List.map_cons, List.flatMap_cons]

/-- Where the objects have their quantities, once the models are built. -/
theorem placed (calculated : Bool) (o o' : Objects) (h h' : Header ℚ) (hv : h.defaultValues ≠ none) (hf : Fresh o)
    (hn : physicsNew calculated o h = .ok (o', h')) (hnodes : ∀ kind, ∀ w ∈ walls o kind, ¬(kind = .fenestration ∧ w.opening = true) → 0 < w.nodes) :
    (∀ (kind : Kind) (i : ℕ) (w : Wiring.Wall), (walls o' kind)[i]? = some w → ¬(kind = .fenestration ∧ w.opening = true) →
      At h'.elements kind i w ∧ 0 < w.nodes) ∧
    ∀ (i : ℕ) (z : Wiring.Zone), o'.spaces[i]? = some z →
      (∃ k, z.dryBulb = some k ∧ h'.elements[k]? = some (elementOf (.dryBulb i))) ∧
      (∃ k, z.infiltrationVolume = some k ∧ h'.elements[k]? = some (elementOf (.infiltrationVolume i))) ∧
      ∃ k, z.infiltrationTemperature = some k ∧ h'.elements[k]? = some (elementOf (.infiltrationTemperature i)) := by
  obtain ⟨o2, h2, w1, -, wl, ww, w3, w4, -⟩ := C90_wired calculated o h hv hf
  rw [hn] at w1
  cases w1
  -- nodes are the same
  have hold : ∀ (kind : Kind) (i : ℕ) (w : Wiring.Wall), (walls o' kind)[i]? = some w → ∃ w0, (walls o kind)[i]? = some w0 ∧
      w0.opening = w.opening ∧ w0.nodes = w.nodes := by
    intro kind i w hw
    have := congrArg (fun l => l[i]?) (ww kind)
    simp only [List.getElem?_map, hw, Option.map_some] at this
    cases hw0 : (walls o kind)[i]? with
    | none => rw [hw0] at this; cases this
    | some w0 =>
      rw [hw0] at this
      simp only [Option.map_some, Option.some.injEq, Prod.mk.injEq] at this
      exact ⟨w0, rfl, this.1.symm, this.2.symm⟩
  have hpos : ∀ (kind : Kind) (i : ℕ) (w : Wiring.Wall), (walls o' kind)[i]? = some w → ¬(kind = .fenestration ∧ w.opening = true) →
      0 < w.nodes := by
    intro kind i w hw hno
    obtain ⟨w0, a, b, c⟩ := hold kind i w hw
    rw [← c]
    exact hnodes kind w0 (List.mem_of_getElem? a) (by rw [b]; exact hno)
  have hat : ∀ (kind : Kind) (i : ℕ) (w : Wiring.Wall), (walls o' kind)[i]? = some w → ¬(kind = .fenestration ∧ w.opening = true) →
      At h'.elements kind i w := by
    intro kind i w hw hno
    obtain ⟨w0, a, b, c⟩ := hold kind i w hw
    constructor
    · intro s q
      obtain ⟨k, k1, k2⟩ := w3 (.wall kind i s q) ⟨w0, a, fun hx => absurd ⟨hx.1, by rw [← b]; exact hx.2⟩ hno⟩
      simp only [place, hw, Option.bind_some] at k1
      exact ⟨k, k1, k2⟩
    · obtain ⟨f, f1, f2⟩ := w4 kind i w hw hno
      refine ⟨f, f1, f2, fun j hj => ?_⟩
      obtain ⟨k, k1, k2⟩ := w3 (.node kind i j) ⟨w0, a, fun hx => hno ⟨hx.1, by rw [← b]; exact hx.2⟩, by rw [c]; exact hj⟩
      simp only [place, hw, Option.bind_some, f1, Option.map_some, Option.some.injEq] at k1
      rw [k1]
      exact k2
  have hspace : ∀ (i : ℕ) (z : Wiring.Zone), o'.spaces[i]? = some z →
      (∃ k, z.dryBulb = some k ∧ h'.elements[k]? = some (elementOf (.dryBulb i))) ∧
      (∃ k, z.infiltrationVolume = some k ∧ h'.elements[k]? = some (elementOf (.infiltrationVolume i))) ∧
      ∃ k, z.infiltrationTemperature = some k ∧ h'.elements[k]? = some (elementOf (.infiltrationTemperature i)) := by
    intro i z hz
    have hi : i < o.spaces.length := by
      rw [← wl]
      by_contra hc
      rw [List.getElem?_eq_none (by omega)] at hz
      cases hz
    obtain ⟨k, k1, k2⟩ := w3 (.dryBulb i) hi
    obtain ⟨l, l1, l2⟩ := w3 (.infiltrationVolume i) hi
    obtain ⟨n, n1, n2⟩ := w3 (.infiltrationTemperature i) hi
    simp only [place, hz, Option.bind_some] at k1 l1 n1
    exact ⟨⟨k, k1, k2⟩, ⟨l, l1, l2⟩, n, n1, n2⟩
  exact ⟨fun kind i w hw ht => ⟨hat kind i w hw ht, hpos kind i w hw ht⟩, hspace⟩

/-- **C104.**  In a building whose models were built, whose surfaces have nodes, everything that the heat model reads and writes
has its own place in the state: what C104 asks for.  Whatever it writes is the temperature of a node or of a room, a convection
coefficient or a heat flow. -/
theorem C104_wired (calculated : Bool) (o o' : Objects) (h h' : Header ℚ) (hv : h.defaultValues ≠ none) (hf : Fresh o)
    (hn : physicsNew calculated o h = .ok (o', h')) (hnodes : ∀ kind, ∀ w ∈ walls o kind, ¬(kind = .fenestration ∧ w.opening = true) → 0 < w.nodes)
    (m : ThermalModel) (hm : Built m o' h'.elements) :
    Wired m h'.elements.length ∧ ∀ k ∈ writes m, ∃ s, Thermal s ∧ h'.elements[k]? = some (elementOf s) := by
  obtain ⟨hplaced, hspace⟩ := placed calculated o o' h h' hv hf hn hnodes
  have hat : ∀ (kind : Kind) (i : ℕ) (w : Wiring.Wall), (walls o' kind)[i]? = some w → ¬(kind = .fenestration ∧ w.opening = true) →
      At h'.elements kind i w := fun kind i w hw ht => (hplaced kind i w hw ht).1
  have hpos : ∀ (kind : Kind) (i : ℕ) (w : Wiring.Wall), (walls o' kind)[i]? = some w → ¬(kind = .fenestration ∧ w.opening = true) →
      0 < w.nodes := fun kind i w hw ht => (hplaced kind i w hw ht).2
  set es := h'.elements with hes
  have hsurf : ∀ tw ∈ m.surfaces, ∃ i, At es .surface i tw.parent ∧ 0 < tw.parent.nodes := by
    intro tw ht
    have : tw.parent ∈ o'.surfaces := by rw [← hm.surfaces]; exact List.mem_map.2 ⟨tw, ht, rfl⟩
    obtain ⟨i, hi, e⟩ := List.mem_iff_getElem.1 this
    have e' : (walls o' .surface)[i]? = some tw.parent := by rw [← e]; exact List.getElem?_eq_getElem hi
    exact ⟨i, hat .surface i _ e' (by simp), hpos .surface i _ e' (by simp)⟩
  have hfen : ∀ tw ∈ m.fenestrations, ∃ i, At es .fenestration i tw.parent ∧ 0 < tw.parent.nodes := by
    intro tw ht
    have : tw.parent ∈ o'.fenestrations.filter fun w => !w.opening := by rw [← hm.fenestrations]; exact List.mem_map.2 ⟨tw, ht, rfl⟩
    obtain ⟨this, hop⟩ := List.mem_filter.1 this
    obtain ⟨i, hi, e⟩ := List.mem_iff_getElem.1 this
    have e' : (walls o' .fenestration)[i]? = some tw.parent := by rw [← e]; exact List.getElem?_eq_getElem hi
    have hno : ¬(Kind.fenestration = .fenestration ∧ tw.parent.opening = true) := by rintro ⟨-, h⟩; rw [h] at hop; simp at hop
    exact ⟨i, hat .fenestration i _ e' hno, hpos .fenestration i _ e' hno⟩
  have hroom : ∀ z ∈ m.rooms, ∃ i : ℕ, o'.spaces[i]? = some z.places := by
    intro z hz
    have : z.places ∈ o'.spaces := by rw [← hm.rooms]; exact List.mem_map.2 ⟨z, hz, rfl⟩
    obtain ⟨i, hi, e⟩ := List.mem_iff_getElem.1 this
    exact ⟨i, by rw [← e]; exact List.getElem?_eq_getElem hi⟩
  -- the elements at the places that are written
  have hwrites : (writes m).map (es[·]?) = (slots o').map fun s => some (elementOf s) := by
    have e1 : m.surfaces.flatMap (fun tw => Spec.keys tw.parent) = o'.surfaces.zipIdx.flatMap fun x => Spec.keys x.1 := by
      rw [flatMap_via ThermalWall.parent, hm.surfaces, flatMap_via Prod.fst, List.zipIdx_map_fst]
    have e2 : m.fenestrations.flatMap (fun tw => Spec.keys tw.parent) =
        (o'.fenestrations.zipIdx.filter fun x => !x.1.opening).flatMap fun x => Spec.keys x.1 := by
      rw [flatMap_via ThermalWall.parent, hm.fenestrations, flatMap_via Prod.fst, filter_zipIdx]
    have e3 : m.rooms.map (fun z => z.places.dryBulb.getD 0) = o'.spaces.map fun z => z.dryBulb.getD 0 := by
      rw [← hm.rooms, List.map_map]
      rfl
    unfold writes slots
    rw [e1, e2, e3, List.map_append, List.map_append, List.map_append, List.map_append, List.map_flatMap, List.map_flatMap,
      List.map_flatMap, List.map_flatMap, List.map_map, List.map_map]
    congr 1
    · congr 1
      · apply List.flatMap_congr
        intro x hx
        exact (hat .surface x.2 x.1 (List.mem_zipIdx_iff_getElem?.1 hx) (by simp)).keys
      · apply List.flatMap_congr
        intro x hx
        obtain ⟨hx, hop⟩ := List.mem_filter.1 hx
        exact (hat .fenestration x.2 x.1 (List.mem_zipIdx_iff_getElem?.1 hx) (by rintro ⟨-, h⟩; rw [h] at hop; simp at hop)).keys
    · apply List.ext_getElem?
      intro i
      rw [List.getElem?_map, List.getElem?_map]
      cases hz : o'.spaces[i]? with
      | none =>
        rw [List.getElem?_eq_none (by
          have := List.getElem?_eq_none_iff.1 hz
          simpa using this)]
        rfl
      | some z =>
        obtain ⟨⟨k, k1, k2⟩, -, -⟩ := hspace i z hz
        have hi : i < o'.spaces.length := by
          by_contra hc
          rw [List.getElem?_eq_none (by omega)] at hz
          cases hz
        rw [List.getElem?_range hi]
        simp only [Option.map_some, Function.comp_apply, k1, Option.getD_some, k2]
  have hmem : ∀ k ∈ writes m, ∃ s, Thermal s ∧ es[k]? = some (elementOf s) := by
    intro k hk
    have : es[k]? ∈ (writes m).map (es[·]?) := List.mem_map.2 ⟨k, hk, rfl⟩
    rw [hwrites] at this
    obtain ⟨s, s1, s2⟩ := List.mem_map.1 this
    exact ⟨s, slots_thermal s1, s2.symm⟩
  have hnot : ∀ (k : ℕ) (s : Slot), es[k]? = some (elementOf s) → ¬Thermal s → k ∉ writes m := by
    intro k s hk hs hin
    obtain ⟨s', t1, t2⟩ := hmem k hin
    rw [hk] at t2
    exact hs (by rw [elementOf_injective (Option.some.inj t2)]; exact t1)
  have hnot' : ∀ (k : ℕ) (e : Element), es[k]? = some e → (∀ s, e ≠ elementOf s) → k ∉ writes m := by
    intro k e hk hs hin
    obtain ⟨s', -, t2⟩ := hmem k hin
    rw [hk] at t2
    exact hs s' (Option.some.inj t2)
  refine ⟨⟨?_, ?_, ?_, ?_, ?_, ?_, ?_⟩, hmem⟩
  · intro tw ht
    obtain ⟨i, a, b⟩ := hsurf tw ht
    exact a.complete b
  · intro tw ht
    obtain ⟨i, a, b⟩ := hfen tw ht
    exact a.complete b
  · intro z hz
    obtain ⟨i, hi⟩ := hroom z hz
    obtain ⟨⟨k, k1, k2⟩, -, -⟩ := hspace i _ hi
    exact ⟨k, k1, lt_of_some k2⟩
  · apply List.Nodup.of_map (es[·]?)
    rw [hwrites]
    exact (slots_nodup o').map fun a b hab => elementOf_injective (Option.some.inj hab)
  · intro tw ht s q hq k hk
    have hany : ∃ kind i, At es kind i tw.parent := by
      rcases List.mem_append.1 ht with ht | ht
      · obtain ⟨i, a, -⟩ := hsurf tw ht; exact ⟨_, i, a⟩
      · obtain ⟨i, a, -⟩ := hfen tw ht; exact ⟨_, i, a⟩
    obtain ⟨kind, i, a⟩ := hany
    obtain ⟨k', k1, k2⟩ := a.fields s q
    rw [hk] at k1
    cases k1
    refine hnot k _ k2 ?_
    rcases hq with rfl | rfl <;> simp [Thermal]
  · intro z hz k hk
    obtain ⟨i, hi⟩ := hroom z hz
    obtain ⟨-, ⟨a, a1, a2⟩, b, b1, b2⟩ := hspace i _ hi
    rcases hk with hk | hk | hk | hk
    · rw [b1] at hk; cases hk
      exact ⟨lt_of_some b2, hnot _ _ b2 (by simp [Thermal])⟩
    · rw [a1] at hk; cases hk
      exact ⟨lt_of_some a2, hnot _ _ a2 (by simp [Thermal])⟩
    all_goals
      obtain ⟨j, e | e⟩ := hm.ventilation z hz k (by simp [hk])
      · refine ⟨lt_of_some e, hnot' _ _ e fun s => ?_⟩
        rcases s with ⟨kk, _, ss, qq⟩ | ⟨kk, _, _⟩ | _ | _ | _
        · cases kk <;> cases ss <;> cases qq <;> simp [elementOf]
        · cases kk <;> simp [elementOf]
        all_goals simp [elementOf]
      · refine ⟨lt_of_some e, hnot' _ _ e fun s => ?_⟩
        rcases s with ⟨kk, _, ss, qq⟩ | ⟨kk, _, _⟩ | _ | _ | _
        · cases kk <;> cases ss <;> cases qq <;> simp [elementOf]
        · cases kk <;> simp [elementOf]
        all_goals simp [elementOf]
  · intro a ha k hk
    obtain ⟨j, e | e⟩ := hm.powers a ha k hk
    · refine ⟨lt_of_some e, hnot' _ _ e fun s => ?_⟩
      rcases s with ⟨kk, _, ss, qq⟩ | ⟨kk, _, _⟩ | _ | _ | _
      · cases kk <;> cases ss <;> cases qq <;> simp [elementOf]
      · cases kk <;> simp [elementOf]
      all_goals simp [elementOf]
    · refine ⟨lt_of_some e, hnot' _ _ e fun s => ?_⟩
      rcases s with ⟨kk, _, ss, qq⟩ | ⟨kk, _, _⟩ | _ | _ | _
      · cases kk <;> cases ss <;> cases qq <;> simp [elementOf]
      · cases kk <;> simp [elementOf]
      all_goals simp [elementOf]

/-- `C104_wired` is not vacuous: a space, a wall with three nodes and an opening. -/
example : ∃ o' h' m, physicsNew true Wiring.small Header.new = .ok (o', h') ∧ Built m o' h'.elements ∧ m.surfaces.length = 1 ∧
    m.fenestrations = [] ∧ m.rooms.length = 1 ∧ (writes m).length = 8 := by
  obtain ⟨o', h', w1, w2, w3, w4, w5, w6, -⟩ := C90_wired true Wiring.small Header.new (by simp [Header.new])
    ⟨fun kind w hw => by cases kind <;> simp [walls, Wiring.small] at hw <;> subst hw <;> exact ⟨rfl, rfl, fun _ _ => rfl⟩,
      fun z hz => by simp [Wiring.small] at hz; subst hz; exact ⟨rfl, rfl, rfl⟩⟩
  have hs := w4 .surface
  have hfe := w4 .fenestration
  simp only [walls, Wiring.small, List.map_cons, List.map_nil] at hs hfe w3
  obtain ⟨w, hw, e1, e2⟩ : ∃ w, o'.surfaces = [w] ∧ w.opening = false ∧ w.nodes = 3 := by
    cases h : o'.surfaces with
    | nil => rw [h] at hs; simp at hs
    | cons w l => rw [h] at hs; cases l with
      | nil => simp at hs; exact ⟨w, rfl, hs⟩
      | cons => simp at hs
  have hf : (o'.fenestrations.filter fun w => !w.opening) = [] := by
    cases h : o'.fenestrations with
    | nil => rfl
    | cons w l => rw [h] at hfe; cases l with
      | nil => simp at hfe; simp [hfe.1]
      | cons => simp at hfe
  obtain ⟨z, hz⟩ : ∃ z, o'.spaces = [z] := by
    cases h : o'.spaces with
    | nil => rw [h] at w3; simp at w3
    | cons z l => rw [h] at w3; cases l with
      | nil => exact ⟨z, rfl⟩
      | cons => simp at w3
  refine ⟨o', h', ⟨[⟨z, none, none, 50⟩], [⟨exampleThick, w⟩], [], [], []⟩, w1, ⟨by rw [hw]; rfl, by rw [hf]; rfl, by rw [hz]; rfl, ?_, ?_⟩, rfl, rfl, rfl, ?_⟩
  · intro z' hz' k hk
    obtain rfl := List.mem_singleton.1 hz'
    rcases hk with hk | hk <;> cases hk
  · intro a ha
    cases ha
  · simp [writes, Spec.keys, e2]

end
end Simple.Heat.Whole
