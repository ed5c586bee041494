import Verif.Building.SaveProps

/-! # C93: what is loaded from a file that somebody else wrote -/

namespace Simple.Save

open Building State

variable {P W F O S Q : Type*}

/-! ## Specification -/

namespace Spec

/-- The objects of one kind in a file, in order. -/
def buildings (os : List (Obj W F O S Q)) : List Building := os.filterMap fun | .building a => some a | _ => none
/-- Constructions. -/
def constructions (os : List (Obj W F O S Q)) : List Construction := os.filterMap fun | .construction a => some a | _ => none
/-- Materials. -/
def materials (os : List (Obj W F O S Q)) : List Material := os.filterMap fun | .material a => some a | _ => none
/-- Substances. -/
def substances (os : List (Obj W F O S Q)) : List Substance := os.filterMap fun | .substance a => some a | _ => none
/-- Spaces. -/
def spaces (os : List (Obj W F O S Q)) : List Space := os.filterMap fun | .space a => some a | _ => none
/-- Objects within the spaces. -/
def objects (os : List (Obj W F O S Q)) : List Object := os.filterMap fun | .object a => some a | _ => none
/-- Outputs. -/
def outputs (os : List (Obj W F O S Q)) : List O := os.filterMap fun | .output a => some a | _ => none
/-- Heating and cooling. -/
def hvacs (os : List (Obj W F O S Q)) : List (Hvac F) := os.filterMap fun | .hvac a => some a | _ => none
/-- Luminaires. -/
def luminaires (os : List (Obj W F O S Q)) : List Luminaire := os.filterMap fun | .luminaire a => some a | _ => none
/-- Fenestrations. -/
def fenestrations (os : List (Obj W F O S Q)) : List (Fenestration W F) := os.filterMap fun | .fenestration a => some a | _ => none
/-- Surfaces. -/
def surfaces (os : List (Obj W F O S Q)) : List (Surface W F) := os.filterMap fun | .surface a => some a | _ => none
/-- Details of the site. -/
def sites (os : List (Obj W F O S Q)) : List S := os.filterMap fun | .siteDetails a => some a | _ => none
/-- Options of the solar model. -/
def solars (os : List (Obj W F O S Q)) : List Q := os.filterMap fun | .solarOptions a => some a | _ => none

/-- A fenestration of the building is the one of the file. -/
structure SameFenestration (c : Codec P W) (w : Fenestration W F) (f : Fenestration P F) : Prop where
  name : f.name = w.name
  construction : f.construction = w.construction
  category : f.category = w.category
  parent : f.parent = w.parent
  vertices : c.dec w.vertices = .ok f.vertices
  /-- The sides are those of the parent if there is one. -/
  sides : w.parent = none → f.front = w.front ∧ f.back = w.back

/-- A surface of the building is the one of the file; a hole is cut only for a fenestration that names it. -/
structure SameSurface (c : Codec P W) (fs : List (Fenestration W F)) (w : Surface W F) (s : Surface P F) : Prop where
  name : s.name = w.name
  construction : s.construction = w.construction
  front : s.front = w.front
  back : s.back = w.back
  category : s.category = w.category
  vertices : (∀ f ∈ fs, f.parent ≠ some w.name) → c.dec w.vertices = .ok s.vertices

/-- The building has all the objects of the file, in the order of the file, and no others. -/
structure Holds (c : Codec P W) (os : List (Obj W F O S Q)) (m : Whole P F O S Q) : Prop where
  buildings : m.core.buildings = Spec.buildings os
  constructions : m.core.constructions = Spec.constructions os
  materials : m.core.materials = Spec.materials os
  substances : m.core.substances = Spec.substances os
  spaces : m.core.spaces = (Spec.spaces os).map fun s => { s with dryBulbIndex := none }
  objects : m.core.objects = Spec.objects os
  outputs : m.outputs = Spec.outputs os
  hvacs : (m.core.hvacs.map fun h => h.withIndex 0) = (Spec.hvacs os).map fun h => h.withIndex 0
  luminaires : (m.core.luminaires.map fun l => { l with index := none }) = (Spec.luminaires os).map fun l => { l with index := none }
  fenestrations : List.Forall₂ (SameFenestration c) (Spec.fenestrations os) m.core.fenestrations
  surfaces : List.Forall₂ (SameSurface c (Spec.fenestrations os)) (Spec.surfaces os) m.core.surfaces

/-- The objects of a field of a JSON file. -/
def sectionObjects : Section W F O S Q → List (Obj W F O S Q)
  | .buildings l => l.map .building
  | .constructions l => l.map .construction
  | .fenestrations l => l.map .fenestration
  | .hvacs l => l.map .hvac
  | .luminaires l => l.map .luminaire
  | .materials l => l.map .material
  | .name _ => []
  | .objects l => l.map .object
  | .outputs l => l.map .output
  | .siteDetails _ => []
  | .solarOptions _ => []
  | .spaces l => l.map .space
  | .surfaces l => l.map .surface
  | .substances l => l.map .substance
  | .other _ => []

/-- The last that is given, or nothing. -/
def lastOf {α : Type*} (f : Section W F O S Q → Option (Option α)) (l : List (Section W F O S Q)) : Option α :=
  ((l.filterMap f).getLast?).getD none

end Spec

open Spec

theorem bind_ok_iff {α β : Type*} (o : Outcome α) (f : α → Outcome β) (b : β) :
    o.bind f = .ok b ↔ ∃ a, o = .ok a ∧ f a = .ok b := by
  cases o <;> simp [Outcome.bind]

theorem holds_empty (c : Codec P W) : Holds c ([] : List (Obj W F O S Q)) Whole.empty := by
  constructor <;> first | rfl | exact List.Forall₂.nil

/-- A list that was longer by one. -/
theorem forall₂_snoc {α β : Type*} (R : α → β → Prop) {l : List α} {l' : List β} {a : α} {b : β} (h : List.Forall₂ R l l') (hab : R a b) :
    List.Forall₂ R (l ++ [a]) (l' ++ [b]) :=
  List.rel_append h (List.Forall₂.cons hab List.Forall₂.nil)

theorem cutParent_same (g : Geo P F) (p : String) (hole : P) : ∀ (l l' : List (Surface P F)) (s : Surface P F),
    Model.cutParent g p hole l = .ok (l', s) →
    List.Forall₂ (fun a b => b = { a with vertices := b.vertices } ∧ (a.name ≠ p → b = a)) l l' := by
  intro l
  induction l with
  | nil => intro l' s h; simp [Model.cutParent] at h
  | cons a l ih =>
    intro l' s h
    unfold Model.cutParent at h
    have hrefl : ∀ l : List (Surface P F), List.Forall₂ (fun a b => b = { a with vertices := b.vertices } ∧ (a.name ≠ p → b = a)) l l := by
      intro l
      induction l with
      | nil => exact .nil
      | cons a l ih => exact .cons ⟨rfl, fun _ => rfl⟩ ih
    by_cases hn : a.name = p
    · rw [if_pos hn] at h
      by_cases hs : a.shared = true
      · rw [if_pos hs] at h; cases h
      · rw [if_neg hs] at h
        cases hc : g.cutHole a.vertices hole with
        | none => rw [hc] at h; cases h
        | some v =>
          rw [hc] at h
          simp only [Outcome.ok.injEq, Prod.mk.injEq] at h
          rw [← h.1]
          exact .cons ⟨rfl, fun hne => absurd hn hne⟩ (hrefl l)
    · rw [if_neg hn] at h
      rcases hc : Model.cutParent g p hole l with ⟨l1, s1⟩ | _ | _
      · rw [hc] at h
        simp only [Outcome.ok.injEq, Prod.mk.injEq] at h
        rw [← h.1]
        exact .cons ⟨rfl, fun _ => rfl⟩ (ih _ _ hc)
      · rw [hc] at h; cases h
      · rw [hc] at h; cases h

/-- The surfaces stay what they are when there are more fenestrations. -/
theorem surfaces_more (c : Codec P W) (fs fs' : List (Fenestration W F)) {l : List (Surface W F)} {l' : List (Surface P F)}
    (h : List.Forall₂ (SameSurface c fs) l l') : List.Forall₂ (SameSurface c (fs ++ fs')) l l' := by
  refine h.imp fun w s hs => ?_
  exact ⟨hs.name, hs.construction, hs.front, hs.back, hs.category, fun hf => hs.vertices fun f hm => hf f (List.mem_append_left _ hm)⟩

theorem surfaces_cut (c : Codec P W) (fs : List (Fenestration W F)) (f : Fenestration W F) (p : String) (hp : f.parent = some p) :
    ∀ {l : List (Surface W F)} {l' l'' : List (Surface P F)}, List.Forall₂ (SameSurface c fs) l l' →
      List.Forall₂ (fun a b => b = { a with vertices := b.vertices } ∧ (a.name ≠ p → b = a)) l' l'' →
      List.Forall₂ (SameSurface c (fs ++ [f])) l l'' := by
  intro l l' l'' h
  induction h generalizing l'' with
  | nil => intro h'; cases h'; exact .nil
  | @cons w s l l' hs _ ih =>
    intro h'
    cases h' with
    | cons hb ht =>
      rename_i b l2
      refine .cons ?_ (ih ht)
      obtain ⟨h1, h2⟩ := hb
      refine ⟨?_, ?_, ?_, ?_, ?_, ?_⟩
      · rw [h1]; exact hs.name
      · rw [h1]; exact hs.construction
      · rw [h1]; exact hs.front
      · rw [h1]; exact hs.back
      · rw [h1]; exact hs.category
      · intro hf
        have hne : s.name ≠ p := by
          intro he
          exact hf f (by simp) (by rw [hp, ← he, hs.name])
        rw [h2 hne]
        exact hs.vertices fun f' hf' => hf f' (List.mem_append_left _ hf')

theorem push_ok (m m1 : Model P F) (e : Element) (v : F) (i : ℕ) (h : m.pushToState e v = (.ok i, m1)) :
    ∃ st, m1 = { m with state := st } := by
  unfold Model.pushToState at h
  split at h
  · exact ⟨_, (Prod.mk.inj h).2.symm⟩
  · exact absurd (Prod.mk.inj h).1 (by simp)

/-- What adding one fenestration changes. -/
theorem addFenestration_ok [Zero F] (g : Geo P F) (m m' : Model P F) (a : Fenestration P F) (h : m.addFenestration g a = (.ok (), m')) :
    ∃ st ss f, m' = { m with state := st, surfaces := ss, fenestrations := m.fenestrations ++ [f] } ∧
      f.name = a.name ∧ f.construction = a.construction ∧ f.category = a.category ∧ f.parent = a.parent ∧ f.vertices = a.vertices ∧
      (a.parent = none → f.front = a.front ∧ f.back = a.back ∧ ss = m.surfaces) ∧
      ∀ p, a.parent = some p → List.Forall₂ (fun a b => b = { a with vertices := b.vertices } ∧ (a.name ≠ p → b = a)) m.surfaces ss := by
  unfold Model.addFenestration at h
  by_cases h0 : a.category ≠ .opening ∧ Model.isErr (m.getConstruction a.construction) = true
  · rw [if_pos h0] at h; simp at h
  rw [if_neg h0] at h
  rcases hp : m.pushToState (.fenestrationOpenFraction m.fenestrations.length) 0 with ⟨o, m1⟩
  rw [hp] at h
  rcases o with i | _ | _
  · obtain ⟨st, rfl⟩ := push_ok _ _ _ _ _ hp
    dsimp only at h
    cases ho : a.openFractionIndex with
    | some k => rw [ho] at h; simp at h
    | none =>
      rw [ho] at h
      dsimp only at h
      cases hpa : a.parent with
      | none =>
        rw [hpa] at h
        simp only [Prod.mk.injEq, true_and] at h
        refine ⟨st, m.surfaces, { a with openFractionIndex := some i }, ?_, rfl, rfl, rfl, hpa, rfl, fun _ => ⟨rfl, rfl, rfl⟩, by simp⟩
        rw [← h]
        simp [hpa]
      | some p =>
        rw [hpa] at h
        dsimp only at h
        rcases hc : Model.cutParent g p a.vertices m.surfaces with ⟨ss, s⟩ | _ | _
        · rw [hc] at h
          simp only [Prod.mk.injEq, true_and] at h
          refine ⟨st, ss, Model.inherit g s { a with openFractionIndex := some i }, ?_, ?_, ?_, ?_, ?_, ?_, by simp, ?_⟩
          · rw [← h]; simp [hpa]
          · unfold Model.inherit; split <;> rfl
          · unfold Model.inherit; split <;> rfl
          · unfold Model.inherit; split <;> rfl
          · unfold Model.inherit; split <;> exact hpa
          · unfold Model.inherit; split <;> rfl
          · intro q hq
            obtain rfl := Option.some.inj hq
            exact cutParent_same g _ _ _ _ _ hc
        · rw [hc] at h; simp at h
        · rw [hc] at h; simp at h
  · simp at h
  · simp at h

theorem addAll_cons_ok {α : Type*} (add : Model P F → α → Outcome Unit × Model P F) (m m' : Model P F) (a : α) (l : List α)
    (h : addAll add m (a :: l) = .ok m') : ∃ m1, add m a = (.ok (), m1) ∧ addAll add m1 l = .ok m' := by
  rw [addAll] at h
  rcases ha : add m a with ⟨o, m1⟩
  rw [ha] at h
  rcases o with u | _ | _
  · exact ⟨m1, rfl, h⟩
  · cases h
  · cases h

/-- One more fenestration. -/
theorem holds_fenestrations [Zero F] (c : Codec P W) (g : Geo P F) (ws : List (Fenestration W F)) :
    ∀ (os : List (Obj W F O S Q)) (m : Whole P F O S Q) (fs : List (Fenestration P F)) (core : Model P F),
    Holds c os m → traverse (decFenestration c) ws = .ok fs → addAll (Model.addFenestration g) m.core fs = .ok core →
    Holds c (os ++ ws.map .fenestration) { m with core := core } := by
  induction ws with
  | nil =>
    intro os m fs core hm hd ha
    simp only [traverse, Outcome.ok.injEq] at hd
    subst hd
    simp only [addAll, Outcome.ok.injEq] at ha
    subst ha
    simpa using hm
  | cons w ws ih =>
    intro os m fs core hm hd ha
    rw [traverse, bind_ok_iff] at hd
    obtain ⟨f, hf, hd⟩ := hd
    rw [bind_ok_iff] at hd
    obtain ⟨fs', hfs, hd⟩ := hd
    obtain rfl := Outcome.ok.inj hd
    obtain ⟨m1, h1, h2⟩ := addAll_cons_ok _ _ _ _ _ ha
    rw [decFenestration, bind_ok_iff] at hf
    obtain ⟨v, hv, hf⟩ := hf
    obtain rfl := Outcome.ok.inj hf
    obtain ⟨st, ss, f, rfl, e1, e2, e3, e4, e5, e6, e7⟩ := addFenestration_ok g _ _ _ h1
    have hstep : Holds c (os ++ [.fenestration w]) { m with core := { m.core with state := st, surfaces := ss, fenestrations := m.core.fenestrations ++ [f] } } := by
      refine ⟨?_, ?_, ?_, ?_, ?_, ?_, ?_, ?_, ?_, ?_, ?_⟩
      · simpa [Spec.buildings, List.filterMap_append] using hm.buildings
      · simpa [Spec.constructions, List.filterMap_append] using hm.constructions
      · simpa [Spec.materials, List.filterMap_append] using hm.materials
      · simpa [Spec.substances, List.filterMap_append] using hm.substances
      · simpa [Spec.spaces, List.filterMap_append] using hm.spaces
      · simpa [Spec.objects, List.filterMap_append] using hm.objects
      · simpa [Spec.outputs, List.filterMap_append] using hm.outputs
      · simpa [Spec.hvacs, List.filterMap_append] using hm.hvacs
      · simpa [Spec.luminaires, List.filterMap_append] using hm.luminaires
      · have : Spec.fenestrations (os ++ [.fenestration w]) = Spec.fenestrations os ++ [w] := by
          simp [Spec.fenestrations, List.filterMap_append]
        rw [this]
        exact forall₂_snoc _ hm.fenestrations ⟨e1, e2, e3, e4, by rw [e5]; exact hv, fun hp => ⟨(e6 hp).1, (e6 hp).2.1⟩⟩
      · have t1 : Spec.fenestrations (os ++ [.fenestration w]) = Spec.fenestrations os ++ [w] := by
          simp [Spec.fenestrations, List.filterMap_append]
        have t2 : Spec.surfaces (os ++ [.fenestration w]) = Spec.surfaces os := by
          simp [Spec.surfaces, List.filterMap_append]
        rw [t1, t2]
        cases hp : w.parent with
        | none =>
          dsimp only
          rw [(e6 hp).2.2]
          exact surfaces_more c _ _ hm.surfaces
        | some p => exact surfaces_cut c _ _ p hp hm.surfaces (e7 p hp)
    have := ih _ _ _ _ hstep hfs h2
    rw [List.append_assoc] at this
    exact this

/-- What adding one system changes. -/
theorem addHvac_ok [Zero F] (m m' : Model P F) (a : Hvac F) (h : m.addHvac a = (.ok (), m')) :
    ∃ st i, m' = { m with state := st, hvacs := m.hvacs ++ [a.withIndex i] } := by
  unfold Model.addHvac at h
  rcases hp : m.pushToState (.heatingCoolingPowerConsumption m.hvacs.length) 0 with ⟨o, m1⟩
  rw [hp] at h
  rcases o with i | _ | _
  · obtain ⟨st, rfl⟩ := push_ok _ _ _ _ _ hp
    dsimp only at h
    cases ho : a.index with
    | some k => rw [ho] at h; simp at h
    | none =>
      rw [ho] at h
      simp only [Prod.mk.injEq, true_and] at h
      exact ⟨st, i, h.symm⟩
  · simp at h
  · simp at h

/-- What adding one luminaire changes. -/
theorem addLuminaire_ok [Zero F] (m m' : Model P F) (a : Luminaire) (h : m.addLuminaire a = (.ok (), m')) :
    ∃ st i, m' = { m with state := st, luminaires := m.luminaires ++ [{ a with index := some i }] } := by
  unfold Model.addLuminaire at h
  rcases hp : m.pushToState (.luminairePowerConsumption m.luminaires.length) 0 with ⟨o, m1⟩
  rw [hp] at h
  rcases o with i | _ | _
  · obtain ⟨st, rfl⟩ := push_ok _ _ _ _ _ hp
    dsimp only at h
    cases ho : a.index with
    | some k => rw [ho] at h; simp at h
    | none =>
      rw [ho] at h
      simp only [Prod.mk.injEq, true_and] at h
      exact ⟨st, i, h.symm⟩
  · simp at h
  · simp at h

theorem bare_index (w : Hvac F) (i j : ℕ) : ((bareHvac w).withIndex i).withIndex j = w.withIndex j := by
  cases w <;> rfl

theorem holds_hvacs [Zero F] (c : Codec P W) (ws : List (Hvac F)) :
    ∀ (os : List (Obj W F O S Q)) (m : Whole P F O S Q) (core : Model P F),
    Holds c os m → addAll Model.addHvac m.core (ws.map bareHvac) = .ok core →
    Holds c (os ++ ws.map .hvac) { m with core := core } := by
  induction ws with
  | nil =>
    intro os m core hm ha
    simp only [List.map_nil, addAll, Outcome.ok.injEq] at ha
    subst ha
    simpa using hm
  | cons w ws ih =>
    intro os m core hm ha
    obtain ⟨m1, h1, h2⟩ := addAll_cons_ok _ _ _ _ _ ha
    obtain ⟨st, i, rfl⟩ := addHvac_ok _ _ _ h1
    have hstep : Holds c (os ++ [.hvac w]) { m with core := { m.core with state := st, hvacs := m.core.hvacs ++ [(bareHvac w).withIndex i] } } := by
      have h8 : (m.core.hvacs ++ [(bareHvac w).withIndex i]).map (fun h => h.withIndex 0) = (Spec.hvacs (os ++ [.hvac w])).map fun h => h.withIndex 0 := by
        rw [List.map_append, hm.hvacs]
        simp [Spec.hvacs, List.filterMap_append, bare_index]
      constructor <;> first
        | exact h8
        | simpa [Spec.buildings, List.filterMap_append] using hm.buildings
        | simpa [Spec.constructions, List.filterMap_append] using hm.constructions
        | simpa [Spec.materials, List.filterMap_append] using hm.materials
        | simpa [Spec.substances, List.filterMap_append] using hm.substances
        | simpa [Spec.spaces, List.filterMap_append] using hm.spaces
        | simpa [Spec.objects, List.filterMap_append] using hm.objects
        | simpa [Spec.outputs, List.filterMap_append] using hm.outputs
        | simpa [Spec.luminaires, List.filterMap_append] using hm.luminaires
        | simpa [Spec.fenestrations, List.filterMap_append] using hm.fenestrations
        | simpa [Spec.fenestrations, Spec.surfaces, List.filterMap_append] using hm.surfaces
    have := ih _ _ _ hstep h2
    rw [List.append_assoc] at this
    exact this

theorem holds_luminaires [Zero F] (c : Codec P W) (ws : List Luminaire) :
    ∀ (os : List (Obj W F O S Q)) (m : Whole P F O S Q) (core : Model P F),
    Holds c os m → addAll Model.addLuminaire m.core (ws.map bareLuminaire) = .ok core →
    Holds c (os ++ ws.map .luminaire) { m with core := core } := by
  induction ws with
  | nil =>
    intro os m core hm ha
    simp only [List.map_nil, addAll, Outcome.ok.injEq] at ha
    subst ha
    simpa using hm
  | cons w ws ih =>
    intro os m core hm ha
    obtain ⟨m1, h1, h2⟩ := addAll_cons_ok _ _ _ _ _ ha
    obtain ⟨st, i, rfl⟩ := addLuminaire_ok _ _ _ h1
    have hstep : Holds c (os ++ [.luminaire w]) { m with core := { m.core with state := st, luminaires := m.core.luminaires ++ [{ bareLuminaire w with index := some i }] } } := by
      have h8 : ((m.core.luminaires ++ [{ bareLuminaire w with index := some i }]).map fun l : Luminaire => { l with index := none }) =
          (Spec.luminaires (os ++ [.luminaire w])).map fun l => { l with index := none } := by
        rw [List.map_append, hm.luminaires]
        simp [Spec.luminaires, List.filterMap_append, bareLuminaire]
      constructor <;> first
        | exact h8
        | simpa [Spec.buildings, List.filterMap_append] using hm.buildings
        | simpa [Spec.constructions, List.filterMap_append] using hm.constructions
        | simpa [Spec.materials, List.filterMap_append] using hm.materials
        | simpa [Spec.substances, List.filterMap_append] using hm.substances
        | simpa [Spec.spaces, List.filterMap_append] using hm.spaces
        | simpa [Spec.objects, List.filterMap_append] using hm.objects
        | simpa [Spec.outputs, List.filterMap_append] using hm.outputs
        | simpa [Spec.hvacs, List.filterMap_append] using hm.hvacs
        | simpa [Spec.fenestrations, List.filterMap_append] using hm.fenestrations
        | simpa [Spec.fenestrations, Spec.surfaces, List.filterMap_append] using hm.surfaces
    have := ih _ _ _ hstep h2
    rw [List.append_assoc] at this
    exact this

/-- Objects that are only appended to lists. -/
theorem holds_plain (c : Codec P W) (os : List (Obj W F O S Q)) (m : Whole P F O S Q) (hm : Holds c os m) :
    (∀ l : List Building, Holds c (os ++ l.map .building) { m with core := { m.core with buildings := m.core.buildings ++ l } }) ∧
    (∀ l : List Construction, Holds c (os ++ l.map .construction) { m with core := { m.core with constructions := m.core.constructions ++ l } }) ∧
    (∀ l : List Material, Holds c (os ++ l.map .material) { m with core := { m.core with materials := m.core.materials ++ l } }) ∧
    (∀ l : List Substance, Holds c (os ++ l.map .substance) { m with core := { m.core with substances := m.core.substances ++ l } }) ∧
    (∀ l : List Space, Holds c (os ++ l.map .space) { m with core := { m.core with spaces := m.core.spaces ++ l.map bareSpace } }) ∧
    (∀ l : List Object, Holds c (os ++ l.map .object) { m with core := { m.core with objects := m.core.objects ++ l } }) ∧
    (∀ l : List O, Holds c (os ++ l.map .output) { m with outputs := m.outputs ++ l }) := by
  refine ⟨?_, ?_, ?_, ?_, ?_, ?_, ?_⟩ <;>
  · intro l
    constructor <;> first
      | simp [Spec.buildings, List.filterMap_append, hm.buildings, Function.comp_def]; done
      | simp [Spec.constructions, List.filterMap_append, hm.constructions, Function.comp_def]; done
      | simp [Spec.materials, List.filterMap_append, hm.materials, Function.comp_def]; done
      | simp [Spec.substances, List.filterMap_append, hm.substances, Function.comp_def]; done
      | simp [Spec.spaces, List.filterMap_append, hm.spaces, Function.comp_def, bareSpace]; done
      | simp [Spec.objects, List.filterMap_append, hm.objects, Function.comp_def]; done
      | simp [Spec.outputs, List.filterMap_append, hm.outputs, Function.comp_def]; done
      | simpa [Spec.hvacs, List.filterMap_append, Function.comp_def] using hm.hvacs
      | simpa [Spec.luminaires, List.filterMap_append, Function.comp_def] using hm.luminaires
      | simpa [Spec.fenestrations, List.filterMap_append, Function.comp_def] using hm.fenestrations
      | simpa [Spec.fenestrations, Spec.surfaces, List.filterMap_append, Function.comp_def] using hm.surfaces

theorem holds_surfaces (c : Codec P W) (ws : List (Surface W F)) :
    ∀ (os : List (Obj W F O S Q)) (m : Whole P F O S Q) (ss : List (Surface P F)),
    Holds c os m → traverse (decSurface c) ws = .ok ss →
    Holds c (os ++ ws.map .surface) { m with core := { m.core with surfaces := m.core.surfaces ++ ss } } := by
  induction ws with
  | nil =>
    intro os m ss hm hd
    simp only [traverse, Outcome.ok.injEq] at hd
    subst hd
    simpa using hm
  | cons w ws ih =>
    intro os m ss hm hd
    rw [traverse, bind_ok_iff] at hd
    obtain ⟨s, hs, hd⟩ := hd
    rw [bind_ok_iff] at hd
    obtain ⟨ss', hss, hd⟩ := hd
    obtain rfl := Outcome.ok.inj hd
    rw [decSurface, bind_ok_iff] at hs
    obtain ⟨v, hv, hs⟩ := hs
    have hstep : Holds c (os ++ [.surface w]) { m with core := { m.core with surfaces := m.core.surfaces ++ [s] } } := by
      have h8 : List.Forall₂ (SameSurface c (Spec.fenestrations (os ++ [.surface w]))) (Spec.surfaces (os ++ [.surface w])) (m.core.surfaces ++ [s]) := by
        have t1 : Spec.fenestrations (os ++ [.surface w]) = Spec.fenestrations os := by simp [Spec.fenestrations, List.filterMap_append]
        have t2 : Spec.surfaces (os ++ [.surface w]) = Spec.surfaces os ++ [w] := by simp [Spec.surfaces, List.filterMap_append]
        rw [t1, t2]
        refine forall₂_snoc _ hm.surfaces ?_
        obtain rfl := Outcome.ok.inj hs
        exact ⟨rfl, rfl, rfl, rfl, rfl, fun _ => hv⟩
      constructor <;> first
        | exact h8
        | simpa [Spec.buildings, List.filterMap_append] using hm.buildings
        | simpa [Spec.constructions, List.filterMap_append] using hm.constructions
        | simpa [Spec.materials, List.filterMap_append] using hm.materials
        | simpa [Spec.substances, List.filterMap_append] using hm.substances
        | simpa [Spec.spaces, List.filterMap_append] using hm.spaces
        | simpa [Spec.objects, List.filterMap_append] using hm.objects
        | simpa [Spec.outputs, List.filterMap_append] using hm.outputs
        | simpa [Spec.hvacs, List.filterMap_append] using hm.hvacs
        | simpa [Spec.luminaires, List.filterMap_append] using hm.luminaires
        | simpa [Spec.fenestrations, List.filterMap_append] using hm.fenestrations
    have := ih _ _ _ hstep hss
    simpa [List.append_assoc] using this

/-- Anything else about the building may change. -/
theorem holds_other (c : Codec P W) (os os' : List (Obj W F O S Q)) (m m' : Whole P F O S Q) (hm : Holds c os m) (hc : m'.core = m.core)
    (ho : m'.outputs = m.outputs) (hos : os' = os ∨ (∃ a, os' = os ++ [.siteDetails a]) ∨ ∃ a, os' = os ++ [.solarOptions a]) : Holds c os' m' := by
  rcases hos with rfl | ⟨a, rfl⟩ | ⟨a, rfl⟩ <;>
  · constructor <;> first
      | simpa [Spec.buildings, List.filterMap_append, hc] using hm.buildings
      | simpa [Spec.constructions, List.filterMap_append, hc] using hm.constructions
      | simpa [Spec.materials, List.filterMap_append, hc] using hm.materials
      | simpa [Spec.substances, List.filterMap_append, hc] using hm.substances
      | simpa [Spec.spaces, List.filterMap_append, hc] using hm.spaces
      | simpa [Spec.objects, List.filterMap_append, hc] using hm.objects
      | simpa [Spec.outputs, List.filterMap_append, ho] using hm.outputs
      | simpa [Spec.hvacs, List.filterMap_append, hc] using hm.hvacs
      | simpa [Spec.luminaires, List.filterMap_append, hc] using hm.luminaires
      | simpa [Spec.fenestrations, List.filterMap_append, hc] using hm.fenestrations
      | simpa [Spec.fenestrations, Spec.surfaces, List.filterMap_append, hc] using hm.surfaces

theorem addSurface_ok (m m' : Model P F) (a : Surface P F) (h : m.addSurface a = (.ok (), m')) :
    m' = { m with surfaces := m.surfaces ++ [a] } := by
  unfold Model.addSurface at h
  by_cases h1 : Model.isErr (m.getConstruction a.construction) = true
  · rw [if_pos h1] at h; simp at h
  rw [if_neg h1] at h
  by_cases h2 : m.boundaryMissing a.front = true
  · rw [if_pos h2] at h; simp at h
  rw [if_neg h2] at h
  by_cases h3 : m.boundaryMissing a.back = true
  · rw [if_pos h3] at h; simp at h
  rw [if_neg h3] at h
  exact (Prod.mk.inj h).2.symm

theorem addObject_ok (m m' : Model P F) (a : Object) (h : m.addObject a = (.ok (), m')) :
    m' = { m with objects := m.objects ++ [a] } := by
  unfold Model.addObject at h
  cases hs : a.space with
  | none => rw [hs] at h; exact (Prod.mk.inj h).2.symm
  | some n =>
    rw [hs] at h
    dsimp only at h
    by_cases h1 : Model.isErr (m.getSpace n) = true
    · rw [if_pos h1] at h; simp at h
    rw [if_neg h1] at h
    exact (Prod.mk.inj h).2.symm

/-- What reading one object of a text does. -/
theorem readObject_holds [Zero F] (c : Codec P W) (g : Geo P F) (os : List (Obj W F O S Q)) (m m' : Whole P F O S Q) (o : Obj W F O S Q)
    (hm : Holds c os m) (h : readObject c g m o = .ok m') :
    Holds c (os ++ [o]) m' ∧ m'.name = m.name ∧ m'.site = ((Spec.sites [o]).getLast?).or m.site ∧
      m'.solar = ((Spec.solars [o]).getLast?).or m.solar := by
  obtain ⟨p1, p2, p3, p4, p5, p6, p7⟩ := holds_plain c os m hm
  cases o with
  | building a => obtain rfl := Outcome.ok.inj h; exact ⟨p1 [a], rfl, rfl, rfl⟩
  | construction a => obtain rfl := Outcome.ok.inj h; exact ⟨p2 [a], rfl, rfl, rfl⟩
  | material a => obtain rfl := Outcome.ok.inj h; exact ⟨p3 [a], rfl, rfl, rfl⟩
  | substance a => obtain rfl := Outcome.ok.inj h; exact ⟨p4 [a], rfl, rfl, rfl⟩
  | space a => obtain rfl := Outcome.ok.inj h; exact ⟨p5 [a], rfl, rfl, rfl⟩
  | output a => obtain rfl := Outcome.ok.inj h; exact ⟨p7 [a], rfl, rfl, rfl⟩
  | siteDetails a =>
    obtain rfl := Outcome.ok.inj h
    exact ⟨holds_other c os _ m _ hm rfl rfl (Or.inr (Or.inl ⟨a, rfl⟩)), rfl, rfl, rfl⟩
  | solarOptions a =>
    obtain rfl := Outcome.ok.inj h
    exact ⟨holds_other c os _ m _ hm rfl rfl (Or.inr (Or.inr ⟨a, rfl⟩)), rfl, rfl, rfl⟩
  | object a =>
    rw [readObject, bind_ok_iff] at h
    obtain ⟨core, h1, h⟩ := h
    obtain ⟨m1, h2, h3⟩ := addAll_cons_ok _ _ _ _ _ h1
    obtain rfl := Outcome.ok.inj h3
    obtain rfl := addObject_ok _ _ _ h2
    obtain rfl := Outcome.ok.inj h
    exact ⟨p6 [a], rfl, rfl, rfl⟩
  | surface a =>
    rw [readObject, bind_ok_iff] at h
    obtain ⟨s, hs, h⟩ := h
    rw [bind_ok_iff] at h
    obtain ⟨core, h1, h⟩ := h
    obtain ⟨m1, h2, h3⟩ := addAll_cons_ok _ _ _ _ _ h1
    obtain rfl := Outcome.ok.inj h3
    obtain rfl := addSurface_ok _ _ _ h2
    obtain rfl := Outcome.ok.inj h
    exact ⟨holds_surfaces c [a] os m [s] hm (by rw [traverse, hs]; rfl), rfl, rfl, rfl⟩
  | fenestration a =>
    rw [readObject, bind_ok_iff] at h
    obtain ⟨s, hs, h⟩ := h
    rw [bind_ok_iff] at h
    obtain ⟨core, h1, h⟩ := h
    obtain rfl := Outcome.ok.inj h
    exact ⟨holds_fenestrations c g [a] os m [s] core hm (by rw [traverse, hs]; rfl) h1, rfl, rfl, rfl⟩
  | hvac a =>
    rw [readObject, bind_ok_iff] at h
    obtain ⟨core, h1, h⟩ := h
    obtain rfl := Outcome.ok.inj h
    exact ⟨holds_hvacs c [a] os m core hm h1, rfl, rfl, rfl⟩
  | luminaire a =>
    rw [readObject, bind_ok_iff] at h
    obtain ⟨core, h1, h⟩ := h
    obtain rfl := Outcome.ok.inj h
    exact ⟨holds_luminaires c [a] os m core hm h1, rfl, rfl, rfl⟩

theorem readItems_holds [Zero F] (c : Codec P W) (g : Geo P F) (j : Json W F O S Q) (items : List (List Char × List Char)) :
    ∀ (os : List (Obj W F O S Q)) (m m' : Whole P F O S Q), Holds c os m → readItems c g j m items = .ok m' →
    ∃ os', items.map (fun i => j.parse i.1 i.2) = os'.map some ∧ Holds c (os ++ os') m' ∧ m'.name = m.name ∧
      m'.site = ((Spec.sites os').getLast?).or m.site ∧ m'.solar = ((Spec.solars os').getLast?).or m.solar := by
  induction items with
  | nil =>
    intro os m m' hm h
    obtain rfl := Outcome.ok.inj h
    exact ⟨[], rfl, by simpa using hm, rfl, rfl, rfl⟩
  | cons i items ih =>
    intro os m m' hm h
    obtain ⟨k, b⟩ := i
    rw [readItems] at h
    cases hp : j.parse k b with
    | none => rw [hp] at h; cases h
    | some o =>
      rw [hp] at h
      dsimp only at h
      rw [bind_ok_iff] at h
      obtain ⟨m1, h1, h2⟩ := h
      obtain ⟨q1, q2, q3, q4⟩ := readObject_holds c g os m m1 o hm h1
      obtain ⟨os', r1, r2, r3, r4, r5⟩ := ih _ _ _ q1 h2
      refine ⟨o :: os', by simp [r1, hp], by simpa using r2, r3.trans q2, ?_, ?_⟩
      · rw [r4, q3, ← Option.or_assoc, show Spec.sites (o :: os') = Spec.sites [o] ++ Spec.sites os' from List.filterMap_append (l := [o]), List.getLast?_append]
      · rw [r5, q4, ← Option.or_assoc, show Spec.solars (o :: os') = Spec.solars [o] ++ Spec.solars os' from List.filterMap_append (l := [o]), List.getLast?_append]

theorem finish_ok (m : Whole P F O S Q) (r : Whole P F O S Q × Header F) (h : finish m = .ok r) :
    r.1 = { m with core := { m.core with state := none } } ∧ m.core.state = some r.2 := by
  unfold finish Model.takeState at h
  cases hs : m.core.state with
  | none => rw [hs] at h; cases h
  | some st =>
    rw [hs] at h
    obtain rfl := Outcome.ok.inj h
    exact ⟨rfl, rfl⟩

theorem holds_state (c : Codec P W) (os : List (Obj W F O S Q)) (m : Whole P F O S Q) (st : Option (Header F)) (h : Holds c os m) :
    Holds c os { m with core := { m.core with state := st } } :=
  ⟨h.buildings, h.constructions, h.materials, h.substances, h.spaces, h.objects, h.outputs, h.hvacs, h.luminaires, h.fenestrations, h.surfaces⟩

/-- C93: whatever text is loaded, also one that somebody wrote by hand, the building has exactly the objects of the text, each
kind in the order in which they are added, with their names, constructions, parents, sides and polygons, and the last site
details and solar options. -/
theorem C93_text_contents [Zero F] (c : Codec P W) (g : Geo P F) (j : Json W F O S Q) (text : List Char) (m : Whole P F O S Q) (h : Header F)
    (hl : fromText c g j text = .done (.ok (m, h))) :
    ∃ items os, Scan.scanItems text = .ok items ∧ (Scan.additions items).map (fun i => j.parse i.1 i.2) = os.map some ∧ Spec.Holds c os m ∧
      m.name = none ∧ m.site = (Spec.sites os).getLast? ∧ m.solar = (Spec.solars os).getLast? := by
  unfold fromText at hl
  cases hs : Scan.scanItems text with
  | hang => rw [hs] at hl; cases hl
  | err => rw [hs] at hl; cases hl
  | ok items =>
    rw [hs] at hl
    dsimp only at hl
    have hl' := Loaded.done.inj hl
    rw [bind_ok_iff] at hl'
    obtain ⟨m1, h1, h2⟩ := hl'
    obtain ⟨os, r1, r2, r3, r4, r5⟩ := readItems_holds c g j _ [] _ _ (holds_empty c) h1
    obtain ⟨f1, -⟩ := finish_ok _ _ h2
    dsimp only at f1
    refine ⟨items, os, rfl, r1, ?_, ?_, ?_, ?_⟩
    · rw [f1]; exact holds_state c _ _ _ (by simpa using r2)
    · rw [f1]; exact r3
    · rw [f1]; simpa [Whole.empty] using r4
    · rw [f1]; simpa [Whole.empty] using r5

/-- The name that a field gives. -/
def Spec.nameOf : Section W F O S Q → Option (Option String) | .name n => some n | _ => none
/-- The details of the site that a field gives. -/
def Spec.siteOf : Section W F O S Q → Option (Option S) | .siteDetails n => some n | _ => none
/-- The options of the solar model that a field gives. -/
def Spec.solarOf : Section W F O S Q → Option (Option Q) | .solarOptions n => some n | _ => none

/-- What reading one field of a JSON file does. -/
theorem readSection_holds [Zero F] (c : Codec P W) (g : Geo P F) (os : List (Obj W F O S Q)) (m m' : Whole P F O S Q) (x : Section W F O S Q)
    (hm : Holds c os m) (h : readSection c g m x = .ok m') :
    Holds c (os ++ Spec.sectionObjects x) m' ∧ m'.name = (Spec.nameOf x).getD m.name ∧
      m'.site = (Spec.siteOf x).getD m.site ∧ m'.solar = (Spec.solarOf x).getD m.solar ∧
      ∀ k, x ≠ .other k := by
  obtain ⟨p1, p2, p3, p4, p5, p6, p7⟩ := holds_plain c os m hm
  cases x with
  | buildings l =>
    obtain rfl := Outcome.ok.inj h
    exact ⟨by rw [foldl_buildings]; exact p1 l, rfl, rfl, rfl, by simp⟩
  | constructions l =>
    obtain rfl := Outcome.ok.inj h
    exact ⟨by rw [foldl_constructions]; exact p2 l, rfl, rfl, rfl, by simp⟩
  | materials l =>
    obtain rfl := Outcome.ok.inj h
    exact ⟨by rw [foldl_materials]; exact p3 l, rfl, rfl, rfl, by simp⟩
  | substances l =>
    obtain rfl := Outcome.ok.inj h
    exact ⟨by rw [foldl_substances]; exact p4 l, rfl, rfl, rfl, by simp⟩
  | spaces l =>
    obtain rfl := Outcome.ok.inj h
    exact ⟨by rw [foldl_spaces]; exact p5 l, rfl, rfl, rfl, by simp⟩
  | objects l => obtain rfl := Outcome.ok.inj h; exact ⟨p6 l, rfl, rfl, rfl, by simp⟩
  | outputs l => obtain rfl := Outcome.ok.inj h; exact ⟨p7 l, rfl, rfl, rfl, by simp⟩
  | name n =>
    obtain rfl := Outcome.ok.inj h
    exact ⟨holds_other c os _ m _ hm rfl rfl (Or.inl (List.append_nil _)), rfl, rfl, rfl, by simp⟩
  | siteDetails n =>
    obtain rfl := Outcome.ok.inj h
    exact ⟨holds_other c os _ m _ hm rfl rfl (Or.inl (List.append_nil _)), rfl, rfl, rfl, by simp⟩
  | solarOptions n =>
    obtain rfl := Outcome.ok.inj h
    exact ⟨holds_other c os _ m _ hm rfl rfl (Or.inl (List.append_nil _)), rfl, rfl, rfl, by simp⟩
  | surfaces l =>
    rw [readSection, bind_ok_iff] at h
    obtain ⟨ss, hs, h⟩ := h
    obtain rfl := Outcome.ok.inj h
    exact ⟨holds_surfaces c l os m ss hm hs, rfl, rfl, rfl, by simp⟩
  | fenestrations l =>
    rw [readSection, bind_ok_iff] at h
    obtain ⟨fs, hs, h⟩ := h
    rw [bind_ok_iff] at h
    obtain ⟨core, h1, h⟩ := h
    obtain rfl := Outcome.ok.inj h
    exact ⟨holds_fenestrations c g l os m fs core hm hs h1, rfl, rfl, rfl, by simp⟩
  | hvacs l =>
    rw [readSection, bind_ok_iff] at h
    obtain ⟨core, h1, h⟩ := h
    obtain rfl := Outcome.ok.inj h
    exact ⟨holds_hvacs c l os m core hm h1, rfl, rfl, rfl, by simp⟩
  | luminaires l =>
    rw [readSection, bind_ok_iff] at h
    obtain ⟨core, h1, h⟩ := h
    obtain rfl := Outcome.ok.inj h
    exact ⟨holds_luminaires c l os m core hm h1, rfl, rfl, rfl, by simp⟩
  | other k => cases h

theorem last_cons {α : Type*} (l : List α) (a d : α) : ((a :: l).getLast?).getD d = (l.getLast?).getD a := by
  cases l with
  | nil => rfl
  | cons b l => rw [List.getLast?_cons_cons]; rw [List.getLast?_eq_getLast_of_ne_nil (by simp)]; rfl

theorem readSections_holds [Zero F] (c : Codec P W) (g : Geo P F) (doc : List (Section W F O S Q)) :
    ∀ (os : List (Obj W F O S Q)) (m m' : Whole P F O S Q), Holds c os m → readSections c g m doc = .ok m' →
    Holds c (os ++ doc.flatMap Spec.sectionObjects) m' ∧ m'.name = ((doc.filterMap Spec.nameOf).getLast?).getD m.name ∧
      m'.site = ((doc.filterMap Spec.siteOf).getLast?).getD m.site ∧ m'.solar = ((doc.filterMap Spec.solarOf).getLast?).getD m.solar ∧
      ∀ k, Section.other k ∉ doc := by
  induction doc with
  | nil =>
    intro os m m' hm h
    obtain rfl := Outcome.ok.inj h
    exact ⟨by simpa using hm, rfl, rfl, rfl, by simp⟩
  | cons x doc ih =>
    intro os m m' hm h
    rw [readSections, bind_ok_iff] at h
    obtain ⟨m1, h1, h2⟩ := h
    obtain ⟨q1, q2, q3, q4, q5⟩ := readSection_holds c g os m m1 x hm h1
    obtain ⟨r1, r2, r3, r4, r5⟩ := ih _ _ _ q1 h2
    refine ⟨by simpa [List.append_assoc] using r1, ?_, ?_, ?_, ?_⟩
    · rw [r2, q2, List.filterMap_cons]
      cases x <;> simp only [Spec.nameOf, last_cons, Option.getD_some, Option.getD_none]
    · rw [r3, q3, List.filterMap_cons]
      cases x <;> simp only [Spec.siteOf, last_cons, Option.getD_some, Option.getD_none]
    · rw [r4, q4, List.filterMap_cons]
      cases x <;> simp only [Spec.solarOf, last_cons, Option.getD_some, Option.getD_none]
    · intro k hk
      rcases List.mem_cons.1 hk with hk | hk
      · exact q5 k hk.symm
      · exact r5 k hk

/-- C93: whatever JSON file is loaded, it has no unknown field, and the building has exactly its objects, each kind in the order
of the file, with their names, constructions, parents, sides and polygons, and the last name, site details and solar options. -/
theorem C93_json_contents [Zero F] (c : Codec P W) (g : Geo P F) (doc : List (Section W F O S Q)) (m : Whole P F O S Q) (h : Header F)
    (hl : fromJson c g doc = .ok (m, h)) :
    (∀ k, Section.other k ∉ doc) ∧ Spec.Holds c (doc.flatMap Spec.sectionObjects) m ∧
      m.name = Spec.lastOf Spec.nameOf doc ∧ m.site = Spec.lastOf Spec.siteOf doc ∧ m.solar = Spec.lastOf Spec.solarOf doc := by
  unfold fromJson at hl
  rw [bind_ok_iff] at hl
  obtain ⟨m1, h1, h2⟩ := hl
  obtain ⟨r1, r2, r3, r4, r5⟩ := readSections_holds c g doc [] _ _ (holds_empty c) h1
  obtain ⟨f1, -⟩ := finish_ok _ _ h2
  dsimp only at f1
  refine ⟨r5, ?_, ?_, ?_, ?_⟩
  · rw [f1]; exact holds_state c _ _ _ (by simpa using r1)
  · rw [f1]; exact r2
  · rw [f1]; exact r3
  · rw [f1]; exact r4

/-! ## Cases -/

/-- A file with a wall and a window in it, which names the wall as its parent, is loaded. -/
example : ∃ m h, fromJson (⟨.ok, .ok⟩ : Codec ℕ ℕ) (⟨fun a b => some (a + b), fun _ _ => true, fun _ => false, fun _ => 0⟩ : Geo ℕ ℚ)
    ([.constructions [⟨"wall", []⟩], .surfaces [⟨"south", "wall", 1, .outdoor, .ground, none, false⟩],
      .fenestrations [⟨"window", "wall", .window, 2, .outdoor, .outdoor, some "south", none⟩], .outputs [()], .outputs [()]] :
        List (Section ℕ ℚ Unit Unit Unit)) = .ok (m, h) ∧ m.outputs = [(), ()] ∧
    m.core.surfaces = [⟨"south", "wall", 3, .outdoor, .ground, none, false⟩] ∧
    m.core.fenestrations = [⟨"window", "wall", .window, 2, .outdoor, .ground, some "south", some 0⟩] := by
  refine ⟨_, _, rfl, rfl, rfl, rfl⟩

end Simple.Save
