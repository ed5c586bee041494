import Verif.Building.SaveModel
import Verif.Building.ModelProps
import Verif.Building.ScannerProps

/-! # C93: a building that is saved is loaded as it was -/

namespace Simple.Save

open Building State

variable {P W F O S Q : Type*}

/-! ## Specification -/

namespace Spec

/-- Everything that objects name exists. -/
structure Valid (m : Whole P F O S Q) : Prop where
  fenestrations : ∀ f ∈ m.core.fenestrations, f.category = .opening ∨
    ∃ k ∈ m.core.constructions, k.name = f.construction
  surfaces : ∀ s ∈ m.core.surfaces, (∃ k ∈ m.core.constructions, k.name = s.construction) ∧
    ∀ n : String, s.front = .space n ∨ s.back = .space n → ∃ r ∈ m.core.spaces, r.name = n
  objects : ∀ o ∈ m.core.objects, ∀ n : String, o.space = some n → ∃ r ∈ m.core.spaces, r.name = n

/-- The operational elements of a building with so many fenestrations, systems and luminaires. -/
def elements (nf nh nl : ℕ) : List Element :=
  (List.range nf).map .fenestrationOpenFraction ++ (List.range nh).map .heatingCoolingPowerConsumption ++
    (List.range nl).map .luminairePowerConsumption

/-- The building that is expected: the same objects in the same order, with the polygons as they are after writing
and reading (`re`), without names of parents, and with their places in a new state. -/
def reloaded (re : P → P) (m : Model P F) : Model P F where
  substances := m.substances
  materials := m.materials
  constructions := m.constructions
  spaces := m.spaces.map fun s => { s with dryBulbIndex := none }
  buildings := m.buildings
  objects := m.objects
  surfaces := m.surfaces.map fun s => { s with vertices := re s.vertices, shared := false }
  fenestrations := m.fenestrations.mapIdx fun i f =>
    { f with vertices := re f.vertices, parent := none, openFractionIndex := some i }
  hvacs := m.hvacs.mapIdx fun i h => h.withIndex (m.fenestrations.length + i)
  luminaires := m.luminaires.mapIdx fun i l => { l with index := some (m.fenestrations.length + m.hvacs.length + i) }
  state := none

/-- Every polygon of the building can be written, and `re` is what reading it gives. -/
def Rewrites (c : Codec P W) (re : P → P) (m : Model P F) : Prop :=
  (∀ s ∈ m.surfaces, (c.enc s.vertices).bind c.dec = .ok (re s.vertices)) ∧
  ∀ f ∈ m.fenestrations, (c.enc f.vertices).bind c.dec = .ok (re f.vertices)

end Spec

/-! ## Lemmas -/

/-- A header with operational elements only. -/
def grown [Zero F] (es : List Element) : Header F where
  nOperational := es.length
  nIndividual := 0
  passedOperational := false
  passedPersonal := !es.isEmpty
  elements := es
  defaultValues := some (List.replicate es.length 0)

theorem grown_nil [Zero F] : (grown [] : Header F) = Header.new := rfl

theorem grown_push [Zero F] (es : List Element) (e : Element) (he : e.isOperational = true) (hp : e.isPersonal = false) :
    (grown es : Header F).push e 0 = (.ok es.length, grown (es ++ [e])) := by
  unfold Header.push
  rw [hp, he]
  simp [grown, Header.register, List.replicate_succ']

theorem traverse_ok {α β : Type*} (f : α → Outcome β) (g : α → β) (l : List α) (h : ∀ a ∈ l, f a = .ok (g a)) :
    traverse f l = .ok (l.map g) := by
  induction l with
  | nil => rfl
  | cons a l ih =>
    rw [traverse, h a (by simp), ih fun b hb => h b (by simp [hb])]
    rfl

theorem mapIdx_of_map {α β γ : Type*} (f : α → β) (g : ℕ → β → γ) (l : List α) :
    (l.map f).mapIdx g = l.mapIdx fun i a => g i (f a) := by
  apply List.ext_getElem?
  intro i
  simp [List.getElem?_mapIdx, Function.comp_def]

theorem isErr_find {α : Type*} (nm : α → String) (n : String) (l : List α) (h : ∃ a ∈ l, nm a = n) :
    Model.isErr (Model.findNamed nm n l) = false := by
  induction l with
  | nil => simp at h
  | cons a l ih =>
    unfold Model.findNamed
    by_cases ha : nm a = n
    · rw [if_pos ha]; rfl
    · rw [if_neg ha]
      obtain ⟨b, hb, hbn⟩ := h
      rcases List.mem_cons.1 hb with rfl | hb
      · exact absurd hbn ha
      · exact ih ⟨b, hb, hbn⟩

theorem find_isErr {α : Type*} (nm : α → String) (n : String) (l : List α)
    (h : Model.isErr (Model.findNamed nm n l) = false) : ∃ a ∈ l, nm a = n := by
  induction l with
  | nil => simp [Model.findNamed, Model.isErr] at h
  | cons a l ih =>
    unfold Model.findNamed at h
    by_cases ha : nm a = n
    · exact ⟨a, by simp, ha⟩
    · rw [if_neg ha] at h
      obtain ⟨b, hb, hbn⟩ := ih h
      exact ⟨b, by simp [hb], hbn⟩

theorem addAll_append {α : Type*} (add : Model P F → α → Outcome Unit × Model P F) (m : Model P F) (l l' : List α) :
    addAll add m (l ++ l') = (addAll add m l).bind fun m' => addAll add m' l' := by
  induction l generalizing m with
  | nil => rfl
  | cons a l ih =>
    rw [List.cons_append, addAll, addAll]
    rcases h : add m a with ⟨o, m'⟩
    cases o with
    | ok u => exact ih m'
    | err => rfl
    | panic => rfl

theorem addFenestrations [Zero F] (g : Geo P F) (l : List (Fenestration P F)) : ∀ (m : Model P F) (es : List Element),
    m.state = some (grown es) →
    (∀ f ∈ l, f.parent = none ∧ f.openFractionIndex = none ∧
      (f.category = .opening ∨ ∃ k ∈ m.constructions, k.name = f.construction)) →
    addAll (Model.addFenestration g) m l = .ok { m with
      fenestrations := m.fenestrations ++ l.mapIdx fun i f => { f with openFractionIndex := some (es.length + i) }
      state := some (grown (es ++ (List.range' m.fenestrations.length l.length).map .fenestrationOpenFraction)) } := by
  induction l with
  | nil => intro m es hm _; simp [addAll, ← hm]
  | cons f l ih =>
    intro m es hm h
    obtain ⟨h1, h2, h3⟩ := h f (by simp)
    have hadd : m.addFenestration g f = (.ok (), { m with
        fenestrations := m.fenestrations ++ [{ f with openFractionIndex := some es.length }]
        state := some (grown (es ++ [.fenestrationOpenFraction m.fenestrations.length])) }) := by
      unfold Model.addFenestration
      rw [if_neg (by
        rintro ⟨c1, c2⟩
        rcases h3 with h3 | h3
        · exact c1 h3
        · rw [Model.getConstruction, isErr_find _ _ _ h3] at c2; exact absurd c2 (by simp))]
      simp only [Model.pushToState, hm, grown_push es (.fenestrationOpenFraction m.fenestrations.length) rfl rfl, h1, h2]
    rw [addAll, hadd]
    dsimp only
    refine (ih _ (es ++ [.fenestrationOpenFraction m.fenestrations.length]) rfl ?_).trans ?_
    · intro f' hf'
      exact h f' (by simp [hf'])
    simp only [List.length_append, List.length_cons, List.length_nil, List.append_assoc, List.mapIdx_cons,
      List.range'_succ, List.map_cons, List.cons_append, List.nil_append, Nat.zero_add]
    congr 4
    · congr 1
      congr 1
      funext i f
      congr 2
      omega

theorem addHvacs [Zero F] (l : List (Hvac F)) : ∀ (m : Model P F) (es : List Element),
    m.state = some (grown es) →
    addAll Model.addHvac m (l.map bareHvac) = .ok { m with
      hvacs := m.hvacs ++ l.mapIdx fun i h => h.withIndex (es.length + i)
      state := some (grown (es ++ (List.range' m.hvacs.length l.length).map .heatingCoolingPowerConsumption)) } := by
  induction l with
  | nil => intro m es hm; simp [addAll, ← hm]
  | cons f l ih =>
    intro m es hm
    have hb : (bareHvac f).index = none ∧ ∀ i, (bareHvac f).withIndex i = f.withIndex i := by
      cases f <;> exact ⟨rfl, fun _ => rfl⟩
    have hadd : m.addHvac (bareHvac f) = (.ok (), { m with
        hvacs := m.hvacs ++ [f.withIndex es.length]
        state := some (grown (es ++ [.heatingCoolingPowerConsumption m.hvacs.length])) }) := by
      unfold Model.addHvac
      simp only [Model.pushToState, hm, grown_push es (.heatingCoolingPowerConsumption m.hvacs.length) rfl rfl, hb.1, hb.2]
    rw [List.map_cons, addAll, hadd]
    dsimp only
    rw [ih _ (es ++ [.heatingCoolingPowerConsumption m.hvacs.length]) rfl]
    simp only [List.length_append, List.length_cons, List.length_nil, List.append_assoc, List.mapIdx_cons,
      List.range'_succ, List.map_cons, List.cons_append, List.nil_append, Nat.zero_add]
    congr 4
    · congr 1
      congr 1
      funext i f
      congr 1
      omega

theorem addLuminaires [Zero F] (l : List Luminaire) : ∀ (m : Model P F) (es : List Element),
    m.state = some (grown es) →
    addAll Model.addLuminaire m (l.map bareLuminaire) = .ok { m with
      luminaires := m.luminaires ++ l.mapIdx fun i h => { h with index := some (es.length + i) }
      state := some (grown (es ++ (List.range' m.luminaires.length l.length).map .luminairePowerConsumption)) } := by
  induction l with
  | nil => intro m es hm; simp [addAll, ← hm]
  | cons f l ih =>
    intro m es hm
    have hadd : m.addLuminaire (bareLuminaire f) = (.ok (), { m with
        luminaires := m.luminaires ++ [{ f with index := some es.length }]
        state := some (grown (es ++ [.luminairePowerConsumption m.luminaires.length])) }) := by
      unfold Model.addLuminaire
      simp only [Model.pushToState, hm, grown_push es (.luminairePowerConsumption m.luminaires.length) rfl rfl, bareLuminaire]
    rw [List.map_cons, addAll, hadd]
    dsimp only
    rw [ih _ (es ++ [.luminairePowerConsumption m.luminaires.length]) rfl]
    simp only [List.length_append, List.length_cons, List.length_nil, List.append_assoc, List.mapIdx_cons,
      List.range'_succ, List.map_cons, List.cons_append, List.nil_append, Nat.zero_add]
    congr 4
    · congr 1
      congr 1
      funext i f
      congr 2
      omega

theorem addSurfaces (l : List (Surface P F)) : ∀ (m : Model P F),
    (∀ s ∈ l, (∃ k ∈ m.constructions, k.name = s.construction) ∧
      ∀ n : String, s.front = .space n ∨ s.back = .space n → ∃ r ∈ m.spaces, r.name = n) →
    addAll Model.addSurface m l = .ok { m with surfaces := m.surfaces ++ l } := by
  induction l with
  | nil => intro m _; simp [addAll]
  | cons s l ih =>
    intro m h
    obtain ⟨h1, h2⟩ := h s (by simp)
    have hb : ∀ b : Boundary F, (b = s.front ∨ b = s.back) → m.boundaryMissing b = false := by
      intro b hb
      cases b with
      | space n =>
        simp only [Model.boundaryMissing, Model.getSpace]
        exact isErr_find _ _ _ (h2 n (hb.imp Eq.symm Eq.symm))
      | _ => rfl
    have hadd : m.addSurface s = (.ok (), { m with surfaces := m.surfaces ++ [s] }) := by
      unfold Model.addSurface
      rw [Model.getConstruction, isErr_find _ _ _ h1, hb _ (Or.inl rfl), hb _ (Or.inr rfl)]
      simp
    rw [addAll, hadd]
    dsimp only
    refine (ih _ ?_).trans ?_
    · intro s' hs'
      exact h s' (by simp [hs'])
    · simp

theorem addObjects (l : List Object) : ∀ (m : Model P F),
    (∀ o ∈ l, ∀ n : String, o.space = some n → ∃ r ∈ m.spaces, r.name = n) →
    addAll Model.addObject m l = .ok { m with objects := m.objects ++ l } := by
  induction l with
  | nil => intro m _; simp [addAll]
  | cons o l ih =>
    intro m h
    have hadd : m.addObject o = (.ok (), { m with objects := m.objects ++ [o] }) := by
      unfold Model.addObject
      cases ho : o.space with
      | none => rfl
      | some n =>
        dsimp only
        rw [Model.getSpace, isErr_find _ _ _ (h o (by simp) n ho)]
        simp
    rw [addAll, hadd]
    dsimp only
    refine (ih _ ?_).trans ?_
    · intro o' ho'
      exact h o' (by simp [ho'])
    · simp

theorem foldl_buildings (l : List Building) (m : Model P F) :
    l.foldl Model.addBuilding m = { m with buildings := m.buildings ++ l } := by
  induction l generalizing m with
  | nil => simp
  | cons a l ih => rw [List.foldl_cons, ih]; simp [Model.addBuilding]

theorem foldl_constructions (l : List Construction) (m : Model P F) :
    l.foldl Model.addConstruction m = { m with constructions := m.constructions ++ l } := by
  induction l generalizing m with
  | nil => simp
  | cons a l ih => rw [List.foldl_cons, ih]; simp [Model.addConstruction]

theorem foldl_materials (l : List Material) (m : Model P F) :
    l.foldl Model.addMaterial m = { m with materials := m.materials ++ l } := by
  induction l generalizing m with
  | nil => simp
  | cons a l ih => rw [List.foldl_cons, ih]; simp [Model.addMaterial]

theorem foldl_spaces (l : List Space) (m : Model P F) :
    l.foldl Model.addSpace m = { m with spaces := m.spaces ++ l } := by
  induction l generalizing m with
  | nil => simp
  | cons a l ih => rw [List.foldl_cons, ih]; simp [Model.addSpace]

theorem foldl_substances (l : List Substance) (m : Model P F) :
    l.foldl Model.addSubstance m = { m with substances := m.substances ++ l } := by
  induction l generalizing m with
  | nil => simp
  | cons a l ih => rw [List.foldl_cons, ih]; simp [Model.addSubstance]

theorem readSections_append [Zero F] (c : Codec P W) (g : Geo P F) (m : Whole P F O S Q) (l l' : List (Section W F O S Q)) :
    readSections c g m (l ++ l') = (readSections c g m l).bind fun m' => readSections c g m' l' := by
  induction l generalizing m with
  | nil => rfl
  | cons s l ih =>
    rw [List.cons_append, readSections, readSections]
    cases readSection c g m s with
    | ok m' => exact ih m'
    | err => rfl
    | panic => rfl

/-- What is written of the polygons of a building can be read. -/
theorem encoded (c : Codec P W) (re : P → P) (m : Model P F) (h : Spec.Rewrites c re m) :
    ∃ (fs : List (Fenestration W F)) (ss : List (Surface W F)),
      traverse (encFenestration c) m.fenestrations = .ok fs ∧ traverse (encSurface c) m.surfaces = .ok ss ∧
      traverse (decFenestration c) fs = .ok (m.fenestrations.map fun f =>
        { f with vertices := re f.vertices, parent := none, openFractionIndex := none }) ∧
      traverse (decSurface c) ss = .ok (m.surfaces.map fun s => { s with vertices := re s.vertices, shared := false }) ∧
      List.Forall₂ (fun w f => decFenestration c w = .ok f) fs (m.fenestrations.map fun f =>
        { f with vertices := re f.vertices, parent := none, openFractionIndex := none }) ∧
      List.Forall₂ (fun w s => decSurface c w = .ok s) ss
        (m.surfaces.map fun s => { s with vertices := re s.vertices, shared := false }) := by
  obtain ⟨hs, hf⟩ := h
  have e1 : ∀ p q, (c.enc p).bind c.dec = .ok q → ∃ w, c.enc p = .ok w ∧ c.dec w = .ok q := by
    intro p q h
    cases hp : c.enc p with
    | ok w => rw [hp] at h; exact ⟨w, rfl, h⟩
    | err => rw [hp] at h; simp [Outcome.bind] at h
    | panic => rw [hp] at h; simp [Outcome.bind] at h
  have k1 : ∀ l : List (Fenestration P F), (∀ f ∈ l, (c.enc f.vertices).bind c.dec = .ok (re f.vertices)) →
      ∃ fs : List (Fenestration W F), traverse (encFenestration c) l = .ok fs ∧
        traverse (decFenestration c) fs = .ok (l.map fun f =>
          { f with vertices := re f.vertices, parent := none, openFractionIndex := none }) ∧
        List.Forall₂ (fun w f => decFenestration c w = .ok f) fs (l.map fun f =>
          { f with vertices := re f.vertices, parent := none, openFractionIndex := none }) := by
    intro l
    induction l with
    | nil => intro _; exact ⟨[], rfl, rfl, .nil⟩
    | cons f l ih =>
      intro h
      obtain ⟨w, hw1, hw2⟩ := e1 _ _ (h f (by simp))
      obtain ⟨fs, h1, h2, h3⟩ := ih fun f' hf' => h f' (by simp [hf'])
      refine ⟨⟨f.name, f.construction, f.category, w, f.front, f.back, none, none⟩ :: fs, ?_, ?_, ?_⟩
      · simp [traverse, encFenestration, hw1, h1, Outcome.bind]
      · simp [traverse, decFenestration, hw2, h2, Outcome.bind]
      · exact .cons (by simp [decFenestration, hw2, Outcome.bind]) h3
  have k2 : ∀ l : List (Surface P F), (∀ f ∈ l, (c.enc f.vertices).bind c.dec = .ok (re f.vertices)) →
      ∃ ss : List (Surface W F), traverse (encSurface c) l = .ok ss ∧
        traverse (decSurface c) ss = .ok (l.map fun s => { s with vertices := re s.vertices, shared := false }) ∧
        List.Forall₂ (fun w s => decSurface c w = .ok s) ss
          (l.map fun s => { s with vertices := re s.vertices, shared := false }) := by
    intro l
    induction l with
    | nil => intro _; exact ⟨[], rfl, rfl, .nil⟩
    | cons f l ih =>
      intro h
      obtain ⟨w, hw1, hw2⟩ := e1 _ _ (h f (by simp))
      obtain ⟨fs, h1, h2, h3⟩ := ih fun f' hf' => h f' (by simp [hf'])
      refine ⟨⟨f.name, f.construction, w, f.front, f.back, f.category, false⟩ :: fs, ?_, ?_, ?_⟩
      · simp [traverse, encSurface, hw1, h1, Outcome.bind]
      · simp [traverse, decSurface, hw2, h2, Outcome.bind]
      · exact .cons (by simp [decSurface, hw2, Outcome.bind]) h3
  obtain ⟨fs, f1, f2, f3⟩ := k1 _ hf
  obtain ⟨ss, s1, s2, s3⟩ := k2 _ hs
  exact ⟨fs, ss, f1, s1, f2, s2, f3, s3⟩

/-! ## JSON -/

/-- C93: a building saved as JSON is loaded with the same objects in the same order, all connected to a new state
that has the elements of the fenestrations, the systems and the luminaires. -/
theorem C93_json [Zero F] (c : Codec P W) (g : Geo P F) (re : P → P) (m : Whole P F O S Q) (hv : Spec.Valid m)
    (hr : Spec.Rewrites c re m.core) :
    ∃ doc h, writeJson c m = .ok doc ∧ fromJson c g doc = .ok ({ m with core := Spec.reloaded re m.core }, h) ∧
      h.elements = Spec.elements m.core.fenestrations.length m.core.hvacs.length m.core.luminaires.length ∧
      h.defaultValues = some (List.replicate h.elements.length 0) := by
  obtain ⟨fs, ss, f1, s1, f2, s2, -, -⟩ := encoded c re m.core hr
  refine ⟨[.buildings m.core.buildings, .constructions m.core.constructions, .fenestrations fs,
      .hvacs (m.core.hvacs.map bareHvac), .luminaires (m.core.luminaires.map bareLuminaire),
      .materials m.core.materials] ++ optional .name m.name ++
    [.objects m.core.objects, .outputs m.outputs] ++ optional .siteDetails m.site ++
    optional .solarOptions m.solar ++
    [.spaces (m.core.spaces.map bareSpace), .surfaces ss, .substances m.core.substances],
    grown (Spec.elements m.core.fenestrations.length m.core.hvacs.length m.core.luminaires.length), ?_, ?_, rfl, rfl⟩
  · unfold writeJson
    rw [f1, s1]
    rfl
  · have hn : ∀ (m' : Whole P F O S Q) (n : Option String), m'.name = none →
        readSections c g m' (optional .name n) = .ok { m' with name := n } := by
      intro m' n h
      cases n with
      | none => obtain ⟨_, _, _, _, _⟩ := m'; cases h; rfl
      | some n => rfl
    have hs : ∀ (m' : Whole P F O S Q) (n : Option S), m'.site = none →
        readSections c g m' (optional .siteDetails n) = .ok { m' with site := n } := by
      intro m' n h
      cases n with
      | none => obtain ⟨_, _, _, _, _⟩ := m'; cases h; rfl
      | some n => rfl
    have hq : ∀ (m' : Whole P F O S Q) (n : Option Q), m'.solar = none →
        readSections c g m' (optional .solarOptions n) = .ok { m' with solar := n } := by
      intro m' n h
      cases n with
      | none => obtain ⟨_, _, _, _, _⟩ := m'; cases h; rfl
      | some n => rfl
    unfold fromJson
    simp only [List.append_assoc]
    rw [readSections_append]
    have first : readSections c g (Whole.empty : Whole P F O S Q) [.buildings m.core.buildings, .constructions m.core.constructions,
        .fenestrations fs, .hvacs (m.core.hvacs.map bareHvac), .luminaires (m.core.luminaires.map bareLuminaire),
        .materials m.core.materials] = .ok ⟨{ Spec.reloaded re m.core with
          objects := [], spaces := [], surfaces := [], substances := [],
          state := some (grown (Spec.elements m.core.fenestrations.length m.core.hvacs.length m.core.luminaires.length)) },
          none, [], none, none⟩ := by
      have hbare : (m.core.hvacs.map bareHvac).map bareHvac = m.core.hvacs.map bareHvac := by
        rw [List.map_map]
        apply List.map_congr_left
        intro h _
        cases h <;> rfl
      have hbarel : (m.core.luminaires.map bareLuminaire).map bareLuminaire = m.core.luminaires.map bareLuminaire := by
        rw [List.map_map]; rfl
      simp only [readSections, readSection, f2, Outcome.bind, foldl_buildings, foldl_constructions, foldl_materials,
        hbare, hbarel]
      rw [addFenestrations g _ _ [] (by simp [Whole.empty, Model.empty, grown_nil]) (by
        intro f hf
        obtain ⟨f', hf', rfl⟩ := List.mem_map.1 hf
        exact ⟨rfl, rfl, by simpa [Whole.empty, Model.empty] using hv.fenestrations f' hf'⟩)]
      dsimp only
      rw [addHvacs _ _ _ rfl]
      dsimp only
      rw [addLuminaires _ _ _ rfl]
      simp [Whole.empty, Model.empty, Spec.reloaded, Spec.elements, List.range_eq_range', mapIdx_of_map]
    rw [first]
    simp only [Outcome.bind]
    rw [readSections_append, hn _ _ rfl]
    simp only [Outcome.bind]
    rw [readSections_append]
    simp only [readSections, readSection, Outcome.bind]
    rw [readSections_append, hs _ _ rfl]
    simp only [Outcome.bind]
    rw [readSections_append, hq _ _ rfl]
    have hbs : (m.core.spaces.map bareSpace).map bareSpace = m.core.spaces.map bareSpace := by
      rw [List.map_map]; rfl
    simp only [Outcome.bind, readSections, readSection, s2, foldl_spaces, foldl_substances, hbs, finish, Model.takeState,
      List.nil_append]
    rfl

/-! ## SIMPLE text -/

/-- The objects are read one after the other. -/
def readObjects [Zero F] (c : Codec P W) (g : Geo P F) :
    Whole P F O S Q → List (Obj W F O S Q) → Outcome (Whole P F O S Q)
  | m, [] => .ok m
  | m, o :: l => (readObject c g m o).bind fun m' => readObjects c g m' l

theorem readObjects_append [Zero F] (c : Codec P W) (g : Geo P F) (m : Whole P F O S Q) (l l' : List (Obj W F O S Q)) :
    readObjects c g m (l ++ l') = (readObjects c g m l).bind fun m' => readObjects c g m' l' := by
  induction l generalizing m with
  | nil => rfl
  | cons s l ih =>
    rw [List.cons_append, readObjects, readObjects]
    cases readObject c g m s with
    | ok m' => exact ih m'
    | err => rfl
    | panic => rfl

theorem readItems_objects [Zero F] (c : Codec P W) (g : Geo P F) (j : Json W F O S Q) (l : List (Obj W F O S Q))
    (hl : ∀ o ∈ l, j.parse o.kind (j.show_ o) = some o) (m : Whole P F O S Q) :
    readItems c g j m (l.map fun o => (o.kind, j.show_ o)) = readObjects c g m l := by
  induction l generalizing m with
  | nil => rfl
  | cons o l ih =>
    rw [List.map_cons, readItems, hl o (by simp), readObjects]
    dsimp only
    congr 1
    funext m'
    exact ih (fun o' ho' => hl o' (by simp [ho'])) m'

/-- The item of the scanner's specification that an object is written as. -/
def item (j : Json W F O S Q) (o : Obj W F O S Q) : Scan.Spec.Item :=
  ⟨o.kind, [' '], j.show_ o, match o with | .output _ => ['\n', '\n', '\n', '\n'] | _ => ['\n', '\n']⟩

theorem kind_wf (o : Obj W F O S Q) : o.kind ≠ [] ∧ ∀ x ∈ o.kind, Scan.Spec.NameChar x := by
  have h0 : Scan.readOrder.all (fun k => !k.isEmpty && k.all fun c => c.isAlphanum || c == '_') = true := by
    decide +kernel
  have hm : o.kind ∈ Scan.readOrder := by
    cases o with
    | space _ => exact List.mem_of_getElem? (i := 0) rfl
    | substance _ => exact List.mem_of_getElem? (i := 1) rfl
    | material _ => exact List.mem_of_getElem? (i := 2) rfl
    | construction _ => exact List.mem_of_getElem? (i := 3) rfl
    | surface _ => exact List.mem_of_getElem? (i := 4) rfl
    | fenestration _ => exact List.mem_of_getElem? (i := 5) rfl
    | building _ => exact List.mem_of_getElem? (i := 6) rfl
    | hvac _ => exact List.mem_of_getElem? (i := 7) rfl
    | luminaire _ => exact List.mem_of_getElem? (i := 8) rfl
    | object _ => exact List.mem_of_getElem? (i := 9) rfl
    | output _ => exact List.mem_of_getElem? (i := 10) rfl
    | siteDetails _ => exact List.mem_of_getElem? (i := 11) rfl
    | solarOptions _ => exact List.mem_of_getElem? (i := 12) rfl
  have h1 := List.all_eq_true.1 h0 _ hm
  simp only [Bool.and_eq_true, Bool.not_eq_true', List.isEmpty_eq_false_iff] at h1
  refine ⟨h1.1, fun x hx => ?_⟩
  have := List.all_eq_true.1 h1.2 x hx
  simpa [Scan.Spec.NameChar] using this

theorem item_wf (j : Json W F O S Q) (o : Obj W F O S Q) (h : Scan.Spec.Body (j.show_ o)) : (item j o).WF where
  name_ne := (kind_wf o).1
  name_ident := (kind_wf o).2
  gap := .space ' ' (Or.inl rfl) _ .nil
  body := h
  after := by
    have nl : ∀ l, Scan.Spec.Blank l → Scan.Spec.Blank ('\n' :: l) := fun l hl => .space '\n' (by simp) l hl
    cases o <;> first | exact nl _ (nl _ .nil) | exact nl _ (nl _ (nl _ (nl _ .nil)))

theorem scan_objects (j : Json W F O S Q) (os : List (Obj W F O S Q)) (h : ∀ o ∈ os, Scan.Spec.Body (j.show_ o)) :
    Scan.scanItems (os.map (objectText j)).flatten = .ok (os.map fun o => (o.kind, j.show_ o)) := by
  have := Scan.C19_scan [] .nil (os.map (item j)) (by
    intro i hi
    obtain ⟨o, ho, rfl⟩ := List.mem_map.1 hi
    exact item_wf j o (h o ho))
  rw [List.map_map] at this
  have e : Scan.Spec.file [] (os.map (item j)) = (os.map (objectText j)).flatten := by
    simp only [Scan.Spec.file, List.nil_append, List.map_map]
    congr 2
  rw [e] at this
  exact this

theorem additions_objects (j : Json W F O S Q) (os : List (Obj W F O S Q)) :
    Scan.additions (os.map fun o => (o.kind, j.show_ o)) =
      (Scan.readOrder.flatMap fun k => os.filter fun o => o.kind = k).map fun o => (o.kind, j.show_ o) := by
  unfold Scan.additions
  rw [List.map_flatMap]
  apply List.flatMap_congr
  intro k _
  rw [Scan.collect_eq, List.nil_append, List.filter_map, List.map_map, List.map_map]
  apply List.map_congr_left
  intro o ho
  have : o.kind = k := by simpa using (List.mem_filter.1 ho).2
  simp [this]

/-- Objects of one kind among others. -/
theorem filter_kind {α : Type*} (f : α → Obj W F O S Q) (k k' : List Char) (hf : ∀ a, (f a).kind = k') (l : List α) :
    (l.map f).filter (fun o => o.kind = k) = if k' = k then l.map f else [] := by
  induction l with
  | nil => simp
  | cons a l ih =>
    rw [List.map_cons, List.filter_cons, ih, hf a]
    by_cases h : k' = k <;> simp [h]

theorem read_buildings [Zero F] (c : Codec P W) (g : Geo P F) (l : List Building) : ∀ (m : Whole P F O S Q),
    readObjects c g m (l.map .building) = .ok { m with core := { m.core with buildings := m.core.buildings ++ l } } := by
  induction l with
  | nil => intro m; simp [readObjects]
  | cons a l ih => intro m; rw [List.map_cons, readObjects, readObject]; exact (ih _).trans (by simp [Model.addBuilding])

theorem read_constructions [Zero F] (c : Codec P W) (g : Geo P F) (l : List Construction) : ∀ (m : Whole P F O S Q),
    readObjects c g m (l.map .construction) =
      .ok { m with core := { m.core with constructions := m.core.constructions ++ l } } := by
  induction l with
  | nil => intro m; simp [readObjects]
  | cons a l ih => intro m; rw [List.map_cons, readObjects, readObject]; exact (ih _).trans (by simp [Model.addConstruction])

theorem read_materials [Zero F] (c : Codec P W) (g : Geo P F) (l : List Material) : ∀ (m : Whole P F O S Q),
    readObjects c g m (l.map .material) = .ok { m with core := { m.core with materials := m.core.materials ++ l } } := by
  induction l with
  | nil => intro m; simp [readObjects]
  | cons a l ih => intro m; rw [List.map_cons, readObjects, readObject]; exact (ih _).trans (by simp [Model.addMaterial])

theorem read_substances [Zero F] (c : Codec P W) (g : Geo P F) (l : List Substance) : ∀ (m : Whole P F O S Q),
    readObjects c g m (l.map .substance) = .ok { m with core := { m.core with substances := m.core.substances ++ l } } := by
  induction l with
  | nil => intro m; simp [readObjects]
  | cons a l ih => intro m; rw [List.map_cons, readObjects, readObject]; exact (ih _).trans (by simp [Model.addSubstance])

theorem read_outputs [Zero F] (c : Codec P W) (g : Geo P F) (l : List O) : ∀ (m : Whole P F O S Q),
    readObjects c g m (l.map .output) = .ok { m with outputs := m.outputs ++ l } := by
  induction l with
  | nil => intro m; simp [readObjects]
  | cons a l ih => intro m; rw [List.map_cons, readObjects, readObject]; exact (ih _).trans (by simp)

theorem read_spaces [Zero F] (c : Codec P W) (g : Geo P F) (l : List Space) : ∀ (m : Whole P F O S Q),
    readObjects c g m (l.map fun s => .space (bareSpace s)) =
      .ok { m with core := { m.core with spaces := m.core.spaces ++ l.map bareSpace } } := by
  induction l with
  | nil => intro m; simp [readObjects]
  | cons a l ih =>
    intro m
    rw [List.map_cons, readObjects, readObject]
    exact (ih _).trans (by simp [Model.addSpace, bareSpace])

theorem read_site [Zero F] (c : Codec P W) (g : Geo P F) (s : Option S) (m : Whole P F O S Q) (hm : m.site = none) :
    readObjects c g m (s.toList.map .siteDetails) = .ok { m with site := s } := by
  cases s with
  | none => obtain ⟨_, _, _, _, _⟩ := m; cases hm; rfl
  | some s => rfl

theorem read_each [Zero F] {α β : Type*} (c : Codec P W) (g : Geo P F) (mk : β → Obj W F O S Q)
    (dec : β → α → Prop) (add : Model P F → α → Outcome Unit × Model P F)
    (hmk : ∀ b a (m : Whole P F O S Q), dec b a → readObject c g m (mk b) =
      (addAll add m.core [a]).bind fun core => .ok { m with core := core })
    (bs : List β) (as : List α) (hb : List.Forall₂ dec bs as) :
    ∀ m : Whole P F O S Q, readObjects c g m (bs.map mk) =
      (addAll add m.core as).bind fun core => .ok { m with core := core } := by
  induction hb with
  | nil => intro m; rfl
  | @cons b a bs as hd _ ih =>
    intro m
    rw [List.map_cons, readObjects, hmk b a m hd, show a :: as = [a] ++ as from rfl, addAll_append]
    cases addAll add m.core [a] with
    | ok core => exact ih _
    | err => rfl
    | panic => rfl

/-- C93, in part: a building printed as SIMPLE text is loaded with the same objects in the same order.  Missing: the
name of the model and its solar options, which are not printed (`C93_violated_text`).  The hypothesis about the JSON of
single objects is that it has balanced braces and is read as the object that was written. -/
theorem C93_text_partial [Zero F] (c : Codec P W) (g : Geo P F) (j : Json W F O S Q) (re : P → P) (m : Whole P F O S Q)
    (hv : Spec.Valid m) (hr : Spec.Rewrites c re m.core)
    (hj : ∀ os, textObjects c m = .ok os → ∀ o ∈ os, Scan.Spec.Body (j.show_ o) ∧ j.parse o.kind (j.show_ o) = some o) :
    ∃ text h, writeText c j m = .ok text ∧
      fromText c g j text = .done (.ok (⟨Spec.reloaded re m.core, none, m.outputs, m.site, none⟩, h)) ∧
      h.elements = Spec.elements m.core.fenestrations.length m.core.hvacs.length m.core.luminaires.length ∧
      h.defaultValues = some (List.replicate h.elements.length 0) := by
  obtain ⟨fs, ss, f1, s1, -, -, f3, s3⟩ := encoded c re m.core hr
  have hos : textObjects c m = .ok (m.core.buildings.map .building ++ m.core.constructions.map .construction ++
      fs.map .fenestration ++ m.core.hvacs.map (fun h => .hvac (bareHvac h)) ++
      m.core.luminaires.map (fun l => .luminaire (bareLuminaire l)) ++
      m.core.materials.map .material ++ m.core.objects.map .object ++ m.outputs.map .output ++
      m.site.toList.map .siteDetails ++ m.core.substances.map .substance ++
      m.core.spaces.map (fun s => .space (bareSpace s)) ++ ss.map .surface) := by
    unfold textObjects
    rw [f1, s1]
    rfl
  have hj' := hj _ hos
  refine ⟨_, grown (Spec.elements m.core.fenestrations.length m.core.hvacs.length m.core.luminaires.length),
    by unfold writeText; rw [hos]; rfl, ?_, rfl, rfl⟩
  unfold fromText
  rw [scan_objects j _ fun o ho => (hj' o ho).1]
  dsimp only
  rw [additions_objects, readItems_objects]
  swap
  · intro o ho
    obtain ⟨k, _, ho⟩ := List.mem_flatMap.1 ho
    exact (hj' o (List.mem_filter.1 ho).1).2
  congr 1
  have order : (Scan.readOrder.flatMap fun k => (m.core.buildings.map .building ++ m.core.constructions.map .construction ++
      fs.map .fenestration ++ m.core.hvacs.map (fun h => .hvac (bareHvac h)) ++
      m.core.luminaires.map (fun l => .luminaire (bareLuminaire l)) ++
      m.core.materials.map .material ++ m.core.objects.map .object ++ m.outputs.map .output ++
      m.site.toList.map .siteDetails ++ m.core.substances.map .substance ++
      m.core.spaces.map (fun s => .space (bareSpace s)) ++ ss.map .surface : List (Obj W F O S Q)).filter fun o => o.kind = k) =
      m.core.spaces.map (fun s => .space (bareSpace s)) ++ (m.core.substances.map .substance ++
      (m.core.materials.map .material ++ (m.core.constructions.map .construction ++ (ss.map .surface ++
      (fs.map .fenestration ++ (m.core.buildings.map .building ++ (m.core.hvacs.map (fun h => .hvac (bareHvac h)) ++
      (m.core.luminaires.map (fun l => .luminaire (bareLuminaire l)) ++ (m.core.objects.map .object ++
      (m.outputs.map .output ++ m.site.toList.map .siteDetails)))))))))) := by
    simp only [Scan.readOrder, List.flatMap_cons, List.flatMap_nil, List.filter_append,
      filter_kind _ _ "Building".toList (fun a => show (Obj.building a : Obj W F O S Q).kind = _ from rfl),
      filter_kind _ _ "Construction".toList (fun a => show (Obj.construction a : Obj W F O S Q).kind = _ from rfl),
      filter_kind _ _ "Fenestration".toList (fun a => show (Obj.fenestration a : Obj W F O S Q).kind = _ from rfl),
      filter_kind _ _ "HVAC".toList (fun a => show (Obj.hvac (bareHvac a) : Obj W F O S Q).kind = _ from rfl),
      filter_kind _ _ "Luminaire".toList (fun a => show (Obj.luminaire (bareLuminaire a) : Obj W F O S Q).kind = _ from rfl),
      filter_kind _ _ "Material".toList (fun a => show (Obj.material a : Obj W F O S Q).kind = _ from rfl),
      filter_kind _ _ "Object".toList (fun a => show (Obj.object a : Obj W F O S Q).kind = _ from rfl),
      filter_kind _ _ "Output".toList (fun a => show (Obj.output a : Obj W F O S Q).kind = _ from rfl),
      filter_kind _ _ "SiteDetails".toList (fun a => show (Obj.siteDetails a : Obj W F O S Q).kind = _ from rfl),
      filter_kind _ _ "Substance".toList (fun a => show (Obj.substance a : Obj W F O S Q).kind = _ from rfl),
      filter_kind _ _ "Space".toList (fun a => show (Obj.space (bareSpace a) : Obj W F O S Q).kind = _ from rfl),
      filter_kind _ _ "Surface".toList (fun a => show (Obj.surface a : Obj W F O S Q).kind = _ from rfl)]
    simp
  rw [order]
  rw [readObjects_append, read_spaces]
  simp only [Outcome.bind]
  rw [readObjects_append, read_substances]
  simp only [Outcome.bind]
  rw [readObjects_append, read_materials]
  simp only [Outcome.bind]
  rw [readObjects_append, read_constructions]
  simp only [Outcome.bind]
  rw [readObjects_append, read_each c g .surface (fun w s => decSurface c w = .ok s) Model.addSurface
    (fun b a m' h => by rw [readObject, h]; rfl) ss _ s3, addSurfaces]
  swap
  · intro s hs
    obtain ⟨s', hs', rfl⟩ := List.mem_map.1 hs
    obtain ⟨v1, v2⟩ := hv.surfaces s' hs'
    refine ⟨by simpa [Whole.empty, Model.empty] using v1, fun n hn => ?_⟩
    obtain ⟨r, hr', hrn⟩ := v2 n hn
    exact ⟨bareSpace r, by simpa [Whole.empty, Model.empty] using ⟨r, hr', rfl⟩, hrn⟩
  simp only [Outcome.bind]
  rw [readObjects_append, read_each c g .fenestration (fun w s => decFenestration c w = .ok s) (Model.addFenestration g)
    (fun b a m' h => by rw [readObject, h]; rfl) fs _ f3,
    addFenestrations g _ _ [] (by simp [Whole.empty, Model.empty, grown_nil]) (by
        intro f hf
        obtain ⟨f', hf', rfl⟩ := List.mem_map.1 hf
        exact ⟨rfl, rfl, by simpa [Whole.empty, Model.empty] using hv.fenestrations f' hf'⟩)]
  simp only [Outcome.bind]
  rw [readObjects_append, read_buildings]
  simp only [Outcome.bind]
  have hh := read_each (O := O) (S := S) (Q := Q) c g (fun h => .hvac (bareHvac h)) (fun a b => b = bareHvac a) Model.addHvac
    (fun b a m' h => by
      subst h
      rw [readObject]
      cases b <;> rfl) m.core.hvacs (m.core.hvacs.map bareHvac) (by
        rw [List.forall₂_map_right_iff]
        exact List.forall₂_same.2 fun _ _ => rfl)
  rw [readObjects_append, hh, addHvacs _ _ _ rfl]
  simp only [Outcome.bind]
  have hl := read_each (O := O) (S := S) (Q := Q) c g (fun h => .luminaire (bareLuminaire h)) (fun a b => b = bareLuminaire a)
    Model.addLuminaire (fun b a m' h => by subst h; rw [readObject]; rfl) m.core.luminaires
    (m.core.luminaires.map bareLuminaire) (by
        rw [List.forall₂_map_right_iff]
        exact List.forall₂_same.2 fun _ _ => rfl)
  rw [readObjects_append, hl, addLuminaires _ _ _ rfl]
  simp only [Outcome.bind]
  have ho := read_each (O := O) (S := S) (Q := Q) c g .object (fun a b => b = a) Model.addObject
    (fun b a m' h => by subst h; rw [readObject]) m.core.objects m.core.objects (List.forall₂_same.2 fun _ _ => rfl)
  rw [readObjects_append, ho, addObjects]
  swap
  · intro o ho n hn
    obtain ⟨r, hr', hrn⟩ := hv.objects o ho n hn
    exact ⟨bareSpace r, by simpa [Whole.empty, Model.empty] using ⟨r, hr', rfl⟩, hrn⟩
  simp only [Outcome.bind]
  rw [readObjects_append, read_outputs]
  simp only [Outcome.bind]
  rw [read_site _ _ _ _ rfl]
  simp [finish, Model.takeState, Whole.empty, Model.empty, Spec.reloaded, Spec.elements, List.range_eq_range', mapIdx_of_map,
    bareSpace]

/-! ## What a building that was made through the API names exists -/

theorem valid_core [Zero F] (g : Geo P F) (ops : List (Model.Op P F)) : ∀ m : Model P F,
    Spec.Valid (⟨m, none, [], none, none⟩ : Whole P F Unit Unit Unit) →
    Spec.Valid (⟨m.applyAll g ops, none, [], none, none⟩ : Whole P F Unit Unit Unit) := by
  induction ops with
  | nil => intro m h; exact h
  | cons op ops ih =>
    intro m hm
    refine ih _ ?_
    obtain ⟨h1, h2, h3⟩ := hm
    have same : ∀ m' : Model P F, m'.fenestrations = m.fenestrations → m'.surfaces = m.surfaces → m'.objects = m.objects →
        (∀ k ∈ m.constructions, k ∈ m'.constructions) → (∀ r ∈ m.spaces, r ∈ m'.spaces) →
        Spec.Valid (⟨m', none, [], none, none⟩ : Whole P F Unit Unit Unit) := by
      intro m' e1 e2 e3 e4 e5
      refine ⟨fun f hf => ?_, fun s hs => ?_, fun o ho n hn => ?_⟩
      · rw [e1] at hf
        exact (h1 f hf).imp id fun ⟨k, hk, hkn⟩ => ⟨k, e4 k hk, hkn⟩
      · rw [e2] at hs
        obtain ⟨⟨k, hk, hkn⟩, v⟩ := h2 s hs
        refine ⟨⟨k, e4 k hk, hkn⟩, fun n hn => ?_⟩
        obtain ⟨r, hr, hrn⟩ := v n hn
        exact ⟨r, e5 r hr, hrn⟩
      · rw [e3] at ho
        obtain ⟨r, hr, hrn⟩ := h3 o ho n hn
        exact ⟨r, e5 r hr, hrn⟩
    cases op with
    | substance a => exact same _ rfl rfl rfl (fun _ h => h) (fun _ h => h)
    | material a => exact same _ rfl rfl rfl (fun _ h => h) (fun _ h => h)
    | construction a => exact same _ rfl rfl rfl (fun k hk => List.mem_append_left _ hk) (fun _ h => h)
    | space a => exact same _ rfl rfl rfl (fun _ h => h) (fun k hk => List.mem_append_left _ hk)
    | building a => exact same _ rfl rfl rfl (fun _ h => h) (fun _ h => h)
    | takeState => exact same _ rfl rfl rfl (fun _ h => h) (fun _ h => h)
    | hvac a =>
      rcases addHvac_lists m a with ⟨-, i, h⟩ | ⟨-, h⟩ <;>
        (simp only [Model.apply]; rw [h]; exact same _ rfl rfl rfl (fun _ h => h) (fun _ h => h))
    | luminaire a =>
      rcases addLuminaire_lists m a with ⟨-, i, h⟩ | ⟨-, h⟩ <;>
        (simp only [Model.apply]; rw [h]; exact same _ rfl rfl rfl (fun _ h => h) (fun _ h => h))
    | object a =>
      rcases addObject_cases m a with ⟨hok, h⟩ | h
      · simp only [Model.apply, h]
        refine ⟨h1, h2, fun o ho n hn => ?_⟩
        rcases List.mem_append.1 ho with ho | ho
        · exact h3 o ho n hn
        · rw [List.mem_singleton] at ho
          subst ho
          simp only [Model.addObject, hn] at hok
          by_cases he : Model.isErr (m.getSpace n) = true
          · rw [if_pos he] at hok; simp at hok
          · exact find_isErr _ _ _ (by simpa [Model.getSpace] using he)
      · simp only [Model.apply, h]
        exact ⟨h1, h2, h3⟩
    | surface a =>
      rcases addSurface_cases m a with ⟨hok, h⟩ | h
      · simp only [Model.apply, h]
        refine ⟨h1, fun s hs => ?_, h3⟩
        rcases List.mem_append.1 hs with hs | hs
        · exact h2 s hs
        · rw [List.mem_singleton] at hs
          subst hs
          unfold Model.addSurface at hok
          by_cases c1 : Model.isErr (m.getConstruction s.construction) = true
          · rw [if_pos c1] at hok; simp at hok
          rw [if_neg c1] at hok
          by_cases c2 : m.boundaryMissing s.front = true
          · rw [if_pos c2] at hok; simp at hok
          rw [if_neg c2] at hok
          by_cases c3 : m.boundaryMissing s.back = true
          · rw [if_pos c3] at hok; simp at hok
          refine ⟨find_isErr _ _ _ (by simpa [Model.getConstruction] using c1), fun n hn => ?_⟩
          apply find_isErr
          rcases hn with hn | hn
          · rw [hn] at c2; simpa [Model.boundaryMissing, Model.getSpace] using c2
          · rw [hn] at c3; simpa [Model.boundaryMissing, Model.getSpace] using c3
      · simp only [Model.apply, h]
        exact ⟨h1, h2, h3⟩
    | fenestration a =>
      have hf : ∀ surfaces a', (m.addFenestration g a).1 = .ok () → (m.addFenestration g a).2 =
          { m with state := (m.addFenestration g a).2.state, surfaces := surfaces, fenestrations := m.fenestrations ++ [a'] } →
          a'.category = .opening ∨ ∃ k ∈ m.constructions, k.name = a'.construction := by
        intro surfaces a' hok he
        by_cases c1 : a.category ≠ .opening ∧ Model.isErr (m.getConstruction a.construction)
        · unfold Model.addFenestration at hok; rw [if_pos c1] at hok; simp at hok
        have ha : a'.category = a.category ∧ a'.construction = a.construction := by
          have : (m.addFenestration g a).2.fenestrations = m.fenestrations ++ [a'] := by rw [he]
          obtain ⟨-, -, -, -, -, -, p7, -, -, -⟩ :=
            pushToState_lists m (.fenestrationOpenFraction m.fenestrations.length) (0 : F)
          unfold Model.addFenestration at this hok
          rw [if_neg c1] at this hok
          rcases hp : m.pushToState (.fenestrationOpenFraction m.fenestrations.length) (0 : F) with ⟨r, m1⟩
          rw [hp] at this hok p7
          dsimp only at p7
          cases r with
          | err => simp at hok
          | panic => simp at hok
          | ok i =>
            dsimp only at this hok
            cases ho : a.openFractionIndex with
            | some j => rw [ho] at hok; simp at hok
            | none =>
              rw [ho] at this hok
              dsimp only at this hok
              cases hpar : a.parent with
              | none =>
                rw [hpar] at this
                dsimp only at this
                rw [p7, List.append_cancel_left_eq, List.cons.injEq] at this
                rw [← this.1]; exact ⟨rfl, rfl⟩
              | some q =>
                rw [hpar] at this hok
                dsimp only at this hok
                cases hc : Model.cutParent g q a.vertices m1.surfaces with
                | err => rw [hc] at hok; simp at hok
                | panic => rw [hc] at hok; simp at hok
                | ok q =>
                  obtain ⟨ss, par⟩ := q
                  rw [hc] at this
                  dsimp only at this
                  rw [p7, List.append_cancel_left_eq, List.cons.injEq] at this
                  rw [← this.1]
                  unfold Model.inherit
                  split_ifs <;> exact ⟨rfl, rfl⟩
        rw [ha.1, ha.2]
        by_cases hc : a.category = .opening
        · exact Or.inl hc
        · right
          have : ¬ Model.isErr (m.getConstruction a.construction) = true := fun h => c1 ⟨hc, h⟩
          exact find_isErr _ _ _ (by simpa [Model.getConstruction] using this)
      rcases addFenestration_lists g m a with ⟨hok, ss, a', h, -, hss⟩ | ⟨-, h⟩
      · have hf' := hf ss a' hok h
        simp only [Model.apply]
        rw [h]
        refine ⟨fun f hf => ?_, fun s hs => ?_, h3⟩
        · rcases List.mem_append.1 hf with hf | hf
          · exact h1 f hf
          · rw [List.mem_singleton] at hf
            subst hf
            exact hf'
        · dsimp only at hs
          rcases hss with rfl | ⟨b, s0, c, v, e1, rfl⟩
          · exact h2 s hs
          · rcases List.mem_append.1 hs with hs | hs
            · exact h2 s (by dsimp only; rw [e1]; exact List.mem_append_left _ hs)
            · rcases List.mem_cons.1 hs with rfl | hs
              · exact h2 s0 (by dsimp only; rw [e1]; simp)
              · exact h2 s (by dsimp only; rw [e1]; simp [hs])
      · simp only [Model.apply]
        rw [h]
        exact ⟨h1, h2, h3⟩

/-- C93: whatever the history of calls, the objects of a building name constructions and spaces that exist, so that
`C93_json` and `C93_text_partial` apply to it. -/
theorem C93_valid [Zero F] (g : Geo P F) (ops : List (Model.Op P F)) (name : Option String) (outputs : List O)
    (site : Option S) (solar : Option Q) :
    Spec.Valid ⟨Model.applyAll g Model.empty ops, name, outputs, site, solar⟩ := by
  obtain ⟨h1, h2, h3⟩ := valid_core g ops Model.empty ⟨by simp [Model.empty], by simp [Model.empty], by simp [Model.empty]⟩
  exact ⟨h1, h2, h3⟩

/-! ## Where the claim fails -/

/-- The full claim is false for the text: buildings that differ in their names and their solar options have the same
text. -/
theorem C93_violated_text (c : Codec P W) (j : Json W F O S Q) (m : Whole P F O S Q) (name : Option String)
    (solar : Option Q) : writeText c j { m with name := name, solar := solar } = writeText c j m := rfl

/-- Objects of a kind that does not exist are left out of the building without an error: so is everything whose
identifier has a typing error. -/
theorem C93_violated_unknown [Zero F] (c : Codec P W) (g : Geo P F) (j : Json W F O S Q) (head : List Char)
    (hh : Scan.Spec.Blank head) (items items' : List Scan.Spec.Item) (i : Scan.Spec.Item)
    (h : ∀ x ∈ items ++ i :: items', x.WF) (hi : i.name ∉ Scan.readOrder) :
    fromText c g j (Scan.Spec.file head (items ++ i :: items')) = fromText c g j (Scan.Spec.file head (items ++ items')) := by
  have h' : ∀ x ∈ items ++ items', x.WF := by
    intro x hx
    apply h
    rcases List.mem_append.1 hx with hx | hx <;> simp [hx]
  unfold fromText
  rw [Scan.C19_scan head hh _ h, Scan.C19_scan head hh _ h']
  dsimp only
  rw [Scan.C19_kinds (List.map (fun i => (i.name, i.body)) (items ++ i :: items'))
    (List.map (fun i => (i.name, i.body)) (items ++ items'))]
  intro k hk
  have : i.name ≠ k := fun e => hi (e ▸ hk)
  simp [this]

/-- In JSON, an unknown field is refused. -/
theorem C93_unknown_json [Zero F] (c : Codec P W) (g : Geo P F) (l l' : List (Section W F O S Q)) (key : String)
    (m : Whole P F O S Q × Header F) : fromJson c g (l ++ .other key :: l') ≠ .ok m := by
  unfold fromJson
  rw [readSections_append]
  cases readSections c g (Whole.empty : Whole P F O S Q) l <;> simp [Outcome.bind, readSections, readSection]

/-- Loading from JSON does not check surfaces: any surface is accepted, also if its construction or the spaces at its
sides do not exist; the same surface in a text is refused. -/
theorem C93_violated_unchecked [Zero F] (c : Codec P W) (g : Geo P F) (j : Json W F O S Q) (w : Surface W F) (p : P)
    (hp : c.dec w.vertices = .ok p) (body : List Char) (hb : Scan.Spec.Body body)
    (hj : j.parse "Surface".toList body = some (.surface w)) :
    (∃ m h, fromJson c g [.surfaces [w]] = .ok ((m : Whole P F O S Q), h) ∧ ¬ Spec.Valid m) ∧
    fromText c g j ("Surface".toList ++ body) = .done .err := by
  constructor
  · refine ⟨⟨{ Model.empty with
      surfaces := [⟨w.name, w.construction, p, w.front, w.back, w.category, false⟩], state := none }, none, [], none, none⟩,
      Header.new, ?_, ?_⟩
    · simp [fromJson, readSections, readSection, traverse, decSurface, hp, Outcome.bind, finish, Model.takeState,
        Whole.empty, Model.empty]
    · intro hv
      obtain ⟨⟨k, hk, -⟩, -⟩ := hv.surfaces ⟨w.name, w.construction, p, w.front, w.back, w.category, false⟩ (by simp)
      simp [Model.empty] at hk
  · have hs := Scan.C19_scan [] .nil [⟨"Surface".toList, [], body, []⟩] (by
      intro i hi
      rw [List.mem_singleton] at hi
      subst hi
      have := kind_wf (.surface w : Obj W F O S Q)
      exact ⟨this.1, this.2, .nil, hb, .nil⟩)
    simp only [Scan.Spec.file, Scan.Spec.Item.text, List.map_cons, List.map_nil, List.flatten_cons, List.flatten_nil,
      List.nil_append, List.append_nil] at hs
    have ha : Scan.additions [("Surface".toList, body)] = [("Surface".toList, body)] := by
      unfold Scan.additions
      simp only [Scan.collect_eq]
      simp [Scan.readOrder]
    unfold fromText
    rw [hs]
    dsimp only
    rw [ha]
    rw [readItems, hj]
    simp [readItems, readObject, decSurface, hp, Outcome.bind, addAll, Model.addSurface, Model.getConstruction,
      Whole.empty, Model.empty, Model.findNamed, Model.isErr]

/-- The fields of a JSON object have no order, but loading depends on it: windows are refused if the constructions are
written after them. -/
theorem C93_violated_order [Zero F] (c : Codec P W) (g : Geo P F) (w : Fenestration W F) (p : P) (k : Construction)
    (hp : c.dec w.vertices = .ok p) (hw : w.category ≠ .opening) (hpar : w.parent = none) (hk : w.construction = k.name) :
    (∃ m h, fromJson c g [.constructions [k], .fenestrations [w]] = .ok ((m : Whole P F O S Q), h)) ∧
    fromJson c g [.fenestrations [w], .constructions [k]] = (.err : Outcome (Whole P F O S Q × Header F)) := by
  constructor
  · refine ⟨⟨{ Model.empty with
      constructions := [k]
      fenestrations := [⟨w.name, w.construction, w.category, p, w.front, w.back, none, some 0⟩], state := none },
      none, [], none, none⟩, grown [.fenestrationOpenFraction 0], ?_⟩
    have := addFenestrations g [⟨w.name, w.construction, w.category, p, w.front, w.back, none, none⟩]
      ({ Model.empty with constructions := [k] } : Model P F) [] rfl (by
        intro f hf
        rw [List.mem_singleton] at hf
        subst hf
        exact ⟨rfl, rfl, Or.inr ⟨k, by simp, hk.symm⟩⟩)
    simp only [Model.empty, List.nil_append] at this
    simp [fromJson, readSections, readSection, traverse, decFenestration, hp, Outcome.bind, finish, Model.takeState,
      Whole.empty, Model.empty, Model.addConstruction, hpar, this]
  · simp [fromJson, readSections, readSection, traverse, decFenestration, hp, Outcome.bind,
      Whole.empty, Model.empty, addAll, Model.addFenestration, hw, Model.getConstruction, Model.findNamed, Model.isErr]

/-! ## Cases -/

private def numbers : Codec ℕ ℕ := ⟨.ok, .ok⟩

private def house : Whole ℕ ℚ Unit Unit Unit :=
  ⟨{ (Model.empty : Model ℕ ℚ) with
      constructions := [⟨"wall", []⟩]
      spaces := [⟨"room", none⟩]
      surfaces := [⟨"south", "wall", 1, .space "room", .outdoor, none, false⟩]
      fenestrations := [⟨"window", "wall", .window, 2, .space "room", .outdoor, some "south", some 0⟩] },
    some "house", [()], none, some ()⟩

/-- A house with a room, a wall and a window meets the hypotheses of `C93_json`. -/
example : Spec.Valid house ∧ Spec.Rewrites numbers id house.core := by
  refine ⟨⟨?_, ?_, ?_⟩, fun _ _ => rfl, fun _ _ => rfl⟩
  · intro f hf
    simp only [house, List.mem_singleton] at hf
    subst hf
    exact Or.inr ⟨_, List.mem_singleton.2 rfl, rfl⟩
  · intro s hs
    simp only [house, List.mem_singleton] at hs
    subst hs
    refine ⟨⟨_, List.mem_singleton.2 rfl, rfl⟩, fun n hn => ⟨_, List.mem_singleton.2 rfl, ?_⟩⟩
    simpa using hn
  · intro o ho
    simp [house, Model.empty] at ho

private def jsons : Json ℕ ℚ Unit Unit Unit where
  show_ _ := ['{', '}']
  parse kind _ :=
    if kind = "Construction".toList then some (.construction ⟨"wall", []⟩)
    else if kind = "Fenestration".toList then some (.fenestration ⟨"window", "wall", .window, 2, .space "room", .outdoor, none, none⟩)
    else if kind = "Space".toList then some (.space ⟨"room", none⟩)
    else if kind = "Output".toList then some (.output ())
    else some (.surface ⟨"south", "wall", 1, .space "room", .outdoor, none, false⟩)

/-- It also meets those of `C93_text_partial`. -/
example : ∀ os, textObjects numbers house = .ok os →
    ∀ o ∈ os, Scan.Spec.Body (jsons.show_ o) ∧ jsons.parse o.kind (jsons.show_ o) = some o := by
  intro os hos o ho
  have hb : Scan.Spec.Body ['{', '}'] := .brace [] .nil
  have : os = [.construction ⟨"wall", []⟩,
      .fenestration ⟨"window", "wall", .window, 2, .space "room", .outdoor, none, none⟩, .output (), .space ⟨"room", none⟩,
      .surface ⟨"south", "wall", 1, .space "room", .outdoor, none, false⟩] := by
    simp [textObjects, house, numbers, traverse, encFenestration, encSurface, Outcome.bind, Model.empty, bareSpace] at hos
    exact hos.symm
  subst this
  simp only [List.mem_cons, List.not_mem_nil, or_false] at ho
  rcases ho with h | h | h | h | h <;> rw [h] <;> refine ⟨hb, ?_⟩ <;> unfold jsons Obj.kind <;> dsimp only
  · rw [if_pos rfl]
  · rw [if_neg (by decide +kernel), if_pos rfl]
  · rw [if_neg (by decide +kernel), if_neg (by decide +kernel), if_neg (by decide +kernel), if_pos rfl]
  · rw [if_neg (by decide +kernel), if_neg (by decide +kernel), if_pos rfl]
  · rw [if_neg (by decide +kernel), if_neg (by decide +kernel), if_neg (by decide +kernel), if_neg (by decide +kernel)]

end Simple.Save
