import Mathlib.Algebra.BigOperators.Group.List.Basic
import Mathlib.Algebra.Order.Ring.Rat
import Mathlib.Data.List.Induction
import Mathlib.Data.List.Dedup
import Mathlib.Tactic.Ring
import Mathlib.Tactic.Linarith
import Verif.Building.ModelModel

/-! C17, C18, C20 and C60: the lists of objects of a building model. -/

namespace Simple.Building

open State Model

variable {P F : Type*}

/-! ### C17: lookup by name -/

/-- Specification: `x` is the first element of `l` that has name `n`. -/
def Spec.FirstNamed {α : Type*} (nm : α → String) (n : String) (l : List α) (x : α) : Prop :=
  ∃ before after, l = before ++ x :: after ∧ nm x = n ∧ ∀ y ∈ before, nm y ≠ n

theorem findNamed_ok {α : Type*} (nm : α → String) (n : String) (l : List α) (x : α) :
    findNamed nm n l = .ok x ↔ Spec.FirstNamed nm n l x := by
  induction l with
  | nil =>
    simp only [findNamed, Spec.FirstNamed]
    constructor
    · intro h; simp at h
    · rintro ⟨b, a, h, -⟩; simp at h
  | cons a l ih =>
    unfold findNamed
    by_cases h : nm a = n
    · rw [if_pos h]
      constructor
      · intro hx
        obtain rfl := Outcome.ok.inj hx
        exact ⟨[], l, rfl, h, by simp⟩
      · rintro ⟨b, c, h1, h2, h3⟩
        cases b with
        | nil => simp at h1; rw [h1.1]
        | cons y b => simp at h1; exact absurd (h1.1 ▸ h) (h3 y (by simp))
    · rw [if_neg h, ih]
      constructor
      · rintro ⟨b, c, h1, h2, h3⟩
        refine ⟨a :: b, c, by simp [h1], h2, ?_⟩
        intro y hy
        rcases List.mem_cons.1 hy with rfl | hy
        · exact h
        · exact h3 y hy
      · rintro ⟨b, c, h1, h2, h3⟩
        cases b with
        | nil => simp at h1; rw [h1.1] at h; exact absurd h2 h
        | cons y b =>
          simp at h1
          exact ⟨b, c, h1.2, h2, fun z hz => h3 z (by simp [hz])⟩

theorem findNamed_err {α : Type*} (nm : α → String) (n : String) (l : List α) :
    findNamed nm n l = .err ↔ ∀ y ∈ l, nm y ≠ n := by
  induction l with
  | nil => simp [findNamed]
  | cons a l ih =>
    unfold findNamed
    by_cases h : nm a = n
    · rw [if_pos h]; simp [h]
    · rw [if_neg h, ih]; simp [h]

/-- **C17** (lookup).  For each kind of object, looking a name up returns the first object of that
kind with that name, and fails exactly when there is none. -/
theorem C17_lookup (m : Model P F) (n : String) :
    ((∀ x, m.getSubstance n = .ok x ↔ Spec.FirstNamed (·.name) n m.substances x) ∧
      (m.getSubstance n = .err ↔ ∀ y ∈ m.substances, y.name ≠ n)) ∧
    ((∀ x, m.getMaterial n = .ok x ↔ Spec.FirstNamed (·.name) n m.materials x) ∧
      (m.getMaterial n = .err ↔ ∀ y ∈ m.materials, y.name ≠ n)) ∧
    ((∀ x, m.getConstruction n = .ok x ↔ Spec.FirstNamed (·.name) n m.constructions x) ∧
      (m.getConstruction n = .err ↔ ∀ y ∈ m.constructions, y.name ≠ n)) ∧
    ((∀ x, m.getSurface n = .ok x ↔ Spec.FirstNamed (·.name) n m.surfaces x) ∧
      (m.getSurface n = .err ↔ ∀ y ∈ m.surfaces, y.name ≠ n)) ∧
    ((∀ x, m.getSpace n = .ok x ↔ Spec.FirstNamed (·.name) n m.spaces x) ∧
      (m.getSpace n = .err ↔ ∀ y ∈ m.spaces, y.name ≠ n)) ∧
    ((∀ x, m.getBuilding n = .ok x ↔ Spec.FirstNamed (·.name) n m.buildings x) ∧
      (m.getBuilding n = .err ↔ ∀ y ∈ m.buildings, y.name ≠ n)) ∧
    ((∀ x, m.getFenestration n = .ok x ↔ Spec.FirstNamed (·.name) n m.fenestrations x) ∧
      (m.getFenestration n = .err ↔ ∀ y ∈ m.fenestrations, y.name ≠ n)) ∧
    ((∀ x, m.getHvac n = .ok x ↔ Spec.FirstNamed Hvac.name n m.hvacs x) ∧
      (m.getHvac n = .err ↔ ∀ y ∈ m.hvacs, y.name ≠ n)) ∧
    ((∀ x, m.getLuminaire n = .ok x ↔ Spec.FirstNamed (·.name) n m.luminaires x) ∧
      (m.getLuminaire n = .err ↔ ∀ y ∈ m.luminaires, y.name ≠ n)) :=
  ⟨⟨findNamed_ok _ _ _, findNamed_err _ _ _⟩, ⟨findNamed_ok _ _ _, findNamed_err _ _ _⟩,
   ⟨findNamed_ok _ _ _, findNamed_err _ _ _⟩, ⟨findNamed_ok _ _ _, findNamed_err _ _ _⟩,
   ⟨findNamed_ok _ _ _, findNamed_err _ _ _⟩, ⟨findNamed_ok _ _ _, findNamed_err _ _ _⟩,
   ⟨findNamed_ok _ _ _, findNamed_err _ _ _⟩, ⟨findNamed_ok _ _ _, findNamed_err _ _ _⟩,
   ⟨findNamed_ok _ _ _, findNamed_err _ _ _⟩⟩

example : Spec.FirstNamed (·.name) "a" [⟨"b", none⟩, (⟨"a", some 1⟩ : Space), ⟨"a", some 2⟩]
    ⟨"a", some 1⟩ := ⟨[⟨"b", none⟩], [⟨"a", some 2⟩], rfl, rfl, by simp⟩

/-- The kinds of objects that are looked up by name. -/
inductive Kind where
  | substance | material | construction | surface | space | building | fenestration | hvac | luminaire

/-- The names of the objects of a kind, in the order in which the model keeps them. -/
def names (m : Model P F) : Kind → List String
  | .substance => m.substances.map (·.name)
  | .material => m.materials.map (·.name)
  | .construction => m.constructions.map (·.name)
  | .surface => m.surfaces.map (·.name)
  | .space => m.spaces.map (·.name)
  | .building => m.buildings.map (·.name)
  | .fenestration => m.fenestrations.map (·.name)
  | .hvac => m.hvacs.map Hvac.name
  | .luminaire => m.luminaires.map (·.name)

/-- The name of the object that a call offers, if it is of that kind. -/
def offered : Kind → Op P F → Option String
  | .substance, .substance a => some a.name
  | .material, .material a => some a.name
  | .construction, .construction a => some a.name
  | .surface, .surface a => some a.name
  | .space, .space a => some a.name
  | .building, .building a => some a.name
  | .fenestration, .fenestration a => some a.name
  | .hvac, .hvac a => some a.name
  | .luminaire, .luminaire a => some a.name
  | _, _ => none

/-- The names of the objects of a kind that were accepted in a history of calls, in order. -/
def accepted [Zero F] (g : Geo P F) (k : Kind) (m : Model P F) : List (Op P F) → List String
  | [] => []
  | op :: ops =>
    match offered k op, (m.apply g op).1 with
    | some n, .ok () => n :: accepted g k (m.apply g op).2 ops
    | _, _ => accepted g k (m.apply g op).2 ops

theorem pushToState_lists (m : Model P F) (e : Element) (v : F) :
    (m.pushToState e v).2.substances = m.substances ∧ (m.pushToState e v).2.materials = m.materials ∧
    (m.pushToState e v).2.constructions = m.constructions ∧ (m.pushToState e v).2.surfaces = m.surfaces ∧
    (m.pushToState e v).2.spaces = m.spaces ∧ (m.pushToState e v).2.buildings = m.buildings ∧
    (m.pushToState e v).2.fenestrations = m.fenestrations ∧ (m.pushToState e v).2.hvacs = m.hvacs ∧
    (m.pushToState e v).2.luminaires = m.luminaires ∧ (m.pushToState e v).2.objects = m.objects := by
  unfold pushToState
  cases m.state <;> simp

/-- `cutParent` changes nothing but the polygon of the parent. -/
theorem cutParent_ok (g : Geo P F) (p : String) (hole : P) (l l' : List (Surface P F))
    (s : Surface P F) (h : cutParent g p hole l = .ok (l', s)) :
    ∃ before s0 after v, l = before ++ s0 :: after ∧ l' = before ++ { s0 with vertices := v } :: after ∧
      s = { s0 with vertices := v } ∧ s0.name = p ∧ (∀ y ∈ before, y.name ≠ p) ∧
      g.cutHole s0.vertices hole = some v ∧ s0.shared = false := by
  induction l generalizing l' s with
  | nil => simp [cutParent] at h
  | cons a l ih =>
    unfold cutParent at h
    by_cases hn : a.name = p
    · rw [if_pos hn] at h
      by_cases hs : a.shared
      · simp [hs] at h
      · rw [if_neg hs] at h
        cases hc : g.cutHole a.vertices hole with
        | none => simp [hc] at h
        | some v =>
          simp only [hc] at h
          obtain ⟨rfl, rfl⟩ := Prod.mk.inj (Outcome.ok.inj h)
          exact ⟨[], a, l, v, rfl, rfl, rfl, hn, by simp, hc, by simpa using hs⟩
    · rw [if_neg hn] at h
      cases hc : cutParent g p hole l with
      | err => simp [hc] at h
      | panic => simp [hc] at h
      | ok q =>
        obtain ⟨l1, s1⟩ := q
        simp only [hc] at h
        obtain ⟨rfl, rfl⟩ := Prod.mk.inj (Outcome.ok.inj h)
        obtain ⟨b, s0, c, v, h1, h2, h3, h4, h5, h6, h7⟩ := ih _ _ hc
        refine ⟨a :: b, s0, c, v, by simp [h1], by simp [h2], h3, h4, ?_, h6, h7⟩
        intro y hy
        rcases List.mem_cons.1 hy with rfl | hy
        · exact hn
        · exact h5 y hy

/-- What a call does to the lists (the header aside). -/
theorem addFenestration_lists [Zero F] (g : Geo P F) (m : Model P F) (a : Fenestration P F) :
    ((m.addFenestration g a).1 = .ok () ∧ ∃ surfaces a', (m.addFenestration g a).2 =
        { m with state := (m.addFenestration g a).2.state, surfaces := surfaces, fenestrations := m.fenestrations ++ [a'] } ∧
        a'.name = a.name ∧ (surfaces = m.surfaces ∨ ∃ before s0 after v, m.surfaces = before ++ s0 :: after ∧
          surfaces = before ++ { s0 with vertices := v } :: after)) ∨
    ((m.addFenestration g a).1 = .err ∧
      (m.addFenestration g a).2 = { m with state := (m.addFenestration g a).2.state }) := by
  obtain ⟨p1, p2, p3, p4, p5, p6, p7, p8, p9, p10⟩ :=
    pushToState_lists m (.fenestrationOpenFraction m.fenestrations.length) (0 : F)
  unfold addFenestration
  by_cases h1 : a.category ≠ .opening ∧ isErr (m.getConstruction a.construction)
  · rw [if_pos h1]; right; exact ⟨rfl, rfl⟩
  · rw [if_neg h1]
    rcases hp : m.pushToState (.fenestrationOpenFraction m.fenestrations.length) (0 : F) with ⟨r, m1⟩
    rw [hp] at p1 p2 p3 p4 p5 p6 p7 p8 p9 p10
    simp only at p1 p2 p3 p4 p5 p6 p7 p8 p9 p10
    have hm1 : m1 = { m with state := m1.state } := by
      obtain ⟨a1, a2, a3, a4, a5, a6, a7, a8, a9, a10, a11⟩ := m1
      simp_all
    cases r with
    | err => right; exact ⟨rfl, hm1⟩
    | panic => right; exact ⟨rfl, hm1⟩
    | ok i =>
      cases ho : a.openFractionIndex with
      | some j => right; exact ⟨rfl, hm1⟩
      | none =>
        cases hpar : a.parent with
        | none =>
          left
          refine ⟨rfl, m.surfaces, { a with openFractionIndex := some i }, ?_, rfl, .inl rfl⟩
          simp [p1, p2, p3, p4, p5, p6, p7, p8, p9, p10, hpar]
        | some p =>
          simp only
          cases hc : cutParent g p a.vertices m1.surfaces with
          | err => right; exact ⟨rfl, hm1⟩
          | panic => right; exact ⟨rfl, hm1⟩
          | ok q =>
            obtain ⟨ss, par⟩ := q
            left
            refine ⟨rfl, ss, inherit g par { a with openFractionIndex := some i }, ?_, ?_, ?_⟩
            · simp [p1, p2, p3, p5, p6, p7, p8, p9, p10, hpar]
            · unfold inherit; split_ifs <;> rfl
            · right
              obtain ⟨b, s0, c, v, x1, x2, -⟩ := cutParent_ok g p _ _ _ _ hc
              exact ⟨b, s0, c, v, by rw [← p4, x1], x2⟩

theorem addHvac_lists [Zero F] (m : Model P F) (a : Hvac F) :
    ((m.addHvac a).1 = .ok () ∧ ∃ i, (m.addHvac a).2 =
        { m with state := (m.addHvac a).2.state, hvacs := m.hvacs ++ [a.withIndex i] }) ∨
    ((m.addHvac a).1 = .err ∧ (m.addHvac a).2 = { m with state := (m.addHvac a).2.state }) := by
  obtain ⟨p1, p2, p3, p4, p5, p6, p7, p8, p9, p10⟩ :=
    pushToState_lists m (.heatingCoolingPowerConsumption m.hvacs.length) (0 : F)
  unfold addHvac
  rcases hp : m.pushToState (.heatingCoolingPowerConsumption m.hvacs.length) (0 : F) with ⟨r, m1⟩
  rw [hp] at p1 p2 p3 p4 p5 p6 p7 p8 p9 p10
  simp only at p1 p2 p3 p4 p5 p6 p7 p8 p9 p10
  have hm1 : m1 = { m with state := m1.state } := by
    obtain ⟨a1, a2, a3, a4, a5, a6, a7, a8, a9, a10, a11⟩ := m1
    simp_all
  cases r with
  | err => right; exact ⟨rfl, hm1⟩
  | panic => right; exact ⟨rfl, hm1⟩
  | ok i =>
    cases ho : a.index with
    | some j => right; exact ⟨rfl, hm1⟩
    | none => left; refine ⟨rfl, i, ?_⟩; simp [p1, p2, p3, p4, p5, p6, p7, p8, p9, p10]

theorem addLuminaire_lists [Zero F] (m : Model P F) (a : Luminaire) :
    ((m.addLuminaire a).1 = .ok () ∧ ∃ i, (m.addLuminaire a).2 =
        { m with state := (m.addLuminaire a).2.state, luminaires := m.luminaires ++ [{ a with index := some i }] }) ∨
    ((m.addLuminaire a).1 = .err ∧ (m.addLuminaire a).2 = { m with state := (m.addLuminaire a).2.state }) := by
  obtain ⟨p1, p2, p3, p4, p5, p6, p7, p8, p9, p10⟩ :=
    pushToState_lists m (.luminairePowerConsumption m.luminaires.length) (0 : F)
  unfold addLuminaire
  rcases hp : m.pushToState (.luminairePowerConsumption m.luminaires.length) (0 : F) with ⟨r, m1⟩
  rw [hp] at p1 p2 p3 p4 p5 p6 p7 p8 p9 p10
  simp only at p1 p2 p3 p4 p5 p6 p7 p8 p9 p10
  have hm1 : m1 = { m with state := m1.state } := by
    obtain ⟨a1, a2, a3, a4, a5, a6, a7, a8, a9, a10, a11⟩ := m1
    simp_all
  cases r with
  | err => right; exact ⟨rfl, hm1⟩
  | panic => right; exact ⟨rfl, hm1⟩
  | ok i =>
    cases ho : a.index with
    | some j => right; exact ⟨rfl, hm1⟩
    | none => left; refine ⟨rfl, i, ?_⟩; simp [p1, p2, p3, p4, p5, p6, p7, p8, p9, p10]

theorem addSurface_cases (m : Model P F) (a : Surface P F) :
    ((m.addSurface a).1 = .ok () ∧ (m.addSurface a).2 = { m with surfaces := m.surfaces ++ [a] }) ∨
    m.addSurface a = (.err, m) := by
  unfold addSurface
  by_cases h1 : isErr (m.getConstruction a.construction) = true
  · rw [if_pos h1]; exact .inr rfl
  · rw [if_neg h1]
    by_cases h2 : m.boundaryMissing a.front = true
    · rw [if_pos h2]; exact .inr rfl
    · rw [if_neg h2]
      by_cases h3 : m.boundaryMissing a.back = true
      · rw [if_pos h3]; exact .inr rfl
      · rw [if_neg h3]; exact .inl ⟨rfl, rfl⟩

theorem addObject_cases (m : Model P F) (a : Object) :
    ((m.addObject a).1 = .ok () ∧ (m.addObject a).2 = { m with objects := m.objects ++ [a] }) ∨
    m.addObject a = (.err, m) := by
  unfold addObject
  cases a.space with
  | none => exact .inl ⟨rfl, rfl⟩
  | some s =>
    simp only
    split_ifs
    · exact .inr rfl
    · exact .inl ⟨rfl, rfl⟩

theorem withIndex_name (a : Hvac F) (i : ℕ) : (a.withIndex i).name = a.name := by
  cases a <;> rfl

/-- One call extends the names of a kind by the accepted object, and changes nothing else. -/
theorem names_apply [Zero F] (g : Geo P F) (m : Model P F) (op : Op P F) (k : Kind) :
    names (m.apply g op).2 k =
      match offered k op, (m.apply g op).1 with
      | some n, .ok () => names m k ++ [n]
      | _, _ => names m k := by
  cases op with
  | substance a => cases k <;> simp [Model.apply, offered, names, addSubstance]
  | material a => cases k <;> simp [Model.apply, offered, names, addMaterial]
  | construction a => cases k <;> simp [Model.apply, offered, names, addConstruction]
  | space a => cases k <;> simp [Model.apply, offered, names, addSpace]
  | building a => cases k <;> simp [Model.apply, offered, names, addBuilding]
  | takeState => cases k <;> simp [Model.apply, offered, names, takeState]
  | object a =>
    simp only [Model.apply]
    rcases addObject_cases m a with ⟨h1, h2⟩ | h1
    · rw [h1, h2]; cases k <;> simp [offered, names]
    · rw [h1]; cases k <;> simp [offered, names]
  | surface a =>
    simp only [Model.apply]
    rcases addSurface_cases m a with ⟨h1, h2⟩ | h1
    · rw [h1, h2]; cases k <;> simp [offered, names]
    · rw [h1]; cases k <;> simp [offered, names]
  | fenestration a =>
    simp only [Model.apply]
    rcases addFenestration_lists g m a with ⟨h1, ss, a', h2, h3, h4⟩ | ⟨h1, h2⟩
    · have hs : ss.map (·.name) = m.surfaces.map (·.name) := by
        rcases h4 with h4 | ⟨b, s0, c, v, h5, h6⟩
        · rw [h4]
        · rw [h5, h6]; simp
      rw [h1, h2]; cases k <;> simp [offered, names, hs, h3]
    · rw [h1, h2]; cases k <;> simp [offered, names]
  | hvac a =>
    simp only [Model.apply]
    rcases addHvac_lists m a with ⟨h1, i, h2⟩ | ⟨h1, h2⟩
    · rw [h1, h2]; cases k <;> simp [offered, names, withIndex_name]
    · rw [h1, h2]; cases k <;> simp [offered, names]
  | luminaire a =>
    simp only [Model.apply]
    rcases addLuminaire_lists m a with ⟨h1, i, h2⟩ | ⟨h1, h2⟩
    · rw [h1, h2]; cases k <;> simp [offered, names]
    · rw [h1, h2]; cases k <;> simp [offered, names]

theorem names_applyAll [Zero F] (g : Geo P F) (m : Model P F) (ops : List (Op P F)) (k : Kind) :
    names (m.applyAll g ops) k = names m k ++ accepted g k m ops := by
  induction ops generalizing m with
  | nil => simp [applyAll, accepted]
  | cons op ops ih =>
    rw [applyAll, ih, names_apply]
    conv_rhs => rw [accepted]
    cases h1 : offered k op with
    | none => simp
    | some n =>
      cases h2 : (m.apply g op).1 with
      | ok u => cases u; simp
      | err => simp
      | panic => simp

/-- **C17** (order).  After any history of calls, the objects of each kind are, in order, those whose
addition was accepted; together with `C17_lookup`, a name resolves to the earliest accepted object
with that name. -/
theorem C17_order [Zero F] (g : Geo P F) (ops : List (Op P F)) (k : Kind) :
    names ((Model.empty : Model P F).applyAll g ops) k = accepted g k Model.empty ops := by
  rw [names_applyAll]
  cases k <;> simp [names, Model.empty]

theorem findNamed_append {α : Type*} (nm : α → String) (n : String) (l l' : List α) (x : α)
    (h : findNamed nm n l = .ok x) : findNamed nm n (l ++ l') = .ok x := by
  rw [findNamed_ok] at h ⊢
  obtain ⟨b, c, h1, h2, h3⟩ := h
  exact ⟨b, c ++ l', by simp [h1], h2, h3⟩

theorem findNamed_append' {α : Type*} (nm : α → String) (n : String) (l l' l'' : List α) (x : α)
    (hl : l' = l ++ l'') (h : findNamed nm n l = .ok x) : findNamed nm n l' = .ok x := by
  subst hl; exact findNamed_append _ _ _ _ _ h

/-- **C17** (stability).  A name that resolves to an object resolves to the same object after any
further call, accepted or not.  For a surface, the object is the same except for the holes that
fenestrations cut in it. -/
theorem C17_stable [Zero F] (g : Geo P F) (m : Model P F) (op : Op P F) (n : String) :
    (∀ x, m.getSubstance n = .ok x → (m.apply g op).2.getSubstance n = .ok x) ∧
    (∀ x, m.getMaterial n = .ok x → (m.apply g op).2.getMaterial n = .ok x) ∧
    (∀ x, m.getConstruction n = .ok x → (m.apply g op).2.getConstruction n = .ok x) ∧
    (∀ x, m.getSpace n = .ok x → (m.apply g op).2.getSpace n = .ok x) ∧
    (∀ x, m.getBuilding n = .ok x → (m.apply g op).2.getBuilding n = .ok x) ∧
    (∀ x, m.getFenestration n = .ok x → (m.apply g op).2.getFenestration n = .ok x) ∧
    (∀ x, m.getHvac n = .ok x → (m.apply g op).2.getHvac n = .ok x) ∧
    (∀ x, m.getLuminaire n = .ok x → (m.apply g op).2.getLuminaire n = .ok x) ∧
    (∀ x, m.getSurface n = .ok x →
      ∃ v, (m.apply g op).2.getSurface n = .ok { x with vertices := v }) := by
  have key : ∃ l1 l2 l3 l4 l5 l6 l7 l8,
      (m.apply g op).2.substances = m.substances ++ l1 ∧ (m.apply g op).2.materials = m.materials ++ l2 ∧
      (m.apply g op).2.constructions = m.constructions ++ l3 ∧ (m.apply g op).2.spaces = m.spaces ++ l4 ∧
      (m.apply g op).2.buildings = m.buildings ++ l5 ∧ (m.apply g op).2.fenestrations = m.fenestrations ++ l6 ∧
      (m.apply g op).2.hvacs = m.hvacs ++ l7 ∧ (m.apply g op).2.luminaires = m.luminaires ++ l8 ∧
      ((∃ l9, (m.apply g op).2.surfaces = m.surfaces ++ l9) ∨
        ∃ before s0 after v, m.surfaces = before ++ s0 :: after ∧
          (m.apply g op).2.surfaces = before ++ { s0 with vertices := v } :: after) := by
    cases op with
    | substance a => exact ⟨[a], [], [], [], [], [], [], [], by simp [Model.apply, addSubstance]⟩
    | material a => exact ⟨[], [a], [], [], [], [], [], [], by simp [Model.apply, addMaterial]⟩
    | construction a => exact ⟨[], [], [a], [], [], [], [], [], by simp [Model.apply, addConstruction]⟩
    | space a => exact ⟨[], [], [], [a], [], [], [], [], by simp [Model.apply, addSpace]⟩
    | building a => exact ⟨[], [], [], [], [a], [], [], [], by simp [Model.apply, addBuilding]⟩
    | takeState => exact ⟨[], [], [], [], [], [], [], [], by simp [Model.apply, takeState]⟩
    | object a =>
      refine ⟨[], [], [], [], [], [], [], [], ?_⟩
      simp only [Model.apply]
      rcases addObject_cases m a with ⟨h1, h2⟩ | h1
      · rw [h2]; simp
      · rw [h1]; simp
    | surface a =>
      refine ⟨[], [], [], [], [], [], [], [], ?_⟩
      simp only [Model.apply]
      rcases addSurface_cases m a with ⟨h1, h2⟩ | h1
      · rw [h2]; simp
      · rw [h1]; simp
    | fenestration a =>
      simp only [Model.apply]
      rcases addFenestration_lists g m a with ⟨h1, ss, a', h2, h3, h4⟩ | ⟨h1, h2⟩
      · refine ⟨[], [], [], [], [], [a'], [], [], ?_⟩
        rw [h2]
        refine ⟨by simp, by simp, by simp, by simp, by simp, by simp, by simp, by simp, ?_⟩
        rcases h4 with h4 | h4
        · exact .inl ⟨[], by simp [h4]⟩
        · exact .inr h4
      · refine ⟨[], [], [], [], [], [], [], [], ?_⟩
        rw [h2]; simp
    | hvac a =>
      simp only [Model.apply]
      rcases addHvac_lists m a with ⟨h1, i, h2⟩ | ⟨h1, h2⟩
      · refine ⟨[], [], [], [], [], [], [a.withIndex i], [], ?_⟩
        rw [h2]; simp
      · refine ⟨[], [], [], [], [], [], [], [], ?_⟩
        rw [h2]; simp
    | luminaire a =>
      simp only [Model.apply]
      rcases addLuminaire_lists m a with ⟨h1, i, h2⟩ | ⟨h1, h2⟩
      · refine ⟨[], [], [], [], [], [], [], [{ a with index := some i }], ?_⟩
        rw [h2]; simp
      · refine ⟨[], [], [], [], [], [], [], [], ?_⟩
        rw [h2]; simp
  obtain ⟨l1, l2, l3, l4, l5, l6, l7, l8, e1, e2, e3, e4, e5, e6, e7, e8, e9⟩ := key
  refine ⟨fun x h => findNamed_append' _ _ _ _ _ _ e1 h, fun x h => findNamed_append' _ _ _ _ _ _ e2 h,
    fun x h => findNamed_append' _ _ _ _ _ _ e3 h, fun x h => findNamed_append' _ _ _ _ _ _ e4 h,
    fun x h => findNamed_append' _ _ _ _ _ _ e5 h, fun x h => findNamed_append' _ _ _ _ _ _ e6 h,
    fun x h => findNamed_append' _ _ _ _ _ _ e7 h, fun x h => findNamed_append' _ _ _ _ _ _ e8 h, ?_⟩
  intro x h
  rcases e9 with ⟨l9, e9⟩ | ⟨b, s0, c, v, h1, h2⟩
  · exact ⟨x.vertices, findNamed_append' _ _ _ _ _ _ e9 h⟩
  · unfold getSurface at h ⊢
    rw [h2]
    rw [h1] at h
    clear h1 h2
    induction b with
    | nil =>
      simp only [List.nil_append, findNamed] at h ⊢
      split_ifs at h ⊢ with hn
      · obtain rfl := Outcome.ok.inj h; exact ⟨v, rfl⟩
      · exact ⟨x.vertices, h⟩
    | cons y b ih =>
      simp only [List.cons_append, findNamed] at h ⊢
      split_ifs at h ⊢ with hn
      · exact ⟨x.vertices, h⟩
      · exact ih h

/-- A geometry for the examples: a polygon is its area. -/
def demoGeo : Geo ℚ ℚ := ⟨fun p h => if h < p then some (p - h) else none, fun _ _ => true, fun _ => true, id⟩

def demoWall (n : String) (parent : Option String) : Fenestration ℚ ℚ :=
  ⟨n, "c", .window, 1, .outdoor, .outdoor, parent, none⟩

/-- A history with two spaces of the same name, a wall, and windows on it; the second window does
not fit. -/
def demoOps : List (Op ℚ ℚ) :=
  [.construction ⟨"c", []⟩, .space ⟨"A", none⟩, .space ⟨"A", some 3⟩,
   .surface ⟨"wall", "c", 10, .space "A", .outdoor, some .groundFloor, false⟩,
   .fenestration (demoWall "w1" (some "wall")), .fenestration { demoWall "w2" (some "wall") with vertices := 100 }]

example : accepted demoGeo .fenestration Model.empty demoOps = ["w1"] ∧
    ((Model.empty : Model ℚ ℚ).applyAll demoGeo demoOps).getSpace "A" = .ok ⟨"A", none⟩ ∧
    (((Model.empty : Model ℚ ℚ).applyAll demoGeo demoOps).getSurface "wall") =
      .ok ⟨"wall", "c", 9, .space "A", .outdoor, some .groundFloor, false⟩ := by
  decide +kernel

/-! ### C18: rejected additions -/

/-- **C18** (surfaces).  A surface is rejected exactly when its construction, or a space it has as a
boundary, is not in the model; and then nothing changes. -/
theorem C18_add_surface (m : Model P F) (a : Surface P F) :
    ((m.addSurface a).1 = .err ↔
      (∀ c ∈ m.constructions, c.name ≠ a.construction) ∨
      (∃ s, (a.front = .space s ∨ a.back = .space s) ∧ ∀ x ∈ m.spaces, x.name ≠ s)) ∧
    ((m.addSurface a).1 ≠ .ok () → (m.addSurface a).2 = m) := by
  have hf : ∀ {α : Type} (nm : α → String) n (l : List α),
      isErr (findNamed nm n l) = true ↔ ∀ y ∈ l, nm y ≠ n := by
    intro α nm n l
    rw [← findNamed_err]
    constructor
    · intro h
      cases hh : findNamed nm n l with
      | ok x => rw [hh] at h; simp [isErr] at h
      | err => rfl
      | panic =>
        exfalso
        clear h
        induction l with
        | nil => simp [findNamed] at hh
        | cons b l ih => unfold findNamed at hh; split_ifs at hh; exact ih hh
    · intro h; rw [h]; rfl
  have hb : ∀ b : Boundary F, m.boundaryMissing b = true ↔
      ∃ s, b = .space s ∧ ∀ x ∈ m.spaces, x.name ≠ s := by
    intro b
    cases b <;> simp [boundaryMissing]
    exact hf _ _ _
  constructor
  · unfold addSurface getConstruction
    by_cases h1 : isErr (findNamed (·.name) a.construction m.constructions) = true
    · rw [if_pos h1]; simp only [true_iff]; left; exact (hf _ _ _).1 h1
    · rw [if_neg h1]
      by_cases h2 : m.boundaryMissing a.front = true
      · rw [if_pos h2]; simp only [true_iff]
        obtain ⟨s, hs, hx⟩ := (hb _).1 h2
        exact .inr ⟨s, .inl hs, hx⟩
      · rw [if_neg h2]
        by_cases h3 : m.boundaryMissing a.back = true
        · rw [if_pos h3]; simp only [true_iff]
          obtain ⟨s, hs, hx⟩ := (hb _).1 h3
          exact .inr ⟨s, .inr hs, hx⟩
        · rw [if_neg h3]
          constructor
          · intro h; simp at h
          · rintro (h | ⟨s, hs | hs, hx⟩)
            · exact absurd ((hf _ _ _).2 h) h1
            · exact absurd ((hb _).2 ⟨s, hs, hx⟩) h2
            · exact absurd ((hb _).2 ⟨s, hs, hx⟩) h3
  · intro h
    rcases addSurface_cases m a with ⟨h1, h2⟩ | h1
    · exact absurd h1 h
    · rw [h1]

example : ((Model.empty : Model ℚ ℚ).addSurface
    ⟨"wall", "c", 10, .space "A", .outdoor, none, false⟩).1 = .err := by decide +kernel

/-- **C18** (objects).  An object whose space is not in the model is rejected, and nothing changes. -/
theorem C18_add_object (m : Model P F) (a : Object) (h : (m.addObject a).1 ≠ .ok ()) :
    (m.addObject a).2 = m := by
  rcases addObject_cases m a with ⟨h1, h2⟩ | h1
  · exact absurd h1 h
  · rw [h1]

example : ((Model.empty : Model ℚ ℚ).addObject ⟨"chair", some "A"⟩).1 ≠ .ok () := by decide +kernel

/-- **C18** (fenestrations, systems and luminaires; what holds).  When one of these is rejected, all
the lists of objects are as before.  A missing construction is detected before anything is changed.
Missing from the property: the simulation state header may have been changed, see
`C18_violated_fenestration`. -/
theorem C18_lists_partial [Zero F] (g : Geo P F) (m : Model P F) :
    (∀ a, (m.addFenestration g a).1 ≠ .ok () →
      (m.addFenestration g a).2 = { m with state := (m.addFenestration g a).2.state }) ∧
    (∀ a, a.category ≠ .opening → m.getConstruction a.construction = .err →
      m.addFenestration g a = (.err, m)) ∧
    (∀ a, (m.addHvac a).1 ≠ .ok () → (m.addHvac a).2 = { m with state := (m.addHvac a).2.state }) ∧
    (∀ a, (m.addLuminaire a).1 ≠ .ok () →
      (m.addLuminaire a).2 = { m with state := (m.addLuminaire a).2.state }) := by
  refine ⟨fun a h => ?_, fun a h1 h2 => ?_, fun a h => ?_, fun a h => ?_⟩
  · rcases addFenestration_lists g m a with ⟨h1, -⟩ | ⟨-, h2⟩
    · exact absurd h1 h
    · exact h2
  · unfold addFenestration
    rw [if_pos ⟨h1, by rw [h2]; rfl⟩]
  · rcases addHvac_lists m a with ⟨h1, -⟩ | ⟨-, h2⟩
    · exact absurd h1 h
    · exact h2
  · rcases addLuminaire_lists m a with ⟨h1, -⟩ | ⟨-, h2⟩
    · exact absurd h1 h
    · exact h2

/-- **C18** is violated by `add_fenestration`: a window whose parent surface does not exist is
rejected, but its open fraction stays registered in the state; and a window that is then accepted
gets a second entry for the same element. -/
theorem C18_violated_fenestration :
    let m : Model ℚ ℚ := (Model.empty : Model ℚ ℚ).applyAll demoGeo [.construction ⟨"c", []⟩]
    let bad := m.addFenestration demoGeo (demoWall "w" (some "no such wall"))
    let good := bad.2.addFenestration demoGeo (demoWall "w" none)
    bad.1 = .err ∧ bad.2 ≠ m ∧
      bad.2.state.map (·.elements) = some [.fenestrationOpenFraction 0] ∧
      good.1 = .ok () ∧
      good.2.state.map (·.elements) = some [.fenestrationOpenFraction 0, .fenestrationOpenFraction 0] := by
  decide +kernel

/-- **C18** is violated by `add_hvac` too: adding a system that already has an index (the same one
twice) is rejected, but its power consumption stays registered. -/
theorem C18_violated_hvac :
    let m : Model ℚ ℚ := Model.empty
    let h : Hvac ℚ := .electricHeater "h" none none none (some 0)
    (m.addHvac h).1 = .err ∧ (m.addHvac h).2 ≠ m := by
  decide +kernel

/-! ### C20: set-points -/

theorem setpoints_last (m : Model P F) (n : String) :
    (m.getHvacSetpoints n = none ↔ ∀ h ∈ m.hvacs, h.name ≠ n) ∧
    (∀ before h after, m.hvacs = before ++ h :: after → h.name = n → (∀ y ∈ after, y.name ≠ n) →
      m.getHvacSetpoints n = some (setpointsOf h)) := by
  have key : ∀ (l : List (Hvac F)) (f : String → Option (Option F × Option F)),
      ((∀ h ∈ l, h.name ≠ n) → l.foldl (fun map (h : Hvac F) => Function.update map h.name (some (setpointsOf h))) f n = f n) := by
    intro l
    induction l with
    | nil => intro f _; rfl
    | cons a l ih =>
      intro f hl
      rw [List.foldl_cons, ih _ (fun h hh => hl h (List.mem_cons_of_mem _ hh)),
        Function.update_of_ne (Ne.symm (hl a (by simp)))]
  have last : ∀ before h after, m.hvacs = before ++ h :: after → h.name = n → (∀ y ∈ after, y.name ≠ n) →
      m.getHvacSetpoints n = some (setpointsOf h) := by
    intro before h after hm hn ha
    unfold getHvacSetpoints
    rw [hm, List.foldl_append, List.foldl_cons, key _ _ ha, ← hn, Function.update_self]
  refine ⟨⟨?_, ?_⟩, last⟩
  · intro hnone
    by_contra hc
    push Not at hc
    -- there is a last one
    have : ∃ before h after, m.hvacs = before ++ h :: after ∧ h.name = n ∧ ∀ y ∈ after, y.name ≠ n := by
      obtain ⟨h, hh, hn⟩ := hc
      clear hnone last
      generalize m.hvacs = hs at hh
      induction hs using List.reverseRecOn with
      | nil => simp at hh
      | append_singleton l a ih =>
        by_cases ha : a.name = n
        · exact ⟨l, a, [], rfl, ha, by simp⟩
        · rcases List.mem_append.1 hh with hh | hh
          · obtain ⟨b, x, c, h1, h2, h3⟩ := ih hh
            refine ⟨b, x, c ++ [a], by rw [h1]; simp, h2, ?_⟩
            intro y hy
            rcases List.mem_append.1 hy with hy | hy
            · exact h3 y hy
            · simp at hy; rw [hy]; exact ha
          · simp at hh; rw [hh] at hn; exact absurd hn ha
    obtain ⟨b, h, c, h1, h2, h3⟩ := this
    rw [last b h c h1 h2 h3] at hnone
    simp at hnone
  · intro h
    unfold getHvacSetpoints
    rw [key _ _ h]

/-- **C20**.  The set-points reported under a name are those of the last system with that name: the
two set-points of an ideal heater and cooler, and the heating set-point of an electric heater, which
has no cooling one.  Names that no system has are absent. -/
theorem C20_setpoints (m : Model P F) (n : String) :
    (m.getHvacSetpoints n = none ↔ ∀ h ∈ m.hvacs, h.name ≠ n) ∧
    (∀ before after target heating cooling maxHeating maxCooling index,
      m.hvacs = before ++ .idealHeaterCooler n target heating cooling maxHeating maxCooling index :: after →
      (∀ y ∈ after, y.name ≠ n) → m.getHvacSetpoints n = some (heating, cooling)) ∧
    (∀ before after target heating maxHeating index,
      m.hvacs = before ++ .electricHeater n target heating maxHeating index :: after →
      (∀ y ∈ after, y.name ≠ n) → m.getHvacSetpoints n = some (heating, none)) :=
  ⟨(setpoints_last m n).1, fun _ _ _ _ _ _ _ _ h ha => (setpoints_last m n).2 _ _ _ h rfl ha,
    fun _ _ _ _ _ _ h ha => (setpoints_last m n).2 _ _ _ h rfl ha⟩

example : (({ (Model.empty : Model ℚ ℚ) with hvacs := [.electricHeater "h" none (some 19) none none,
    .idealHeaterCooler "x" none (some 20) (some 25) none none none, .electricHeater "h" none none none none] } : Model ℚ ℚ).getHvacSetpoints "x" = some (some 20, some 25)) := by
  decide +kernel

/-! ### C60: floor areas -/

open Classical in
/-- The floor area that surface `s` gives to space `n`. -/
noncomputable def Spec.floorOf [Zero F] (g : Geo P F) (n : String) (s : Surface P F) : F :=
  if (s.category = some .groundFloor ∨ s.category = some .interiorFloor ∨ s.category = some .exteriorFloor) ∧
    ((g.pointsUp s.vertices = true ∧ s.front = .space n) ∨ (g.pointsUp s.vertices = false ∧ s.back = .space n))
  then g.area s.vertices else 0

theorem floorSpace_iff (g : Geo P F) (s : Surface P F) (n : String) : floorSpace g s = some n ↔
    ((g.pointsUp s.vertices = true ∧ s.front = .space n) ∨ (g.pointsUp s.vertices = false ∧ s.back = .space n)) := by
  unfold floorSpace
  cases hg : g.pointsUp s.vertices
  · cases s.back <;> simp
  · cases s.front <;> simp

theorem isFloor_iff (c : SurfaceType) : isFloor c = true ↔
    (some c = some SurfaceType.groundFloor ∨ some c = some .interiorFloor ∨ some c = some .exteriorFloor) := by
  cases c <;> simp [isFloor]

section
variable [AddCommMonoid F]

theorem sizes_loop (g : Geo P F) (l : List (Surface P F)) (total : F) (areas : String → Option F) (t : F)
    (a' : String → Option F) (h : spaceSizesLoop g l total areas = .ok (t, a')) :
    (∀ n, a' n = (areas n).map (· + (l.map (Spec.floorOf g n)).sum)) ∧
    (∀ ns : List String, ns.Nodup → (∀ n, areas n ≠ none ↔ n ∈ ns) →
      t = total + (ns.map fun n => (l.map (Spec.floorOf g n)).sum).sum) := by
  induction l generalizing total areas with
  | nil =>
    obtain ⟨rfl, rfl⟩ := Prod.mk.inj (Outcome.ok.inj h)
    refine ⟨fun n => by cases areas n <;> simp, fun ns _ _ => by simp⟩
  | cons s l ih =>
    have skip : (∀ n, Spec.floorOf g n s = 0) → spaceSizesLoop g (s :: l) total areas = spaceSizesLoop g l total areas →
        (∀ n, a' n = (areas n).map (· + ((s :: l).map (Spec.floorOf g n)).sum)) ∧
        (∀ ns : List String, ns.Nodup → (∀ n, areas n ≠ none ↔ n ∈ ns) →
          t = total + (ns.map fun n => ((s :: l).map (Spec.floorOf g n)).sum).sum) := by
      intro hz heq
      rw [heq] at h
      obtain ⟨h1, h2⟩ := ih _ _ h
      simp only [List.map_cons, List.sum_cons, hz, zero_add]
      exact ⟨h1, h2⟩
    cases hc : s.category with
    | none =>
      apply skip
      · intro n; unfold Spec.floorOf; rw [if_neg]; simp [hc]
      · rw [spaceSizesLoop]; simp [hc]
    | some cat =>
      cases hs : floorSpace g s with
      | none =>
        apply skip
        · intro n; unfold Spec.floorOf; rw [if_neg]
          rintro ⟨-, h2⟩; rw [← floorSpace_iff, hs] at h2; simp at h2
        · rw [spaceSizesLoop]; simp [hc, hs]
      | some sp =>
        by_cases hf : isFloor cat = true
        · have hval : ∀ n, Spec.floorOf g n s = if n = sp then g.area s.vertices else 0 := by
            intro n
            unfold Spec.floorOf
            by_cases hn : n = sp
            · rw [if_pos hn, if_pos]
              refine ⟨by rw [hc]; exact (isFloor_iff cat).1 hf, ?_⟩
              rw [← floorSpace_iff, hs, hn]
            · rw [if_neg hn, if_neg]
              rintro ⟨-, h2⟩; rw [← floorSpace_iff, hs] at h2; exact hn (Option.some.inj h2).symm
          rw [spaceSizesLoop] at h
          simp only [hc, hs, hf, if_true] at h
          cases hk : areas sp with
          | none => simp [hk] at h
          | some k =>
            simp only [hk] at h
            obtain ⟨h1, h2⟩ := ih _ _ h
            constructor
            · intro n
              rw [h1 n, List.map_cons, List.sum_cons, hval n]
              by_cases hn : n = sp
              · subst hn; simp [hk, add_assoc]
              · rw [Function.update_of_ne hn, if_neg hn, zero_add]
            · intro ns hnd hns
              have hns' : ∀ n, Function.update areas sp (some (k + g.area s.vertices)) n ≠ none ↔ n ∈ ns := by
                intro n
                by_cases hn : n = sp
                · subst hn; simp; rw [← hns]; simp [hk]
                · rw [Function.update_of_ne hn]; exact hns n
              rw [h2 ns hnd hns']
              have hmem : sp ∈ ns := (hns sp).1 (by simp [hk])
              simp only [List.map_cons, List.sum_cons, hval]
              have hsum : ∀ (ms : List String), ms.Nodup → sp ∈ ms →
                  (ms.map fun n => (if n = sp then g.area s.vertices else 0) + (l.map (Spec.floorOf g n)).sum).sum
                    = g.area s.vertices + (ms.map fun n => (l.map (Spec.floorOf g n)).sum).sum := by
                intro ms hnd hm
                rw [List.sum_map_add]
                congr 1
                clear hns hns' h2
                induction ms with
                | nil => simp at hm
                | cons x ms ihm =>
                  rw [List.map_cons, List.sum_cons]
                  rcases List.nodup_cons.1 hnd with ⟨hx, hnd'⟩
                  by_cases hxs : x = sp
                  · subst hxs
                    rw [if_pos rfl]
                    have : (ms.map fun n => if n = x then g.area s.vertices else 0).sum = 0 := by
                      apply List.sum_eq_zero
                      intro y hy
                      obtain ⟨z, hz, rfl⟩ := List.mem_map.1 hy
                      rw [if_neg]; rintro rfl; exact hx hz
                    rw [this, add_zero]
                  · rw [if_neg hxs, zero_add]
                    rcases List.mem_cons.1 hm with hm | hm
                    · exact absurd hm.symm hxs
                    · exact ihm hnd' hm
              rw [hsum ns hnd hmem, add_assoc]
        · apply skip
          · intro n; unfold Spec.floorOf; rw [if_neg]
            rintro ⟨h1, -⟩; rw [hc] at h1; exact hf ((isFloor_iff cat).2 h1)
          · rw [spaceSizesLoop]; simp [hc, hs, hf]

theorem initial_areas (l : List Space) (f : String → Option F) (n : String) :
    l.foldl (fun map (s : Space) => Function.update map s.name (some (0 : F))) f n
      = if n ∈ l.map (·.name) then some 0 else f n := by
  induction l generalizing f with
  | nil => simp
  | cons s l ih =>
    rw [List.foldl_cons, ih, List.map_cons]
    by_cases h1 : n ∈ l.map (·.name)
    · rw [if_pos h1, if_pos (List.mem_cons_of_mem _ h1)]
    · rw [if_neg h1]
      by_cases h2 : n = s.name
      · rw [if_pos (by rw [h2]; exact List.mem_cons_self), h2, Function.update_self]
      · rw [if_neg (by simp only [List.mem_cons]; tauto), Function.update_of_ne h2]

/-- **C60** (floor areas).  When it returns, the area reported for each space of the model is the sum
of the net areas of the floors (ground, interior or exterior) whose upper side leads to it; spaces
that are not in the model are absent; and the total is the sum over the spaces. -/
theorem C60_floor_areas (g : Geo P F) (m : Model P F) (total : F) (areas : String → Option F)
    (h : m.getSpaceSizes g = .ok (total, areas)) :
    (∀ n, areas n = if ∃ s ∈ m.spaces, s.name = n then some ((m.surfaces.map (Spec.floorOf g n)).sum) else none) ∧
    total = (((m.spaces.map (·.name)).dedup).map fun n => (m.surfaces.map (Spec.floorOf g n)).sum).sum := by
  unfold getSpaceSizes at h
  obtain ⟨h1, h2⟩ := sizes_loop g _ _ _ _ _ h
  constructor
  · intro n
    rw [h1 n, initial_areas]
    by_cases hn : ∃ s ∈ m.spaces, s.name = n
    · rw [if_pos (by simpa using hn), if_pos hn]; simp
    · rw [if_neg (by simpa using hn), if_neg hn]; rfl
  · have := h2 ((m.spaces.map (·.name)).dedup) (List.nodup_dedup _) (by
      intro n
      rw [initial_areas, List.mem_dedup]
      by_cases hn : n ∈ m.spaces.map (·.name)
      · simp [hn]
      · simp [hn])
    rw [this, zero_add]

/-- **C60** (no panic).  When every space that a floor leads to is in the model, as `add_surface`
guarantees, the floor areas are computed. -/
theorem C60_no_panic (g : Geo P F) (m : Model P F)
    (h : ∀ s ∈ m.surfaces, ∀ n, (s.front = .space n ∨ s.back = .space n) → ∃ x ∈ m.spaces, x.name = n) :
    ∃ r, m.getSpaceSizes g = .ok r := by
  unfold getSpaceSizes
  suffices H : ∀ (l : List (Surface P F)) total (areas : String → Option F),
      (∀ s ∈ l, ∀ n, (s.front = .space n ∨ s.back = .space n) → areas n ≠ none) →
      ∃ r, spaceSizesLoop g l total areas = .ok r by
    apply H
    intro s hs n hn
    rw [initial_areas, if_pos]
    · simp
    · obtain ⟨x, hx, rfl⟩ := h s hs n hn
      exact List.mem_map.2 ⟨x, hx, rfl⟩
  intro l
  induction l with
  | nil => intro total areas _; exact ⟨_, rfl⟩
  | cons s l ih =>
    intro total areas hl
    have hl' : ∀ s' ∈ l, ∀ n, (s'.front = .space n ∨ s'.back = .space n) → areas n ≠ none :=
      fun s' hs' => hl s' (List.mem_cons_of_mem _ hs')
    rw [spaceSizesLoop]
    cases hc : s.category with
    | none => exact ih _ _ hl'
    | some cat =>
      cases hs : floorSpace g s with
      | none => exact ih _ _ hl'
      | some sp =>
        simp only
        split_ifs with hf
        · have : areas sp ≠ none := by
            apply hl s (by simp)
            rcases (floorSpace_iff g s sp).1 hs with ⟨-, h⟩ | ⟨-, h⟩
            · exact .inl h
            · exact .inr h
          cases hk : areas sp with
          | none => exact absurd hk this
          | some k =>
            simp only
            apply ih
            intro s' hs' n hn
            by_cases hns : n = sp
            · subst hns; simp
            · rw [Function.update_of_ne hns]; exact hl' s' hs' n hn
        · exact ih _ _ hl'

end

example : (((Model.empty : Model ℚ ℚ).applyAll demoGeo demoOps).getSpaceSizes demoGeo).map
    (fun r => (r.1, r.2 "A", r.2 "B")) = .ok (9, some 9, none) := by decide +kernel

/-- `add_surface` keeps the condition of `C60_no_panic`. -/
theorem C60_add_surface (m : Model P F) (a : Surface P F) (hok : (m.addSurface a).1 = .ok ())
    (h : ∀ s ∈ m.surfaces, ∀ n, (s.front = .space n ∨ s.back = .space n) → ∃ x ∈ m.spaces, x.name = n) :
    ∀ s ∈ (m.addSurface a).2.surfaces, ∀ n, (s.front = .space n ∨ s.back = .space n) →
      ∃ x ∈ (m.addSurface a).2.spaces, x.name = n := by
  rcases addSurface_cases m a with ⟨-, h2⟩ | h1
  · have hiff := (C18_add_surface m a).1
    rw [h2]
    intro s hs n hn
    rcases List.mem_append.1 hs with hs | hs
    · exact h s hs n hn
    · simp at hs
      subst hs
      by_contra hc
      push Not at hc
      have : (m.addSurface s).1 = .err := hiff.2 (.inr ⟨n, hn, hc⟩)
      rw [hok] at this; simp at this
  · rw [h1] at hok; simp at hok

/-- **C60** (histories).  After any history of calls, whatever failed in it, the floor areas are computed. -/
theorem C60_history [AddCommMonoid F] (g : Geo P F) (ops : List (Op P F)) :
    ∃ r, ((Model.empty : Model P F).applyAll g ops).getSpaceSizes g = .ok r := by
  have step : ∀ (m : Model P F) (op : Op P F),
      (∀ s ∈ m.surfaces, ∀ n, (s.front = .space n ∨ s.back = .space n) → ∃ x ∈ m.spaces, x.name = n) →
      ∀ s ∈ (m.apply g op).2.surfaces, ∀ n, (s.front = .space n ∨ s.back = .space n) →
        ∃ x ∈ (m.apply g op).2.spaces, x.name = n := by
    intro m op h
    cases op with
    | substance a => exact h
    | material a => exact h
    | construction a => exact h
    | space a =>
      intro s hs n hn
      obtain ⟨x, hx, hxn⟩ := h s hs n hn
      exact ⟨x, List.mem_append_left _ hx, hxn⟩
    | building a => exact h
    | takeState => exact h
    | object a =>
      simp only [Model.apply]
      rcases addObject_cases m a with ⟨-, h2⟩ | h1
      · rw [h2]; exact h
      · rw [h1]; exact h
    | surface a =>
      simp only [Model.apply]
      rcases addSurface_cases m a with ⟨h1, -⟩ | h1
      · exact C60_add_surface m a h1 h
      · rw [h1]; exact h
    | fenestration a =>
      simp only [Model.apply]
      rcases addFenestration_lists g m a with ⟨-, surfaces, a', h2, -, h3⟩ | ⟨-, h1⟩
      · rw [h2]
        rcases h3 with rfl | ⟨before, s0, after, v, e1, rfl⟩
        · exact h
        · intro s hs n hn
          simp only at hs ⊢
          rcases List.mem_append.1 hs with hs | hs
          · exact h s (by rw [e1]; exact List.mem_append_left _ hs) n hn
          · rcases List.mem_cons.1 hs with rfl | hs
            · exact h s0 (by rw [e1]; simp) n hn
            · exact h s (by rw [e1]; simp [hs]) n hn
      · rw [h1]; exact h
    | hvac a =>
      simp only [Model.apply]
      rcases addHvac_lists m a with ⟨-, i, h1⟩ | ⟨-, h1⟩ <;> (rw [h1]; exact h)
    | luminaire a =>
      simp only [Model.apply]
      rcases addLuminaire_lists m a with ⟨-, i, h1⟩ | ⟨-, h1⟩ <;> (rw [h1]; exact h)
  have key : ∀ (ops : List (Op P F)) (m : Model P F),
      (∀ s ∈ m.surfaces, ∀ n, (s.front = .space n ∨ s.back = .space n) → ∃ x ∈ m.spaces, x.name = n) →
      ∃ r, (m.applyAll g ops).getSpaceSizes g = .ok r := by
    intro ops
    induction ops with
    | nil => exact fun m h => C60_no_panic g m h
    | cons op ops ih => exact fun m h => ih _ (step m op h)
  exact key ops _ (by simp [Model.empty])

/-! ### C61: operable objects are wired to the simulation state -/

/-- Every operable object of the model knows the position of its own element in the header. -/
def Spec.Wired (m : Model P F) (h : Header F) : Prop :=
  (∀ (i : ℕ) (f : Fenestration P F), m.fenestrations[i]? = some f →
    ∃ j : ℕ, f.openFractionIndex = some j ∧ h.elements[j]? = some (Element.fenestrationOpenFraction i)) ∧
  (∀ (i : ℕ) (f : Hvac F), m.hvacs[i]? = some f →
    ∃ j : ℕ, f.index = some j ∧ h.elements[j]? = some (Element.heatingCoolingPowerConsumption i)) ∧
  (∀ (i : ℕ) (f : Luminaire), m.luminaires[i]? = some f →
    ∃ j : ℕ, f.index = some j ∧ h.elements[j]? = some (Element.luminairePowerConsumption i))

/-- A push into a header whose values were not taken: what it returns and what the header becomes. -/
theorem push_cases (h : Header F) (e : Element) (v : F) :
    (∃ l, (h.push e v).2.elements = h.elements ++ l) ∧
    (∀ i, (h.push e v).1 = .ok i → (h.push e v).2.elements[i]? = some e) := by
  have reg : ∀ h' : Header F, h'.elements = h.elements →
      (∃ l, (h'.register e v).2.elements = h.elements ++ l) ∧
      (∀ i, (h'.register e v).1 = .ok i → (h'.register e v).2.elements[i]? = some e) := by
    intro h' hh
    unfold Header.register
    cases h'.defaultValues with
    | none => exact ⟨⟨[e], by simp [hh]⟩, fun i hi => by simp at hi⟩
    | some vs =>
      refine ⟨⟨[e], by simp [hh]⟩, fun i hi => ?_⟩
      rw [← Outcome.ok.inj hi]
      simp
  have self : (∃ l, h.elements = h.elements ++ l) := ⟨[], by simp⟩
  unfold Header.push
  split_ifs
  · exact ⟨self, fun i hi => by simp at hi⟩
  · exact reg _ rfl
  · exact ⟨self, fun i hi => by simp at hi⟩
  · exact reg _ rfl
  · exact reg _ rfl

theorem getElem?_append_prefix {α : Type*} {l l' : List α} {j : ℕ} {x : α} (h : l[j]? = some x) :
    (l ++ l')[j]? = some x := by
  have hj : j < l.length := by
    by_contra hc
    rw [List.getElem?_eq_none (by omega)] at h
    simp at h
  rw [List.getElem?_append_left hj, h]

theorem Spec.Wired.mono {m : Model P F} {h : Header F} (hw : Spec.Wired m h) {m' : Model P F} {h' : Header F}
    (hf : m'.fenestrations = m.fenestrations) (hh : m'.hvacs = m.hvacs) (hl : m'.luminaires = m.luminaires)
    {l : List Element} (he : h'.elements = h.elements ++ l) : Spec.Wired m' h' := by
  obtain ⟨w1, w2, w3⟩ := hw
  refine ⟨fun i f hi => ?_, fun i f hi => ?_, fun i f hi => ?_⟩
  · rw [hf] at hi; obtain ⟨j, h1, h2⟩ := w1 i f hi; exact ⟨j, h1, he ▸ getElem?_append_prefix h2⟩
  · rw [hh] at hi; obtain ⟨j, h1, h2⟩ := w2 i f hi; exact ⟨j, h1, he ▸ getElem?_append_prefix h2⟩
  · rw [hl] at hi; obtain ⟨j, h1, h2⟩ := w3 i f hi; exact ⟨j, h1, he ▸ getElem?_append_prefix h2⟩

/-- `pushToState` in terms of the header. -/
theorem pushToState_spec (m : Model P F) (e : Element) (v : F) :
    match m.state with
    | none => m.pushToState e v = (.err, m)
    | some h => m.pushToState e v = ((h.push e v).1, { m with state := some (h.push e v).2 }) := by
  unfold pushToState
  cases m.state <;> rfl

/-- Appending an object at its own position keeps the wiring. -/
theorem wired_append {α : Type*} (l : List α) (a : α) (Q : ℕ → α → Prop)
    (hl : ∀ i f, l[i]? = some f → Q i f) (ha : Q l.length a) :
    ∀ i f, (l ++ [a])[i]? = some f → Q i f := by
  intro i f hi
  rcases lt_trichotomy i l.length with h | h | h
  · rw [List.getElem?_append_left h] at hi; exact hl i f hi
  · subst h; simp at hi; subst hi; exact ha
  · rw [List.getElem?_eq_none (by simp; omega)] at hi; simp at hi

theorem inherit_index (g : Geo P F) (s : Surface P F) (a : Fenestration P F) :
    (inherit g s a).openFractionIndex = a.openFractionIndex := by
  unfold inherit; split_ifs <;> rfl

theorem withIndex_index (a : Hvac F) (i : ℕ) : (a.withIndex i).index = some i := by
  cases a <;> rfl

/-- The wiring is kept by every call that leaves the model with a header. -/
theorem wired_apply [Zero F] (g : Geo P F) (m : Model P F) (op : Op P F)
    (hm : ∀ h, m.state = some h → Spec.Wired m h) :
    ∀ h, (m.apply g op).2.state = some h → Spec.Wired (m.apply g op).2 h := by
  have same : ∀ (m' : Model P F), m'.fenestrations = m.fenestrations → m'.hvacs = m.hvacs →
      m'.luminaires = m.luminaires → m'.state = m.state → ∀ h, m'.state = some h → Spec.Wired m' h := by
    intro m' h1 h2 h3 h4 h hh
    exact (hm h (h4 ▸ hh)).mono h1 h2 h3 (l := []) (by simp)
  cases op with
  | substance a => exact same _ rfl rfl rfl rfl
  | material a => exact same _ rfl rfl rfl rfl
  | construction a => exact same _ rfl rfl rfl rfl
  | space a => exact same _ rfl rfl rfl rfl
  | building a => exact same _ rfl rfl rfl rfl
  | takeState => intro h hh; simp [Model.apply, takeState] at hh
  | object a =>
    simp only [Model.apply]
    rcases addObject_cases m a with ⟨h1, h2⟩ | h1
    · rw [h2]; exact same _ rfl rfl rfl rfl
    · rw [h1]; exact same _ rfl rfl rfl rfl
  | surface a =>
    simp only [Model.apply]
    rcases addSurface_cases m a with ⟨h1, h2⟩ | h1
    · rw [h2]; exact same _ rfl rfl rfl rfl
    · rw [h1]; exact same _ rfl rfl rfl rfl
  | fenestration a =>
    simp only [Model.apply]
    unfold addFenestration
    have hp := pushToState_spec m (.fenestrationOpenFraction m.fenestrations.length) (0 : F)
    by_cases hc : a.category ≠ .opening ∧ isErr (m.getConstruction a.construction)
    · rw [if_pos hc]; exact same _ rfl rfl rfl rfl
    · rw [if_neg hc]
      cases hs : m.state with
      | none => rw [hs] at hp; simp only at hp; rw [hp]; exact same _ rfl rfl rfl rfl
      | some h0 =>
        rw [hs] at hp; simp only at hp; rw [hp]
        obtain ⟨⟨l, hl⟩, hok⟩ := push_cases h0 (.fenestrationOpenFraction m.fenestrations.length) (0 : F)
        have w := hm h0 hs
        have grow : ∀ (m' : Model P F), m'.fenestrations = m.fenestrations → m'.hvacs = m.hvacs →
            m'.luminaires = m.luminaires →
            m'.state = some (h0.push (.fenestrationOpenFraction m.fenestrations.length) (0 : F)).2 →
            ∀ h, m'.state = some h → Spec.Wired m' h := by
          intro m' h1 h2 h3 h4 h hh
          rw [h4] at hh
          obtain rfl := Option.some.inj hh
          exact w.mono h1 h2 h3 hl
        have add : ∀ (m' : Model P F) (i : ℕ) (a' : Fenestration P F),
            (h0.push (.fenestrationOpenFraction m.fenestrations.length) (0 : F)).1 = .ok i →
            a'.openFractionIndex = some i → m'.fenestrations = m.fenestrations ++ [a'] →
            m'.hvacs = m.hvacs → m'.luminaires = m.luminaires →
            m'.state = some (h0.push (.fenestrationOpenFraction m.fenestrations.length) (0 : F)).2 →
            ∀ h, m'.state = some h → Spec.Wired m' h := by
          intro m' i a' hi ha' h1 h2 h3 h4 h hh
          rw [h4] at hh
          obtain rfl := Option.some.inj hh
          obtain ⟨w1, w2, w3⟩ := w.mono (m' := m) rfl rfl rfl hl
          refine ⟨?_, by rw [h2]; exact w2, by rw [h3]; exact w3⟩
          rw [h1]
          exact wired_append _ _ (fun i f => ∃ j, f.openFractionIndex = some j ∧
            (h0.push (.fenestrationOpenFraction m.fenestrations.length) (0 : F)).2.elements[j]? =
              some (.fenestrationOpenFraction i)) w1 ⟨i, ha', hok i hi⟩
        cases hr : (h0.push (.fenestrationOpenFraction m.fenestrations.length) (0 : F)).1 with
        | err => exact grow _ rfl rfl rfl rfl
        | panic => exact grow _ rfl rfl rfl rfl
        | ok i =>
          simp only
          cases a.openFractionIndex with
          | some j => exact grow _ rfl rfl rfl rfl
          | none =>
            simp only
            cases a.parent with
            | none => exact add _ i { a with parent := none, openFractionIndex := some i } hr rfl rfl rfl rfl rfl
            | some p =>
              simp only
              cases cutParent g p a.vertices m.surfaces with
              | err => exact grow _ rfl rfl rfl rfl
              | panic => exact grow _ rfl rfl rfl rfl
              | ok q => exact add _ i _ hr (inherit_index _ _ _) rfl rfl rfl rfl
  | hvac a =>
    simp only [Model.apply]
    unfold addHvac
    have hp := pushToState_spec m (.heatingCoolingPowerConsumption m.hvacs.length) (0 : F)
    cases hs : m.state with
    | none => rw [hs] at hp; simp only at hp; rw [hp]; exact same _ rfl rfl rfl rfl
    | some h0 =>
      rw [hs] at hp; simp only at hp; rw [hp]
      obtain ⟨⟨l, hl⟩, hok⟩ := push_cases h0 (.heatingCoolingPowerConsumption m.hvacs.length) (0 : F)
      have w := (hm h0 hs).mono (m' := m) rfl rfl rfl hl
      cases hr : (h0.push (.heatingCoolingPowerConsumption m.hvacs.length) (0 : F)).1 with
      | err => intro h hh; obtain rfl := Option.some.inj hh; exact w
      | panic => intro h hh; obtain rfl := Option.some.inj hh; exact w
      | ok i =>
        simp only
        cases a.index with
        | some j => intro h hh; obtain rfl := Option.some.inj hh; exact w
        | none =>
          intro h hh
          obtain rfl := Option.some.inj hh
          exact ⟨w.1, wired_append _ _ (fun i f => ∃ j, f.index = some j ∧
            (h0.push (.heatingCoolingPowerConsumption m.hvacs.length) (0 : F)).2.elements[j]? =
              some (.heatingCoolingPowerConsumption i)) w.2.1 ⟨i, withIndex_index _ _, hok i hr⟩, w.2.2⟩
  | luminaire a =>
    simp only [Model.apply]
    unfold addLuminaire
    have hp := pushToState_spec m (.luminairePowerConsumption m.luminaires.length) (0 : F)
    cases hs : m.state with
    | none => rw [hs] at hp; simp only at hp; rw [hp]; exact same _ rfl rfl rfl rfl
    | some h0 =>
      rw [hs] at hp; simp only at hp; rw [hp]
      obtain ⟨⟨l, hl⟩, hok⟩ := push_cases h0 (.luminairePowerConsumption m.luminaires.length) (0 : F)
      have w := (hm h0 hs).mono (m' := m) rfl rfl rfl hl
      cases hr : (h0.push (.luminairePowerConsumption m.luminaires.length) (0 : F)).1 with
      | err => intro h hh; obtain rfl := Option.some.inj hh; exact w
      | panic => intro h hh; obtain rfl := Option.some.inj hh; exact w
      | ok i =>
        simp only
        cases a.index with
        | some j => intro h hh; obtain rfl := Option.some.inj hh; exact w
        | none =>
          intro h hh
          obtain rfl := Option.some.inj hh
          exact ⟨w.1, w.2.1, wired_append _ _ (fun i (f : Luminaire) => ∃ j, f.index = some j ∧
            (h0.push (.luminairePowerConsumption m.luminaires.length) (0 : F)).2.elements[j]? =
              some (.luminairePowerConsumption i)) w.2.2 ⟨i, rfl, hok i hr⟩⟩

/-- **C61** (wiring).  After any history of calls, every window, system and luminaire of the model
has the position, in the header of the simulation state, of the element that is its own: the open
fraction (or power consumption) of the object at that place of the list. -/
theorem C61_wired [Zero F] (g : Geo P F) (ops : List (Op P F)) (h : Header F)
    (hs : ((Model.empty : Model P F).applyAll g ops).state = some h) :
    Spec.Wired ((Model.empty : Model P F).applyAll g ops) h := by
  have key : ∀ (ops : List (Op P F)) (m : Model P F), (∀ h, m.state = some h → Spec.Wired m h) →
      ∀ h, (m.applyAll g ops).state = some h → Spec.Wired (m.applyAll g ops) h := by
    intro ops
    induction ops with
    | nil => intro m hm; exact hm
    | cons op ops ih => intro m hm; exact ih _ (wired_apply g m op hm)
  refine key ops _ ?_ h hs
  intro h _
  refine ⟨?_, ?_, ?_⟩ <;> simp [Model.empty]

/-- **C61** (no sharing).  Two different objects never share a position of the simulation state. -/
theorem C61_no_sharing [Zero F] (g : Geo P F) (ops : List (Op P F)) (h : Header F)
    (hs : ((Model.empty : Model P F).applyAll g ops).state = some h) (j : ℕ) :
    let m := (Model.empty : Model P F).applyAll g ops
    (∀ (i i' : ℕ) (f : Fenestration P F) (f' : Fenestration P F), m.fenestrations[i]? = some f → m.fenestrations[i']? = some f' →
      f.openFractionIndex = some j → f'.openFractionIndex = some j → i = i') ∧
    (∀ (i i' : ℕ) (f : Hvac F) (f' : Hvac F), m.hvacs[i]? = some f → m.hvacs[i']? = some f' →
      f.index = some j → f'.index = some j → i = i') ∧
    (∀ (i i' : ℕ) (f : Luminaire) (f' : Luminaire), m.luminaires[i]? = some f → m.luminaires[i']? = some f' →
      f.index = some j → f'.index = some j → i = i') ∧
    (∀ (i i' : ℕ) (f : Fenestration P F) (f' : Hvac F), m.fenestrations[i]? = some f → m.hvacs[i']? = some f' →
      f.openFractionIndex = some j → f'.index ≠ some j) ∧
    (∀ (i i' : ℕ) (f : Fenestration P F) (f' : Luminaire), m.fenestrations[i]? = some f → m.luminaires[i']? = some f' →
      f.openFractionIndex = some j → f'.index ≠ some j) ∧
    (∀ (i i' : ℕ) (f : Hvac F) (f' : Luminaire), m.hvacs[i]? = some f → m.luminaires[i']? = some f' →
      f.index = some j → f'.index ≠ some j) := by
  obtain ⟨w1, w2, w3⟩ := C61_wired g ops h hs
  have key : ∀ {o o' : Option ℕ} {e e' : Element}, (∃ a, o = some a ∧ h.elements[a]? = some e) →
      (∃ a, o' = some a ∧ h.elements[a]? = some e') → o = some j → o' = some j → e = e' := by
    rintro o o' e e' ⟨a, rfl, ha⟩ ⟨b, rfl, hb⟩ h1 h2
    rw [Option.some.inj h1] at ha
    rw [Option.some.inj h2, ha] at hb
    exact Option.some.inj hb
  refine ⟨fun i i' f f' hf hf' h1 h2 => ?_, fun i i' f f' hf hf' h1 h2 => ?_,
    fun i i' f f' hf hf' h1 h2 => ?_, fun i i' f f' hf hf' h1 h2 => ?_,
    fun i i' f f' hf hf' h1 h2 => ?_, fun i i' f f' hf hf' h1 h2 => ?_⟩
  · simpa using key (w1 i f hf) (w1 i' f' hf') h1 h2
  · simpa using key (w2 i f hf) (w2 i' f' hf') h1 h2
  · simpa using key (w3 i f hf) (w3 i' f' hf') h1 h2
  · simpa using key (w1 i f hf) (w2 i' f' hf') h1 h2
  · simpa using key (w1 i f hf) (w3 i' f' hf') h1 h2
  · simpa using key (w2 i f hf) (w3 i' f' hf') h1 h2

example : (((Model.empty : Model ℚ ℚ).applyAll demoGeo (demoOps ++ [.luminaire ⟨"l", none⟩,
    .fenestration (demoWall "w3" none)])).state.isSome = true) := by decide +kernel

/-! ### C62: fenestrations and their parent surface -/

/-- **C62**.  An accepted fenestration that names a parent has been cut as a hole in the first
surface with that name, which changes in nothing else and neither does any other surface; and it
takes the boundaries of that surface, swapped when it faces the other way. -/
theorem C62_parent [Zero F] (g : Geo P F) (m : Model P F) (a : Fenestration P F) (p : String)
    (hp : a.parent = some p) (hok : (m.addFenestration g a).1 = .ok ()) :
    ∃ before s after v f, m.surfaces = before ++ s :: after ∧ s.name = p ∧ (∀ y ∈ before, y.name ≠ p) ∧
      g.cutHole s.vertices a.vertices = some v ∧
      (m.addFenestration g a).2.surfaces = before ++ { s with vertices := v } :: after ∧
      (m.addFenestration g a).2.fenestrations = m.fenestrations ++ [f] ∧
      f.name = a.name ∧ f.construction = a.construction ∧ f.vertices = a.vertices ∧ f.parent = some p ∧
      (g.sameDirection v a.vertices = true → f.front = s.front ∧ f.back = s.back) ∧
      (g.sameDirection v a.vertices = false → f.front = s.back ∧ f.back = s.front) := by
  obtain ⟨p1, p2, p3, p4, p5, p6, p7, p8, p9, p10⟩ :=
    pushToState_lists m (.fenestrationOpenFraction m.fenestrations.length) (0 : F)
  unfold addFenestration at hok ⊢
  by_cases h1 : a.category ≠ .opening ∧ isErr (m.getConstruction a.construction)
  · rw [if_pos h1] at hok; simp at hok
  · rw [if_neg h1] at hok ⊢
    rcases hpush : m.pushToState (.fenestrationOpenFraction m.fenestrations.length) (0 : F) with ⟨r, m1⟩
    rw [hpush] at p4 p7 hok
    simp only at p4 p7
    cases r with
    | err => simp at hok
    | panic => simp at hok
    | ok i =>
      simp only at hok ⊢
      cases ho : a.openFractionIndex with
      | some j => rw [ho] at hok; simp at hok
      | none =>
        rw [ho, hp] at hok
        simp only [hp] at hok ⊢
        cases hc : cutParent g p a.vertices m1.surfaces with
        | err => rw [hc] at hok; simp at hok
        | panic => rw [hc] at hok; simp at hok
        | ok q =>
          obtain ⟨ss, par⟩ := q
          obtain ⟨b, s0, c, v, x1, x2, x3, x4, x5, x6, -⟩ := cutParent_ok g p _ _ _ _ hc
          refine ⟨b, s0, c, v, _, by rw [← p4, x1], x4, x5, x6, x2, by rw [← p7], ?_⟩
          subst x3
          unfold inherit
          simp only
          cases hd : g.sameDirection v a.vertices <;> simp

example : let m := (Model.empty : Model ℚ ℚ).applyAll demoGeo (demoOps.take 4)
    (m.addFenestration demoGeo (demoWall "w1" (some "wall"))).1 = .ok () ∧
    (m.addFenestration demoGeo (demoWall "w1" (some "wall"))).2.fenestrations.map (·.front) = [.space "A"] := by
  decide +kernel

end Simple.Building
