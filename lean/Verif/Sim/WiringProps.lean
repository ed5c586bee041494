import Mathlib.Tactic.Linarith
import Verif.Sim.WiringModel

/-! # C90: every quantity of a building has its own place in the state -/

namespace Simple.Wiring

open State

namespace Spec

/-- The quantities that the state keeps for the objects of a building. -/
inductive Slot
  /-- A quantity of a side of surface or fenestration number `i`. -/
  | wall (kind : Kind) (i : ℕ) (side : Side) (q : Quantity)
  /-- The temperature of node `j` of surface or fenestration number `i`. -/
  | node (kind : Kind) (i j : ℕ)
  /-- The air temperature of space number `i`, and its infiltration. -/
  | dryBulb (i : ℕ)
  | infiltrationVolume (i : ℕ)
  | infiltrationTemperature (i : ℕ)
deriving DecidableEq

/-- The element of the state that each quantity is. -/
def elementOf : Slot → Element
  | .wall .surface i .front .convection => .surfaceFrontConvectionCoefficient i
  | .wall .surface i .front .heatFlow => .surfaceFrontConvectiveHeatFlow i
  | .wall .surface i .front .sun => .surfaceFrontSolarIrradiance i
  | .wall .surface i .front .infrared => .surfaceFrontIRIrradiance i
  | .wall .surface i .back .convection => .surfaceBackConvectionCoefficient i
  | .wall .surface i .back .heatFlow => .surfaceBackConvectiveHeatFlow i
  | .wall .surface i .back .sun => .surfaceBackSolarIrradiance i
  | .wall .surface i .back .infrared => .surfaceBackIRIrradiance i
  | .wall .fenestration i .front .convection => .fenestrationFrontConvectionCoefficient i
  | .wall .fenestration i .front .heatFlow => .fenestrationFrontConvectiveHeatFlow i
  | .wall .fenestration i .front .sun => .fenestrationFrontSolarIrradiance i
  | .wall .fenestration i .front .infrared => .fenestrationFrontIRIrradiance i
  | .wall .fenestration i .back .convection => .fenestrationBackConvectionCoefficient i
  | .wall .fenestration i .back .heatFlow => .fenestrationBackConvectiveHeatFlow i
  | .wall .fenestration i .back .sun => .fenestrationBackSolarIrradiance i
  | .wall .fenestration i .back .infrared => .fenestrationBackIRIrradiance i
  | .node .surface i j => .surfaceNodeTemperature i j
  | .node .fenestration i j => .fenestrationNodeTemperature i j
  | .dryBulb i => .spaceDryBulbTemperature i
  | .infiltrationVolume i => .spaceInfiltrationVolume i
  | .infiltrationTemperature i => .spaceInfiltrationTemperature i

/-- The walls of a kind. -/
def walls (o : Objects) : Kind → List Wall
  | .surface => o.surfaces
  | .fenestration => o.fenestrations

/-- The place of a quantity according to the object that has it; nodes are one after the other. -/
def place (o : Objects) : Slot → Option ℕ
  | .wall kind i side q => (walls o kind)[i]?.bind fun w => w.field side q
  | .node kind i j => (walls o kind)[i]?.bind fun w => w.first.map (· + j)
  | .dryBulb i => o.spaces[i]?.bind fun z => z.dryBulb
  | .infiltrationVolume i => o.spaces[i]?.bind fun z => z.infiltrationVolume
  | .infiltrationTemperature i => o.spaces[i]?.bind fun z => z.infiltrationTemperature

/-- Which quantities a building has: openings take no part in the heat model, and so have neither nodes nor
convection; they have solar and infrared irradiance if the optical information is calculated. -/
def Has (calculated : Bool) (o : Objects) : Slot → Prop
  | .wall kind i _ q => ∃ w, (walls o kind)[i]? = some w ∧
      (kind = .fenestration ∧ w.opening = true → calculated = true ∧ (q = .sun ∨ q = .infrared))
  | .node kind i j => ∃ w, (walls o kind)[i]? = some w ∧ ¬(kind = .fenestration ∧ w.opening = true) ∧ j < w.nodes
  | .dryBulb i | .infiltrationVolume i | .infiltrationTemperature i => i < o.spaces.length

/-- Elements of a wall in the heat model. -/
def ofWall (kind : Kind) (i : ℕ) (w : Wall) : List Element :=
  [elementOf (.wall kind i .front .convection), elementOf (.wall kind i .back .convection),
    elementOf (.wall kind i .front .heatFlow), elementOf (.wall kind i .back .heatFlow),
    elementOf (.wall kind i .front .sun), elementOf (.wall kind i .back .sun),
    elementOf (.wall kind i .front .infrared), elementOf (.wall kind i .back .infrared)]
    ++ (List.range w.nodes).map fun j => elementOf (.node kind i j)

/-- The elements of the objects of a list, from number `i` on. -/
def ofAll {α : Type} (f : ℕ → α → List Element) (i : ℕ) : List α → List Element
  | [] => []
  | a :: l => f i a ++ ofAll f (i + 1) l

/-- The physical part of the state of a building. -/
def layout (calculated : Bool) (o : Objects) : List Element :=
  ofAll (fun i _ => [elementOf (.dryBulb i)]) 0 o.spaces
  ++ ofAll (ofWall .surface) 0 o.surfaces
  ++ ofAll (fun i w => if w.opening then [] else ofWall .fenestration i w) 0 o.fenestrations
  ++ ofAll (fun i _ => [elementOf (.infiltrationVolume i), elementOf (.infiltrationTemperature i)]) 0 o.spaces
  ++ if calculated then ofAll (fun i w => if w.opening then
        [elementOf (.wall .fenestration i .front .sun), elementOf (.wall .fenestration i .back .sun),
          elementOf (.wall .fenestration i .front .infrared), elementOf (.wall .fenestration i .back .infrared)]
      else []) 0 o.fenestrations
    else []

/-- No place has been given yet. -/
structure Fresh (o : Objects) : Prop where
  walls : ∀ kind, ∀ w ∈ walls o kind, w.first = none ∧ w.last = none ∧ ∀ s q, w.field s q = none
  spaces : ∀ z ∈ o.spaces, z.dryBulb = none ∧ z.infiltrationVolume = none ∧ z.infiltrationTemperature = none

end Spec

open Spec

/-! ## Steps -/

def Ready (h : Header ℚ) : Prop := h.defaultValues ≠ none

theorem pushed_physical {h : Header ℚ} (hr : Ready h) (e : Element) (v : ℚ) (h1 : e.isPersonal = false)
    (h2 : e.isOperational = false) :
    ∃ h' : Header ℚ, pushed h e v = .ok (h.elements.length, h') ∧ Ready h' ∧ h'.elements = h.elements ++ [e] := by
  cases hv : h.defaultValues with
  | none => exact absurd hv hr
  | some vs =>
    refine ⟨{ h with passedOperational := true, passedPersonal := true, elements := h.elements ++ [e],
                     defaultValues := some (vs ++ [v]) }, ?_, by simp [Ready], rfl⟩
    unfold pushed Header.push
    rw [if_neg (by simp [h1]), if_neg (by simp [h2])]
    simp [Header.register, hv]

theorem element_eq (kind : Kind) (s : Side) (q : Quantity) (i : ℕ) : element kind s q i = elementOf (.wall kind i s q) := by
  cases kind <;> cases s <;> cases q <;> rfl

theorem nodeElement_eq (kind : Kind) (i j : ℕ) : nodeElement kind i j = elementOf (.node kind i j) := by
  cases kind <;> rfl

theorem physical (s : Slot) : (elementOf s).isPersonal = false ∧ (elementOf s).isOperational = false := by
  cases s with
  | wall kind i side q => cases kind <;> cases side <;> cases q <;> exact ⟨rfl, rfl⟩
  | node kind i j => cases kind <;> exact ⟨rfl, rfl⟩
  | dryBulb i => exact ⟨rfl, rfl⟩
  | infiltrationVolume i => exact ⟨rfl, rfl⟩
  | infiltrationTemperature i => exact ⟨rfl, rfl⟩

theorem assign_ok (kind : Kind) (s : Side) (q : Quantity) (i : ℕ) (w : Wall) {h : Header ℚ} (hr : Ready h)
    (hf : w.field s q = none) :
    ∃ h', assign kind s q i w h = .ok (w.withField s q (some h.elements.length), h') ∧ Ready h' ∧
      h'.elements = h.elements ++ [elementOf (.wall kind i s q)] := by
  rw [assign, element_eq]
  obtain ⟨h', e1, e2, e3⟩ := pushed_physical hr (elementOf (.wall kind i s q)) (initial q) (physical _).1 (physical _).2
  exact ⟨h', by rw [e1]; simp [Outcome.bind, hf, setIndex], e2, e3⟩

theorem addState_ok (kind : Kind) (s : Side) (q : Quantity) (i : ℕ) (w : Wall) {h : Header ℚ} (hr : Ready h)
    (hf : w.field s q = none) :
    ∃ h', addState kind s q i w h = .ok (w.withField s q (some h.elements.length), h') ∧ Ready h' ∧
      h'.elements = h.elements ++ [elementOf (.wall kind i s q)] := by
  rw [addState, if_pos hf]
  exact assign_ok kind s q i w hr hf

theorem pushNodes_ok (kind : Kind) (i : ℕ) : ∀ (n j : ℕ) (h : Header ℚ), Ready h →
    ∃ h', pushNodes kind i j n h = .ok h' ∧ Ready h' ∧
      h'.elements = h.elements ++ (List.range n).map fun k => elementOf (.node kind i (j + k))
  | 0, j, h, hr => ⟨h, rfl, hr, by simp⟩
  | n + 1, j, h, hr => by
    obtain ⟨h1, e1, e2, e3⟩ := pushed_physical hr (elementOf (.node kind i j)) 22 (physical _).1 (physical _).2
    obtain ⟨h2, f1, f2, f3⟩ := pushNodes_ok kind i n (j + 1) h1 e2
    refine ⟨h2, ?_, f2, ?_⟩
    · rw [pushNodes, nodeElement_eq, e1]
      exact f1
    · rw [f3, e3, List.range_succ_eq_map, List.map_cons, List.map_map, List.append_assoc]
      congr 1
      simp only [Nat.add_zero, List.cons_append, List.nil_append, List.cons.injEq, true_and]
      apply List.map_congr_left
      intro k _
      simp only [Function.comp_apply, Nat.succ_eq_add_one]
      rw [show j + 1 + k = j + (k + 1) by omega]

/-- A wall whose fields, those of a set and the nodes if asked for, have the right elements, and none elsewhere. -/
structure WallAt (es : List Element) (kind : Kind) (i : ℕ) (fields : Side → Quantity → Prop) (nodes : Prop) (w : Wall) :
    Prop where
  yes : ∀ s q, fields s q → ∃ k, w.field s q = some k ∧ es[k]? = some (elementOf (.wall kind i s q))
  no : ∀ s q, ¬fields s q → w.field s q = none
  nodes_yes : nodes → ∃ a, w.first = some a ∧ w.last = some (a + w.nodes - 1) ∧
    ∀ j < w.nodes, es[a + j]? = some (elementOf (.node kind i j))
  nodes_no : ¬nodes → w.first = none ∧ w.last = none

theorem WallAt.append {es : List Element} {kind : Kind} {i : ℕ} {fields : Side → Quantity → Prop} {nodes : Prop} {w : Wall}
    (h : WallAt es kind i fields nodes w) (more : List Element) : WallAt (es ++ more) kind i fields nodes w := by
  have up : ∀ {k : ℕ} {e : Element}, es[k]? = some e → (es ++ more)[k]? = some e := by
    intro k e he
    rw [List.getElem?_append_left]
    · exact he
    · by_contra hc
      rw [List.getElem?_eq_none (by omega)] at he
      cases he
  refine ⟨fun s q f => ?_, h.no, fun n => ?_, h.nodes_no⟩
  · obtain ⟨k, k1, k2⟩ := h.yes s q f
    exact ⟨k, k1, up k2⟩
  · obtain ⟨a, a1, a2, a3⟩ := h.nodes_yes n
    exact ⟨a, a1, a2, fun j hj => up (a3 j hj)⟩

theorem WallAt.withField {es : List Element} {kind : Kind} {i : ℕ} {fields : Side → Quantity → Prop} {nodes : Prop}
    {w : Wall} (h : WallAt es kind i fields nodes w) (s : Side) (q : Quantity) :
    WallAt (es ++ [elementOf (.wall kind i s q)]) kind i (fun s' q' => fields s' q' ∨ (s' = s ∧ q' = q)) nodes
      (w.withField s q (some es.length)) := by
  have h' := h.append [elementOf (.wall kind i s q)]
  refine ⟨fun s' q' f => ?_, fun s' q' f => ?_, h'.nodes_yes, h'.nodes_no⟩
  · by_cases he : s' = s ∧ q' = q
    · refine ⟨es.length, ?_, ?_⟩
      · simp only [Wall.withField]
        rw [if_pos he]
      · rw [he.1, he.2]
        simp
    · obtain ⟨k, k1, k2⟩ := h'.yes s' q' (f.resolve_right he)
      refine ⟨k, ?_, k2⟩
      simp only [Wall.withField]
      rw [if_neg he]
      exact k1
  · simp only [Wall.withField]
    rw [if_neg (fun he => f (Or.inr he))]
    exact h'.no s' q' (fun hf => f (Or.inl hf))

theorem WallAt.congr {es : List Element} {kind : Kind} {i : ℕ} {fields fields' : Side → Quantity → Prop} {nodes : Prop}
    {w : Wall} (h : WallAt es kind i fields nodes w) (he : ∀ s q, fields s q ↔ fields' s q) :
    WallAt es kind i fields' nodes w :=
  ⟨fun s q f => h.yes s q ((he s q).2 f), fun s q f => h.no s q (fun g => f ((he s q).1 g)), h.nodes_yes, h.nodes_no⟩

theorem WallAt.fresh {w : Wall} (es : List Element) (kind : Kind) (i : ℕ) (h1 : w.first = none) (h2 : w.last = none)
    (h3 : ∀ s q, w.field s q = none) : WallAt es kind i (fun _ _ => False) False w :=
  ⟨fun _ _ f => f.elim, fun s q _ => h3 s q, fun n => n.elim, fun _ => ⟨h1, h2⟩⟩

theorem addState_at {kind : Kind} {s : Side} {q : Quantity} {i : ℕ} {w : Wall} {h : Header ℚ} (hr : Ready h)
    {fields : Side → Quantity → Prop} {nodes : Prop} (hw : WallAt h.elements kind i fields nodes w) (hf : ¬fields s q) :
    ∃ w' h', addState kind s q i w h = .ok (w', h') ∧ Ready h' ∧ w'.opening = w.opening ∧ w'.nodes = w.nodes ∧
      h'.elements = h.elements ++ [elementOf (.wall kind i s q)] ∧
      WallAt h'.elements kind i (fun s' q' => fields s' q' ∨ (s' = s ∧ q' = q)) nodes w' := by
  obtain ⟨h', e1, e2, e3⟩ := addState_ok kind s q i w hr (hw.no s q hf)
  exact ⟨_, h', e1, e2, rfl, rfl, e3, by rw [e3]; exact hw.withField s q⟩

theorem ensure_at {kind : Kind} {s : Side} {q : Quantity} {i : ℕ} {w : Wall} {h : Header ℚ} (hr : Ready h)
    {fields : Side → Quantity → Prop} {nodes : Prop} (hw : WallAt h.elements kind i fields nodes w) (hf : ¬fields s q) :
    ∃ w' h', ensure kind s q i w h = .ok (w', h') ∧ Ready h' ∧ w'.opening = w.opening ∧ w'.nodes = w.nodes ∧
      h'.elements = h.elements ++ [elementOf (.wall kind i s q)] ∧
      WallAt h'.elements kind i (fun s' q' => fields s' q' ∨ (s' = s ∧ q' = q)) nodes w' := by
  rw [ensure, if_pos (hw.no s q hf)]
  obtain ⟨h', e1, e2, e3⟩ := assign_ok kind s q i w hr (hw.no s q hf)
  exact ⟨_, h', e1, e2, rfl, rfl, e3, by rw [e3]; exact hw.withField s q⟩

theorem ensure_skip {kind : Kind} {s : Side} {q : Quantity} {i : ℕ} {w : Wall} {h : Header ℚ} {es : List Element}
    {fields : Side → Quantity → Prop} {nodes : Prop} (hw : WallAt es kind i fields nodes w) (hf : fields s q) :
    ensure kind s q i w h = .ok (w, h) := by
  obtain ⟨k, hk, -⟩ := hw.yes s q hf
  rw [ensure, if_neg (by rw [hk]; simp)]

theorem addNodes_at {kind : Kind} {i : ℕ} {w : Wall} {h : Header ℚ} (hr : Ready h)
    {fields : Side → Quantity → Prop} (hw : WallAt h.elements kind i fields False w) (hne : h.elements ≠ []) :
    ∃ w' h', addNodes kind i w h = .ok (w', h') ∧ Ready h' ∧ w'.opening = w.opening ∧ w'.nodes = w.nodes ∧
      h'.elements = h.elements ++ ((List.range w.nodes).map fun j => elementOf (.node kind i j)) ∧
      WallAt h'.elements kind i fields True w' := by
  obtain ⟨h', e1, e2, e3⟩ := pushNodes_ok kind i w.nodes 0 h hr
  simp only [Nat.zero_add] at e3
  have hl : h'.elements.length = h.elements.length + w.nodes := by rw [e3]; simp
  have hp : 0 < h.elements.length := List.length_pos_iff.2 hne
  obtain ⟨n1, n2⟩ := hw.nodes_no (fun f => f)
  refine ⟨{ w with first := some h.elements.length, last := some (h'.elements.length - 1) }, h', ?_, e2, rfl, rfl, e3, ?_⟩
  · rw [addNodes, if_pos n1, e1]
    simp only [Outcome.bind, n1, n2, setIndex, Header.len]
    rw [if_neg (by omega)]
  · have h'' := hw.append ((List.range w.nodes).map fun j => elementOf (.node kind i j))
    rw [← e3] at h''
    refine ⟨h''.yes, h''.no, fun _ => ⟨h.elements.length, rfl, by simp only [hl], fun j hj => ?_⟩, fun f => (f trivial).elim⟩
    simp only at hj
    rw [e3, List.getElem?_append_right (by omega)]
    simp [hj]

/-- All the fields. -/
def AllFields : Side → Quantity → Prop := fun _ _ => True

theorem thermalWall_at (kind : Kind) (i : ℕ) {w : Wall} {h : Header ℚ} (hr : Ready h)
    (h1 : w.first = none) (h2 : w.last = none) (h3 : ∀ s q, w.field s q = none) :
    ∃ w' h', thermalWall kind i w h = .ok (w', h') ∧ Ready h' ∧ w'.opening = w.opening ∧ w'.nodes = w.nodes ∧
      h'.elements = h.elements ++ ofWall kind i w ∧ WallAt h'.elements kind i AllFields True w' := by
  have a0 := WallAt.fresh h.elements kind i h1 h2 h3
  obtain ⟨w1, g1, e1, r1, o1, n1, l1, a1⟩ := addState_at (s := .front) (q := .convection) hr a0 (by simp)
  obtain ⟨w2, g2, e2, r2, o2, n2, l2, a2⟩ := addState_at (s := .back) (q := .convection) r1 a1 (by simp)
  obtain ⟨w3, g3, e3, r3, o3, n3, l3, a3⟩ := addState_at (s := .front) (q := .heatFlow) r2 a2 (by simp)
  obtain ⟨w4, g4, e4, r4, o4, n4, l4, a4⟩ := addState_at (s := .back) (q := .heatFlow) r3 a3 (by simp)
  obtain ⟨w5, g5, e5, r5, o5, n5, l5, a5⟩ := addState_at (s := .front) (q := .sun) r4 a4 (by simp)
  obtain ⟨w6, g6, e6, r6, o6, n6, l6, a6⟩ := addState_at (s := .back) (q := .sun) r5 a5 (by simp)
  obtain ⟨w7, g7, e7, r7, o7, n7, l7, a7⟩ := addState_at (s := .front) (q := .infrared) r6 a6 (by simp)
  obtain ⟨w8, g8, e8, r8, o8, n8, l8, a8⟩ := addState_at (s := .back) (q := .infrared) r7 a7 (by simp)
  obtain ⟨w9, g9, e9, r9, o9, n9, l9, a9⟩ := addNodes_at r8 a8 (by rw [l8]; simp)
  refine ⟨w9, g9, ?_, r9, ?_, ?_, ?_, a9.congr ?_⟩
  · unfold thermalWall
    simp only [e1, e2, e3, e4, e5, e6, e7, e8, e9, Outcome.bind]
  · rw [o9, o8, o7, o6, o5, o4, o3, o2, o1]
  · rw [n9, n8, n7, n6, n5, n4, n3, n2, n1]
  · rw [l9, l8, l7, l6, l5, l4, l3, l2, l1, n8, n7, n6, n5, n4, n3, n2, n1]
    simp [ofWall]
  · intro s q
    cases s <;> cases q <;> simp [AllFields]

/-! ## Loops -/

theorem each_at {α : Type} (step : ℕ → α → Header ℚ → Outcome (α × Header ℚ)) (emit : ℕ → α → List Element)
    (P : ℕ → List Element → α → Prop) (Q : ℕ → List Element → α → α → Prop)
    (hP : ∀ i es more a, P i es a → P i (es ++ more) a)
    (hQ : ∀ i es more a a', Q i es a a' → Q i (es ++ more) a a')
    (hstep : ∀ i a (h : Header ℚ), Ready h → P i h.elements a → ∃ a' h', step i a h = .ok (a', h') ∧ Ready h' ∧
      h'.elements = h.elements ++ emit i a ∧ Q i h'.elements a a') :
    ∀ (l : List α) (i : ℕ) (h : Header ℚ), Ready h → (∀ (j : ℕ) (a : α), l[j]? = some a → P (i + j) h.elements a) →
      ∃ l' h', each step i l h = .ok (l', h') ∧ Ready h' ∧ h'.elements = h.elements ++ ofAll emit i l ∧
        l'.length = l.length ∧
        ∀ (j : ℕ) (a : α), l[j]? = some a → ∃ a', l'[j]? = some a' ∧ Q (i + j) h'.elements a a'
  | [], i, h, hr, _ => ⟨[], h, rfl, hr, by simp [ofAll], rfl, by simp⟩
  | a :: l, i, h, hr, hp => by
    obtain ⟨a', h1, e1, r1, l1, q1⟩ := hstep i a h hr (by simpa using hp 0 a (by simp))
    obtain ⟨l', h2, e2, r2, l2, n2, q2⟩ := each_at step emit P Q hP hQ hstep l (i + 1) h1 r1 (fun j b hb => by
      have := hp (j + 1) b (by simpa using hb)
      rw [l1, show i + 1 + j = i + (j + 1) by omega]
      exact hP _ _ _ _ this)
    refine ⟨a' :: l', h2, ?_, r2, ?_, by simp [n2], ?_⟩
    · rw [each, e1]
      simp only [Outcome.bind, e2]
    · rw [l2, l1, ofAll, List.append_assoc]
    · intro j b hb
      cases j with
      | zero =>
        simp only [List.getElem?_cons_zero, Option.some.injEq] at hb
        subst hb
        refine ⟨a', by simp, ?_⟩
        rw [l2]
        exact hQ _ _ _ _ _ q1
      | succ j =>
        obtain ⟨b', b1, b2⟩ := q2 j b (by simpa using hb)
        refine ⟨b', by simpa using b1, ?_⟩
        rw [show i + (j + 1) = i + 1 + j by omega]
        exact b2

theorem getElem?_up {es more : List Element} {k : ℕ} {e : Element} (h : es[k]? = some e) : (es ++ more)[k]? = some e := by
  rw [List.getElem?_append_left]
  · exact h
  · by_contra hc
    rw [List.getElem?_eq_none (by omega)] at h
    cases h

theorem thermalZone_at (i : ℕ) (z : Zone) (h : Header ℚ) (hr : Ready h) (hz : z.dryBulb = none) :
    ∃ z' h', thermalZone i z h = .ok (z', h') ∧ Ready h' ∧
      h'.elements = h.elements ++ [elementOf (.dryBulb i)] ∧
      z'.infiltrationVolume = z.infiltrationVolume ∧ z'.infiltrationTemperature = z.infiltrationTemperature ∧
      ∃ k, z'.dryBulb = some k ∧ h'.elements[k]? = some (elementOf (.dryBulb i)) := by
  obtain ⟨h', e1, e2, e3⟩ := pushed_physical hr (elementOf (.dryBulb i)) 22 (physical _).1 (physical _).2
  refine ⟨{ z with dryBulb := some h.elements.length }, h', ?_, e2, e3, rfl, rfl, h.elements.length, rfl, by rw [e3]; simp⟩
  rw [thermalZone, show Element.spaceDryBulbTemperature i = elementOf (.dryBulb i) from rfl, e1]
  simp [Outcome.bind, hz, setIndex]

theorem airZone_at (i : ℕ) (z : Zone) (h : Header ℚ) (hr : Ready h) (h1 : z.infiltrationVolume = none)
    (h2 : z.infiltrationTemperature = none) :
    ∃ z' h', airZone i z h = .ok (z', h') ∧ Ready h' ∧
      h'.elements = h.elements ++ [elementOf (.infiltrationVolume i), elementOf (.infiltrationTemperature i)] ∧
      z'.dryBulb = z.dryBulb ∧
      (∃ k, z'.infiltrationVolume = some k ∧ h'.elements[k]? = some (elementOf (.infiltrationVolume i))) ∧
      ∃ k, z'.infiltrationTemperature = some k ∧ h'.elements[k]? = some (elementOf (.infiltrationTemperature i)) := by
  obtain ⟨g1, e1, r1, l1⟩ := pushed_physical hr (elementOf (.infiltrationVolume i)) 0 (physical _).1 (physical _).2
  obtain ⟨g2, e2, r2, l2⟩ := pushed_physical r1 (elementOf (.infiltrationTemperature i)) 0 (physical _).1 (physical _).2
  refine ⟨{ z with infiltrationVolume := some h.elements.length, infiltrationTemperature := some g1.elements.length },
    g2, ?_, r2, by rw [l2, l1]; simp, rfl, ⟨h.elements.length, rfl, ?_⟩, g1.elements.length, rfl, by rw [l2]; simp⟩
  · rw [airZone, show Element.spaceInfiltrationVolume i = elementOf (.infiltrationVolume i) from rfl, e1]
    simp only [Outcome.bind, h1, setIndex]
    rw [show Element.spaceInfiltrationTemperature i = elementOf (.infiltrationTemperature i) from rfl, e2]
    simp only [h2]
  · rw [l2, l1]
    simp

/-- The fields that openings get. -/
def SolarFields : Side → Quantity → Prop := fun _ q => q = .sun ∨ q = .infrared

theorem solarWall_skip (kind : Kind) (i : ℕ) {w : Wall} (h : Header ℚ) {es : List Element} {nodes : Prop}
    (hw : WallAt es kind i AllFields nodes w) : solarWall kind i w h = .ok (w, h) := by
  unfold solarWall
  simp only [ensure_skip (s := .front) (q := .sun) hw trivial, ensure_skip (s := .back) (q := .sun) hw trivial,
    ensure_skip (s := .front) (q := .infrared) hw trivial, ensure_skip (s := .back) (q := .infrared) hw trivial,
    Outcome.bind]

theorem solarWall_opening (kind : Kind) (i : ℕ) {w : Wall} {h : Header ℚ} (hr : Ready h)
    (hw : WallAt h.elements kind i (fun _ _ => False) False w) :
    ∃ w' h', solarWall kind i w h = .ok (w', h') ∧ Ready h' ∧ w'.opening = w.opening ∧ w'.nodes = w.nodes ∧
      h'.elements = h.elements ++ [elementOf (.wall kind i .front .sun), elementOf (.wall kind i .back .sun),
        elementOf (.wall kind i .front .infrared), elementOf (.wall kind i .back .infrared)] ∧
      WallAt h'.elements kind i SolarFields False w' := by
  obtain ⟨w5, g5, e5, r5, o5, n5, l5, a5⟩ := ensure_at (s := .front) (q := .sun) hr hw (by simp)
  obtain ⟨w6, g6, e6, r6, o6, n6, l6, a6⟩ := ensure_at (s := .back) (q := .sun) r5 a5 (by simp)
  obtain ⟨w7, g7, e7, r7, o7, n7, l7, a7⟩ := ensure_at (s := .front) (q := .infrared) r6 a6 (by simp)
  obtain ⟨w8, g8, e8, r8, o8, n8, l8, a8⟩ := ensure_at (s := .back) (q := .infrared) r7 a7 (by simp)
  refine ⟨w8, g8, ?_, r8, ?_, ?_, ?_, a8.congr ?_⟩
  · unfold solarWall
    simp only [e5, e6, e7, e8, Outcome.bind]
  · rw [o8, o7, o6, o5]
  · rw [n8, n7, n6, n5]
  · rw [l8, l7, l6, l5]
    simp
  · intro s q
    cases s <;> cases q <;> simp [SolarFields]

theorem ofAll_nil {α : Type} (i : ℕ) (l : List α) : ofAll (fun _ _ => []) i l = [] := by
  induction l generalizing i with
  | nil => rfl
  | cons a l ih => rw [ofAll, ih]; rfl

theorem ofAll_congr {α β : Type} (f : ℕ → α → List Element) (g : ℕ → β → List Element) : ∀ (l : List α) (l' : List β) (i : ℕ),
    l'.length = l.length → (∀ (j : ℕ) a b, l[j]? = some a → l'[j]? = some b → f (i + j) a = g (i + j) b) →
    ofAll f i l = ofAll g i l'
  | [], [], _, _, _ => rfl
  | [], _ :: _, _, h, _ => by simp at h
  | _ :: _, [], _, h, _ => by simp at h
  | a :: l, b :: l', i, h, hh => by
    rw [ofAll, ofAll, ofAll_congr f g l l' (i + 1) (by simpa using h) (fun j a b h1 h2 => by
      have := hh (j + 1) a b (by simpa using h1) (by simpa using h2)
      rwa [show i + (j + 1) = i + 1 + j by omega] at this)]
    have := hh 0 a b (by simp) (by simp)
    rw [Nat.add_zero] at this
    rw [this]

/-! ## The property -/

/-- C90: for a building whose objects have no places yet and a state that still takes values, building the models of
heat, air and sun succeeds; it adds to the state exactly the elements of `layout`, in this order; the objects are as
before apart from their places; the place of every quantity that the building has holds its own element; the last
node of a wall is the one after all its others; and the quantities of openings that the building does not have have no
place. -/
theorem C90_wired (calculated : Bool) (o : Objects) (h : Header ℚ) (hv : h.defaultValues ≠ none) (hf : Fresh o) :
    ∃ o' h', physicsNew calculated o h = .ok (o', h') ∧ h'.elements = h.elements ++ layout calculated o ∧
      o'.spaces.length = o.spaces.length ∧
      (∀ kind, (walls o' kind).map (fun w => (w.opening, w.nodes)) = (walls o kind).map fun w => (w.opening, w.nodes)) ∧
      (∀ s, Has calculated o s → ∃ k, place o' s = some k ∧ h'.elements[k]? = some (elementOf s)) ∧
      (∀ (kind : Kind) (i : ℕ) (w : Wall), (walls o' kind)[i]? = some w → ¬(kind = .fenestration ∧ w.opening = true) →
        ∃ a, w.first = some a ∧ w.last = some (a + w.nodes - 1)) ∧
      ∀ kind i side q, ¬Has calculated o (.wall kind i side q) → place o' (.wall kind i side q) = none := by
  -- heat: spaces
  obtain ⟨z1, g1, e1, r1, l1, n1, q1⟩ := each_at thermalZone (fun i _ => [elementOf (.dryBulb i)])
    (fun _ _ z => z.dryBulb = none)
    (fun i es z z' => z'.infiltrationVolume = z.infiltrationVolume ∧ z'.infiltrationTemperature = z.infiltrationTemperature ∧
      ∃ k, z'.dryBulb = some k ∧ es[k]? = some (elementOf (.dryBulb i)))
    (fun _ _ _ _ p => p) (fun i es more z z' q => ⟨q.1, q.2.1, q.2.2.imp fun k hk => ⟨hk.1, getElem?_up hk.2⟩⟩)
    (fun i z h hr hz => thermalZone_at i z h hr hz) o.spaces 0 h hv (fun j z hj => (hf.spaces z (List.mem_of_getElem? hj)).1)
  -- heat: surfaces
  obtain ⟨s2, g2, e2, r2, l2, n2, q2⟩ := each_at (thermalWall .surface) (ofWall .surface)
    (fun _ _ w => w.first = none ∧ w.last = none ∧ ∀ s q, w.field s q = none)
    (fun i es w w' => (w'.opening = w.opening ∧ w'.nodes = w.nodes) ∧ WallAt es .surface i AllFields True w')
    (fun _ _ _ _ p => p) (fun i es more w w' q => ⟨q.1, q.2.append more⟩)
    (fun i w h hr hw => by
      obtain ⟨w', h', a, b, c, d, e, f⟩ := thermalWall_at .surface i hr hw.1 hw.2.1 hw.2.2
      exact ⟨w', h', a, b, e, ⟨c, d⟩, f⟩) o.surfaces 0 g1 r1
    (fun j w hj => hf.walls .surface w (List.mem_of_getElem? hj))
  -- heat: fenestrations
  obtain ⟨f3, g3, e3, r3, l3, n3, q3⟩ := each_at thermalFenestration
    (fun i w => if w.opening then [] else ofWall .fenestration i w)
    (fun _ _ w => w.first = none ∧ w.last = none ∧ ∀ s q, w.field s q = none)
    (fun i es w w' => (w'.opening = w.opening ∧ w'.nodes = w.nodes) ∧
      if w.opening then WallAt es .fenestration i (fun _ _ => False) False w'
      else WallAt es .fenestration i AllFields True w')
    (fun _ _ _ _ p => p) (fun i es more w w' q => ⟨q.1, by
      by_cases ho : w.opening = true
      · have := q.2
        rw [if_pos ho] at this ⊢
        exact this.append more
      · have := q.2
        rw [if_neg ho] at this ⊢
        exact this.append more⟩)
    (fun i w h hr hw => by
      by_cases ho : w.opening = true
      · refine ⟨w, h, by rw [thermalFenestration, if_pos ho], hr, by rw [if_pos ho]; simp, ⟨rfl, rfl⟩, ?_⟩
        rw [if_pos ho]
        exact WallAt.fresh _ _ _ hw.1 hw.2.1 hw.2.2
      · obtain ⟨w', h', a, b, c, d, e, f⟩ := thermalWall_at .fenestration i hr hw.1 hw.2.1 hw.2.2
        refine ⟨w', h', by rw [thermalFenestration, if_neg ho]; exact a, b, by rw [if_neg ho]; exact e, ⟨c, d⟩, ?_⟩
        rw [if_neg ho]
        exact f) o.fenestrations 0 g2 r2
    (fun j w hj => hf.walls .fenestration w (List.mem_of_getElem? hj))
  -- air
  obtain ⟨z4, g4, e4, r4, l4, n4, q4⟩ := each_at airZone
    (fun i _ => [elementOf (.infiltrationVolume i), elementOf (.infiltrationTemperature i)])
    (fun i es z => (z.infiltrationVolume = none ∧ z.infiltrationTemperature = none) ∧
      ∃ k, z.dryBulb = some k ∧ es[k]? = some (elementOf (.dryBulb i)))
    (fun i es _ z' => (∃ k, z'.dryBulb = some k ∧ es[k]? = some (elementOf (.dryBulb i))) ∧
      (∃ k, z'.infiltrationVolume = some k ∧ es[k]? = some (elementOf (.infiltrationVolume i))) ∧
      ∃ k, z'.infiltrationTemperature = some k ∧ es[k]? = some (elementOf (.infiltrationTemperature i)))
    (fun i es more z p => ⟨p.1, p.2.imp fun k hk => ⟨hk.1, getElem?_up hk.2⟩⟩)
    (fun i es more z z' q => ⟨q.1.imp fun k hk => ⟨hk.1, getElem?_up hk.2⟩, q.2.1.imp fun k hk => ⟨hk.1, getElem?_up hk.2⟩,
      q.2.2.imp fun k hk => ⟨hk.1, getElem?_up hk.2⟩⟩)
    (fun i z h hr hz => by
      obtain ⟨z', h', a, b, c, d, e, f⟩ := airZone_at i z h hr hz.1.1 hz.1.2
      refine ⟨z', h', a, b, c, ?_, e, f⟩
      obtain ⟨k, k1, k2⟩ := hz.2
      exact ⟨k, by rw [d]; exact k1, by rw [c]; exact getElem?_up k2⟩) z1 0 g3 r3
    (fun j z hj => by
      have hj' : j < o.spaces.length := by
        rw [← n1]
        by_contra hc
        rw [List.getElem?_eq_none (by omega)] at hj
        cases hj
      obtain ⟨z', y1, y2, y3, k, k1, k2⟩ := q1 j _ (List.getElem?_eq_getElem hj')
      rw [hj] at y1
      cases y1
      have hfz := hf.spaces _ (List.getElem_mem hj')
      refine ⟨⟨y2.trans hfz.2.1, y3.trans hfz.2.2⟩, k, k1, ?_⟩
      rw [l3, l2]
      exact getElem?_up (getElem?_up k2))
  have heat : heatNew o h = .ok (⟨z1, s2, f3⟩, g3) := by
    unfold heatNew
    simp only [e1, e2, e3, Outcome.bind]
  have air : airNew ⟨z1, s2, f3⟩ g3 = .ok (⟨z4, s2, f3⟩, g4) := by
    unfold airNew
    simp only [e4, Outcome.bind]
  have hz41 : ofAll (fun (i : ℕ) (_ : Zone) => [elementOf (.infiltrationVolume i), elementOf (.infiltrationTemperature i)]) 0 z1 =
      ofAll (fun i _ => [elementOf (.infiltrationVolume i), elementOf (.infiltrationTemperature i)]) 0 o.spaces :=
    ofAll_congr _ _ _ _ _ n1.symm (fun _ _ _ _ _ => rfl)
  -- sun: surfaces
  have sun1 : each (solarWall .surface) 0 s2 g4 = .ok (s2, g4) := by
    have : ∀ (l : List Wall) (i : ℕ), (∀ (j : ℕ) (w : Wall), l[j]? = some w → ∃ es, WallAt es .surface (i + j) AllFields True w) →
        each (solarWall .surface) i l g4 = .ok (l, g4) := by
      intro l
      induction l with
      | nil => intro i _; rfl
      | cons w l ih =>
        intro i hl
        obtain ⟨es, hw⟩ := hl 0 w (by simp)
        rw [each, solarWall_skip .surface i g4 hw]
        simp only [Outcome.bind]
        rw [ih (i + 1) (fun j w' hj => by
          have := hl (j + 1) w' (by simpa using hj)
          rwa [show i + (j + 1) = i + 1 + j by omega] at this)]
    apply this
    intro j w hj
    have hj' : j < o.surfaces.length := by
      rw [← n2]
      by_contra hc
      rw [List.getElem?_eq_none (by omega)] at hj
      cases hj
    obtain ⟨w', y1, y2, y3⟩ := q2 j _ (List.getElem?_eq_getElem hj')
    rw [hj] at y1
    cases y1
    exact ⟨_, y3⟩
  -- sun: fenestrations
  obtain ⟨f5, g5, e5, r5, l5, n5, q5⟩ := each_at (solarWall .fenestration)
    (fun i w => if w.opening then
        [elementOf (.wall .fenestration i .front .sun), elementOf (.wall .fenestration i .back .sun),
          elementOf (.wall .fenestration i .front .infrared), elementOf (.wall .fenestration i .back .infrared)]
      else [])
    (fun i es w => if w.opening then WallAt es .fenestration i (fun _ _ => False) False w
      else WallAt es .fenestration i AllFields True w)
    (fun i es w w' => (w'.opening = w.opening ∧ w'.nodes = w.nodes) ∧
      if w.opening then WallAt es .fenestration i SolarFields False w'
      else WallAt es .fenestration i AllFields True w')
    (fun i es more w p => by
      by_cases ho : w.opening = true
      · rw [if_pos ho] at p ⊢
        exact p.append more
      · rw [if_neg ho] at p ⊢
        exact p.append more)
    (fun i es more w w' q => ⟨q.1, by
      by_cases ho : w.opening = true
      · have := q.2
        rw [if_pos ho] at this ⊢
        exact this.append more
      · have := q.2
        rw [if_neg ho] at this ⊢
        exact this.append more⟩)
    (fun i w h hr hw => by
      by_cases ho : w.opening = true
      · rw [if_pos ho] at hw
        obtain ⟨w', h', a, b, c, d, e, f⟩ := solarWall_opening .fenestration i hr hw
        refine ⟨w', h', a, b, by rw [if_pos ho]; exact e, ⟨c, d⟩, ?_⟩
        rw [if_pos ho]
        exact f
      · rw [if_neg ho] at hw
        refine ⟨w, h, solarWall_skip _ _ _ hw, hr, by rw [if_neg ho]; simp, ⟨rfl, rfl⟩, ?_⟩
        rw [if_neg ho]
        exact hw) f3 0 g4 r4
    (fun j w hj => by
      have hj' : j < o.fenestrations.length := by
        rw [← n3]
        by_contra hc
        rw [List.getElem?_eq_none (by omega)] at hj
        cases hj
      obtain ⟨w', y1, y2, y3⟩ := q3 j _ (List.getElem?_eq_getElem hj')
      rw [hj] at y1
      cases y1
      by_cases ho : w.opening = true
      · rw [if_pos ho]
        rw [if_pos (y2.1 ▸ ho)] at y3
        rw [l4]
        exact y3.append _
      · rw [if_neg ho]
        rw [if_neg (by rw [← y2.1]; exact ho)] at y3
        rw [l4]
        exact y3.append _)
  have hfen : ∀ (j : ℕ) (w : Wall), o.fenestrations[j]? = some w → ∃ w3, f3[j]? = some w3 ∧
      (w3.opening = w.opening ∧ w3.nodes = w.nodes) := by
    intro j w hj
    obtain ⟨w', y1, y2, -⟩ := q3 j w hj
    exact ⟨w', y1, y2⟩
  have hl5 : ofAll (fun (i : ℕ) (w : Wall) => if w.opening then
        [elementOf (.wall .fenestration i .front .sun), elementOf (.wall .fenestration i .back .sun),
          elementOf (.wall .fenestration i .front .infrared), elementOf (.wall .fenestration i .back .infrared)]
      else []) 0 f3 = ofAll (fun (i : ℕ) (w : Wall) => if w.opening then
        [elementOf (.wall .fenestration i .front .sun), elementOf (.wall .fenestration i .back .sun),
          elementOf (.wall .fenestration i .front .infrared), elementOf (.wall .fenestration i .back .infrared)]
      else []) 0 o.fenestrations := by
    apply ofAll_congr _ _ _ _ _ n3.symm
    intro j a b ha hb
    obtain ⟨w3, y1, y2⟩ := hfen j b hb
    rw [ha] at y1
    cases y1
    rw [y2.1]
  have maps : ∀ (l l' : List Wall), l'.length = l.length → (∀ (j : ℕ) (w : Wall), l[j]? = some w → ∃ w', l'[j]? = some w' ∧
      (w'.opening = w.opening ∧ w'.nodes = w.nodes)) →
      l'.map (fun w => (w.opening, w.nodes)) = l.map fun w => (w.opening, w.nodes) := by
    intro l l' hl hh
    apply List.ext_getElem (by simp [hl])
    intro j h1 h2
    simp only [List.length_map] at h1 h2
    obtain ⟨w', y1, y2⟩ := hh j _ (List.getElem?_eq_getElem h2)
    rw [List.getElem?_eq_getElem h1] at y1
    cases y1
    simp [y2.1, y2.2]
  -- the places, given the fenestrations at the end
  have key : ∀ (f6 : List Wall) (g6 : Header ℚ), (∃ more, g6.elements = g4.elements ++ more) →
      f6.length = o.fenestrations.length →
      (∀ (j : ℕ) (w : Wall), o.fenestrations[j]? = some w → ∃ w6, f6[j]? = some w6 ∧
        (w6.opening = w.opening ∧ w6.nodes = w.nodes) ∧
        (w.opening = true → WallAt g6.elements .fenestration j (fun s q => calculated = true ∧ SolarFields s q) False w6) ∧
        (w.opening = false → WallAt g6.elements .fenestration j AllFields True w6)) →
      (∀ s, Has calculated o s → ∃ k, place ⟨z4, s2, f6⟩ s = some k ∧ g6.elements[k]? = some (elementOf s)) ∧
      (∀ (kind : Kind) (i : ℕ) (w : Wall), (walls ⟨z4, s2, f6⟩ kind)[i]? = some w →
        ¬(kind = .fenestration ∧ w.opening = true) → ∃ a, w.first = some a ∧ w.last = some (a + w.nodes - 1)) ∧
      ∀ kind i side q, ¬Has calculated o (.wall kind i side q) → place ⟨z4, s2, f6⟩ (.wall kind i side q) = none := by
    rintro f6 g6 ⟨more, hg6⟩ n6 hf6
    have space : ∀ i, i < o.spaces.length → ∃ z, z4[i]? = some z ∧
        (∃ k, z.dryBulb = some k ∧ g6.elements[k]? = some (elementOf (.dryBulb i))) ∧
        (∃ k, z.infiltrationVolume = some k ∧ g6.elements[k]? = some (elementOf (.infiltrationVolume i))) ∧
        ∃ k, z.infiltrationTemperature = some k ∧ g6.elements[k]? = some (elementOf (.infiltrationTemperature i)) := by
      intro i hi
      rw [← n1] at hi
      obtain ⟨z, y1, y2, y3, y4⟩ := q4 i _ (List.getElem?_eq_getElem hi)
      rw [Nat.zero_add] at y2 y3 y4
      rw [hg6]
      exact ⟨z, y1, y2.imp fun k hk => ⟨hk.1, getElem?_up hk.2⟩, y3.imp fun k hk => ⟨hk.1, getElem?_up hk.2⟩,
        y4.imp fun k hk => ⟨hk.1, getElem?_up hk.2⟩⟩
    have surf : ∀ (i : ℕ) (w : Wall), o.surfaces[i]? = some w → ∃ w', s2[i]? = some w' ∧ w'.nodes = w.nodes ∧
        WallAt g6.elements .surface i AllFields True w' := by
      intro i w hw
      obtain ⟨w', y1, y2, y3⟩ := q2 i w hw
      rw [Nat.zero_add] at y3
      refine ⟨w', y1, y2.2, ?_⟩
      rw [hg6, l4, l3, List.append_assoc, List.append_assoc]
      exact y3.append _
    have inside : ∀ {l : List Wall} {i : ℕ} {w : Wall}, l[i]? = some w → i < l.length := by
      intro l i w hw
      by_contra hc
      rw [List.getElem?_eq_none (by omega)] at hw
      cases hw
    refine ⟨fun s hs => ?_, fun kind i w hw ho => ?_, fun kind i side q hs => ?_⟩
    rotate_left
    · cases kind with
      | surface =>
        have hi := inside hw
        simp only [walls] at hi
        rw [n2] at hi
        obtain ⟨w', y1, -, y3⟩ := surf i _ (List.getElem?_eq_getElem hi)
        simp only [walls] at hw
        rw [hw] at y1
        cases y1
        obtain ⟨a, a1, a2, -⟩ := y3.nodes_yes trivial
        exact ⟨a, a1, a2⟩
      | fenestration =>
        have hi := inside hw
        simp only [walls] at hi
        rw [n6] at hi
        obtain ⟨w', y1, y2, -, y4⟩ := hf6 i _ (List.getElem?_eq_getElem hi)
        simp only [walls] at hw
        rw [hw] at y1
        cases y1
        obtain ⟨a, a1, a2, -⟩ := (y4 (by rw [← y2.1]; simpa using ho)).nodes_yes trivial
        exact ⟨a, a1, a2⟩
    · cases kind with
      | surface =>
        by_cases hi : i < o.surfaces.length
        · exact absurd ⟨_, List.getElem?_eq_getElem hi, fun h => by cases h.1⟩ hs
        · simp [place, walls, List.getElem?_eq_none (show s2.length ≤ i by rw [n2]; omega)]
      | fenestration =>
        by_cases hi : i < o.fenestrations.length
        · obtain ⟨w', y1, -, y3, -⟩ := hf6 i _ (List.getElem?_eq_getElem hi)
          have ho : (o.fenestrations[i]).opening = true := by
            by_contra hc
            exact hs ⟨_, List.getElem?_eq_getElem hi, fun h => absurd h.2 hc⟩
          have := (y3 ho).no side q (fun hq => hs ⟨_, List.getElem?_eq_getElem hi, fun _ => ⟨hq.1, hq.2⟩⟩)
          simp [place, walls, y1, this]
        · simp [place, walls, List.getElem?_eq_none (show f6.length ≤ i by rw [n6]; omega)]
    cases s with
    | dryBulb i =>
      obtain ⟨z, hz, ⟨k, k1, k2⟩, -⟩ := space i hs
      exact ⟨k, by simp [place, hz, k1], k2⟩
    | infiltrationVolume i =>
      obtain ⟨z, hz, -, ⟨k, k1, k2⟩, -⟩ := space i hs
      exact ⟨k, by simp [place, hz, k1], k2⟩
    | infiltrationTemperature i =>
      obtain ⟨z, hz, -, -, ⟨k, k1, k2⟩⟩ := space i hs
      exact ⟨k, by simp [place, hz, k1], k2⟩
    | wall kind i side q =>
      obtain ⟨w, hw, hq⟩ := hs
      cases kind with
      | surface =>
        obtain ⟨w', y1, -, y3⟩ := surf i w hw
        obtain ⟨k, k1, k2⟩ := y3.yes side q trivial
        exact ⟨k, by simp [place, walls, y1, k1], k2⟩
      | fenestration =>
        obtain ⟨w', y1, -, y3, y4⟩ := hf6 i w hw
        by_cases ho : w.opening = true
        · obtain ⟨hc, hq⟩ := hq ⟨rfl, ho⟩
          obtain ⟨k, k1, k2⟩ := (y3 ho).yes side q ⟨hc, hq⟩
          exact ⟨k, by simp [place, walls, y1, k1], k2⟩
        · obtain ⟨k, k1, k2⟩ := (y4 (by simpa using ho)).yes side q trivial
          exact ⟨k, by simp [place, walls, y1, k1], k2⟩
    | node kind i j =>
      obtain ⟨w, hw, ho, hj⟩ := hs
      cases kind with
      | surface =>
        obtain ⟨w', y1, y2, y3⟩ := surf i w hw
        obtain ⟨a, a1, -, a3⟩ := y3.nodes_yes trivial
        exact ⟨a + j, by simp [place, walls, y1, a1], a3 j (by rw [y2]; exact hj)⟩
      | fenestration =>
        obtain ⟨w', y1, y2, -, y4⟩ := hf6 i w hw
        obtain ⟨a, a1, -, a3⟩ := (y4 (by simpa using ho)).nodes_yes trivial
        exact ⟨a + j, by simp [place, walls, y1, a1], a3 j (by rw [y2.2]; exact hj)⟩
  cases calculated with
  | true =>
    refine ⟨⟨z4, s2, f5⟩, g5, ?_, ?_, n4.trans n1, ?_, key f5 g5 ⟨_, l5⟩ (n5.trans n3) ?_⟩
    · unfold physicsNew
      simp only [heat, air, Outcome.bind, solarNew, if_true, sun1, e5]
    · rw [l5, l4, l3, l2, l1, hz41, hl5]
      simp [layout, List.append_assoc]
    · intro kind
      cases kind with
      | surface => exact maps _ _ n2 (fun j w hj => (q2 j w hj).imp fun w' y => ⟨y.1, y.2.1⟩)
      | fenestration =>
        refine maps _ _ (n5.trans n3) (fun j w hj => ?_)
        obtain ⟨w3, y1, y2⟩ := hfen j w hj
        obtain ⟨w5, x1, x2, -⟩ := q5 j w3 y1
        exact ⟨w5, x1, x2.1.trans y2.1, x2.2.trans y2.2⟩
    · intro j w hj
      obtain ⟨w3, y1, y2⟩ := hfen j w hj
      obtain ⟨w5, x1, x2, x3⟩ := q5 j w3 y1
      rw [Nat.zero_add, y2.1] at x3
      refine ⟨w5, x1, ⟨x2.1.trans y2.1, x2.2.trans y2.2⟩, fun ho => ?_, fun ho => ?_⟩
      · rw [if_pos ho] at x3
        exact x3.congr (fun s q => by simp)
      · rwa [if_neg (by simp [ho])] at x3
  | false =>
    refine ⟨⟨z4, s2, f3⟩, g4, ?_, ?_, n4.trans n1, ?_, key f3 g4 ⟨[], by simp⟩ n3 ?_⟩
    · unfold physicsNew
      simp only [heat, air, Outcome.bind, solarNew]
      rfl
    · rw [l4, l3, l2, l1, hz41]
      simp [layout, List.append_assoc]
    · intro kind
      cases kind with
      | surface => exact maps _ _ n2 (fun j w hj => (q2 j w hj).imp fun w' y => ⟨y.1, y.2.1⟩)
      | fenestration => exact maps _ _ n3 hfen
    · intro j w hj
      obtain ⟨w3, y1, y2, y3⟩ := q3 j w hj
      rw [Nat.zero_add] at y3
      refine ⟨w3, y1, y2, fun ho => ?_, fun ho => ?_⟩
      · rw [if_pos ho] at y3
        rw [l4]
        exact (y3.append _).congr (fun s q => by simp)
      · rw [if_neg (by simp [ho])] at y3
        rw [l4]
        exact y3.append _

/-- Different quantities are different elements. -/
theorem elementOf_injective : Function.Injective elementOf := by
  intro s t h
  cases s with
  | wall k i a q =>
    cases t with
    | wall k' i' a' q' =>
      cases k <;> cases k' <;> cases a <;> cases a' <;> cases q <;> cases q' <;> simp [elementOf] at h ⊢ <;> exact h
    | node k' i' j' => cases k <;> cases k' <;> cases a <;> cases q <;> simp [elementOf] at h
    | dryBulb i' => cases k <;> cases a <;> cases q <;> simp [elementOf] at h
    | infiltrationVolume i' => cases k <;> cases a <;> cases q <;> simp [elementOf] at h
    | infiltrationTemperature i' => cases k <;> cases a <;> cases q <;> simp [elementOf] at h
  | node k i j =>
    cases t with
    | wall k' i' a' q' => cases k <;> cases k' <;> cases a' <;> cases q' <;> simp [elementOf] at h
    | node k' i' j' => cases k <;> cases k' <;> simp [elementOf] at h ⊢ <;> exact h
    | dryBulb i' => cases k <;> simp [elementOf] at h
    | infiltrationVolume i' => cases k <;> simp [elementOf] at h
    | infiltrationTemperature i' => cases k <;> simp [elementOf] at h
  | dryBulb i =>
    cases t with
    | wall k' i' a' q' => cases k' <;> cases a' <;> cases q' <;> simp [elementOf] at h
    | node k' i' j' => cases k' <;> simp [elementOf] at h
    | _ => simp [elementOf] at h ⊢ <;> exact h
  | infiltrationVolume i =>
    cases t with
    | wall k' i' a' q' => cases k' <;> cases a' <;> cases q' <;> simp [elementOf] at h
    | node k' i' j' => cases k' <;> simp [elementOf] at h
    | _ => simp [elementOf] at h ⊢ <;> exact h
  | infiltrationTemperature i =>
    cases t with
    | wall k' i' a' q' => cases k' <;> cases a' <;> cases q' <;> simp [elementOf] at h
    | node k' i' j' => cases k' <;> simp [elementOf] at h
    | _ => simp [elementOf] at h ⊢ <;> exact h

/-- C90: in a building whose models were built, setting a quantity gives it the value and leaves all other quantities
of all objects, and the rest of the state, as they were. -/
theorem C90_set (calculated : Bool) (o o' : Objects) (h h' : Header ℚ) (hv : h.defaultValues ≠ none) (hf : Fresh o)
    (hn : physicsNew calculated o h = .ok (o', h')) (state : List ℚ) (hl : state.length = h'.elements.length)
    (s : Slot) (hs : Has calculated o s) (v : ℚ) :
    ∃ state', setValue (place o' s) v state = .ok state' ∧ state'.length = state.length ∧
      getValue (place o' s) state' = .ok (some v) ∧
      (∀ t, Has calculated o t → t ≠ s → getValue (place o' t) state' = getValue (place o' t) state) ∧
      ∀ i : ℕ, h'.elements[i]? ≠ some (elementOf s) → state'[i]? = state[i]? := by
  obtain ⟨o2, h2, w1, -, -, -, w3, -⟩ := C90_wired calculated o h hv hf
  rw [hn] at w1
  cases w1
  obtain ⟨k, k1, k2⟩ := w3 s hs
  have hk : k < state.length := by
    rw [hl]
    by_contra hc
    rw [List.getElem?_eq_none (by omega)] at k2
    cases k2
  refine ⟨state.set k v, ?_, by simp, ?_, ?_, ?_⟩
  · rw [k1, setValue, if_pos hk]
  · rw [k1, getValue]
    simp only [Outcome.index, List.getElem?_set_self hk, Outcome.map]
  · intro t ht hne
    obtain ⟨k', m1, m2⟩ := w3 t ht
    have : k ≠ k' := by
      rintro rfl
      rw [k2] at m2
      exact hne (elementOf_injective (Option.some.inj m2)).symm
    rw [m1, getValue, getValue]
    simp only [Outcome.index, List.getElem?_set_ne this]
  · intro i hi
    have : k ≠ i := by
      rintro rfl
      exact hi k2
    rw [List.getElem?_set_ne this]

/-- C90: a quantity without a place is not there: reading gives nothing, and setting is an error. -/
theorem C90_absent (v : ℚ) (state : List ℚ) : getValue none state = .ok none ∧ setValue none v state = .err :=
  ⟨rfl, rfl⟩

/-- C90: a building with a space whose models were built cannot be built again. -/
theorem C90_once (calculated : Bool) (o o' : Objects) (h h' h2 : Header ℚ) (hv : h.defaultValues ≠ none) (hf : Fresh o)
    (hn : physicsNew calculated o h = .ok (o', h')) (hs : o.spaces ≠ []) :
    ∀ r, physicsNew calculated o' h2 ≠ .ok r := by
  intro r hr
  obtain ⟨o3, h3, w1, -, w2, -, w3, -⟩ := C90_wired calculated o h hv hf
  rw [hn] at w1
  cases w1
  obtain ⟨k, k1, -⟩ := w3 (.dryBulb 0) (List.length_pos_iff.2 hs)
  cases hz : o'.spaces with
  | nil => rw [hz] at w2; exact hs (List.length_eq_zero_iff.1 (by simpa using w2.symm))
  | cons z l =>
    simp only [place, hz, List.getElem?_cons_zero, Option.bind_some] at k1
    unfold physicsNew heatNew at hr
    rw [hz, each, thermalZone, k1] at hr
    cases hp : pushed h2 (.spaceDryBulbTemperature 0) 22 with
    | ok p => rw [hp] at hr; simp [Outcome.bind, setIndex] at hr
    | err => rw [hp] at hr; simp [Outcome.bind] at hr
    | panic => rw [hp] at hr; simp [Outcome.bind] at hr

/-! ## Examples -/

/-- A space, a wall with three nodes and an opening. -/
def small : Objects :=
  ⟨[⟨none, none, none⟩], [⟨false, 3, fun _ _ => none, none, none⟩], [⟨true, 0, fun _ _ => none, none, none⟩]⟩

example : Fresh small ∧ (Header.new : Header ℚ).defaultValues ≠ none ∧ (layout true small).length = 18 ∧
    Has true small (.node .surface 0 2) ∧ Has true small (.wall .fenestration 0 .back .sun) ∧
    ¬Has true small (.wall .fenestration 0 .back .convection) := by
  refine ⟨⟨?_, ?_⟩, by simp [Header.new], by decide, ?_, ?_, ?_⟩
  · intro kind w hw
    cases kind <;> simp [walls, small] at hw <;> subst hw <;> simp
  · intro z hz
    simp [small] at hz
    subst hz
    simp
  · exact ⟨_, rfl, by simp [small, walls], by decide⟩
  · exact ⟨_, rfl, fun _ => ⟨rfl, Or.inl rfl⟩⟩
  · rintro ⟨w, hw, h⟩
    simp [walls, small] at hw
    subst hw
    simpa using h ⟨rfl, rfl⟩

end Simple.Wiring
