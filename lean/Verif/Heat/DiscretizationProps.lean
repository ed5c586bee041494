import Mathlib.Algebra.BigOperators.Group.List.Basic
import Mathlib.Algebra.Order.BigOperators.Group.List
import Mathlib.Tactic.NormNum
import Mathlib.Tactic.Ring
import Mathlib.Tactic.FieldSimp
import Mathlib.Tactic.Linarith
import Mathlib.Algebra.Order.Ring.Rat
import Verif.Heat.DiscretizationModel

/-! # C25, C26: discretisation of constructions -/

namespace Simple.Heat

set_option linter.unusedSectionVars false

variable {F : Type*}

/-! ## C26: chunks -/

namespace Spec

/-- `chunks` are the maximal runs, in order, of the numbers below `n` that satisfy `p`; the run
`(a, b)` is that of `a, …, b - 1`. -/
structure MaximalRuns (p : ℕ → Prop) (n : ℕ) (chunks : List (ℕ × ℕ)) : Prop where
  nonempty : ∀ c ∈ chunks, c.1 < c.2
  within : ∀ c ∈ chunks, c.2 ≤ n
  all : ∀ c ∈ chunks, ∀ i, c.1 ≤ i → i < c.2 → p i
  maximalLeft : ∀ c ∈ chunks, c.1 = 0 ∨ ¬ p (c.1 - 1)
  maximalRight : ∀ c ∈ chunks, c.2 = n ∨ ¬ p c.2
  ordered : chunks.Pairwise fun c c' => c.2 < c'.1
  cover : ∀ i < n, p i → ∃ c ∈ chunks, c.1 ≤ i ∧ i < c.2

end Spec

open Spec

private theorem chunkLoop_ok : ∀ (rest : List ℕ) (start prev : ℕ), start ≤ prev →
    (∀ i ∈ rest, prev < i) → rest.Pairwise (· < ·) →
    ∃ chunks, chunkLoop start prev rest = .ok chunks ∧
      (∀ c ∈ chunks, c.1 < c.2) ∧
      (∀ c ∈ chunks, ∀ i, c.1 ≤ i → i < c.2 → (start ≤ i ∧ i ≤ prev) ∨ i ∈ rest) ∧
      (∀ c ∈ chunks, c.1 = start ∨ (prev + 1 < c.1 ∧ c.1 - 1 ∉ rest)) ∧
      (∀ c ∈ chunks, prev < c.2 ∧ c.2 ∉ rest) ∧
      chunks.Pairwise (fun c c' => c.2 < c'.1) ∧
      (∀ i, ((start ≤ i ∧ i ≤ prev) ∨ i ∈ rest) → ∃ c ∈ chunks, c.1 ≤ i ∧ i < c.2)
  | [], start, prev, h, _, _ => by
    refine ⟨[(start, prev + 1)], rfl, ?_, ?_, ?_, ?_, by simp, ?_⟩
    · simp; omega
    · simp; omega
    · simp
    · simp
    · simp; omega
  | i :: rest, start, prev, h, hgt, hp => by
    have hi : prev < i := hgt i (by simp)
    rw [List.pairwise_cons] at hp
    rw [chunkLoop, if_pos (by omega), if_pos hi]
    by_cases hc : i - prev = 1
    · rw [if_pos hc]
      obtain ⟨ch, h0, h1, h2, h3, h4, h5, h6⟩ := chunkLoop_ok rest start i (by omega) hp.1 hp.2
      refine ⟨ch, h0, h1, ?_, ?_, ?_, h5, ?_⟩
      · intro c hcm j hj hj'
        rcases h2 c hcm j hj hj' with ⟨a, b⟩ | b
        · by_cases hji : j = i
          · right; simp [hji]
          · left; omega
        · right; simp [b]
      · intro c hcm
        rcases h3 c hcm with a | ⟨a, b⟩
        · exact .inl a
        · refine .inr ⟨by omega, ?_⟩
          simp only [List.mem_cons, not_or]
          exact ⟨by omega, b⟩
      · intro c hcm
        obtain ⟨a, b⟩ := h4 c hcm
        refine ⟨by omega, ?_⟩
        simp only [List.mem_cons, not_or]
        exact ⟨by omega, b⟩
      · intro j hj
        apply h6
        rcases hj with ⟨a, b⟩ | b
        · left; omega
        · rcases List.mem_cons.1 b with b | b
          · left; omega
          · right; exact b
    · rw [if_neg hc]
      obtain ⟨ch, h0, h1, h2, h3, h4, h5, h6⟩ := chunkLoop_ok rest i i le_rfl hp.1 hp.2
      rw [h0]
      have hstart : ∀ c ∈ ch, i ≤ c.1 := by
        intro c hcm
        rcases h3 c hcm with a | ⟨a, _⟩ <;> omega
      refine ⟨(start, prev + 1) :: ch, rfl, ?_, ?_, ?_, ?_, ?_, ?_⟩
      · intro c hcm
        rcases List.mem_cons.1 hcm with rfl | hcm
        · show start < prev + 1; omega
        · exact h1 c hcm
      · intro c hcm j hj hj'
        rcases List.mem_cons.1 hcm with rfl | hcm
        · left; simp only at hj hj'; omega
        · right
          rcases h2 c hcm j hj hj' with ⟨a, b⟩ | b
          · simp; omega
          · simp [b]
      · intro c hcm
        rcases List.mem_cons.1 hcm with rfl | hcm
        · exact .inl rfl
        · right
          have := hstart c hcm
          refine ⟨by omega, ?_⟩
          simp only [List.mem_cons, not_or]
          refine ⟨?_, ?_⟩
          · rcases h3 c hcm with a | ⟨a, _⟩ <;> omega
          · rcases h3 c hcm with a | ⟨_, b⟩
            · intro hm; have := hp.1 _ hm; omega
            · exact b
      · intro c hcm
        rcases List.mem_cons.1 hcm with rfl | hcm
        · refine ⟨Nat.lt_succ_self _, ?_⟩
          simp only [List.mem_cons, not_or]
          exact ⟨by omega, fun hm => by have := hp.1 _ hm; omega⟩
        · obtain ⟨a, b⟩ := h4 c hcm
          refine ⟨by omega, ?_⟩
          simp only [List.mem_cons, not_or]
          exact ⟨by omega, b⟩
      · rw [List.pairwise_cons]
        refine ⟨fun c hcm => ?_, h5⟩
        have := hstart c hcm
        show prev + 1 < c.1
        omega
      · intro j hj
        rcases hj with ⟨a, b⟩ | b
        · exact ⟨(start, prev + 1), by simp, a, by show j < prev + 1; omega⟩
        · obtain ⟨c, hcm, hc'⟩ := h6 j (by
            rcases List.mem_cons.1 b with b | b
            · left; omega
            · right; exact b)
          exact ⟨c, List.mem_cons_of_mem _ hcm, hc'⟩

private theorem chunkSegments_ok (l : List ℕ) (n : ℕ) (hl : l.Pairwise (· < ·)) (hn : ∀ i ∈ l, i < n) :
    ∃ chunks, chunkSegments l = .ok chunks ∧ MaximalRuns (· ∈ l) n chunks := by
  cases l with
  | nil => exact ⟨[], rfl, ⟨by simp, by simp, by simp, by simp, by simp, by simp, by simp⟩⟩
  | cons a rest =>
    rw [List.pairwise_cons] at hl
    obtain ⟨ch, h0, h1, h2, h3, h4, h5, h6⟩ := chunkLoop_ok rest a a le_rfl hl.1 hl.2
    refine ⟨ch, h0, ⟨h1, ?_, ?_, ?_, ?_, h5, ?_⟩⟩
    · intro c hc
      have h := h1 c hc
      have : c.2 - 1 ∈ a :: rest := by
        rcases h2 c hc (c.2 - 1) (by omega) (by omega) with x | x
        · simp; omega
        · simp [x]
      have := hn _ this
      omega
    · intro c hc i hi hi'
      rcases h2 c hc i hi hi' with x | x
      · simp; omega
      · simp [x]
    · intro c hc
      by_cases h : c.1 = 0
      · exact .inl h
      right
      simp only [List.mem_cons, not_or]
      rcases h3 c hc with x | ⟨x, y⟩
      · exact ⟨by omega, fun hm => by have := hl.1 _ hm; omega⟩
      · exact ⟨by omega, y⟩
    · intro c hc
      right
      obtain ⟨x, y⟩ := h4 c hc
      simp only [List.mem_cons, not_or]
      exact ⟨by omega, y⟩
    · intro i _ hi
      apply h6
      rcases List.mem_cons.1 hi with x | x
      · left; omega
      · right; exact x

section
variable [Field F] [LinearOrder F]

private theorem mem_indices (l : List (F × UValue F)) (P : F → Prop) [DecidablePred P] (i : ℕ) :
    (i ∈ l.zipIdx.filterMap fun p => if P p.1.1 then some p.2 else none) ↔
      ∃ s, l[i]? = some s ∧ P s.1 := by
  rw [List.mem_filterMap]
  constructor
  · rintro ⟨⟨s, j⟩, hm, h⟩
    by_cases hP : P s.1
    · simp only [hP, if_true, Option.some.injEq] at h
      subst h
      exact ⟨s, List.mk_mem_zipIdx_iff_getElem?.1 hm, hP⟩
    · simp [hP] at h
  · rintro ⟨s, hm, hP⟩
    refine ⟨(s, i), List.mk_mem_zipIdx_iff_getElem?.2 hm, ?_⟩
    rw [if_pos]
    exact hP

private theorem indices_sorted (P : F → Prop) [DecidablePred P] : ∀ (l : List (F × UValue F)) (k : ℕ),
    ((l.zipIdx k).filterMap fun p => if P p.1.1 then some p.2 else none).Pairwise (· < ·) ∧
      ∀ i ∈ ((l.zipIdx k).filterMap fun p => if P p.1.1 then some p.2 else none), k ≤ i
  | [], k => by simp
  | a :: l, k => by
    obtain ⟨h1, h2⟩ := indices_sorted P l (k + 1)
    rw [List.zipIdx_cons, List.filterMap_cons]
    by_cases hP : P a.1
    · simp only [hP, if_true]
      refine ⟨List.pairwise_cons.2 ⟨fun i hi => by have := h2 i hi; omega, h1⟩, ?_⟩
      intro i hi
      rcases List.mem_cons.1 hi with x | x
      · omega
      · have := h2 i x; omega
    · simp only [hP, if_false]
      exact ⟨h1, fun i hi => by have := h2 i hi; omega⟩

/-- The node `i` of a discretisation has mass. -/
def Spec.Massive (d : Discretization F) (i : ℕ) : Prop := ∃ s, d.segments[i]? = some s ∧ 1 / 100000 ≤ s.1

private theorem chunks_of (l : List (F × UValue F)) (P : F → Prop) [DecidablePred P] :
    ∃ chunks, chunkSegments (l.zipIdx.filterMap fun p => if P p.1.1 then some p.2 else none)
        = .ok chunks ∧ MaximalRuns (fun i => ∃ s, l[i]? = some s ∧ P s.1) l.length chunks := by
  obtain ⟨ch, h1, h2⟩ := chunkSegments_ok
    (l.zipIdx.filterMap fun p => if P p.1.1 then some p.2 else none) l.length
    (indices_sorted P l 0).1 (by
      intro i hi
      obtain ⟨s, hs, _⟩ := (mem_indices l P i).1 hi
      exact (List.getElem?_eq_some_iff.1 hs).1)
  refine ⟨ch, h1, ?_⟩
  have : (fun i => i ∈ l.zipIdx.filterMap fun p => if P p.1.1 then some p.2 else none)
      = fun i => ∃ s, l[i]? = some s ∧ P s.1 := by
    funext i
    exact propext (mem_indices l P i)
  rw [← this]
  exact h2

/-- C26: the chunks with mass are the maximal runs of nodes with mass and the others the maximal runs
of nodes without it. -/
theorem C26_chunks (d : Discretization F) :
    ∃ mass nomass, d.getChunks = .ok (mass, nomass) ∧
      MaximalRuns (Massive d) d.segments.length mass ∧
      MaximalRuns (fun i => i < d.segments.length ∧ ¬ Massive d i) d.segments.length nomass := by
  obtain ⟨m, hm, hm'⟩ := chunks_of d.segments (fun x => x ≥ 1 / 100000)
  obtain ⟨o, ho, ho'⟩ := chunks_of d.segments (fun x => x < 1 / 100000)
  refine ⟨m, o, ?_, hm', ?_⟩
  · unfold Discretization.getChunks
    simp only [hm, ho, Outcome.bind]
  · have : (fun i => ∃ s, d.segments[i]? = some s ∧ s.1 < 1 / 100000)
        = fun i => i < d.segments.length ∧ ¬ Massive d i := by
      funext i
      apply propext
      unfold Massive
      constructor
      · rintro ⟨s, hs, h⟩
        refine ⟨(List.getElem?_eq_some_iff.1 hs).1, ?_⟩
        rintro ⟨s', hs', h'⟩
        rw [hs] at hs'
        cases hs'
        exact absurd h (not_lt.2 h')
      · rintro ⟨hi, h⟩
        refine ⟨d.segments[i], List.getElem?_eq_getElem hi, ?_⟩
        by_contra hlt
        exact h ⟨_, List.getElem?_eq_getElem hi, not_lt.1 hlt⟩
    rw [← this]
    exact ho'

/-- C26: every node is in exactly one chunk, of either kind. -/
theorem C26_partition (d : Discretization F) (mass nomass : List (ℕ × ℕ))
    (h : d.getChunks = .ok (mass, nomass)) (i : ℕ) (hi : i < d.segments.length) :
    ∃! c : Bool × ℕ × ℕ, (c.2 ∈ if c.1 then mass else nomass) ∧ c.2.1 ≤ i ∧ i < c.2.2 := by
  obtain ⟨m, o, h', hm, ho⟩ := C26_chunks d
  rw [h] at h'
  cases h'
  have uniq : ∀ (p : ℕ → Prop) (chunks : List (ℕ × ℕ)), MaximalRuns p d.segments.length chunks →
      ∀ c ∈ chunks, ∀ c' ∈ chunks, c.1 ≤ i → i < c.2 → c'.1 ≤ i → i < c'.2 → c = c' := by
    intro p chunks hr c hc c' hc' h1 h2 h3 h4
    obtain ⟨j, hj, rfl⟩ := List.mem_iff_getElem.1 hc
    obtain ⟨k, hk, rfl⟩ := List.mem_iff_getElem.1 hc'
    have hord := List.pairwise_iff_getElem.1 hr.ordered
    rcases Nat.lt_trichotomy j k with hlt | rfl | hlt
    · have := hord j k hj hk hlt; omega
    · rfl
    · have := hord k j hk hj hlt; omega
  by_cases hM : Massive d i
  · obtain ⟨c, hc, h1, h2⟩ := hm.cover i hi hM
    refine ⟨(true, c), ⟨hc, h1, h2⟩, ?_⟩
    rintro ⟨b, c'⟩ ⟨hc', h1', h2'⟩
    cases b with
    | true => rw [uniq _ _ hm c' hc' c hc h1' h2' h1 h2]
    | false => exact absurd hM (ho.all c' hc' i h1' h2').2
  · obtain ⟨c, hc, h1, h2⟩ := ho.cover i hi ⟨hi, hM⟩
    refine ⟨(false, c), ⟨hc, h1, h2⟩, ?_⟩
    rintro ⟨b, c'⟩ ⟨hc', h1', h2'⟩
    cases b with
    | false => rw [uniq _ _ ho c' hc' c hc h1' h2' h1 h2]
    | true => exact absurd (hm.all c' hc' i h1' h2') hM

end
/-! ## C25: building the segments -/

namespace Spec
section
variable [Field F]

/-- Thermal mass of a layer per unit area: `ρ · c_p · thickness`, none for a gas. -/
def layerMass (m : Mat F) : F :=
  match m.substance with
  | .normal s => s.density.getD 0 * s.specificHeat.getD 0 * m.thickness
  | .gas _ => 0

/-- Thermal resistance of a solid layer: `thickness / k`. -/
def layerResistance (m : Mat F) : F :=
  match m.substance with
  | .normal s => m.thickness / s.conductivity.getD 0
  | .gas _ => 0

/-- The substance of layer `j` is solid. -/
def IsSolid (layers : List (Mat F)) (j : ℕ) : Prop :=
  ∃ m s, layers[j]? = some m ∧ m.substance = .normal s

/-- Layer `j`, divided into `n` elements (0 when its mass is neglected), has all the data that is
needed: conductivity and, unless its mass is neglected, density and specific heat; gases must be
standard and lie between two solid layers. -/
def LayerOk (layers : List (Mat F)) (j : ℕ) (m : Mat F) (n : ℕ) : Prop :=
  (∀ s, m.substance = .normal s → s.conductivity.isSome ∧
    (n ≠ 0 → s.density.isSome ∧ s.specificHeat.isSome)) ∧
  (∀ g, m.substance = .gas g → g.isSome ∧ 0 < j ∧ IsSolid layers (j - 1) ∧ IsSolid layers (j + 1))

/-- All the layers of a construction are so. -/
def Acceptable (layers : List (Mat F)) (nElements : List ℕ) : Prop :=
  ∀ j m n, layers[j]? = some m → nElements[j]? = some n → LayerOk layers j m n

/-- Emissivity of the back of layer `j`, 0.84 when it is not known. -/
def backEmissivity (layers : List (Mat F)) (j : ℕ) : F :=
  match layers[j]? with
  | some ⟨_, .normal s⟩ => s.backEmissivity.getD (84 / 100)
  | _ => 84 / 100

/-- Emissivity of the front of layer `j`, 0.84 when it is not known. -/
def frontEmissivity (layers : List (Mat F)) (j : ℕ) : F :=
  match layers[j]? with
  | some ⟨_, .normal s⟩ => s.frontEmissivity.getD (84 / 100)
  | _ => 84 / 100

/-- What an element of layer `j`, divided into `n` elements, conducts: the conductance of a slab of its
thickness, or a cavity of the whole thickness that sees the back of the layer before it and the
front of the layer after it. -/
def layerU (layers : List (Mat F)) (height angle : F) (j : ℕ) (m : Mat F) (n : ℕ) : UValue F :=
  match m.substance with
  | .normal s => .solid (s.conductivity.getD 0 / (m.thickness / n))
  | .gas g => .cavity { gas := g.getD .air, thickness := m.thickness, height, angle,
                        eout := backEmissivity layers (j - 1),
                        ein := frontEmissivity layers (j + 1) }

/-- The elements (mass and conductance) of the layers `ms`, the first of which is layer `j`: at least
one per layer, all equal; the mass is neglected in those with no elements. -/
def elementsFrom (layers : List (Mat F)) (height angle : F) :
    (j : ℕ) → (ms : List (Mat F)) → (nElements : List ℕ) → List (F × UValue F)
  | j, m :: ms, n :: ns =>
    List.replicate (max n 1)
      (if n = 0 then 0 else layerMass m / n, layerU layers height angle j m (max n 1)) ++
      elementsFrom layers height angle (j + 1) ms ns
  | _, _, _ => []

/-- The elements of a construction. -/
def elements (layers : List (Mat F)) (height angle : F) (nElements : List ℕ) : List (F × UValue F) :=
  elementsFrom layers height angle 0 layers nElements

/-- The mass of element `i`, if there is such an element. -/
def massOf (es : List (F × UValue F)) (i : ℕ) : F := ((es[i]?).map Prod.fst).getD 0

/-- Node `i` has half of the mass of the element before it and half of the one after it. -/
def nodeMass (es : List (F × UValue F)) (i : ℕ) : F :=
  ((if i = 0 then 0 else massOf es (i - 1)) + massOf es i) / 2

end
end Spec

section
variable [Field F]

/-- The segments after the elements `es` have been added, out of `N` nodes. -/
private def stateOf (N : ℕ) (es : List (F × UValue F)) (b : Bool) : List (F × UValue F) :=
  (List.range N).map fun i => (nodeMass es i,
    match es[i]? with
    | some e => e.2
    | none => if b ∧ i = N - 1 then .back else .none)

private theorem stateOf_length (N : ℕ) (es : List (F × UValue F)) (b : Bool) :
    (stateOf N es b).length = N := by simp [stateOf]

private theorem stateOf_get (N : ℕ) (es : List (F × UValue F)) (b : Bool) (i : ℕ) (hi : i < N) :
    (stateOf N es b)[i]? = some (nodeMass es i,
    match es[i]? with
    | some e => e.2
    | none => if b ∧ i = N - 1 then .back else .none) := by
  simp [stateOf, hi]

private theorem modifyAt_ok {α : Type*} (l : List α) (i : ℕ) (f : α → α) (h : i < l.length) :
    modifyAt l i f = .ok (l.modify i f) := by rw [modifyAt, if_pos h]

private theorem massOf_append_lt (es : List (F × UValue F)) (e : F × UValue F) (i : ℕ)
    (h : i < es.length) : massOf (es ++ [e]) i = massOf es i := by
  unfold massOf; rw [List.getElem?_append_left h]

private theorem massOf_append_eq (es : List (F × UValue F)) (e : F × UValue F) :
    massOf (es ++ [e]) es.length = e.1 := by
  unfold massOf; simp

private theorem massOf_ge (es : List (F × UValue F)) (i : ℕ) (h : es.length ≤ i) :
    massOf es i = 0 := by
  unfold massOf; rw [List.getElem?_eq_none h]; rfl

private theorem state_step (N : ℕ) (es : List (F × UValue F)) (b : Bool) (e : F × UValue F)
    (hN : es.length + 1 < N) :
    ((((stateOf N es b).modify es.length fun s => (s.1 + e.1 / 2, s.2)).modify (es.length + 1)
        fun s => (s.1 + e.1 / 2, s.2)).modify es.length fun s => (s.1, e.2))
      = stateOf N (es ++ [e]) b := by
  apply List.ext_getElem?
  intro i
  by_cases hi : i < N
  swap
  · rw [List.getElem?_eq_none (by simp [stateOf_length]; omega),
      List.getElem?_eq_none (by simp [stateOf_length]; omega)]
  simp only [List.getElem?_modify]
  rw [stateOf_get N es b i hi, stateOf_get N _ b i hi]
  simp only [Option.map_eq_map, Option.map_some]
  rcases Nat.lt_trichotomy i es.length with h | h | h
  · have a1 : ¬ es.length = i := by omega
    have a2 : ¬ es.length + 1 = i := by omega
    simp only [a1, a2, if_false]
    have : (es ++ [e])[i]? = es[i]? := List.getElem?_append_left h
    simp only [this, nodeMass]
    rw [massOf_append_lt _ _ _ h]
    by_cases h0 : i = 0
    · simp [h0]
    · rw [if_neg h0, if_neg h0, massOf_append_lt _ _ _ (by omega)]
  · subst h
    have a2 : ¬ es.length + 1 = es.length := by omega
    simp only [a2, if_false, if_true, nodeMass]
    rw [massOf_append_eq, massOf_ge es _ le_rfl]
    by_cases h0 : es.length = 0
    · rw [List.length_eq_zero_iff] at h0
      subst h0
      simp
    · rw [if_neg h0, if_neg h0, massOf_append_lt _ _ _ (by omega)]
      simp
      ring
  · by_cases h' : i = es.length + 1
    · subst h'
      have a1 : ¬ es.length = es.length + 1 := by omega
      simp only [a1, if_false, if_true]
      have h1 : (es ++ [e])[es.length + 1]? = none := List.getElem?_eq_none (by simp)
      have h2 : es[es.length + 1]? = none := List.getElem?_eq_none (by simp)
      simp only [h1, h2, nodeMass]
      rw [if_neg (Nat.succ_ne_zero es.length), if_neg (Nat.succ_ne_zero es.length),
        Nat.add_sub_cancel, massOf_append_eq,
        massOf_ge es _ le_rfl, massOf_ge es _ (by omega), massOf_ge (es ++ [e]) _ (by simp)]
      simp
    · have a1 : ¬ es.length = i := by omega
      have a2 : ¬ es.length + 1 = i := by omega
      simp only [a1, a2, if_false]
      have h1 : (es ++ [e])[i]? = none := List.getElem?_eq_none (by simp; omega)
      have h2 : es[i]? = none := List.getElem?_eq_none (by omega)
      simp only [h1, h2, nodeMass]
      have h0 : i ≠ 0 := by omega
      rw [massOf_ge es i (by omega), massOf_ge (es ++ [e]) i (by simp; omega), if_neg h0,
        if_neg h0, massOf_ge es (i - 1) (by omega), massOf_ge (es ++ [e]) (i - 1) (by simp; omega)]

private theorem state_back (N : ℕ) (es : List (F × UValue F)) (b : Bool) (hN : es.length < N) :
    ((stateOf N es b).modify (N - 1) fun x => (x.1, .back)) = stateOf N es true := by
  apply List.ext_getElem?
  intro i
  by_cases hi : i < N
  swap
  · rw [List.getElem?_eq_none (by simp [stateOf_length]; omega),
      List.getElem?_eq_none (by simp [stateOf_length]; omega)]
  simp only [List.getElem?_modify]
  rw [stateOf_get N es b i hi, stateOf_get N _ true i hi]
  simp only [Option.map_eq_map, Option.map_some]
  by_cases h : N - 1 = i
  · have : es[i]? = none := List.getElem?_eq_none (by omega)
    simp [h, this]
  · rw [if_neg h]
    have h' : ¬ i = N - 1 := fun e => h e.symm
    simp [h']

/-- Gases between solid layers. -/
private theorem elementU_ok (layers : List (Mat F)) (height angle : F) (j : ℕ) (m : Mat F) (n : ℕ)
    (h : LayerOk layers j m n) : elementU layers height angle j m (max n 1)
      = .ok (layerU layers height angle j m (max n 1)) := by
  obtain ⟨t, s⟩ := m
  unfold elementU layerU
  cases s with
  | normal s =>
    obtain ⟨k, hk⟩ := Option.isSome_iff_exists.1 (h.1 s rfl).1
    simp [hk, need, Outcome.bind]
  | gas g =>
    obtain ⟨hg, hj, ⟨⟨tp, sp'⟩, sp, hp, hp'⟩, ⟨⟨tn, sn'⟩, sn, hn, hn'⟩⟩ := h.2 g rfl
    obtain ⟨gg, rfl⟩ := Option.isSome_iff_exists.1 hg
    simp only at hp' hn'
    subst hp' hn'
    simp only [need, Outcome.bind, hp, hn, Option.getD_some, backEmissivity, frontEmissivity]
    rw [if_neg (by omega)]

private theorem elementMass_ok (layers : List (Mat F)) (j : ℕ) (m : Mat F) (n : ℕ)
    (h : LayerOk layers j m n) :
    elementMass m n = .ok (if n = 0 then 0 else layerMass m / n) := by
  obtain ⟨t, s⟩ := m
  unfold elementMass layerMass
  by_cases hn : n = 0
  · simp [hn]
  · rw [if_neg hn, if_neg hn]
    cases s with
    | normal s =>
      obtain ⟨h1, h2⟩ := (h.1 s rfl).2 hn
      obtain ⟨r, hr⟩ := Option.isSome_iff_exists.1 h1
      obtain ⟨c, hc⟩ := Option.isSome_iff_exists.1 h2
      simp only [hr, hc, need, Outcome.bind, Option.getD_some]
      rw [mul_div_assoc]
    | gas g => simp

/-- When a layer lacks something, either its mass or its conductance is an error. -/
private theorem layer_err (layers : List (Mat F)) (height angle : F) (j : ℕ) (m : Mat F) (n : ℕ)
    (h : ¬ LayerOk layers j m n) :
    elementMass m n = .err ∨ ((∃ x, elementMass m n = .ok x) ∧
      elementU layers height angle j m (max n 1) = .err) := by
  obtain ⟨t, s⟩ := m
  cases s with
  | normal s =>
    unfold elementMass elementU
    by_cases hk : s.conductivity.isSome
    · left
      have : n ≠ 0 ∧ ¬ (s.density.isSome ∧ s.specificHeat.isSome) := by
        by_contra hc
        apply h
        refine ⟨fun s' hs' => ?_, fun g hg => by cases hg⟩
        cases hs'
        refine ⟨hk, fun hn => ?_⟩
        by_contra h2
        exact hc ⟨hn, h2⟩
      rw [if_neg this.1]
      obtain ⟨k, ρ, c, e1, e2⟩ := s
      cases ρ <;> cases c <;> simp [need, Outcome.bind] at this ⊢
    · by_cases hm : n ≠ 0 ∧ ¬ (s.density.isSome ∧ s.specificHeat.isSome)
      · left
        rw [if_neg hm.1]
        obtain ⟨k, ρ, c, e1, e2⟩ := s
        have := hm.2
        cases ρ <;> cases c <;> simp [need, Outcome.bind] at this ⊢
      · right
        constructor
        · by_cases hn : n = 0
          · exact ⟨0, by rw [if_pos hn]⟩
          · rw [if_neg hn]
            obtain ⟨k, ρ, c, e1, e2⟩ := s
            have : ρ.isSome ∧ c.isSome := by
              by_contra h2
              exact hm ⟨hn, h2⟩
            cases ρ <;> cases c <;> simp [need, Outcome.bind] at this ⊢
        · obtain ⟨k, ρ, c, e1, e2⟩ := s
          cases k <;> simp [need, Outcome.bind] at hk ⊢
  | gas g =>
    right
    refine ⟨?_, ?_⟩
    · unfold elementMass
      by_cases hn : n = 0
      · exact ⟨0, by rw [if_pos hn]⟩
      · exact ⟨0, by rw [if_neg hn]⟩
    · unfold elementU
      cases g with
      | none => rfl
      | some g =>
        simp only [need, Outcome.bind]
        by_cases hj : j = 0
        · rw [if_pos hj]
        rw [if_neg hj]
        cases hp : layers[j - 1]? with
        | none => rfl
        | some p =>
          cases hn : layers[j + 1]? with
          | none => rfl
          | some q =>
            obtain ⟨tp, sp⟩ := p
            obtain ⟨tq, sq⟩ := q
            cases sp with
            | gas _ => cases sq <;> rfl
            | normal sp =>
              cases sq with
              | gas _ => rfl
              | normal sq =>
                exfalso
                apply h
                refine ⟨fun s hs => (by cases hs), fun g' hg' => ?_⟩
                cases hg'
                exact ⟨rfl, by omega, ⟨_, sp, hp, rfl⟩, ⟨_, sq, hn, rfl⟩⟩

private theorem buildElement_ok (layers : List (Mat F)) (height angle : F) (j : ℕ) (m : Mat F)
    (n : ℕ) (mass : F) (N : ℕ) (es : List (F × UValue F)) (b : Bool) (hN : es.length + 1 < N)
    (u : UValue F) (hu : elementU layers height angle j m n = .ok u)
    (hm : ∀ g, m.substance = .gas g → mass = 0) :
    buildElement layers height angle j m n mass (stateOf N es b) es.length
      = .ok (stateOf N (es ++ [(mass, u)]) b) := by
  unfold buildElement
  cases hs : m.substance with
  | normal s =>
    simp only [Outcome.bind, hu]
    rw [modifyAt_ok _ _ _ (by rw [stateOf_length]; omega)]
    simp only
    rw [modifyAt_ok _ _ _ (by rw [List.length_modify, stateOf_length]; omega)]
    simp only
    rw [modifyAt_ok _ _ _ (by rw [List.length_modify, List.length_modify, stateOf_length]; omega)]
    rw [state_step N es b (mass, u) hN]
  | gas g =>
    simp only [Outcome.bind, hu]
    rw [modifyAt_ok _ _ _ (by rw [stateOf_length]; omega)]
    rw [← state_step N es b (mass, u) hN, hm g hs]
    have hid : ∀ (l : List (F × UValue F)) (i : ℕ), l.modify i (fun s => (s.1 + 0 / 2, s.2)) = l := by
      intro l i
      apply List.ext_getElem?
      intro k
      rw [List.getElem?_modify]
      cases l[k]? <;> simp
    simp only [hid]

private theorem buildElement_err (layers : List (Mat F)) (height angle : F) (j : ℕ) (m : Mat F)
    (n : ℕ) (mass : F) (N : ℕ) (es : List (F × UValue F)) (b : Bool) (hN : es.length + 1 < N)
    (hu : elementU layers height angle j m n = .err) :
    buildElement layers height angle j m n mass (stateOf N es b) es.length = .err := by
  unfold buildElement
  cases hs : m.substance with
  | normal s =>
    simp only [Outcome.bind, hu]
    rw [modifyAt_ok _ _ _ (by rw [stateOf_length]; omega)]
    simp only
    rw [modifyAt_ok _ _ _ (by rw [List.length_modify, stateOf_length]; omega)]
  | gas g => simp only [Outcome.bind, hu]

private theorem buildElements_ok (layers : List (Mat F)) (height angle : F) (j : ℕ) (m : Mat F)
    (n : ℕ) (mass : F) (N : ℕ) (b : Bool)
    (u : UValue F) (hu : elementU layers height angle j m n = .ok u)
    (hm : ∀ g, m.substance = .gas g → mass = 0) : ∀ (count : ℕ) (es : List (F × UValue F)),
    es.length + count < N →
    buildElements layers height angle j m n mass count (stateOf N es b) es.length
      = .ok (stateOf N (es ++ List.replicate count (mass, u)) b, es.length + count)
  | 0, es, _ => by simp [buildElements]
  | count + 1, es, h => by
    rw [buildElements, buildElement_ok layers height angle j m n mass N es b (by omega) u hu hm]
    simp only [Outcome.bind]
    have := buildElements_ok layers height angle j m n mass N b u hu hm count (es ++ [(mass, u)])
      (by simp; omega)
    simp only [List.length_append, List.length_singleton, List.append_assoc,
      List.singleton_append] at this
    rw [this, List.replicate_succ]
    congr 2
    omega

private theorem buildLayers_ok (layers : List (Mat F)) (height angle : F) (N : ℕ) :
    ∀ (ns : List ℕ) (ms : List (Mat F)) (j : ℕ) (es : List (F × UValue F)) (b : Bool),
    layers.drop j = ms → ms.length = ns.length →
    es.length + (ns.map (max · 1)).sum < N →
    ((∀ i m n, ms[i]? = some m → ns[i]? = some n → LayerOk layers (j + i) m n) →
      buildLayers layers height angle N j ns (stateOf N es b) es.length
        = .ok (stateOf N (es ++ elementsFrom layers height angle j ms ns) (b || !ns.isEmpty))) ∧
    ((¬ ∀ i m n, ms[i]? = some m → ns[i]? = some n → LayerOk layers (j + i) m n) →
      buildLayers layers height angle N j ns (stateOf N es b) es.length = .err)
  | [], ms, j, es, b, _, hl, _ => by
    rw [List.length_nil, List.length_eq_zero_iff] at hl
    subst hl
    exact ⟨fun _ => by simp [buildLayers, elementsFrom], fun h => absurd (by simp) h⟩
  | n :: ns, [], j, es, b, _, hl, _ => by simp at hl
  | n :: ns, m :: ms, j, es, b, hd, hl, hN => by
    rw [List.map_cons, List.sum_cons] at hN
    have hj : layers[j]? = some m := by
      have := congrArg (·[0]?) hd
      simpa using this
    have hidx : Outcome.index layers j = .ok m := by unfold Outcome.index; rw [hj]
    have hd' : layers.drop (j + 1) = ms := by
      rw [← List.tail_drop, hd]; rfl
    have hn' : (if n = 0 then 1 else n) = max n 1 := by split_ifs <;> omega
    have hgas : ∀ g, m.substance = .gas g → (if n = 0 then (0 : F) else layerMass m / n) = 0 := by
      intro g hg
      unfold layerMass
      rw [hg]
      simp
    have key : LayerOk layers j m n → buildLayers layers height angle N j (n :: ns)
          (stateOf N es b) es.length = buildLayers layers height angle N (j + 1) ns
            (stateOf N (es ++ List.replicate (max n 1) (if n = 0 then 0 else layerMass m / n,
              layerU layers height angle j m (max n 1))) true)
            (es ++ List.replicate (max n 1) (if n = 0 then (0 : F) else layerMass m / n,
              layerU layers height angle j m (max n 1))).length := by
      intro hok
      rw [buildLayers, hidx]
      simp only [Outcome.bind]
      rw [elementMass_ok layers j m n hok]
      simp only [hn']
      rw [buildElements_ok layers height angle j m (max n 1) _ N b _
        (elementU_ok layers height angle j m n hok) hgas (max n 1) es (by omega)]
      simp only
      rw [modifyAt_ok _ _ _ (by rw [stateOf_length]; omega), state_back _ _ _ (by simp; omega)]
      simp
    obtain ⟨ih1, ih2⟩ := buildLayers_ok layers height angle N ns ms (j + 1)
      (es ++ List.replicate (max n 1) (if n = 0 then 0 else layerMass m / n,
              layerU layers height angle j m (max n 1))) true hd' (by simpa using hl)
      (by simp; omega)
    constructor
    · intro hall
      rw [key (hall 0 m n rfl rfl), ih1 (fun i m' n' hm' hn'' => by
        have := hall (i + 1) m' n' hm' hn''
        rwa [show j + (i + 1) = j + 1 + i by omega] at this)]
      rw [elementsFrom, List.append_assoc]
      simp
    · intro hnot
      by_cases hok : LayerOk layers j m n
      · rw [key hok]
        apply ih2
        intro hall
        apply hnot
        intro i m' n' hm' hn''
        cases i with
        | zero => cases hm'; cases hn''; exact hok
        | succ i =>
          have := hall i m' n' hm' hn''
          rwa [show j + 1 + i = j + (i + 1) by omega] at this
      · rw [buildLayers, hidx]
        simp only [Outcome.bind]
        rcases layer_err layers height angle j m n hok with h | ⟨⟨x, hx⟩, hu⟩
        · rw [h]
        · rw [hx]
          simp only [hn']
          obtain ⟨k, hk⟩ : ∃ k, max n 1 = k + 1 := ⟨max n 1 - 1, by omega⟩
          rw [hk, buildElements, ← hk, buildElement_err layers height angle j m (max n 1) x N es b
            (by omega) hu]
          rfl

private theorem elementsFrom_length (layers : List (Mat F)) (height angle : F) :
    ∀ (ms : List (Mat F)) (ns : List ℕ) (j : ℕ), ms.length = ns.length →
      (elementsFrom layers height angle j ms ns).length = (ns.map (max · 1)).sum
  | [], [], _, _ => rfl
  | _ :: _, [], _, h => by simp at h
  | [], _ :: _, _, h => by simp at h
  | m :: ms, n :: ns, j, h => by
    rw [elementsFrom, List.length_append, elementsFrom_length layers height angle ms ns (j + 1)
      (by simpa using h)]
    simp

private theorem nNodes_eq (ns : List ℕ) : nNodes ns = (ns.map (max · 1)).sum + 1 := by
  unfold nNodes
  induction ns with
  | nil => rfl
  | cons n ns ih =>
    rw [List.sum_cons, List.map_cons, List.sum_cons, List.filter_cons]
    by_cases h : n = 0
    · subst h
      simp at ih ⊢
      omega
    · simp [h] at ih ⊢
      omega

/-- C25: a construction is accepted exactly when its layers have all the data they need (it is an
error otherwise, never a panic), and then its nodes are those between its elements: node `i` has half
the mass of each of its two elements and conducts to the next one as element `i` does. -/
theorem C25_build (layers : List (Mat F)) (t : ℕ) (nElements : List ℕ) (height angle : F)
    (hl : nElements.length = layers.length) (hne : layers ≠ []) :
    (Acceptable layers nElements →
      ∃ d, build layers t nElements height angle = .ok d ∧ d.tstepSubdivision = t ∧
        d.nElements = nElements ∧
        d.segments.map Prod.snd = (elements layers height angle nElements).map Prod.snd ++ [.back] ∧
        ∀ i s, d.segments[i]? = some s → s.1 = nodeMass (elements layers height angle nElements) i) ∧
    (¬ Acceptable layers nElements → build layers t nElements height angle = .err) := by
  have hrep : List.replicate (nNodes nElements) ((0 : F), (UValue.none : UValue F))
      = stateOf (nNodes nElements) [] false := by
    apply List.ext_getElem?
    intro i
    by_cases hi : i < nNodes nElements
    · rw [stateOf_get _ _ _ _ hi, List.getElem?_replicate, if_pos hi]
      simp [nodeMass, massOf]
    · rw [List.getElem?_eq_none (by simp; omega), List.getElem?_eq_none (by simp [stateOf_length]; omega)]
  have hne' : nElements ≠ [] := by
    intro h; rw [h] at hl; exact hne (List.length_eq_zero_iff.1 hl.symm)
  obtain ⟨h1, h2⟩ := buildLayers_ok layers height angle (nNodes nElements) nElements layers 0 [] false
    rfl hl.symm (by rw [nNodes_eq]; simp)
  have hlen := elementsFrom_length layers height angle layers nElements 0 hl.symm
  unfold build
  rw [if_pos hl, hrep]
  constructor
  · intro hacc
    have := h1 (fun i m n hm hn => by rw [Nat.zero_add]; exact hacc i m n hm hn)
    simp only [List.length_nil, List.nil_append] at this
    rw [this]
    refine ⟨_, rfl, rfl, rfl, ?_, ?_⟩
    · apply List.ext_getElem?
      intro i
      simp only [List.getElem?_map]
      by_cases hi : i < nNodes nElements
      swap
      · rw [List.getElem?_eq_none (by simp [stateOf_length]; omega), List.getElem?_eq_none]
        · rfl
        · rw [nNodes_eq] at hi
          simp only [List.length_append, List.length_map, List.length_singleton, elements, hlen]
          omega
      rw [stateOf_get _ _ _ _ hi]
      have hi' := hi
      rw [nNodes_eq] at hi
      by_cases hlt : i < (elementsFrom layers height angle 0 layers nElements).length
      · rw [List.getElem?_append_left (by simpa [elements] using hlt)]
        simp only [List.getElem?_map, elements]
        rw [List.getElem?_eq_getElem hlt]
        rfl
      · have hieq : i = ((elements layers height angle nElements).map Prod.snd).length := by
          simp only [List.length_map, elements]; omega
        rw [List.getElem?_eq_none (by omega)]
        rw [hieq, List.getElem?_concat_length, ← hieq]
        simp only [Option.map_some]
        rw [if_pos]
        refine ⟨by simp [hne'], ?_⟩
        rw [nNodes_eq]
        omega
    · intro i s hs
      have hi : i < nNodes nElements := by
        have := (List.getElem?_eq_some_iff.1 hs).1
        rwa [stateOf_length] at this
      simp only at hs
      rw [stateOf_get _ _ _ _ hi] at hs
      cases hs
      rfl
  · intro hacc
    have := h2 (fun hall => hacc fun i m n hm hn => by
      have := hall i m n hm hn
      rwa [Nat.zero_add] at this)
    simp only [List.length_nil] at this
    rw [this]
    rfl

/-- C25: one node more than elements. -/
theorem C25_nodes (layers : List (Mat F)) (t : ℕ) (nElements : List ℕ) (height angle : F)
    (hne : layers ≠ []) (d : Discretization F)
    (h : build layers t nElements height angle = .ok d) :
    d.segments.length = (nElements.map (max · 1)).sum + 1 := by
  have hl : nElements.length = layers.length := by
    by_contra hl
    unfold build at h
    rw [if_neg hl] at h
    cases h
  by_cases ha : Acceptable layers nElements
  · obtain ⟨d', h', _, _, hU, _⟩ := (C25_build layers t nElements height angle hl hne).1 ha
    rw [h] at h'
    cases h'
    have := congrArg List.length hU
    rw [List.length_map, List.length_append, List.length_map, elements,
      elementsFrom_length _ _ _ _ _ _ hl.symm] at this
    exact this
  · rw [(C25_build layers t nElements height angle hl hne).2 ha] at h
    cases h

/-- The sum of the masses of nodes `0, …, n` is that of the elements before them, but for half of the
last one. -/
private theorem sum_nodeMass [CharZero F] (es : List (F × UValue F)) (n : ℕ) :
    ((List.range (n + 1)).map (nodeMass es)).sum
      = ((List.range n).map (massOf es)).sum + massOf es n / 2 := by
  induction n with
  | zero => simp [nodeMass]
  | succ n ih =>
    rw [List.range_succ, List.map_append, List.sum_append, ih, List.range_succ (n := n), List.map_append,
      List.sum_append]
    simp only [List.map_cons, List.map_nil, List.sum_cons, List.sum_nil, nodeMass]
    rw [if_neg (by omega), Nat.add_sub_cancel]
    ring

private theorem sum_massOf (es : List (F × UValue F)) :
    ((List.range es.length).map (massOf es)).sum = (es.map Prod.fst).sum := by
  congr 1
  apply List.ext_getElem
  · simp
  · intro i h1 h2
    have hi : i < es.length := by simpa using h1
    simp [massOf, hi]

private theorem sum_elements [CharZero F] (layers : List (Mat F)) (height angle : F) :
    ∀ (ms : List (Mat F)) (ns : List ℕ) (j : ℕ), ms.length = ns.length →
      ((elementsFrom layers height angle j ms ns).map Prod.fst).sum
        = ((ms.zip ns).map fun p => if p.2 = 0 then 0 else layerMass p.1).sum
  | [], [], _, _ => rfl
  | _ :: _, [], _, h => by simp at h
  | [], _ :: _, _, h => by simp at h
  | m :: ms, n :: ns, j, h => by
    rw [elementsFrom, List.map_append, List.sum_append, sum_elements layers height angle ms ns (j + 1)
      (by simpa using h), List.zip_cons_cons, List.map_cons, List.sum_cons]
    congr 1
    rw [List.map_replicate, List.sum_replicate]
    by_cases hn : n = 0
    · simp [hn]
    · simp only [hn, if_false]
      rw [Nat.max_eq_left (by omega), nsmul_eq_mul]
      have : (n : F) ≠ 0 := Nat.cast_ne_zero.2 hn
      field_simp

/-- C25: the mass of the nodes is that of the layers whose mass is not neglected. -/
theorem C25_mass [CharZero F] (layers : List (Mat F)) (t : ℕ) (nElements : List ℕ) (height angle : F)
    (hne : layers ≠ []) (d : Discretization F)
    (h : build layers t nElements height angle = .ok d) :
    (d.segments.map Prod.fst).sum
      = ((layers.zip nElements).map fun p => if p.2 = 0 then 0 else layerMass p.1).sum := by
  have hnodes := C25_nodes layers t nElements height angle hne d h
  have hl : nElements.length = layers.length := by
    by_contra hl
    unfold build at h
    rw [if_neg hl] at h
    cases h
  by_cases ha : Acceptable layers nElements
  · obtain ⟨d', h', _, _, _, hM⟩ := (C25_build layers t nElements height angle hl hne).1 ha
    rw [h] at h'
    cases h'
    have hel := elementsFrom_length layers height angle layers nElements 0 hl.symm
    have e : d.segments.map Prod.fst = (List.range ((nElements.map (max · 1)).sum + 1)).map
        (nodeMass (elements layers height angle nElements)) := by
      apply List.ext_getElem
      · simp [hnodes]
      · intro i h1 h2
        have hi : i < d.segments.length := by simpa using h1
        simp only [List.getElem_map, List.getElem_range]
        exact hM i _ (List.getElem?_eq_getElem hi)
    rw [e, sum_nodeMass, ← hel, show elementsFrom layers height angle 0 layers nElements
      = elements layers height angle nElements from rfl, sum_massOf, massOf_ge _ _ le_rfl,
      elements, sum_elements layers height angle layers nElements 0 hl.symm]
    simp
  · rw [(C25_build layers t nElements height angle hl hne).2 ha] at h
    cases h

private theorem rLoop_append (l1 l2 : List (F × UValue F)) : ∀ (r r' : F), rLoop l1 r = .ok r' →
    rLoop (l1 ++ l2) r = rLoop l2 r' := by
  induction l1 with
  | nil => intro r r' h; cases h; rfl
  | cons x l1 ih =>
    intro r r' h
    obtain ⟨m, u⟩ := x
    cases u with
    | solid v => exact ih _ _ h
    | cavity c => cases h
    | back => exact ih _ _ h
    | none => cases h

private theorem rLoop_snd (l l' : List (F × UValue F)) (h : l.map Prod.snd = l'.map Prod.snd) :
    ∀ r, rLoop l r = rLoop l' r := by
  induction l generalizing l' with
  | nil =>
    intro r
    cases l' with
    | nil => rfl
    | cons _ _ => simp at h
  | cons x l ih =>
    intro r
    cases l' with
    | nil => simp at h
    | cons y l' =>
      obtain ⟨m, u⟩ := x
      obtain ⟨m', u'⟩ := y
      simp only [List.map_cons, List.cons.injEq] at h
      obtain ⟨rfl, h⟩ := h
      cases u with
      | solid v => exact ih l' h _
      | cavity c => rfl
      | back => exact ih l' h _
      | none => rfl

private theorem rLoop_replicate (m v : F) : ∀ (n : ℕ) (r : F),
    rLoop (List.replicate n (m, .solid v)) r = .ok (r + n * (1 / v))
  | 0, r => by simp [rLoop]
  | n + 1, r => by
    rw [List.replicate_succ, rLoop, rLoop_replicate m v n]
    congr 1
    push_cast
    ring

private theorem rLoop_elements [CharZero F] (layers : List (Mat F)) (height angle : F) :
    ∀ (ms : List (Mat F)) (ns : List ℕ) (j : ℕ) (r : F), ms.length = ns.length →
      (∀ m ∈ ms, ∃ s, m.substance = .normal s) →
      rLoop (elementsFrom layers height angle j ms ns) r = .ok (r + (ms.map layerResistance).sum)
  | [], [], _, _, _, _ => by simp [elementsFrom, rLoop]
  | _ :: _, [], _, _, h, _ => by simp at h
  | [], _ :: _, _, _, h, _ => by simp at h
  | m :: ms, n :: ns, j, r, h, hs => by
    obtain ⟨s, hs0⟩ := hs m (by simp)
    rw [elementsFrom]
    have e : layerU layers height angle j m (max n 1)
        = .solid (s.conductivity.getD 0 / (m.thickness / (max n 1 : ℕ))) := by
      unfold layerU
      rw [hs0]
    rw [e, rLoop_append _ _ _ _ (rLoop_replicate _ _ _ _),
      rLoop_elements layers height angle ms ns (j + 1) _ (by simpa using h)
        (fun m' hm' => hs m' (by simp [hm']))]
    rw [List.map_cons, List.sum_cons]
    congr 1
    have : ((max n 1 : ℕ) : F) ≠ 0 := Nat.cast_ne_zero.2 (by omega)
    have e2 : layerResistance m = ((max n 1 : ℕ) : F) * (1 / (s.conductivity.getD 0 / (m.thickness / (max n 1 : ℕ)))) := by
      unfold layerResistance
      rw [hs0]
      simp only
      rw [one_div_div, mul_div_assoc', mul_div_cancel₀ _ this]
    rw [e2]
    ring

/-- C25: if all the layers are solid, the R-value is the sum of the resistances of the layers.

Missing: constructions with cavities, for which it panics (`C25_violated_cavity`). -/
theorem C25_resistance_partial [LinearOrder F] [IsStrictOrderedRing F] (layers : List (Mat F)) (t : ℕ)
    (nElements : List ℕ) (height angle : F)
    (hne : layers ≠ []) (d : Discretization F)
    (h : build layers t nElements height angle = .ok d)
    (hsolid : ∀ m ∈ layers, ∃ s, m.substance = .normal s)
    (hpos : 0 < (layers.map layerResistance).sum) :
    d.rValue = .ok (layers.map layerResistance).sum := by
  have hl : nElements.length = layers.length := by
    by_contra hl
    unfold build at h
    rw [if_neg hl] at h
    cases h
  by_cases ha : Acceptable layers nElements
  · obtain ⟨d', h', _, _, hU, _⟩ := (C25_build layers t nElements height angle hl hne).1 ha
    rw [h] at h'
    cases h'
    unfold Discretization.rValue
    rw [rLoop_snd d.segments (elements layers height angle nElements ++ [(0, .back)]) (by simpa using hU),
      elements,
      rLoop_append _ _ _ _ (rLoop_elements layers height angle layers nElements 0 0 hl.symm hsolid)]
    simp only [rLoop, Outcome.bind, zero_add, add_zero]
    rw [if_pos hpos]
  · rw [(C25_build layers t nElements height angle hl hne).2 ha] at h
    cases h

/-- Not so with a cavity: the R-value of an accepted construction that has a gas is a panic
(`todo!()`). -/
theorem C25_violated_cavity [LinearOrder F] (layers : List (Mat F)) (t : ℕ)
    (nElements : List ℕ) (height angle : F) (d : Discretization F)
    (h : build layers t nElements height angle = .ok d)
    (hgas : ∃ m ∈ layers, ∃ g, m.substance = .gas g) : d.rValue = .panic := by
  have hne : layers ≠ [] := by rintro rfl; simp at hgas
  have hl : nElements.length = layers.length := by
    by_contra hl
    unfold build at h
    rw [if_neg hl] at h
    cases h
  by_cases ha : Acceptable layers nElements
  · obtain ⟨d', h', _, _, hU, _⟩ := (C25_build layers t nElements height angle hl hne).1 ha
    rw [h] at h'
    cases h'
    have hmem : ∀ (ms : List (Mat F)) (ns : List ℕ) (j : ℕ), ms.length = ns.length →
        (∃ m ∈ ms, ∃ g, m.substance = .gas g) →
        ∃ x c, (x, UValue.cavity c) ∈ elementsFrom layers height angle j ms ns := by
      intro ms
      induction ms with
      | nil => simp
      | cons m ms ih =>
        intro ns j hlen ⟨m', hm', g, hg⟩
        cases ns with
        | nil => simp at hlen
        | cons n ns =>
          rw [elementsFrom]
          rcases List.mem_cons.1 hm' with rfl | hm'
          · have e : ∃ c, layerU layers height angle j m' (max n 1) = .cavity c := by
              unfold layerU
              rw [hg]
              exact ⟨_, rfl⟩
            obtain ⟨c, hc⟩ := e
            refine ⟨if n = 0 then 0 else layerMass m' / n, c, List.mem_append_left _ ?_⟩
            rw [hc]
            exact List.mem_replicate.2 ⟨by omega, rfl⟩
          · obtain ⟨x, c, hxc⟩ := ih ns (j + 1) (by simpa using hlen) ⟨m', hm', g, hg⟩
            exact ⟨x, c, List.mem_append_right _ hxc⟩
    obtain ⟨x, c, hxc⟩ := hmem layers nElements 0 hl.symm hgas
    have hp : ∀ (l : List (F × UValue F)) (r : F), (∃ x c, (x, UValue.cavity c) ∈ l) →
        rLoop l r = .panic := by
      intro l
      induction l with
      | nil => simp
      | cons a l ih =>
        rintro r ⟨x, c, hm⟩
        obtain ⟨m, u⟩ := a
        rcases List.mem_cons.1 hm with e | hm'
        · cases e; rfl
        · cases u with
          | solid v => exact ih _ ⟨x, c, hm'⟩
          | cavity c => rfl
          | back => exact ih _ ⟨x, c, hm'⟩
          | none => rfl
    unfold Discretization.rValue
    rw [rLoop_snd d.segments (elements layers height angle nElements ++ [(0, .back)]) (by simpa using hU),
      elements, hp _ _ ⟨x, c, List.mem_append_left _ hxc⟩]
    rfl
  · rw [(C25_build layers t nElements height angle hl hne).2 ha] at h
    cases h

end

/-! ### Non-vacuity: a brick wall in two elements with an insulation without mass, and a double glazing -/

private def brick : Mat ℚ := ⟨1/5, .normal ⟨some (4/5), some 1700, some 800, none, none⟩⟩
private def foam : Mat ℚ := ⟨1/20, .normal ⟨some (1/25), none, none, none, none⟩⟩
private def glass : Mat ℚ := ⟨1/200, .normal ⟨some 1, some 2500, some 840, some (1/5), none⟩⟩
private def airGap : Mat ℚ := ⟨1/80, .gas (some .air)⟩

example : ∃ d, build [brick, foam] 1 [2, 0] 3 0 = .ok d ∧ d.segments.length = 4 ∧
    (d.segments.map Prod.fst).sum = 272000 ∧ d.rValue = .ok (3/2) ∧
    d.getChunks = .ok ([(0, 3)], [(3, 4)]) :=
  ⟨_, rfl, by decide +kernel, by decide +kernel, by decide +kernel, by decide +kernel⟩

example : ∃ d, build [glass, airGap, glass] 1 [1, 0, 1] 3 0 = .ok d ∧ d.rValue = .panic ∧
    d.segments.length = 4 ∧
    (d.segments.map Prod.snd)[1]? = some (.cavity ⟨.air, 1/80, 3, 0, 21/25, 1/5⟩) :=
  ⟨_, rfl, by decide +kernel, by decide +kernel, by decide +kernel⟩

example : Acceptable [glass, airGap, glass] [1, 0, 1] := by
  by_contra h
  have := (C25_build [glass, airGap, glass] 1 [1, 0, 1] (3 : ℚ) 0 rfl (by simp)).2 h
  revert this
  decide +kernel

example : ¬ Acceptable [glass, airGap] [1, 0] := by
  intro h
  obtain ⟨d, hd, _⟩ := (C25_build [glass, airGap] 1 [1, 0] (3 : ℚ) 0 rfl (by simp)).1 h
  revert hd
  have : build [glass, airGap] 1 [1, 0] (3 : ℚ) 0 = .err := by decide +kernel
  rw [this]
  simp

end Simple.Heat
