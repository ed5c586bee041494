import Mathlib.Tactic.NormNum
import Mathlib.Tactic.Linarith
import Mathlib.Algebra.BigOperators.Group.List.Basic
import Verif.Heat.AbsorptionModel
import Verif.Heat.GlazingProps

/-! # C88: the sun that each node of a surface absorbs -/

namespace Simple.Heat

variable {F : Type*} [Field F] [LinearOrder F] [IsStrictOrderedRing F]

namespace Spec

/-- First node of layer `i`: the layers before it have at least one segment each. -/
def firstNode (ns : List ℕ) (i : ℕ) : ℕ := ((ns.take i).map (max 1)).sum

/-- The layers are divided in `ns` segments (cavities and layers without mass in none, which stands for one),
with a node at each end of a segment. -/
structure Meshed (layers : List (Layer F)) (ns : List ℕ) (nNodes : ℕ) : Prop where
  perLayer : ns.length = layers.length
  cavities : ∀ i : ℕ, layers[i]? = some .gas → ns[i]? = some 0
  nodes : nNodes = firstNode ns ns.length + 1

/-- Node `i` of a layer of `n` segments which absorbs `alpha` in all: equal parts if the layer is transparent,
all at the side where the sun comes from if it is opaque. -/
def share (tau : F) (n : ℕ) (alpha : F) (i : ℕ) : F :=
  if 0 < tau then alpha / (n + 1) else if i = 0 then alpha else 0

/-- Node by node, from the side where the sun comes from, `l` is what a construction absorbs: its panes of
glass (or its only layer) are `gs`, which absorb `as`. -/
structure Absorbs (gs : List (Glazing F)) (as : List F) (ns : List ℕ) (nNodes : ℕ) (l : List F) : Prop where
  length : l.length = nNodes
  /-- Pane `k` is layer `2 k`, as there are cavities between panes. -/
  panes : ∀ (k : ℕ) (g : Glazing F) (a : F) (n i : ℕ), gs[k]? = some g → as[k]? = some a → ns[2 * k]? = some n →
    i ≤ max 1 n → l[firstNode ns (2 * k) + i]? = some (share g.tau (max 1 n) a i)
  /-- What is behind the last pane absorbs nothing. -/
  rest : ∀ j, firstNode ns (2 * gs.length - 1) < j → j < nNodes → l[j]? = some 0
  total : l.sum = as.sum

/-- A pane that lets `tau` through and absorbs `here` on the side where the sun comes from, and `there` on the
other. -/
def pane (tau here there : F) : Glazing F := ⟨tau, 1 - tau - here, 1 - tau - there, here, there⟩

/-- The panes absorb `as`: there is a balance of the sun that goes forwards (`a`) and backwards (`b`) between
them. -/
def PanesAbsorb (gs : List (Glazing F)) (as : List F) : Prop :=
  as.length = gs.length ∧ ∃ a b, Balance gs a b ∧
    ∀ (k : ℕ) (g : Glazing F), gs[k]? = some g → as[k]? = some (g.alphaFront * a k + g.alphaBack * b (k + 1))

end Spec

open Spec

/-! ## Panes of a construction -/

theorem alphasLoop_length (layers : List (Glazing F)) : ∀ (count i : ℕ) (acc : F) (l : List F),
    alphasLoop layers count i acc = .ok l → l.length = count
  | 0, _, _, l, h => by cases h; rfl
  | count + 1, i, acc, l, h => by
    unfold alphasLoop at h
    cases h0 : combineLayers (layers.take i) with
    | err => simp [h0, Outcome.bind] at h
    | panic => simp [h0, Outcome.bind] at h
    | ok g0 =>
      cases h1 : combineLayers (layers.drop i) with
      | err => simp [h0, h1, Outcome.bind] at h
      | panic => simp [h0, h1, Outcome.bind] at h
      | ok g1 =>
        simp only [h0, h1, Outcome.bind] at h
        cases h2 : alphasLoop layers count (i + 1) (g0.combinedAlphas g1).1 with
        | err => simp [h2] at h
        | panic => simp [h2] at h
        | ok r =>
          simp only [h2, Outcome.ok.injEq] at h
          rw [← h, List.length_cons, alphasLoop_length layers count (i + 1) _ r h2]

theorem alphas_length (layers : List (Glazing F)) (l : List F) (h : alphas layers = .ok l) :
    l.length = layers.length := by
  match layers with
  | [] => cases h; rfl
  | [g] => cases h; rfl
  | g :: g' :: rest =>
    unfold alphas at h
    simp only at h
    cases h1 : alphasLoop (g :: g' :: rest) ((g :: g' :: rest).length - 1) 1 0 with
    | err => simp only [h1, Outcome.bind] at h; cases h
    | panic => simp only [h1, Outcome.bind] at h; cases h
    | ok r =>
      have hr := alphasLoop_length _ _ _ _ _ h1
      simp only [h1, Outcome.bind] at h
      cases h2 : combineLayers (List.take ((g :: g' :: rest).length - 1) (g :: g' :: rest)) with
      | err => simp only [h2] at h; cases h
      | panic => simp only [h2] at h; cases h
      | ok g0 =>
        simp only [h2] at h
        cases h3 : (g :: g' :: rest).getLast? with
        | none => simp only [h3] at h; cases h
        | some g1 =>
          simp only [h3, Outcome.ok.injEq] at h
          rw [← h, List.length_append, hr]
          simp

/-- Pane `k` is layer `2 k`, and there is a cavity between panes. -/
theorem glazing_layers (layers : List (Layer F)) (gs : List (Glazing F)) (h : glazingFromIter layers = .ok gs) :
    0 < gs.length ∧ (∀ (k : ℕ) (g : Glazing F), gs[k]? = some g →
      ∃ tau af ab, layers[2 * k]? = some (.normal tau af ab) ∧
        g = pane (tau.getD 0) (af.getD 0.84) (ab.getD 0.84)) ∧
    ∀ k, k + 1 < gs.length → layers[2 * k + 1]? = some .gas := by
  induction hn : layers.length using Nat.strong_induction_on generalizing layers gs with
  | _ n ih =>
    match layers, hn with
    | [], _ => simp [glazingFromIter] at h
    | .gas :: _, _ => simp [glazingFromIter] at h
    | .normal t f b :: rest, hn =>
      rw [glazingFromIter] at h
      simp only [Glazing.new] at h
      have one : ∀ g : Glazing F, g = pane (t.getD 0) (f.getD 0.84) (b.getD 0.84) → gs = [g] → 0 < gs.length ∧ (∀ (k : ℕ) (g : Glazing F), gs[k]? = some g →
          ∃ tau af ab, (Layer.normal t f b :: rest)[2 * k]? = some (.normal tau af ab) ∧
            g = pane (tau.getD 0) (af.getD 0.84) (ab.getD 0.84)) ∧
          ∀ k, k + 1 < gs.length → (Layer.normal t f b :: rest)[2 * k + 1]? = some .gas := by
        rintro g hg rfl
        refine ⟨by simp, ?_, by simp⟩
        intro k g' hk
        cases k with
        | zero => simp only [List.getElem?_cons_zero, Option.some.injEq] at hk; subst hk
                  exact ⟨t, f, b, rfl, hg⟩
        | succ k => simp at hk
      split_ifs at h with hc hs
      · simp only [Outcome.bind, Outcome.ok.injEq] at h
        exact one _ (by unfold pane; congr 1 <;> ring) h.symm
      · simp only [Outcome.bind] at h
        match rest, hn with
        | [], _ =>
          simp only [Outcome.ok.injEq] at h
          exact one _ (by unfold pane; congr 1 <;> ring) h.symm
        | .normal _ _ _ :: _, _ => simp at h
        | .gas :: rest, hn =>
          simp only at h
          cases hr : glazingFromIter rest with
          | err => rw [hr] at h; simp at h
          | panic => rw [hr] at h; simp at h
          | ok gr =>
            rw [hr] at h
            simp only [Outcome.ok.injEq] at h
            subst h
            simp only [List.length_cons] at hn
            obtain ⟨h1, h2, h3⟩ := ih rest.length (by omega) rest gr hr rfl
            refine ⟨by simp, ?_, ?_⟩
            · intro k g hk
              cases k with
              | zero => simp only [List.getElem?_cons_zero, Option.some.injEq] at hk; subst hk
                        exact ⟨t, f, b, rfl, by unfold pane; congr 1 <;> ring⟩
              | succ k =>
                rw [List.getElem?_cons_succ] at hk
                obtain ⟨tau, af, ab, e1, e2⟩ := h2 k g hk
                exact ⟨tau, af, ab, by rw [show 2 * (k + 1) = 2 * k + 1 + 1 by ring]; simpa using e1, e2⟩
            · intro k hk
              cases k with
              | zero => rfl
              | succ k =>
                simp only [List.length_cons] at hk
                have := h3 k (by omega)
                rw [show 2 * (k + 1) + 1 = (2 * k + 1) + 1 + 1 by ring]
                simpa using this
      all_goals simp [Outcome.bind] at h

/-! ## The loop from the front -/

/-- What the panes from `k` on leave in the nodes. -/
def blocks (n : ℕ → ℕ) (tau : ℕ → F) : ℕ → List F → List F
  | _, [] => []
  | k, a :: as => (List.range (n k + 1)).map (share (tau k) (n k) a) ++ blocks n tau (k + 1) as

/-- Nodes of the `j` panes from `k` on. -/
def off (n : ℕ → ℕ) : ℕ → ℕ → ℕ
  | _, 0 => 0
  | k, j + 1 => n k + 1 + off n (k + 1) j

theorem blocks_length (n : ℕ → ℕ) (tau : ℕ → F) : ∀ (as : List F) (k : ℕ),
    (blocks n tau k as).length = off n k as.length
  | [], _ => rfl
  | a :: as, k => by simp [blocks, off, blocks_length n tau as (k + 1)]

theorem blocks_get (n : ℕ → ℕ) (tau : ℕ → F) : ∀ (as : List F) (k j i : ℕ) (a : F), as[j]? = some a →
    i ≤ n (k + j) → (blocks n tau k as)[off n k j + i]? = some (share (tau (k + j)) (n (k + j)) a i)
  | [], _, j, _, _, h, _ => by simp at h
  | a :: as, k, 0, i, x, h, hi => by
    simp only [List.getElem?_cons_zero, Option.some.injEq] at h
    subst h
    have hi' : i ≤ n k := hi
    rw [blocks, off, Nat.zero_add, List.getElem?_append_left (by simp; omega)]
    rw [List.getElem?_map, List.getElem?_range (by omega)]
    rfl
  | a :: as, k, j + 1, i, x, h, hi => by
    rw [List.getElem?_cons_succ] at h
    have e : k + (j + 1) = k + 1 + j := by ring
    rw [e] at hi ⊢
    rw [blocks, off, List.getElem?_append_right (by simp; omega)]
    rw [← blocks_get n tau as (k + 1) j i x h hi]
    congr 1
    simp
    omega

theorem share_sum (tau : F) (n : ℕ) (a : F) : ((List.range (n + 1)).map (share tau n a)).sum = a := by
  by_cases h : 0 < tau
  · have : share tau n a = fun _ => a / (n + 1) := by
      funext i; unfold share; rw [if_pos h]
    rw [this, List.map_const', List.sum_replicate, List.length_range, nsmul_eq_mul]
    have : (n : F) + 1 ≠ 0 := by positivity
    push_cast
    field_simp
  · have : share tau n a = fun i => if i = 0 then a else 0 := by
      funext i; unfold share; rw [if_neg h]
    rw [this, List.range_succ_eq_map]
    simp [List.map_map, Function.comp_def]

theorem blocks_sum (n : ℕ → ℕ) (tau : ℕ → F) : ∀ (as : List F) (k : ℕ), (blocks n tau k as).sum = as.sum
  | [], _ => rfl
  | a :: as, k => by
    rw [blocks, List.sum_append, share_sum, blocks_sum n tau as, List.sum_cons]

theorem addElem_at (pre post : List F) (x v : F) :
    addElem (pre ++ x :: post) pre.length v = .ok (pre ++ (x + v) :: post) := by
  unfold addElem
  rw [if_pos (by simp)]
  congr 1
  induction pre with
  | nil => rfl
  | cons y pre ih => simp only [List.cons_append, List.length_cons, List.modify_succ_cons, ih]

theorem spread_at (v : F) : ∀ (count : ℕ) (pre post : List F),
    spread v count pre.length (pre ++ (List.replicate count 0 ++ post)) = .ok (pre ++ (List.replicate count v ++ post))
  | 0, pre, post => rfl
  | count + 1, pre, post => by
    rw [spread, List.replicate_succ, List.cons_append, addElem_at, zero_add]
    simp only [Outcome.bind]
    have := spread_at v count (pre ++ [v]) post
    rw [List.length_append, List.length_singleton, List.append_assoc] at this
    simp only [List.singleton_append, List.append_assoc] at this
    rw [this, List.replicate_succ, List.cons_append]

theorem front_loop (ns : List ℕ) (layers : List (Layer F)) (n : ℕ → ℕ) (tau : ℕ → F) :
    ∀ (as : List F) (k : ℕ) (pre : List F) (m : ℕ),
    (∀ j, k ≤ j → j < k + as.length → (∃ c, ns[2 * j]? = some c ∧ layerSegments c = n j) ∧
      ∃ t af ab, layers[2 * j]? = some (.normal t af ab) ∧ t.getD 0 = tau j) →
    off n k as.length ≤ m →
    frontAlphasLoop ns layers k pre.length as (pre ++ List.replicate m 0)
      = .ok (pre ++ (blocks n tau k as ++ List.replicate (m - off n k as.length) 0))
  | [], k, pre, m, _, _ => by simp [frontAlphasLoop, blocks, off]
  | a :: as, k, pre, m, h, hm => by
    simp only [List.length_cons, off] at hm
    obtain ⟨⟨c, c1, c2⟩, t, af, ab, t1, t2⟩ := h k le_rfl (by simp)
    rw [frontAlphasLoop, Outcome.index, c1, Outcome.index, t1]
    simp only [Outcome.bind]
    have split : List.replicate m (0 : F) = List.replicate (n k + 1) 0 ++ List.replicate (m - (n k + 1)) 0 := by
      rw [← List.replicate_add]; congr 1; omega
    have key : (if t.getD 0 > 0 then
          spread (a / ((layerSegments c + 1 : ℕ) : F)) (layerSegments c + 1) pre.length (pre ++ List.replicate m 0)
        else addElem (pre ++ List.replicate m 0) pre.length a)
        = .ok ((pre ++ (List.range (n k + 1)).map (share (tau k) (n k) a)) ++ List.replicate (m - (n k + 1)) 0) := by
      rw [c2, t2, split]
      by_cases ht : tau k > 0
      · rw [if_pos ht, spread_at, List.append_assoc]
        congr 3
        have : share (tau k) (n k) a = fun _ => a / (n k + 1) := by
          funext i; unfold share; rw [if_pos ht]
        rw [this, List.map_const', List.length_range]
        push_cast
        rfl
      · rw [if_neg ht, List.replicate_succ, List.cons_append, addElem_at, zero_add, List.append_assoc]
        congr 3
        have : share (tau k) (n k) a = fun i => if i = 0 then a else 0 := by
          funext i; unfold share; rw [if_neg ht]
        rw [this, List.range_succ_eq_map]
        simp [List.map_map, Function.comp_def, List.map_const']
    rw [key]
    simp only
    have := front_loop ns layers n tau as (k + 1) (pre ++ (List.range (n k + 1)).map (share (tau k) (n k) a))
      (m - (n k + 1)) (fun j h1 h2 => h j (by omega) (by simp; omega)) (by omega)
    rw [List.length_append, List.length_map, List.length_range] at this
    rw [c2, this]
    congr 1
    rw [blocks, List.append_assoc, List.append_assoc, List.length_cons, off]
    congr 4
    omega

/-! ## Nodes of the layers -/

theorem firstNode_succ (ns : List ℕ) (i c : ℕ) (h : ns[i]? = some c) :
    firstNode ns (i + 1) = firstNode ns i + max 1 c := by
  unfold firstNode
  rw [List.take_add_one, h]
  simp

theorem firstNode_mono (ns : List ℕ) (i j : ℕ) (h : i ≤ j) : firstNode ns i ≤ firstNode ns j := by
  unfold firstNode
  rw [show ns.take i = (ns.take j).take i by rw [List.take_take, min_eq_left h]]
  conv_rhs => rw [← List.take_append_drop i (ns.take j)]
  rw [List.map_append, List.sum_append]
  omega

theorem segments_max (c : ℕ) : layerSegments c = max 1 c := by
  unfold layerSegments
  split_ifs <;> omega

theorem firstNode_off (ns : List ℕ) (n : ℕ → ℕ) : ∀ (j k : ℕ),
    (∀ i, k ≤ i → i < k + j → ∃ c, ns[2 * i]? = some c ∧ max 1 c = n i) →
    (∀ i, k ≤ i → i < k + j → ns[2 * i + 1]? = some 0) →
    firstNode ns (2 * (k + j)) = firstNode ns (2 * k) + off n k j
  | 0, k, _, _ => by simp [off]
  | j + 1, k, h1, h2 => by
    obtain ⟨c, c1, c2⟩ := h1 k le_rfl (by omega)
    rw [show k + (j + 1) = k + 1 + j by ring, firstNode_off ns n j (k + 1) (fun i a b => h1 i (by omega) (by omega))
      (fun i a b => h2 i (by omega) (by omega)), off, show 2 * (k + 1) = 2 * k + 1 + 1 by ring,
      firstNode_succ ns _ 0 (h2 k le_rfl (by omega)), firstNode_succ ns _ c c1, c2]
    simp
    omega

theorem off_succ (n : ℕ → ℕ) : ∀ j k, off n k (j + 1) = off n k j + (n (k + j) + 1)
  | 0, k => by simp [off]
  | j + 1, k => by
    rw [off, off_succ n j (k + 1), off, show k + 1 + j = k + (j + 1) by ring]
    omega

/-- What the loops need. -/
theorem pane_nodes (layers : List (Layer F)) (gs : List (Glazing F)) (h : glazingFromIter layers = .ok gs)
    (ns : List ℕ) (nNodes : ℕ) (hm : Meshed layers ns nNodes) :
    (∀ j, j < gs.length → (∃ c, ns[2 * j]? = some c ∧ layerSegments c = max 1 (ns.getD (2 * j) 0)) ∧
      ∃ t af ab, layers[2 * j]? = some (.normal t af ab) ∧ t.getD 0 = (gs[j]?.map Glazing.tau).getD 0) ∧
    (∀ j, j < gs.length → firstNode ns (2 * j) = off (fun j => max 1 (ns.getD (2 * j) 0)) 0 j) ∧
    off (fun j => max 1 (ns.getD (2 * j) 0)) 0 gs.length = firstNode ns (2 * gs.length - 1) + 1 ∧
    off (fun j => max 1 (ns.getD (2 * j) 0)) 0 gs.length ≤ nNodes := by
  obtain ⟨h0, h1, h2⟩ := glazing_layers layers gs h
  have hn : ∀ j, j < gs.length → ∃ c, ns[2 * j]? = some c ∧ max 1 c = max 1 (ns.getD (2 * j) 0) := by
    intro j hj
    obtain ⟨tau, af, ab, e, -⟩ := h1 j _ (List.getElem?_eq_getElem hj)
    have hl : 2 * j < ns.length := by
      rw [hm.perLayer]
      exact (List.getElem?_eq_some_iff.1 e).1
    exact ⟨ns[2 * j], List.getElem?_eq_getElem hl, by rw [List.getD_eq_getElem?_getD, List.getElem?_eq_getElem hl]; rfl⟩
  have hgas : ∀ j, j + 1 < gs.length → ns[2 * j + 1]? = some 0 := fun j hj => hm.cavities _ (h2 j hj)
  have hoff : ∀ j, j < gs.length → firstNode ns (2 * j) = off (fun j => max 1 (ns.getD (2 * j) 0)) 0 j := by
    intro j hj
    have := firstNode_off ns (fun j => max 1 (ns.getD (2 * j) 0)) j 0 (fun i _ hi => hn i (by omega))
      (fun i _ hi => hgas i (by omega))
    rw [Nat.zero_add] at this
    rw [this]
    simp [firstNode]
  obtain ⟨m, hgm⟩ : ∃ m, gs.length = m + 1 := ⟨gs.length - 1, by omega⟩
  obtain ⟨c, c1, c2⟩ := hn m (by omega)
  have hlast : off (fun j => max 1 (ns.getD (2 * j) 0)) 0 gs.length = firstNode ns (2 * gs.length - 1) + 1 := by
    rw [hgm, off_succ, ← hoff m (by omega), show 2 * (m + 1) - 1 = 2 * m + 1 by omega, firstNode_succ ns _ c c1]
    simp only [Nat.zero_add]
    rw [← c2]
    omega
  have hlen : 2 * m < ns.length := (List.getElem?_eq_some_iff.1 c1).1
  have hfit : off (fun j => max 1 (ns.getD (2 * j) 0)) 0 gs.length ≤ nNodes := by
    rw [hlast, hm.nodes]
    have := firstNode_mono ns (2 * gs.length - 1) ns.length (by omega)
    omega
  refine ⟨fun j hj => ?_, hoff, hlast, hfit⟩
  obtain ⟨c, e1, e2⟩ := hn j hj
  obtain ⟨t, af, ab, e3, e4⟩ := h1 j _ (List.getElem?_eq_getElem hj)
  refine ⟨⟨c, e1, by rw [segments_max, e2]⟩, t, af, ab, e3, ?_⟩
  rw [List.getElem?_eq_getElem hj, e4]
  rfl

/-- The loop from the front gives the nodes what they absorb. -/
theorem front_nodes (layers : List (Layer F)) (gs : List (Glazing F)) (h : glazingFromIter layers = .ok gs)
    (as : List F) (has : as.length = gs.length) (ns : List ℕ) (nNodes : ℕ) (hm : Meshed layers ns nNodes) :
    ∃ l, frontAlphasLoop ns layers 0 0 as (List.replicate nNodes 0) = .ok l ∧ Absorbs gs as ns nNodes l := by
  obtain ⟨h1, hoff, hlast, hfit⟩ := pane_nodes layers gs h ns nNodes hm
  have key := front_loop ns layers (fun j => max 1 (ns.getD (2 * j) 0)) (fun j => (gs[j]?.map Glazing.tau).getD 0) as 0 [] nNodes
    (fun j _ hj => h1 j (by omega)) (by rw [has]; exact hfit)
  simp only [List.nil_append, List.length_nil] at key
  refine ⟨_, key, ?_, ?_, ?_, ?_⟩
  · rw [List.length_append, blocks_length, List.length_replicate, has]
    omega
  · intro k g a n i hg ha hk hi
    have hkl : k < gs.length := (List.getElem?_eq_some_iff.1 hg).1
    have hnk : ns.getD (2 * k) 0 = n := by rw [List.getD_eq_getElem?_getD, hk]; rfl
    have := blocks_get (fun j => max 1 (ns.getD (2 * j) 0)) (fun j => (gs[j]?.map Glazing.tau).getD 0) as 0 k i a ha
      (by simp only [Nat.zero_add]; rw [hnk]; exact hi)
    rw [hoff k hkl, List.getElem?_append_left (List.getElem?_eq_some_iff.1 this).1, this]
    simp only [Nat.zero_add]
    rw [hg, hnk]
    rfl
  · intro j h1 h2
    rw [List.getElem?_append_right (by rw [blocks_length, has, hlast]; omega), List.getElem?_replicate, blocks_length,
      if_pos (by rw [has, hlast]; omega)]
  · rw [List.sum_append, blocks_sum]
    simp

/-! ## The loop from the back -/

theorem addElem_length (l r : List F) (i : ℕ) (v : F) (h : addElem l i v = .ok r) : r.length = l.length ∧ i < l.length := by
  unfold addElem at h
  by_cases hi : i < l.length
  · rw [if_pos hi] at h
    cases h
    exact ⟨by simp, hi⟩
  · rw [if_neg hi] at h
    cases h

theorem addElem_mirror (l r : List F) (j : ℕ) (v : F) (h : addElem l.reverse j v = .ok r) :
    addElem l (l.length - j - 1) v = .ok r.reverse := by
  have hj := (addElem_length _ _ _ _ h).2
  rw [List.length_reverse] at hj
  unfold addElem at h ⊢
  rw [if_pos (by rwa [List.length_reverse])] at h
  rw [if_pos (by omega)]
  cases h
  congr 1
  apply List.ext_getElem
  · simp
  · intro i h1 h2
    simp only [List.length_modify] at h1
    rw [List.getElem_reverse, List.getElem_modify, List.getElem_modify, List.getElem_reverse]
    simp only [List.length_modify, List.length_reverse]
    by_cases hi : l.length - j - 1 = i
    · rw [if_pos hi, if_pos (by omega)]
      congr 2
      omega
    · rw [if_neg hi, if_neg (by omega)]
      congr 1
      omega

theorem spread_mirror (v : F) (g : ℕ) : ∀ (count i : ℕ) (l r : List F), spread v count (g + i) l.reverse = .ok r →
    spreadBack v (l.length - g) count i l = .ok r.reverse ∧ r.length = l.length
  | 0, i, l, r, h => by
    cases h
    simp [spreadBack]
  | count + 1, i, l, r, h => by
    rw [spread] at h
    cases h1 : addElem l.reverse (g + i) v with
    | err => rw [h1] at h; cases h
    | panic => rw [h1] at h; cases h
    | ok x =>
      obtain ⟨h2, h3⟩ := addElem_length _ _ _ _ h1
      rw [List.length_reverse] at h2 h3
      have h4 := addElem_mirror l x (g + i) v h1
      rw [h1] at h
      simp only [Outcome.bind] at h
      have h5 := spread_mirror v g count (i + 1) x.reverse r (by rw [List.reverse_reverse]; exact h)
      rw [List.length_reverse, h2] at h5
      rw [spreadBack, if_pos (by omega), show l.length - g - i - 1 = l.length - (g + i) - 1 by omega, h4]
      simp only [Outcome.bind]
      exact h5

/-- The loop from the back is that from the front, on the construction and the nodes in reverse. -/
theorem back_mirror (ns : List ℕ) (layers : List (Layer F)) (hl : ns.length = layers.length) (n : ℕ → ℕ) (tau : ℕ → F) :
    ∀ (as : List F) (k g : ℕ) (acc r : List F),
    (∀ j, k ≤ j → j < k + as.length → (∃ c, ns.reverse[2 * j]? = some c ∧ layerSegments c = n j) ∧
      ∃ t af ab, layers.reverse[2 * j]? = some (.normal t af ab) ∧ t.getD 0 = tau j) →
    g + off n k as.length ≤ acc.length →
    frontAlphasLoop ns.reverse layers.reverse k g as acc.reverse = .ok r →
    backAlphasLoop ns layers k (acc.length - g) as acc = .ok r.reverse
  | [], k, g, acc, r, _, _, h => by
    cases h
    simp [backAlphasLoop]
  | a :: as, k, g, acc, r, hx, hg, h => by
    simp only [List.length_cons, off] at hg
    obtain ⟨⟨c, c1, c2⟩, t, af, ab, t1, t2⟩ := hx k le_rfl (by simp)
    have hk : 2 * k < layers.length := by
      have := (List.getElem?_eq_some_iff.1 t1).1
      rwa [List.length_reverse] at this
    rw [frontAlphasLoop, Outcome.index, c1, Outcome.index, t1] at h
    simp only [Outcome.bind] at h
    have c1' : ns[layers.length - 2 * k - 1]? = some c := by
      rw [List.getElem?_reverse (by omega), hl] at c1
      rw [← c1]
      congr 1
      omega
    have t1' : layers[layers.length - 2 * k - 1]? = some (.normal t af ab) := by
      rw [List.getElem?_reverse (by omega)] at t1
      rw [← t1]
      congr 1
      omega
    rw [backAlphasLoop, if_pos (by omega), Outcome.index, c1', Outcome.index, t1']
    simp only [Outcome.bind]
    cases hs : (if t.getD 0 > 0 then spread (a / ((layerSegments c + 1 : ℕ) : F)) (layerSegments c + 1) g acc.reverse
        else addElem acc.reverse g a) with
    | err => rw [hs] at h; cases h
    | panic => rw [hs] at h; cases h
    | ok x =>
      rw [hs] at h
      simp only at h
      have key : (if t.getD 0 > 0 then
            spreadBack (a / ((layerSegments c + 1 : ℕ) : F)) (acc.length - g) (layerSegments c + 1) 0 acc
          else if 1 ≤ acc.length - g then addElem acc (acc.length - g - 1) a else .panic) = .ok x.reverse ∧
          x.length = acc.length := by
        by_cases ht : t.getD 0 > 0
        · rw [if_pos ht] at hs ⊢
          exact spread_mirror _ g _ 0 acc x hs
        · rw [if_neg ht] at hs ⊢
          rw [if_pos (by omega)]
          refine ⟨addElem_mirror acc x g a hs, ?_⟩
          rw [(addElem_length _ _ _ _ hs).1, List.length_reverse]
      rw [key.1]
      simp only
      rw [if_pos (by omega)]
      have := back_mirror ns layers hl n tau as (k + 1) (g + (layerSegments c + 1)) x.reverse r
        (fun j a b => hx j (by omega) (by simp; omega)) (by rw [List.length_reverse, key.2]; omega)
        (by rw [List.reverse_reverse]; exact h)
      rw [List.length_reverse, key.2] at this
      rw [← this]
      congr 1
      omega

theorem firstNode_all (ns : List ℕ) : firstNode ns ns.length = (ns.map (max 1)).sum := by
  unfold firstNode
  rw [List.take_length]

theorem meshed_reverse (layers : List (Layer F)) (ns : List ℕ) (nNodes : ℕ) (hm : Meshed layers ns nNodes) :
    Meshed layers.reverse ns.reverse nNodes := by
  refine ⟨by simp [hm.perLayer], fun i hi => ?_, ?_⟩
  · have hl : i < layers.length := by
      have := (List.getElem?_eq_some_iff.1 hi).1
      rwa [List.length_reverse] at this
    rw [List.getElem?_reverse hl] at hi
    rw [List.getElem?_reverse (by rw [hm.perLayer]; exact hl), hm.perLayer]
    exact hm.cavities _ hi
  · rw [hm.nodes, firstNode_all, firstNode_all, List.map_reverse, List.sum_reverse]

theorem back_nodes (layers : List (Layer F)) (gs : List (Glazing F)) (h : glazingFromIter layers.reverse = .ok gs)
    (as : List F) (has : as.length = gs.length) (ns : List ℕ) (nNodes : ℕ) (hm : Meshed layers ns nNodes) :
    ∃ l, backAlphasLoop ns layers 0 nNodes as (List.replicate nNodes 0) = .ok l ∧
      Absorbs gs as ns.reverse nNodes l.reverse := by
  have hm' := meshed_reverse layers ns nNodes hm
  obtain ⟨h1, -, -, hfit⟩ := pane_nodes layers.reverse gs h ns.reverse nNodes hm'
  obtain ⟨l, h2, h3⟩ := front_nodes layers.reverse gs h as has ns.reverse nNodes hm'
  refine ⟨l.reverse, ?_, by rwa [List.reverse_reverse]⟩
  have := back_mirror ns layers hm.perLayer (fun j => max 1 (ns.reverse.getD (2 * j) 0))
    (fun j => (gs[j]?.map Glazing.tau).getD 0) as 0 0 (List.replicate nNodes 0) l (fun j _ hj => h1 j (by omega))
    (by rw [List.length_replicate, has]; omega) (by rw [List.reverse_replicate]; exact h2)
  rwa [List.length_replicate, Nat.sub_zero] at this

/-! ## Results -/

theorem panes_absorb (layers : List (Layer F)) (gs : List (Glazing F)) (h : glazingFromIter layers = .ok gs)
    (ha : ∀ t f b, Layer.normal t f b ∈ layers → 0 ≤ f.getD 0.84 ∧ 0 ≤ b.getD 0.84) :
    ∃ as r, alphas gs = .ok as ∧ PanesAbsorb gs as ∧ combineLayers gs = .ok r ∧ as.sum + r.tau + r.rhoFront = 1 ∧
      ∀ x ∈ as, 0 ≤ x ∧ x ≤ 1 := by
  obtain ⟨h1, h2, h3⟩ := C24_from_construction layers gs h ha
  obtain ⟨a, b, hb, -, -⟩ := C24_balance_exists gs h2 h3
  obtain ⟨l, l1, l2, l3⟩ := C24_alphas_spec gs h2 h3 a b hb
  obtain ⟨r, l', r1, r2, -, r4, r5, -⟩ := C24_conservation gs h1 h2 h3
  rw [l1] at r2
  cases r2
  exact ⟨l, r, l1, ⟨l2, a, b, hb, l3⟩, r1, r4, r5⟩

/-- C88: each node absorbs its share of what its layer absorbs, of the sun on the front and of the sun on the
back; all that the panes absorb reaches their own nodes, so that what goes through, what is reflected and what the
nodes absorb add up. -/
theorem C88_nodes (layers : List (Layer F)) (gf gb : List (Glazing F))
    (hf : glazingFromIter layers = .ok gf) (hb : glazingFromIter layers.reverse = .ok gb)
    (ha : ∀ t f b, Layer.normal t f b ∈ layers → 0 ≤ f.getD 0.84 ∧ 0 ≤ b.getD 0.84)
    (ns : List ℕ) (nNodes : ℕ) (hm : Meshed layers ns nNodes) :
    ∃ front back af ab rf rb, nodeAlphas layers ns nNodes = .ok (front, back) ∧
      PanesAbsorb gf af ∧ Absorbs gf af ns nNodes front ∧
      PanesAbsorb gb ab ∧ Absorbs gb ab ns.reverse nNodes back.reverse ∧
      combineLayers gf = .ok rf ∧ front.sum + rf.tau + rf.rhoFront = 1 ∧
      combineLayers gb = .ok rb ∧ back.sum + rb.tau + rb.rhoFront = 1 := by
  obtain ⟨af, rf, f1, f2, f3, f4, -⟩ := panes_absorb layers gf hf ha
  obtain ⟨ab, rb, b1, b2, b3, b4, -⟩ := panes_absorb layers.reverse gb hb (fun t f b h => ha t f b (by simpa using h))
  obtain ⟨front, f5, f6⟩ := front_nodes layers gf hf af f2.1 ns nNodes hm
  obtain ⟨back, b5, b6⟩ := back_nodes layers gb hb ab b2.1 ns nNodes hm
  refine ⟨front, back, af, ab, rf, rb, ?_, f2, f6, b2, b6, f3, by rw [f6.total]; exact f4, b3, ?_⟩
  · have hne : layers.isEmpty = false := by
      cases layers with
      | nil => simp [glazingFromIter] at hf
      | cons a l => rfl
    unfold nodeAlphas
    rw [hne, hf, hb]
    simp only [Outcome.bind, f1, f5, b1, b5, Bool.false_eq_true, if_false]
  · have := b6.total
    rw [List.sum_reverse] at this
    rw [this]
    exact b4

/-- C88: no node absorbs less than nothing. -/
theorem C88_nonneg (gs : List (Glazing F)) (as : List F) (ns : List ℕ) (nNodes : ℕ) (l : List F)
    (h : Absorbs gs as ns nNodes l) (ha : ∀ a ∈ as, 0 ≤ a) (has : as.length = gs.length)
    (k i : ℕ) (n : ℕ) (hk : k < gs.length) (hn : ns[2 * k]? = some n) (hi : i ≤ max 1 n) :
    ∃ x, l[firstNode ns (2 * k) + i]? = some x ∧ 0 ≤ x := by
  have hk' : k < as.length := by omega
  refine ⟨_, h.panes k gs[k] as[k] n i (List.getElem?_eq_getElem hk) (List.getElem?_eq_getElem hk') hn hi, ?_⟩
  have := ha _ (List.getElem_mem hk')
  unfold share
  split_ifs
  · exact div_nonneg this (by positivity)
  · exact this
  · exact le_rfl

/-- C88: seen from the front, pane `k` is layer `2 k`, with its front towards the sun. -/
theorem C88_front_faces (layers : List (Layer F)) (gf : List (Glazing F)) (hf : glazingFromIter layers = .ok gf)
    (k : ℕ) (g : Glazing F) (hk : gf[k]? = some g) :
    ∃ tau af ab, layers[2 * k]? = some (.normal tau af ab) ∧ g = pane (tau.getD 0) (af.getD 0.84) (ab.getD 0.84) :=
  (glazing_layers layers gf hf).2.1 k g hk

/-- C88: seen from behind, pane `k` is layer `2 k` from the end, with its back towards the sun, if it absorbs the
same on both sides.  Without that it is false: `C88_violated_back_face`. -/
theorem C88_back_faces_partial (layers : List (Layer F)) (gb : List (Glazing F))
    (hb : glazingFromIter layers.reverse = .ok gb)
    (hs : ∀ t f b, Layer.normal t f b ∈ layers → f.getD 0.84 = b.getD 0.84)
    (k : ℕ) (g : Glazing F) (hk : gb[k]? = some g) :
    ∃ tau af ab, layers[layers.length - 1 - 2 * k]? = some (.normal tau af ab) ∧
      g = pane (tau.getD 0) (ab.getD 0.84) (af.getD 0.84) := by
  obtain ⟨tau, af, ab, h1, h2⟩ := (glazing_layers _ gb hb).2.1 k g hk
  have hl : 2 * k < layers.length := by
    have := (List.getElem?_eq_some_iff.1 h1).1
    rwa [List.length_reverse] at this
  rw [List.getElem?_reverse hl] at h1
  refine ⟨tau, af, ab, h1, ?_⟩
  rw [h2, hs tau af ab (List.mem_of_getElem? h1)]

/-- C88 fails: behind a layer that absorbs `af` in front and `ab` behind, it absorbs `af` of the sun. -/
theorem C88_violated_back_face (af ab : F) (h1 : 0 ≤ af) (h2 : af ≤ 1) (h3 : 0 ≤ ab) (h4 : ab ≤ 1) (hne : af ≠ ab) :
    nodeAlphas [.normal none (some af) (some ab)] [0] 2 = .ok ([af, 0], [0, af]) ∧ [0, af] ≠ [0, ab] := by
  refine ⟨?_, by simpa using hne⟩
  have hg : glazingFromIter [Layer.normal none (some af) (some ab)] = .ok [⟨0, 1 - af, 1 - ab, af, ab⟩] := by
    rw [glazingFromIter]
    simp only [Glazing.new, Option.getD_none, Option.getD_some, sub_zero]
    rw [if_pos ⟨le_rfl, zero_le_one, by linarith, by linarith, by linarith, by linarith⟩]
    simp only [Outcome.bind]
    rw [if_pos (by norm_num)]
    congr 3 <;> ring
  unfold nodeAlphas
  rw [List.reverse_singleton, hg]
  simp [Outcome.bind, alphas, frontAlphasLoop, backAlphasLoop, Outcome.index, addElem, layerSegments,
    List.replicate, List.modify]

/-! ## Examples -/

/-- Two panes, the second coated, and a cavity. -/
def exampleWindow : List (Layer ℚ) :=
  [.normal (some 0.8) (some 0.12) (some 0.12), .gas, .normal (some 0.6) (some 0.2) (some 0.3)]

/-- `nodeAlphas` of the example, as numbers. -/
private def exampleNodes : Option (List ℚ × List ℚ) :=
  match nodeAlphas exampleWindow [0, 0, 2] 5 with
  | .ok x => some x
  | _ => none

example : glazingFromIter exampleWindow = .ok [⟨0.8, 0.08, 0.08, 0.12, 0.12⟩, ⟨0.6, 0.2, 0.1, 0.2, 0.3⟩] ∧
    glazingFromIter exampleWindow.reverse = .ok [⟨0.6, 0.2, 0.1, 0.2, 0.3⟩, ⟨0.8, 0.08, 0.08, 0.12, 0.12⟩] ∧
    Meshed exampleWindow [0, 0, 2] 5 := by
  refine ⟨by decide +kernel, by decide +kernel, rfl, ?_, rfl⟩
  intro i hi
  match i with
  | 0 => cases hi
  | 1 => rfl
  | 2 => cases hi
  | i + 3 => cases hi

example : exampleNodes.map (fun x => (x.1.length, x.2.length)) = some (5, 5) := by decide +kernel

end Simple.Heat
