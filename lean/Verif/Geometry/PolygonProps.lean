import Mathlib.Data.List.Chain
import Mathlib.Data.List.Rotate
import Mathlib.Data.List.Perm.Subperm
import Mathlib.Algebra.BigOperators.Group.List.Basic
import Mathlib.Data.Int.ModEq
import Verif.Geometry.PolygonModel
import Verif.Geometry.LoopProps
import Verif.Geometry.ExactPolygon

/-! C49: polygons with holes. -/

namespace Simple.Geometry.Polygon

namespace Spec

/-- The calls that change a polygon. -/
inductive Op where
  | cut (hole : Loop)
  | reverse

/-- The polygon after a call, whether it succeeded or not. -/
noncomputable def after (p : Polygon) : Op → Polygon
  | .cut hole => (p.cutHole hole).2
  | .reverse => p.reverse

/-- The polygons that can be made. -/
inductive Reachable : Polygon → Prop
  | new (outer : Loop) (p : Polygon) : Polygon.new outer = .ok p → Reachable p
  | step (p : Polygon) (op : Op) : Reachable p → Reachable (after p op)

/-- `r` is a single walk around `outer` and the `holes`: at some vertex it goes out to a vertex of a hole, around the
hole, through each of its vertices once, back to the vertex where it came in and then out the same way. -/
inductive Bridged (outer : List (V3 ℝ)) : List (List (V3 ℝ)) → List (V3 ℝ) → Prop
  | none : Bridged outer [] outer
  | hole (holes : List (List (V3 ℝ))) (xs ys : List (V3 ℝ)) (e : V3 ℝ) (l : List (V3 ℝ)) (h : V3 ℝ) (t : List (V3 ℝ)) :
      Bridged outer holes (xs ++ e :: ys) → l.IsRotated (h :: t) →
      Bridged outer (l :: holes) (xs ++ e :: h :: (t ++ h :: e :: ys))

/-- The vertices of a hole in the direction that is opposite to that of the outer loop, which has normal `n`. -/
noncomputable def turned (n : V3 ℝ) (hole : Loop) : List (V3 ℝ) :=
  if n.isSameDirection hole.normal then hole.vertices.reverse else hole.vertices

/-- More than a millimetre apart. -/
def Apart (a b : V3 ℝ) : Prop := 1 / 1000 < (a - b).length

end Spec

/-! ### Areas -/

/-- C49: a hole that is refused leaves the polygon as it was; one that is accepted is added, and its area taken off. -/
theorem C49_cut (p : Polygon) (hole : Loop) :
    ((p.cutHole hole).1 ≠ .ok () → (p.cutHole hole).2 = p) ∧
    ((p.cutHole hole).1 = .ok () → hole.closed = true ∧ p.normal.isParallel hole.normal = true ∧
      (p.cutHole hole).2 = { p with area := p.area - hole.area, inner := p.inner ++ [hole] }) := by
  unfold cutHole
  cases h : p.checkHole hole with
  | err => simp
  | panic => simp
  | ok a =>
    simp only [ne_eq, not_true_eq_false, false_imp_iff, true_and, forall_const]
    unfold checkHole at h
    split_ifs at h with h1
    cases h2 : p.allInside hole.vertices with
    | err => rw [h2] at h; simp [Outcome.bind] at h
    | panic => rw [h2] at h; simp [Outcome.bind] at h
    | ok u =>
      rw [h2] at h
      simp only [Outcome.bind] at h
      cases h3 : noneContained hole p.inner with
      | err => rw [h3] at h; simp at h
      | panic => rw [h3] at h; simp at h
      | ok u =>
        rw [h3] at h
        simp only [Loop.getArea] at h
        split_ifs at h with h4
        simp only [Outcome.ok.injEq] at h
        subst h
        exact ⟨by simpa using h4, by simpa using h1, rfl⟩

/-- C49: after any sequence of cuts and reversals the area is that of the outer loop minus those of the holes. -/
theorem C49_area (p : Polygon) (h : Spec.Reachable p) :
    p.area = p.outer.area - (p.inner.map Loop.area).sum := by
  induction h with
  | new outer p h =>
    simp only [Polygon.new, Loop.getArea] at h
    split_ifs at h
    simp only [Outcome.bind, Outcome.ok.injEq] at h
    subst h
    simp
  | step p op _ ih =>
    cases op with
    | cut hole =>
      simp only [Spec.after]
      obtain ⟨h1, h2⟩ := C49_cut p hole
      by_cases h : (p.cutHole hole).1 = .ok ()
      · rw [(h2 h).2.2]
        simp only [List.map_append, List.map_cons, List.map_nil, List.sum_append, List.sum_cons, List.sum_nil]
        rw [ih]
        ring
      · rw [h1 h]; exact ih
    | reverse =>
      simp only [Spec.after, reverse, List.map_map]
      have : (Loop.area ∘ Loop.reverse) = Loop.area := by funext l; rfl
      rw [this]
      exact ih

/-! ### The order in which the vertices of a hole are visited -/

private theorem bridgeIndex_forward (id j n : ℕ) (hid : id < n) (hj : j ≤ n) (hn : n < 2 ^ 31) :
    bridgeIndex false id j n = (j + id) % n := by
  unfold bridgeIndex
  simp only [Bool.false_eq_true, if_false]
  have : ((id : ℤ) + j) % 2 ^ 64 = (j + id : ℕ) := by
    rw [Int.emod_eq_of_lt (by positivity)]
    · push_cast; ring
    · omega
  rw [this, Int.toNat_natCast]

private theorem bridgeIndex_backward (id j n : ℕ) (hid : id < n) (hj : j ≤ n) (hn : n < 2 ^ 31) (hd : n ∣ 2 ^ 64) :
    bridgeIndex true id j n = n - 1 - ((j + (n - 1 - id)) % n) := by
  unfold bridgeIndex
  simp only [if_true]
  by_cases h : j ≤ id
  · have : ((id : ℤ) - j) % 2 ^ 64 = (id - j : ℕ) := by
      rw [Int.emod_eq_of_lt (by omega)]
      · omega
      · omega
    rw [this, Int.toNat_natCast, Nat.mod_eq_of_lt (by omega), Nat.mod_eq_of_lt (show j + (n - 1 - id) < n by omega)]
    omega
  · have h64 : ((id : ℤ) - j) % 2 ^ 64 = ((2 ^ 64 - (j - id) : ℕ) : ℤ) := by
      rw [← Int.add_emod_right, Int.emod_eq_of_lt (by omega)]
      · omega
      · omega
    rw [h64, Int.toNat_natCast]
    obtain ⟨m, hm⟩ := hd
    have hm1 : 1 ≤ m := by
      rcases Nat.eq_zero_or_pos m with h0 | h0
      · rw [h0] at hm; simp at hm
      · exact h0
    have e1 : 2 ^ 64 - (j - id) = n * (m - 1) + (n - (j - id)) := by
      have : n * m = n * (m - 1) + n := by
        conv_lhs => rw [show m = (m - 1) + 1 by omega]
        ring
      omega
    rw [e1, Nat.mul_add_mod]
    have e2 : j + (n - 1 - id) = (j - id - 1) + n := by omega
    rw [e2, Nat.add_mod_right]
    by_cases hj2 : j - id = n
    · have : j = n ∧ id = 0 := by omega
      obtain ⟨rfl, rfl⟩ := this
      rw [Nat.mod_eq_of_lt (show j - (j - 0) < j by omega), Nat.mod_eq_of_lt (show j - 0 - 1 < j by omega)]
      omega
    · rw [Nat.mod_eq_of_lt (show n - (j - id) < n by omega), Nat.mod_eq_of_lt (show j - id - 1 < n by omega)]
      omega

private theorem walk_eq {α : Type*} (same : Bool) (id : ℕ) (l m : List α) (hm : m.length = l.length) (hl : l ≠ [])
    (h : ∀ j ≤ l.length, l[bridgeIndex same id j l.length]? = m[j % l.length]?) :
    walk same id l = .ok (m ++ [m.head (by rintro rfl; simp at hm; exact hl (List.eq_nil_of_length_eq_zero hm.symm))]) := by
  have hpos : 0 < l.length := List.length_pos_iff.2 hl
  unfold walk
  rw [if_neg (by omega)]
  have key : ∀ (js : List ℕ), (∀ j ∈ js, j ≤ l.length) → ∃ vs : List α, vs.length = js.length ∧
      js.foldr (fun j acc => (Outcome.index l (bridgeIndex same id j l.length)).bind fun v => acc.bind fun t => .ok (v :: t))
        (.ok []) = .ok vs ∧ ∀ i (hi : i < js.length), vs[i]? = m[js[i] % l.length]? := by
    intro js
    induction js with
    | nil => intro _; exact ⟨[], rfl, rfl, by simp⟩
    | cons j js ih =>
      intro hjs
      obtain ⟨vs, h1, h2, h3⟩ := ih (fun j hj => hjs j (List.mem_cons_of_mem _ hj))
      have hj := h j (hjs j (by simp))
      have hlt : j % l.length < m.length := by rw [hm]; exact Nat.mod_lt _ hpos
      rw [List.getElem?_eq_getElem hlt] at hj
      refine ⟨m[j % l.length] :: vs, by simp [h1], ?_, ?_⟩
      · simp only [List.foldr_cons]
        rw [h2]
        simp only [Outcome.index, hj, Outcome.bind]
      · intro i hi
        cases i with
        | zero => simp
        | succ i => simpa using h3 i (by simpa using hi)
  obtain ⟨vs, h1, h2, h3⟩ := key (List.range (l.length + 1)) (by intro j hj; simp at hj; omega)
  rw [h2]
  congr 1
  simp only [List.length_range] at h1 h3
  apply List.ext_getElem?
  intro i
  by_cases hi : i < l.length
  · rw [h3 i (by omega), List.getElem?_append_left (by omega)]
    simp [Nat.mod_eq_of_lt hi]
  · by_cases hi2 : i = l.length
    · subst hi2
      rw [h3 _ (by omega), List.getElem?_append_right (by omega)]
      simp [hm, List.head_eq_getElem]
    · rw [List.getElem?_eq_none (by omega), List.getElem?_eq_none (by simp [hm]; omega)]

/-- C49: the vertices of a hole are visited in their order around it, from the one of the bridge, each once, and then
that of the bridge again; for holes that turn like the outer loop the order is reversed, and the number of vertices has
to be a power of two. -/
theorem C49_walk_partial (same : Bool) (id : ℕ) (l : List (V3 ℝ)) (hid : id < l.length) (hn : l.length < 2 ^ 31)
    (hs : same = true → l.length ∣ 2 ^ 64) :
    ∃ t, walk same id l = .ok (l[id] :: t ++ [l[id]]) ∧
      (if same then l.reverse else l).IsRotated (l[id] :: t) := by
  have hl : l ≠ [] := by rintro rfl; simp at hid
  cases same with
  | false =>
    have hr : (l.rotate id).length = l.length := List.length_rotate ..
    have hw := walk_eq false id l (l.rotate id) hr hl (by
      intro j hj
      rw [bridgeIndex_forward id j _ hid hj hn]
      rw [List.getElem?_rotate (Nat.mod_lt _ (by omega)), Nat.mod_add_mod])
    have hne : l.rotate id ≠ [] := by rw [← List.length_pos_iff, hr]; omega
    have hh : (l.rotate id).head hne = l[id] := by
      rw [List.head_eq_getElem, List.getElem_rotate]
      simp [Nat.mod_eq_of_lt hid]
    refine ⟨(l.rotate id).tail, ?_, id, ?_⟩
    · rw [hw, ← hh, List.cons_head_tail]
    · simp only [Bool.false_eq_true, if_false]
      rw [← hh, List.cons_head_tail]
  | true =>
    have hd := hs rfl
    have hr : (l.reverse.rotate (l.length - 1 - id)).length = l.length := by simp
    have hw := walk_eq true id l (l.reverse.rotate (l.length - 1 - id)) hr hl (by
      intro j hj
      rw [bridgeIndex_backward id j _ hid hj hn hd]
      have hlt : j % l.length < l.length := Nat.mod_lt _ (by omega)
      have hlt2 : (j + (l.length - 1 - id)) % l.length < l.length := Nat.mod_lt _ (by omega)
      rw [List.getElem?_rotate (by simpa using hlt)]
      simp only [List.length_reverse, Nat.mod_add_mod]
      rw [List.getElem?_reverse (by omega)])
    have hne : l.reverse.rotate (l.length - 1 - id) ≠ [] := by rw [← List.length_pos_iff, hr]; omega
    have hh : (l.reverse.rotate (l.length - 1 - id)).head hne = l[id] := by
      rw [List.head_eq_getElem, List.getElem_rotate]
      simp only [List.length_reverse, List.getElem_reverse, zero_add]
      have h1 : (l.length - 1 - id) % l.length = l.length - 1 - id := Nat.mod_eq_of_lt (by omega)
      congr 1
      omega
    refine ⟨(l.reverse.rotate (l.length - 1 - id)).tail, ?_, l.length - 1 - id, ?_⟩
    · rw [hw, ← hh, List.cons_head_tail]
    · simp only [if_true]
      rw [← hh, List.cons_head_tail]

/-- C49 fails for holes that turn like the outer loop and whose number of vertices is not a power of two: the walk
never ends at the vertex where it came in. -/
theorem C49_violated_walk (n id : ℕ) (hid : id < n) (hn : n < 2 ^ 31) (hd : ¬ n ∣ 2 ^ 64) :
    bridgeIndex true id 0 n = id ∧ bridgeIndex true id n n ≠ id := by
  constructor
  · unfold bridgeIndex
    simp only [if_true]
    have : ((id : ℤ) - (0 : ℕ)) % 2 ^ 64 = id := by rw [Int.emod_eq_of_lt (by omega)] <;> omega
    rw [this, Int.toNat_natCast, Nat.mod_eq_of_lt hid]
  · unfold bridgeIndex
    simp only [if_true]
    have : ((id : ℤ) - (n : ℕ)) % 2 ^ 64 = ((2 ^ 64 + id - n : ℕ) : ℤ) := by
      rw [← Int.add_emod_right, Int.emod_eq_of_lt (by omega)]
      · omega
      · omega
    rw [this, Int.toNat_natCast]
    intro h
    apply hd
    have h1 : (2 ^ 64 + id - n) % n = (2 ^ 64 + id) % n := by
      conv_rhs => rw [show 2 ^ 64 + id = (2 ^ 64 + id - n) + n by omega]
      rw [Nat.add_mod_right]
    rw [h1] at h
    have h2 : 2 ^ 64 + id ≡ 0 + id [MOD n] := by
      unfold Nat.ModEq
      rw [h, zero_add, Nat.mod_eq_of_lt hid]
    exact (Nat.modEq_zero_iff_dvd).1 (Nat.ModEq.add_right_cancel' id h2)

/-- A triangular hole: the first vertex is met twice in a row and the walk ends at the second. -/
example : (List.range 4).map (fun j => bridgeIndex true 0 j 3) = [0, 0, 2, 1] ∧ ¬ 3 ∣ 2 ^ 64 := by decide +kernel

/-! ### The bridges -/

private theorem compare_eq_false (a b : V3 ℝ) : a.compare b = false ↔ Spec.Apart a b := by
  unfold V3.compare V3.compareBy Spec.Apart V3.length
  rw [decide_eq_false_iff_not, not_le, Real.lt_sqrt (by norm_num)]
  norm_num

private theorem apart_symm {a b : V3 ℝ} (h : Spec.Apart a b) : Spec.Apart b a := by
  unfold Spec.Apart at h ⊢
  have : (b - a).length = (a - b).length := by
    unfold V3.length; congr 1; simp only [V3.lengthSquared, V3.sub_x, V3.sub_y, V3.sub_z]; ring
  rwa [this]

private theorem setNormal_vertices (l : Loop) : l.setNormal.2.vertices = l.vertices := by
  unfold Loop.setNormal
  split_ifs
  · rfl
  · split
    · split
      · rfl
      · split <;> rfl
    · rfl

private theorem push_vertices (l l' : Loop) (v : V3 ℝ) (h : l.pushCollinear v false = (.ok (), l'))
    (ha : ∀ x ∈ l.vertices.getLast?, Spec.Apart x v) : l'.vertices = l.vertices ++ [v] := by
  unfold Loop.pushCollinear at h
  cases h1 : l.validToAdd v with
  | err => rw [h1] at h; simp at h
  | panic => rw [h1] at h; simp at h
  | ok u =>
    cases u
    rw [h1] at h
    dsimp only at h
    have h2 : ¬ (l.vertices.getLast?.map fun last => last.compare v) = some true := by
      intro hc
      rw [Option.map_eq_some_iff] at hc
      obtain ⟨x, hx, hxc⟩ := hc
      have := (compare_eq_false x v).2 (ha x hx)
      rw [this] at hxc
      simp at hxc
    rw [if_neg h2] at h
    have h3 : l.replacesLast v false = .ok false := by unfold Loop.replacesLast; simp
    rw [h3] at h
    simp only [Bool.false_eq_true, if_false] at h
    split_ifs at h
    · have := setNormal_vertices { l with vertices := l.vertices ++ [v] }
      rw [h] at this
      exact this
    · obtain ⟨-, rfl⟩ := Prod.mk.inj h
      rfl

private theorem pushAll_vertices (vs : List (V3 ℝ)) (l l' : Loop) (h : pushAll l vs = .ok l')
    (hc : vs.IsChain Spec.Apart) (hl : ∀ x ∈ l.vertices.getLast?, ∀ y ∈ vs.head?, Spec.Apart x y) :
    l'.vertices = l.vertices ++ vs := by
  induction vs generalizing l with
  | nil => simp only [pushAll, Outcome.ok.injEq] at h; simp [h]
  | cons v t ih =>
    unfold pushAll at h
    split at h
    · rename_i l1 h1
      have e := push_vertices l l1 v h1 (fun x hx => hl x hx v (by simp))
      have := ih l1 h hc.tail (by
        intro x hx y hy
        rw [e] at hx
        simp only [List.getLast?_append, List.getLast?_singleton, Option.some_or, Option.mem_def, Option.some.injEq] at hx
        subst hx
        cases t with
        | nil => simp at hy
        | cons w t =>
          simp only [List.head?_cons, Option.mem_def, Option.some.injEq] at hy
          subst hy
          rw [List.isChain_cons_cons] at hc
          exact hc.1)
      rw [this, e]
      simp
    · simp at h

private theorem joined_eq {α : Type*} (ext : List α) (i : ℕ) (hi : i < ext.length) (w : List α) :
    joined ext i w = ext.take i ++ ext[i] :: (w ++ ext[i] :: ext.drop (i + 1)) := by
  have key : ∀ (ext : List α) (k i : ℕ) (hi : i < ext.length),
      ((ext.zipIdx k).flatMap fun e => if e.2 = k + i then e.1 :: (w ++ [e.1]) else [e.1]) =
        ext.take i ++ ext[i] :: (w ++ ext[i] :: ext.drop (i + 1)) := by
    intro ext
    induction ext with
    | nil => intro k i hi; simp at hi
    | cons a t ih =>
      intro k i hi
      rw [List.zipIdx_cons, List.flatMap_cons]
      cases i with
      | zero =>
        have rest : ∀ (t : List α) (m : ℕ), k < m →
            ((t.zipIdx m).flatMap fun e => if e.2 = k + 0 then e.1 :: (w ++ [e.1]) else [e.1]) = t := by
          intro t
          induction t with
          | nil => intro m _; rfl
          | cons b s ih2 =>
            intro m hm
            rw [List.zipIdx_cons, List.flatMap_cons, ih2 (m + 1) (by omega), if_neg (by simp; omega)]
            rfl
        rw [rest t (k + 1) (by omega)]
        simp
      | succ i =>
        have := ih (k + 1) i (by simpa using hi)
        rw [show k + (i + 1) = k + 1 + i by ring, this, if_neg (by dsimp only; omega)]
        simp
  have := key ext 0 i hi
  simp only [zero_add] at this
  exact this

private theorem visit_mem {K : Type*} [LinearOrder K] (cs : List (K × ℕ × ℕ × ℕ)) :
    ∀ s : Nearest K, (∃ c : K × ℕ × ℕ × ℕ, s = ⟨some c.1, c.2.1, c.2.2.1, c.2.2.1, c.2.2.2⟩) ∨ s.dist = none →
      ((cs = [] ∧ cs.foldl Nearest.visit s = s) ∨
        ∃ c : K × ℕ × ℕ × ℕ, cs.foldl Nearest.visit s = ⟨some c.1, c.2.1, c.2.2.1, c.2.2.1, c.2.2.2⟩ ∧
          (c ∈ cs ∨ s = ⟨some c.1, c.2.1, c.2.2.1, c.2.2.1, c.2.2.2⟩) ∧
          (∀ d ∈ cs, c.1 ≤ d.1) ∧ (∀ m ∈ s.dist, c.1 ≤ m)) := by
  induction cs with
  | nil => intro s _; exact Or.inl ⟨rfl, rfl⟩
  | cons a t ih =>
    intro s hs
    right
    rw [List.foldl_cons]
    have hv : (s.visit a = ⟨some a.1, a.2.1, a.2.2.1, a.2.2.1, a.2.2.2⟩ ∧ ∀ m ∈ s.dist, a.1 ≤ m) ∨
        (s.visit a = s ∧ ∃ c : K × ℕ × ℕ × ℕ, s = ⟨some c.1, c.2.1, c.2.2.1, c.2.2.1, c.2.2.2⟩ ∧ c.1 ≤ a.1) := by
      unfold Nearest.visit
      rcases hs with ⟨c, rfl⟩ | hs
      · dsimp only
        split_ifs with h
        · exact Or.inl ⟨rfl, by simp only [Option.mem_def, Option.some.injEq, forall_eq']; exact h.le⟩
        · exact Or.inr ⟨rfl, c, rfl, not_lt.1 h⟩
      · rw [hs]
        exact Or.inl ⟨rfl, by simp⟩
    rcases hv with ⟨hv, hm⟩ | ⟨hv, c, hc, hca⟩
    · rw [hv]
      rcases ih _ (Or.inl ⟨a, rfl⟩) with ⟨rfl, h⟩ | ⟨c, h1, h2, h3, h4⟩
      · exact ⟨a, rfl, Or.inl (by simp), by simp, hm⟩
      · simp only [Option.mem_def, Option.some.injEq, forall_eq'] at h4
        refine ⟨c, h1, ?_, ?_, fun m hm' => le_trans h4 (hm m hm')⟩
        · rcases h2 with h2 | h2
          · exact Or.inl (List.mem_cons_of_mem _ h2)
          · left
            simp only [Nearest.mk.injEq, Option.some.injEq] at h2
            obtain ⟨e1, e2, e3, -, e4⟩ := h2
            have : c = a := by ext <;> simp [e1, e2, e3, e4]
            rw [this]; simp
        · intro d hd
          rcases List.mem_cons.1 hd with rfl | hd
          · exact h4
          · exact h3 d hd
    · rw [hv]
      rcases ih s hs with ⟨rfl, h⟩ | ⟨c', h1, h2, h3, h4⟩
      · refine ⟨c, hc, Or.inr hc, by simpa using hca, ?_⟩
        rw [hc]; simp
      · refine ⟨c', h1, ?_, ?_, h4⟩
        · rcases h2 with h2 | h2
          · exact Or.inl (List.mem_cons_of_mem _ h2)
          · exact Or.inr h2
        · intro d hd
          rcases List.mem_cons.1 hd with rfl | hd
          · have := h4 c.1 (by rw [hc]; simp)
            exact le_trans this hca
          · exact h3 d hd

private theorem mem_candidates (ext : List (V3 ℝ)) (inner : List (List (V3 ℝ))) (processed : List ℕ)
    (c : ℝ × ℕ × ℕ × ℕ) : c ∈ candidates ext inner processed ↔
      ∃ e l v, ext[c.2.1]? = some e ∧ inner[c.2.2.1]? = some l ∧ c.2.2.1 ∉ processed ∧ l[c.2.2.2]? = some v ∧
        c.1 = e.squaredDistance v := by
  obtain ⟨d, i, j, k⟩ := c
  unfold candidates
  simp only [List.mem_flatMap, List.mem_map, List.mem_filter, Prod.exists, List.mk_mem_zipIdx_iff_getElem?,
    Prod.mk.injEq]
  constructor
  · rintro ⟨e, i', h1, l, j', ⟨h2, h3⟩, v, k', h4, rfl, rfl, rfl, rfl⟩
    exact ⟨e, l, v, h1, h2, by simpa using h3, h4, rfl⟩
  · rintro ⟨e, l, v, h1, h2, h3, h4, rfl⟩
    exact ⟨e, i, h1, l, j, ⟨h2, by simpa using h3⟩, v, k, h4, rfl, rfl, rfl, rfl⟩

/-- C49: the bridge is between the two vertices that are closest, of those of the walk so far and those of the holes
that are not joined. -/
theorem C49_nearest (ext : List (V3 ℝ)) (inner : List (List (V3 ℝ))) (processed : List ℕ) (a b : ℕ)
    (h : ∃ (e : V3 ℝ) (i : ℕ) (l : List (V3 ℝ)) (v : V3 ℝ), e ∈ ext ∧ inner[i]? = some l ∧ i ∉ processed ∧ v ∈ l) :
    let s := (candidates ext inner processed).foldl Nearest.visit ⟨none, 0, 0, a, b⟩
    ∃ e l v, ext[s.ext]? = some e ∧ inner[s.hole]? = some l ∧ s.hole ∉ processed ∧ l[s.vertex]? = some v ∧
      s.lastHole = s.hole ∧
      ∀ e' ∈ ext, ∀ i l', inner[i]? = some l' → i ∉ processed → ∀ v' ∈ l',
        e.squaredDistance v ≤ e'.squaredDistance v' := by
  intro s
  obtain ⟨e0, i0, l0, v0, he0, hl0, hp0, hv0⟩ := h
  obtain ⟨a0, ha0⟩ := List.mem_iff_getElem?.1 he0
  obtain ⟨b0, hb0⟩ := List.mem_iff_getElem?.1 hv0
  have hne : (e0.squaredDistance v0, a0, i0, b0) ∈ candidates ext inner processed :=
    (mem_candidates ..).2 ⟨e0, l0, v0, ha0, hl0, hp0, hb0, rfl⟩
  rcases visit_mem (candidates ext inner processed) ⟨none, 0, 0, a, b⟩ (Or.inr rfl) with ⟨h1, -⟩ | ⟨c, h1, h2, h3, -⟩
  · rw [h1] at hne; simp at hne
  · rcases h2 with h2 | h2
    · obtain ⟨e, l, v, g1, g2, g3, g4, g5⟩ := (mem_candidates ..).1 h2
      have hs : s = ⟨some c.1, c.2.1, c.2.2.1, c.2.2.1, c.2.2.2⟩ := h1
      rw [hs]
      refine ⟨e, l, v, g1, g2, g3, g4, rfl, ?_⟩
      intro e' he' i l' hl' hi v' hv'
      obtain ⟨x, hx⟩ := List.mem_iff_getElem?.1 he'
      obtain ⟨y, hy⟩ := List.mem_iff_getElem?.1 hv'
      rw [← g5]
      exact h3 (e'.squaredDistance v', x, i, y) ((mem_candidates ..).2 ⟨e', l', v', hx, hl', hi, hy, rfl⟩)
    · simp at h2

private theorem joinAll_bridged (p : Polygon)
    (hsep : (p.outer.vertices ++ p.inner.flatMap Loop.vertices).Pairwise Spec.Apart)
    (hn : ∀ l ∈ p.inner, 2 ≤ l.vertices.length ∧ l.vertices.length < 2 ^ 31)
    (hs : ∀ l ∈ p.inner, p.outer.normal.isSameDirection l.normal = true → l.vertices.length ∣ 2 ^ 64)
    (k : ℕ) : ∀ (ret : Loop) (processed : List ℕ) (a b : ℕ) (r : Loop), p.joinAll k ret processed a b = .ok r →
      processed.length + k = p.inner.length → processed.Nodup → (∀ i ∈ processed, i < p.inner.length) →
      Spec.Bridged p.outer.vertices (processed.reverse.map fun i => Spec.turned p.outer.normal (p.inner.getD i Loop.new))
        ret.vertices →
      ret.vertices.IsChain Spec.Apart →
      (∀ v ∈ ret.vertices, v ∈ p.outer.vertices ∨ ∃ i ∈ processed, ∃ l, p.inner[i]? = some l ∧ v ∈ l.vertices) →
      ret.vertices ≠ [] →
      ∃ order : List Loop, order.Perm p.inner ∧
        Spec.Bridged p.outer.vertices (order.map (Spec.turned p.outer.normal)) r.vertices := by
  rw [List.pairwise_append] at hsep
  obtain ⟨-, hin, hout⟩ := hsep
  rw [List.flatMap_def, List.pairwise_flatten] at hin
  obtain ⟨hin1, hin2⟩ := hin
  rw [List.pairwise_map] at hin2
  have hcross : ∀ (i j : ℕ) (l m : Loop), p.inner[i]? = some l → p.inner[j]? = some m → i ≠ j →
      ∀ v ∈ l.vertices, ∀ w ∈ m.vertices, Spec.Apart v w := by
    intro i j l m hi hj hij v hv w hw
    rw [List.pairwise_iff_getElem] at hin2
    obtain ⟨hi', rfl⟩ := List.getElem?_eq_some_iff.1 hi
    obtain ⟨hj', rfl⟩ := List.getElem?_eq_some_iff.1 hj
    rcases lt_or_gt_of_ne hij with h | h
    · exact hin2 i j hi' hj' h v hv w hw
    · exact apart_symm (hin2 j i hj' hi' h w hw v hv)
  induction k with
  | zero =>
    intro ret processed a b r h hlen hnd hlt hb hc hm hv
    simp only [joinAll, Outcome.ok.injEq] at h
    subst h
    refine ⟨processed.reverse.map fun i => p.inner.getD i Loop.new, ?_, by rw [List.map_map]; exact hb⟩
    have hperm : processed.reverse.Perm (List.range p.inner.length) := by
      refine (List.reverse_perm _).trans ?_
      refine List.Subperm.perm_of_length_le (List.Nodup.subperm hnd ?_) (by simp; omega)
      intro i hi
      simpa using hlt i hi
    refine (hperm.map _).trans (List.Perm.of_eq ?_)
    apply List.ext_getElem
    · simp
    · intro i h1 h2
      simp [List.getD_eq_getElem?_getD, List.getElem?_eq_getElem h2]
  | succ k ih =>
    intro ret processed a b r h hlen hnd hlt hb hc hm hv
    simp only [joinAll] at h
    -- a hole that is left
    obtain ⟨i0, hi0, hi0p⟩ : ∃ i < p.inner.length, i ∉ processed := by
      by_contra hcon
      push Not at hcon
      have : (List.range p.inner.length).Subperm processed :=
        List.Nodup.subperm List.nodup_range (fun i hi => hcon i (by simpa using hi))
      have := this.length_le
      simp at this
      omega
    obtain ⟨v0, hv0⟩ := List.exists_mem_of_ne_nil _ hv
    have hl0 : p.inner[i0] ∈ p.inner := List.getElem_mem hi0
    have hpos : p.inner[i0].vertices ≠ [] := by
      have := (hn _ hl0).1
      rintro h0; rw [h0] at this; simp at this
    obtain ⟨w0, hw0⟩ := List.exists_mem_of_ne_nil _ hpos
    have near := C49_nearest ret.vertices (p.inner.map Loop.vertices) processed a b
      ⟨v0, i0, p.inner[i0].vertices, w0, hv0, by simp [hi0], hi0p, hw0⟩
    dsimp only at near
    generalize (candidates ret.vertices (p.inner.map Loop.vertices) processed).foldl Nearest.visit ⟨none, 0, 0, a, b⟩ = s at h near
    obtain ⟨e, l, v, g1, g2, g3, g4, g5, -⟩ := near
    rw [List.getElem?_map, Option.map_eq_some_iff] at g2
    obtain ⟨hole, hhole, rfl⟩ := g2
    have hmem : hole ∈ p.inner := List.mem_of_getElem? hhole
    obtain ⟨hsl, hse⟩ := List.getElem?_eq_some_iff.1 hhole
    have hidx : Outcome.index p.inner s.hole = .ok hole := by unfold Outcome.index; rw [hhole]
    rw [hidx] at h
    simp only [Outcome.bind] at h
    obtain ⟨hvl, hve⟩ := List.getElem?_eq_some_iff.1 g4
    obtain ⟨t, hw, hrot⟩ := C49_walk_partial (p.outer.normal.isSameDirection hole.normal) s.vertex hole.vertices hvl
      (hn hole hmem).2 (hs hole hmem)
    rw [hve] at hw hrot
    rw [hw] at h
    dsimp only at h
    obtain ⟨hel, hee⟩ := List.getElem?_eq_some_iff.1 g1
    have hj := joined_eq ret.vertices s.ext hel (v :: t ++ [v])
    rw [hee] at hj
    have hsplit : ret.vertices = ret.vertices.take s.ext ++ e :: ret.vertices.drop (s.ext + 1) := by
      rw [← hee, ← List.drop_eq_getElem_cons hel, List.take_append_drop]
    generalize ret.vertices.take s.ext = xs at hj hsplit
    generalize ret.vertices.drop (s.ext + 1) = ys at hj hsplit
    have hj' : joined ret.vertices s.ext (v :: t ++ [v]) = xs ++ e :: v :: (t ++ v :: e :: ys) := by
      rw [hj]; simp
    rw [hj'] at h
    -- the chain
    have hpermh : (v :: t).Perm hole.vertices := by
      have hp := hrot.perm.symm
      split_ifs at hp
      · exact hp.trans (List.reverse_perm _)
      · exact hp
    have hpw : (v :: t).Pairwise Spec.Apart := by
      refine hpermh.symm.pairwise (hin1 _ (List.mem_map.2 ⟨hole, hmem, rfl⟩)) (fun hxy => apart_symm hxy)
    have hvmem : v ∈ hole.vertices := List.mem_of_getElem? g4
    have hemem : e ∈ ret.vertices := List.mem_of_getElem? g1
    have hev : Spec.Apart e v := by
      rcases hm e hemem with h0 | ⟨i, hi, l', hl', hel'⟩
      · exact hout e h0 v (List.mem_flatMap.2 ⟨hole, hmem, hvmem⟩)
      · exact hcross i s.hole l' hole hl' hhole (by rintro rfl; exact g3 hi) e hel' v hvmem
    have hclosed : (v :: t ++ [v]).IsChain Spec.Apart := by
      have htne : t ≠ [] := by
        have h2 := hpermh.length_eq
        have := (hn hole hmem).1
        rintro rfl
        simp at h2; omega
      refine List.IsChain.append hpw.isChain (by simp) ?_
      intro x hx y hy
      simp only [List.head?_cons, Option.mem_def, Option.some.injEq] at hy
      subst hy
      have hxl : x ∈ t := by
        cases t with
        | nil => exact absurd rfl htne
        | cons w t => rw [List.getLast?_cons_cons] at hx; exact List.mem_of_getLast? hx
      exact apart_symm (List.rel_of_pairwise_cons hpw hxl)
    have hchain : (xs ++ e :: v :: (t ++ v :: e :: ys)).IsChain Spec.Apart := by
      rw [hsplit, List.isChain_split] at hc
      rw [List.isChain_append_cons_cons]
      refine ⟨hc.1, hev, ?_⟩
      rw [← List.cons_append, List.isChain_split, List.isChain_cons_cons]
      exact ⟨hclosed, apart_symm hev, hc.2⟩
    cases hp : pushAll Loop.new (xs ++ e :: v :: (t ++ v :: e :: ys)) with
    | err => rw [hp] at h; simp at h
    | panic => rw [hp] at h; simp at h
    | ok aux =>
      rw [hp] at h
      dsimp only at h
      have haux := pushAll_vertices _ _ _ hp hchain (by simp [Loop.new])
      have haux' : aux.vertices = xs ++ e :: v :: (t ++ v :: e :: ys) := by rw [haux]; rfl
      refine ih aux (processed ++ [s.lastHole]) s.lastHole s.vertex r h ?_ ?_ ?_ ?_ ?_ ?_ ?_
      · simp; omega
      · rw [g5]
        rw [List.nodup_append]
        refine ⟨hnd, by simp, ?_⟩
        intro x hx y hy
        simp only [List.mem_singleton] at hy
        subst hy
        rintro rfl
        exact g3 hx
      · intro i hi
        rcases List.mem_append.1 hi with hi | hi
        · exact hlt i hi
        · simp only [List.mem_singleton] at hi
          rw [hi, g5]; exact hsl
      · rw [haux', List.reverse_append, List.map_append, List.reverse_singleton, List.map_singleton, List.singleton_append]
        have hgd : p.inner.getD s.lastHole Loop.new = hole := by
          rw [g5, List.getD_eq_getElem?_getD, hhole]; rfl
        rw [hgd]
        rw [hsplit] at hb
        exact Spec.Bridged.hole _ xs ys e _ v t hb hrot
      · rw [haux']; exact hchain
      · rw [haux']
        intro x hx
        have hx' : x ∈ ret.vertices ∨ x ∈ v :: t := by
          rw [hsplit]
          simp only [List.mem_append, List.mem_cons] at hx ⊢
          tauto
        rcases hx' with hx' | hx'
        · rcases hm x hx' with h0 | ⟨i, hi, l', hl'⟩
          · exact Or.inl h0
          · exact Or.inr ⟨i, by simp [hi], l', hl'⟩
        · exact Or.inr ⟨s.hole, by simp [g5], hole, hhole, hpermh.subset hx'⟩
      · rw [haux']; simp

/-- C49, in part: the single loop that stands for a polygon is a walk around the outer loop and all the holes that
visits every vertex of each hole once before it returns to the bridge, if no two vertices of the polygon are within a
millimetre.  Missing: the holes that turn like the outer loop and whose number of vertices is not a power of two, for
which it fails (`C49_violated_walk`, `C49_violated_triangle`). -/
theorem C49_bridged_partial (p : Polygon) (r : Loop) (h : p.getClosedLoop = .ok r)
    (hsep : (p.outer.vertices ++ p.inner.flatMap Loop.vertices).Pairwise Spec.Apart)
    (hne : p.outer.vertices ≠ [])
    (hn : ∀ l ∈ p.inner, 2 ≤ l.vertices.length ∧ l.vertices.length < 2 ^ 31)
    (hs : ∀ l ∈ p.inner, p.outer.normal.isSameDirection l.normal = true → l.vertices.length ∣ 2 ^ 64) :
    ∃ order : List Loop, order.Perm p.inner ∧
      Spec.Bridged p.outer.vertices (order.map (Spec.turned p.outer.normal)) r.vertices := by
  refine joinAll_bridged p hsep hn hs p.inner.length p.outer.open_ [] 0 0 r h (by simp) (by simp) (by simp) ?_ ?_ ?_ ?_
  · exact Spec.Bridged.none
  · rw [List.pairwise_append] at hsep
    exact hsep.1.isChain
  · intro v hv; exact Or.inl hv
  · exact hne

/-- C49: such a walk has as vector area that of the outer loop and those of the holes, each in the direction in which
it is walked; and it has two more vertices for each hole. -/
theorem C49_bridged_area (outer : List (V3 ℝ)) (holes : List (List (V3 ℝ))) (r : List (V3 ℝ))
    (h : Spec.Bridged outer holes r) :
    Loop.Spec.areaVector r = Loop.Spec.areaVector outer + (holes.map Loop.Spec.areaVector).sum ∧
    r.length = outer.length + (holes.map fun l => l.length + 2).sum := by
  induction h with
  | none => simp
  | hole holes xs ys e l h t _ hr ih =>
    obtain ⟨k, hk⟩ := hr
    rw [Loop.C47_bridge, ih.1, ← hk, Loop.C47_start]
    constructor
    · simp only [List.map_cons, List.sum_cons]
      abel
    · have h2 : l.length = t.length + 1 := by
        have := congrArg List.length hk
        simpa using this
      have := ih.2
      simp only [List.length_append, List.length_cons, List.map_cons, List.sum_cons] at this ⊢
      omega

/-- C49, in part: the area of the polygon is that of the single loop, for flat polygons whose loops have exact normals.
Missing: as in `C49_bridged_partial`. -/
theorem C49_same_area_partial (p : Polygon) (r : Loop) (h : p.getClosedLoop = .ok r) (hp : Spec.Reachable p)
    (hsep : (p.outer.vertices ++ p.inner.flatMap Loop.vertices).Pairwise Spec.Apart)
    (hsound : ∀ l ∈ p.outer :: p.inner, Loop.Spec.Sound l ∧ l.vertices.length < 2 ^ 31 ∧
      (l.normal = p.outer.normal ∨ l.normal = -p.outer.normal))
    (hs : ∀ l ∈ p.inner, l.normal = p.outer.normal → l.vertices.length ∣ 2 ^ 64) :
    p.outer.normal.dot (Loop.Spec.areaVector r.vertices) = p.area := by
  obtain ⟨⟨o1, o2, o3, o4, -⟩, -, -⟩ := hsound p.outer (by simp)
  have hdir : ∀ l ∈ p.inner, (l.normal = p.outer.normal → p.outer.normal.isSameDirection l.normal = true) ∧
      (l.normal = -p.outer.normal → p.outer.normal.isSameDirection l.normal = false) := by
    intro l hl
    have hz : p.outer.normal.isZero = false := by
      unfold V3.isZero
      apply decide_eq_false
      rintro ⟨hx, hy, hz⟩
      have key : ∀ x : ℝ, |x| < V3.tiny → x * x < 1 / 3 := by
        intro x hx
        have ht : (V3.tiny : ℝ) ≤ 1 / 2 := by norm_num [V3.tiny]
        have h2 : |x| < 1 / 2 := lt_of_lt_of_le hx ht
        have := abs_lt.1 h2
        nlinarith
      have := key _ hx
      have := key _ hy
      have := key _ hz
      simp only [V3.lengthSquared] at o2
      linarith
    constructor
    · intro hln
      have hd : p.outer.normal.dot p.outer.normal = 1 := o2
      rw [hln]
      simp only [V3.isSameDirection, V3.isParallel, hz, Bool.or_self, Bool.false_eq_true, if_false, hd, o2]
      norm_num
    · intro hln
      have hd : p.outer.normal.dot (-p.outer.normal) = -1 := by
        have : p.outer.normal.dot (-p.outer.normal) = -p.outer.normal.lengthSquared := by
          simp only [V3.dot, V3.lengthSquared, V3.neg_x, V3.neg_y, V3.neg_z]; ring
        rw [this, o2]
      rw [hln]
      unfold V3.isSameDirection
      rw [hd]
      split_ifs
      · rfl
      · norm_num
  have ns : ∀ l ∈ p.inner, p.outer.normal.isSameDirection l.normal = true → l.normal = p.outer.normal := by
    intro l hl hl2
    rcases (hsound l (by simp [hl])).2.2 with h2 | h2
    · exact h2
    · rw [(hdir l hl).2 h2] at hl2; simp at hl2
  obtain ⟨order, hperm, hb⟩ := C49_bridged_partial p r h hsep (by rintro h0; rw [h0] at o1; simp at o1)
    (fun l hl => ⟨le_trans (by norm_num) (hsound l (by simp [hl])).1.1, (hsound l (by simp [hl])).2.1⟩)
    (fun l hl hl2 => hs l hl (ns l hl hl2))
  obtain ⟨ha, -⟩ := C49_bridged_area _ _ _ hb
  have dadd : ∀ n a b : V3 ℝ, n.dot (a + b) = n.dot a + n.dot b := by
    intro n a b; simp only [V3.dot, V3.add_x, V3.add_y, V3.add_z]; ring
  have dneg : ∀ n a : V3 ℝ, n.dot (-a) = -n.dot a := by
    intro n a; simp only [V3.dot, V3.neg_x, V3.neg_y, V3.neg_z]; ring
  have ndneg : ∀ n a : V3 ℝ, (-n).dot a = -n.dot a := by
    intro n a; simp only [V3.dot, V3.neg_x, V3.neg_y, V3.neg_z]; ring
  have hsum : ∀ ls : List Loop, (∀ l ∈ ls, l ∈ p.inner) →
      p.outer.normal.dot (((ls.map (Spec.turned p.outer.normal)).map Loop.Spec.areaVector).sum) = -(ls.map Loop.area).sum := by
    intro ls
    induction ls with
    | nil => intro _; simp [V3.dot]
    | cons l ls ih =>
      intro hls
      simp only [List.map_cons, List.sum_cons]
      rw [dadd, ih (fun l hl => hls l (by simp [hl]))]
      have hl := hls l (by simp)
      obtain ⟨⟨l1, l2, l3, l4, -⟩, -, l5⟩ := hsound l (by simp [hl])
      have : p.outer.normal.dot (Loop.Spec.areaVector (Spec.turned p.outer.normal l)) = -l.area := by
        unfold Spec.turned
        rcases l5 with l5 | l5
        · rw [(hdir l hl).1 l5, if_pos rfl, Loop.C47_direction, dneg, ← l5, l4]
        · rw [(hdir l hl).2 l5]
          simp only [Bool.false_eq_true, if_false]
          rw [l4, l5, ndneg]; ring
      rw [this]; ring
  rw [ha, dadd, hsum order (fun l hl => hperm.subset hl), C49_area p hp, ← o4, (hperm.map Loop.area).sum_eq]
  ring

/-! ### Concrete polygons -/

private def pts (l : List (ℚ × ℚ)) : List (V3 ℚ) := l.map fun p => ⟨p.1, p.2, 0⟩

private def square : QLoop := ⟨pts [(0, 0), (10, 0), (10, 10), (0, 10)], ⟨0, 0, 1⟩, true, 100⟩
private def wide : QLoop := ⟨pts [(1 / 2, 1), (19 / 2, 1), (19 / 2, 9), (1 / 2, 9)], ⟨0, 0, 1⟩, true, 72⟩
private def tall : QLoop := ⟨pts [(1, 1 / 2), (9, 1 / 2), (9, 19 / 2), (1, 19 / 2)], ⟨0, 0, 1⟩, true, 72⟩
private def tri : QLoop := ⟨pts [(4, 4), (6, 4), (5, 6)], ⟨0, 0, 1⟩, true, 2⟩
private def hole1 : QLoop := ⟨pts [(4, 4), (6, 4), (6, 6), (4, 6)], ⟨0, 0, 1⟩, true, 4⟩
private def hole2 : QLoop := ⟨pts [(4, 7), (6, 7), (6, 8), (4, 8)], ⟨0, 0, 1⟩, true, 2⟩

private theorem square_rep : ∃ l, Loop.Spec.Reachable l ∧ square.Rep l :=
  QLoop.build_reachable (pts [(0, 0), (10, 0), (10, 10), (0, 10)]) square (by decide +kernel)

/-- C49: the holes may overlap.  Two holes that cross each other, of which no vertex is in the other, are accepted, and
the area of the polygon that is left is negative. -/
theorem C49_violated_overlap :
    ∃ (outer a b : Loop) (p : Polygon), Loop.Spec.Reachable outer ∧ Loop.Spec.Reachable a ∧ Loop.Spec.Reachable b ∧
      Polygon.new outer = .ok p ∧ (p.cutHole a).1 = .ok () ∧ ((p.cutHole a).2.cutHole b).1 = .ok () ∧
      ((p.cutHole a).2.cutHole b).2.area = -44 := by
  obtain ⟨o, ho, ro⟩ := square_rep
  obtain ⟨a, ha, ra⟩ := QLoop.build_reachable (pts [(1 / 2, 1), (19 / 2, 1), (19 / 2, 9), (1 / 2, 9)]) wide (by decide +kernel)
  obtain ⟨b, hb, rb⟩ := QLoop.build_reachable (pts [(1, 1 / 2), (9, 1 / 2), (9, 19 / 2), (1, 19 / 2)]) tall (by decide +kernel)
  obtain ⟨p, hp, rp⟩ := QPolygon.new_rep (P := ⟨square, [], 100, ⟨0, 0, 1⟩⟩) ro (by decide +kernel)
  obtain ⟨h1, r1⟩ := QPolygon.cutHole_rep (P' := ⟨square, [wide], 28, ⟨0, 0, 1⟩⟩) rp ra (by decide +kernel)
  obtain ⟨h2, r2⟩ := QPolygon.cutHole_rep (P' := ⟨square, [wide, tall], -44, ⟨0, 0, 1⟩⟩) r1 rb (by decide +kernel)
  exact ⟨o, a, b, p, ho, ha, hb, hp, h1, h2, by rw [r2.2.2.1]; norm_num⟩

private def bridgedTri : QLoop :=
  ⟨pts [(0, 0), (4, 4), (5, 6), (6, 4), (0, 0), (10, 0), (10, 10), (0, 10)], ⟨0, 0, 1⟩, false, -1⟩

/-- C49 fails for a square with a triangular hole that turns like it: the single loop that stands for the polygon does
not return to the bridge, and it does not have the area of the polygon. -/
theorem C49_violated_triangle :
    ∃ (p : Polygon) (r : Loop), Spec.Reachable p ∧ p.area = 98 ∧ p.getClosedLoop = .ok r ∧
      r.vertices = [⟨0, 0, 0⟩, ⟨4, 4, 0⟩, ⟨5, 6, 0⟩, ⟨6, 4, 0⟩, ⟨0, 0, 0⟩, ⟨10, 0, 0⟩, ⟨10, 10, 0⟩, ⟨0, 10, 0⟩] ∧
      p.outer.normal.dot (Loop.Spec.areaVector r.vertices) = 94 := by
  obtain ⟨o, ho, ro⟩ := square_rep
  obtain ⟨a, ha, ra⟩ := QLoop.build_reachable (pts [(4, 4), (6, 4), (5, 6)]) tri (by decide +kernel)
  obtain ⟨p, hp, rp⟩ := QPolygon.new_rep (P := ⟨square, [], 100, ⟨0, 0, 1⟩⟩) ro (by decide +kernel)
  obtain ⟨h1, r1⟩ := QPolygon.cutHole_rep (P' := ⟨square, [tri], 98, ⟨0, 0, 1⟩⟩) rp ra (by decide +kernel)
  obtain ⟨r, h2, rr⟩ := QPolygon.getClosedLoop_rep (q := bridgedTri) r1 (by decide +kernel)
  have hv : r.vertices = [⟨0, 0, 0⟩, ⟨4, 4, 0⟩, ⟨5, 6, 0⟩, ⟨6, 4, 0⟩, ⟨0, 0, 0⟩, ⟨10, 0, 0⟩, ⟨10, 10, 0⟩, ⟨0, 10, 0⟩] := by
    rw [rr.1]; simp [bridgedTri, pts, V3.real]
  refine ⟨(p.cutHole a).2, r, .step p (.cut a) (.new o p hp), by rw [r1.2.2.1]; norm_num, h2, hv, ?_⟩
  rw [hv, r1.1.2.1]
  norm_num [Loop.Spec.areaVector, Loop.Spec.fan, V3.dot, V3.real, square]

private theorem apart_real (a b : V3 ℚ) (h : a.compare b = false) : Spec.Apart a.real b.real := by
  rw [← compare_eq_false, V3.real_compare, h]

/-- A square with two square holes meets the hypotheses of `C49_same_area_partial`. -/
example : ∃ (p : Polygon) (r : Loop), p.inner.length = 2 ∧ p.getClosedLoop = .ok r ∧ Spec.Reachable p ∧
    (p.outer.vertices ++ p.inner.flatMap Loop.vertices).Pairwise Spec.Apart ∧
    (∀ l ∈ p.outer :: p.inner, Loop.Spec.Sound l ∧ l.vertices.length < 2 ^ 31 ∧
      (l.normal = p.outer.normal ∨ l.normal = -p.outer.normal)) ∧
    (∀ l ∈ p.inner, l.normal = p.outer.normal → l.vertices.length ∣ 2 ^ 64) ∧ p.area = 94 := by
  obtain ⟨o, ho, ro⟩ := square_rep
  obtain ⟨a, ha, ra⟩ := QLoop.build_reachable (pts [(4, 4), (6, 4), (6, 6), (4, 6)]) hole1 (by decide +kernel)
  obtain ⟨b, hb, rb⟩ := QLoop.build_reachable (pts [(4, 7), (6, 7), (6, 8), (4, 8)]) hole2 (by decide +kernel)
  obtain ⟨p, hp, rp⟩ := QPolygon.new_rep (P := ⟨square, [], 100, ⟨0, 0, 1⟩⟩) ro (by decide +kernel)
  obtain ⟨h1, r1⟩ := QPolygon.cutHole_rep (P' := ⟨square, [hole1], 96, ⟨0, 0, 1⟩⟩) rp ra (by decide +kernel)
  obtain ⟨h2, r2⟩ := QPolygon.cutHole_rep (P' := ⟨square, [hole1, hole2], 94, ⟨0, 0, 1⟩⟩) r1 rb (by decide +kernel)
  have hq : ∃ q, (⟨square, [hole1, hole2], 94, ⟨0, 0, 1⟩⟩ : QPolygon).getClosedLoop = some q :=
    Option.isSome_iff_exists.1 (by decide +kernel)
  obtain ⟨q, hq⟩ := hq
  obtain ⟨r, h3, rr⟩ := QPolygon.getClosedLoop_rep r2 hq
  have e : ((p.cutHole a).2.cutHole b).2 =
      { p with area := p.area - a.area - b.area, inner := p.inner ++ [a] ++ [b] } := by
    rw [((C49_cut _ b).2 h2).2.2, ((C49_cut p a).2 h1).2.2]
  have e0 : p = ⟨o, [], o.area, o.normal⟩ := by
    simp only [Polygon.new, Loop.getArea, ro.2.2.1, show square.closed = true from rfl] at hp
    simpa [Outcome.bind, eq_comm] using hp
  have e1 : ((p.cutHole a).2.cutHole b).2.outer = o := by rw [e, e0]
  have e2 : ((p.cutHole a).2.cutHole b).2.inner = [a, b] := by rw [e, e0]; rfl
  refine ⟨((p.cutHole a).2.cutHole b).2, r, by rw [e2]; rfl, h3, .step _ (.cut b) (.step _ (.cut a) (.new o p hp)), ?_, ?_, ?_,
    by rw [r2.2.2.1]; norm_num⟩
  · rw [e1, e2, ro.1]
    simp only [List.flatMap_cons, List.flatMap_nil, ra.1, rb.1, ← List.map_append, List.append_nil]
    rw [List.pairwise_map]
    have : (square.vertices ++ (hole1.vertices ++ hole2.vertices)).Pairwise fun a b => a.compare b = false := by
      decide +kernel
    exact this.imp fun {a b} h => apart_real a b h
  · rw [e1, e2]
    have hn : ∀ l ∈ [o, a, b], l.normal = o.normal := by
      intro l hl
      simp only [List.mem_cons, List.not_mem_nil, or_false] at hl
      rcases hl with rfl | rfl | rfl
      · rfl
      · rw [ra.2.1, ro.2.1]; rfl
      · rw [rb.2.1, ro.2.1]; rfl
    intro l hl
    refine ⟨?_, ?_, Or.inl (hn l hl)⟩
    · simp only [List.mem_cons, List.not_mem_nil, or_false] at hl
      rcases hl with rfl | rfl | rfl
      · exact Loop.C48_history_partial _ ho ro.2.2.1
      · exact Loop.C48_history_partial _ ha ra.2.2.1
      · exact Loop.C48_history_partial _ hb rb.2.2.1
    · simp only [List.mem_cons, List.not_mem_nil, or_false] at hl
      rcases hl with rfl | rfl | rfl
      · rw [ro.1]; simp [square, pts]
      · rw [ra.1]; simp [hole1, pts]
      · rw [rb.1]; simp [hole2, pts]
  · rw [e1, e2]
    intro l hl _
    simp only [List.mem_cons, List.not_mem_nil, or_false] at hl
    rcases hl with rfl | rfl
    · rw [ra.1]; simp only [List.length_map]; decide +kernel
    · rw [rb.1]; simp only [List.length_map]; decide +kernel

end Simple.Geometry.Polygon
