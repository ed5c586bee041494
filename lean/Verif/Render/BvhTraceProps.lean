import Mathlib.Data.Finset.Card
import Mathlib.Data.List.Sort
import Verif.Geometry.TriangleProps
import Verif.Render.BvhProps

/-! # C53: tracing rays through the acceleration structure -/

namespace Simple.Render.Bvh

open Geometry

namespace Spec

/-- The square of the distance to a point. -/
def dist2 (ray : Ray ℚ) (p : V3 ℚ) : ℚ := (p - ray.origin).lengthSquared

/-- The ray hits the triangle number `i` at the point `p`, which is not too near (or too far to be represented). -/
def Hit (ts : List (Triangle ℚ)) (ray : Ray ℚ) (i : ℕ) (p : V3 ℚ) : Prop :=
  ∃ t u v, ts[i]? = some t ∧ Triangle.baricentric ray t = some (p, u, v) ∧ 1 / 10 ^ 7 < dist2 ray p ∧ dist2 ray p < floatMax

/-- What testing every triangle of the scene finds: no hit, or one that none is closer than. -/
def Closest (ts : List (Triangle ℚ)) (ray : Ray ℚ) : Option (ℕ × V3 ℚ) → Prop
  | none => ∀ i p, ¬ Hit ts ray i p
  | some h => Hit ts ray h.1 h.2 ∧ ∀ j q, Hit ts ray j q → dist2 ray h.2 ≤ dist2 ray q

/-- Some triangle of the scene is hit further than a millimetre away and closer than the distance, by a margin. -/
def Obstructed (ts : List (Triangle ℚ)) (ray : Ray ℚ) (d2 : ℚ) : Prop :=
  ∃ i p, Hit ts ray i p ∧ 1 / 10 ^ 6 < dist2 ray p ∧ dist2 ray p + 1 / 10 ^ 4 < d2

/-- The test of boxes is conservative: when a triangle is hit, so is every box that has it and whose faces are faces of
boxes of triangles of the scene. -/
def BoxTest (ts : List (Triangle ℚ)) (ray : Ray ℚ) : Prop :=
  ∀ i p t, Hit ts ray i p → ts[i]? = some t → ∀ b, InBox b t → Faces (fun c => ∃ t ∈ ts, c = worldBounds t) b →
    b.intersect ray.origin (inverse ray.direction) = true

/-- No more than 32767 triangles have boxes with the same centre, up to 10⁻⁸. -/
def Spread (ts : List (Triangle ℚ)) : Prop :=
  ∀ first n, (∀ (i j : ℕ) (t u : Triangle ℚ), first ≤ i → i < first + n → first ≤ j → j < first + n →
      ts[i]? = some t → ts[j]? = some u →
      ∀ a, |along a ((worldBounds t).max + (worldBounds t).min) - along a ((worldBounds u).max + (worldBounds u).min)| / 2 <
        1 / 10 ^ 8) → first + n ≤ ts.length → n < 2 ^ 15

/-- The number of interior nodes on the longest way down. -/
def height : Node → ℕ
  | .leaf _ _ _ => 0
  | .interior _ _ l r => max (height l) (height r) + 1

end Spec

open Spec

/-! ### The closest of some hits -/

/-- The closest hit so far is that of the hits `H`. -/
private def IsBest (ray : Ray ℚ) (H : ℕ → V3 ℚ → Prop) (best : Best) : Prop :=
  match best.1 with
  | none => best.2 = floatMax ∧ ∀ i p, ¬ H i p
  | some h => H h.1 h.2 ∧ best.2 = dist2 ray h.2 ∧ ∀ j q, H j q → dist2 ray h.2 ≤ dist2 ray q

private theorem isBest_congr {ray : Ray ℚ} {H H' : ℕ → V3 ℚ → Prop} {b : Best} (h : IsBest ray H b) (hh : ∀ i p, H i p ↔ H' i p) :
    IsBest ray H' b := by
  have : H = H' := by funext i p; exact propext (hh i p)
  rw [← this]; exact h

/-- The hits that count. -/
private def InRange (ray : Ray ℚ) (p : V3 ℚ) : Prop := 1 / 10 ^ 7 < dist2 ray p ∧ dist2 ray p < floatMax

private theorem keepCloser_best {ray : Ray ℚ} {H : ℕ → V3 ℚ → Prop} {b : Best} (hH : ∀ i p, H i p → InRange ray p)
    (h : IsBest ray H b) (i : ℕ) (p : V3 ℚ) :
    IsBest ray (fun j q => H j q ∨ (j = i ∧ q = p ∧ InRange ray p)) (keepCloser ray.origin b i p) := by
  unfold keepCloser
  change IsBest ray _ (if 1 / 10 ^ 7 < dist2 ray p ∧ dist2 ray p < b.2 then (some (i, p), dist2 ray p) else b)
  rcases b with ⟨h0, d⟩
  cases h0 with
  | none =>
    obtain ⟨hd, hn⟩ := h
    simp only at hd
    by_cases hc : 1 / 10 ^ 7 < dist2 ray p ∧ dist2 ray p < d
    · rw [if_pos hc]
      refine ⟨Or.inr ⟨rfl, rfl, hc.1, by rw [← hd]; exact hc.2⟩, rfl, ?_⟩
      rintro j q (hj | ⟨-, rfl, -⟩)
      · exact absurd hj (hn j q)
      · exact le_refl _
    · rw [if_neg hc]
      refine ⟨hd, ?_⟩
      rintro j q (hj | ⟨-, -, hr⟩)
      · exact hn j q hj
      · exact hc ⟨hr.1, by rw [hd]; exact hr.2⟩
  | some x =>
    obtain ⟨h1, h2, h3⟩ := h
    simp only at h2
    by_cases hc : 1 / 10 ^ 7 < dist2 ray p ∧ dist2 ray p < d
    · rw [if_pos hc]
      refine ⟨Or.inr ⟨rfl, rfl, hc.1, lt_trans hc.2 (by rw [h2]; exact (hH _ _ h1).2)⟩, rfl, ?_⟩
      rintro j q (hj | ⟨-, rfl, -⟩)
      · have := h3 j q hj
        have := hc.2
        linarith
      · exact le_refl _
    · rw [if_neg hc]
      refine ⟨Or.inl h1, h2, ?_⟩
      rintro j q (hj | ⟨-, rfl, hr⟩)
      · exact h3 j q hj
      · by_contra hlt
        exact hc ⟨hr.1, by rw [h2]; exact not_le.1 hlt⟩

/-- The hits among some triangles with their numbers. -/
private def HitIn (ray : Ray ℚ) (l : List (Triangle ℚ × ℕ)) (i : ℕ) (p : V3 ℚ) : Prop :=
  ∃ t u v, (t, i) ∈ l ∧ Triangle.baricentric ray t = some (p, u, v) ∧ InRange ray p

private theorem fold_best (ray : Ray ℚ) (l : List (Triangle ℚ × ℕ)) : ∀ (H : ℕ → V3 ℚ → Prop) (b : Best),
    (∀ i p, H i p → InRange ray p) → IsBest ray H b →
    IsBest ray (fun i p => H i p ∨ HitIn ray l i p) (l.foldl (tryTriangle ray) b) := by
  induction l with
  | nil =>
    intro H b _ h
    exact isBest_congr h fun i p => by simp [HitIn]
  | cons t l ih =>
    intro H b hH h
    rw [List.foldl_cons]
    unfold tryTriangle
    cases hb : Triangle.baricentric ray t.1 with
    | none =>
      refine isBest_congr (ih H b hH h) fun i p => or_congr_right ?_
      constructor
      · rintro ⟨x, u, v, hm, e⟩; exact ⟨x, u, v, List.mem_cons_of_mem _ hm, e⟩
      · rintro ⟨x, u, v, hm, e⟩
        rcases List.mem_cons.1 hm with hm | hm
        · rw [← hm] at hb; rw [hb] at e; simp at e
        · exact ⟨x, u, v, hm, e⟩
    | some y =>
      have step := keepCloser_best hH h t.2 y.1
      have := ih _ _ (fun i p hp => by rcases hp with hp | ⟨-, rfl, hr⟩; exacts [hH i p hp, hr]) step
      refine isBest_congr this fun i p => ?_
      constructor
      · rintro ((h | ⟨rfl, rfl, hr⟩) | ⟨x, u, v, hm, e⟩)
        · exact Or.inl h
        · exact Or.inr ⟨t.1, y.2.1, y.2.2, List.mem_cons_self .., hb, hr⟩
        · exact Or.inr ⟨x, u, v, List.mem_cons_of_mem _ hm, e⟩
      · rintro (h | ⟨x, u, v, hm, e, hr⟩)
        · exact Or.inl (Or.inl h)
        · rcases List.mem_cons.1 hm with hm | hm
          · rw [← hm] at hb
            rw [hb, Option.some.injEq] at e
            have e1 : y.1 = p := by rw [e]
            exact Or.inl (Or.inr ⟨by rw [← hm], e1.symm, by rw [e1]; exact hr⟩)
          · exact Or.inr ⟨x, u, v, hm, e, hr⟩

private theorem mem_slice (ts : List (Triangle ℚ)) (ini fin i : ℕ) (t : Triangle ℚ) :
    (t, i) ∈ (ts.zipIdx.drop ini).take (fin - ini) ↔ ts[i]? = some t ∧ ini ≤ i ∧ i < fin := by
  rw [List.mem_iff_getElem?]
  constructor
  · rintro ⟨k, hk⟩
    rw [List.getElem?_take] at hk
    split_ifs at hk with h
    rw [List.getElem?_drop, List.getElem?_zipIdx] at hk
    obtain ⟨x, hx, e⟩ := Option.map_eq_some_iff.1 hk
    simp only [Prod.mk.injEq] at e
    obtain ⟨rfl, rfl⟩ := e
    exact ⟨by rw [Nat.zero_add]; exact hx, by omega, by omega⟩
  · rintro ⟨h, h1, h2⟩
    refine ⟨i - ini, ?_⟩
    rw [List.getElem?_take, if_pos (by omega), List.getElem?_drop, List.getElem?_zipIdx,
      show ini + (i - ini) = i by omega, h]
    simp

/-- The hits in a range of the triangles. -/
private def HitFrom (ts : List (Triangle ℚ)) (ray : Ray ℚ) (ini fin i : ℕ) (p : V3 ℚ) : Prop :=
  Hit ts ray i p ∧ ini ≤ i ∧ i < fin

private theorem hitIn_slice (ts : List (Triangle ℚ)) (ray : Ray ℚ) (ini fin i : ℕ) (p : V3 ℚ) :
    HitIn ray ((ts.zipIdx.drop ini).take (fin - ini)) i p ↔ HitFrom ts ray ini fin i p := by
  constructor
  · rintro ⟨t, u, v, hm, e, hr⟩
    obtain ⟨h1, h2⟩ := (mem_slice ts ini fin i t).1 hm
    exact ⟨⟨t, u, v, h1, e, hr⟩, h2⟩
  · rintro ⟨⟨t, u, v, h1, e, hr⟩, h2⟩
    exact ⟨t, u, v, (mem_slice ts ini fin i t).2 ⟨h1, h2⟩, e, hr⟩

private theorem slice_best (ts : List (Triangle ℚ)) (ray : Ray ℚ) (ini fin : ℕ) :
    IsBest ray (HitFrom ts ray ini fin) (((ts.zipIdx.drop ini).take (fin - ini)).foldl (tryTriangle ray) (none, floatMax)) := by
  have h0 : IsBest ray (fun _ _ => False) (none, floatMax) := ⟨rfl, fun _ _ h => h⟩
  refine isBest_congr (fold_best ray _ _ _ (fun _ _ h => h.elim) h0) fun i p => ?_
  rw [false_or]
  exact hitIn_slice ts ray ini fin i p

private theorem visitLeaf_best (ts : List (Triangle ℚ)) (ray : Ray ℚ) (ini fin : ℕ) (H : ℕ → V3 ℚ → Prop) (b : Best)
    (hH : ∀ i p, H i p → InRange ray p) (h : IsBest ray H b) :
    IsBest ray (fun i p => H i p ∨ HitFrom ts ray ini fin i p) (visitLeaf ts ray b ini fin) := by
  have hs := slice_best ts ray ini fin
  unfold visitLeaf intersectSlice
  generalize ((ts.zipIdx.drop ini).take (fin - ini)).foldl (tryTriangle ray) (none, floatMax) = r at hs
  rcases r with ⟨r, d⟩
  cases r with
  | none =>
    exact isBest_congr h fun i p => ⟨Or.inl, fun h => h.elim id fun h => absurd h (hs.2 i p)⟩
  | some x =>
    obtain ⟨h1, -, h3⟩ := hs
    have hk := keepCloser_best hH h x.1 x.2
    have hr : InRange ray x.2 := by obtain ⟨⟨_, _, _, _, _, hr⟩, _⟩ := h1; exact hr
    simp only
    generalize keepCloser ray.origin b x.1 x.2 = b' at hk
    rcases b' with ⟨h0, d'⟩
    cases h0 with
    | none => exact absurd (Or.inr ⟨rfl, rfl, hr⟩) (hk.2 x.1 x.2)
    | some y =>
      obtain ⟨k1, k2, k3⟩ := hk
      refine ⟨?_, k2, ?_⟩
      · rcases k1 with k1 | ⟨e1, e2, -⟩
        · exact Or.inl k1
        · rw [e1, e2]; exact Or.inr h1
      · rintro j q (hj | hj)
        · exact k3 j q (Or.inl hj)
        · exact (k3 x.1 x.2 (Or.inr ⟨rfl, rfl, hr⟩)).trans (h3 j q hj)

/-! ### Going through the nodes -/

private def size : Node → ℕ
  | .leaf _ _ _ => 1
  | .interior _ _ l r => size l + size r + 1

private theorem flatten_length : ∀ (t : Node) (off : ℕ), (flatten off t).length = size t := by
  intro t
  induction t with
  | leaf => intro off; rfl
  | interior b a l r h1 h2 => intro off; simp only [flatten, size, List.length_cons, List.length_append, h1, h2]

/-- The nodes of the tree are in the vector from the position `off` on, and their numbers fit the types. -/
private def Placed (nodes : List FlatNode) (off : ℕ) (t : Node) : Prop :=
  (∀ k : ℕ, k < size t → nodes[off + k]? = (flatten off t)[k]?) ∧ off + size t < 2 ^ 31 ∧
    ∀ r ∈ leaves t, r.1 < 2 ^ 31 ∧ 0 < r.2 ∧ r.2 < 2 ^ 15

private theorem placed_left {nodes : List FlatNode} {off : ℕ} {b : BBox ℚ} {a : Axis} {l r : Node}
    (h : Placed nodes off (.interior b a l r)) : Placed nodes (off + 1) l := by
  obtain ⟨h1, h2, h3⟩ := h
  simp only [size] at h1 h2
  refine ⟨fun k hk => ?_, by omega, fun q hq => h3 q (List.mem_append.2 (Or.inl hq))⟩
  have := h1 (k + 1) (by omega)
  rw [show off + 1 + k = off + (k + 1) by omega, this]
  simp only [flatten, List.getElem?_cons_succ]
  rw [List.getElem?_append_left (by rw [flatten_length]; exact hk)]

private theorem placed_right {nodes : List FlatNode} {off : ℕ} {b : BBox ℚ} {a : Axis} {l r : Node}
    (h : Placed nodes off (.interior b a l r)) : Placed nodes (off + 1 + size l) r := by
  obtain ⟨h1, h2, h3⟩ := h
  simp only [size] at h1 h2
  refine ⟨fun k hk => ?_, by omega, fun q hq => h3 q (List.mem_append.2 (Or.inr hq))⟩
  have := h1 (size l + k + 1) (by omega)
  rw [show off + 1 + size l + k = off + (size l + k + 1) by omega, this]
  simp only [flatten, List.getElem?_cons_succ]
  rw [List.getElem?_append_right (by rw [flatten_length]; omega), flatten_length, Nat.add_sub_cancel_left]

private theorem usize_i32 {n : ℕ} (h : n < 2 ^ 31) : asUsize (asI32 n) = n := by
  unfold asUsize asI32
  rw [Int.bmod_eq_of_le (by omega) (by omega)]
  omega

private theorem usize_i16 {n : ℕ} (h : n < 2 ^ 15) : asUsize (asI16 n) = n ∧ asI16 n = n := by
  have : asI16 n = n := by
    unfold asI16
    rw [Int.bmod_eq_of_le (by omega) (by omega)]
  refine ⟨?_, this⟩
  rw [this]; unfold asUsize; omega

private theorem placed_leaf {nodes : List FlatNode} {off : ℕ} {b : BBox ℚ} {first n : ℕ} (h : Placed nodes off (.leaf b first n)) :
    ∃ fn, Outcome.index nodes off = .ok fn ∧ fn.bounds = b ∧ fn.isLeaf = true ∧ asUsize fn.next = first ∧ asUsize fn.nPrims = n := by
  obtain ⟨h1, h2, h3⟩ := h
  obtain ⟨q1, q2, q3⟩ : first < 2 ^ 31 ∧ 0 < n ∧ n < 2 ^ 15 := h3 (first, n) (List.mem_singleton.2 rfl)
  have u1 := usize_i32 q1
  have u2 := usize_i16 q3
  have := h1 0 (Nat.zero_lt_one)
  rw [Nat.add_zero] at this
  refine ⟨⟨b, asI16 n, .x, asI32 first⟩, ?_, rfl, ?_, by dsimp only; exact u1, by dsimp only; exact u2.1⟩
  · unfold Outcome.index; rw [this]; rfl
  · unfold FlatNode.isLeaf
    simp only [u2.2, decide_eq_true_iff]
    omega

private theorem placed_interior {nodes : List FlatNode} {off : ℕ} {b : BBox ℚ} {a : Axis} {l r : Node}
    (h : Placed nodes off (.interior b a l r)) :
    ∃ fn, Outcome.index nodes off = .ok fn ∧ fn.bounds = b ∧ fn.isLeaf = false ∧ asUsize fn.next = off + 1 + size l ∧ fn.axis = a := by
  obtain ⟨h1, h2, h3⟩ := h
  simp only [size] at h1 h2
  have := h1 0 (by omega)
  rw [Nat.add_zero] at this
  have u := usize_i32 (show off + 1 + size l < 2 ^ 31 by omega)
  rw [← flatten_length l (off + 1)] at u ⊢
  refine ⟨⟨b, 0, a, asI32 (off + 1 + (flatten (off + 1) l).length)⟩, ?_, rfl, rfl, by dsimp only; exact u, rfl⟩
  unfold Outcome.index
  rw [this]
  simp only [flatten, List.getElem?_cons_zero]

private def resume (nodes : List FlatNode) (ts : List (Triangle ℚ)) (ray : Ray ℚ) (inv : V3 XF) (cap fuel : ℕ) (stack : List ℕ)
    (b : Best) : Outcome (Option (ℕ × V3 ℚ)) :=
  match stack with
  | [] => .ok b.1
  | i :: rest => traverse nodes ts ray inv cap fuel i rest b

/-- The boxes of the nodes of the tree are hit when a triangle under them is. -/
private def Conservative (ts : List (Triangle ℚ)) (ray : Ray ℚ) (t : Node) : Prop :=
  ∀ s, NodeOf s t → ∀ i p, Holds s i → Hit ts ray i p → s.bounds.intersect ray.origin (inverse ray.direction) = true

private theorem walk (nodes : List FlatNode) (ts : List (Triangle ℚ)) (ray : Ray ℚ) (cap : ℕ) : ∀ (t : Node) (off : ℕ),
    Placed nodes off t → Conservative ts ray t → ∀ (fuel : ℕ) (stack : List ℕ) (H : ℕ → V3 ℚ → Prop) (b : Best),
    (∀ i p, H i p → InRange ray p) → IsBest ray H b →
    (∃ f b', fuel ≤ f ∧ IsBest ray (fun i p => H i p ∨ (Holds t i ∧ Hit ts ray i p)) b' ∧
      traverse nodes ts ray (inverse ray.direction) cap (fuel + size t) off stack b =
        resume nodes ts ray (inverse ray.direction) cap f stack b') ∨
    (traverse nodes ts ray (inverse ray.direction) cap (fuel + size t) off stack b = .panic ∧ cap < stack.length + height t) := by
  intro t
  induction t with
  | leaf bx first n =>
    intro off hp hc fuel stack H b hH hb
    left
    obtain ⟨fn, e, e1, e2, e3, e4⟩ := placed_leaf hp
    have hold : ∀ i, Holds (.leaf bx first n) i ↔ first ≤ i ∧ i < first + n := by
      intro i; simp [Holds, leaves]
    simp only [size, traverse]
    rw [e]
    simp only [Outcome.bind]
    rw [e1, e2, e3, e4]
    by_cases hbox : bx.intersect ray.origin (inverse ray.direction) = true
    · rw [if_pos hbox, if_pos rfl]
      refine ⟨fuel, visitLeaf ts ray b first (first + n), le_refl _, ?_, rfl⟩
      refine isBest_congr (visitLeaf_best ts ray first (first + n) H b hH hb) fun i p => or_congr_right ?_
      rw [hold]; unfold HitFrom; tauto
    · rw [if_neg hbox]
      refine ⟨fuel, b, le_refl _, isBest_congr hb fun i p => ⟨Or.inl, fun h => h.elim id fun h => ?_⟩, rfl⟩
      exact absurd (hc _ (.self _) i p h.1 h.2) hbox
  | interior bx a l r hl hr =>
    intro off hp hc fuel stack H b hH hb
    obtain ⟨fn, e, e1, e2, e3, e4⟩ := placed_interior hp
    have hold : ∀ i, Holds (.interior bx a l r) i ↔ Holds l i ∨ Holds r i := by
      intro i
      simp only [Holds, leaves, List.mem_append]
      constructor
      · rintro ⟨q, hq | hq, h⟩
        · exact Or.inl ⟨q, hq, h⟩
        · exact Or.inr ⟨q, hq, h⟩
      · rintro (⟨q, hq, h⟩ | ⟨q, hq, h⟩)
        · exact ⟨q, Or.inl hq, h⟩
        · exact ⟨q, Or.inr hq, h⟩
    have cl : Conservative ts ray l := fun s hs => hc s (.left hs)
    have cr : Conservative ts ray r := fun s hs => hc s (.right hs)
    have pl := placed_left hp
    have pr := placed_right hp
    have hin : ∀ (t' : Node) i p, H i p ∨ (Holds t' i ∧ Hit ts ray i p) → InRange ray p := by
      rintro t' i p (h | ⟨-, _, _, _, _, _, h⟩)
      · exact hH i p h
      · exact h
    have hht : height (.interior bx a l r) = max (height l) (height r) + 1 := rfl
    have hm1 := le_max_left (height l) (height r)
    have hm2 := le_max_right (height l) (height r)
    rw [show fuel + size (.interior bx a l r) = (fuel + size l + size r) + 1 by simp only [size]; omega]
    unfold traverse
    dsimp only
    rw [e]
    simp only [Outcome.bind]
    rw [e1, e2, e3, e4]
    by_cases hbox : bx.intersect ray.origin (inverse ray.direction) = true
    · rw [if_pos hbox, if_neg (by simp)]
      by_cases hcap : cap ≤ stack.length
      · rw [if_pos hcap]
        exact Or.inr ⟨rfl, by omega⟩
      rw [if_neg hcap]
      by_cases hneg : isNeg (inverse ray.direction) a = true
      · rw [if_pos hneg]
        rcases hr _ pr cr (fuel + size l) ((off + 1) :: stack) H b hH hb with ⟨f, b', hf, hb', e5⟩ | ⟨e5, hh⟩
        · rw [e5]
          show _ ∨ (traverse nodes ts ray (inverse ray.direction) cap f (off + 1) stack b' = .panic ∧ _)
          obtain ⟨f', rfl⟩ : ∃ f', f = f' + size l := ⟨f - size l, by omega⟩
          rcases hl _ pl cl f' stack _ b' (hin r) hb' with ⟨f'', b'', hf', hb'', e6⟩ | ⟨e6, hh⟩
          · left
            refine ⟨f'', b'', by omega, isBest_congr hb'' fun i p => ?_, e6⟩
            rw [hold]; tauto
          · right
            exact ⟨e6, by omega⟩
        · right
          rw [List.length_cons] at hh
          exact ⟨e5, by omega⟩
      · rw [if_neg hneg, show fuel + size l + size r = (fuel + size r) + size l by omega]
        rcases hl _ pl cl (fuel + size r) ((off + 1 + size l) :: stack) H b hH hb with ⟨f, b', hf, hb', e5⟩ | ⟨e5, hh⟩
        · rw [e5]
          show _ ∨ (traverse nodes ts ray (inverse ray.direction) cap f (off + 1 + size l) stack b' = .panic ∧ _)
          obtain ⟨f', rfl⟩ : ∃ f', f = f' + size r := ⟨f - size r, by omega⟩
          rcases hr _ pr cr f' stack _ b' (hin l) hb' with ⟨f'', b'', hf', hb'', e6⟩ | ⟨e6, hh⟩
          · left
            refine ⟨f'', b'', by omega, isBest_congr hb'' fun i p => ?_, e6⟩
            rw [hold]; tauto
          · right
            exact ⟨e6, by omega⟩
        · right
          rw [List.length_cons] at hh
          exact ⟨e5, by omega⟩
    · rw [if_neg hbox]
      left
      refine ⟨fuel + size l + size r, b, by omega, isBest_congr hb fun i p => ⟨Or.inl, fun h => h.elim id fun h => ?_⟩, rfl⟩
      exact absurd (hc _ (.self _) i p h.1 h.2) hbox

/-! ### The stored tree -/

private theorem tile_sum : ∀ {l : List (ℕ × ℕ)} {a b : ℕ}, Tile l a b → a + l.length ≤ b ∧
    (∀ r ∈ l, a ≤ r.1 ∧ r.1 + r.2 ≤ b ∧ 0 < r.2) ∧ ∀ i, a ≤ i → i < b → ∃ r ∈ l, r.1 ≤ i ∧ i < r.1 + r.2 := by
  intro l
  induction l with
  | nil => intro a b h; simp only [Tile] at h; subst h; exact ⟨by simp, by simp, fun i h1 h2 => by omega⟩
  | cons q l ih =>
    intro a b ⟨h1, h2, h3⟩
    obtain ⟨k1, k2, k3⟩ := ih h3
    refine ⟨by rw [List.length_cons]; omega, ?_, ?_⟩
    · intro r hr
      rcases List.mem_cons.1 hr with rfl | hr
      · omega
      · have := k2 r hr; omega
    · intro i hi1 hi2
      by_cases hi : i < a + q.2
      · exact ⟨q, List.mem_cons_self .., by omega, by omega⟩
      · obtain ⟨r, hr, h⟩ := k3 i (by omega) hi2
        exact ⟨r, List.mem_cons_of_mem _ hr, h⟩

private theorem size_leaves : ∀ t : Node, size t + 1 = 2 * (leaves t).length ∧ height t + 1 ≤ (leaves t).length := by
  intro t
  induction t with
  | leaf => exact ⟨rfl, le_refl _⟩
  | interior b a l r h1 h2 =>
    simp only [size, leaves, List.length_append, height]
    omega

private theorem stored (lib : Sorting) (scene scene' : Scene) (nodes : List FlatNode) (order : List ℕ) (ray : Ray ℚ)
    (hne : scene.triangles ≠ []) (h : new lib scene = .ok (nodes, order, scene'))
    (hn : scene'.triangles.length < 2 ^ 30) (hs : Spread scene'.triangles) (hbox : BoxTest scene'.triangles ray) :
    ∃ root, nodes = flatten 0 root ∧ nodes.length = size root ∧ Placed nodes 0 root ∧ Conservative scene'.triangles ray root ∧
      height root < scene'.triangles.length ∧ ∀ i, i < scene'.triangles.length → Holds root i := by
  obtain ⟨root, e, tile, box, crowd, faces⟩ := C52_tree lib scene scene' nodes order hne h
  obtain ⟨t1, t2, t3⟩ := tile_sum tile
  obtain ⟨s1, s2⟩ := size_leaves root
  refine ⟨root, e, by rw [e, flatten_length], ⟨?_, by omega, ?_⟩, ?_, by omega, ?_⟩
  · intro k _; rw [Nat.zero_add, e]
  · intro r hr
    obtain ⟨q1, q2, q3⟩ := t2 r hr
    refine ⟨by omega, q3, ?_⟩
    by_cases h24 : 24 < r.2
    · exact hs r.1 r.2 (crowd r hr h24) q2
    · omega
  · intro s hs i p hi hit
    obtain ⟨t, u, v, ht, hb⟩ := hit
    exact hbox i p t ⟨t, u, v, ht, hb⟩ ht s.bounds (box s hs i t hi ht) (faces s hs)
  · intro i hi
    obtain ⟨r, hr, hh⟩ := t3 i (Nat.zero_le _) hi
    exact ⟨r, hr, hh⟩

private theorem best_closest {ts : List (Triangle ℚ)} {ray : Ray ℚ} {H : ℕ → V3 ℚ → Prop} {b : Best} (h : IsBest ray H b)
    (hH : ∀ i p, H i p ↔ Hit ts ray i p) : Closest ts ray b.1 := by
  have := isBest_congr h hH
  rcases b with ⟨b, d⟩
  cases b with
  | none => exact this.2
  | some x => exact ⟨this.1, this.2.2⟩

private theorem hit_lt {ts : List (Triangle ℚ)} {ray : Ray ℚ} {i : ℕ} {p : V3 ℚ} (h : Hit ts ray i p) : i < ts.length := by
  obtain ⟨t, _, _, ht, _⟩ := h
  exact (List.getElem?_eq_some_iff.1 ht).1

private theorem new_empty {lib : Sorting} {scene scene' : Scene} {nodes : List FlatNode} {order : List ℕ}
    (h : new lib scene = .ok (nodes, order, scene')) (h0 : scene.triangles = []) : nodes = [] ∧ scene'.triangles = [] := by
  unfold new at h
  rw [if_pos (by rw [h0]; rfl)] at h
  simp only [Outcome.ok.injEq, Prod.mk.injEq] at h
  exact ⟨h.1.symm, by rw [← h.2.2, h0]⟩

/-- C53: the hit that is found with the acceleration structure is one that testing every triangle of the scene finds, when
the test of boxes is conservative for the ray and the numbers fit the types in which they are stored.  The only other
outcome is a panic, when the tree is higher than the stack. -/
theorem C53_intersect (lib : Sorting) (scene scene' : Scene) (nodes : List FlatNode) (order : List ℕ) (ray : Ray ℚ) (cap : ℕ)
    (h : new lib scene = .ok (nodes, order, scene')) (hn : scene'.triangles.length < 2 ^ 30) (hs : Spread scene'.triangles)
    (hbox : BoxTest scene'.triangles ray) :
    (∃ r, intersect nodes scene'.triangles ray cap = .ok r ∧ Closest scene'.triangles ray r) ∨
    (intersect nodes scene'.triangles ray cap = .panic ∧ ∃ root, nodes = flatten 0 root ∧ cap < height root) := by
  by_cases h0 : scene.triangles = []
  · obtain ⟨e1, e2⟩ := new_empty h h0
    left
    refine ⟨none, by unfold intersect; rw [e1]; rfl, ?_⟩
    intro i p hit
    have := hit_lt hit
    rw [e2] at this
    simp at this
  obtain ⟨root, e, hlen, placed, cons, -, holds⟩ := stored lib scene scene' nodes order ray h0 h hn hs hbox
  have hpos : nodes.length ≠ 0 := by rw [hlen]; cases root <;> simp [size]
  unfold intersect
  rw [if_neg hpos, hlen]
  rcases walk nodes scene'.triangles ray cap root 0 placed cons (cap + 1) [] (fun _ _ => False) (none, floatMax)
    (fun _ _ h => h.elim) ⟨rfl, fun _ _ h => h⟩ with ⟨f, b, -, hb, e1⟩ | ⟨e1, hh⟩
  · left
    rw [e1]
    refine ⟨b.1, rfl, best_closest hb fun i p => ?_⟩
    rw [false_or]
    exact ⟨fun h => h.2, fun h => ⟨holds i (hit_lt h), h⟩⟩
  · right
    exact ⟨e1, root, e, by simpa using hh⟩

/-- No crowd, when there are few triangles. -/
private theorem spread_few {ts : List (Triangle ℚ)} (h : ts.length < 2 ^ 15) : Spread ts := fun _ _ _ hn => by omega

/-- C53: with no more triangles than the stack has room for and one more, tracing never panics. -/
theorem C53_small (lib : Sorting) (scene scene' : Scene) (nodes : List FlatNode) (order : List ℕ) (ray : Ray ℚ) (cap : ℕ)
    (h : new lib scene = .ok (nodes, order, scene')) (hn : scene'.triangles.length < 2 ^ 15)
    (hcap : scene'.triangles.length ≤ cap + 1) (hbox : BoxTest scene'.triangles ray) :
    ∃ r, intersect nodes scene'.triangles ray cap = .ok r ∧ Closest scene'.triangles ray r := by
  rcases C53_intersect lib scene scene' nodes order ray cap h (by omega) (spread_few hn) hbox with h1 | ⟨h1, -⟩
  · exact h1
  exfalso
  by_cases h0 : scene.triangles = []
  · obtain ⟨e1, -⟩ := new_empty h h0
    unfold intersect at h1
    rw [e1] at h1
    simp at h1
  obtain ⟨root, e, hlen, placed, cons, hh, holds⟩ := stored lib scene scene' nodes order ray h0 h (by omega) (spread_few hn) hbox
  have hpos : nodes.length ≠ 0 := by rw [hlen]; cases root <;> simp [size]
  unfold intersect at h1
  rw [if_neg hpos, hlen] at h1
  rcases walk nodes scene'.triangles ray cap root 0 placed cons (cap + 1) [] (fun _ _ => False) (none, floatMax)
    (fun _ _ h => h.elim) ⟨rfl, fun _ _ h => h⟩ with ⟨f, b, -, hb, e1⟩ | ⟨-, hc⟩
  · rw [h1] at e1
    simp [resume] at e1
  · rw [List.length_nil] at hc
    omega

/-- C53: going through all triangles, one by one, finds the closest hit. -/
theorem C53_reference (ts : List (Triangle ℚ)) (ray : Ray ℚ) : Closest ts ray (intersectSlice ts ray 0 ts.length) := by
  unfold intersectSlice
  refine best_closest (slice_best ts ray 0 ts.length) fun i p => ?_
  exact ⟨fun h => h.1, fun h => ⟨h, Nat.zero_le _, hit_lt h⟩⟩

/-- C53: when a hit is found, its triangle, its point and its coordinates are those of a closest hit: casting a ray in the
scene adds no way to fail. -/
theorem C53_cast_ray (lib : Sorting) (scene scene' : Scene) (nodes : List FlatNode) (order : List ℕ) (ray : Ray ℚ) (cap : ℕ)
    (h : new lib scene = .ok (nodes, order, scene')) (hn : scene'.triangles.length < 2 ^ 30) (hs : Spread scene'.triangles)
    (hbox : BoxTest scene'.triangles ray) :
    (castRay nodes scene'.triangles ray cap = .ok none ∧ Closest scene'.triangles ray none) ∨
    (∃ i p u v t, castRay nodes scene'.triangles ray cap = .ok (some (i, p, u, v)) ∧ Closest scene'.triangles ray (some (i, p)) ∧
      scene'.triangles[i]? = some t ∧ p = Triangle.Spec.at_ t u v) ∨
    (castRay nodes scene'.triangles ray cap = .panic ∧ ∃ root, nodes = flatten 0 root ∧ cap < height root) := by
  unfold castRay
  rcases C53_intersect lib scene scene' nodes order ray cap h hn hs hbox with ⟨r, e, hc⟩ | ⟨e, hh⟩
  · rw [e]
    cases r with
    | none => exact Or.inl ⟨rfl, hc⟩
    | some x =>
      right; left
      obtain ⟨⟨t, u, v, h1, h2, -⟩, -⟩ := id hc
      refine ⟨x.1, x.2, u, v, t, ?_, hc, h1, (Triangle.C44_rendering ray t x.2 u v h2).2.1⟩
      simp only [Outcome.bind, Outcome.index, h1, h2, unwrap]
  · right; right
    rw [e]
    exact ⟨rfl, hh⟩

/-! ### Shadow rays -/

private theorem leafBlocks_sound {ts : List (Triangle ℚ)} {ray : Ray ℚ} {d2 : ℚ} {ini fin : ℕ} (h : leafBlocks ts ray d2 ini fin = true) :
    ∃ i p, HitFrom ts ray ini fin i p ∧ 1 / 10 ^ 6 < dist2 ray p ∧ dist2 ray p + 1 / 10 ^ 4 < d2 := by
  unfold leafBlocks at h
  have hs := slice_best ts ray ini fin
  unfold intersectSlice at h
  generalize ((ts.zipIdx.drop ini).take (fin - ini)).foldl (tryTriangle ray) (none, floatMax) = r at hs h
  rcases r with ⟨r, d⟩
  cases r with
  | none => simp at h
  | some x =>
    simp only [Bool.and_eq_true, decide_eq_true_iff] at h
    obtain ⟨⟨h1, h2⟩, h3⟩ := h
    refine ⟨x.1, x.2, hs.1, h1, ?_⟩
    change dist2 ray x.2 + 1 / 10 ^ 6 < d2 at h2
    change 1 / 10 ^ 4 < |d2 - dist2 ray x.2| at h3
    rw [abs_of_pos (by have : (0 : ℚ) < 1 / 10 ^ 6 := by norm_num
                       linarith)] at h3
    linarith

private theorem leafBlocks_complete {ts : List (Triangle ℚ)} {ray : Ray ℚ} {d2 : ℚ} {ini fin i : ℕ} {p : V3 ℚ}
    (h : HitFrom ts ray ini fin i p) (hd : dist2 ray p + 1 / 10 ^ 4 < d2)
    (hno : ∀ j q, HitFrom ts ray ini fin j q → 1 / 10 ^ 6 < dist2 ray q) : leafBlocks ts ray d2 ini fin = true := by
  unfold leafBlocks
  have hs := slice_best ts ray ini fin
  unfold intersectSlice
  generalize ((ts.zipIdx.drop ini).take (fin - ini)).foldl (tryTriangle ray) (none, floatMax) = r at hs
  rcases r with ⟨r, d⟩
  cases r with
  | none => exact absurd h (hs.2 i p)
  | some x =>
    have h1 := hs.2.2 i p h
    have h2 := hno _ _ hs.1
    simp only [Bool.and_eq_true, decide_eq_true_iff]
    change (1 / 10 ^ 6 < dist2 ray x.2 ∧ dist2 ray x.2 + 1 / 10 ^ 6 < d2) ∧ 1 / 10 ^ 4 < |d2 - dist2 ray x.2|
    have h3 : (0 : ℚ) < 1 / 10 ^ 6 := by norm_num
    have h4 : (1 : ℚ) / 10 ^ 6 < 1 / 10 ^ 4 := by norm_num
    refine ⟨⟨h2, by linarith⟩, ?_⟩
    rw [abs_of_pos (by linarith)]
    linarith

private def resumeProbe (nodes : List FlatNode) (ts : List (Triangle ℚ)) (ray : Ray ℚ) (inv : V3 XF) (d2 : ℚ) (cap fuel : ℕ)
    (stack : List ℕ) : Outcome Bool :=
  match stack with
  | [] => .ok true
  | i :: rest => probe nodes ts ray inv d2 cap fuel i rest

private theorem holds_interior (bx : BBox ℚ) (a : Axis) (l r : Node) (i : ℕ) :
    Holds (.interior bx a l r) i ↔ Holds l i ∨ Holds r i := by
  simp only [Holds, leaves, List.mem_append]
  constructor
  · rintro ⟨q, hq | hq, h⟩
    · exact Or.inl ⟨q, hq, h⟩
    · exact Or.inr ⟨q, hq, h⟩
  · rintro (⟨q, hq, h⟩ | ⟨q, hq, h⟩)
    · exact ⟨q, Or.inl hq, h⟩
    · exact ⟨q, Or.inr hq, h⟩

/-- Something of what is under the node is in the way. -/
private def Blocked (ts : List (Triangle ℚ)) (ray : Ray ℚ) (d2 : ℚ) (t : Node) : Prop :=
  ∃ i p, Holds t i ∧ Hit ts ray i p ∧ 1 / 10 ^ 6 < dist2 ray p ∧ dist2 ray p + 1 / 10 ^ 4 < d2

private def NoneNear (ts : List (Triangle ℚ)) (ray : Ray ℚ) : Prop := ∀ i p, Hit ts ray i p → 1 / 10 ^ 6 < dist2 ray p

private theorem walkProbe (nodes : List FlatNode) (ts : List (Triangle ℚ)) (ray : Ray ℚ) (d2 : ℚ) (cap : ℕ) : ∀ (t : Node) (off : ℕ),
    Placed nodes off t → Conservative ts ray t → ∀ (fuel : ℕ) (stack : List ℕ),
    (probe nodes ts ray (inverse ray.direction) d2 cap (fuel + size t) off stack = .ok false ∧ Blocked ts ray d2 t) ∨
    (∃ f, fuel ≤ f ∧ (NoneNear ts ray → ¬ Blocked ts ray d2 t) ∧
      probe nodes ts ray (inverse ray.direction) d2 cap (fuel + size t) off stack =
        resumeProbe nodes ts ray (inverse ray.direction) d2 cap f stack) ∨
    (probe nodes ts ray (inverse ray.direction) d2 cap (fuel + size t) off stack = .panic ∧ cap < stack.length + height t) := by
  intro t
  induction t with
  | leaf bx first n =>
    intro off hp hc fuel stack
    obtain ⟨fn, e, e1, e2, e3, e4⟩ := placed_leaf hp
    have hold : ∀ i, Holds (.leaf bx first n) i ↔ first ≤ i ∧ i < first + n := by
      intro i; simp [Holds, leaves]
    simp only [size, probe]
    rw [e]
    simp only [Outcome.bind]
    rw [e1, e2, e3, e4]
    by_cases hbox : bx.intersect ray.origin (inverse ray.direction) = true
    · rw [if_pos hbox, if_pos rfl]
      by_cases hl : leafBlocks ts ray d2 first (first + n) = true
      · rw [if_pos hl]
        obtain ⟨i, p, ⟨hit, hi⟩, hd⟩ := leafBlocks_sound hl
        exact Or.inl ⟨rfl, i, p, (hold i).2 hi, hit, hd⟩
      · rw [if_neg hl]
        refine Or.inr (Or.inl ⟨fuel, le_refl _, ?_, rfl⟩)
        rintro near ⟨i, p, hi, hit, -, hd⟩
        exact hl (leafBlocks_complete ⟨hit, (hold i).1 hi⟩ hd fun j q hq => near j q hq.1)
    · rw [if_neg hbox]
      refine Or.inr (Or.inl ⟨fuel, le_refl _, ?_, rfl⟩)
      rintro - ⟨i, p, hi, hit, -⟩
      exact hbox (hc _ (.self _) i p hi hit)
  | interior bx a l r hl hr =>
    intro off hp hc fuel stack
    obtain ⟨fn, e, e1, e2, e3, e4⟩ := placed_interior hp
    have cl : Conservative ts ray l := fun s hs => hc s (.left hs)
    have cr : Conservative ts ray r := fun s hs => hc s (.right hs)
    have pl := placed_left hp
    have pr := placed_right hp
    have hht : height (.interior bx a l r) = max (height l) (height r) + 1 := rfl
    have hm1 := le_max_left (height l) (height r)
    have hm2 := le_max_right (height l) (height r)
    have bl : Blocked ts ray d2 l → Blocked ts ray d2 (.interior bx a l r) := fun ⟨i, p, hi, h⟩ =>
      ⟨i, p, (holds_interior bx a l r i).2 (Or.inl hi), h⟩
    have br : Blocked ts ray d2 r → Blocked ts ray d2 (.interior bx a l r) := fun ⟨i, p, hi, h⟩ =>
      ⟨i, p, (holds_interior bx a l r i).2 (Or.inr hi), h⟩
    have nb : ¬ Blocked ts ray d2 l → ¬ Blocked ts ray d2 r → ¬ Blocked ts ray d2 (.interior bx a l r) := by
      rintro h1 h2 ⟨i, p, hi, h⟩
      rcases (holds_interior bx a l r i).1 hi with hi | hi
      · exact h1 ⟨i, p, hi, h⟩
      · exact h2 ⟨i, p, hi, h⟩
    rw [show fuel + size (.interior bx a l r) = (fuel + size l + size r) + 1 by simp only [size]; omega]
    unfold probe
    dsimp only
    rw [e]
    simp only [Outcome.bind]
    rw [e1, e2, e3, e4]
    by_cases hbox : bx.intersect ray.origin (inverse ray.direction) = true
    · rw [if_pos hbox, if_neg (by simp)]
      by_cases hcap : cap ≤ stack.length
      · rw [if_pos hcap]
        exact Or.inr (Or.inr ⟨rfl, by omega⟩)
      rw [if_neg hcap]
      by_cases hneg : isNeg (inverse ray.direction) a = true
      · rw [if_pos hneg]
        rcases hr _ pr cr (fuel + size l) ((off + 1) :: stack) with ⟨e5, hb⟩ | ⟨f, hf, hb, e5⟩ | ⟨e5, hh⟩
        · exact Or.inl ⟨e5, br hb⟩
        · rw [e5]
          change (probe nodes ts ray (inverse ray.direction) d2 cap f (off + 1) stack = _ ∧ _) ∨
            (∃ f', fuel ≤ f' ∧ _ ∧ probe nodes ts ray (inverse ray.direction) d2 cap f (off + 1) stack = _) ∨
            (probe nodes ts ray (inverse ray.direction) d2 cap f (off + 1) stack = _ ∧ _)
          obtain ⟨f', rfl⟩ : ∃ f', f = f' + size l := ⟨f - size l, by omega⟩
          rcases hl _ pl cl f' stack with ⟨e6, hb'⟩ | ⟨f'', hf', hb', e6⟩ | ⟨e6, hh⟩
          · exact Or.inl ⟨e6, bl hb'⟩
          · exact Or.inr (Or.inl ⟨f'', by omega, fun near => nb (hb' near) (hb near), e6⟩)
          · exact Or.inr (Or.inr ⟨e6, by omega⟩)
        · rw [List.length_cons] at hh
          exact Or.inr (Or.inr ⟨e5, by omega⟩)
      · rw [if_neg hneg, show fuel + size l + size r = (fuel + size r) + size l by omega]
        rcases hl _ pl cl (fuel + size r) ((off + 1 + size l) :: stack) with ⟨e5, hb⟩ | ⟨f, hf, hb, e5⟩ | ⟨e5, hh⟩
        · exact Or.inl ⟨e5, bl hb⟩
        · rw [e5]
          change (probe nodes ts ray (inverse ray.direction) d2 cap f (off + 1 + size l) stack = _ ∧ _) ∨
            (∃ f', fuel ≤ f' ∧ _ ∧ probe nodes ts ray (inverse ray.direction) d2 cap f (off + 1 + size l) stack = _) ∨
            (probe nodes ts ray (inverse ray.direction) d2 cap f (off + 1 + size l) stack = _ ∧ _)
          obtain ⟨f', rfl⟩ : ∃ f', f = f' + size r := ⟨f - size r, by omega⟩
          rcases hr _ pr cr f' stack with ⟨e6, hb'⟩ | ⟨f'', hf', hb', e6⟩ | ⟨e6, hh⟩
          · exact Or.inl ⟨e6, br hb'⟩
          · exact Or.inr (Or.inl ⟨f'', by omega, fun near => nb (hb near) (hb' near), e6⟩)
          · exact Or.inr (Or.inr ⟨e6, by omega⟩)
        · rw [List.length_cons] at hh
          exact Or.inr (Or.inr ⟨e5, by omega⟩)
    · rw [if_neg hbox]
      refine Or.inr (Or.inl ⟨fuel + size l + size r, by omega, ?_, rfl⟩)
      rintro - ⟨i, p, hi, hit, -⟩
      exact hbox (hc _ (.self _) i p hi hit)

/-- C53, shadow rays: when the way is said to be obstructed it is, by a triangle of the scene; and when it is obstructed
it is said to be, provided that no triangle is hit within a millimetre.  (What is missing is that proviso: see
`C53_violated_shadow`.) -/
theorem C53_unobstructed_partial (lib : Sorting) (scene scene' : Scene) (nodes : List FlatNode) (order : List ℕ) (ray : Ray ℚ)
    (d2 : ℚ) (cap : ℕ) (h : new lib scene = .ok (nodes, order, scene')) (hn : scene'.triangles.length < 2 ^ 30)
    (hs : Spread scene'.triangles) (hbox : BoxTest scene'.triangles ray) :
    (∃ b, unobstructed nodes scene'.triangles ray d2 cap = .ok b ∧ (b = false → Obstructed scene'.triangles ray d2) ∧
      ((∀ i p, Hit scene'.triangles ray i p → 1 / 10 ^ 6 < dist2 ray p) → Obstructed scene'.triangles ray d2 → b = false)) ∨
    (unobstructed nodes scene'.triangles ray d2 cap = .panic ∧ ∃ root, nodes = flatten 0 root ∧ cap < height root) := by
  by_cases h0 : scene.triangles = []
  · obtain ⟨e1, e2⟩ := new_empty h h0
    left
    refine ⟨true, by unfold unobstructed; rw [e1]; rfl, by simp, ?_⟩
    rintro - ⟨i, p, hit, -⟩
    have := hit_lt hit
    rw [e2] at this
    simp at this
  obtain ⟨root, e, hlen, placed, cons, -, holds⟩ := stored lib scene scene' nodes order ray h0 h hn hs hbox
  have hpos : nodes.length ≠ 0 := by rw [hlen]; cases root <;> simp [size]
  unfold unobstructed
  rw [if_neg hpos, hlen]
  rcases walkProbe nodes scene'.triangles ray d2 cap root 0 placed cons (cap + 1) [] with ⟨e1, i, p, -, hb⟩ | ⟨f, -, hb, e1⟩ | ⟨e1, hh⟩
  · exact Or.inl ⟨false, e1, fun _ => ⟨i, p, hb⟩, fun _ _ => rfl⟩
  · refine Or.inl ⟨true, e1, by simp, ?_⟩
    rintro near ⟨i, p, hit, hd⟩
    exact absurd ⟨i, p, holds i (hit_lt hit), hit, hd⟩ (hb near)
  · exact Or.inr ⟨e1, root, e, by simpa using hh⟩

/-! ### The test of boxes -/

private theorem reciprocal (d : ℚ) : BBox.Spec.Reciprocal d (.fin 1 / .fin d) := by
  by_cases h : d = 0
  · subst h
    exact Or.inr ⟨rfl, Or.inl (by decide +kernel)⟩
  · refine Or.inl ⟨h, ?_⟩
    show XF.div (.fin 1) (.fin d) = _
    simp [XF.div, h]

private theorem between {lo hi a b c u v : ℚ} (h1 : lo ≤ a ∧ a ≤ hi) (h2 : lo ≤ b ∧ b ≤ hi) (h3 : lo ≤ c ∧ c ≤ hi) (hu : 0 ≤ u)
    (hv : 0 ≤ v) (huv : u + v ≤ 1) : lo ≤ a + u * (b - a) + v * (c - a) ∧ a + u * (b - a) + v * (c - a) ≤ hi := by
  constructor <;> nlinarith [h1.1, h1.2, h2.1, h2.2, h3.1, h3.2]

private theorem bounds_vertex (t : Triangle ℚ) (f : V3 ℚ → ℚ) (hf : f = V3.x ∨ f = V3.y ∨ f = V3.z) :
    (f (worldBounds t).min = f t.a ∨ f (worldBounds t).min = f t.b ∨ f (worldBounds t).min = f t.c) ∧
    (f (worldBounds t).max = f t.a ∨ f (worldBounds t).max = f t.b ∨ f (worldBounds t).max = f t.c) := by
  unfold worldBounds BBox.fromUnionPoint BBox.fromPoint
  simp only [BBox.getMinsMaxs_eq]
  have hmin : ∀ a b c : ℚ, min (min a b) c = a ∨ min (min a b) c = b ∨ min (min a b) c = c := by
    intro a b c
    rcases min_choice (min a b) c with h | h
    · rcases min_choice a b with h' | h'
      · exact Or.inl (by rw [h, h'])
      · exact Or.inr (Or.inl (by rw [h, h']))
    · exact Or.inr (Or.inr h)
  have hmax : ∀ a b c : ℚ, max (max a b) c = a ∨ max (max a b) c = b ∨ max (max a b) c = c := by
    intro a b c
    rcases max_choice (max a b) c with h | h
    · rcases max_choice a b with h' | h'
      · exact Or.inl (by rw [h, h'])
      · exact Or.inr (Or.inl (by rw [h, h']))
    · exact Or.inr (Or.inr h)
  rcases hf with rfl | rfl | rfl
  · exact ⟨hmin _ _ _, hmax _ _ _⟩
  · exact ⟨hmin _ _ _, hmax _ _ _⟩
  · exact ⟨hmin _ _ _, hmax _ _ _⟩

/-- C53: the test of boxes is conservative for every ray that is parallel to no plane of axes, or that stays off the
coordinates of the vertices along the axes that it does not move in, when the hits are within the triangles exactly and
not only up to the rounding unit. -/
theorem C53_box_test_partial (ts : List (Triangle ℚ)) (ray : Ray ℚ)
    (inside : ∀ (i : ℕ) (t : Triangle ℚ) p u v, ts[i]? = some t → Triangle.baricentric ray t = some (p, u, v) → 0 ≤ u ∧ 0 ≤ v ∧ u + v ≤ 1)
    (hx : ray.direction.x = 0 → ∀ t ∈ ts, ray.origin.x ≠ t.a.x ∧ ray.origin.x ≠ t.b.x ∧ ray.origin.x ≠ t.c.x)
    (hy : ray.direction.y = 0 → ∀ t ∈ ts, ray.origin.y ≠ t.a.y ∧ ray.origin.y ≠ t.b.y ∧ ray.origin.y ≠ t.c.y)
    (hz : ray.direction.z = 0 → ∀ t ∈ ts, ray.origin.z ≠ t.a.z ∧ ray.origin.z ≠ t.b.z ∧ ray.origin.z ≠ t.c.z) :
    BoxTest ts ray := by
  rintro i p t ⟨t', u, v, ht', hb, -⟩ ht b ⟨ha, hb', hc⟩ faces
  rw [ht] at ht'
  obtain rfl := Option.some.inj ht'
  obtain ⟨⟨s, hs, hp⟩, hp', -⟩ := Triangle.C44_rendering ray t p u v hb
  obtain ⟨hu, hv, huv⟩ := inside i t p u v ht hb
  have off : ∀ (f : V3 ℚ → ℚ), (f = V3.x ∨ f = V3.y ∨ f = V3.z) →
      (f ray.direction = 0 → ∀ t ∈ ts, f ray.origin ≠ f t.a ∧ f ray.origin ≠ f t.b ∧ f ray.origin ≠ f t.c) →
      (∃ c, (∃ t ∈ ts, c = worldBounds t) ∧ f b.min = f c.min) → (∃ c, (∃ t ∈ ts, c = worldBounds t) ∧ f b.max = f c.max) →
      f ray.direction = 0 → f ray.origin ≠ f b.min ∧ f ray.origin ≠ f b.max := by
    rintro f hf hn ⟨c, ⟨q, hq, rfl⟩, e⟩ ⟨c', ⟨q', hq', rfl⟩, e'⟩ h0
    obtain ⟨n1, n2, n3⟩ := hn h0 q hq
    obtain ⟨m1, m2, m3⟩ := hn h0 q' hq'
    rw [e, e']
    constructor
    · rcases (bounds_vertex q f hf).1 with h | h | h <;> rw [h] <;> assumption
    · rcases (bounds_vertex q' f hf).2 with h | h | h <;> rw [h] <;> assumption
  refine BBox.C43_hit_partial b ray.origin ray.direction _ s (reciprocal _) (reciprocal _) (reciprocal _)
    (lt_trans (by norm_num) hs) ?_ (off V3.x (Or.inl rfl) hx faces.minx faces.maxx)
    (off V3.y (Or.inr (Or.inl rfl)) hy faces.miny faces.maxy) (off V3.z (Or.inr (Or.inr rfl)) hz faces.minz faces.maxz)
  have e : ray.origin + ray.direction.scale s = Triangle.Spec.at_ t u v := by rw [← hp', hp]; rfl
  rw [e]
  have hxx := between ha.1 hb'.1 hc.1 hu hv huv
  have hyy := between ha.2.1 hb'.2.1 hc.2.1 hu hv huv
  have hzz := between ha.2.2 hb'.2.2 hc.2.2 hu hv huv
  unfold Triangle.Spec.at_
  refine ⟨?_, ?_, ?_⟩ <;> simp only [V3.add_x, V3.add_y, V3.add_z, V3.scale_x, V3.scale_y, V3.scale_z, V3.sub_x, V3.sub_y, V3.sub_z]
  · convert hxx using 2 <;> ring
  · convert hyy using 2 <;> ring
  · convert hzz using 2 <;> ring

end Simple.Render.Bvh
