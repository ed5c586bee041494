import Verif.Geometry.SplitModel
import Verif.Geometry.LoopProps
import Verif.Geometry.SegmentProps
import Verif.Geometry.ExactSplit

/-! C95: cutting loops with segments. -/

namespace Simple.Geometry

namespace Cut.Spec

open Simple.Geometry.Loop.Spec (areaVector)

/-- `p` is on the line through `a` and `b`. -/
def InLine (a p b : V3 ℝ) : Prop := (p - a).cross (b - a) = 0

/-- The polygon is cut from `p` to `q`: `p` is on the line of the edge from `a` to `b`, and `q` on that of the edge from
`c` to `d`, further around.  The left piece follows the polygon up to `a`, goes across and on from `d`; the right piece
goes from `p` along the polygon to `q`. -/
inductive Chord (p q : V3 ℝ) : List (V3 ℝ) → List (V3 ℝ) → List (V3 ℝ) → Prop
  | mk (xs ys zs : List (V3 ℝ)) (a b c d : V3 ℝ) :
      xs.getLast? = some a → ys.head? = some b → ys.getLast? = some c → (zs ++ xs).head? = some d →
      InLine a p b → InLine c q d → Chord p q (xs ++ ys ++ zs) (xs ++ p :: q :: zs) (p :: ys ++ [q])

/-- `ys` are the vertices `xs`, from some start, without some that are on the line between those next to them. -/
inductive Thin (xs : List (V3 ℝ)) : List (V3 ℝ) → Prop
  | all : Thin xs xs
  | drop (as bs : List (V3 ℝ)) (p q r : V3 ℝ) :
      Thin xs (as ++ p :: q :: r :: bs) → InLine p q r → Thin xs (as ++ p :: r :: bs)
  | start (ys : List (V3 ℝ)) (k : ℕ) : Thin xs ys → Thin xs (ys.rotate k)

end Cut.Spec

namespace Cut

open Simple.Geometry.Loop.Spec (areaVector)

/-! ### Areas -/

private theorem fan_append (o q : V3 ℝ) (ys : List (V3 ℝ)) : ∀ xs : List (V3 ℝ),
    Loop.Spec.fan o (xs ++ q :: ys) = Loop.Spec.fan o (xs ++ [q]) + Loop.Spec.fan o (q :: ys)
  | [] => by
    have : Loop.Spec.fan o [q] = 0 := rfl
    ext <;> simp [this]
  | [a] => by
    simp only [List.cons_append, List.nil_append, Loop.Spec.fan]
    ext <;> simp
  | a :: b :: t => by
    have ih := fan_append o q ys (b :: t)
    simp only [List.cons_append, Loop.Spec.fan] at ih ⊢
    rw [ih]
    ext <;> simp <;> ring

private theorem add_scale (a b : V3 ℝ) (s : ℝ) : (a + b).scale s = a.scale s + b.scale s := by ext <;> simp <;> ring

private theorem add_comm' (a b : V3 ℝ) : a + b = b + a := by ext <;> simp <;> ring

private theorem area_rotated {l m : List (V3 ℝ)} (h : l.IsRotated m) : areaVector l = areaVector m := by
  obtain ⟨k, rfl⟩ := h
  rw [Loop.C47_start]

private theorem area_chord (p q : V3 ℝ) (xs ys : List (V3 ℝ)) :
    areaVector (p :: (xs ++ q :: ys)) = areaVector (p :: (xs ++ [q])) + areaVector (q :: (ys ++ [p])) := by
  have h : areaVector (q :: (ys ++ [p])) = areaVector (p :: q :: ys) := by
    refine area_rotated ?_
    rw [← List.cons_append, ← List.singleton_append (l := q :: ys)]
    exact List.isRotated_append
  rw [h]
  simp only [Loop.Spec.areaVector]
  rw [fan_append, add_scale]

private theorem area_insert (xs ys : List (V3 ℝ)) (a p b : V3 ℝ) (h : Spec.InLine a p b) :
    areaVector (xs ++ a :: p :: b :: ys) = areaVector (xs ++ a :: b :: ys) := by
  rw [Loop.C47_ear, show (p - a).cross (b - a) = 0 from h]
  ext <;> simp

/-- C95: cutting a polygon from a point of an edge to a point of another gives two polygons whose vector areas add up to
that of the polygon. -/
theorem C95_chord (p q : V3 ℝ) (vs left right : List (V3 ℝ)) (h : Spec.Chord p q vs left right) :
    areaVector left + areaVector right = areaVector vs := by
  obtain ⟨xs, ys, zs, a, b, c, d, ha, hb, hc, hd, hp, hq⟩ := h
  obtain ⟨xs', rfl⟩ := List.getLast?_eq_some_iff.1 ha
  obtain ⟨ys1, rfl⟩ : ∃ t, ys = b :: t := by
    cases ys with
    | nil => simp at hb
    | cons y t => simp only [List.head?_cons, Option.some.injEq] at hb; exact ⟨t, by rw [hb]⟩
  obtain ⟨ys2, hys⟩ := List.getLast?_eq_some_iff.1 hc
  -- the polygon with both points
  have h1 : areaVector (xs' ++ [a] ++ (b :: ys1) ++ zs) = areaVector (xs' ++ [a] ++ p :: (b :: ys1) ++ zs) := by
    have := area_insert xs' (ys1 ++ zs) a p b hp
    simp only [List.append_assoc, List.cons_append, List.nil_append] at this ⊢
    exact this.symm
  have h2 : areaVector (xs' ++ [a] ++ p :: (b :: ys1) ++ zs) = areaVector (p :: ((b :: ys1) ++ q :: (zs ++ (xs' ++ [a])))) := by
    obtain ⟨w, hw⟩ : ∃ w, zs ++ (xs' ++ [a]) = d :: w := by
      cases hz : zs ++ (xs' ++ [a]) with
      | nil => rw [hz] at hd; simp at hd
      | cons z t => rw [hz] at hd; simp only [List.head?_cons, Option.some.injEq] at hd; exact ⟨t, by rw [hd]⟩
    have e1 : areaVector (xs' ++ [a] ++ p :: (b :: ys1) ++ zs) = areaVector (p :: (b :: ys1) ++ (zs ++ (xs' ++ [a]))) := by
      refine area_rotated ?_
      have := List.isRotated_append (l := xs' ++ [a]) (l' := p :: (b :: ys1) ++ zs)
      simpa only [List.append_assoc, List.cons_append, List.nil_append] using this
    rw [e1, hw, hys]
    have := area_insert (p :: ys2) w c q d hq
    simp only [List.append_assoc, List.cons_append, List.nil_append] at this ⊢
    exact this.symm
  rw [h1, h2, area_chord, add_comm']
  congr 1
  refine area_rotated ?_
  have := List.isRotated_append (l := xs' ++ [a] ++ [p]) (l' := q :: zs)
  simpa only [List.append_assoc, List.cons_append, List.nil_append] using this

/-- C95: leaving out vertices that are on the line between those next to them does not change the vector area. -/
theorem C95_thin (xs ys : List (V3 ℝ)) (h : Spec.Thin xs ys) : areaVector ys = areaVector xs := by
  induction h with
  | all => rfl
  | drop as bs p q r _ hq ih => rw [← ih, area_insert as bs p q r hq]
  | start ys k _ ih => rw [Loop.C47_start, ih]

/-! ### The points that are pushed -/

section Generic

variable {K : Type*} [Field K] [LinearOrder K]

private theorem flatMap_range' (vs : List (V3 K)) (f : ℕ → List (V3 K)) (s k : ℕ) (hk : s + k ≤ vs.length)
    (hf : ∀ i c, s ≤ i → i < s + k → vs[i]? = some c → f i = [c]) :
    (List.range' s k).flatMap f = (vs.drop s).take k := by
  induction k generalizing s with
  | zero => simp
  | succ k ih =>
    rw [List.range'_succ, List.flatMap_cons, ih (s + 1) (by omega) (fun i c h1 h2 => hf i c (by omega) (by omega)),
      hf s vs[s] le_rfl (by omega) (List.getElem?_eq_getElem (by omega))]
    rw [List.drop_eq_getElem_cons (by omega : s < vs.length), List.take_succ_cons]
    rfl

private theorem flatMap_nil (f : ℕ → List (V3 K)) (s k : ℕ) (hf : ∀ i, s ≤ i → i < s + k → f i = []) :
    (List.range' s k).flatMap f = [] := by
  rw [List.flatMap_eq_nil_iff]
  intro i hi
  rw [List.mem_range'_1] at hi
  exact hf i hi.1 hi.2

private theorem range_split (b m n : ℕ) (hb : b < m) (hm : m < n) :
    List.range (n + 1) = List.range' 0 (b + 1) ++ ((b + 1) :: List.range' (b + 2) (m - b - 1) ++
      ((m + 1) :: List.range' (m + 2) (n - m - 1))) := by
  have e1 : (b + 1) :: List.range' (b + 2) (m - b - 1) = List.range' (b + 1) (m - b) := by
    rw [show m - b = (m - b - 1) + 1 by omega, List.range'_succ]; simp
  have e2 : (m + 1) :: List.range' (m + 2) (n - m - 1) = List.range' (m + 1) (n - m) := by
    rw [show n - m = (n - m - 1) + 1 by omega, List.range'_succ]; simp
  rw [e1, e2, List.range_eq_range']
  have h1 : List.range' (b + 1) (m - b) ++ List.range' (m + 1) (n - m) = List.range' (b + 1) (n - b) := by
    have := List.range'_append_1 (s := b + 1) (m := m - b) (n := n - m)
    rw [show b + 1 + (m - b) = m + 1 by omega, show m - b + (n - m) = n - b by omega] at this
    exact this
  rw [h1]
  have := List.range'_append_1 (s := 0) (m := b + 1) (n := n - b)
  rw [show 0 + (b + 1) = b + 1 by omega, show b + 1 + (n - b) = n + 1 by omega] at this
  exact this.symm

theorem leftPoints_eq (vs : List (V3 K)) (b m : ℕ) (bp mp v0 : V3 K) (hb : b < m) (hm : m < vs.length)
    (h0 : vs[0]? = some v0) :
    leftPoints vs b m bp mp = vs.take (b + 1) ++ bp :: mp :: (vs.drop (m + 1) ++ [v0]) := by
  unfold leftPoints
  rw [range_split b m vs.length hb hm]
  simp only [List.flatMap_append, List.flatMap_cons]
  rw [flatMap_range' vs _ 0 (b + 1) (by omega)
    (fun i c h1 h2 hc => by unfold toLeft; rw [Nat.mod_eq_of_lt (by omega), hc]; dsimp only; rw [if_pos (by omega)])]
  rw [flatMap_nil _ (b + 2) (m - b - 1) (fun i h1 h2 => by
    unfold toLeft
    split
    · rfl
    · rw [if_neg (by omega), if_neg (by omega), if_pos (by omega)])]
  have e1 : toLeft vs b m bp mp (b + 1) = [bp] := by
    unfold toLeft
    rw [Nat.mod_eq_of_lt (by omega), List.getElem?_eq_getElem (by omega : b + 1 < vs.length)]
    dsimp only
    rw [if_neg (by omega), if_pos rfl]
  rw [e1]
  by_cases hmn : m + 1 = vs.length
  · have e2 : toLeft vs b m bp mp (m + 1) = [mp, v0] := by
      unfold toLeft
      rw [hmn, Nat.mod_self, h0]
      dsimp only
      rw [if_neg (by omega), if_neg (by omega), if_neg (by omega), if_pos (by omega)]
    have e5 : vs.drop (m + 1) = [] := List.drop_eq_nil_of_le (by omega)
    rw [e2, show vs.length - m - 1 = 0 by omega, e5]
    simp
  · have e2 : toLeft vs b m bp mp (m + 1) = [mp, vs[m + 1]] := by
      unfold toLeft
      rw [Nat.mod_eq_of_lt (by omega), List.getElem?_eq_getElem (by omega : m + 1 < vs.length)]
      dsimp only
      rw [if_neg (by omega), if_neg (by omega), if_neg (by omega), if_pos rfl]
    have e3 : (List.range' (m + 2) (vs.length - m - 1)).flatMap (toLeft vs b m bp mp) = vs.drop (m + 2) ++ [v0] := by
      have hs := List.range'_append_1 (s := m + 2) (m := vs.length - m - 2) (n := 1)
      rw [show vs.length - m - 2 + 1 = vs.length - m - 1 by omega, show m + 2 + (vs.length - m - 2) = vs.length by omega] at hs
      rw [← hs, List.flatMap_append]
      rw [flatMap_range' vs _ (m + 2) _ (by omega)
        (fun i c h1 h2 hc => by
          unfold toLeft
          rw [Nat.mod_eq_of_lt (by omega), hc]
          dsimp only
          rw [if_neg (by omega), if_neg (by omega), if_neg (by omega), if_neg (by omega)])]
      have e4 : toLeft vs b m bp mp vs.length = [v0] := by
        unfold toLeft
        rw [Nat.mod_self, h0]
        dsimp only
        rw [if_neg (by omega), if_neg (by omega), if_neg (by omega), if_neg (by omega)]
      rw [List.take_of_length_le (by rw [List.length_drop]; omega)]
      simp [e4]
    have e5 : vs.drop (m + 1) = vs[m + 1] :: vs.drop (m + 2) := List.drop_eq_getElem_cons (by omega : m + 1 < vs.length)
    rw [e2, e3, e5]
    simp only [List.drop_zero, List.append_assoc, List.cons_append, List.nil_append]

theorem rightPoints_eq (vs : List (V3 K)) (b m : ℕ) (bp mp : V3 K) (hb : b < m) (hm : m < vs.length) :
    rightPoints vs b m bp mp = bp :: (vs.drop (b + 1)).take (m - b) ++ [mp] := by
  unfold rightPoints
  rw [range_split b m vs.length hb hm]
  simp only [List.flatMap_append, List.flatMap_cons]
  have e1 : toRight vs b m bp mp (b + 1) = [bp, vs[b + 1]] := by
    unfold toRight
    rw [Nat.mod_eq_of_lt (by omega), List.getElem?_eq_getElem (by omega : b + 1 < vs.length)]
    dsimp only
    rw [if_neg (by omega), if_pos rfl]
  have e2 : toRight vs b m bp mp (m + 1) = [mp] := by
    unfold toRight
    rw [List.getElem?_eq_getElem (Nat.mod_lt _ (by omega) : (m + 1) % vs.length < vs.length)]
    dsimp only
    rw [if_neg (by omega), if_neg (by omega), if_neg (by omega), if_pos rfl]
  rw [flatMap_nil _ 0 (b + 1) (fun i h1 h2 => by
    unfold toRight
    split
    · rfl
    · rw [if_pos (by omega)])]
  rw [flatMap_nil _ (m + 2) (vs.length - m - 1) (fun i h1 h2 => by
    unfold toRight
    split
    · rfl
    · rw [if_neg (by omega), if_neg (by omega), if_neg (by omega), if_neg (by omega)])]
  rw [flatMap_range' vs _ (b + 2) (m - b - 1) (by omega)
    (fun i c h1 h2 hc => by
      unfold toRight
      rw [Nat.mod_eq_of_lt (by omega), hc]
      dsimp only
      rw [if_neg (by omega), if_neg (by omega), if_pos (by omega)])]
  rw [e1, e2, List.drop_eq_getElem_cons (by omega : b + 1 < vs.length), show m - b = (m - b - 1) + 1 by omega,
    List.take_succ_cons]
  simp

/-! ### The intersections -/

theorem visit_mem (s : Segment K) (len2 : K) (ret : List (ℕ × V3 K)) (e : (V3 K × V3 K) × ℕ) (c : ℕ × V3 K)
    (h : c ∈ visit s len2 ret e) : c ∈ ret ∨ (c.1 = e.2 ∧ (⟨e.1.1, e.1.2⟩ : Segment K).intersect s = some c.2) := by
  unfold visit at h
  split_ifs at h with h1
  · exact Or.inl h
  · cases hi : (⟨e.1.1, e.1.2⟩ : Segment K).intersect s with
    | none => rw [hi] at h; exact Or.inl h
    | some p =>
      rw [hi] at h
      unfold addPt at h
      dsimp only at h
      split_ifs at h
      · exact Or.inl h
      · rw [List.mem_append, List.mem_singleton] at h
        rcases h with h | h
        · exact Or.inl h
        · subst h; exact Or.inr ⟨rfl, rfl⟩

theorem cuts_mem (edges : List (V3 K × V3 K)) (s : Segment K) (len2 : K) (c : ℕ × V3 K) (h : c ∈ cuts edges s len2) :
    ∃ e, edges[c.1]? = some e ∧ (⟨e.1, e.2⟩ : Segment K).intersect s = some c.2 := by
  unfold cuts at h
  split_ifs at h
  · simp at h
  · have key : ∀ (es : List ((V3 K × V3 K) × ℕ)) (ret : List (ℕ × V3 K)), c ∈ es.foldl (visit s len2) ret →
        c ∈ ret ∨ ∃ e ∈ es, c.1 = e.2 ∧ (⟨e.1.1, e.1.2⟩ : Segment K).intersect s = some c.2 := by
      intro es
      induction es with
      | nil => intro ret h; exact Or.inl h
      | cons e es ih =>
        intro ret h
        rcases ih _ h with h | ⟨e', he', h⟩
        · rcases visit_mem s len2 ret e c h with h | h
          · exact Or.inl h
          · exact Or.inr ⟨e, List.mem_cons_self, h⟩
        · exact Or.inr ⟨e', List.mem_cons_of_mem _ he', h⟩
    rcases key _ _ h with h | ⟨e, he, h1, h2⟩
    · simp at h
    · refine ⟨e.1, ?_, h2⟩
      rw [h1]
      exact List.mem_zipIdx_iff_getElem?.1 he

omit [Field K] [LinearOrder K] in
theorem firstOfEdge_mem (l : List (ℕ × V3 K)) (c : ℕ × V3 K) (h : c ∈ firstOfEdge l) : c ∈ l := by
  unfold firstOfEdge at h
  have key : ∀ (l acc : List (ℕ × V3 K)),
      c ∈ l.foldl (fun acc c => if acc.any (fun a => a.1 = c.1) then acc else acc ++ [c]) acc → c ∈ acc ∨ c ∈ l := by
    intro l
    induction l with
    | nil => intro acc h; exact Or.inl h
    | cons d l ih =>
      intro acc h
      rw [List.foldl_cons] at h
      rcases ih _ h with h | h
      · split_ifs at h
        · exact Or.inl h
        · rw [List.mem_append, List.mem_singleton] at h
          rcases h with h | h
          · exact Or.inl h
          · exact Or.inr (h ▸ List.mem_cons_self)
      · exact Or.inr (List.mem_cons_of_mem _ h)
  rcases key l [] h with h | h
  · simp at h
  · exact h

theorem branch_some (l : List (ℕ × V3 K)) (p q : ℕ × V3 K) (h : branch l = some (p, q)) :
    p ∈ l ∧ q ∈ l ∧ p.1 < q.1 ∧ (p.2.compare q.2 = false ∨ q.2.compare p.2 = false) := by
  unfold branch at h
  split at h
  · rename_i a b t
    split_ifs at h with h1 h2 h3
    · simp only [Option.some.injEq, Prod.mk.injEq] at h
      obtain ⟨rfl, rfl⟩ := h
      exact ⟨by simp, by simp, h3, Or.inr (by simpa using h2)⟩
    · simp only [Option.some.injEq, Prod.mk.injEq] at h
      obtain ⟨rfl, rfl⟩ := h
      exact ⟨by simp, by simp, by omega, Or.inl (by simpa using h2)⟩
  · simp at h

end Generic

end Cut

namespace Loop

theorem intersect_on (e s : Segment ℝ) (p : V3 ℝ) (h : e.intersect s = some p) :
    ∃ t, (-(1 / 10 ^ 12) ≤ t ∧ t < 1 + 1 / 10 ^ 7) ∧ p = Segment.Spec.pointAt e t ∧
      (Segment.Spec.Coplanar e s → ∃ u, 0 < u ∧ u < 1 ∧ p = Segment.Spec.pointAt s u) := by
  unfold Segment.intersect at h
  cases hg : e.getIntersectionPt s with
  | none => rw [hg] at h; simp at h
  | some tt =>
    obtain ⟨ta, tb⟩ := tt
    rw [hg] at h
    dsimp only at h
    split_ifs at h with hc
    simp only [Option.some.injEq] at h
    refine ⟨ta, hc.1, h.symm, fun hp => ⟨tb, ?_, ?_, ?_⟩⟩
    · exact lt_of_lt_of_le (by norm_num) hc.2.1
    · exact lt_trans hc.2.2 (by norm_num)
    · rw [← (Segment.C46_point_partial e s ta tb hg).1 hp, ← h]
      rfl

theorem around_get (l : List (V3 ℝ)) (i : ℕ) (e : V3 ℝ × V3 ℝ) (h : (around l)[i]? = some e) :
    l[i]? = some e.1 ∧ l[(i + 1) % l.length]? = some e.2 := by
  cases l with
  | nil => simp [around] at h
  | cons a t =>
    simp only [around] at h
    rw [List.getElem?_zip_eq_some] at h
    refine ⟨h.1, ?_⟩
    have hi : i < (a :: t).length := by
      by_contra hi
      rw [List.getElem?_eq_none (by omega)] at h
      simp at h
    simp only [List.length_cons] at hi ⊢
    by_cases hl : i = t.length
    · subst hl
      rw [Nat.mod_self]
      simpa using h.2
    · rw [Nat.mod_eq_of_lt (by omega)]
      have h2 := h.2
      rw [List.getElem?_append_left (by omega)] at h2
      simpa using h2

private theorem chord_of (vs : List (V3 ℝ)) (b m : ℕ) (bp mp v0 : V3 ℝ) (e1 e2 : V3 ℝ × V3 ℝ) (s : Segment ℝ)
    (hbm : b < m) (h0 : vs[0]? = some v0) (he1 : (around vs)[b]? = some e1) (he2 : (around vs)[m]? = some e2)
    (hi1 : (⟨e1.1, e1.2⟩ : Segment ℝ).intersect s = some bp) (hi2 : (⟨e2.1, e2.2⟩ : Segment ℝ).intersect s = some mp) :
    m < vs.length ∧ Cut.Spec.Chord bp mp vs (vs.take (b + 1) ++ bp :: mp :: vs.drop (m + 1))
      (bp :: (vs.drop (b + 1)).take (m - b) ++ [mp]) := by
  obtain ⟨a1, a2⟩ := around_get vs b e1 he1
  obtain ⟨c1, c2⟩ := around_get vs m e2 he2
  have hm : m < vs.length := (List.getElem?_eq_some_iff.1 c1).1
  have hline : ∀ (a c p : V3 ℝ), (⟨a, c⟩ : Segment ℝ).intersect s = some p → Cut.Spec.InLine a p c := by
    intro a c p h
    obtain ⟨t, -, rfl, -⟩ := intersect_on _ _ _ h
    unfold Cut.Spec.InLine Segment.Spec.pointAt
    ext <;> simp <;> ring
  rw [Nat.mod_eq_of_lt (by omega)] at a2
  refine ⟨hm, ?_⟩
  have hvs : vs = vs.take (b + 1) ++ (vs.drop (b + 1)).take (m - b) ++ vs.drop (m + 1) := by
    have h1 : (vs.drop (b + 1)).drop (m - b) = vs.drop (m + 1) := by rw [List.drop_drop]; congr 1; omega
    rw [List.append_assoc, ← h1, List.take_append_drop, List.take_append_drop]
  have hc := Cut.Spec.Chord.mk (p := bp) (q := mp) (vs.take (b + 1)) ((vs.drop (b + 1)).take (m - b)) (vs.drop (m + 1))
    e1.1 e1.2 e2.1 e2.2 ?_ ?_ ?_ ?_ (hline _ _ _ hi1) (hline _ _ _ hi2)
  · rw [← hvs] at hc
    exact hc
  · rw [List.getLast?_take, if_neg (by omega), Nat.add_sub_cancel, a1]
    rfl
  · rw [List.head?_take, if_neg (by omega), List.head?_drop, a2]
  · rw [List.getLast?_take, if_neg (by omega), List.getElem?_drop, show b + 1 + (m - b - 1) = m by omega, c1]
    rfl
  · by_cases hl : m + 1 = vs.length
    · rw [List.drop_eq_nil_of_le (by omega), List.nil_append, List.head?_take, if_neg (by omega), List.head?_eq_getElem?]
      rw [hl, Nat.mod_self] at c2
      exact c2
    · rw [Nat.mod_eq_of_lt (by omega)] at c2
      rw [List.head?_append, List.head?_drop, c2]
      rfl

private theorem pushEach_ok (vs : List (V3 ℝ)) : ∀ (l r : Loop), l.pushEach vs = .ok r → Spec.Reachable l →
    Spec.Reachable r ∧ r.vertices.Sublist (l.vertices ++ vs) := by
  induction vs with
  | nil =>
    intro l r h hl
    simp only [pushEach, Outcome.ok.injEq] at h
    subst h
    exact ⟨hl, by simp⟩
  | cons v vs ih =>
    intro l r h hl
    unfold pushEach at h
    split at h
    · rename_i l' hl'
      have hr : Spec.Reachable l' := by
        have := Spec.Reachable.step l (.push v) hl (by simp)
        rwa [show l.step (.push v) = l.push v from rfl, hl'] at this
      obtain ⟨h1, h2⟩ := ih l' r h hr
      refine ⟨h1, h2.trans ?_⟩
      have hp := (C48_push l v true).2.2
      rw [show l.pushCollinear v true = l.push v from rfl, hl'] at hp
      have hs : l'.vertices.Sublist (l.vertices ++ [v]) := by
        rcases (hp rfl).2.2 with h | h | h
        · rw [h.1]; exact List.sublist_append_left ..
        · rw [h]
        · rw [h.2]; exact (List.dropLast_sublist _).append (List.Sublist.refl _)
      have := hs.append (List.Sublist.refl vs)
      simpa using this
    · simp at h
    · simp at h

private theorem keep_ok (l : Loop) (ps : List Loop) (h : l.keep = .ok ps) (hl : Spec.Reachable l) :
    ps.length ≤ 1 ∧ ∀ r ∈ ps, Spec.Reachable r ∧ r.closed = true ∧ r.vertices.Sublist l.vertices := by
  unfold keep at h
  split_ifs at h
  · split at h
    · rename_i l' hl'
      simp only [Outcome.ok.injEq] at h
      subst h
      refine ⟨by simp, ?_⟩
      intro r hr
      rw [List.mem_singleton] at hr
      subst hr
      have hc := (C48_close l).2
      rw [hl'] at hc
      have hc := hc rfl
      have := Spec.Reachable.step l .close hl (fun _ => by
        rw [show l.step .close = l.close from rfl, hl'])
      rw [show l.step .close = l.close from rfl, hl'] at this
      exact ⟨this, hc.2.1, hc.2.2.1⟩
    · simp at h
    · simp at h
  · simp only [Outcome.ok.injEq] at h
    subst h
    simp

private theorem split_cases (l : Loop) (seg : Segment ℝ) (ps : List Loop) (h : l.split seg = .ok ps) :
    l.closed = true ∧ ∃ first t, l.vertices = first :: t ∧ (ps = [l] ∨
      ∃ (b m : ℕ) (bp mp : V3 ℝ) (e1 e2 : V3 ℝ × V3 ℝ) (left right : Loop) (as bs : List Loop), b < m ∧
        (bp.compare mp = false ∨ mp.compare bp = false) ∧
        (around l.vertices)[b]? = some e1 ∧ (around l.vertices)[m]? = some e2 ∧
        (⟨e1.1, e1.2⟩ : Segment ℝ).intersect (snapSegment first l.normal seg) = some bp ∧
        (⟨e2.1, e2.2⟩ : Segment ℝ).intersect (snapSegment first l.normal seg) = some mp ∧
        new.pushEach (Cut.leftPoints l.vertices b m bp mp) = .ok left ∧
        new.pushEach (Cut.rightPoints l.vertices b m bp mp) = .ok right ∧
        left.keep = .ok as ∧ right.keep = .ok bs ∧ ps = as ++ bs) := by
  unfold split at h
  split_ifs at h with hc
  refine ⟨by simpa using hc, ?_⟩
  cases hv : l.vertices with
  | nil => rw [hv] at h; simp at h
  | cons first t =>
    rw [hv] at h
    dsimp only at h
    refine ⟨first, t, rfl, ?_⟩
    split_ifs at h with h1
    · simp only [Outcome.ok.injEq] at h
      exact Or.inl h.symm
    · split at h
      · simp only [Outcome.ok.injEq] at h
        exact Or.inl h.symm
      · rename_i b bp m mp hb
        obtain ⟨m1, m2, hlt, hcmp⟩ := Cut.branch_some _ _ _ hb
        obtain ⟨e1, he1, hi1⟩ := Cut.cuts_mem _ _ _ _ (Cut.firstOfEdge_mem _ _ m1)
        obtain ⟨e2, he2, hi2⟩ := Cut.cuts_mem _ _ _ _ (Cut.firstOfEdge_mem _ _ m2)
        cases hl : new.pushEach (Cut.leftPoints (first :: t) b m bp mp) with
        | err => rw [hl] at h; simp [Outcome.bind] at h
        | panic => rw [hl] at h; simp [Outcome.bind] at h
        | ok left =>
          cases hr : new.pushEach (Cut.rightPoints (first :: t) b m bp mp) with
          | err => rw [hl, hr] at h; simp [Outcome.bind] at h
          | panic => rw [hl, hr] at h; simp [Outcome.bind] at h
          | ok right =>
            cases hk : left.keep with
            | err => rw [hl, hr] at h; simp [Outcome.bind, hk] at h
            | panic => rw [hl, hr] at h; simp [Outcome.bind, hk] at h
            | ok as =>
              cases hk' : right.keep with
              | err => rw [hl, hr] at h; simp [Outcome.bind, hk, hk'] at h
              | panic => rw [hl, hr] at h; simp [Outcome.bind, hk, hk'] at h
              | ok bs =>
                rw [hl, hr] at h
                simp only [Outcome.bind, hk, hk', Outcome.ok.injEq] at h
                exact Or.inr ⟨b, m, bp, mp, e1, e2, left, right, as, bs, hlt, hcmp, he1, he2, hi1, hi2, hl, hr, hk, hk', h.symm⟩

/-- C95: splitting a loop gives the loop itself, or at most one piece on each side of a cut from a point of an edge to a
point of another edge.  The pieces are polygons with the area and the perimeter that they report, and their vertices are
some of the points of that side, in order. -/
theorem C95_split (l : Loop) (seg : Segment ℝ) (ps : List Loop) (h : l.split seg = .ok ps) :
    l.closed = true ∧ (ps = [l] ∨ ∃ (p q first : V3 ℝ) (left right : List (V3 ℝ)) (as bs : List Loop),
      l.vertices.head? = some first ∧ Cut.Spec.Chord p q l.vertices left right ∧ ps = as ++ bs ∧
      as.length ≤ 1 ∧ bs.length ≤ 1 ∧
      (∀ r ∈ as, r.closed = true ∧ Spec.Sound r ∧ r.vertices.Sublist (left ++ [first])) ∧
      ∀ r ∈ bs, r.closed = true ∧ Spec.Sound r ∧ r.vertices.Sublist right) := by
  obtain ⟨hc, first, t, hv, h⟩ := split_cases l seg ps h
  refine ⟨hc, h.imp id ?_⟩
  rintro ⟨b, m, bp, mp, e1, e2, left, right, as, bs, hlt, -, he1, he2, hi1, hi2, hl, hr, hk, hk', rfl⟩
  have h0 : l.vertices[0]? = some first := by rw [hv]; rfl
  obtain ⟨hm, hch⟩ := chord_of l.vertices b m bp mp first e1 e2 _ hlt h0 he1 he2 hi1 hi2
  rw [Cut.leftPoints_eq _ _ _ _ _ _ hlt hm h0] at hl
  rw [Cut.rightPoints_eq _ _ _ _ _ hlt hm] at hr
  obtain ⟨l1, l2⟩ := pushEach_ok _ _ _ hl .new
  obtain ⟨r1, r2⟩ := pushEach_ok _ _ _ hr .new
  obtain ⟨k1, k2⟩ := keep_ok _ _ hk l1
  obtain ⟨k3, k4⟩ := keep_ok _ _ hk' r1
  refine ⟨bp, mp, first, _, _, as, bs, by rw [hv]; rfl, hch, rfl, k1, k3, ?_, ?_⟩
  · intro r hr
    obtain ⟨x, y, z⟩ := k2 r hr
    refine ⟨y, C48_history_partial r x y, z.trans ?_⟩
    simpa [new] using l2
  · intro r hr
    obtain ⟨x, y, z⟩ := k4 r hr
    refine ⟨y, C48_history_partial r x y, z.trans ?_⟩
    simpa [new] using r2

/-- C95, in part: when all that was left out of the pieces is vertices on the line between those next to them, the areas
of the pieces add up to that of the loop, counting those of pieces that turn around as negative; so they add up if the
pieces have the normal of the loop.  Missing: a piece can be on the other side of the loop's boundary
(`C95_violated_outside`), then its normal is the opposite. -/
theorem C95_area_partial (l r1 r2 : Loop) (seg : Segment ℝ) (hs : Spec.Sound l) (h : l.split seg = .ok [r1, r2]) :
    ∃ (p q first : V3 ℝ) (left right : List (V3 ℝ)), l.vertices.head? = some first ∧ Cut.Spec.Chord p q l.vertices left right ∧
      (Cut.Spec.Thin (left ++ [first]) r1.vertices → Cut.Spec.Thin right r2.vertices →
        l.normal.dot (Spec.areaVector r1.vertices) + l.normal.dot (Spec.areaVector r2.vertices) = l.area ∧
        (r1.normal = l.normal → r2.normal = l.normal → r1.area + r2.area = l.area)) := by
  obtain ⟨hc, h | ⟨p, q, first, left, right, as, bs, h1, h2, h3, h4, h5, h6, h7⟩⟩ := C95_split l seg _ h
  · simp at h
  refine ⟨p, q, first, left, right, h1, h2, ?_⟩
  obtain ⟨rfl, rfl⟩ : as = [r1] ∧ bs = [r2] := by
    match as, bs, h4, h5 with
    | [], [], _, _ => simp at h3
    | [a], [], _, _ => simp at h3
    | [], [b], _, _ => simp at h3
    | [a], [b], _, _ => simpa using And.intro (by simpa using (congrArg List.head? h3).symm) (by simpa using (congrArg List.getLast? h3).symm)
  intro t1 t2
  have e1 := Cut.C95_thin _ _ t1
  have e2 := Cut.C95_thin _ _ t2
  have e3 := Cut.C95_chord p q l.vertices left right h2
  have e4 : Spec.areaVector (left ++ [first]) = Spec.areaVector left := by
    have hh : left.head? = some first := by
      generalize l.vertices = vs at h1 h2
      obtain ⟨xs, ys, zs, a, b, c, d, ha, -⟩ := h2
      cases xs with
      | nil => simp at ha
      | cons x xs => simpa using h1
    cases left with
    | nil => simp at hh
    | cons a w =>
      simp only [List.head?_cons, Option.some.injEq] at hh
      subst hh
      have : Spec.areaVector (a :: w ++ [a]) = Spec.areaVector (a :: a :: w) := by
        rw [← C47_start (a :: a :: w) 1]
        simp
      rw [this]
      cases w with
      | nil => simp [Spec.areaVector, Spec.fan]
      | cons b w =>
        simp only [Spec.areaVector, Spec.fan]
        congr 1
        ext <;> simp
  have key : l.normal.dot (Spec.areaVector r1.vertices) + l.normal.dot (Spec.areaVector r2.vertices) = l.area := by
    rw [hs.2.2.2.1, ← e3, e1, e2, e4]
    simp only [V3.dot, V3.add_x, V3.add_y, V3.add_z]
    ring
  refine ⟨key, fun n1 n2 => ?_⟩
  rw [(h6 r1 (by simp)).2.1.2.2.2.1, (h7 r2 (by simp)).2.1.2.2.2.1, n1, n2]
  exact key

theorem coplanar_of (n o a b c d : V3 ℝ) (hn : n.lengthSquared = 1) (ha : n.dot (a - o) = 0) (hb : n.dot (b - o) = 0)
    (hc : n.dot (c - o) = 0) (hd : n.dot (d - o) = 0) : Segment.Spec.Coplanar ⟨a, b⟩ ⟨c, d⟩ := by
  unfold Segment.Spec.Coplanar Segment.Spec.normal
  simp only [V3.dot, V3.lengthSquared, V3.sub_x, V3.sub_y, V3.sub_z, V3.cross_x, V3.cross_y, V3.cross_z] at *
  have h1 : n.x * (b.x - a.x) + n.y * (b.y - a.y) + n.z * (b.z - a.z) = 0 := by linarith
  have h2 : n.x * (d.x - c.x) + n.y * (d.y - c.y) + n.z * (d.z - c.z) = 0 := by linarith
  have h3 : n.x * (a.x - c.x) + n.y * (a.y - c.y) + n.z * (a.z - c.z) = 0 := by linarith
  generalize b.x - a.x = ux at *
  generalize b.y - a.y = uy at *
  generalize b.z - a.z = uz at *
  generalize d.x - c.x = vx at *
  generalize d.y - c.y = vy at *
  generalize d.z - c.z = vz at *
  generalize a.x - c.x = wx at *
  generalize a.y - c.y = wy at *
  generalize a.z - c.z = wz at *
  -- the determinant of `u`, `v`, `w` times `n` vanishes
  have d1 : n.x * (wx * (uy * vz - uz * vy) + wy * (uz * vx - ux * vz) + wz * (ux * vy - uy * vx)) = 0 := by
    linear_combination (vy * wz - vz * wy) * h1 + (wy * uz - wz * uy) * h2 + (uy * vz - uz * vy) * h3
  have d2 : n.y * (wx * (uy * vz - uz * vy) + wy * (uz * vx - ux * vz) + wz * (ux * vy - uy * vx)) = 0 := by
    linear_combination (vz * wx - vx * wz) * h1 + (wz * ux - wx * uz) * h2 + (uz * vx - ux * vz) * h3
  have d3 : n.z * (wx * (uy * vz - uz * vy) + wy * (uz * vx - ux * vz) + wz * (ux * vy - uy * vx)) = 0 := by
    linear_combination (vx * wy - vy * wx) * h1 + (wx * uy - wy * ux) * h2 + (ux * vy - uy * vx) * h3
  linear_combination n.x * d1 + n.y * d2 + n.z * d3 - (wx * (uy * vz - uz * vy) + wy * (uz * vx - ux * vz) + wz * (ux * vy - uy * vx)) * hn

/-- C95: a loop is only cut along the segment: when the vertices are in the plane of the loop and the segment ends closer
than a millimetre to it, the points where it is cut are inside the segment that is moved into the plane, and on edges of
the loop, up to a ten-millionth of their length. -/
theorem C95_along (l : Loop) (seg : Segment ℝ) (ps : List Loop) (h : l.split seg = .ok ps) (hs : l.normal.lengthSquared = 1)
    (first : V3 ℝ) (hf : l.vertices.head? = some first) (hp : Spec.InPlane l.normal first l.vertices)
    (h1 : |l.normal.dot (seg.start - first)| < 1 / 1000) (h2 : |l.normal.dot (seg.fin - first)| < 1 / 1000) :
    ps = [l] ∨ ∃ (p q a b c d : V3 ℝ) (left right : List (V3 ℝ)) (i j : ℕ) (t t' u u' : ℝ),
      Cut.Spec.Chord p q l.vertices left right ∧ i < j ∧
      l.vertices[i]? = some a ∧ l.vertices[(i + 1) % l.vertices.length]? = some b ∧
      l.vertices[j]? = some c ∧ l.vertices[(j + 1) % l.vertices.length]? = some d ∧
      p = Segment.Spec.pointAt ⟨a, b⟩ t ∧ q = Segment.Spec.pointAt ⟨c, d⟩ t' ∧
      (-(1 / 10 ^ 12) ≤ t ∧ t < 1 + 1 / 10 ^ 7) ∧ (-(1 / 10 ^ 12) ≤ t' ∧ t' < 1 + 1 / 10 ^ 7) ∧
      (0 < u ∧ u < 1) ∧ (0 < u' ∧ u' < 1) ∧
      p = Segment.Spec.pointAt ⟨seg.start.projectIntoPlane first l.normal, seg.fin.projectIntoPlane first l.normal⟩ u ∧
      q = Segment.Spec.pointAt ⟨seg.start.projectIntoPlane first l.normal, seg.fin.projectIntoPlane first l.normal⟩ u' := by
  obtain ⟨hc, first', w, hv, h⟩ := split_cases l seg ps h
  refine h.imp id ?_
  rintro ⟨i, j, bp, mp, e1, e2, lf, rg, as, bs, hlt, -, he1, he2, hi1, hi2, -⟩
  obtain rfl : first' = first := by rw [hv] at hf; simpa using hf
  obtain ⟨a1, a2⟩ := around_get _ _ _ he1
  obtain ⟨c1, c2⟩ := around_get _ _ _ he2
  obtain ⟨-, hch⟩ := chord_of l.vertices i j bp mp first' e1 e2 _ hlt (by rw [hv]; rfl) he1 he2 hi1 hi2
  have hproj : ∀ x : V3 ℝ, l.normal.dot (x.projectIntoPlane first' l.normal - first') = 0 := by
    intro x
    simp only [V3.projectIntoPlane, V3.distanceToPlane, V3.dot, V3.lengthSquared, V3.sub_x, V3.sub_y, V3.sub_z, V3.scale_x,
      V3.scale_y, V3.scale_z] at hs ⊢
    linear_combination -((x.x - first'.x) * l.normal.x + (x.y - first'.y) * l.normal.y + (x.z - first'.z) * l.normal.z) * hs
  have hsn : snapSegment first' l.normal seg =
      ⟨seg.start.projectIntoPlane first' l.normal, seg.fin.projectIntoPlane first' l.normal⟩ := by
    unfold snapSegment
    rw [if_pos]
    have e : ∀ x : V3 ℝ, x.distanceToPlane first' l.normal = l.normal.dot (x - first') := by
      intro x; simp only [V3.distanceToPlane, V3.dot]; ring
    rw [e, e]
    exact ⟨h1, h2⟩
  rw [hsn] at hi1 hi2
  obtain ⟨t, ht, hpt, hpu⟩ := intersect_on _ _ _ hi1
  obtain ⟨t', ht', hqt, hqu⟩ := intersect_on _ _ _ hi2
  have mem : ∀ (k : ℕ) (v : V3 ℝ), l.vertices[k]? = some v → v ∈ l.vertices := fun k v hk => List.mem_of_getElem? hk
  obtain ⟨u, hu1, hu2, hu⟩ := hpu (coplanar_of l.normal first' _ _ _ _ hs (hp _ (mem _ _ a1)) (hp _ (mem _ _ a2)) (hproj _) (hproj _))
  obtain ⟨u', hu1', hu2', hu'⟩ := hqu (coplanar_of l.normal first' _ _ _ _ hs (hp _ (mem _ _ c1)) (hp _ (mem _ _ c2)) (hproj _) (hproj _))
  exact ⟨bp, mp, e1.1, e1.2, e2.1, e2.2, _, _, i, j, t, t', u, u', hch, hlt, a1, a2, c1, c2, hpt, hqt, ht, ht', ⟨hu1, hu2⟩, ⟨hu1', hu2'⟩, hu, hu'⟩

/-- C95: an open loop is refused, and splitting a loop that has vertices never panics. -/
theorem C95_refused (l : Loop) (seg : Segment ℝ) :
    (l.closed = false → l.split seg = .err) ∧ (l.vertices ≠ [] → l.split seg ≠ .panic) := by
  constructor
  · intro h
    unfold split
    rw [h, if_pos (by rfl)]
  · intro hv
    obtain ⟨first, t, hv⟩ := List.exists_cons_of_ne_nil hv
    have hpush : ∀ (vs : List (V3 ℝ)) (r : Loop), r.pushEach vs ≠ .panic := by
      intro vs
      induction vs with
      | nil => intro r; simp [pushEach]
      | cons v vs ih =>
        intro r
        unfold pushEach
        split
        · exact ih _
        · simp
        · rename_i r' hr'
          have := (C48_push r v true).1
          rw [show r.pushCollinear v true = r.push v from rfl, hr'] at this
          exact absurd rfl this
    have hkeep : ∀ r : Loop, r.keep ≠ .panic := by
      intro r
      unfold keep
      split_ifs
      · split
        · simp
        · simp
        · rename_i r' hr'
          have := (C48_close r).1
          rw [hr'] at this
          exact absurd rfl this
      · simp
    unfold split
    split_ifs
    · simp
    · rw [hv]
      dsimp only
      split_ifs
      · simp
      · split
        · simp
        · rename_i b bp m mp _
          cases hl : new.pushEach (Cut.leftPoints (first :: t) b m bp mp) with
          | err => simp [Outcome.bind]
          | panic => exact absurd hl (hpush _ _)
          | ok left =>
            cases hr : new.pushEach (Cut.rightPoints (first :: t) b m bp mp) with
            | err => simp [Outcome.bind]
            | panic => exact absurd hr (hpush _ _)
            | ok right =>
              simp only [Outcome.bind]
              cases hk : left.keep with
              | err => simp
              | panic => exact absurd hk (hkeep _)
              | ok as =>
                dsimp only
                cases hk' : right.keep with
                | err => simp
                | panic => exact absurd hk' (hkeep _)
                | ok bs => simp

/-- C95: splitting with several segments at most doubles the number of pieces with each, and gives the loop itself or
polygons with the area and the perimeter that they report. -/
theorem C95_slice (l : Loop) (segs : List (Segment ℝ)) (ps : List Loop) (h : l.splitFromSlice segs = .ok ps) :
    ps.length ≤ 2 ^ segs.length ∧ ∀ r ∈ ps, r = l ∨ (r.closed = true ∧ Spec.Sound r) := by
  have one : ∀ (r : Loop) (s : Segment ℝ) (ps : List Loop), r.split s = .ok ps →
      ps.length ≤ 2 ∧ ∀ x ∈ ps, x = r ∨ (x.closed = true ∧ Spec.Sound x) := by
    intro r s ps h
    obtain ⟨-, rfl | ⟨p, q, first, left, right, as, bs, -, -, rfl, h4, h5, h6, h7⟩⟩ := C95_split r s ps h
    · simp
    · refine ⟨by rw [List.length_append]; omega, fun x hx => ?_⟩
      rw [List.mem_append] at hx
      rcases hx with hx | hx
      · exact Or.inr ⟨(h6 x hx).1, (h6 x hx).2.1⟩
      · exact Or.inr ⟨(h7 x hx).1, (h7 x hx).2.1⟩
  have each : ∀ (s : Segment ℝ) (rs ps : List Loop), splitEach s rs = .ok ps →
      ps.length ≤ 2 * rs.length ∧ ∀ x ∈ ps, x ∈ rs ∨ (x.closed = true ∧ Spec.Sound x) := by
    intro s rs
    induction rs with
    | nil => intro ps h; simp only [splitEach, Outcome.ok.injEq] at h; subst h; simp
    | cons r rs ih =>
      intro ps h
      unfold splitEach at h
      cases h1 : r.split s with
      | err => rw [h1] at h; simp [Outcome.bind] at h
      | panic => rw [h1] at h; simp [Outcome.bind] at h
      | ok as =>
        cases h2 : splitEach s rs with
        | err => rw [h1, h2] at h; simp [Outcome.bind] at h
        | panic => rw [h1, h2] at h; simp [Outcome.bind] at h
        | ok bs =>
          rw [h1, h2] at h
          simp only [Outcome.bind, Outcome.ok.injEq] at h
          subst h
          obtain ⟨a1, a2⟩ := one r s as h1
          obtain ⟨b1, b2⟩ := ih bs h2
          refine ⟨by rw [List.length_append, List.length_cons]; omega, fun x hx => ?_⟩
          rw [List.mem_append] at hx
          rcases hx with hx | hx
          · rcases a2 x hx with rfl | h
            · exact Or.inl List.mem_cons_self
            · exact Or.inr h
          · rcases b2 x hx with h | h
            · exact Or.inl (List.mem_cons_of_mem _ h)
            · exact Or.inr h
  have main : ∀ (segs : List (Segment ℝ)) (rs ps : List Loop),
      segs.foldl (fun ret s => ret.bind (splitEach s)) (.ok rs) = Outcome.ok ps →
      ps.length ≤ 2 ^ segs.length * rs.length ∧ ∀ x ∈ ps, x ∈ rs ∨ (x.closed = true ∧ Spec.Sound x) := by
    intro segs
    induction segs with
    | nil =>
      intro rs ps h
      simp only [List.foldl_nil, Outcome.ok.injEq] at h
      subst h
      exact ⟨by simp, fun x hx => Or.inl hx⟩
    | cons s segs ih =>
      intro rs ps h
      rw [List.foldl_cons] at h
      have stuck : ∀ (segs : List (Segment ℝ)) (o : Outcome (List Loop)), o = .err ∨ o = .panic →
          segs.foldl (fun ret s => ret.bind (splitEach s)) o ≠ .ok ps := by
        intro segs
        induction segs with
        | nil => rintro o (rfl | rfl) <;> simp
        | cons s segs ih => rintro o (rfl | rfl) <;> exact ih _ (by simp [Outcome.bind])
      cases h1 : splitEach s rs with
      | err => exact absurd h (stuck _ _ (by simp [Outcome.bind, h1]))
      | panic => exact absurd h (stuck _ _ (by simp [Outcome.bind, h1]))
      | ok qs =>
        simp only [Outcome.bind, h1] at h
        obtain ⟨a1, a2⟩ := each s rs qs h1
        obtain ⟨b1, b2⟩ := ih qs ps h
        refine ⟨b1.trans ?_, fun x hx => ?_⟩
        · rw [List.length_cons, pow_succ, mul_assoc]
          exact Nat.mul_le_mul_left _ a1
        · rcases b2 x hx with h | h
          · exact a2 x h
          · exact Or.inr h
  obtain ⟨h1, h2⟩ := main segs [l] ps h
  refine ⟨by simpa using h1, fun r hr => ?_⟩
  simpa using h2 r hr

/-! ### Concrete loops -/

private def pts (l : List (ℚ × ℚ)) : List (V3 ℚ) := l.map fun p => ⟨p.1, p.2, 0⟩

private def shapeU : List (ℚ × ℚ) := [(4, 4), (4, 2), (2, 2), (2, 4), (0, 4), (0, 0), (6, 0), (6, 4)]
private def pieceU : List (ℚ × ℚ) := [(4, 4), (4, 3), (2, 3), (2, 4), (0, 4), (0, 0), (6, 0), (6, 4)]
private def notch : List (ℚ × ℚ) := [(4, 3), (4, 2), (2, 2), (2, 3)]
private def square : List (ℚ × ℚ) := [(0, 0), (4, 0), (4, 4), (0, 4)]
private def below : List (ℚ × ℚ) := [(0, 0), (4, 0), (4, 3), (0, 3)]
private def above : List (ℚ × ℚ) := [(4, 3), (4, 4), (0, 4), (0, 3)]

private theorem two {q1 q2 : QLoop} {ls : List Loop} (h : List.Forall₂ QLoop.Rep [q1, q2] ls) :
    ∃ a b, ls = [a, b] ∧ q1.Rep a ∧ q2.Rep b := by
  cases h with
  | cons h1 h =>
    cases h with
    | cons h2 h =>
      cases h
      exact ⟨_, _, rfl, h1, h2⟩

/-- A square that is split, with the pieces of which `C95_area_partial` speaks. -/
theorem C95_square : ∃ (l a b : Loop) (seg : Segment ℝ), Spec.Reachable l ∧ Spec.Sound l ∧ l.split seg = .ok [a, b] ∧
    a.normal = l.normal ∧ b.normal = l.normal ∧ l.area = 16 ∧ a.area = 12 ∧ b.area = 4 ∧
    a.vertices = (pts below).map V3.real ∧ b.vertices = (pts above).map V3.real := by
  obtain ⟨l, hl, rl⟩ := QLoop.build_reachable (pts square) ⟨pts square, ⟨0, 0, 1⟩, true, 16⟩ (by decide +kernel)
  obtain ⟨ls, h1, h2⟩ := QLoop.split_rep (seg := ⟨⟨-1, 3, 0⟩, ⟨7, 3, 0⟩⟩)
    (qs := [⟨pts below, ⟨0, 0, 1⟩, true, 12⟩, ⟨pts above, ⟨0, 0, 1⟩, true, 4⟩]) rl (by decide +kernel)
  obtain ⟨a, b, rfl, ra, rb⟩ := two h2
  refine ⟨l, a, b, _, hl, C48_history_partial l hl rl.2.2.1, h1, by rw [ra.2.1, rl.2.1], by rw [rb.2.1, rl.2.1], ?_, ?_, ?_, ra.1, rb.1⟩
  · rw [rl.2.2.2]; norm_num
  · rw [ra.2.2.2]; norm_num
  · rw [rb.2.2.2]; norm_num

example : Cut.Spec.Thin ((pts [(0, 0), (4, 0), (4, 3), (0, 3), (0, 0)]).map V3.real) ((pts below).map V3.real) := by
  have h := Cut.Spec.Thin.start _ 4 (Cut.Spec.Thin.all (xs := (pts [(0, 0), (4, 0), (4, 3), (0, 3), (0, 0)]).map V3.real))
  simp only [pts, List.map_cons, List.map_nil] at h
  have h := Cut.Spec.Thin.drop [] _ _ _ _ h (by
    unfold Cut.Spec.InLine
    ext <;> simp [V3.real])
  exact h

/-- The full claim is false: a loop with a notch, cut across both of its sides, starting from a vertex of the notch, is
cut across the notch.  One piece has the notch filled, the other is the rest of the notch; together they have an area of
24, that of the loop is 20. -/
theorem C95_violated_outside : ∃ (l a b : Loop) (seg : Segment ℝ), Spec.Reachable l ∧ Spec.Sound l ∧
    l.split seg = .ok [a, b] ∧ l.getArea = .ok 20 ∧ a.getArea = .ok 22 ∧ b.getArea = .ok 2 ∧ b.normal = -l.normal := by
  obtain ⟨l, hl, rl⟩ := QLoop.build_reachable (pts shapeU) ⟨pts shapeU, ⟨0, 0, 1⟩, true, 20⟩ (by decide +kernel)
  obtain ⟨ls, h1, h2⟩ := QLoop.split_rep (seg := ⟨⟨-1, 3, 0⟩, ⟨7, 3, 0⟩⟩)
    (qs := [⟨pts pieceU, ⟨0, 0, 1⟩, true, 22⟩, ⟨pts notch, ⟨0, 0, -1⟩, true, 2⟩]) rl (by decide +kernel)
  obtain ⟨a, b, rfl, ra, rb⟩ := two h2
  refine ⟨l, a, b, _, hl, C48_history_partial l hl rl.2.2.1, h1, ?_, ?_, ?_, ?_⟩
  · simp [getArea, rl.2.2.1, rl.2.2.2]
  · simp [getArea, ra.2.2.1, ra.2.2.2]
  · simp [getArea, rb.2.2.1, rb.2.2.2]
  · rw [rb.2.1, rl.2.1, V3.real_neg]
    congr 1

/-- The full claim is false: a segment from one side of a square to the opposite one does not cut it. -/
theorem C95_violated_ends : ∃ (l r : Loop) (seg : Segment ℝ), Spec.Reachable l ∧ l.split seg = .ok [r] ∧
    l.vertices = (pts square).map V3.real ∧ r.vertices = l.vertices ∧ seg.start = ⟨0, 2, 0⟩ ∧ seg.fin = ⟨4, 2, 0⟩ := by
  obtain ⟨l, hl, rl⟩ := QLoop.build_reachable (pts square) ⟨pts square, ⟨0, 0, 1⟩, true, 16⟩ (by decide +kernel)
  obtain ⟨ls, h1, h2⟩ := QLoop.split_rep (seg := ⟨⟨0, 2, 0⟩, ⟨4, 2, 0⟩⟩)
    (qs := [⟨pts square, ⟨0, 0, 1⟩, true, 16⟩]) rl (by decide +kernel)
  cases h2 with
  | cons h3 h4 =>
    cases h4
    refine ⟨l, _, _, hl, h1, rl.1, by rw [h3.1, rl.1], ?_, ?_⟩
    · ext <;> simp [Segment.real, V3.real]
    · ext <;> simp [Segment.real, V3.real]

end Loop

end Simple.Geometry
