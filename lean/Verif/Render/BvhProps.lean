import Mathlib.Tactic.FieldSimp
import Mathlib.Algebra.Order.Floor.Semiring
import Verif.Geometry.BBoxProps
import Verif.Render.BvhModel

/-! # C52: building the acceleration structure -/

namespace Simple.Render.Bvh

open Geometry

namespace Spec

/-- The ranges of the leaves, from left to right: the first triangle of each, and how many there are. -/
def leaves : Node → List (ℕ × ℕ)
  | .leaf _ first n => [(first, n)]
  | .interior _ _ c1 c2 => leaves c1 ++ leaves c2

/-- The ranges follow each other from `a` to `b`, and none is empty. -/
def Tile : List (ℕ × ℕ) → ℕ → ℕ → Prop
  | [], a, b => a = b
  | r :: rs, a, b => r.1 = a ∧ 0 < r.2 ∧ Tile rs (a + r.2) b

/-- The triangle number `i` is in one of the leaves under the node. -/
def Holds (t : Node) (i : ℕ) : Prop := ∃ r ∈ leaves t, r.1 ≤ i ∧ i < r.1 + r.2

/-- `s` is `t` or a node under `t`. -/
inductive NodeOf : Node → Node → Prop
  | self (t) : NodeOf t t
  | left {s b a l r} : NodeOf s l → NodeOf s (.interior b a l r)
  | right {s b a l r} : NodeOf s r → NodeOf s (.interior b a l r)

/-- The three vertices are in the box. -/
def InBox (b : BBox ℚ) (t : Triangle ℚ) : Prop := BBox.Spec.Mem b t.a ∧ BBox.Spec.Mem b t.b ∧ BBox.Spec.Mem b t.c

/-- The faces of the box are faces of boxes among those given. -/
structure Faces (S : BBox ℚ → Prop) (b : BBox ℚ) : Prop where
  minx : ∃ c, S c ∧ b.min.x = c.min.x
  miny : ∃ c, S c ∧ b.min.y = c.min.y
  minz : ∃ c, S c ∧ b.min.z = c.min.z
  maxx : ∃ c, S c ∧ b.max.x = c.max.x
  maxy : ∃ c, S c ∧ b.max.y = c.max.y
  maxz : ∃ c, S c ∧ b.max.z = c.max.z

end Spec

open Spec BBox.Spec

/-! ### Boxes -/

private theorem tile_append {l l' : List (ℕ × ℕ)} : ∀ {a b c : ℕ}, Tile l a b → Tile l' b c → Tile (l ++ l') a c := by
  induction l with
  | nil => intro a b c h h'; simp only [Tile] at h; subst h; exact h'
  | cons r l ih => intro a b c h h'; exact ⟨h.1, h.2.1, ih h.2.2 h'⟩

private theorem within_trans {a b c : BBox ℚ} (h : Within a b) (h' : Within b c) : Within a c := fun p hp => h' p (h p hp)

private theorem nonempty_within {a b : BBox ℚ} (h : Nonempty a) (h' : Within a b) : Nonempty b := by
  obtain ⟨p, hp⟩ := h; exact ⟨p, h' p hp⟩

private theorem faces_mono {S S' : BBox ℚ → Prop} {b : BBox ℚ} (h : Faces S b) (hs : ∀ c, S c → S' c) : Faces S' b :=
  ⟨h.minx.imp fun c h => ⟨hs c h.1, h.2⟩, h.miny.imp fun c h => ⟨hs c h.1, h.2⟩, h.minz.imp fun c h => ⟨hs c h.1, h.2⟩,
    h.maxx.imp fun c h => ⟨hs c h.1, h.2⟩, h.maxy.imp fun c h => ⟨hs c h.1, h.2⟩, h.maxz.imp fun c h => ⟨hs c h.1, h.2⟩⟩

private theorem min_cases {p q : ℚ} {S : BBox ℚ → Prop} {f : BBox ℚ → ℚ} (hp : ∃ c, S c ∧ p = f c) (hq : ∃ c, S c ∧ q = f c) :
    ∃ c, S c ∧ min p q = f c := by
  rcases min_choice p q with h | h <;> rw [h] <;> assumption

private theorem max_cases {p q : ℚ} {S : BBox ℚ → Prop} {f : BBox ℚ → ℚ} (hp : ∃ c, S c ∧ p = f c) (hq : ∃ c, S c ∧ q = f c) :
    ∃ c, S c ∧ max p q = f c := by
  rcases max_choice p q with h | h <;> rw [h] <;> assumption

private theorem faces_union {S : BBox ℚ → Prop} {a b : BBox ℚ} (ha : Faces S a) (hb : Faces S b) : Faces S (BBox.fromUnion a b) := by
  unfold BBox.fromUnion
  rw [BBox.getMinsMaxs_eq, BBox.getMinsMaxs_eq]
  exact ⟨min_cases (f := fun c => c.min.x) ha.minx hb.minx, min_cases (f := fun c => c.min.y) ha.miny hb.miny,
    min_cases (f := fun c => c.min.z) ha.minz hb.minz, max_cases (f := fun c => c.max.x) ha.maxx hb.maxx,
    max_cases (f := fun c => c.max.y) ha.maxy hb.maxy, max_cases (f := fun c => c.max.z) ha.maxz hb.maxz⟩

private theorem boundsOf_spec (rest : List Info) : ∀ (b : BBox ℚ), Nonempty b → (∀ i ∈ rest, Nonempty i.bounds) →
    ∀ S : BBox ℚ → Prop, Faces S b → (∀ i ∈ rest, Faces S i.bounds) →
    Within b (rest.foldl (fun b i => BBox.fromUnion b i.bounds) b) ∧
    (∀ i ∈ rest, Within i.bounds (rest.foldl (fun b i => BBox.fromUnion b i.bounds) b)) ∧
    Faces S (rest.foldl (fun b i => BBox.fromUnion b i.bounds) b) := by
  induction rest with
  | nil => intro b _ _ S h _; exact ⟨fun _ h => h, by simp, h⟩
  | cons j rest ih =>
    intro b hb hr S hS hF
    have hj := hr j (List.mem_cons_self ..)
    obtain ⟨u1, u2, -⟩ := BBox.C42_union b j.bounds hb hj
    obtain ⟨h1, h2, h3⟩ := ih (BBox.fromUnion b j.bounds) (nonempty_within hb u1) (fun i hi => hr i (List.mem_cons_of_mem _ hi)) S
      (faces_union hS (hF j (List.mem_cons_self ..))) (fun i hi => hF i (List.mem_cons_of_mem _ hi))
    rw [List.foldl_cons]
    refine ⟨within_trans u1 h1, fun i hi => ?_, h3⟩
    rcases List.mem_cons.1 hi with rfl | hi
    · exact within_trans u2 h1
    · exact h2 i hi

private theorem boundsOf_all (first : Info) (rest : List Info) (hne : ∀ i ∈ first :: rest, Nonempty i.bounds) :
    (∀ i ∈ first :: rest, Within i.bounds (boundsOf first rest)) ∧
    Faces (fun c => ∃ i ∈ first :: rest, c = i.bounds) (boundsOf first rest) := by
  have self : ∀ i ∈ first :: rest, Faces (fun c => ∃ i ∈ first :: rest, c = i.bounds) i.bounds := fun i hi =>
    ⟨⟨_, ⟨i, hi, rfl⟩, rfl⟩, ⟨_, ⟨i, hi, rfl⟩, rfl⟩, ⟨_, ⟨i, hi, rfl⟩, rfl⟩, ⟨_, ⟨i, hi, rfl⟩, rfl⟩, ⟨_, ⟨i, hi, rfl⟩, rfl⟩,
      ⟨_, ⟨i, hi, rfl⟩, rfl⟩⟩
  obtain ⟨h1, h2, h3⟩ := boundsOf_spec rest first.bounds (hne first (List.mem_cons_self ..))
    (fun i hi => hne i (List.mem_cons_of_mem _ hi)) _ (self first (List.mem_cons_self ..))
    (fun i hi => self i (List.mem_cons_of_mem _ hi))
  refine ⟨fun i hi => ?_, h3⟩
  rcases List.mem_cons.1 hi with rfl | hi
  · exact h1
  · exact h2 i hi

/-! ### The box of the centroids -/

private theorem along_fromUnionPoint (a : Axis) (b : BBox ℚ) (p : V3 ℚ) :
    along a (BBox.fromUnionPoint b p).min = min (along a b.min) (along a p) ∧
    along a (BBox.fromUnionPoint b p).max = max (along a b.max) (along a p) := by
  unfold BBox.fromUnionPoint
  rw [BBox.getMinsMaxs_eq, BBox.getMinsMaxs_eq]
  cases a <;> exact ⟨rfl, rfl⟩

private theorem centroids_fold (a : Axis) (rest : List Info) : ∀ b : BBox ℚ,
    let c := rest.foldl (fun b i => BBox.fromUnionPoint b i.centroid) b
    along a c.min ≤ along a b.min ∧ along a b.max ≤ along a c.max ∧
    (∀ i ∈ rest, along a c.min ≤ along a i.centroid ∧ along a i.centroid ≤ along a c.max) ∧
    (along a c.min = along a b.min ∨ ∃ i ∈ rest, along a i.centroid = along a c.min) ∧
    (along a c.max = along a b.max ∨ ∃ i ∈ rest, along a i.centroid = along a c.max) := by
  induction rest with
  | nil => intro b; simp
  | cons j rest ih =>
    intro b
    simp only [List.foldl_cons]
    obtain ⟨h1, h2, h3, h4, h5⟩ := ih (BBox.fromUnionPoint b j.centroid)
    obtain ⟨e1, e2⟩ := along_fromUnionPoint a b j.centroid
    rw [e1] at h1 h4
    rw [e2] at h2 h5
    refine ⟨h1.trans (min_le_left _ _), (le_max_left _ _).trans h2, ?_, ?_, ?_⟩
    · intro i hi
      rcases List.mem_cons.1 hi with rfl | hi
      · exact ⟨h1.trans (min_le_right _ _), (le_max_right _ _).trans h2⟩
      · exact h3 i hi
    · rcases h4 with h4 | ⟨i, hi, h4⟩
      · rcases min_choice (along a b.min) (along a j.centroid) with h | h
        · left; rw [h4, h]
        · right; exact ⟨j, List.mem_cons_self .., by rw [h4, h]⟩
      · right; exact ⟨i, List.mem_cons_of_mem _ hi, h4⟩
    · rcases h5 with h5 | ⟨i, hi, h5⟩
      · rcases max_choice (along a b.max) (along a j.centroid) with h | h
        · left; rw [h5, h]
        · right; exact ⟨j, List.mem_cons_self .., by rw [h5, h]⟩
      · right; exact ⟨i, List.mem_cons_of_mem _ hi, h5⟩

private theorem centroidsOf_spec (a : Axis) (first : Info) (rest : List Info) :
    (∀ i ∈ first :: rest, along a (centroidsOf first rest).min ≤ along a i.centroid ∧
      along a i.centroid ≤ along a (centroidsOf first rest).max) ∧
    (∃ i ∈ first :: rest, along a i.centroid = along a (centroidsOf first rest).min) ∧
    (∃ i ∈ first :: rest, along a i.centroid = along a (centroidsOf first rest).max) := by
  obtain ⟨h1, h2, h3, h4, h5⟩ := centroids_fold a rest (BBox.fromPoint first.centroid)
  refine ⟨?_, ?_, ?_⟩
  · intro i hi
    rcases List.mem_cons.1 hi with rfl | hi
    · exact ⟨h1, h2⟩
    · exact h3 i hi
  · rcases h4 with h4 | ⟨i, hi, h4⟩
    · exact ⟨first, List.mem_cons_self .., h4.symm⟩
    · exact ⟨i, List.mem_cons_of_mem _ hi, h4⟩
  · rcases h5 with h5 | ⟨i, hi, h5⟩
    · exact ⟨first, List.mem_cons_self .., h5.symm⟩
    · exact ⟨i, List.mem_cons_of_mem _ hi, h5⟩

/-! ### Buckets -/

private theorem bucket_lt (c : V3 ℚ) (len : ℚ) (a : Axis) (min : V3 ℚ) : bucketIndex c len a min < 12 := by
  unfold bucketIndex nBuckets
  split_ifs with h <;> omega

private theorem bucket_first (c : V3 ℚ) (len : ℚ) (a : Axis) (min : V3 ℚ) (h : along a c = along a min) :
    bucketIndex c len a min = 0 := by
  have : rawBucket c len a min = 0 := by simp [rawBucket, h]
  unfold bucketIndex nBuckets
  rw [this]; rfl

private theorem bucket_last (c : V3 ℚ) (len : ℚ) (a : Axis) (min : V3 ℚ) (hl : 0 < len) (h : along a c = along a min + len) :
    bucketIndex c len a min = 11 := by
  have : rawBucket c len a min = 12 := by
    unfold rawBucket nBuckets
    rw [h, show (along a min + len - along a min) * ((12 : ℕ) : ℚ) / len = ((12 : ℤ) : ℚ) by field_simp; norm_num, Int.floor_intCast]
    rfl
  unfold bucketIndex nBuckets
  rw [this]; rfl

/-- C52: the number of the bucket of a centroid that is in the box is never above the number of buckets: the assertion
of debug builds holds. -/
theorem C52_bucket (c : V3 ℚ) (a : Axis) (b : BBox ℚ) (hc : along a b.min ≤ along a c ∧ along a c ≤ along a b.max)
    (hl : along a b.min < along a b.max) : rawBucket c (along a b.max - along a b.min) a b.min ≤ nBuckets := by
  unfold rawBucket nBuckets
  have hpos : 0 < along a b.max - along a b.min := by linarith
  have h1 : (along a c - along a b.min) * ((12 : ℕ) : ℚ) / (along a b.max - along a b.min) ≤ ((12 : ℤ) : ℚ) := by
    rw [div_le_iff₀ hpos]; push_cast; linarith [hc.2]
  have h2 := Int.floor_le_floor h1
  rw [Int.floor_intCast] at h2
  omega

private theorem fill_fold (len : ℚ) (a : Axis) (min : V3 ℚ) (infos : List Info) : ∀ bs : List Bucket,
    let r := infos.foldl (fun bs i => bs.modify (bucketIndex i.centroid len a min) fun b => b.register i.centroid) bs
    r.length = bs.length ∧ ∀ j b, r[j]? = some b →
      ((∃ i ∈ infos, bucketIndex i.centroid len a min = j) ∨ ∃ b', bs[j]? = some b' ∧ b'.bounds.isSome) → b.bounds.isSome := by
  induction infos with
  | nil =>
    intro bs
    refine ⟨rfl, fun j b hj h => ?_⟩
    rcases h with ⟨i, hi, -⟩ | ⟨b', h1, h2⟩
    · simp at hi
    · rw [List.foldl_nil, h1, Option.some.injEq] at hj; rw [← hj]; exact h2
  | cons k infos ih =>
    intro bs
    simp only [List.foldl_cons]
    obtain ⟨h1, h2⟩ := ih (bs.modify (bucketIndex k.centroid len a min) fun b => b.register k.centroid)
    refine ⟨by rw [h1, List.length_modify], fun j b hj h => h2 j b hj ?_⟩
    have reg : ∀ (x : Bucket) (c : V3 ℚ), (x.register c).bounds.isSome = true := by
      intro x c; unfold Bucket.register; cases x.bounds <;> rfl
    have hlen : j < bs.length := by
      have := (List.getElem?_eq_some_iff.1 hj).1
      rw [h1, List.length_modify] at this; exact this
    by_cases hk : bucketIndex k.centroid len a min = j
    · right
      refine ⟨(bs[j]).register k.centroid, ?_, reg _ _⟩
      rw [List.getElem?_modify, List.getElem?_eq_getElem hlen]; simp only [if_pos hk]; rfl
    · rcases h with ⟨i, hi, h⟩ | ⟨b', hb, h⟩
      · rcases List.mem_cons.1 hi with rfl | hi
        · exact absurd h hk
        · exact Or.inl ⟨i, hi, h⟩
      · right
        refine ⟨b', ?_, h⟩
        rw [List.getElem?_modify, hb]; simp only [if_neg hk]; rfl

private theorem fill_spec (infos : List Info) (len : ℚ) (a : Axis) (min : V3 ℚ) (j : ℕ) (hj : j < 12)
    (h : ∃ i ∈ infos, bucketIndex i.centroid len a min = j) :
    ∃ b x, Outcome.index (fill infos len a min) j = .ok b ∧ b.bounds = some x := by
  obtain ⟨h1, h2⟩ := fill_fold len a min infos (List.replicate nBuckets ⟨0, none⟩)
  have hl : (fill infos len a min).length = 12 := by unfold fill; rw [h1, List.length_replicate]; rfl
  have hj' : j < (fill infos len a min).length := by rw [hl]; exact hj
  have := h2 j _ (List.getElem?_eq_getElem hj') (Or.inl h)
  obtain ⟨x, hx⟩ := Option.isSome_iff_exists.1 this
  exact ⟨_, x, Outcome.index_of_lt hj', hx⟩

private theorem cheapest_ok (infos : List Info) (bounds : BBox ℚ) (len : ℚ) (a : Axis) (min : V3 ℚ)
    (h0 : ∃ i ∈ infos, bucketIndex i.centroid len a min = 0) (h11 : ∃ i ∈ infos, bucketIndex i.centroid len a min = 11)
    (is : List ℕ) (his : ∀ i ∈ is, i < 11) : ∀ s : XF × ℕ, s.2 < 11 →
    ∃ r, cheapest (fill infos len a min) bounds is s = .ok r ∧ r.2 < 11 := by
  obtain ⟨b0, x0, e0, f0⟩ := fill_spec infos len a min 0 (by omega) h0
  obtain ⟨b1, x1, e1, f1⟩ := fill_spec infos len a min 11 (by omega) h11
  induction is with
  | nil => intro s hs; exact ⟨s, rfl, hs⟩
  | cons i is ih =>
    intro s hs
    unfold cheapest
    have : ∃ c, splitCost (fill infos len a min) bounds i = .ok c := by
      unfold splitCost
      rw [e0]
      simp only [Outcome.bind]
      rw [f0]
      simp only [unwrap, show nBuckets - 1 = 11 from rfl]
      rw [e1]
      simp only
      rw [f1]
      exact ⟨_, rfl⟩
    obtain ⟨c, hc⟩ := this
    rw [hc]
    refine ih (fun j hj => his j (List.mem_cons_of_mem _ hj)) _ ?_
    unfold keepCheaper
    split_ifs
    · exact his i (List.mem_cons_self ..)
    · exact hs

/-! ### Splitting -/

private theorem takeWhile_lt {α : Type} {p : α → Bool} {x : α} : ∀ {l : List α}, x ∈ l → p x = false →
    (l.takeWhile p).length < l.length := by
  intro l hx hp
  induction l with
  | nil => simp at hx
  | cons y l ih =>
    rw [List.takeWhile_cons]
    split_ifs with hy
    · rcases List.mem_cons.1 hx with rfl | hx
      · rw [hp] at hy; simp at hy
      · simpa using ih hx
    · simp

private theorem plan_ok (lib : Sorting) (first : Info) (rest : List Info) (bounds : BBox ℚ) (a : Axis) (hn : rest ≠ [])
    (hl : 0 < along a (centroidsOf first rest).max - along a (centroidsOf first rest).min) :
    (plan lib (first :: rest) bounds a (along a (centroidsOf first rest).max - along a (centroidsOf first rest).min)
        (centroidsOf first rest).min = .ok none ∧ (first :: rest).length ≤ 24) ∨
    ∃ order mid, plan lib (first :: rest) bounds a
      (along a (centroidsOf first rest).max - along a (centroidsOf first rest).min) (centroidsOf first rest).min =
        .ok (some (order, mid)) ∧ order.Perm (first :: rest) ∧ 0 < mid ∧ mid < (first :: rest).length := by
  obtain ⟨c1, ⟨i0, m0, c2⟩, ⟨i1, m1, c3⟩⟩ := centroidsOf_spec a first rest
  obtain ⟨len, hlen⟩ : ∃ x, x = along a (centroidsOf first rest).max - along a (centroidsOf first rest).min := ⟨_, rfl⟩
  rw [← hlen] at hl ⊢
  have h2 : 2 ≤ (first :: rest).length := by
    cases rest with
    | nil => exact absurd rfl hn
    | cons => simp
  have k0 : ∃ i ∈ first :: rest, bucketIndex i.centroid len a (centroidsOf first rest).min = 0 :=
    ⟨i0, m0, bucket_first _ _ _ _ c2⟩
  have k1 : ∃ i ∈ first :: rest, bucketIndex i.centroid len a (centroidsOf first rest).min = 11 :=
    ⟨i1, m1, bucket_last _ _ _ _ hl (by rw [c3, hlen]; ring)⟩
  obtain ⟨infos, hinf⟩ : ∃ x, x = first :: rest := ⟨_, rfl⟩
  obtain ⟨mn, hmn⟩ : ∃ x, x = (centroidsOf first rest).min := ⟨_, rfl⟩
  rw [← hinf] at c1 m0 m1 h2 k0 k1 ⊢
  rw [← hmn] at c1 c2 k0 k1 ⊢
  unfold plan
  by_cases hf : infos.length ≤ 4
  · rw [if_pos hf]
    exact Or.inr ⟨_, _, rfl, lib.select_perm _ _ _, by omega, by omega⟩
  · rw [if_neg hf]
    obtain ⟨best, e, hb⟩ := cheapest_ok infos bounds len a mn k0 k1 (List.range (nBuckets - 1))
      (fun i hi => List.mem_range.1 hi) (.fin floatMax, 0) (Nat.zero_lt_succ 10)
    rw [e]
    simp only [Outcome.bind]
    by_cases hs : leafSize < infos.length ∨ best.1 < .fin infos.length
    · rw [if_pos hs]
      have hp := lib.sort_perm a infos
      have hsort := lib.sort_sorted a infos
      obtain ⟨sorted, hso⟩ : ∃ x, x = lib.sort a infos := ⟨_, rfl⟩
      rw [← hso] at hp hsort ⊢
      obtain ⟨x, xs, rfl⟩ : ∃ x xs, sorted = x :: xs := by
        cases sorted with
        | nil => rw [List.nil_perm] at hp; rw [hp] at h2; simp at h2
        | cons x xs => exact ⟨x, xs, rfl⟩
      have hx : bucketIndex x.centroid len a mn = 0 := by
        apply bucket_first
        apply le_antisymm
        · rw [← c2]
          rcases List.mem_cons.1 (hp.mem_iff.2 m0) with rfl | hm
          · exact le_refl _
          · exact (List.pairwise_cons.1 hsort).1 _ hm
        · exact (c1 x (hp.mem_iff.1 (List.mem_cons_self ..))).1
      have hpos : 0 < ((x :: xs).takeWhile fun i => decide (bucketIndex i.centroid len a mn ≤ best.2)).length := by
        rw [List.takeWhile_cons_of_pos (by simp [hx])]; simp
      rw [if_neg (by omega)]
      refine Or.inr ⟨_, _, rfl, hp, hpos, ?_⟩
      rw [← hp.length_eq]
      obtain ⟨j, hj, hk⟩ := k1
      exact takeWhile_lt (hp.mem_iff.2 hj) (by rw [decide_eq_false_iff_not, hk]; omega)
    · rw [if_neg hs]
      rw [not_or] at hs
      exact Or.inl ⟨rfl, not_lt.1 hs.1⟩

/-! ### The tree -/

/-- What is known of a node that was built: the numbers of its triangles are `order`, and its leaves begin at `off`. -/
private structure Built (bnd : ℕ → BBox ℚ) (cen : ℕ → V3 ℚ) (off : ℕ) (node : Node) (order : List ℕ) : Prop where
  tile : Tile (leaves node) off (off + order.length)
  box : ∀ s, NodeOf s node → ∀ i, Holds s (off + i) → ∀ k, order[i]? = some k → Within (bnd k) s.bounds
  all : ∀ k ∈ order, Within (bnd k) node.bounds
  faces : ∀ s, NodeOf s node → Faces (fun c => ∃ k ∈ order, c = bnd k) s.bounds
  range : ∀ r ∈ leaves node, off ≤ r.1 ∧ r.1 + r.2 ≤ off + order.length
  crowd : ∀ r ∈ leaves node, 24 < r.2 → ∀ i j, r.1 ≤ off + i → off + i < r.1 + r.2 → r.1 ≤ off + j → off + j < r.1 + r.2 →
    ∀ k l, order[i]? = some k → order[j]? = some l → ∀ a, |along a (cen k) - along a (cen l)| < 1 / 10 ^ 8

private theorem built_leaf (bnd : ℕ → BBox ℚ) (cen : ℕ → V3 ℚ) (off : ℕ) (first : Info) (rest : List Info)
    (hb : ∀ i ∈ first :: rest, i.bounds = bnd i.index ∧ i.centroid = cen i.index ∧ Nonempty i.bounds)
    (hc : (first :: rest).length ≤ 24 ∨ ∀ i ∈ first :: rest, ∀ j ∈ first :: rest, ∀ a, |along a i.centroid - along a j.centroid| < 1 / 10 ^ 8) :
    Built bnd cen off (.leaf (boundsOf first rest) off (first :: rest).length) ((first :: rest).map Info.index) := by
  obtain ⟨h1, h2⟩ := boundsOf_all first rest (fun i hi => (hb i hi).2.2)
  have hall : ∀ k ∈ (first :: rest).map Info.index, Within (bnd k) (boundsOf first rest) := by
    intro k hk
    obtain ⟨i, hi, rfl⟩ := List.mem_map.1 hk
    rw [← (hb i hi).1]; exact h1 i hi
  refine ⟨⟨rfl, by simp, by rw [List.length_map]; rfl⟩, ?_, hall, ?_, ?_, ?_⟩
  · intro s hs i _ k hk
    cases hs
    exact hall k (List.mem_of_getElem? hk)
  · intro s hs
    cases hs
    exact faces_mono h2 fun c ⟨i, hi, e⟩ => ⟨i.index, List.mem_map.2 ⟨i, hi, rfl⟩, by rw [e, (hb i hi).1]⟩
  · intro r hr
    simp only [leaves, List.mem_singleton] at hr
    rw [hr, List.length_map]; exact ⟨le_refl _, le_refl _⟩
  · intro r hr h24 i j _ _ _ _ k l hk hl a
    simp only [leaves, List.mem_singleton] at hr
    rw [hr] at h24
    rcases hc with hc | hc
    · simp only at h24; omega
    · obtain ⟨x, hx, rfl⟩ := List.mem_map.1 (List.mem_of_getElem? hk)
      obtain ⟨y, hy, rfl⟩ := List.mem_map.1 (List.mem_of_getElem? hl)
      rw [← (hb x hx).2.1, ← (hb y hy).2.1]
      exact hc x hx y hy a

private theorem built_interior (bnd : ℕ → BBox ℚ) (cen : ℕ → V3 ℚ) (off : ℕ) (a : Axis) (l r : Node) (ol or : List ℕ)
    (hl : Built bnd cen off l ol) (hr : Built bnd cen (off + ol.length) r or) (nl : ol ≠ []) (nr : or ≠ [])
    (hne : ∀ k, k ∈ ol ∨ k ∈ or → Nonempty (bnd k)) :
    Built bnd cen off (Node.newInterior a l r) (ol ++ or) := by
  obtain ⟨x, hx⟩ := List.exists_mem_of_ne_nil _ nl
  obtain ⟨y, hy⟩ := List.exists_mem_of_ne_nil _ nr
  obtain ⟨u1, u2, -⟩ := BBox.C42_union l.bounds r.bounds (nonempty_within (hne x (Or.inl hx)) (hl.all x hx))
    (nonempty_within (hne y (Or.inr hy)) (hr.all y hy))
  have hall : ∀ k ∈ ol ++ or, Within (bnd k) (BBox.fromUnion l.bounds r.bounds) := by
    intro k hk
    rcases List.mem_append.1 hk with hk | hk
    · exact within_trans (hl.all k hk) u1
    · exact within_trans (hr.all k hk) u2
  have hlt : ∀ s, NodeOf s l → ∀ j, Holds s j → off ≤ j ∧ j < off + ol.length := by
    intro s hs j ⟨q, hq, h1, h2⟩
    have sub : ∀ {s t}, NodeOf s t → ∀ q ∈ leaves s, q ∈ leaves t := by
      intro s t h
      induction h with
      | self => exact fun _ h => h
      | left _ ih => exact fun q h => List.mem_append.2 (Or.inl (ih q h))
      | right _ ih => exact fun q h => List.mem_append.2 (Or.inr (ih q h))
    obtain ⟨h3, h4⟩ := hl.range q (sub hs q hq)
    omega
  have hge : ∀ s, NodeOf s r → ∀ j, Holds s j → off + ol.length ≤ j := by
    intro s hs j ⟨q, hq, h1, h2⟩
    have sub : ∀ {s t}, NodeOf s t → ∀ q ∈ leaves s, q ∈ leaves t := by
      intro s t h
      induction h with
      | self => exact fun _ h => h
      | left _ ih => exact fun q h => List.mem_append.2 (Or.inl (ih q h))
      | right _ ih => exact fun q h => List.mem_append.2 (Or.inr (ih q h))
    obtain ⟨h3, h4⟩ := hr.range q (sub hs q hq)
    omega
  refine ⟨?_, ?_, hall, ?_, ?_, ?_⟩
  · rw [List.length_append, ← Nat.add_assoc]; exact tile_append hl.tile hr.tile
  · intro s hs i hi k hk
    cases hs with
    | self => exact hall k (List.mem_of_getElem? hk)
    | left hs =>
      have := hlt s hs _ hi
      rw [List.getElem?_append_left (by omega)] at hk
      exact hl.box s hs i hi k hk
    | right hs =>
      have := hge s hs _ hi
      rw [List.getElem?_append_right (by omega)] at hk
      refine hr.box s hs (i - ol.length) ?_ k hk
      rw [show off + ol.length + (i - ol.length) = off + i by omega]; exact hi
  · intro s hs
    cases hs with
    | self =>
      exact faces_union (faces_mono (hl.faces l (.self l)) fun c ⟨k, hk, e⟩ => ⟨k, List.mem_append.2 (Or.inl hk), e⟩)
        (faces_mono (hr.faces r (.self r)) fun c ⟨k, hk, e⟩ => ⟨k, List.mem_append.2 (Or.inr hk), e⟩)
    | left hs => exact faces_mono (hl.faces s hs) fun c ⟨k, hk, e⟩ => ⟨k, List.mem_append.2 (Or.inl hk), e⟩
    | right hs => exact faces_mono (hr.faces s hs) fun c ⟨k, hk, e⟩ => ⟨k, List.mem_append.2 (Or.inr hk), e⟩
  · intro q hq
    rw [List.length_append]
    rcases List.mem_append.1 hq with hq | hq
    · have := hl.range q hq; omega
    · have := hr.range q hq; omega
  · intro q hq h24 i j h1 h2 h3 h4 k m hk hm ax
    rcases List.mem_append.1 hq with hq | hq
    · have := hl.range q hq
      rw [List.getElem?_append_left (by omega)] at hk hm
      exact hl.crowd q hq h24 i j h1 h2 h3 h4 k m hk hm ax
    · have := hr.range q hq
      rw [List.getElem?_append_right (by omega)] at hk hm
      exact hr.crowd q hq h24 (i - ol.length) (j - ol.length) (by omega) (by omega) (by omega) (by omega) k m hk hm ax

private theorem extent_le (b : BBox ℚ) (a : Axis) : along a b.max - along a b.min ≤ along b.maxExtent b.max - along b.maxExtent b.min := by
  have := BBox.C42_max_extent b a
  cases a <;> cases h : b.maxExtent <;> simp_all [BBox.Spec.extent, along]

private theorem build_built (lib : Sorting) (bnd : ℕ → BBox ℚ) (cen : ℕ → V3 ℚ) : ∀ (fuel off : ℕ) (infos : List Info), infos ≠ [] →
    infos.length ≤ fuel → (∀ i ∈ infos, i.bounds = bnd i.index ∧ i.centroid = cen i.index ∧ Nonempty i.bounds) →
    ∃ node order, build lib fuel off infos = .ok (node, order) ∧ order.Perm (infos.map Info.index) ∧ Built bnd cen off node order := by
  intro fuel
  induction fuel with
  | zero => intro off infos hne hle; exact absurd (List.length_eq_zero_iff.1 (Nat.le_zero.1 hle)) hne
  | succ fuel ih =>
    intro off infos hne hle hb
    obtain ⟨first, rest, rfl⟩ := List.exists_cons_of_ne_nil hne
    unfold build
    dsimp only
    by_cases h1 : (first :: rest).length = 1
    · rw [if_pos h1]
      exact ⟨_, _, rfl, List.Perm.refl _, built_leaf bnd cen off first rest hb (Or.inl (by omega))⟩
    rw [if_neg h1]
    have hrest : rest ≠ [] := fun h => h1 (by simp [h])
    by_cases h2 : along (centroidsOf first rest).maxExtent (centroidsOf first rest).max -
        along (centroidsOf first rest).maxExtent (centroidsOf first rest).min < 1 / 10 ^ 8
    · rw [if_pos h2]
      refine ⟨_, _, rfl, List.Perm.refl _, built_leaf bnd cen off first rest hb (Or.inr fun i hi j hj a => ?_)⟩
      obtain ⟨c1, -, -⟩ := centroidsOf_spec a first rest
      have := extent_le (centroidsOf first rest) a
      have := c1 i hi
      have := c1 j hj
      rw [abs_lt]
      constructor <;> linarith
    rw [if_neg h2]
    have hlen := lt_of_lt_of_le (by norm_num : (0 : ℚ) < 1 / 10 ^ 8) (not_lt.1 h2)
    rcases plan_ok lib first rest (boundsOf first rest) _ hrest hlen with ⟨hp, h24⟩ | ⟨order, mid, hp, perm, m1, m2⟩
    · rw [hp]
      exact ⟨_, _, rfl, List.Perm.refl _, built_leaf bnd cen off first rest hb (Or.inl h24)⟩
    · rw [hp]
      simp only [Outcome.bind]
      have hlo := perm.length_eq
      have hbo : ∀ i ∈ order, i.bounds = bnd i.index ∧ i.centroid = cen i.index ∧ Nonempty i.bounds :=
        fun i hi => hb i (perm.mem_iff.1 hi)
      have ltake : (order.take mid).length = mid := by rw [List.length_take]; omega
      have ldrop : (order.drop mid).length = order.length - mid := List.length_drop
      obtain ⟨l, ol, e1, p1, b1⟩ := ih off (order.take mid) (fun h => by rw [h] at ltake; simp at ltake; omega) (by omega)
        (fun i hi => hbo i (List.mem_of_mem_take hi))
      rw [e1]
      simp only
      obtain ⟨r, or, e2, p2, b2⟩ := ih (off + ol.length) (order.drop mid) (fun h => by rw [h] at ldrop; simp at ldrop; omega)
        (by omega) (fun i hi => hbo i (List.mem_of_mem_drop hi))
      rw [e2]
      have q1 := p1.length_eq
      have q2 := p2.length_eq
      rw [List.length_map] at q1 q2
      refine ⟨_, _, rfl, ?_, built_interior bnd cen off _ l r ol or b1 b2 (fun h => by rw [h] at q1; simp at q1; omega)
        (fun h => by rw [h] at q2; simp at q2; omega) ?_⟩
      · refine (p1.append p2).trans ?_
        rw [← List.map_append, List.take_append_drop]
        exact perm.map _
      · rintro k (hk | hk)
        · obtain ⟨i, hi, rfl⟩ := List.mem_map.1 (p1.mem_iff.1 hk)
          have := hbo i (List.mem_of_mem_take hi)
          rw [← this.1]; exact this.2.2
        · obtain ⟨i, hi, rfl⟩ := List.mem_map.1 (p2.mem_iff.1 hk)
          have := hbo i (List.mem_of_mem_drop hi)
          rw [← this.1]; exact this.2.2

/-! ### The scene -/

private theorem gather_ok {α : Type} (l : List α) : ∀ is : List ℕ, (∀ i ∈ is, i < l.length) →
    ∃ r, gather l is = .ok r ∧ r.length = is.length ∧ ∀ (k i : ℕ), is[k]? = some i → r[k]? = l[i]? := by
  intro is
  induction is with
  | nil => intro _; exact ⟨[], rfl, rfl, by simp⟩
  | cons j is ih =>
    intro h
    obtain ⟨r, e, hl, hk⟩ := ih fun i hi => h i (List.mem_cons_of_mem _ hi)
    have hj := h j (List.mem_cons_self ..)
    refine ⟨l[j] :: r, ?_, by simp [hl], ?_⟩
    · unfold gather
      rw [Outcome.index_of_lt hj, e]; rfl
    · intro k i hki
      cases k with
      | zero =>
        simp only [List.getElem?_cons_zero, Option.some.injEq] at hki ⊢
        rw [← hki, List.getElem?_eq_getElem hj]
      | succ k => simp only [List.getElem?_cons_succ] at hki ⊢; exact hk k i hki

private theorem gather_eq {α : Type} (l : List α) : ∀ is : List ℕ, (∀ i ∈ is, i < l.length) → ∀ r, gather l is = .ok r →
    r.map some = is.map fun i => l[i]? := by
  intro is
  induction is with
  | nil => intro _ r h; simp only [gather, Outcome.ok.injEq] at h; subst h; rfl
  | cons j is ih =>
    intro h r hr
    have hj := h j (List.mem_cons_self ..)
    unfold gather at hr
    rw [Outcome.index_of_lt hj] at hr
    simp only [Outcome.bind] at hr
    obtain ⟨r', e, -, -⟩ := gather_ok l is fun i hi => h i (List.mem_cons_of_mem _ hi)
    rw [e] at hr
    simp only [Outcome.ok.injEq] at hr
    subst hr
    simp only [List.map_cons]
    rw [ih (fun i hi => h i (List.mem_cons_of_mem _ hi)) r' e, List.getElem?_eq_getElem hj]

theorem worldBounds_mem (t : Triangle ℚ) : InBox (worldBounds t) t := by
  obtain ⟨h1, h2, -⟩ := BBox.C42_union_point (BBox.fromPoint t.a) t.b ⟨t.a, ⟨le_refl _, le_refl _⟩, ⟨le_refl _, le_refl _⟩, le_refl _, le_refl _⟩
  have ha : Mem (BBox.fromPoint t.a) t.a := ⟨⟨le_refl _, le_refl _⟩, ⟨le_refl _, le_refl _⟩, le_refl _, le_refl _⟩
  obtain ⟨h3, h4, -⟩ := BBox.C42_union_point (BBox.fromUnionPoint (BBox.fromPoint t.a) t.b) t.c ⟨t.b, h2⟩
  exact ⟨h3 _ (h1 _ ha), h3 _ h2, h4⟩

/-- The numbers of the triangles of a scene are those of `infosOf`, in order. -/
private theorem infosOf_index (ts : List (Triangle ℚ)) : (infosOf ts).map Info.index = List.range ts.length := by
  unfold infosOf
  rw [List.map_map]
  apply List.ext_getElem?
  intro k
  rw [List.getElem?_map, List.getElem?_zipIdx]
  by_cases hk : k < ts.length
  · rw [List.getElem?_eq_getElem hk, List.getElem?_range hk]
    simp [Info.new]
  · rw [List.getElem?_eq_none (by omega), List.getElem?_eq_none (by rw [List.length_range]; omega)]
    rfl

private def bndOf (ts : List (Triangle ℚ)) (k : ℕ) : BBox ℚ := ((ts[k]?).map worldBounds).getD ⟨0, 0⟩

private def cenOf (ts : List (Triangle ℚ)) (k : ℕ) : V3 ℚ := ((bndOf ts k).max + (bndOf ts k).min).scale (1 / 2)

private theorem infosOf_spec (ts : List (Triangle ℚ)) : ∀ i ∈ infosOf ts, i.bounds = bndOf ts i.index ∧
    i.centroid = cenOf ts i.index ∧ Nonempty i.bounds := by
  intro i hi
  obtain ⟨⟨t, k⟩, hx, rfl⟩ := List.mem_map.1 hi
  rw [List.mk_mem_zipIdx_iff_getElem?] at hx
  have : bndOf ts k = worldBounds t := by unfold bndOf; rw [hx]; rfl
  refine ⟨this.symm, ?_, ⟨t.a, (worldBounds_mem t).1⟩⟩
  show ((worldBounds t).max + (worldBounds t).min).scale (1 / 2) = cenOf ts k
  unfold cenOf; rw [this]

private theorem build_scene (lib : Sorting) (ts : List (Triangle ℚ)) (hne : ts.length ≠ 0) :
    ∃ node order, build lib ts.length 0 (infosOf ts) = .ok (node, order) ∧ order.Perm (List.range ts.length) ∧
      Built (bndOf ts) (cenOf ts) 0 node order := by
  have hl : (infosOf ts).length = ts.length := by simp [infosOf]
  obtain ⟨node, order, h1, h2, h3⟩ := build_built lib (bndOf ts) (cenOf ts) ts.length 0 (infosOf ts)
    (fun h => by rw [h] at hl; simp at hl; omega) (by omega) (infosOf_spec ts)
  rw [infosOf_index] at h2
  exact ⟨node, order, h1, h2, h3⟩

/-- C52: building the acceleration structure of a scene never fails and ends; the mapping has every triangle once, and
each triangle keeps its normals and its materials. -/
theorem C52_build (lib : Sorting) (scene : Scene) (hn : scene.normals.length = scene.triangles.length)
    (hf : scene.frontMaterials.length = scene.triangles.length) (hb : scene.backMaterials.length = scene.triangles.length) :
    ∃ nodes order scene', new lib scene = .ok (nodes, order, scene') ∧ order.Perm (List.range scene.triangles.length) ∧
      scene'.triangles.Perm scene.triangles ∧
      ∀ k i : ℕ, order[k]? = some i → scene'.triangles[k]? = scene.triangles[i]? ∧ scene'.normals[k]? = scene.normals[i]? ∧
        scene'.frontMaterials[k]? = scene.frontMaterials[i]? ∧ scene'.backMaterials[k]? = scene.backMaterials[i]? := by
  unfold new
  by_cases h0 : scene.triangles.length = 0
  · rw [if_pos h0]
    exact ⟨_, _, _, rfl, by rw [h0]; exact List.Perm.refl _, List.Perm.refl _, by simp⟩
  rw [if_neg h0]
  obtain ⟨node, order, e, perm, -⟩ := build_scene lib scene.triangles h0
  rw [e]
  simp only [Outcome.bind]
  have hlt : ∀ i ∈ order, i < scene.triangles.length := fun i hi => List.mem_range.1 (perm.mem_iff.1 hi)
  obtain ⟨r1, e1, l1, k1⟩ := gather_ok scene.triangles order hlt
  obtain ⟨r2, e2, l2, k2⟩ := gather_ok scene.normals order (fun i hi => by rw [hn]; exact hlt i hi)
  obtain ⟨r3, e3, l3, k3⟩ := gather_ok scene.frontMaterials order (fun i hi => by rw [hf]; exact hlt i hi)
  obtain ⟨r4, e4, l4, k4⟩ := gather_ok scene.backMaterials order (fun i hi => by rw [hb]; exact hlt i hi)
  have g := gather_eq scene.triangles order hlt r1 e1
  rw [e1, e2, e3, e4]
  refine ⟨_, _, _, rfl, perm, ?_, fun k i h => ⟨k1 k i h, k2 k i h, k3 k i h, k4 k i h⟩⟩
  have h1 : (r1.map some).Perm (scene.triangles.map some) := by
    rw [g]
    refine (perm.map _).trans (List.Perm.of_eq ?_)
    apply List.ext_getElem?
    intro k
    rw [List.getElem?_map, List.getElem?_map]
    by_cases hk : k < scene.triangles.length
    · rw [List.getElem?_range hk, List.getElem?_eq_getElem hk]
      simp [hk]
    · rw [List.getElem?_eq_none (by rw [List.length_range]; omega), List.getElem?_eq_none (by omega)]; rfl
  have h2 := h1.filterMap id
  simpa [List.filterMap_map] using h2

/-- C52: the nodes that are stored are those of a tree whose leaves cover all triangles, each once, and none is empty;
every triangle is in the box of every node that it is under.  A leaf has more than 24 triangles only when the centres of
their boxes are the same up to 10⁻⁸.  The faces of each box are faces of boxes of triangles. -/
theorem C52_tree (lib : Sorting) (scene scene' : Scene) (nodes : List FlatNode) (order : List ℕ)
    (hne : scene.triangles ≠ []) (h : new lib scene = .ok (nodes, order, scene')) :
    ∃ root, nodes = flatten 0 root ∧ Tile (leaves root) 0 scene'.triangles.length ∧
      (∀ s, NodeOf s root → ∀ i t, Holds s i → scene'.triangles[i]? = some t → InBox s.bounds t) ∧
      (∀ r ∈ leaves root, 24 < r.2 → ∀ (i j : ℕ) (t u : Triangle ℚ), r.1 ≤ i → i < r.1 + r.2 → r.1 ≤ j → j < r.1 + r.2 →
        scene'.triangles[i]? = some t → scene'.triangles[j]? = some u → ∀ a,
          |along a ((worldBounds t).max + (worldBounds t).min) - along a ((worldBounds u).max + (worldBounds u).min)| / 2 <
            1 / 10 ^ 8) ∧
      ∀ s, NodeOf s root → Faces (fun c => ∃ t ∈ scene'.triangles, c = worldBounds t) s.bounds := by
  have h0 : scene.triangles.length ≠ 0 := fun h => hne (List.length_eq_zero_iff.1 h)
  unfold new at h
  rw [if_neg h0] at h
  obtain ⟨node, order', e, perm, built⟩ := build_scene lib scene.triangles h0
  rw [e] at h
  simp only [Outcome.bind] at h
  have hlt : ∀ i ∈ order', i < scene.triangles.length := fun i hi => List.mem_range.1 (perm.mem_iff.1 hi)
  obtain ⟨r1, e1, l1, k1⟩ := gather_ok scene.triangles order' hlt
  rw [e1] at h
  simp only at h
  cases g2 : gather scene.normals order' with
  | err => rw [g2] at h; simp at h
  | panic => rw [g2] at h; simp at h
  | ok r2 =>
  rw [g2] at h
  simp only at h
  cases g3 : gather scene.frontMaterials order' with
  | err => rw [g3] at h; simp at h
  | panic => rw [g3] at h; simp at h
  | ok r3 =>
  rw [g3] at h
  simp only at h
  cases g4 : gather scene.backMaterials order' with
  | err => rw [g4] at h; simp at h
  | panic => rw [g4] at h; simp at h
  | ok r4 =>
  rw [g4] at h
  simp only [Outcome.ok.injEq, Prod.mk.injEq] at h
  obtain ⟨rfl, rfl, rfl⟩ := h
  have num : ∀ (i : ℕ) t, r1[i]? = some t → ∃ k, order'[i]? = some k ∧ scene.triangles[k]? = some t := by
    intro i t hi
    have hi' : i < order'.length := by rw [← l1]; exact (List.getElem?_eq_some_iff.1 hi).1
    refine ⟨_, List.getElem?_eq_getElem hi', ?_⟩
    rw [← k1 i _ (List.getElem?_eq_getElem hi')]; exact hi
  have bnd : ∀ k t, scene.triangles[k]? = some t → bndOf scene.triangles k = worldBounds t := by
    intro k t h; unfold bndOf; rw [h]; rfl
  refine ⟨node, rfl, ?_, ?_, ?_, ?_⟩
  · have := built.tile
    rw [Nat.zero_add] at this
    show Tile _ 0 r1.length
    rw [l1]; exact this
  · intro s hs i t hi ht
    obtain ⟨k, hk, htk⟩ := num i t ht
    have hw := built.box s hs i (by rw [Nat.zero_add]; exact hi) k hk
    rw [bnd k t htk] at hw
    obtain ⟨m1, m2, m3⟩ := worldBounds_mem t
    exact ⟨hw _ m1, hw _ m2, hw _ m3⟩
  · intro r hr h24 i j t u i1 i2 j1 j2 ht hu a
    obtain ⟨k, hk, htk⟩ := num i t ht
    obtain ⟨l, hl, hul⟩ := num j u hu
    have hc := built.crowd r hr h24 i j (by omega) (by omega) (by omega) (by omega) k l hk hl a
    unfold cenOf at hc
    rw [bnd k t htk, bnd l u hul] at hc
    have half : ∀ v : V3 ℚ, along a (v.scale (1 / 2)) = along a v / 2 := by
      intro v; cases a <;> simp [along] <;> ring
    rw [half, half, ← sub_div, abs_div, abs_of_pos (by norm_num : (0 : ℚ) < 2)] at hc
    exact hc
  · intro s hs
    refine faces_mono (built.faces s hs) ?_
    rintro c ⟨k, hk, rfl⟩
    obtain ⟨i, hi⟩ := List.mem_iff_getElem?.1 hk
    have hlk := hlt k hk
    refine ⟨scene.triangles[k], List.mem_iff_getElem?.2 ⟨i, ?_⟩, bnd k _ (List.getElem?_eq_getElem hlk)⟩
    show r1[i]? = _
    rw [k1 i k hi, List.getElem?_eq_getElem hlk]

end Simple.Render.Bvh
