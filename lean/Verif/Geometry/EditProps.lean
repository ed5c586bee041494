import Verif.Geometry.EditModel
import Verif.Geometry.PolygonProps

/-! # C94: comparing loops and moving their vertices -/

namespace Simple.Geometry

open Loop

/-! ### Specification -/

namespace Edit.Spec

/-- Not farther apart than `eps`. -/
def Within (eps : ℝ) (a b : V3 ℝ) : Prop := (a - b).length ≤ eps

/-- The vertices of a loop, in the direction in which `l` turns. -/
noncomputable def along (l other : Loop) : List (V3 ℝ) :=
  if l.normal.dot other.normal < 0 then other.vertices.reverse else other.vertices

/-- The same loop, from another vertex or in the other direction. -/
def Same (eps : ℝ) (l other : Loop) : Prop := ∃ k, List.Forall₂ (Within eps) l.vertices ((along l other).rotate k)

end Edit.Spec

open Edit

private theorem compareBy_iff (a b : V3 ℝ) (eps : ℝ) (h : 0 ≤ eps) : a.compareBy b eps = true ↔ Spec.Within eps a b := by
  unfold V3.compareBy Spec.Within V3.length
  rw [decide_eq_true_iff, Real.sqrt_le_left h, sq]

/-! ### Comparing -/

private def stepIdx (reversed : Bool) (n i : ℕ) : ℕ := if reversed then (i + n - 1) % n else (i + 1) % n

private theorem matches_spec (other : List (V3 ℝ)) (eps : ℝ) (reversed : Bool) (l : List (V3 ℝ)) : ∀ i, i < other.length →
    ∃ b, matches_ other eps reversed other.length i l = .ok b ∧
      (b = true ↔ ∀ j v w, l[j]? = some v → other[(stepIdx reversed other.length)^[j] i]? = some w →
        v.compareBy w eps = true) := by
  induction l with
  | nil => intro i _; exact ⟨true, rfl, by simp⟩
  | cons v t ih =>
    intro i hi
    have hn : 0 < other.length := by omega
    have hs : stepIdx reversed other.length i < other.length := by
      unfold stepIdx; split_ifs <;> exact Nat.mod_lt _ hn
    obtain ⟨b, hb, hb'⟩ := ih _ hs
    unfold matches_
    rw [Outcome.index, List.getElem?_eq_getElem hi]
    simp only [Outcome.bind]
    by_cases hc : v.compareBy other[i] eps = true
    · rw [hc]
      refine ⟨b, hb, hb'.trans ⟨fun h j => ?_, fun h j v w h1 h2 => h (j + 1) v w h1 h2⟩⟩
      cases j with
      | zero =>
        intro v' w' h1 h2
        simp only [List.getElem?_cons_zero, Option.some.injEq, Function.iterate_zero, id] at h1 h2
        rw [List.getElem?_eq_getElem hi, Option.some.injEq] at h2
        rw [← h1, ← h2]; exact hc
      | succ j =>
        intro v' w' h1 h2
        exact h j v' w' h1 h2
    · rw [Bool.not_eq_true] at hc
      rw [hc]
      refine ⟨false, rfl, by simp only [Bool.false_eq_true, false_iff]; intro h; have := h 0 v other[i] rfl (List.getElem?_eq_getElem hi); rw [hc] at this; simp at this⟩

private theorem iterate_forward (n i j : ℕ) (hi : i < n) : (stepIdx false n)^[j] i = (i + j) % n := by
  induction j with
  | zero => simp [Nat.mod_eq_of_lt hi]
  | succ j ih =>
    rw [Function.iterate_succ_apply', ih]
    simp only [stepIdx, Bool.false_eq_true, if_false]
    rw [Nat.mod_add_mod, Nat.add_assoc]

private theorem iterate_backward (n i j : ℕ) (hi : i < n) (hj : j ≤ n) :
    (stepIdx true n)^[j] i = if j ≤ i then i - j else n + i - j := by
  induction j with
  | zero => simp
  | succ j ih =>
    rw [Function.iterate_succ_apply', ih (by omega)]
    simp only [stepIdx, if_true]
    by_cases h1 : j + 1 ≤ i
    · rw [if_pos (by omega), if_pos h1]
      have : i - j + n - 1 = (i - (j + 1)) + n := by omega
      rw [this, Nat.add_mod_right, Nat.mod_eq_of_lt (by omega)]
    · rw [if_neg h1]
      by_cases h2 : j ≤ i
      · rw [if_pos h2, Nat.mod_eq_of_lt (by omega)]; omega
      · rw [if_neg h2]
        have : n + i - j + n - 1 = (n + i - (j + 1)) + n := by omega
        rw [this, Nat.add_mod_right, Nat.mod_eq_of_lt (by omega)]

private theorem along_getElem (rev : Bool) (o : List (V3 ℝ)) (i j : ℕ) (hi : i < o.length) (hj : j < o.length) :
    ((if rev then o.reverse else o).rotate (if rev then o.length - 1 - i else i))[j]? = o[(stepIdx rev o.length)^[j] i]? := by
  cases rev with
  | false =>
    simp only [Bool.false_eq_true, if_false]
    rw [iterate_forward _ _ _ hi, List.getElem?_rotate hj, Nat.add_comm]
  | true =>
    simp only [if_true]
    rw [iterate_backward _ _ _ hi (by omega), List.getElem?_rotate (by simpa using hj), List.length_reverse,
      List.getElem?_reverse (Nat.mod_lt _ (by omega))]
    congr 1
    by_cases h : j ≤ i
    · rw [if_pos h, Nat.mod_eq_of_lt (by omega)]; omega
    · rw [if_neg h]
      have : j + (o.length - 1 - i) = (j - i - 1) + o.length := by omega
      rw [this, Nat.add_mod_right, Nat.mod_eq_of_lt (by omega)]; omega

private theorem matches_rotate (l o : List (V3 ℝ)) (eps : ℝ) (he : 0 ≤ eps) (rev : Bool) (i : ℕ) (hi : i < o.length)
    (hl : l.length = o.length) :
    ∃ b, matches_ o eps rev o.length i l = .ok b ∧
      (b = true ↔ List.Forall₂ (Spec.Within eps) l ((if rev then o.reverse else o).rotate (if rev then o.length - 1 - i else i))) := by
  obtain ⟨b, hb, hb'⟩ := matches_spec o eps rev l i hi
  refine ⟨b, hb, hb'.trans ?_⟩
  rw [List.forall₂_iff_get]
  have hlen : ((if rev then o.reverse else o).rotate (if rev then o.length - 1 - i else i)).length = o.length := by
    cases rev <;> simp
  constructor
  · intro h
    refine ⟨by rw [hlen, hl], fun j h1 h2 => ?_⟩
    rw [← compareBy_iff _ _ _ he]
    refine h j _ _ (List.getElem?_eq_getElem h1) ?_
    rw [← along_getElem rev o i j hi (by omega)]
    exact List.getElem?_eq_getElem h2
  · rintro ⟨-, h⟩ j v w h1 h2
    obtain ⟨h3, rfl⟩ := List.getElem?_eq_some_iff.1 h1
    rw [← along_getElem rev o i j hi (by omega)] at h2
    obtain ⟨h4, rfl⟩ := List.getElem?_eq_some_iff.1 h2
    rw [compareBy_iff _ _ _ he]
    exact h j h3 h4

private theorem isEqual_eq (l o : Loop) (eps : ℝ) (he : 0 ≤ eps) (hc : l.closed = true) (hc' : o.closed = true)
    (hn : l.vertices.length = o.vertices.length) (ha : |l.area - o.area| ≤ 1 / 1000) (v : V3 ℝ) (t : List (V3 ℝ))
    (hv : l.vertices = v :: t) :
    (o.vertices.findIdx? (fun p => p.compareBy v eps) = none ∧ l.isEqual o eps = .ok false) ∨
    ∃ i b, o.vertices.findIdx? (fun p => p.compareBy v eps) = some i ∧ i < o.vertices.length ∧ l.isEqual o eps = .ok b ∧
      (b = true ↔ List.Forall₂ (Spec.Within eps) l.vertices ((Spec.along l o).rotate
        (if l.normal.dot o.normal < 0 then o.vertices.length - 1 - i else i))) := by
  have e : l.isEqual o eps = match o.vertices.findIdx? fun p => p.compareBy v eps with
      | none => .ok false
      | some anchor =>
        matches_ o.vertices eps (decide (l.normal.dot o.normal < 0)) l.vertices.length anchor l.vertices := by
    unfold isEqual
    rw [hc, hc', if_neg (by simp), if_neg (by rw [not_or, not_not, not_lt]; exact ⟨hn, ha⟩), hv]
    rfl
  rw [e]
  cases hf : o.vertices.findIdx? fun p => p.compareBy v eps with
  | none => exact Or.inl ⟨rfl, rfl⟩
  | some i =>
    right
    have hi : i < o.vertices.length := (List.findIdx?_eq_some_iff_getElem.1 hf).1
    dsimp only
    rw [hn]
    obtain ⟨b, hb, hb'⟩ := matches_rotate l.vertices o.vertices eps he (decide (l.normal.dot o.normal < 0)) i hi hn
    refine ⟨i, b, rfl, hi, hb, hb'.trans ?_⟩
    unfold Spec.along
    by_cases hd : l.normal.dot o.normal < 0
    · simp [hd]
    · simp [hd]

/-- C94: loops that are equal have the same vertices, one by one, up to the given distance, the first vertex and the
direction; and their areas differ by a thousandth or less. -/
theorem C94_equal (l o : Loop) (eps : ℝ) (he : 0 ≤ eps) (h : l.isEqual o eps = .ok true) :
    l.closed = true ∧ o.closed = true ∧ |l.area - o.area| ≤ 1 / 1000 ∧ Spec.Same eps l o := by
  have hc : l.closed = true ∧ o.closed = true := by
    unfold isEqual at h
    split_ifs at h with h1
    · simpa using h1
    · simpa using h1
  have hn : l.vertices.length = o.vertices.length ∧ |l.area - o.area| ≤ 1 / 1000 := by
    unfold isEqual at h
    rw [hc.1, hc.2, if_neg (by simp)] at h
    by_contra hn
    rw [if_pos (by rw [not_and_or, not_le] at hn; exact hn)] at h
    simp at h
  refine ⟨hc.1, hc.2, hn.2, ?_⟩
  cases hv : l.vertices with
  | nil =>
    unfold isEqual at h
    rw [hc.1, hc.2, if_neg (by simp), if_neg (by rw [not_or, not_not, not_lt]; exact hn), hv] at h
    simp at h
  | cons v t =>
    rcases isEqual_eq l o eps he hc.1 hc.2 hn.1 hn.2 v t hv with ⟨-, h2⟩ | ⟨i, b, -, -, h2, h3⟩
    · rw [h] at h2; simp at h2
    · rw [h] at h2
      simp only [Outcome.ok.injEq] at h2
      exact ⟨_, h3.1 h2.symm⟩

/-- C94: a loop is equal to itself. -/
theorem C94_equal_self (l : Loop) (eps : ℝ) (he : 0 ≤ eps) (hc : l.closed = true) (hn : l.vertices ≠ []) :
    l.isEqual l eps = .ok true := by
  obtain ⟨v, t, hv⟩ := List.exists_cons_of_ne_nil hn
  have hvv : ∀ v : V3 ℝ, Spec.Within eps v v := by
    intro v
    simpa [Spec.Within, V3.length, V3.lengthSquared] using he
  have hf : l.vertices.findIdx? (fun p => p.compareBy v eps) = some 0 := by
    rw [hv, List.findIdx?_cons, if_pos ((compareBy_iff v v eps he).2 (hvv v))]
  have hd : ¬ l.normal.dot l.normal < 0 := by
    simp only [V3.dot, not_lt]
    nlinarith [mul_self_nonneg l.normal.x, mul_self_nonneg l.normal.y, mul_self_nonneg l.normal.z]
  rcases isEqual_eq l l eps he hc hc rfl (by simp) v t hv with ⟨h1, -⟩ | ⟨i, b, h1, -, h2, h3⟩
  · rw [hf] at h1; simp at h1
  · rw [hf, Option.some.injEq] at h1
    rw [h2, h3.2 ?_]
    rw [if_neg hd, ← h1, Spec.along, if_neg hd, List.rotate_zero]
    exact List.forall₂_same.2 fun v _ => hvv v

/-- C94, in part: loops with the same vertices and the same area are equal, whatever the first vertex and the direction,
if no two vertices are within twice the given distance.  Missing: loops that visit a point twice, which are not equal to
themselves from another vertex (`C94_violated_equal`). -/
theorem C94_equal_same_partial (l o : Loop) (eps : ℝ) (he : 0 ≤ eps) (hc : l.closed = true) (hc' : o.closed = true)
    (hn : l.vertices ≠ []) (ha : |l.area - o.area| ≤ 1 / 1000) (hs : Spec.Same eps l o)
    (hsep : o.vertices.Pairwise fun a b => ¬ Spec.Within (2 * eps) a b) : l.isEqual o eps = .ok true := by
  obtain ⟨v, t, hv⟩ := List.exists_cons_of_ne_nil hn
  obtain ⟨k, hk⟩ := hs
  have hlen : (Spec.along l o).length = o.vertices.length := by unfold Spec.along; split_ifs <;> simp
  have hl : l.vertices.length = o.vertices.length := by rw [hk.length_eq]; simp [hlen]
  have hpos : 0 < o.vertices.length := by rw [← hl, hv]; simp
  -- the start of the rotation is the only vertex that is close to the first
  have tri : ∀ a b c : V3 ℝ, Spec.Within eps c a → Spec.Within eps c b → Spec.Within (2 * eps) a b := by
    intro a b c h1 h2
    rw [← compareBy_iff _ _ _ he, V3.compareBy, decide_eq_true_iff] at h1 h2
    rw [← compareBy_iff _ _ _ (by linarith), V3.compareBy, decide_eq_true_iff]
    simp only [V3.lengthSquared, V3.sub_x, V3.sub_y, V3.sub_z] at h1 h2 ⊢
    nlinarith [mul_self_nonneg (c.x - a.x + (c.x - b.x)), mul_self_nonneg (c.y - a.y + (c.y - b.y)),
      mul_self_nonneg (c.z - a.z + (c.z - b.z))]
  have hkn : k % o.vertices.length < o.vertices.length := Nat.mod_lt _ hpos
  obtain ⟨i0, hi0, hi0n, hr⟩ : ∃ i0, (o.vertices[i0]? = ((Spec.along l o).rotate k)[0]?) ∧ i0 < o.vertices.length ∧
      (if l.normal.dot o.normal < 0 then o.vertices.length - 1 - i0 else i0) = k % o.vertices.length := by
    by_cases hd : l.normal.dot o.normal < 0
    · refine ⟨o.vertices.length - 1 - k % o.vertices.length, ?_, by omega, by rw [if_pos hd]; omega⟩
      rw [List.getElem?_rotate (by omega), hlen, Nat.zero_add, Spec.along, if_pos hd, List.getElem?_reverse hkn]
    · refine ⟨k % o.vertices.length, ?_, hkn, by rw [if_neg hd]⟩
      rw [List.getElem?_rotate (by omega), hlen, Nat.zero_add, Spec.along, if_neg hd]
  have h0 : Spec.Within eps v o.vertices[i0] := by
    have h1 : l.vertices[0]? = some v := by rw [hv]; rfl
    rw [List.getElem?_eq_getElem hi0n] at hi0
    obtain ⟨h2, h2'⟩ := List.getElem?_eq_some_iff.1 hi0.symm
    obtain ⟨h3, h3'⟩ := List.getElem?_eq_some_iff.1 h1
    have := hk.get h3 h2
    simp only [List.get_eq_getElem, h2', h3'] at this
    exact this
  have symm : ∀ a b : V3 ℝ, Spec.Within eps a b → Spec.Within eps b a := by
    intro a b h
    rw [← compareBy_iff _ _ _ he, V3.compareBy, decide_eq_true_iff] at h ⊢
    simp only [V3.lengthSquared, V3.sub_x, V3.sub_y, V3.sub_z] at h ⊢
    linarith [h]
  have uniq : ∀ i (hi : i < o.vertices.length), Spec.Within eps v o.vertices[i] → i = i0 := by
    intro i hi h
    rw [List.pairwise_iff_getElem] at hsep
    rcases lt_trichotomy i i0 with h2 | h2 | h2
    · exact absurd (tri _ _ _ h h0) (hsep i i0 hi hi0n h2)
    · exact h2
    · exact absurd (tri _ _ _ h0 h) (hsep i0 i hi0n hi h2)
  rcases isEqual_eq l o eps he hc hc' hl ha v t hv with ⟨h1, -⟩ | ⟨i, b, h1, hi, h2, h3⟩
  · rw [List.findIdx?_eq_none_iff] at h1
    have := h1 o.vertices[i0] (List.getElem_mem hi0n)
    rw [(compareBy_iff _ _ _ he).2 (symm _ _ h0)] at this
    simp at this
  · obtain ⟨_, h4, -⟩ := List.findIdx?_eq_some_iff_getElem.1 h1
    have := uniq i hi (symm _ _ ((compareBy_iff _ _ _ he).1 h4))
    subst this
    rw [h2, h3.2 ?_]
    rw [hr, ← hlen, List.rotate_mod]
    exact hk

/-- C94: so turning a loop around, or starting it at another vertex, makes no difference. -/
theorem C94_equal_reverse (l : Loop) (eps : ℝ) (he : 0 ≤ eps) (hc : l.closed = true) (hn : l.vertices ≠ [])
    (hsep : l.vertices.Pairwise fun a b => ¬ Spec.Within (2 * eps) a b) (hz : l.normal.lengthSquared = 1) (k : ℕ) :
    l.isEqual l.reverse eps = .ok true ∧ l.isEqual { l with vertices := l.vertices.rotate k } eps = .ok true := by
  have hvv : ∀ v : V3 ℝ, Spec.Within eps v v := by
    intro v
    simpa [Spec.Within, V3.length, V3.lengthSquared] using he
  have symm : ∀ a b : V3 ℝ, ¬ Spec.Within (2 * eps) a b → ¬ Spec.Within (2 * eps) b a := by
    intro a b h h'
    refine h ?_
    rw [← compareBy_iff _ _ _ (by linarith), V3.compareBy, decide_eq_true_iff] at h' ⊢
    simp only [V3.lengthSquared, V3.sub_x, V3.sub_y, V3.sub_z] at h' ⊢
    linarith [h']
  constructor
  · apply C94_equal_same_partial l l.reverse eps he hc hc hn (by simp [Loop.reverse])
    · refine ⟨0, ?_⟩
      have : l.normal.dot l.reverse.normal < 0 := by
        simp only [Loop.reverse, V3.dot, V3.scale_x, V3.scale_y, V3.scale_z]
        simp only [V3.lengthSquared] at hz
        linarith
      rw [Spec.along, if_pos this, List.rotate_zero]
      simp only [Loop.reverse, List.reverse_reverse]
      exact List.forall₂_same.2 fun v _ => hvv v
    · simp only [Loop.reverse]
      rw [List.pairwise_reverse]
      exact hsep.imp fun {a b} h => symm a b h
  · apply C94_equal_same_partial l { l with vertices := l.vertices.rotate k } eps he hc hc hn (by simp)
    · refine ⟨l.vertices.length - k % l.vertices.length, ?_⟩
      have : ¬ l.normal.dot l.normal < 0 := by
        have : l.normal.dot l.normal = 1 := hz
        rw [this]; norm_num
      have e : (l.vertices.rotate k).rotate (l.vertices.length - k % l.vertices.length) = l.vertices := by
        rw [List.rotate_rotate, ← List.rotate_mod]
        have hpos : 0 < l.vertices.length := List.length_pos_iff.2 hn
        have h1 : k % l.vertices.length < l.vertices.length := Nat.mod_lt _ hpos
        have h2 : (k + (l.vertices.length - k % l.vertices.length)) % l.vertices.length = 0 := by
          rw [← Nat.mod_add_mod, show k % l.vertices.length + (l.vertices.length - k % l.vertices.length) = l.vertices.length by omega,
            Nat.mod_self]
        rw [h2, List.rotate_zero]
      rw [Spec.along, if_neg this]
      dsimp only
      rw [e]
      exact List.forall₂_same.2 fun v _ => hvv v
    · dsimp only
      have := (List.rotate_perm l.vertices k).symm
      exact this.pairwise hsep (fun {a b} h => symm a b h)

/-! ### Snapping -/

private theorem snap_far (d2 : ℝ) (points : List (V3 ℝ)) (p : V3 ℝ) (c : ℕ) (h : ∀ q ∈ points, d2 < p.squaredDistance q) :
    points.foldl (fun s q => if s.1.squaredDistance q ≤ d2 then (q, s.2 + 1) else s) (p, c) = (p, c) := by
  induction points with
  | nil => rfl
  | cons q t ih =>
    rw [List.foldl_cons, if_neg (not_le.2 (h q (by simp)))]
    exact ih fun q hq => h q (by simp [hq])

private theorem snap_in (d2 : ℝ) (points : List (V3 ℝ)) : ∀ (p : V3 ℝ) (c : ℕ),
    (points.foldl (fun s q => if s.1.squaredDistance q ≤ d2 then (q, s.2 + 1) else s) (p, c)).1 ∈ p :: points := by
  induction points with
  | nil => intro p c; simp
  | cons q t ih =>
    intro p c
    rw [List.foldl_cons]
    dsimp only
    split_ifs
    · have := ih q (c + 1)
      simp only [List.mem_cons] at this ⊢
      tauto
    · have := ih p c
      simp only [List.mem_cons] at this ⊢
      tauto

private theorem sq_dist (a b : V3 ℝ) (d : ℝ) (hd : 0 ≤ d) : a.squaredDistance b ≤ d ^ 2 ↔ Spec.Within d a b := by
  rw [← compareBy_iff _ _ _ hd, V3.compareBy, decide_eq_true_iff, sq]
  rfl

/-- C94: snapping a loop moves vertices to given points only, and none that is farther than the distance from all of them;
the number of vertices stays, and so does everything else about the loop. -/
theorem C94_snap (l : Loop) (points : List (V3 ℝ)) (d : ℝ) (hd : 0 ≤ d) :
    List.Forall₂ (fun p p' => (p' = p ∨ p' ∈ points) ∧ ((∀ q ∈ points, ¬ Spec.Within d p q) → p' = p)) l.vertices
      (l.snap points d).2.vertices ∧
    { (l.snap points d).2 with vertices := l.vertices } = l := by
  refine ⟨?_, rfl⟩
  simp only [snap, List.map_map]
  rw [List.forall₂_map_right_iff, List.forall₂_same]
  intro p _
  simp only [Function.comp, snapVertex]
  refine ⟨by simpa using snap_in (d ^ 2) points p 0, fun h => ?_⟩
  rw [snap_far]
  intro q hq
  rw [← not_le, sq_dist _ _ _ hd]
  exact h q hq

private theorem near_unique (d : ℝ) (hd : 0 ≤ d) (p q q' : V3 ℝ) (h : Spec.Within d p q) (h' : Spec.Within d p q') :
    Spec.Within (2 * d) q q' := by
  rw [← compareBy_iff _ _ _ hd, V3.compareBy, decide_eq_true_iff] at h h'
  rw [← compareBy_iff _ _ _ (by linarith), V3.compareBy, decide_eq_true_iff]
  simp only [V3.lengthSquared, V3.sub_x, V3.sub_y, V3.sub_z] at h h' ⊢
  nlinarith [mul_self_nonneg (p.x - q.x + (p.x - q'.x)), mul_self_nonneg (p.y - q.y + (p.y - q'.y)),
    mul_self_nonneg (p.z - q.z + (p.z - q'.z))]

private theorem snap_near (d : ℝ) (hd : 0 ≤ d) (q : V3 ℝ) (points : List (V3 ℝ)) : ∀ (p : V3 ℝ) (c : ℕ),
    points.Pairwise (fun a b => ¬ Spec.Within (2 * d) a b) → q ∈ points → Spec.Within d p q →
    points.foldl (fun s q => if s.1.squaredDistance q ≤ d ^ 2 then (q, s.2 + 1) else s) (p, c) = (q, c + 1) := by
  induction points with
  | nil => intro p c _ h; simp at h
  | cons a t ih =>
    intro p c hp hq hw
    rw [List.pairwise_cons] at hp
    rw [List.foldl_cons]
    dsimp only
    by_cases hqa : q = a
    · subst hqa
      rw [if_pos ((sq_dist _ _ _ hd).2 hw)]
      apply snap_far
      intro b hb
      rw [← not_le, sq_dist _ _ _ hd]
      intro h
      refine hp.1 b hb (le_trans h (by linarith))
    · have hqt : q ∈ t := by simpa [hqa] using hq
      rw [if_neg]
      · exact ih p c hp.2 hqt hw
      · rw [sq_dist _ _ _ hd]
        intro h
        exact hp.1 q hqt (near_unique d hd p a q h hw)

/-- C94, in part: each vertex goes to the point that is within the distance, and the number that is returned is that of
the vertices for which there is one, if no two of the points are within twice the distance.  Missing: other points, for
which vertices move farther than the distance and are counted more than once (`C94_violated_snap`). -/
theorem C94_snap_apart_partial (l : Loop) (points : List (V3 ℝ)) (d : ℝ) (hd : 0 ≤ d)
    (hp : points.Pairwise fun a b => ¬ Spec.Within (2 * d) a b) :
    List.Forall₂ (fun p p' => ∀ q ∈ points, Spec.Within d p q → p' = q) l.vertices (l.snap points d).2.vertices ∧
    ∃ near : List (V3 ℝ), near.Sublist l.vertices ∧ (∀ p ∈ l.vertices, p ∈ near ↔ ∃ q ∈ points, Spec.Within d p q) ∧
      (l.snap points d).1 = if near = [] then none else some near.length := by
  constructor
  · simp only [snap, List.map_map]
    rw [List.forall₂_map_right_iff, List.forall₂_same]
    intro p _ q hq hw
    simp only [Function.comp, snapVertex]
    rw [snap_near d hd q points p 0 hp hq hw]
  · classical
    refine ⟨l.vertices.filter fun p => ∃ q ∈ points, Spec.Within d p q, List.filter_sublist, fun p hpm => by simp [hpm], ?_⟩
    have hcount : ((l.vertices.map (snapVertex (d ^ 2) points)).map Prod.snd).sum =
        (l.vertices.filter fun p => ∃ q ∈ points, Spec.Within d p q).length := by
      induction l.vertices with
      | nil => rfl
      | cons p t ih =>
        simp only [List.map_cons, List.sum_cons]
        rw [ih]
        by_cases h : ∃ q ∈ points, Spec.Within d p q
        · obtain ⟨q, hq, hw⟩ := h
          rw [List.filter_cons_of_pos (by simpa using ⟨q, hq, hw⟩), snapVertex, snap_near d hd q points p 0 hp hq hw]
          simp [Nat.add_comm]
        · rw [List.filter_cons_of_neg (by simpa using h), snapVertex, snap_far]
          · simp
          · intro q hq
            rw [← not_le, sq_dist _ _ _ hd]
            exact fun hw => h ⟨q, hq, hw⟩
    unfold snap
    dsimp only
    rw [hcount]
    simp only [List.length_eq_zero_iff]

/-- The full claim is false: a vertex goes from point to point, so that it ends farther from where it was than the
distance, and it is counted for each. -/
theorem C94_violated_snap :
    ∃ (l : Loop) (points : List (V3 ℝ)) (p : V3 ℝ), l.vertices = [p] ∧ (l.snap points 1).1 = some 2 ∧
      ∃ p', (l.snap points 1).2.vertices = [p'] ∧ ¬ Spec.Within 1 p p' := by
  refine ⟨⟨[⟨0, 0, 0⟩], 0, false, -1, -1⟩, [⟨1, 0, 0⟩, ⟨2, 0, 0⟩], ⟨0, 0, 0⟩, rfl, ?_, ⟨2, 0, 0⟩, ?_, ?_⟩
  · norm_num [snap, snapVertex, V3.squaredDistance]
  · norm_num [snap, snapVertex, V3.squaredDistance]
  · rw [← compareBy_iff _ _ _ (by norm_num)]
    norm_num [V3.compareBy, V3.lengthSquared]

/-! ### Projecting -/

private theorem project_ok (l o : Loop) (h : (l.projectIntoPlane o).1 = .ok ()) : ∃ anchor t, o.vertices = anchor :: t ∧
    l.vertices ≠ [] ∧ l.closed = true ∧ o.closed = true ∧ (l.projectIntoPlane o).2 = { l with
      vertices := l.vertices.map fun p => p.projectIntoPlane anchor o.normal
      normal := if l.normal.dot o.normal > 0 then o.normal else -o.normal } := by
  unfold projectIntoPlane at h ⊢
  by_cases h1 : l.vertices = []
  · rw [if_pos h1] at h; simp at h
  rw [if_neg h1] at h ⊢
  cases ho : o.vertices with
  | nil => rw [ho] at h; simp at h
  | cons a t =>
    rw [ho] at h
    dsimp only at h ⊢
    cases hc : l.closed with
    | false => rw [hc] at h; simp at h
    | true =>
      cases hc' : o.closed with
      | false => rw [hc, hc'] at h; simp at h
      | true => exact ⟨a, t, rfl, h1, rfl, rfl, by simp⟩

/-- C94: projecting a loop into the plane of another, whose normal has length one, moves each vertex along that normal,
into the plane; the normal is then that of the plane, turned to the side to which the loop looked.  It fails exactly if
one of the loops is empty or open, and then nothing changes. -/
theorem C94_project (l o : Loop) (hn : o.normal.lengthSquared = 1) :
    ((l.projectIntoPlane o).1 = .ok () ↔ l.vertices ≠ [] ∧ o.vertices ≠ [] ∧ l.closed = true ∧ o.closed = true) ∧
    ((l.projectIntoPlane o).1 ≠ .ok () → (l.projectIntoPlane o) = (.err, l)) ∧
    ((l.projectIntoPlane o).1 = .ok () →
      List.Forall₂ (fun p p' => (∃ t, p' = p + o.normal.scale t) ∧ ∀ a ∈ o.vertices.head?, o.normal.dot (p' - a) = 0) l.vertices
        (l.projectIntoPlane o).2.vertices ∧
      ((l.projectIntoPlane o).2.normal = o.normal ∨ (l.projectIntoPlane o).2.normal = -o.normal) ∧
      0 ≤ l.normal.dot (l.projectIntoPlane o).2.normal) := by
  refine ⟨?_, ?_, ?_⟩
  · constructor
    · intro h
      obtain ⟨a, t, h1, h2, h3, h4, -⟩ := project_ok l o h
      exact ⟨h2, by rw [h1]; simp, h3, h4⟩
    · rintro ⟨h1, h2, h3, h4⟩
      unfold projectIntoPlane
      rw [if_neg h1]
      cases ho : o.vertices with
      | nil => exact absurd ho h2
      | cons a t => simp [h3, h4]
  · intro h
    unfold projectIntoPlane at h ⊢
    by_cases h1 : l.vertices = []
    · rw [if_pos h1]
    rw [if_neg h1] at h ⊢
    cases ho : o.vertices with
    | nil => rfl
    | cons a t =>
      rw [ho] at h
      dsimp only at h ⊢
      cases hc : l.closed with
      | false => simp
      | true =>
        cases hc' : o.closed with
        | false => simp
        | true => rw [hc, hc'] at h; simp at h
  · intro h
    obtain ⟨a, t, h1, -, -, -, h5⟩ := project_ok l o h
    rw [h5, h1]
    dsimp only
    refine ⟨?_, ?_, ?_⟩
    · rw [List.forall₂_map_right_iff, List.forall₂_same]
      intro p _
      refine ⟨⟨-(p.distanceToPlane a o.normal), ?_⟩, ?_⟩
      · ext <;> simp [V3.projectIntoPlane] <;> ring
      · intro a' ha'
        simp only [List.head?_cons, Option.mem_def, Option.some.injEq] at ha'
        subst ha'
        simp only [V3.projectIntoPlane, V3.distanceToPlane, V3.dot, V3.sub_x, V3.sub_y, V3.sub_z, V3.scale_x, V3.scale_y,
          V3.scale_z, V3.lengthSquared] at hn ⊢
        linear_combination (-((p.x - a.x) * o.normal.x + (p.y - a.y) * o.normal.y + (p.z - a.z) * o.normal.z)) * hn
    · split_ifs <;> simp
    · split_ifs with h6
      · exact h6.le
      · simp only [V3.dot, V3.neg_x, V3.neg_y, V3.neg_z, gt_iff_lt, not_lt] at h6 ⊢
        linarith

/-- A loop that is in the plane already stays where it is. -/
theorem C94_project_again (l o : Loop) (a : V3 ℝ) (ha : o.vertices.head? = some a) (h : (l.projectIntoPlane o).1 = .ok ())
    (hp : ∀ p ∈ l.vertices, o.normal.dot (p - a) = 0) : (l.projectIntoPlane o).2.vertices = l.vertices := by
  obtain ⟨a', t, h1, -, -, -, h5⟩ := project_ok l o h
  rw [h1] at ha
  simp only [List.head?_cons, Option.some.injEq] at ha
  subst ha
  rw [h5]
  dsimp only
  conv_rhs => rw [← List.map_id l.vertices]
  apply List.map_congr_left
  intro p hpm
  have := hp p hpm
  have e : p.distanceToPlane a' o.normal = 0 := by
    rw [← this]
    simp only [V3.distanceToPlane, V3.dot]; ring
  ext <;> simp [V3.projectIntoPlane, e]

private theorem fan_project (n a : V3 ℝ) (hn : n.lengthSquared = 1) (x : V3 ℝ) (l : List (V3 ℝ)) :
    n.dot (Loop.Spec.fan (x.projectIntoPlane a n) (l.map fun p => p.projectIntoPlane a n)) = n.dot (Loop.Spec.fan x l) := by
  induction l with
  | nil => rfl
  | cons p t ih =>
    cases t with
    | nil => rfl
    | cons q s =>
      simp only [List.map_cons, Loop.Spec.fan] at ih ⊢
      have dadd : ∀ u v : V3 ℝ, n.dot (u + v) = n.dot u + n.dot v := by
        intro u v; simp only [V3.dot, V3.add_x, V3.add_y, V3.add_z]; ring
      rw [dadd, dadd, ih]
      congr 1
      simp only [V3.projectIntoPlane, V3.dot, V3.cross_x, V3.cross_y, V3.cross_z, V3.sub_x, V3.sub_y, V3.sub_z, V3.scale_x,
        V3.scale_y, V3.scale_z]
      ring

/-- The full claim is false: after projecting, the loop still reports its old area.  The projection of a flat loop has its
area times the cosine of the angle between the normals. -/
theorem C94_violated_project (l o : Loop) (h : (l.projectIntoPlane o).1 = .ok ()) (hn : o.normal.lengthSquared = 1)
    (hf : Loop.Spec.areaVector l.vertices = l.normal.scale l.area) :
    (l.projectIntoPlane o).2.getArea = .ok l.area ∧
    |o.normal.dot (Loop.Spec.areaVector (l.projectIntoPlane o).2.vertices)| = |l.area| * |l.normal.dot o.normal| := by
  obtain ⟨a, t, h1, h2, h3, -, h5⟩ := project_ok l o h
  rw [h5]
  refine ⟨by simp [getArea, h3], ?_⟩
  dsimp only
  obtain ⟨x, s, hx⟩ := List.exists_cons_of_ne_nil h2
  have : o.normal.dot (Loop.Spec.areaVector (l.vertices.map fun p => p.projectIntoPlane a o.normal)) =
      o.normal.dot (Loop.Spec.areaVector l.vertices) := by
    rw [hx, List.map_cons]
    simp only [Loop.Spec.areaVector]
    have ds : ∀ (u : V3 ℝ) (c : ℝ), o.normal.dot (u.scale c) = o.normal.dot u * c := by
      intro u c; simp only [V3.dot, V3.scale_x, V3.scale_y, V3.scale_z]; ring
    rw [ds, ds, fan_project _ _ hn]
  rw [this, hf, ← abs_mul]
  congr 1
  simp only [V3.dot, V3.scale_x, V3.scale_y, V3.scale_z]; ring

/-- C94: the distance between two loops with parallel normals is that of the first vertex to the plane of the other, with
the sign of the normal; it is that of every vertex of a flat loop; there is none for loops that are open or whose normals are
not parallel. -/
theorem C94_distance (l o : Loop) (d : ℝ) (h : l.normalDistance o = .ok d) :
    l.closed ∧ o.closed ∧ |l.normal.dot o.normal ^ 2 - l.normal.lengthSquared * o.normal.lengthSquared| < 1 / 100000 ∧
    ∃ p s a t, l.vertices = p :: s ∧ o.vertices = a :: t ∧ d = l.normal.dot (p - a) ∧
      ∀ q, l.normal.dot (q - p) = 0 → l.normal.dot (q - a) = d := by
  unfold normalDistance at h
  split at h
  · simp at h
  · simp at h
  · rename_i p s a t hp ha
    split_ifs at h with c1 c2 c3
    simp only [Outcome.ok.injEq] at h
    simp only [Bool.not_eq_true, Bool.not_eq_false', Bool.not_eq_eq_eq_not, Bool.not_true, Bool.not_false] at c1 c2 c3
    refine ⟨by simpa using c1, by simpa using c2, ?_, p, s, a, t, hp, ha, ?_, ?_⟩
    · unfold V3.isParallel at c3
      split_ifs at c3
      · simp at c3
      · rw [pow_two]
        simpa using c3
    · rw [← h]; simp only [V3.distanceToPlane, V3.dot]; ring
    · intro q hq
      rw [← h]
      simp only [V3.distanceToPlane, V3.dot, V3.sub_x, V3.sub_y, V3.sub_z] at hq ⊢
      linear_combination hq

/-- C94: a loop contains a vertex exactly if one of its own is within the distance. -/
theorem C94_contains_vertex (l : Loop) (v : V3 ℝ) (eps : ℝ) (he : 0 ≤ eps) :
    l.containsVertex v eps = true ↔ ∃ p ∈ l.vertices, Spec.Within eps p v := by
  unfold Loop.containsVertex
  rw [List.any_eq_true]
  simp only [compareBy_iff _ _ _ he]

private theorem segments_get (vs : List (V3 ℝ)) (i : ℕ) (h : i < vs.length) :
    ((around vs).map fun p => (⟨p.1, p.2⟩ : Segment ℝ))[i]? = some ⟨vs[i], vs[(i + 1) % vs.length]'(Nat.mod_lt _ (by omega))⟩ := by
  cases vs with
  | nil => exact absurd h (by simp)
  | cons a t =>
    simp only [Loop.around, List.length_cons] at h ⊢
    rw [List.getElem?_map, List.getElem?_eq_getElem (by simp; omega), List.getElem_zip]
    simp only [Option.map_some, Option.some.injEq, Segment.mk.injEq, true_and]
    rcases Nat.lt_or_ge i t.length with h' | h'
    · rw [List.getElem_append_left h']
      simp only [Nat.mod_eq_of_lt (show i + 1 < t.length + 1 by omega), List.getElem_cons_succ]
    · have hi : i = t.length := by omega
      subst hi
      simp

/-- C94: the side of a loop that is said to contain a point is the first that does, and there is none exactly if no side does. -/
theorem C94_containing_segment (l : Loop) (p : V3 ℝ) :
    (∀ i, l.containingSegment p = some i ↔
      ∃ h : i < l.vertices.length, (⟨l.vertices[i], l.vertices[(i + 1) % l.vertices.length]'(Nat.mod_lt _ (by omega))⟩ : Segment ℝ).containsPoint p = .ok true ∧
        ∀ (j : ℕ) (hj : j < i), (⟨l.vertices[j]'(by omega), l.vertices[(j + 1) % l.vertices.length]'(Nat.mod_lt _ (by omega))⟩ : Segment ℝ).containsPoint p ≠ .ok true) ∧
    (l.containingSegment p = none ↔
      ∀ (i : ℕ) (h : i < l.vertices.length), (⟨l.vertices[i], l.vertices[(i + 1) % l.vertices.length]'(Nat.mod_lt _ (by omega))⟩ : Segment ℝ).containsPoint p ≠ .ok true) := by
  have hlen : l.segments.length = l.vertices.length := by
    unfold Loop.segments
    cases l.vertices with
    | nil => rfl
    | cons a t => simp [Loop.around]
  have hget : ∀ (i : ℕ) (h : i < l.vertices.length),
      l.segments[i]'(by omega) = ⟨l.vertices[i], l.vertices[(i + 1) % l.vertices.length]'(Nat.mod_lt _ (by omega))⟩ := by
    intro i h
    have : l.segments[i]? = _ := segments_get l.vertices i h
    rw [List.getElem?_eq_getElem (by omega)] at this
    exact Option.some.inj this
  have hb : ∀ o : Outcome Bool, (o matches .ok true) = true ↔ o = .ok true := by
    intro o
    rcases o with b | _ | _
    · cases b <;> simp
    · simp
    · simp
  unfold Loop.containingSegment
  constructor
  · intro i
    rw [List.findIdx?_eq_some_iff_getElem]
    constructor
    · rintro ⟨h, h1, h2⟩
      have h' : i < l.vertices.length := by omega
      refine ⟨h', ?_, fun j hj => ?_⟩
      · rw [← hget i h']; exact (hb _).1 h1
      · rw [← hget j (by omega)]
        intro hc
        exact h2 j hj ((hb _).2 hc)
    · rintro ⟨h, h1, h2⟩
      refine ⟨by omega, ?_, fun j hj => ?_⟩
      · rw [hget i h]; exact (hb _).2 h1
      · rw [hget j (by omega)]
        intro hc
        exact h2 j hj ((hb _).1 hc)
  · rw [List.findIdx?_eq_none_iff]
    constructor
    · intro h i hi hc
      have := h _ (List.getElem_mem (show i < l.segments.length by omega))
      rw [hget i hi] at this
      rw [hc] at this
      simp at this
    · intro h x hx
      obtain ⟨i, hi, rfl⟩ := List.getElem_of_mem hx
      rw [hget i (by omega)]
      exact Bool.eq_false_iff.2 fun hc => h i (by omega) ((hb _).1 hc)

/-! ### Polygons -/

/-- C94: snapping a polygon snaps all of its loops, and tells how many vertices moved in all of them. -/
theorem C94_polygon_snap (p : Polygon) (points : List (V3 ℝ)) (d : ℝ) :
    (p.snap points d).2.outer = (p.outer.snap points d).2 ∧ (p.snap points d).2.inner = p.inner.map (fun l => (l.snap points d).2) ∧
    ((p.snap points d).1 = none ↔ ∀ l ∈ p.outer :: p.inner, (l.snap points d).1 = none) ∧
    ∀ n, (p.snap points d).1 = some n → n = ((p.outer :: p.inner).map fun l => ((l.snap points d).1).getD 0).sum := by
  have hpos : ∀ l : Loop, (l.snap points d).1 = none ↔ ((l.snap points d).1).getD 0 = 0 := by
    intro l
    unfold Loop.snap
    dsimp only
    by_cases h : ((l.vertices.map (Loop.snapVertex (d ^ 2) points)).map Prod.snd).sum = 0
    · rw [if_pos h]; simp
    · rw [if_neg h]; simpa using h
  unfold Polygon.snap
  dsimp only
  refine ⟨rfl, by rw [List.map_map]; rfl, ?_, ?_⟩
  · rw [List.map_map]
    constructor
    · intro h l hl
      have hz : ((p.outer.snap points d).1).getD 0 + (p.inner.map ((fun r => r.1.getD 0) ∘ fun l => l.snap points d)).sum = 0 := by
        by_contra hc
        rw [if_neg hc] at h
        cases h
      rw [hpos]
      rcases List.mem_cons.1 hl with rfl | hl
      · omega
      · have := List.single_le_sum (l := p.inner.map ((fun r => r.1.getD 0) ∘ fun l => l.snap points d)) (by simp) _ (List.mem_map.2 ⟨l, hl, rfl⟩)
        simp only [Function.comp] at this hz
        omega
    · intro h
      rw [if_pos]
      have h0 := (hpos _).1 (h p.outer (List.mem_cons_self ..))
      have h1 : (p.inner.map ((fun r => r.1.getD 0) ∘ fun l => l.snap points d)).sum = 0 := by
        rw [List.sum_eq_zero]
        intro x hx
        obtain ⟨l, hl, rfl⟩ := List.mem_map.1 hx
        exact (hpos _).1 (h l (List.mem_cons_of_mem _ hl))
      omega
  · intro n hn
    split_ifs at hn with h
    have := Option.some.inj hn
    rw [← this, List.map_map, List.map_cons, List.sum_cons]
    rfl

/-- C94: projecting a polygon projects all of its loops. -/
theorem C94_polygon_project (p : Polygon) (o : Loop) (h : (p.projectIntoPlane o).1 = .ok ()) :
    (p.projectIntoPlane o).2.outer = (p.outer.projectIntoPlane o).2 ∧
    (p.projectIntoPlane o).2.inner = p.inner.map fun l => (l.projectIntoPlane o).2 := by
  unfold Polygon.projectIntoPlane at h ⊢
  rcases hp : p.outer.projectIntoPlane o with ⟨r, outer⟩
  rw [hp] at h
  cases r with
  | err => simp at h
  | panic => simp at h
  | ok u =>
    dsimp only at h ⊢
    refine ⟨rfl, ?_⟩
    generalize p.inner = ls at *
    induction ls with
    | nil => rfl
    | cons l t ih =>
      unfold Polygon.projectAll at h ⊢
      rcases hl : l.projectIntoPlane o with ⟨r, l'⟩
      rw [hl] at h
      cases r with
      | err => simp at h
      | panic => simp at h
      | ok u => simp only [List.map_cons, hl]; rw [ih h]

/-- The full claim is false for polygons: the normal of a polygon is not the one of its loop after projecting. -/
theorem C94_violated_polygon (p : Polygon) (o : Loop) :
    (p.projectIntoPlane o).2.normal = p.normal ∧ (p.projectIntoPlane o).2.area = p.area := by
  unfold Polygon.projectIntoPlane
  split <;> exact ⟨rfl, rfl⟩

/-! ### Concrete loops -/

private def pts (l : List (ℚ × ℚ)) : List (V3 ℚ) := l.map fun p => ⟨p.1, p.2, 0⟩

private theorem pushAll_reachable (vs : List (V3 ℝ)) : ∀ (l r : Loop), Loop.Spec.Reachable l → Polygon.pushAll l vs = .ok r →
    Loop.Spec.Reachable r := by
  induction vs with
  | nil =>
    intro l r h hr
    simp only [Polygon.pushAll, Outcome.ok.injEq] at hr
    exact hr ▸ h
  | cons v vs ih =>
    intro l r h hr
    unfold Polygon.pushAll at hr
    split at hr
    · rename_i l' hl'
      refine ih l' r ?_ hr
      have := Loop.Spec.Reachable.step l (.pushCollinear v false) h (by simp)
      simpa [Loop.step, hl'] using this
    · simp at hr

private theorem reachable_closed (vs : List (V3 ℚ)) (q : QLoop) (h : QPolygon.pushAll QLoop.new vs = some q)
    (hq : q.close.1 = .ok ()) : ∃ l, Loop.Spec.Reachable l ∧ q.close.2.Rep l := by
  have := QPolygon.pushAll_real vs QLoop.new q (-1) h
  have hn : QLoop.new.real (-1) = Loop.new := by
    ext1 <;> simp [QLoop.real, QLoop.new, Loop.new]
    ext <;> simp [V3.real]
  rw [hn] at this
  have hr := pushAll_reachable _ _ _ .new this
  have hc := QLoop.close_real q (-1)
  rw [hq] at hc
  refine ⟨(q.real (-1)).close.2, ?_, hc.2⟩
  have := Loop.Spec.Reachable.step _ .close hr (fun _ => hc.1)
  exact this

private def around1 : List (ℚ × ℚ) := [(0, 0), (1, 1), (1, 2), (2, 2), (2, 1), (1, 1), (0, 0), (4, 0), (4, 4), (0, 4)]
private def around2 : List (ℚ × ℚ) := [(0, 0), (4, 0), (4, 4), (0, 4), (0, 0), (1, 1), (1, 2), (2, 2), (2, 1), (1, 1)]

/-- The full claim is false: the loop around a square with a square hole passes twice through the ends of the bridge, and
it is not equal to itself from another vertex. -/
theorem C94_violated_equal :
    ∃ l o : Loop, Loop.Spec.Reachable l ∧ Loop.Spec.Reachable o ∧ l.closed = true ∧ o.closed = true ∧
      o.vertices = l.vertices.rotate 6 ∧ o.normal = l.normal ∧ o.area = l.area ∧ l.isEqual o (1 / 1000) = .ok false := by
  have h1 : ∃ q, QPolygon.pushAll QLoop.new (pts around1) = some q ∧ q.close = (.ok (), ⟨pts around1, ⟨0, 0, 1⟩, true, 15⟩) := by
    have : ((QPolygon.pushAll QLoop.new (pts around1)).any fun q =>
        decide (q.close = (.ok (), ⟨pts around1, ⟨0, 0, 1⟩, true, 15⟩))) = true := by decide +kernel
    obtain ⟨q, h1, h2⟩ := (Option.any_eq_true _ _).1 this
    exact ⟨q, h1, of_decide_eq_true h2⟩
  have h2 : ∃ q, QPolygon.pushAll QLoop.new (pts around2) = some q ∧ q.close = (.ok (), ⟨pts around2, ⟨0, 0, 1⟩, true, 15⟩) := by
    have : ((QPolygon.pushAll QLoop.new (pts around2)).any fun q =>
        decide (q.close = (.ok (), ⟨pts around2, ⟨0, 0, 1⟩, true, 15⟩))) = true := by decide +kernel
    obtain ⟨q, h1, h2⟩ := (Option.any_eq_true _ _).1 this
    exact ⟨q, h1, of_decide_eq_true h2⟩
  obtain ⟨q1, p1, c1⟩ := h1
  obtain ⟨q2, p2, c2⟩ := h2
  obtain ⟨l, hl, rl⟩ := reachable_closed _ q1 p1 (by rw [c1])
  obtain ⟨o, ho, ro⟩ := reachable_closed _ q2 p2 (by rw [c2])
  rw [c1] at rl
  rw [c2] at ro
  have hv1 : l.vertices = (pts around1).map V3.real := rl.1
  have hv2 : o.vertices = (pts around2).map V3.real := ro.1
  have hc1 : l.closed = true := rl.2.2.1
  have hc2 : o.closed = true := ro.2.2.1
  refine ⟨l, o, hl, ho, hc1, hc2, ?_, by rw [rl.2.1, ro.2.1], by rw [rl.2.2.2, ro.2.2.2], ?_⟩
  · rw [hv1, hv2, ← List.map_rotate]; rfl
  · have hd : ¬ l.normal.dot o.normal < 0 := by
      rw [rl.2.1, ro.2.1]; norm_num [V3.dot, V3.real]
    rcases isEqual_eq l o (1 / 1000) (by norm_num) hc1 hc2 (by rw [hv1, hv2]; rfl)
      (by rw [rl.2.2.2, ro.2.2.2]; simp) _ _ hv1 with ⟨-, h⟩ | ⟨i, b, h1, -, h2, h3⟩
    · exact h
    · have hi : i = 0 := by
        rw [hv2] at h1
        simp only [around2, around1, pts, List.map_cons, List.findIdx?_cons] at h1
        rw [if_pos (by norm_num [V3.compareBy, V3.lengthSquared])] at h1
        simpa using h1.symm
      subst hi
      rw [if_neg hd, Spec.along, if_neg hd, List.rotate_zero, hv1, hv2] at h3
      cases b with
      | false => exact h2
      | true =>
        exfalso
        have := h3.1 rfl
        simp only [around2, around1, pts, List.map_cons, List.forall₂_cons] at this
        have h4 := this.2.1
        rw [← compareBy_iff _ _ _ (by norm_num)] at h4
        norm_num [V3.compareBy, V3.lengthSquared, V3.real] at h4

private theorem square_rep : ∃ l, Loop.Spec.Reachable l ∧
    (⟨pts [(0, 0), (4, 0), (4, 4), (0, 4)], ⟨0, 0, 1⟩, true, 16⟩ : QLoop).Rep l :=
  QLoop.build_reachable (pts [(0, 0), (4, 0), (4, 4), (0, 4)]) _ (by decide +kernel)

/-- The full claim is false: after snapping, a closed loop still reports its old area. -/
theorem C94_violated_snap_area :
    ∃ (l : Loop) (points : List (V3 ℝ)), Loop.Spec.Reachable l ∧ (l.snap points 2).2.getArea = .ok 16 ∧
      (l.snap points 2).2.normal.dot (Loop.Spec.areaVector (l.snap points 2).2.vertices) = 20 := by
  obtain ⟨l, hl, rl⟩ := square_rep
  have hv : l.vertices = [⟨0, 0, 0⟩, ⟨4, 0, 0⟩, ⟨4, 4, 0⟩, ⟨0, 4, 0⟩] := by rw [rl.1]; simp [pts, V3.real]
  have hn : l.normal = ⟨0, 0, 1⟩ := by rw [rl.2.1]; simp [V3.real]
  refine ⟨l, [⟨5, 5, 0⟩], hl, ?_, ?_⟩
  · have h1 : l.area = 16 := by rw [rl.2.2.2]; norm_num
    have h2 : l.closed = true := rl.2.2.1
    simp [snap, getArea, h1, h2]
  · simp only [snap, hv, hn]
    norm_num [snapVertex, V3.squaredDistance, Loop.Spec.areaVector, Loop.Spec.fan, V3.dot]

/-- A square meets the hypotheses of `C94_equal_same_partial` and of `C94_equal_reverse`, and those of `C94_violated_project`
when it is projected into its own plane. -/
example : ∃ l : Loop, l.closed = true ∧ l.vertices.length = 4 ∧ l.normal.lengthSquared = 1 ∧
    (l.vertices.Pairwise fun a b => ¬ Spec.Within (2 * 1) a b) ∧ Spec.Same 1 l l ∧ (l.projectIntoPlane l).1 = .ok () ∧
    Loop.Spec.areaVector l.vertices = l.normal.scale l.area := by
  obtain ⟨l, hl, rl⟩ := square_rep
  have hv : l.vertices = [⟨0, 0, 0⟩, ⟨4, 0, 0⟩, ⟨4, 4, 0⟩, ⟨0, 4, 0⟩] := by rw [rl.1]; simp [pts, V3.real]
  have hn : l.normal = ⟨0, 0, 1⟩ := by rw [rl.2.1]; simp [V3.real]
  have hc : l.closed = true := rl.2.2.1
  have h1 : l.normal.lengthSquared = 1 := by rw [hn]; norm_num [V3.lengthSquared]
  have heq := C94_equal_self l 1 (by norm_num) hc (by rw [hv]; simp)
  refine ⟨l, hc, by rw [hv]; rfl, h1, ?_, (C94_equal l l 1 (by norm_num) heq).2.2.2, ?_, ?_⟩
  · rw [hv]
    simp only [List.pairwise_cons, List.mem_cons, List.not_mem_nil, or_false, forall_eq_or_imp, forall_eq,
      ← compareBy_iff _ _ _ (show (0 : ℝ) ≤ 2 * 1 by norm_num)]
    norm_num [V3.compareBy, V3.lengthSquared]
  · exact (C94_project l l h1).1.2 ⟨by rw [hv]; simp, by rw [hv]; simp, hc, hc⟩
  · have h2 : l.area = 16 := by rw [rl.2.2.2]; norm_num
    rw [hv, hn, h2]
    norm_num [Loop.Spec.areaVector, Loop.Spec.fan]
    ext <;> norm_num

end Simple.Geometry
