import Mathlib.Tactic.Linarith
import Mathlib.Tactic.NormNum
import Mathlib.Data.List.Perm.Basic
import Verif.Geometry.TriangleProps

/-! # C122: comparing triangles -/

namespace Simple.Geometry.Triangle

namespace Spec

/-- The square of the distance between two points. -/
def apart2 (p q : V3 ℝ) : ℝ := (p.x - q.x) ^ 2 + (p.y - q.y) ^ 2 + (p.z - q.z) ^ 2

/-- Two points at most a millimetre apart. -/
def Near (p q : V3 ℝ) : Prop := apart2 p q ≤ (1 / 1000) ^ 2

/-- Two triangles are made of the same vertices: each of those of the first is near its own one of the second. -/
def Same (t u : Triangle ℝ) : Prop :=
  ∃ x y z, [x, y, z].Perm [u.a, u.b, u.c] ∧ Near t.a x ∧ Near t.b y ∧ Near t.c z

/-- The vertices of the triangle are more than two millimetres from each other. -/
def Wide (t : Triangle ℝ) : Prop :=
  (2 / 1000) ^ 2 < apart2 t.a t.b ∧ (2 / 1000) ^ 2 < apart2 t.b t.c ∧ (2 / 1000) ^ 2 < apart2 t.a t.c

end Spec

open Spec

theorem compare_near (p q : V3 ℝ) : p.compare q = true ↔ Near q p := by
  unfold V3.compare V3.compareBy Near apart2 V3.lengthSquared
  rw [decide_eq_true_iff]
  simp only [V3.sub_x, V3.sub_y, V3.sub_z]
  constructor <;> intro h <;> nlinarith

theorem near_comm {p q : V3 ℝ} (h : Near p q) : Near q p := by
  unfold Near apart2 at *
  nlinarith

theorem near_two {p q x : V3 ℝ} (hp : Near p x) (hq : Near q x) : apart2 p q ≤ (2 / 1000) ^ 2 := by
  unfold Near apart2 at *
  nlinarith [sq_nonneg (p.x - x.x + (q.x - x.x)), sq_nonneg (p.y - x.y + (q.y - x.y)), sq_nonneg (p.z - x.z + (q.z - x.z))]

theorem compare_iff (t u : Triangle ℝ) : t.compare u = true ↔
    (Near t.a u.a ∨ Near t.a u.b ∨ Near t.a u.c) ∧ (Near t.b u.a ∨ Near t.b u.b ∨ Near t.b u.c) ∧ (Near t.c u.a ∨ Near t.c u.b ∨ Near t.c u.c) := by
  unfold Triangle.compare hasVertex
  simp only [Bool.and_eq_true, Bool.or_eq_true, compare_near, or_assoc, and_assoc]

/-- C122: triangles that are made of the same vertices, in any order, are said to be so; and a triangle whose vertices are more than two millimetres
apart is only said to be the same as those that are.

Missing: that narrower triangles are only said to be the same as those that are (`C122_violated_narrow`). -/
theorem C122_compare_partial (t u : Triangle ℝ) : (Same t u → t.compare u = true) ∧ (Wide t → t.compare u = true → Same t u) := by
  constructor
  · rintro ⟨x, y, z, hp, h1, h2, h3⟩
    rw [compare_iff]
    have mem : ∀ v ∈ [x, y, z], v = u.a ∨ v = u.b ∨ v = u.c := by
      intro v hv
      have := hp.mem_iff.1 hv
      simpa using this
    refine ⟨?_, ?_, ?_⟩
    · rcases mem x (by simp) with e | e | e <;> rw [e] at h1 <;> simp [h1]
    · rcases mem y (by simp) with e | e | e <;> rw [e] at h2 <;> simp [h2]
    · rcases mem z (by simp) with e | e | e <;> rw [e] at h3 <;> simp [h3]
  · rintro ⟨w1, w2, w3⟩ h
    rw [compare_iff] at h
    have ab : ∀ x, Near t.a x → Near t.b x → False := fun x h1 h2 => absurd (near_two h1 h2) (not_le.2 w1)
    have bc : ∀ x, Near t.b x → Near t.c x → False := fun x h1 h2 => absurd (near_two h1 h2) (not_le.2 w2)
    have ac : ∀ x, Near t.a x → Near t.c x → False := fun x h1 h2 => absurd (near_two h1 h2) (not_le.2 w3)
    obtain ⟨h1, h2, h3⟩ := h
    rcases h1 with h1 | h1 | h1 <;> rcases h2 with h2 | h2 | h2 <;> rcases h3 with h3 | h3 | h3 <;>
      first
      | exact (ab _ h1 h2).elim
      | exact (bc _ h2 h3).elim
      | exact (ac _ h1 h3).elim
      | exact ⟨_, _, _, .refl _, h1, h2, h3⟩
      | exact ⟨_, _, _, List.Perm.swap _ _ _, h1, h2, h3⟩
      | exact ⟨_, _, _, (List.Perm.swap _ _ _).cons _, h1, h2, h3⟩
      | exact ⟨_, _, _, (List.Perm.swap _ _ _).trans ((List.Perm.swap _ _ _).cons _), h1, h2, h3⟩
      | exact ⟨_, _, _, ((List.Perm.swap _ _ _).cons _).trans (List.Perm.swap _ _ _), h1, h2, h3⟩
      | exact ⟨_, _, _, ((List.Perm.swap _ _ _).trans ((List.Perm.swap _ _ _).cons _)).trans (List.Perm.swap _ _ _), h1, h2, h3⟩

/-- C122: for triangles whose vertices are more than two millimetres apart the order of the two makes no difference, and every triangle is the same as
itself. -/
theorem C122_order (t u : Triangle ℝ) : t.compare t = true ∧ (Wide t → Wide u → t.compare u = u.compare t) := by
  have near_self : ∀ p, Near p p := fun p => by unfold Near apart2; norm_num
  have sym : ∀ t u : Triangle ℝ, Wide t → t.compare u = true → u.compare t = true := by
    intro t u ht h
    obtain ⟨x, y, z, hp, h1, h2, h3⟩ := (C122_compare_partial t u).2 ht h
    rw [compare_iff]
    have mem : ∀ v ∈ [u.a, u.b, u.c], Near v t.a ∨ Near v t.b ∨ Near v t.c := by
      intro v hv
      have := hp.mem_iff.2 hv
      simp only [List.mem_cons, List.not_mem_nil, or_false] at this
      rcases this with rfl | rfl | rfl
      · exact .inl (near_comm h1)
      · exact .inr (.inl (near_comm h2))
      · exact .inr (.inr (near_comm h3))
    exact ⟨mem _ (by simp), mem _ (by simp), mem _ (by simp)⟩
  refine ⟨(compare_iff t t).2 ⟨.inl (near_self _), .inr (.inl (near_self _)), .inr (.inr (near_self _))⟩, fun ht hu => ?_⟩
  rw [Bool.eq_iff_iff]
  exact ⟨sym t u ht, sym u t hu⟩

private theorem new_accepts {a b c : V3 ℝ} (h1 : ¬ Near b a) (h2 : ¬ Near c a) (h3 : ¬ Near c b)
    (h4 : (1 / 100000) ^ 2 ≤ ((b - a).cross (c - b)).lengthSquared) : Triangle.new a b c = .ok ⟨a, b, c⟩ := by
  have e1 : a.compare b = false := by rw [Bool.eq_false_iff, ne_eq, compare_near]; exact h1
  have e2 : a.compare c = false := by rw [Bool.eq_false_iff, ne_eq, compare_near]; exact h2
  have e3 : b.compare c = false := by rw [Bool.eq_false_iff, ne_eq, compare_near]; exact h3
  have e4 : ¬ ((b - a).cross (c - b)).length < 1 / 100000 := not_lt.2 (Real.le_sqrt_of_sq_le h4)
  simp [Triangle.new, V3.isCollinear, e1, e2, e3, Outcome.bind]
  simpa using e4

/-- C122 is violated: a sliver of which two vertices are a millimetre and a half apart is said to be the same as a triangle with an edge of five metres,
though that one is not the same as the sliver.  Both are accepted as triangles. -/
theorem C122_violated_narrow : ∃ t u : Triangle ℝ, Triangle.new t.a t.b t.c = .ok t ∧ Triangle.new u.a u.b u.c = .ok u ∧
    t.compare u = true ∧ u.compare t = false ∧ ¬ Same t u ∧ apart2 u.a u.b > 4 ^ 2 ∧ ∀ e ∈ [t.a, t.b, t.c], apart2 u.b e > 4 ^ 2 := by
  refine ⟨⟨⟨0, 0, 0⟩, ⟨3 / 2000, 0, 0⟩, ⟨0, 1, 0⟩⟩, ⟨⟨3 / 4000, 0, 0⟩, ⟨5, 0, 0⟩, ⟨0, 1, 0⟩⟩, ?_, ?_, ?_, ?_, ?_, ?_, ?_⟩
  · apply new_accepts <;> norm_num [Near, apart2, V3.cross, V3.lengthSquared, V3.sub_x, V3.sub_y, V3.sub_z]
  · apply new_accepts <;> norm_num [Near, apart2, V3.cross, V3.lengthSquared, V3.sub_x, V3.sub_y, V3.sub_z]
  · rw [compare_iff]
    refine ⟨.inl ?_, .inl ?_, .inr (.inr ?_)⟩ <;> norm_num [Near, apart2]
  · rw [Bool.eq_false_iff, ne_eq, compare_iff]
    norm_num [Near, apart2]
  · rintro ⟨x, y, z, hp, h1, h2, h3⟩
    have := hp.mem_iff.2 (show (⟨5, 0, 0⟩ : V3 ℝ) ∈ _ by simp)
    simp only [List.mem_cons, List.not_mem_nil, or_false] at this
    rcases this with rfl | rfl | rfl
    · norm_num [Near, apart2] at h1
    · norm_num [Near, apart2] at h2
    · norm_num [Near, apart2] at h3
  · norm_num [apart2]
  · intro e he
    simp only [List.mem_cons, List.not_mem_nil, or_false] at he
    rcases he with rfl | rfl | rfl <;> norm_num [apart2]

/-- Hypotheses of the theorems: a triangle of one metre, with its vertices in another order. -/
example : Wide ⟨⟨0, 0, 0⟩, ⟨1, 0, 0⟩, ⟨0, 1, 0⟩⟩ ∧ Same ⟨⟨0, 0, 0⟩, ⟨1, 0, 0⟩, ⟨0, 1, 0⟩⟩ ⟨⟨1, 0, 0⟩, ⟨0, 0, 0⟩, ⟨0, 1, 0⟩⟩ := by
  refine ⟨by norm_num [Wide, apart2], _, _, _, List.Perm.swap _ _ _, ?_, ?_, ?_⟩ <;> norm_num [Near, apart2]

end Simple.Geometry.Triangle
