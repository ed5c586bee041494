import Verif.Geometry.ExactPolygon
import Verif.Geometry.TriangulationModel

/-! The evaluator of `Verif.Geometry.Exact` for the first step of the triangulation. -/

namespace Simple.Geometry

namespace QLoop

open V3 Segment

/-- Whether the lengths differ by more than the tolerance, where that is clear from their squares. -/
def different (s t : Segment ℚ) : Option Bool :=
  if s.start.squaredDistance s.fin = t.start.squaredDistance t.fin then some false
  else if (s.start.squaredDistance s.fin - t.start.squaredDistance t.fin) ^ 2 >
      4 / 10 ^ 14 * max (s.start.squaredDistance s.fin) (t.start.squaredDistance t.fin) then some true
  else none

theorem different_real (s t : Segment ℚ) (b : Bool) (h : different s t = some b) :
    decide (|s.real.start.distance s.real.fin - t.real.start.distance t.real.fin| > 1 / 10 ^ 7) = b := by
  unfold different at h
  have e1 : s.real.start.distance s.real.fin = Real.sqrt ((s.start.squaredDistance s.fin : ℚ) : ℝ) := by
    rw [distance, ← real_squaredDistance]; rfl
  have e2 : t.real.start.distance t.real.fin = Real.sqrt ((t.start.squaredDistance t.fin : ℚ) : ℝ) := by
    rw [distance, ← real_squaredDistance]; rfl
  rw [e1, e2]
  have n1 : 0 ≤ s.start.squaredDistance s.fin := by
    unfold squaredDistance
    nlinarith [mul_self_nonneg (s.start.x - s.fin.x), mul_self_nonneg (s.start.y - s.fin.y), mul_self_nonneg (s.start.z - s.fin.z),
      mul_self_nonneg (t.start.x - t.fin.x), mul_self_nonneg (t.start.y - t.fin.y), mul_self_nonneg (t.start.z - t.fin.z)]
  have n2 : 0 ≤ t.start.squaredDistance t.fin := by
    unfold squaredDistance
    nlinarith [mul_self_nonneg (s.start.x - s.fin.x), mul_self_nonneg (s.start.y - s.fin.y), mul_self_nonneg (s.start.z - s.fin.z),
      mul_self_nonneg (t.start.x - t.fin.x), mul_self_nonneg (t.start.y - t.fin.y), mul_self_nonneg (t.start.z - t.fin.z)]
  generalize s.start.squaredDistance s.fin = x at *
  generalize t.start.squaredDistance t.fin = y at *
  by_cases h1 : x = y
  · rw [if_pos h1] at h
    simp only [Option.some.injEq] at h
    subst h h1
    simp
  · rw [if_neg h1] at h
    by_cases h2 : (x - y) ^ 2 > 4 / 10 ^ 14 * max x y
    · rw [if_pos h2] at h
      simp only [Option.some.injEq] at h
      subst h
      rw [decide_eq_true_eq]
      have n1' : (0 : ℝ) ≤ x := by exact_mod_cast n1
      have n2' : (0 : ℝ) ≤ y := by exact_mod_cast n2
      have h2' : ((x : ℝ) - y) ^ 2 > 4 / 10 ^ 14 * max (x : ℝ) y := by
        have h3 : ((4 / 10 ^ 14 * max x y : ℚ) : ℝ) < (((x - y) ^ 2 : ℚ) : ℝ) := Rat.cast_lt.2 h2
        push_cast at h3
        exact h3
      by_contra hc
      rw [gt_iff_lt, not_lt] at hc
      have sx := Real.sq_sqrt n1'
      have sy := Real.sq_sqrt n2'
      have px := Real.sqrt_nonneg (x : ℝ)
      have py := Real.sqrt_nonneg (y : ℝ)
      generalize Real.sqrt (x : ℝ) = u at *
      generalize Real.sqrt (y : ℝ) = v at *
      have hd : (u - v) ^ 2 ≤ (1 / 10 ^ 7) ^ 2 := by
        rw [← sq_abs (u - v)]
        exact pow_le_pow_left₀ (abs_nonneg _) hc 2
      have hm : (u + v) ^ 2 ≤ 4 * max (x : ℝ) y := by
        have a1 := le_max_left (x : ℝ) y
        have a2 := le_max_right (x : ℝ) y
        nlinarith [sq_nonneg (u - v)]
      have : ((x : ℝ) - y) ^ 2 = (u - v) ^ 2 * (u + v) ^ 2 := by rw [← sx, ← sy]; ring
      have hb : (u - v) ^ 2 * (u + v) ^ 2 ≤ (1 / 10 ^ 7) ^ 2 * (4 * max (x : ℝ) y) :=
        mul_le_mul hd hm (sq_nonneg _) (by positivity)
      rw [this] at h2'
      have : (1 / 10 ^ 7 : ℝ) ^ 2 * (4 * max (x : ℝ) y) = 4 / 10 ^ 14 * max (x : ℝ) y := by ring
      linarith
    · rw [if_neg h2] at h; simp at h

def touchesSide (s t : Segment ℚ) : Option Bool :=
  match s.containsQ t with
  | .ok c => if (s.intersect t).isSome || s.compare t then some true else if c then different s t else some false
  | _ => none

theorem touchesSide_real (s t : Segment ℚ) (b : Bool) (h : touchesSide s t = some b) :
    Loop.touchesSide s.real t.real = .ok b := by
  unfold touchesSide at h
  unfold Loop.touchesSide
  rw [contains_real, real_intersect, Segment.real_compare, Option.isSome_map]
  cases hc : s.containsQ t with
  | err => rw [hc] at h; simp at h
  | panic => rw [hc] at h; simp at h
  | ok c =>
    rw [hc] at h
    simp only [Outcome.bind, Outcome.ok.injEq] at h ⊢
    by_cases h1 : ((s.intersect t).isSome || s.compare t) = true
    · rw [if_pos h1] at h
      simp only [Option.some.injEq] at h
      subst h
      rw [Bool.or_eq_true] at h1
      rcases h1 with h2 | h2 <;> simp [h2]
    · rw [if_neg h1] at h
      simp only [Bool.or_eq_true, not_or, Bool.not_eq_true] at h1
      rw [h1.1, h1.2]
      cases c with
      | false => simp at h; simp [h]
      | true =>
        simp only [if_true] at h
        simp only [Bool.true_and, Bool.false_or, Bool.or_false]
        exact different_real s t b h

def clearOf (s : Segment ℚ) : List (V3 ℚ × V3 ℚ) → Option Bool
  | [] => some true
  | e :: es =>
    match touchesSide s ⟨e.1, e.2⟩ with
    | some true => some false
    | some false => clearOf s es
    | none => none

theorem clearOf_real (s : Segment ℚ) (l : List (V3 ℚ × V3 ℚ)) : ∀ b, clearOf s l = some b →
    Loop.clearOf s.real (l.map fun p => (p.1.real, p.2.real)) = .ok b := by
  induction l with
  | nil => intro b h; simp only [clearOf, Option.some.injEq] at h; subst h; rfl
  | cons e t ih =>
    intro b h
    unfold clearOf at h
    simp only [List.map_cons, Loop.clearOf]
    cases hs : touchesSide s ⟨e.1, e.2⟩ with
    | none => rw [hs] at h; simp at h
    | some c =>
      rw [hs] at h
      have := touchesSide_real s ⟨e.1, e.2⟩ c hs
      simp only [Segment.real] at this ⊢
      rw [this]
      cases c with
      | true => simp only [Option.some.injEq] at h; subst h; rfl
      | false => exact ih b h

def isDiagonal (q : QLoop) (s : Segment ℚ) : Option Bool :=
  if s.start.squaredDistance s.fin < 1 / 10 ^ 10 then some false
  else
    match clearOf s (around q.vertices) with
    | some true => match q.testPoint s.midpoint with | .ok b => some b | _ => none
    | some false => some false
    | none => none

theorem isDiagonal_rep {q : QLoop} {l : Loop} (hr : q.Rep l) (s : Segment ℚ) (b : Bool) (h : q.isDiagonal s = some b) :
    l.isDiagonal s.real = .ok b := by
  unfold isDiagonal at h
  unfold Loop.isDiagonal
  have h1 : (s.real.start.distance s.real.fin < 1 / 100000) = (s.start.squaredDistance s.fin < 1 / 10 ^ 10) := by
    apply propext
    rw [distance, Real.sqrt_lt' (by norm_num)]
    simp only [Segment.real, real_squaredDistance]
    rw [show ((1 / 100000 : ℝ) ^ 2) = ((1 / 10 ^ 10 : ℚ) : ℝ) by norm_num]
    norm_cast
  rw [if_congr (Eq.to_iff h1) rfl rfl]
  by_cases h2 : s.start.squaredDistance s.fin < 1 / 10 ^ 10
  · rw [if_pos h2] at h ⊢
    simp only [Option.some.injEq] at h
    rw [h]
  · rw [if_neg h2] at h ⊢
    rw [hr.1, around_real]
    cases hc : clearOf s (around q.vertices) with
    | none => rw [hc] at h; simp at h
    | some c =>
      rw [hc] at h
      rw [clearOf_real s _ c hc]
      cases c with
      | false => simp only [Option.some.injEq] at h; subst h; rfl
      | true =>
        simp only at h
        simp only [Outcome.bind, Bool.not_true, Bool.false_eq_true, if_false]
        rw [real_midpoint, testPoint_rep hr]
        cases ht : q.testPoint s.midpoint with
        | ok c => rw [ht] at h; simpa using h
        | err => rw [ht] at h; simp at h
        | panic => rw [ht] at h; simp at h

end QLoop

/-- `Triangle.new` without the square root. -/
def Triangle.newQ (a b c : V3 ℚ) : Bool :=
  !(a.compare b || a.compare c || b.compare c) && decide (a.isCollinearQ b c = .ok false)

theorem Triangle.newQ_real (a b c : V3 ℚ) (h : newQ a b c = true) :
    Triangle.new a.real b.real c.real = .ok ⟨a.real, b.real, c.real⟩ := by
  unfold newQ at h
  rw [Bool.and_eq_true, decide_eq_true_eq, Bool.not_eq_true'] at h
  unfold Triangle.new
  rw [V3.real_compare, V3.real_compare, V3.real_compare, h.1, V3.isCollinear_real, h.2]
  rfl

namespace QLoop

def isEar (q : QLoop) (v0 v1 v2 : V3 ℚ) : Option Bool :=
  match v0.isCollinearQ v1 v2, q.isDiagonal ⟨v0, v2⟩ with
  | .ok line, some diag => some (decide (q.vertices.length = 3) || (!line && diag))
  | _, _ => none

theorem isEar_rep {q : QLoop} {l : Loop} (hr : q.Rep l) (v0 v1 v2 : V3 ℚ) (b : Bool) (h : q.isEar v0 v1 v2 = some b) :
    Mesh.isEar l v0.real v1.real v2.real = .ok b := by
  unfold isEar at h
  unfold Mesh.isEar
  rw [V3.isCollinear_real]
  cases hc : v0.isCollinearQ v1 v2 with
  | err => rw [hc] at h; simp at h
  | panic => rw [hc] at h; simp at h
  | ok line =>
    rw [hc] at h
    cases hd : q.isDiagonal ⟨v0, v2⟩ with
    | none => rw [hd] at h; simp at h
    | some diag =>
      rw [hd] at h
      have := isDiagonal_rep hr _ _ hd
      simp only [Segment.real] at this
      simp only [Outcome.bind, this]
      simp only [Option.some.injEq] at h
      rw [← h, hr.1, List.length_map]

/-- The triangles that are cut off, in their order. -/
def clip : (k : ℕ) → QLoop → ℕ → Option (List (Triangle ℚ))
  | 0, _, _ => none
  | k + 1, q, anchor =>
    if q.vertices.length = 2 then some []
    else
      match q.vertices[anchor % q.vertices.length]?, q.vertices[(anchor + 1) % q.vertices.length]?,
          q.vertices[(anchor + 2) % q.vertices.length]? with
      | some v0, some v1, some v2 =>
        match q.isEar v0 v1 v2 with
        | some true =>
          if Triangle.newQ v0 v1 v2 then
            (clip k { q with vertices := q.vertices.eraseIdx ((anchor + 1) % q.vertices.length) } anchor).map (⟨v0, v1, v2⟩ :: ·)
          else none
        | some false => clip k q (anchor + 1)
        | none => none
      | _, _, _ => none

end QLoop

end Simple.Geometry
