import Verif.Geometry.SplitModel
import Verif.Geometry.ExactPolygon

/-! The evaluator of `Verif.Geometry.Exact` for cutting loops. -/

namespace Simple.Geometry

namespace Cut

/-- An intersection with a rational point, read as a real one. -/
def castC (c : ℕ × V3 ℚ) : ℕ × V3 ℝ := (c.1, c.2.real)

private theorem addPt_real (ret : List (ℕ × V3 ℚ)) (i : ℕ) (p : V3 ℚ) :
    addPt (ret.map castC) i p.real = (addPt ret i p).map castC := by
  unfold addPt
  have : (ret.map castC).any (fun q => p.real.compare q.2) = ret.any fun q => p.compare q.2 := by
    rw [List.any_map]
    congr 1
    funext q
    simp [castC, V3.real_compare]
  rw [this]
  split_ifs <;> simp [castC]

theorem small_iff (x : ℚ) (k : ℕ) : ((x : ℝ) < 1 / 10 ^ k) ↔ (x < 1 / 10 ^ k) := by
  rw [show (1 / 10 ^ k : ℝ) = ((1 / 10 ^ k : ℚ) : ℝ) by push_cast; rfl, Rat.cast_lt]

private theorem visit_real (s : Segment ℚ) (len2 : ℚ) (ret : List (ℕ × V3 ℚ)) (a b : V3 ℚ) (i : ℕ) :
    visit s.real (len2 : ℝ) (ret.map castC) ((a.real, b.real), i) = (visit s len2 ret ((a, b), i)).map castC := by
  unfold visit
  dsimp only
  rw [V3.real_squaredDistance, show (⟨a.real, b.real⟩ : Segment ℝ) = (⟨a, b⟩ : Segment ℚ).real from rfl,
    Segment.real_intersect]
  simp only [small_iff]
  split_ifs
  · rfl
  · cases (⟨a, b⟩ : Segment ℚ).intersect s with
    | none => rfl
    | some p => exact addPt_real ret i p

theorem cuts_real (edges : List (V3 ℚ × V3 ℚ)) (s : Segment ℚ) (len2 : ℚ) :
    cuts (edges.map fun p => (p.1.real, p.2.real)) s.real (len2 : ℝ) = (cuts edges s len2).map castC := by
  unfold cuts
  simp only [small_iff]
  split_ifs
  · rfl
  · rw [List.zipIdx_map]
    generalize edges.zipIdx = es
    have : ∀ ret : List (ℕ × V3 ℚ), (es.map (Prod.map (fun p : V3 ℚ × V3 ℚ => (p.1.real, p.2.real)) id)).foldl (visit s.real (len2 : ℝ))
        (ret.map castC) = (es.foldl (visit s len2) ret).map castC := by
      induction es with
      | nil => intro ret; rfl
      | cons e es ih =>
        intro ret
        rw [List.map_cons, List.foldl_cons, List.foldl_cons, ← ih]
        congr 1
        exact visit_real s len2 ret e.1.1 e.1.2 e.2
    exact this []

theorem firstOfEdge_real (l : List (ℕ × V3 ℚ)) : firstOfEdge (l.map castC) = (firstOfEdge l).map castC := by
  unfold firstOfEdge
  have : ∀ acc : List (ℕ × V3 ℚ),
      (l.map castC).foldl (fun acc c => if acc.any (fun a => a.1 = c.1) then acc else acc ++ [c]) (acc.map castC) =
      (l.foldl (fun acc c => if acc.any (fun a => a.1 = c.1) then acc else acc ++ [c]) acc).map castC := by
    induction l with
    | nil => intro acc; rfl
    | cons d l ih =>
      intro acc
      rw [List.map_cons, List.foldl_cons, List.foldl_cons, ← ih]
      congr 1
      have e : (acc.map castC).any (fun a => a.1 = (castC d).1) = acc.any fun a => a.1 = d.1 := by
        rw [List.any_map]; rfl
      rw [e]
      by_cases h : (acc.any fun a => a.1 = d.1) = true
      · rw [if_pos h, if_pos h]
      · rw [if_neg h, if_neg h, List.map_append]; rfl
  exact this []

theorem branch_real (l : List (ℕ × V3 ℚ)) :
    branch (l.map castC) = (branch l).map fun r => (castC r.1, castC r.2) := by
  unfold branch
  match l with
  | [] => rfl
  | [_] => rfl
  | p :: q :: _ =>
    simp only [List.map_cons, castC, V3.real_compare]
    split_ifs <;> rfl

private theorem toLeft_real (vs : List (V3 ℚ)) (b m : ℕ) (bp mp : V3 ℚ) (i : ℕ) :
    toLeft (vs.map V3.real) b m bp.real mp.real i = (toLeft vs b m bp mp i).map V3.real := by
  unfold toLeft
  rw [List.length_map, List.getElem?_map]
  cases vs[i % vs.length]? with
  | none => rfl
  | some c => simp only [Option.map_some]; split_ifs <;> rfl

private theorem toRight_real (vs : List (V3 ℚ)) (b m : ℕ) (bp mp : V3 ℚ) (i : ℕ) :
    toRight (vs.map V3.real) b m bp.real mp.real i = (toRight vs b m bp mp i).map V3.real := by
  unfold toRight
  rw [List.length_map, List.getElem?_map]
  cases vs[i % vs.length]? with
  | none => rfl
  | some c => simp only [Option.map_some]; split_ifs <;> rfl

theorem leftPoints_real (vs : List (V3 ℚ)) (b m : ℕ) (bp mp : V3 ℚ) :
    leftPoints (vs.map V3.real) b m bp.real mp.real = (leftPoints vs b m bp mp).map V3.real := by
  unfold leftPoints
  rw [List.length_map, List.map_flatMap]
  congr 1
  funext i
  exact toLeft_real vs b m bp mp i

theorem rightPoints_real (vs : List (V3 ℚ)) (b m : ℕ) (bp mp : V3 ℚ) :
    rightPoints (vs.map V3.real) b m bp.real mp.real = (rightPoints vs b m bp mp).map V3.real := by
  unfold rightPoints
  rw [List.length_map, List.map_flatMap]
  congr 1
  funext i
  exact toRight_real vs b m bp mp i

theorem closest_real (l : List (ℕ × V3 ℚ)) (last : V3 ℚ) : closest (l.map castC) last.real = (closest l last).map castC := by
  unfold closest
  have : ∀ best : Option (ℚ × ℕ × V3 ℚ),
      (l.map castC).foldl (fun (best : Option (ℝ × ℕ × V3 ℝ)) c =>
        let d := c.2.squaredDistance last.real
        if d > 1 / 10 ^ 9 ∧ (best.all fun b => d < b.1) then some (d, c) else best)
        (best.map fun b => ((b.1 : ℝ), castC b.2)) =
      (l.foldl (fun (best : Option (ℚ × ℕ × V3 ℚ)) c =>
        let d := c.2.squaredDistance last
        if d > 1 / 10 ^ 9 ∧ (best.all fun b => d < b.1) then some (d, c) else best) best).map fun b => ((b.1 : ℝ), castC b.2) := by
    induction l with
    | nil => intro best; rfl
    | cons d l ih =>
      intro best
      rw [List.map_cons, List.foldl_cons, List.foldl_cons, ← ih]
      congr 1
      dsimp only
      simp only [castC, V3.real_squaredDistance]
      have h1 : ((d.2.squaredDistance last : ℚ) : ℝ) > 1 / 10 ^ 9 ↔ d.2.squaredDistance last > 1 / 10 ^ 9 := by
        rw [gt_iff_lt, gt_iff_lt, show (1 / 10 ^ 9 : ℝ) = ((1 / 10 ^ 9 : ℚ) : ℝ) by push_cast; rfl, Rat.cast_lt]
      cases best with
      | none => simp only [Option.map_none, Option.all_none, h1]; split_ifs <;> rfl
      | some b =>
        simp only [Option.map_some, Option.all_some, h1, Rat.cast_lt]
        split_ifs <;> rfl
  have h := this none
  simp only [Option.map_none] at h
  rw [h, Option.map_map, Option.map_map]
  rfl

end Cut

namespace QLoop

theorem pushes_real (vs : List (V3 ℚ)) : ∀ (q q' : QLoop) (per : ℝ), q.pushes vs = some q' →
    (q.real per).pushEach (vs.map V3.real) = .ok (q'.real per) := by
  induction vs with
  | nil => intro q q' per h; simp only [pushes, Option.some.injEq] at h; subst h; rfl
  | cons v t ih =>
    intro q q' per h
    unfold pushes at h
    split at h
    · rename_i q1 h1
      simp only [List.map_cons, Loop.pushEach]
      rw [show (q.real per).push v.real = (q.real per).pushCollinear v.real true from rfl, pushCollinear_real _ _ _ _ _ _ h1]
      exact ih q1 q' per h
    · simp at h

theorem new_real : QLoop.new.real (-1) = Loop.new := by
  ext1 <;> simp [QLoop.real, QLoop.new, Loop.new, V3.real]
  ext <;> simp

def keep (q : QLoop) : Option (List QLoop) :=
  if q.vertices.length > 2 then
    match q.close with
    | (.ok (), q') => some [q']
    | _ => none
  else some []

theorem keep_rep {q : QLoop} {l : Loop} {qs : List QLoop} (hr : q.Rep l) (h : q.keep = some qs) :
    ∃ ls, l.keep = .ok ls ∧ List.Forall₂ QLoop.Rep qs ls := by
  unfold keep at h
  unfold Loop.keep
  have hl : l.vertices.length = q.vertices.length := by rw [hr.1, List.length_map]
  rw [hl]
  split_ifs at h ⊢
  · split at h
    · rename_i q' hq'
      simp only [Option.some.injEq] at h
      subst h
      have hc := close_real q l.perimeter
      rw [← eq_real hr, hq'] at hc
      rcases hcl : l.close with ⟨o, l'⟩
      rw [hcl] at hc
      obtain ⟨rfl, h2⟩ := hc
      exact ⟨[l'], rfl, .cons h2 .nil⟩
    · simp at h
  · simp only [Option.some.injEq] at h
    subst h
    exact ⟨[], rfl, .nil⟩

def containsSegment (q : QLoop) (s : Segment ℚ) : Bool := (around q.vertices).any fun e => (⟨e.1, e.2⟩ : Segment ℚ).compare s

/-- Segments in the plane of the loop only. -/
def split (q : QLoop) (seg : Segment ℚ) : Option (List QLoop) :=
  if !q.closed then none
  else
    match q.vertices with
    | [] => none
    | anchor :: _ =>
      if seg.start.distanceToPlane anchor q.normal ≠ 0 ∨ seg.fin.distanceToPlane anchor q.normal ≠ 0 then none
      else
      let len2 := seg.start.squaredDistance seg.fin
      if q.containsSegment seg ∨ len2 < 1 / 10 ^ 12 then some [q]
      else
        match Cut.branch (Cut.firstOfEdge (Cut.cuts (around q.vertices) seg len2)) with
        | none => some [q]
        | some ((b, bp), (m, mp)) =>
          match new.pushes (Cut.leftPoints q.vertices b m bp mp), new.pushes (Cut.rightPoints q.vertices b m bp mp) with
          | some left, some right =>
            match left.keep, right.keep with
            | some a, some b => some (a ++ b)
            | _, _ => none
          | _, _ => none

theorem containsSegment_rep {q : QLoop} {l : Loop} (hr : q.Rep l) (s : Segment ℚ) :
    l.containsSegment s.real = q.containsSegment s := by
  unfold Loop.containsSegment containsSegment
  rw [hr.1, around_real, List.any_map]
  congr 1
  funext e
  exact Segment.real_compare ⟨e.1, e.2⟩ s

theorem snapSegment_real (anchor normal : V3 ℚ) (s : Segment ℚ) (h1 : s.start.distanceToPlane anchor normal = 0)
    (h2 : s.fin.distanceToPlane anchor normal = 0) : Loop.snapSegment anchor.real normal.real s.real = s.real := by
  have key : ∀ p : V3 ℚ, p.distanceToPlane anchor normal = 0 → p.real.distanceToPlane anchor.real normal.real = 0 := by
    intro p hp
    unfold V3.distanceToPlane at hp ⊢
    rw [V3.real_sub, V3.real_dot, hp, Rat.cast_zero]
  have k1 := key _ h1
  have k2 := key _ h2
  unfold Loop.snapSegment
  split_ifs
  · unfold V3.projectIntoPlane
    rw [show s.real.start = s.start.real from rfl, show s.real.fin = s.fin.real from rfl, k1, k2]
    unfold Segment.real
    congr 1 <;> ext <;> simp
  · rfl

theorem split_rep {q : QLoop} {l : Loop} {seg : Segment ℚ} {qs : List QLoop} (hr : q.Rep l) (h : q.split seg = some qs) :
    ∃ ls, l.split seg.real = .ok ls ∧ List.Forall₂ QLoop.Rep qs ls := by
  unfold split at h
  unfold Loop.split
  rw [hr.2.2.1]
  by_cases hc : q.closed
  swap
  · simp [hc] at h
  rw [if_neg (by simp [hc])] at h ⊢
  rw [hr.1]
  have hedges : Loop.around (q.vertices.map V3.real) = (around q.vertices).map fun p => (p.1.real, p.2.real) := around_real _
  cases hv : q.vertices with
  | nil => rw [hv] at h; simp at h
  | cons anchor t =>
    rw [hv] at h hedges
    simp only [List.map_cons] at h hedges ⊢
    by_cases h1 : seg.start.distanceToPlane anchor q.normal ≠ 0 ∨ seg.fin.distanceToPlane anchor q.normal ≠ 0
    · rw [if_pos h1] at h; simp at h
    rw [if_neg h1] at h
    rw [not_or, not_not, not_not] at h1
    rw [hr.2.1, snapSegment_real _ _ _ h1.1 h1.2, containsSegment_rep hr,
      show seg.real.start.squaredDistance seg.real.fin = ((seg.start.squaredDistance seg.fin : ℚ) : ℝ) from
        V3.real_squaredDistance _ _, hedges, Cut.cuts_real, Cut.firstOfEdge_real, Cut.branch_real]
    have hsm : ((seg.start.squaredDistance seg.fin : ℚ) : ℝ) < 1 / 10 ^ 12 ↔ seg.start.squaredDistance seg.fin < 1 / 10 ^ 12 :=
      Cut.small_iff _ _
    by_cases h2 : q.containsSegment seg = true ∨ seg.start.squaredDistance seg.fin < 1 / 10 ^ 12
    · rw [if_pos h2] at h
      rw [if_pos (by rwa [hsm])]
      simp only [Option.some.injEq] at h
      subst h
      exact ⟨[l], rfl, .cons hr .nil⟩
    · rw [if_neg h2] at h
      rw [if_neg (by rwa [hsm])]
      cases hb : Cut.branch (Cut.firstOfEdge (Cut.cuts (around (anchor :: t)) seg (seg.start.squaredDistance seg.fin))) with
      | none =>
        rw [hb] at h
        simp only [Option.some.injEq] at h
        subst h
        exact ⟨[l], rfl, .cons hr .nil⟩
      | some r =>
        obtain ⟨⟨b, bp⟩, ⟨m, mp⟩⟩ := r
        rw [hb] at h
        simp only [Option.map_some, Cut.castC]
        have e1 := Cut.leftPoints_real (anchor :: t) b m bp mp
        have e2 := Cut.rightPoints_real (anchor :: t) b m bp mp
        simp only [List.map_cons] at e1 e2
        rw [e1, e2]
        dsimp only at h
        split at h
        · rename_i left right hl hrt
          split at h
          · rename_i a b' ha hb'
            simp only [Option.some.injEq] at h
            subst h
            have p1 := pushes_real _ _ _ (-1) hl
            have p2 := pushes_real _ _ _ (-1) hrt
            rw [new_real] at p1 p2
            obtain ⟨as, k1, f1⟩ := keep_rep (rep_real left (-1)) ha
            obtain ⟨bs, k2, f2⟩ := keep_rep (rep_real right (-1)) hb'
            refine ⟨as ++ bs, ?_, List.rel_append f1 f2⟩
            rw [p1, p2]
            simp only [Outcome.bind, k1, k2]
          · simp at h
        · simp at h

end QLoop

end Simple.Geometry
