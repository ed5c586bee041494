import Verif.Geometry.Exact
import Verif.Geometry.PolygonModel
import Verif.Geometry.LoopProps

/-! The evaluator of `Verif.Geometry.Exact` for polygons. -/

namespace Simple.Geometry

namespace QLoop

/-- Pushes the points and closes the loop; `none` if one of the calls fails or its result is not known. -/
def pushes (q : QLoop) : List (V3 ℚ) → Option QLoop
  | [] => some q
  | v :: t =>
    match q.pushCollinear v true with
    | some (.ok (), q') => pushes q' t
    | _ => none

def build (pts : List (V3 ℚ)) : Option QLoop :=
  match new.pushes pts with
  | none => none
  | some q =>
    match q.close with
    | (.ok (), q') => some q'
    | _ => none

theorem pushes_reachable (pts : List (V3 ℚ)) : ∀ (q q' : QLoop) (l : Loop), q.pushes pts = some q' → q.Rep l →
    Loop.Spec.Reachable l → ∃ l', Loop.Spec.Reachable l' ∧ q'.Rep l' := by
  induction pts with
  | nil =>
    intro q q' l h hr hl
    simp only [pushes, Option.some.injEq] at h
    exact ⟨l, hl, h ▸ hr⟩
  | cons v t ih =>
    intro q q' l h hr hl
    unfold pushes at h
    split at h
    · rename_i q1 h1
      have e := eq_real hr
      have := pushCollinear_real q l.perimeter v true _ _ h1
      rw [← e] at this
      refine ih q1 q' (l.pushCollinear v.real true).2 h ?_ ?_
      · rw [this]; exact rep_real _ _
      · exact Loop.Spec.Reachable.step l (.push v.real) hl (by simp)
    · simp at h

theorem build_reachable (pts : List (V3 ℚ)) (q : QLoop) (h : build pts = some q) :
    ∃ l, Loop.Spec.Reachable l ∧ q.Rep l := by
  unfold build at h
  split at h
  · simp at h
  · rename_i q1 h1
    split at h
    · rename_i q2 h2
      simp only [Option.some.injEq] at h
      subst h
      obtain ⟨l, hl, hr⟩ := pushes_reachable pts new q1 Loop.new h1 rep_new .new
      have e := eq_real hr
      have hc := close_real q1 l.perimeter
      rw [← e, h2] at hc
      exact ⟨l.close.2, Loop.Spec.Reachable.step l .close hl (fun _ => hc.1), hc.2⟩
    · simp at h

theorem testPoint_rep {q : QLoop} {l : Loop} (h : q.Rep l) (p : V3 ℚ) : l.testPoint p.real = q.testPoint p := by
  rw [eq_real h, testPoint_real]

end QLoop

/-- A polygon with rational vertices. -/
structure QPolygon where
  outer : QLoop
  inner : List QLoop
  area : ℚ
  normal : V3 ℚ
deriving DecidableEq, Repr

namespace QPolygon

/-- The polygon of the model that a rational one stands for. -/
def Rep (P : QPolygon) (p : Polygon) : Prop :=
  P.outer.Rep p.outer ∧ List.Forall₂ QLoop.Rep P.inner p.inner ∧ p.area = P.area ∧ p.normal = P.normal.real

def new (q : QLoop) : Option QPolygon := if q.closed then some ⟨q, [], q.area, q.normal⟩ else none

theorem new_rep {q : QLoop} {l : Loop} {P : QPolygon} (hr : q.Rep l) (h : new q = some P) :
    ∃ p, Polygon.new l = .ok p ∧ P.Rep p := by
  unfold new at h
  split_ifs at h with hc
  simp only [Option.some.injEq] at h
  subst h
  refine ⟨⟨l, [], l.area, l.normal⟩, ?_, hr, by simp, hr.2.2.2, hr.2.1⟩
  simp [Polygon.new, Loop.getArea, hr.2.2.1, hc, Outcome.bind]

def inSome (point : V3 ℚ) : List QLoop → Outcome Bool
  | [] => .ok false
  | l :: t => (l.testPoint point).bind fun isIn => if isIn then .ok true else inSome point t

theorem inSome_rep (point : V3 ℚ) {qs : List QLoop} {ls : List Loop} (h : List.Forall₂ QLoop.Rep qs ls) :
    Polygon.inSome point.real ls = inSome point qs := by
  induction h with
  | nil => rfl
  | cons h _ ih => simp only [Polygon.inSome, inSome, QLoop.testPoint_rep h, ih]

def testPoint (p : QPolygon) (point : V3 ℚ) : Outcome Bool :=
  (p.outer.testPoint point).bind fun isIn =>
    if !isIn then .ok false
    else (inSome point p.inner).bind fun b => if b then .ok false else .ok true

theorem testPoint_rep {P : QPolygon} {p : Polygon} (h : P.Rep p) (point : V3 ℚ) :
    p.testPoint point.real = P.testPoint point := by
  unfold Polygon.testPoint testPoint
  rw [QLoop.testPoint_rep h.1, inSome_rep point h.2.1]

def allInside (p : QPolygon) : List (V3 ℚ) → Outcome Unit
  | [] => .ok ()
  | v :: t => (p.testPoint v).bind fun b => if !b then .err else p.allInside t

theorem allInside_rep {P : QPolygon} {p : Polygon} (h : P.Rep p) (vs : List (V3 ℚ)) :
    p.allInside (vs.map V3.real) = P.allInside vs := by
  induction vs with
  | nil => rfl
  | cons v t ih => simp only [List.map_cons, Polygon.allInside, allInside, testPoint_rep h, ih]

def noneInside (hole : QLoop) : List (V3 ℚ) → Outcome Unit
  | [] => .ok ()
  | v :: t => (hole.testPoint v).bind fun b => if b then .err else noneInside hole t

theorem noneInside_rep {q : QLoop} {l : Loop} (h : q.Rep l) (vs : List (V3 ℚ)) :
    Polygon.noneInside l (vs.map V3.real) = noneInside q vs := by
  induction vs with
  | nil => rfl
  | cons v t ih => simp only [List.map_cons, Polygon.noneInside, noneInside, QLoop.testPoint_rep h, ih]

def noneContained (hole : QLoop) : List QLoop → Outcome Unit
  | [] => .ok ()
  | l :: t => (noneInside hole l.vertices).bind fun _ => noneContained hole t

theorem noneContained_rep {q : QLoop} {l : Loop} (h : q.Rep l) {qs : List QLoop} {ls : List Loop}
    (hs : List.Forall₂ QLoop.Rep qs ls) : Polygon.noneContained l ls = noneContained q qs := by
  induction hs with
  | nil => rfl
  | cons h1 _ ih => simp only [Polygon.noneContained, noneContained, h1.1, noneInside_rep h, ih]

def checkHole (p : QPolygon) (hole : QLoop) : Outcome Unit :=
  if !p.normal.isParallel hole.normal then .err
  else (p.allInside hole.vertices).bind fun _ => (noneContained hole p.inner).bind fun _ =>
    if !hole.closed then .err else .ok ()

/-- `none` if the hole is refused. -/
def cutHole (p : QPolygon) (hole : QLoop) : Option QPolygon :=
  match p.checkHole hole with
  | .ok () => some { p with area := p.area - hole.area, inner := p.inner ++ [hole] }
  | _ => none

theorem cutHole_rep {P P' : QPolygon} {p : Polygon} {q : QLoop} {l : Loop} (hp : P.Rep p) (hq : q.Rep l)
    (h : P.cutHole q = some P') : (p.cutHole l).1 = .ok () ∧ P'.Rep (p.cutHole l).2 := by
  have key : p.checkHole l = (P.checkHole q).map fun _ => (q.area : ℝ) := by
    unfold Polygon.checkHole checkHole
    rw [hp.2.2.2, hq.2.1, V3.real_isParallel, hq.1, allInside_rep hp, noneContained_rep hq hp.2.1]
    unfold Loop.getArea
    rw [hq.2.2.1, hq.2.2.2]
    split_ifs
    · rfl
    · cases P.allInside q.vertices with
      | err => rfl
      | panic => rfl
      | ok u =>
        simp only [Outcome.bind]
        cases noneContained q P.inner with
        | err => rfl
        | panic => rfl
        | ok u => rfl
    · cases P.allInside q.vertices with
      | err => rfl
      | panic => rfl
      | ok u =>
        simp only [Outcome.bind]
        cases noneContained q P.inner with
        | err => rfl
        | panic => rfl
        | ok u => rfl
  unfold cutHole at h
  split at h
  · rename_i h1
    simp only [Option.some.injEq] at h
    subst h
    rw [h1] at key
    simp only [Outcome.map] at key
    unfold Polygon.cutHole
    rw [key]
    refine ⟨rfl, hp.1, ?_, ?_, hp.2.2.2⟩
    · exact List.rel_append hp.2.1 (List.Forall₂.cons hq .nil)
    · simp [hp.2.2.1]
  · simp at h

/-- Adding points one by one; `none` if one is refused or the result is not known. -/
def pushAll (l : QLoop) : List (V3 ℚ) → Option QLoop
  | [] => some l
  | v :: t =>
    match l.pushCollinear v false with
    | some (.ok (), l') => pushAll l' t
    | _ => none

theorem pushAll_real (vs : List (V3 ℚ)) : ∀ (q q' : QLoop) (per : ℝ), pushAll q vs = some q' →
    Polygon.pushAll (q.real per) (vs.map V3.real) = .ok (q'.real per) := by
  induction vs with
  | nil => intro q q' per h; simp only [pushAll, Option.some.injEq] at h; subst h; rfl
  | cons v t ih =>
    intro q q' per h
    unfold pushAll at h
    split at h
    · rename_i q1 h1
      simp only [List.map_cons, Polygon.pushAll]
      rw [QLoop.pushCollinear_real _ _ _ _ _ _ h1]
      exact ih q1 q' per h
    · simp at h

theorem candidates_real (ext : List (V3 ℚ)) (inner : List (List (V3 ℚ))) (processed : List ℕ) :
    Polygon.candidates (ext.map V3.real) (inner.map (List.map V3.real)) processed =
      (Polygon.candidates ext inner processed).map fun c => ((c.1 : ℝ), c.2) := by
  unfold Polygon.candidates
  simp only [List.zipIdx_map, List.flatMap_map, List.map_flatMap, List.map_map, List.filter_map]
  congr 1
  funext e
  simp only [Function.comp_def, List.flatMap_map, List.zipIdx_map, List.map_map, Prod.map, id, V3.real_squaredDistance]

private def castN (s : Polygon.Nearest ℚ) : Polygon.Nearest ℝ := ⟨Option.map (fun q : ℚ => (q : ℝ)) s.dist, s.ext, s.hole, s.lastHole, s.vertex⟩

private theorem visit_real (cs : List (ℚ × ℕ × ℕ × ℕ)) : ∀ s : Polygon.Nearest ℚ,
    (cs.map fun c => ((c.1 : ℝ), c.2)).foldl Polygon.Nearest.visit (castN s) = castN (cs.foldl Polygon.Nearest.visit s) := by
  induction cs with
  | nil => intro s; rfl
  | cons c t ih =>
    intro s
    simp only [List.map_cons, List.foldl_cons]
    rw [← ih]
    congr 1
    unfold Polygon.Nearest.visit castN
    cases hd : s.dist with
    | none => simp
    | some m =>
      simp only [Option.map_some, Rat.cast_lt]
      split_ifs
      · rfl
      · simp [hd]

def joinAll (p : QPolygon) : (k : ℕ) → (ret : QLoop) → (processed : List ℕ) → (lastHole vertex : ℕ) → Option QLoop
  | 0, ret, _, _, _ => some ret
  | k + 1, ret, processed, lastHole, vertex =>
    let s := (Polygon.candidates ret.vertices (p.inner.map QLoop.vertices) processed).foldl Polygon.Nearest.visit
      ⟨none, 0, 0, lastHole, vertex⟩
    match p.inner[s.hole]? with
    | none => none
    | some hole =>
      match Polygon.walk (p.outer.normal.isSameDirection hole.normal) s.vertex hole.vertices with
      | .ok w =>
        match pushAll QLoop.new (Polygon.joined ret.vertices s.ext w) with
        | none => none
        | some aux => joinAll p k aux (processed ++ [s.lastHole]) s.lastHole s.vertex
      | _ => none

/-- `none` if the code panics or the result is not known. -/
def getClosedLoop (p : QPolygon) : Option QLoop := p.joinAll p.inner.length { p.outer with closed := false } [] 0 0

private theorem walk_map (same : Bool) (id : ℕ) (l : List (V3 ℚ)) :
    Polygon.walk same id (l.map V3.real) = (Polygon.walk same id l).map (List.map V3.real) := by
  unfold Polygon.walk
  rw [List.length_map]
  split_ifs
  · rfl
  · generalize List.range (l.length + 1) = js
    induction js with
    | nil => rfl
    | cons j js ih =>
      simp only [List.foldr_cons]
      rw [ih, QLoop.index_map]
      cases Outcome.index l (Polygon.bridgeIndex same id j l.length) with
      | err => rfl
      | panic => rfl
      | ok v =>
        simp only [Outcome.map, Outcome.bind]
        generalize List.foldr _ _ js = o
        cases o <;> rfl

private theorem joined_map (ext : List (V3 ℚ)) (i : ℕ) (w : List (V3 ℚ)) :
    Polygon.joined (ext.map V3.real) i (w.map V3.real) = (Polygon.joined ext i w).map V3.real := by
  unfold Polygon.joined
  simp only [List.zipIdx_map, List.flatMap_map, List.map_flatMap, Prod.map, id]
  congr 1
  funext e
  split_ifs <;> simp

theorem joinAll_rep {P : QPolygon} {p : Polygon} (hp : P.Rep p) (k : ℕ) : ∀ (ret : QLoop) (l : Loop) (processed : List ℕ)
    (a b : ℕ) (q : QLoop), ret.Rep l → P.joinAll k ret processed a b = some q →
    ∃ r, p.joinAll k l processed a b = .ok r ∧ q.Rep r := by
  have hinner : p.inner.map Loop.vertices = (P.inner.map QLoop.vertices).map (List.map V3.real) := by
    have := hp.2.1
    generalize p.inner = ls at this
    generalize P.inner = qs at this
    induction this with
    | nil => rfl
    | cons h _ ih => simp only [List.map_cons, h.1, ih]
  induction k with
  | zero =>
    intro ret l processed a b q hr h
    simp only [joinAll, Option.some.injEq] at h
    exact ⟨l, rfl, h ▸ hr⟩
  | succ k ih =>
    intro ret l processed a b q hr h
    simp only [joinAll] at h
    simp only [Polygon.joinAll]
    have hs : (Polygon.candidates l.vertices (p.inner.map Loop.vertices) processed).foldl Polygon.Nearest.visit
          ⟨none, 0, 0, a, b⟩ =
        castN ((Polygon.candidates ret.vertices (P.inner.map QLoop.vertices) processed).foldl Polygon.Nearest.visit
          ⟨none, 0, 0, a, b⟩) := by
      rw [hinner, hr.1, candidates_real, ← visit_real]
      rfl
    rw [hs]
    generalize (Polygon.candidates ret.vertices (P.inner.map QLoop.vertices) processed).foldl Polygon.Nearest.visit
      ⟨none, 0, 0, a, b⟩ = s at h
    simp only [castN]
    split at h
    · simp at h
    · rename_i hole hh
      have hidx : ∃ hl, Outcome.index p.inner s.hole = .ok hl ∧ hole.Rep hl := by
        have h2 := hp.2.1
        rw [List.forall₂_iff_get] at h2
        obtain ⟨hlt, he⟩ := List.getElem?_eq_some_iff.1 hh
        have hlt' : s.hole < p.inner.length := h2.1 ▸ hlt
        refine ⟨p.inner[s.hole], ?_, ?_⟩
        · unfold Outcome.index; rw [List.getElem?_eq_getElem hlt']
        · have := h2.2 s.hole hlt hlt'
          simp only [List.get_eq_getElem] at this
          rwa [he] at this
      obtain ⟨hl, h1, h2⟩ := hidx
      rw [h1]
      simp only [Outcome.bind]
      rw [hp.1.2.1, h2.2.1, V3.real_isSameDirection, h2.1, walk_map]
      split at h
      · rename_i w hw
        rw [hw]
        simp only [Outcome.map]
        rw [hr.1, joined_map]
        split at h
        · simp at h
        · rename_i aux haux
          have h3 := pushAll_real _ _ _ (-1) haux
          have h4 : QLoop.new.real (-1) = Loop.new := by
            ext1 <;> simp [QLoop.real, QLoop.new, Loop.new, V3.real]
            ext <;> simp
          rw [h4] at h3
          rw [h3]
          exact ih aux _ _ _ _ q (QLoop.rep_real _ _) h
      · simp at h

theorem getClosedLoop_rep {P : QPolygon} {p : Polygon} {q : QLoop} (hp : P.Rep p) (h : P.getClosedLoop = some q) :
    ∃ r, p.getClosedLoop = .ok r ∧ q.Rep r := by
  have hl : P.inner.length = p.inner.length := hp.2.1.length_eq
  unfold getClosedLoop at h
  rw [hl] at h
  refine joinAll_rep hp _ _ _ _ _ _ _ ?_ h
  exact ⟨hp.1.1, hp.1.2.1, rfl, hp.1.2.2.2⟩

end QPolygon

end Simple.Geometry
