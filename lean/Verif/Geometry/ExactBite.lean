import Verif.Geometry.ExactSplit

/-! The evaluator of `Verif.Geometry.Exact` for the intersection of loops and for biting them. -/

namespace Simple.Geometry

namespace QLoop

def pushOne (r : QLoop) (p : V3 ℚ) : Option QLoop :=
  match r.pushCollinear p true with
  | some (.ok (), r') => some r'
  | _ => none

theorem pushOne_real (r r' : QLoop) (per : ℝ) (p : V3 ℚ) (h : r.pushOne p = some r') :
    (r.real per).pushOne p.real = .ok (r'.real per) := by
  unfold pushOne at h
  split at h
  · rename_i r1 h1
    simp only [Option.some.injEq] at h
    subst h
    unfold Loop.pushOne
    rw [show (r.real per).push p.real = (r.real per).pushCollinear p.real true from rfl, pushCollinear_real _ _ _ _ _ _ h1]
  · simp at h

def firstIn (q : QLoop) : ℕ → List (V3 ℚ) → Outcome (Option (ℕ × V3 ℚ))
  | _, [] => .ok none
  | i, v :: t => (q.testPoint v).bind fun b => if b then .ok (some (i, v)) else firstIn q (i + 1) t

theorem firstIn_real (q : QLoop) (per : ℝ) (vs : List (V3 ℚ)) : ∀ i, (q.real per).firstIn i (vs.map V3.real) =
    (q.firstIn i vs).map fun r => r.map Cut.castC := by
  induction vs with
  | nil => intro i; rfl
  | cons v t ih =>
    intro i
    simp only [List.map_cons, Loop.firstIn, firstIn, testPoint_real]
    cases q.testPoint v with
    | err => rfl
    | panic => rfl
    | ok b =>
      cases b with
      | false => exact ih _
      | true => rfl

def firstOut (q : QLoop) : ℕ → List (V3 ℚ) → Outcome (Option (ℕ × V3 ℚ))
  | _, [] => .ok none
  | i, v :: t => (q.testPoint v).bind fun b => if b then firstOut q (i + 1) t else .ok (some (i, v))

theorem firstOut_real (q : QLoop) (per : ℝ) (vs : List (V3 ℚ)) : ∀ i, (q.real per).firstOut i (vs.map V3.real) =
    (q.firstOut i vs).map fun r => r.map Cut.castC := by
  induction vs with
  | nil => intro i; rfl
  | cons v t ih =>
    intro i
    simp only [List.map_cons, Loop.firstOut, firstOut, testPoint_real]
    cases q.testPoint v with
    | err => rfl
    | panic => rfl
    | ok b =>
      cases b with
      | false => rfl
      | true => exact ih _

def inBoth (l o : QLoop) (p : V3 ℚ) : Outcome Bool := (l.testPoint p).bind fun a => if a then o.testPoint p else .ok false

theorem inBoth_real (l o : QLoop) (per per' : ℝ) (p : V3 ℚ) :
    Loop.inBoth (l.real per) (o.real per') p.real = inBoth l o p := by
  unfold Loop.inBoth inBoth
  rw [testPoint_real, testPoint_real]

/-- `none` if the result is not known. -/
def meetWalk (l o : QLoop) : ℕ → QLoop → Bool → ℕ → Option (Option QLoop)
  | 0, _, _, _ => some none
  | k + 1, r, onSelf, index =>
    let m := if onSelf then (l.vertices, o.vertices) else (o.vertices, l.vertices)
    match m.1[index % m.1.length]?, r.vertices[0]?, r.vertices[r.vertices.length - 1]? with
    | some candidate, some first, some last =>
      if r.vertices.length > 2 ∧ (first.compare candidate ∨ first.compare last) then some (some r)
      else
        let found := Cut.cuts (around m.2) ⟨last, candidate⟩ (last.squaredDistance candidate)
        if found = [] then
          match inBoth l o candidate with
          | .ok true =>
            match r.pushOne candidate with
            | some r' => meetWalk l o k r' onSelf ((index + 1) % m.1.length)
            | none => none
          | .ok false => some none
          | _ => none
        else
          match Cut.closest found last with
          | some (j, p) =>
            match r.pushOne p with
            | some r' => meetWalk l o k r' (!onSelf) ((j + 1) % m.2.length)
            | none => none
          | none => none
    | _, _, _ => none

theorem meetWalk_real (l o : QLoop) (per per' : ℝ) (k : ℕ) : ∀ (r : QLoop) (onSelf : Bool) (index : ℕ) (a : Option QLoop) (pr : ℝ),
    meetWalk l o k r onSelf index = some a →
    Loop.meetWalk (l.real per) (o.real per') k (r.real pr) onSelf index = .ok (a.map fun q => q.real pr) := by
  induction k with
  | zero =>
    intro r onSelf index a pr h
    simp only [meetWalk, Option.some.injEq] at h
    subst h
    rfl
  | succ k ih =>
    intro r onSelf index a pr h
    unfold meetWalk at h
    unfold Loop.meetWalk
    have hm : (if onSelf then ((l.real per).vertices, (o.real per').vertices) else ((o.real per').vertices, (l.real per).vertices)) =
        ((if onSelf then (l.vertices, o.vertices) else (o.vertices, l.vertices)).1.map V3.real,
          (if onSelf then (l.vertices, o.vertices) else (o.vertices, l.vertices)).2.map V3.real) := by
      cases onSelf <;> rfl
    rw [hm]
    generalize (if onSelf then (l.vertices, o.vertices) else (o.vertices, l.vertices)) = m at h
    dsimp only at h ⊢
    split at h
    · rename_i candidate first last h1 h2 h3
      have i1 : Outcome.index (m.1.map V3.real) (index % (m.1.map V3.real).length) = .ok candidate.real := by
        unfold Outcome.index; rw [List.length_map, List.getElem?_map, h1]; rfl
      have hv : (r.real pr).vertices = r.vertices.map V3.real := rfl
      have i2 : Outcome.index (r.real pr).vertices 0 = .ok first.real := by
        unfold Outcome.index; rw [hv, List.getElem?_map, h2]; rfl
      have i3 : Outcome.index (r.real pr).vertices ((r.real pr).vertices.length - 1) = .ok last.real := by
        unfold Outcome.index; rw [hv, List.length_map, List.getElem?_map, h3]; rfl
      rw [i1]
      simp only [Outcome.bind]
      rw [i2]
      dsimp only
      rw [i3]
      dsimp only
      have hlen : (r.real pr).vertices.length = r.vertices.length := by rw [hv, List.length_map]
      rw [hlen, V3.real_compare, V3.real_compare]
      have hcuts : Cut.cuts (Loop.around (m.2.map V3.real)) ⟨last.real, candidate.real⟩ (last.real.squaredDistance candidate.real) =
          (Cut.cuts (around m.2) ⟨last, candidate⟩ (last.squaredDistance candidate)).map Cut.castC := by
        rw [around_real, V3.real_squaredDistance, ← Cut.cuts_real]
        rfl
      rw [hcuts, Cut.closest_real, inBoth_real, List.length_map, List.length_map]
      by_cases c1 : r.vertices.length > 2 ∧ (first.compare candidate = true ∨ first.compare last = true)
      · rw [if_pos c1] at h ⊢
        simp only [Option.some.injEq] at h
        subst h
        rfl
      · rw [if_neg c1] at h ⊢
        by_cases c2 : Cut.cuts (around m.2) ⟨last, candidate⟩ (last.squaredDistance candidate) = []
        · rw [if_pos c2] at h
          rw [if_pos (by rw [c2]; rfl)]
          split at h
          · rename_i hb
            rw [hb]
            dsimp only
            rw [if_pos rfl]
            split at h
            · rename_i r' hr'
              rw [pushOne_real _ _ pr _ hr']
              exact ih _ _ _ _ _ h
            · simp at h
          · rename_i hb
            rw [hb]
            simp only [Option.some.injEq] at h
            subst h
            rfl
          · simp at h
        · rw [if_neg c2] at h
          rw [if_neg (by simpa using c2)]
          split at h
          · rename_i j p hc
            rw [hc]
            simp only [Option.map_some, Cut.castC]
            split at h
            · rename_i r' hr'
              rw [pushOne_real _ _ pr _ hr']
              exact ih _ _ _ _ _ h
            · simp at h
          · simp at h
    · simp at h

def finishMeet (r : QLoop) : Option (Option QLoop) :=
  if r.closed then none
  else
    match new.pushes r.vertices with
    | some r' =>
      if r'.vertices.length < 3 then some none
      else
        match r'.close with
        | (.ok (), c) => some (some c)
        | _ => none
    | none => none

/-- What the rational result stands for. -/
def RepO (a : Option QLoop) (b : Option Loop) : Prop :=
  match a, b with
  | none, none => True
  | some q, some l => q.Rep l
  | _, _ => False

private theorem sanitize_pushEach (vs : List (V3 ℝ)) : ∀ r : Loop, Loop.sanitize.pushAll r vs = r.pushEach vs := by
  induction vs with
  | nil => intro r; rfl
  | cons v vs ih =>
    intro r
    unfold Loop.sanitize.pushAll Loop.pushEach
    rcases r.push v with ⟨o, r'⟩
    cases o <;> simp [ih]

theorem finishMeet_rep (r : QLoop) (per : ℝ) (a : Option QLoop) (h : r.finishMeet = some a) :
    ∃ b, (r.real per).finishMeet = .ok b ∧ RepO a b := by
  unfold finishMeet at h
  split_ifs at h with hc
  split at h
  · rename_i r' hr'
    have hp := pushes_real _ _ _ (-1) hr'
    rw [new_real] at hp
    have hs : (r.real per).sanitize = .ok (r'.real (-1)) := by
      unfold Loop.sanitize
      rw [sanitize_pushEach, show (r.real per).vertices = r.vertices.map V3.real from rfl, hp]
      simp only [Outcome.bind]
      rw [if_neg (by simp [show (r.real per).closed = r.closed from rfl, hc])]
    unfold Loop.finishMeet
    rw [hs]
    simp only [Outcome.bind]
    have hl : (r'.real (-1)).vertices.length = r'.vertices.length := List.length_map ..
    rw [hl]
    split_ifs at h ⊢
    · simp only [Option.some.injEq] at h
      subst h
      exact ⟨none, rfl, trivial⟩
    · split at h
      · rename_i c hcl
        simp only [Option.some.injEq] at h
        subst h
        have := close_real r' (-1)
        rw [hcl] at this
        rcases hx : (r'.real (-1)).close with ⟨o, c'⟩
        rw [hx] at this
        obtain ⟨rfl, h2⟩ := this
        exact ⟨some c', rfl, h2⟩
      · simp at h
  · simp at h

def reverse (q : QLoop) : QLoop := { q with normal := q.normal.scale (-1), vertices := q.vertices.reverse }

theorem reverse_rep {q : QLoop} {l : Loop} (h : q.Rep l) : q.reverse.Rep l.reverse := by
  refine ⟨?_, ?_, h.2.2.1, h.2.2.2⟩
  · simp [Loop.reverse, reverse, h.1]
  · simp only [Loop.reverse, reverse]
    rw [h.2.1, ← V3.real_scale]
    norm_num

def along (l o : QLoop) : QLoop := if o.normal.isSameDirection l.normal then o else o.reverse

def against (l o : QLoop) : QLoop := if o.normal.isSameDirection l.normal then o.reverse else o

theorem along_rep {q o : QLoop} {l l' : Loop} (h : q.Rep l) (h' : o.Rep l') : (q.along o).Rep (l.along l') := by
  unfold along Loop.along
  rw [h.2.1, h'.2.1, V3.real_isSameDirection]
  split_ifs
  · exact h'
  · exact reverse_rep h'

theorem against_rep {q o : QLoop} {l l' : Loop} (h : q.Rep l) (h' : o.Rep l') : (q.against o).Rep (l.against l') := by
  unfold against Loop.against
  rw [h.2.1, h'.2.1, V3.real_isSameDirection]
  split_ifs
  · exact reverse_rep h'
  · exact h'

def meetStart (l o : QLoop) : Outcome (Option (Bool × ℕ × V3 ℚ)) :=
  (o.firstIn 0 l.vertices).bind fun
    | some c => .ok (some (true, c))
    | none => (l.firstIn 0 o.vertices).map fun r => r.map fun c => (false, c)

theorem meetStart_rep {q o : QLoop} {l l' : Loop} (h : q.Rep l) (h' : o.Rep l') :
    l.meetStart l' = (q.meetStart o).map fun r => r.map fun c => (c.1, Cut.castC c.2) := by
  unfold Loop.meetStart meetStart
  rw [h.1, h'.1, eq_real h, eq_real h', firstIn_real, firstIn_real]
  cases o.firstIn 0 q.vertices with
  | err => rfl
  | panic => rfl
  | ok r =>
    cases r with
    | some c => rfl
    | none =>
      simp only [Outcome.map, Outcome.bind, Option.map_none]
      cases q.firstIn 0 o.vertices with
      | err => rfl
      | panic => rfl
      | ok r =>
        cases r with
        | some c => rfl
        | none => rfl

/-- Loops in a plane with the normal of the first up or down only. -/
def intersection (l other : QLoop) : Option (Option QLoop) :=
  if !l.closed || !other.closed then none
  else if |l.normal.dot other.normal| < 999 / 1000 then some none
  else
    match other.vertices[0]? with
    | none => none
    | some v =>
      match l.isCoplanar v with
      | .ok false => some none
      | .ok true =>
        match l.meetStart (l.along other) with
        | .ok none => some none
        | .ok (some (onSelf, i, v)) =>
          match new.pushOne v with
          | none => none
          | some r =>
            match meetWalk l (l.along other) 99 r onSelf (i + 1) with
            | none => none
            | some none => some none
            | some (some r) => finishMeet r
        | _ => none
      | _ => none

theorem intersection_rep {q o : QLoop} {l l' : Loop} {a : Option QLoop} (h : q.Rep l) (h' : o.Rep l')
    (hi : q.intersection o = some a) : ∃ b, l.intersection l' = .ok b ∧ RepO a b := by
  unfold intersection at hi
  unfold Loop.intersection
  rw [h.2.2.1, h'.2.2.1, h.2.1, h'.2.1, V3.real_dot]
  by_cases c1 : (!q.closed || !o.closed) = true
  · rw [if_pos c1] at hi; simp at hi
  rw [if_neg c1] at hi ⊢
  have hd : |((q.normal.dot o.normal : ℚ) : ℝ)| < 999 / 1000 ↔ |q.normal.dot o.normal| < 999 / 1000 := by
    rw [← Rat.cast_abs, show (999 / 1000 : ℝ) = ((999 / 1000 : ℚ) : ℝ) by norm_num, Rat.cast_lt]
  by_cases c2 : |q.normal.dot o.normal| < 999 / 1000
  · rw [if_pos c2] at hi
    rw [if_pos (hd.2 c2)]
    simp only [Option.some.injEq] at hi
    subst hi
    exact ⟨none, rfl, trivial⟩
  rw [if_neg c2] at hi
  rw [if_neg (fun x => c2 (hd.1 x))]
  split at hi
  · simp at hi
  · rename_i v hv
    have i1 : Outcome.index l'.vertices 0 = .ok v.real := by
      unfold Outcome.index; rw [h'.1, List.getElem?_map, hv]; rfl
    rw [i1]
    simp only [Outcome.bind]
    have i2 : l.isCoplanar v.real = q.isCoplanar v := by rw [eq_real h, isCoplanar_real]
    rw [i2]
    split at hi
    · rename_i hc
      rw [hc]
      simp only [Option.some.injEq] at hi
      subst hi
      exact ⟨none, rfl, trivial⟩
    · rename_i hc
      rw [hc]
      dsimp only
      rw [if_neg (by simp), meetStart_rep h (along_rep h h')]
      split at hi
      · rename_i hs
        rw [hs]
        simp only [Option.some.injEq] at hi
        subst hi
        exact ⟨none, rfl, trivial⟩
      · rename_i onSelf i v hs
        rw [hs]
        simp only [Outcome.map, Option.map_some, Cut.castC]
        split at hi
        · simp at hi
        · rename_i r hr
          have hp := pushOne_real _ _ (-1) _ hr
          rw [new_real] at hp
          rw [hp]
          dsimp only
          have e1 : l.meetWalk (l.along l') = (q.real l.perimeter).meetWalk ((q.along o).real (l.along l').perimeter) := by
            rw [← eq_real (along_rep h h'), ← eq_real h]
          split at hi
          · simp at hi
          · rename_i hw
            rw [e1, meetWalk_real _ _ _ _ _ _ _ _ _ _ hw]
            simp only [Option.some.injEq] at hi
            subst hi
            exact ⟨none, rfl, trivial⟩
          · rename_i r' hw
            rw [e1, meetWalk_real _ _ _ _ _ _ _ _ _ _ hw]
            exact finishMeet_rep r' (-1) a hi
      · simp at hi
    · simp at hi

/-- The direction of a vector along one of the first two axes. -/
def unitXY (v : V3 ℚ) : Option (V3 ℚ) :=
  if v.z ≠ 0 then none
  else if v.y = 0 ∧ 1 / 2 < v.x then some ⟨1, 0, 0⟩
  else if v.y = 0 ∧ v.x < -(1 / 2) then some ⟨-1, 0, 0⟩
  else if v.x = 0 ∧ 1 / 2 < v.y then some ⟨0, 1, 0⟩
  else if v.x = 0 ∧ v.y < -(1 / 2) then some ⟨0, -1, 0⟩
  else none

theorem unitXY_real (v n : V3 ℚ) (h : unitXY v = some n) : v.real.normalize = .ok n.real := by
  have key : ∀ (w : V3 ℝ) (s : ℝ), 1 / 2 < s → w.lengthSquared = s ^ 2 → w.normalize = .ok (w.scale (1 / s)) := by
    intro w s hs hw
    unfold V3.normalize
    rw [hw, Real.sqrt_sq (by linarith), if_pos]
    have : (1 / 4 : ℝ) < s ^ 2 := by nlinarith
    exact lt_trans (by norm_num) this
  obtain ⟨x, y, z⟩ := v
  unfold unitXY at h
  dsimp only at h
  split_ifs at h with h0 h1 h2 h3 h4
  all_goals
    simp only [Option.some.injEq] at h
    subst h
    rw [not_not] at h0
    subst h0
  · obtain ⟨rfl, hp⟩ := h1
    have h5 : (1 / 2 : ℝ) < x := by have := (Rat.cast_lt (K := ℝ)).2 hp; push_cast at this; exact this
    rw [key _ (x : ℝ) h5 (by simp [V3.lengthSquared, V3.real]; ring)]
    congr 1
    ext <;> simp [V3.real]
    rw [mul_inv_cancel₀ (by linarith)]
  · obtain ⟨rfl, hp⟩ := h2
    have h5 : (x : ℝ) < -(1 / 2) := by have := (Rat.cast_lt (K := ℝ)).2 hp; push_cast at this; exact this
    rw [key _ (-x : ℝ) (by linarith) (by simp [V3.lengthSquared, V3.real]; ring)]
    congr 1
    ext <;> simp [V3.real]
    rw [mul_inv_cancel₀ (by linarith)]
  · obtain ⟨rfl, hp⟩ := h3
    have h5 : (1 / 2 : ℝ) < y := by have := (Rat.cast_lt (K := ℝ)).2 hp; push_cast at this; exact this
    rw [key _ (y : ℝ) h5 (by simp [V3.lengthSquared, V3.real]; ring)]
    congr 1
    ext <;> simp [V3.real]
    rw [mul_inv_cancel₀ (by linarith)]
  · obtain ⟨rfl, hp⟩ := h4
    have h5 : (y : ℝ) < -(1 / 2) := by have := (Rat.cast_lt (K := ℝ)).2 hp; push_cast at this; exact this
    rw [key _ (-y : ℝ) (by linarith) (by simp [V3.lengthSquared, V3.real]; ring)]
    congr 1
    ext <;> simp [V3.real]
    rw [mul_inv_cancel₀ (by linarith)]

/-- `none` if the result is not known. -/
def biteWalk (l o : QLoop) (start : V3 ℚ) : ℕ → QLoop → Bool → ℕ → Option (Option QLoop)
  | 0, _, _, _ => some none
  | k + 1, r, onSelf, index =>
    let m := if onSelf then (l.vertices, o.vertices) else (o.vertices, l.vertices)
    match m.1[index % m.1.length]?, r.vertices[r.vertices.length - 1]? with
    | some candidate, some last =>
      if r.vertices.length > 1 ∧ candidate.compare start then some (some r)
      else if last.compare candidate then biteWalk l o start k r onSelf ((index + 1) % m.1.length)
      else
        match unitXY (candidate - last) with
        | none => none
        | some dir =>
          let fin := candidate + dir.scale (1 / 1000)
          let found := Cut.cuts (around m.2) ⟨last, fin⟩ (last.squaredDistance fin)
          if found = [] then
            match r.pushOne candidate with
            | some r' => biteWalk l o start k r' onSelf ((index + 1) % m.1.length)
            | none => none
          else
            match Cut.closest found last with
            | some (j, p) =>
              match r.pushOne p with
              | some r' => biteWalk l o start k r' (!onSelf) ((j + 1) % m.2.length)
              | none => none
            | none =>
              match r.pushOne candidate with
              | some r' => biteWalk l o start k r' onSelf index
              | none => none
    | _, _ => none

theorem biteWalk_real (l o : QLoop) (per per' : ℝ) (start : V3 ℚ) (k : ℕ) :
    ∀ (r : QLoop) (onSelf : Bool) (index : ℕ) (a : Option QLoop) (pr : ℝ), biteWalk l o start k r onSelf index = some a →
    Loop.biteWalk (l.real per) (o.real per') start.real k (r.real pr) onSelf index = .ok (a.map fun q => q.real pr) := by
  induction k with
  | zero =>
    intro r onSelf index a pr h
    simp only [biteWalk, Option.some.injEq] at h
    subst h
    rfl
  | succ k ih =>
    intro r onSelf index a pr h
    unfold biteWalk at h
    unfold Loop.biteWalk
    have hm : (if onSelf then ((l.real per).vertices, (o.real per').vertices) else ((o.real per').vertices, (l.real per).vertices)) =
        ((if onSelf then (l.vertices, o.vertices) else (o.vertices, l.vertices)).1.map V3.real,
          (if onSelf then (l.vertices, o.vertices) else (o.vertices, l.vertices)).2.map V3.real) := by
      cases onSelf <;> rfl
    rw [hm]
    generalize (if onSelf then (l.vertices, o.vertices) else (o.vertices, l.vertices)) = m at h
    dsimp only at h ⊢
    split at h
    · rename_i candidate last h1 h3
      have i1 : Outcome.index (m.1.map V3.real) (index % (m.1.map V3.real).length) = .ok candidate.real := by
        unfold Outcome.index; rw [List.length_map, List.getElem?_map, h1]; rfl
      have hv : (r.real pr).vertices = r.vertices.map V3.real := rfl
      have i3 : Outcome.index (r.real pr).vertices ((r.real pr).vertices.length - 1) = .ok last.real := by
        unfold Outcome.index; rw [hv, List.length_map, List.getElem?_map, h3]; rfl
      rw [i1]
      simp only [Outcome.bind]
      have hlen : (r.real pr).vertices.length = r.vertices.length := by rw [hv, List.length_map]
      rw [i3, hlen, V3.real_compare]
      by_cases c1 : r.vertices.length > 1 ∧ candidate.compare start = true
      · rw [if_pos c1] at h ⊢
        simp only [Option.some.injEq] at h
        subst h
        rfl
      · rw [if_neg c1] at h ⊢
        dsimp only
        rw [V3.real_compare, List.length_map, List.length_map]
        by_cases c2 : last.compare candidate = true
        · rw [if_pos c2] at h ⊢
          exact ih _ _ _ _ _ h
        · rw [if_neg c2] at h ⊢
          split at h
          · simp at h
          · rename_i dir hd
            have hn : (candidate.real - last.real).normalize = .ok dir.real := by
              rw [V3.real_sub]; exact unitXY_real _ _ hd
            rw [hn]
            dsimp only
            have hf : candidate.real + dir.real.scale (1 / 1000) = (candidate + dir.scale (1 / 1000)).real := by
              rw [← V3.real_add, ← V3.real_scale]; norm_num
            rw [hf]
            generalize candidate + dir.scale (1 / 1000) = fin at h ⊢
            have hcuts : Cut.cuts (Loop.around (m.2.map V3.real)) ⟨last.real, fin.real⟩ (last.real.squaredDistance fin.real) =
                (Cut.cuts (around m.2) ⟨last, fin⟩ (last.squaredDistance fin)).map Cut.castC := by
              rw [around_real, V3.real_squaredDistance, ← Cut.cuts_real]
              rfl
            rw [hcuts, Cut.closest_real]
            by_cases c3 : Cut.cuts (around m.2) ⟨last, fin⟩ (last.squaredDistance fin) = []
            · rw [if_pos c3] at h
              rw [if_pos (by rw [c3]; rfl)]
              split at h
              · rename_i r' hr'
                rw [pushOne_real _ _ pr _ hr']
                exact ih _ _ _ _ _ h
              · simp at h
            · rw [if_neg c3] at h
              rw [if_neg (by simpa using c3)]
              split at h
              · rename_i j p hc
                rw [hc]
                simp only [Option.map_some, Cut.castC]
                split at h
                · rename_i r' hr'
                  rw [pushOne_real _ _ pr _ hr']
                  exact ih _ _ _ _ _ h
                · simp at h
              · rename_i hc
                rw [hc]
                simp only [Option.map_none]
                split at h
                · rename_i r' hr'
                  rw [pushOne_real _ _ pr _ hr']
                  exact ih _ _ _ _ _ h
                · simp at h
    · simp at h

/-- Loops in a plane with the normal of the first up or down only. -/
def bite (l chewer : QLoop) : Option QLoop :=
  if !l.closed || !chewer.closed then none
  else if |l.normal.dot chewer.normal| < 999 / 1000 then none
  else
    match chewer.vertices[0]? with
    | none => none
    | some v =>
      match l.isCoplanar v with
      | .ok true =>
        match l.intersection chewer with
        | none => none
        | some none => some l
        | some (some c) =>
          match (l.against c).firstOut 0 l.vertices with
          | .ok none => some l
          | .ok (some (i, v)) =>
            match new.pushOne v with
            | none => none
            | some r =>
              match biteWalk l (l.against c) v 99 r true (i + 1) with
              | none => none
              | some none => some l
              | some (some r) =>
                match r.close with
                | (.ok (), c) => some c
                | _ => none
          | _ => none
      | _ => none

theorem bite_rep {q o a : QLoop} {l l' : Loop} (h : q.Rep l) (h' : o.Rep l') (hi : q.bite o = some a) :
    ∃ b, l.bite l' = .ok b ∧ a.Rep b := by
  unfold bite at hi
  unfold Loop.bite
  rw [h.2.2.1, h'.2.2.1, h.2.1, h'.2.1, V3.real_dot]
  by_cases c1 : (!q.closed || !o.closed) = true
  · rw [if_pos c1] at hi; simp at hi
  rw [if_neg c1] at hi
  simp only [Bool.or_eq_true, not_or] at c1
  rw [if_neg c1.1, if_neg c1.2]
  have hd : |((q.normal.dot o.normal : ℚ) : ℝ)| < 999 / 1000 ↔ |q.normal.dot o.normal| < 999 / 1000 := by
    rw [← Rat.cast_abs, show (999 / 1000 : ℝ) = ((999 / 1000 : ℚ) : ℝ) by norm_num, Rat.cast_lt]
  by_cases c2 : |q.normal.dot o.normal| < 999 / 1000
  · rw [if_pos c2] at hi; simp at hi
  rw [if_neg c2] at hi
  rw [if_neg (fun x => c2 (hd.1 x))]
  split at hi
  · simp at hi
  · rename_i v hv
    have i1 : Outcome.index l'.vertices 0 = .ok v.real := by
      unfold Outcome.index; rw [h'.1, List.getElem?_map, hv]; rfl
    rw [i1]
    simp only [Outcome.bind]
    have i2 : l.isCoplanar v.real = q.isCoplanar v := by rw [eq_real h, isCoplanar_real]
    rw [i2]
    split at hi
    · rename_i hc
      rw [hc]
      dsimp only
      rw [if_neg (by simp)]
      split at hi
      · simp at hi
      · rename_i hx
        obtain ⟨b, hb, rb⟩ := intersection_rep h h' hx
        rw [hb]
        cases b with
        | some b => exact rb.elim
        | none =>
          simp only [Option.some.injEq] at hi
          subst hi
          exact ⟨l, rfl, h⟩
      · rename_i c hx
        obtain ⟨b, hb, rb⟩ := intersection_rep h h' hx
        rw [hb]
        cases b with
        | none => exact rb.elim
        | some b =>
          have rb : c.Rep b := rb
          have rg := against_rep h rb
          dsimp only
          have e0 : (l.against b).firstOut 0 l.vertices = ((q.against c).firstOut 0 q.vertices).map fun r => r.map Cut.castC := by
            rw [eq_real rg, h.1, firstOut_real]
          rw [e0]
          split at hi
          · rename_i hs
            rw [hs]
            simp only [Option.some.injEq] at hi
            subst hi
            exact ⟨l, rfl, h⟩
          · rename_i i v hs
            rw [hs]
            simp only [Outcome.map, Option.map_some, Cut.castC]
            split at hi
            · simp at hi
            · rename_i r hr
              have hp := pushOne_real _ _ (-1) _ hr
              rw [new_real] at hp
              rw [hp]
              dsimp only
              have e1 : l.biteWalk (l.against b) = (q.real l.perimeter).biteWalk ((q.against c).real (l.against b).perimeter) := by
                rw [← eq_real rg, ← eq_real h]
              split at hi
              · simp at hi
              · rename_i hw
                rw [e1, biteWalk_real _ _ _ _ _ _ _ _ _ _ _ hw]
                simp only [Option.some.injEq] at hi
                subst hi
                exact ⟨l, rfl, h⟩
              · rename_i r' hw
                rw [e1, biteWalk_real _ _ _ _ _ _ _ _ _ _ _ hw]
                simp only [Option.map_some]
                split at hi
                · rename_i x hcl
                  simp only [Option.some.injEq] at hi
                  subst hi
                  have := close_real r' (-1)
                  rw [hcl] at this
                  rcases hy : (r'.real (-1)).close with ⟨o', c'⟩
                  rw [hy] at this
                  obtain ⟨rfl, h2⟩ := this
                  exact ⟨c', rfl, h2⟩
                · simp at hi
          · simp at hi
    · simp at hi

end QLoop

end Simple.Geometry
