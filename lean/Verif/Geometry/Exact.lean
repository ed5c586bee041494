import Mathlib.Tactic.NormNum
import Mathlib.Tactic.FieldSimp
import Mathlib.Tactic.Linarith
import Verif.Geometry.LoopModel

/-! An evaluator for the model of loops at points with rational coordinates.  It is not part of the model: it is proved
to agree with it, and it serves to run the model on the concrete cases that accompany the theorems about polygons and
triangulations. -/

namespace Simple.Geometry


/-- A rational vector, read as a real one. -/
def V3.real (a : V3 ℚ) : V3 ℝ := ⟨a.x, a.y, a.z⟩

/-- A rational segment, read as a real one. -/
def Segment.real (s : Segment ℚ) : Segment ℝ := ⟨s.start.real, s.fin.real⟩

namespace V3

theorem real_add (a b : V3 ℚ) : a.real + b.real = (a + b).real := by ext <;> simp [real]
theorem real_sub (a b : V3 ℚ) : a.real - b.real = (a - b).real := by ext <;> simp [real]
theorem real_neg (a : V3 ℚ) : -a.real = (-a).real := by ext <;> simp [real]
theorem real_zero : (0 : V3 ℝ) = (0 : V3 ℚ).real := by ext <;> simp [real]
theorem real_cross (a b : V3 ℚ) : a.real.cross b.real = (a.cross b).real := by ext <;> simp [real]
theorem real_scale (a : V3 ℚ) (s : ℚ) : a.real.scale (s : ℝ) = (a.scale s).real := by ext <;> simp [real]
theorem real_dot (a b : V3 ℚ) : a.real.dot b.real = ((a.dot b : ℚ) : ℝ) := by simp [real, dot]
theorem real_lengthSquared (a : V3 ℚ) : a.real.lengthSquared = ((a.lengthSquared : ℚ) : ℝ) := by
  simp [real, lengthSquared]
theorem real_squaredDistance (a b : V3 ℚ) : a.real.squaredDistance b.real = ((a.squaredDistance b : ℚ) : ℝ) := by
  simp [real, squaredDistance]

theorem tiny_real : (tiny : ℝ) = ((tiny : ℚ) : ℝ) := by simp [tiny]

theorem real_isZero (a : V3 ℚ) : a.real.isZero = a.isZero := by
  simp only [isZero, tiny_real, real]
  apply decide_eq_decide.2
  norm_cast

theorem real_isParallel (a b : V3 ℚ) : a.real.isParallel b.real = a.isParallel b := by
  simp only [isParallel, real_isZero, real_dot, real_lengthSquared]
  congr 1
  apply decide_eq_decide.2
  rw [show (1 / 100000 : ℝ) = ((1 / 100000 : ℚ) : ℝ) by norm_num]
  norm_cast

theorem real_isSameDirection (a b : V3 ℚ) : a.real.isSameDirection b.real = a.isSameDirection b := by
  simp only [isSameDirection, real_isParallel, real_dot]
  congr 1
  apply decide_eq_decide.2
  norm_cast

theorem real_compare (a b : V3 ℚ) : a.real.compare b.real = a.compare b := by
  simp only [compare, compareBy, real_sub, real_lengthSquared]
  apply decide_eq_decide.2
  rw [show (1 / 1000 * (1 / 1000) : ℝ) = ((1 / 1000 * (1 / 1000) : ℚ) : ℝ) by norm_num]
  norm_cast

/-- `isCollinear` without the square root. -/
def isCollinearQ (a b c : V3 ℚ) : Outcome Bool :=
  if a.compare b && a.compare c then .err
  else if a.compare b || a.compare c || b.compare c then .ok true
  else .ok (decide (((b - a).cross (c - b)).lengthSquared < 1 / 10 ^ 10))

theorem length_lt_iff (v : V3 ℝ) (s : ℝ) (hs : 0 < s) : v.length < s ↔ v.lengthSquared < s ^ 2 := by
  unfold length
  exact Real.sqrt_lt' hs

theorem isCollinear_real (a b c : V3 ℚ) : a.real.isCollinear b.real c.real = a.isCollinearQ b c := by
  simp only [isCollinear, isCollinearQ, real_compare]
  congr 2
  simp only [Outcome.ok.injEq]
  apply decide_eq_decide.2
  rw [length_lt_iff _ _ (by norm_num), real_sub, real_sub, real_cross, real_lengthSquared]
  rw [show ((1 / 100000 : ℝ) ^ 2) = ((1 / 10 ^ 10 : ℚ) : ℝ) by norm_num]
  norm_cast

end V3

namespace Segment

open V3

theorem real_compare (s t : Segment ℚ) : s.real.compare t.real = s.compare t := by
  simp only [compare, real, V3.real_compare]

theorem real_getIntersectionPt (s t : Segment ℚ) :
    s.real.getIntersectionPt t.real = (s.getIntersectionPt t).map fun p => ((p.1 : ℝ), (p.2 : ℝ)) := by
  have key : ∀ q : ℚ, (|(q : ℝ)| > 1 / 100000) = (|q| > 1 / 100000) := by
    intro q
    rw [show (1 / 100000 : ℝ) = ((1 / 100000 : ℚ) : ℝ) by norm_num]
    apply propext
    norm_cast
  simp only [getIntersectionPt, real, real_sub, real_cross, real_dot, real_isParallel]
  have hx : ∀ v : V3 ℚ, v.real.x = v.x := fun _ => rfl
  have hy : ∀ v : V3 ℚ, v.real.y = v.y := fun _ => rfl
  have hz : ∀ v : V3 ℚ, v.real.z = v.z := fun _ => rfl
  simp only [hx, hy, hz, key]
  split_ifs <;> simp

theorem real_intersect (s t : Segment ℚ) : s.real.intersect t.real = (s.intersect t).map V3.real := by
  simp only [intersect, real_getIntersectionPt]
  cases s.getIntersectionPt t with
  | none => rfl
  | some p =>
    obtain ⟨ta, tb⟩ := p
    simp only [Option.map_some]
    have h : ((-(1 / 10 ^ 12) ≤ (ta : ℝ) ∧ (ta : ℝ) < 1 + 1 / 10 ^ 7) ∧ (1 / 10 ^ 8 ≤ (tb : ℝ) ∧ (tb : ℝ) < 1 - 1 / 10 ^ 8))
        = ((-(1 / 10 ^ 12) ≤ ta ∧ ta < 1 + 1 / 10 ^ 7) ∧ (1 / 10 ^ 8 ≤ tb ∧ tb < 1 - 1 / 10 ^ 8)) := by
      rw [show (-(1 / 10 ^ 12) : ℝ) = ((-(1 / 10 ^ 12) : ℚ) : ℝ) by norm_num,
        show (1 + 1 / 10 ^ 7 : ℝ) = ((1 + 1 / 10 ^ 7 : ℚ) : ℝ) by norm_num,
        show (1 / 10 ^ 8 : ℝ) = ((1 / 10 ^ 8 : ℚ) : ℝ) by norm_num,
        show (1 - ((1 / 10 ^ 8 : ℚ) : ℝ) : ℝ) = ((1 - 1 / 10 ^ 8 : ℚ) : ℝ) by norm_num]
      apply propext
      norm_cast
    simp only [h]
    split_ifs
    · simp only [real, real_sub, real_scale, real_add, Option.map_some]
    · rfl

theorem real_midpoint (s : Segment ℚ) : s.real.midpoint = s.midpoint.real := by
  simp only [midpoint, real, real_add]
  rw [show (1 / 2 : ℝ) = ((1 / 2 : ℚ) : ℝ) by norm_num, real_scale]

/-- `containsPoint` without the square roots. -/
def containsPointQ (s : Segment ℚ) (p : V3 ℚ) : Outcome Bool :=
  if s.start.squaredDistance s.fin < 1 / 10 ^ 4 then .ok false
  else (p.isCollinearQ s.start s.fin).bind fun col =>
    if !col then .ok false
    else .ok (decide ((s.fin - s.start).dot (p - s.start) ≥ -(1 / 10 ^ 9) ∧
      (s.fin - s.start).dot (p - s.start) ≤ (s.fin - s.start).lengthSquared))

theorem containsPoint_real (s : Segment ℚ) (p : V3 ℚ) : s.real.containsPoint p.real = s.containsPointQ p := by
  unfold containsPoint containsPointQ
  have h1 : (s.real.start.distance s.real.fin < 1 / 100) = (s.start.squaredDistance s.fin < 1 / 10 ^ 4) := by
    apply propext
    rw [distance, Real.sqrt_lt' (by norm_num)]
    simp only [real, real_squaredDistance]
    rw [show ((1 / 100 : ℝ) ^ 2) = ((1 / 10 ^ 4 : ℚ) : ℝ) by norm_num]
    norm_cast
  have h2 : p.real.isCollinear s.real.start s.real.fin = p.isCollinearQ s.start s.fin := isCollinear_real _ _ _
  simp only [h1, h2]
  congr 1
  congr 1
  funext col
  congr 1
  simp only [Outcome.ok.injEq]
  apply decide_eq_decide.2
  simp only [real, V3.real, dot, lengthSquared, V3.sub_x, V3.sub_y, V3.sub_z]
  rw [show (-(1 / 10 ^ 9) : ℝ) = ((-(1 / 10 ^ 9) : ℚ) : ℝ) by norm_num]
  norm_cast

/-- `contains` without the square roots. -/
def containsQ (s input : Segment ℚ) : Outcome Bool :=
  (s.containsPointQ input.start).bind fun a => if a then s.containsPointQ input.fin else .ok false

theorem contains_real (s t : Segment ℚ) : s.real.contains t.real = s.containsQ t := by
  unfold contains containsQ
  have h : ∀ p : V3 ℚ, s.real.containsPoint p.real = s.containsPointQ p := containsPoint_real s
  simp only [show t.real.start = t.start.real from rfl, show t.real.fin = t.fin.real from rfl, h]

end Segment

/-- A loop with rational vertices, whose perimeter is not known. -/
structure QLoop where
  vertices : List (V3 ℚ)
  normal : V3 ℚ
  closed : Bool
  area : ℚ
deriving DecidableEq, Repr

namespace QLoop

open V3 Segment

/-- The loop of the model that a rational loop stands for. -/
def Rep (q : QLoop) (l : Loop) : Prop :=
  l.vertices = q.vertices.map V3.real ∧ l.normal = q.normal.real ∧ l.closed = q.closed ∧ l.area = q.area

def new : QLoop := ⟨[], 0, false, -1⟩

theorem rep_new : Rep new Loop.new := ⟨rfl, by ext <;> simp [Loop.new, new, V3.real], rfl, by simp [Loop.new, new]⟩

/-- The rational loop as a loop, with some perimeter. -/
noncomputable def real (q : QLoop) (perimeter : ℝ) : Loop :=
  ⟨q.vertices.map V3.real, q.normal.real, q.closed, q.area, perimeter⟩

theorem rep_real (q : QLoop) (per : ℝ) : Rep q (q.real per) := ⟨rfl, rfl, rfl, rfl⟩

theorem eq_real {q : QLoop} {l : Loop} (h : Rep q l) : l = q.real l.perimeter := by
  obtain ⟨h1, h2, h3, h4⟩ := h
  ext1 <;> simp [real, h1, h2, h3, h4]

theorem index_map {α β : Type*} (f : α → β) (l : List α) (i : ℕ) :
    Outcome.index (l.map f) i = (Outcome.index l i).map f := by
  unfold Outcome.index
  rw [List.getElem?_map]
  cases l[i]? <;> rfl

def isCoplanar (q : QLoop) (p : V3 ℚ) : Outcome Bool :=
  match q.vertices with
  | [] => .err
  | first :: _ => if q.normal.isZero then .err else .ok (decide (|q.normal.dot (first - p)| < 1 / 10 ^ 7))

theorem isCoplanar_real (q : QLoop) (per : ℝ) (p : V3 ℚ) : (q.real per).isCoplanar p.real = q.isCoplanar p := by
  unfold Loop.isCoplanar isCoplanar
  cases hv : q.vertices with
  | nil => simp [real, hv]
  | cons a t =>
    simp only [real, hv, List.map_cons, real_isZero, real_sub, real_dot]
    congr 2
    apply decide_eq_decide.2
    rw [show (1 / 10 ^ 7 : ℝ) = ((1 / 10 ^ 7 : ℚ) : ℝ) by norm_num]
    norm_cast

def consecutive : List (V3 ℚ) → List (Segment ℚ)
  | a :: b :: t => ⟨a, b⟩ :: consecutive (b :: t)
  | _ => []

theorem consecutive_real : ∀ l : List (V3 ℚ), Loop.consecutive (l.map V3.real) = (consecutive l).map Segment.real
  | [] => rfl
  | [_] => rfl
  | a :: b :: t => by
    have ih := consecutive_real (b :: t)
    simp only [List.map_cons] at ih
    simp only [List.map_cons, Loop.consecutive, consecutive, ih]
    rfl

def validToAdd (q : QLoop) (point : V3 ℚ) : Outcome Unit :=
  if q.closed then .err
  else
    (if !q.normal.isZero then (q.isCoplanar point).bind fun c => if !c then .err else .ok () else .ok ()).bind fun _ =>
      match q.vertices.getLast? with
      | none => .ok ()
      | some last =>
        if 3 ≤ q.vertices.length then
          if ((consecutive q.vertices).take (q.vertices.length - 2)).any
              (fun s => ((⟨last, point⟩ : Segment ℚ).intersect s).isSome) then .err
          else .ok ()
        else .ok ()

theorem validToAdd_real (q : QLoop) (per : ℝ) (p : V3 ℚ) : (q.real per).validToAdd p.real = q.validToAdd p := by
  unfold Loop.validToAdd validToAdd
  rw [isCoplanar_real]
  simp only [real, real_isZero, consecutive_real, List.getLast?_map, List.length_map, ← List.map_take, List.any_map]
  congr 1
  congr 1
  funext _
  cases q.vertices.getLast? with
  | none => rfl
  | some last =>
    simp only [Option.map_some]
    have : ((fun s : Segment ℝ => ((⟨last.real, p.real⟩ : Segment ℝ).intersect s).isSome) ∘ Segment.real) =
        fun s : Segment ℚ => ((⟨last, p⟩ : Segment ℚ).intersect s).isSome := by
      funext s
      have := real_intersect ⟨last, p⟩ s
      simp only [Segment.real] at this
      simp only [Function.comp, Segment.real, this, Option.isSome_map]
    rw [this]

/-- The unit vector along a vector that is parallel to the `z` axis. -/
def unitZ (v : V3 ℚ) : Option (V3 ℚ) :=
  if v.x = 0 ∧ v.y = 0 ∧ 1 / 10 ^ 9 < v.z then some ⟨0, 0, 1⟩
  else if v.x = 0 ∧ v.y = 0 ∧ v.z < -(1 / 10 ^ 9) then some ⟨0, 0, -1⟩
  else none

theorem unitZ_real (v n : V3 ℚ) (h : unitZ v = some n) : v.real.normalize = .ok n.real := by
  unfold unitZ at h
  have key : ∀ s : ℝ, 1 / 10 ^ 9 < |s| → (⟨0, 0, s⟩ : V3 ℝ).normalize = .ok ⟨0, 0, s / |s|⟩ := by
    intro s hs
    have e : (⟨0, 0, s⟩ : V3 ℝ).lengthSquared = |s| ^ 2 := by simp [V3.lengthSquared]; ring
    have h0 : 0 < |s| := lt_trans (by norm_num) hs
    unfold V3.normalize
    rw [e, if_pos (by nlinarith), Real.sqrt_sq h0.le]
    congr 1
    ext <;> simp [div_eq_mul_inv]
  split_ifs at h with h1 h2
  · obtain ⟨hx, hy, hz⟩ := h1
    have hz' : (1 / 10 ^ 9 : ℝ) < (v.z : ℝ) := by
      have : ((1 / 10 ^ 9 : ℚ) : ℝ) < (v.z : ℝ) := by exact_mod_cast hz
      norm_num at this ⊢
      exact this
    have h0 : (0 : ℝ) < v.z := lt_trans (by norm_num) hz'
    have ev : v.real = ⟨0, 0, (v.z : ℝ)⟩ := by ext <;> simp [V3.real, hx, hy]
    rw [ev, key _ (by rwa [abs_of_pos h0]), abs_of_pos h0, div_self h0.ne']
    obtain rfl := Option.some.inj h
    simp [V3.real]
  · obtain ⟨hx, hy, hz⟩ := h2
    have hz' : (v.z : ℝ) < -(1 / 10 ^ 9 : ℝ) := by
      have : (v.z : ℝ) < ((-(1 / 10 ^ 9) : ℚ) : ℝ) := by exact_mod_cast hz
      norm_num at this ⊢
      exact this
    have h0 : (v.z : ℝ) < 0 := lt_trans hz' (by norm_num)
    have ev : v.real = ⟨0, 0, (v.z : ℝ)⟩ := by ext <;> simp [V3.real, hx, hy]
    rw [ev, key _ (by rw [abs_of_neg h0]; linarith), abs_of_neg h0]
    obtain rfl := Option.some.inj h
    congr 1
    ext <;> simp [V3.real]
    rw [div_neg, div_self h0.ne]

/-- `none` where the evaluator does not know the answer. -/
def setNormal (q : QLoop) : Option (Outcome Unit × QLoop) :=
  if q.normal.lengthSquared > 1 / 10 ^ 15 then some (.ok (), q)
  else
    match q.vertices with
    | a :: b :: c :: t =>
      match (c :: t).find? (fun c => decide (((b - a).cross (c - b)).lengthSquared > 1 / 10 ^ 15)) with
      | none => some (.ok (), q)
      | some c => (unitZ ((b - a).cross (c - b))).map fun n => (.ok (), { q with normal := n })
    | _ => some (.err, q)

theorem setNormal_real (q : QLoop) (per : ℝ) (o : Outcome Unit) (q' : QLoop) (h : q.setNormal = some (o, q')) :
    (q.real per).setNormal = (o, q'.real per) := by
  unfold setNormal at h
  unfold Loop.setNormal
  have key : ∀ v : V3 ℚ, (v.real.lengthSquared > 1 / 10 ^ 15) = (v.lengthSquared > 1 / 10 ^ 15) := by
    intro v
    rw [real_lengthSquared, show (1 / 10 ^ 15 : ℝ) = ((1 / 10 ^ 15 : ℚ) : ℝ) by norm_num]
    apply propext
    norm_cast
  simp only [real, key]
  split_ifs at h ⊢ with h1
  · obtain ⟨rfl, rfl⟩ := Prod.mk.inj (Option.some.inj h)
    rfl
  · match hv : q.vertices with
    | [] => rw [hv] at h; obtain ⟨rfl, rfl⟩ := Prod.mk.inj (Option.some.inj h); simp [hv]
    | [_] => rw [hv] at h; obtain ⟨rfl, rfl⟩ := Prod.mk.inj (Option.some.inj h); simp [hv]
    | [_, _] => rw [hv] at h; obtain ⟨rfl, rfl⟩ := Prod.mk.inj (Option.some.inj h); simp [hv]
    | a :: b :: c :: t =>
      rw [hv] at h
      simp only [List.map_cons]
      rw [← List.map_cons, List.find?_map]
      have : ((fun c : V3 ℝ => decide (((b.real - a.real).cross (c - b.real)).lengthSquared > 1 / 10 ^ 15)) ∘ V3.real) =
          fun c : V3 ℚ => decide (((b - a).cross (c - b)).lengthSquared > 1 / 10 ^ 15) := by
        funext c
        simp only [Function.comp, real_sub, real_cross, key]
      rw [this]
      dsimp only at h
      cases hf : (c :: t).find? (fun c => decide (((b - a).cross (c - b)).lengthSquared > 1 / 10 ^ 15)) with
      | none =>
        rw [hf] at h
        obtain ⟨rfl, rfl⟩ := Prod.mk.inj (Option.some.inj h)
        simp [hv]
      | some d =>
        rw [hf] at h
        dsimp only at h
        simp only [Option.map_some, real_sub, real_cross]
        cases hu : unitZ ((b - a).cross (d - b)) with
        | none => rw [hu] at h; simp at h
        | some n =>
          rw [hu] at h
          obtain ⟨rfl, rfl⟩ := Prod.mk.inj (Option.some.inj h)
          rw [unitZ_real _ _ hu]
          simp [hv]

def replacesLast (q : QLoop) (point : V3 ℚ) (avoidCollinear : Bool) : Outcome Bool :=
  if 2 ≤ q.vertices.length then
    if avoidCollinear then
      (Outcome.index q.vertices (q.vertices.length - 2)).bind fun a =>
        (Outcome.index q.vertices (q.vertices.length - 1)).bind fun b => a.isCollinearQ b point
    else .ok false
  else .ok false

theorem bind_map {α β γ : Type*} (o : Outcome α) (f : α → β) (g : β → Outcome γ) :
    (o.map f).bind g = o.bind fun a => g (f a) := by cases o <;> rfl

theorem replacesLast_real (q : QLoop) (per : ℝ) (p : V3 ℚ) (b : Bool) :
    (q.real per).replacesLast p.real b = q.replacesLast p b := by
  unfold Loop.replacesLast replacesLast
  simp only [real, List.length_map, index_map, bind_map, isCollinear_real]

def pushCollinear (q : QLoop) (point : V3 ℚ) (avoidCollinear : Bool) : Option (Outcome Unit × QLoop) :=
  match q.validToAdd point with
  | .err => some (.err, q)
  | .panic => some (.panic, q)
  | .ok () =>
    if (q.vertices.getLast?.map fun last => last.compare point) = some true then some (.ok (), q)
    else
      match q.replacesLast point avoidCollinear with
      | .err => some (.err, q)
      | .panic => some (.panic, q)
      | .ok r =>
        let vertices := if r then q.vertices.dropLast ++ [point] else q.vertices ++ [point]
        if 3 ≤ vertices.length then ({ q with vertices := vertices } : QLoop).setNormal
        else some (.ok (), { q with vertices := vertices })

theorem pushCollinear_real (q : QLoop) (per : ℝ) (p : V3 ℚ) (b : Bool) (o : Outcome Unit) (q' : QLoop)
    (h : q.pushCollinear p b = some (o, q')) : (q.real per).pushCollinear p.real b = (o, q'.real per) := by
  unfold pushCollinear at h
  unfold Loop.pushCollinear
  rw [validToAdd_real]
  cases hv : q.validToAdd p with
  | err => rw [hv] at h; obtain ⟨rfl, rfl⟩ := Prod.mk.inj (Option.some.inj h); rfl
  | panic => rw [hv] at h; obtain ⟨rfl, rfl⟩ := Prod.mk.inj (Option.some.inj h); rfl
  | ok u =>
    cases u
    rw [hv] at h
    dsimp only at h ⊢
    have hl : ((q.real per).vertices.getLast?.map fun last => last.compare p.real) =
        (q.vertices.getLast?.map fun last => last.compare p) := by
      simp only [real, List.getLast?_map, Option.map_map]
      congr 1
      funext v
      simp [V3.real_compare]
    rw [hl, replacesLast_real]
    split_ifs at h ⊢ with h1
    · obtain ⟨rfl, rfl⟩ := Prod.mk.inj (Option.some.inj h); rfl
    · cases hr : q.replacesLast p b with
      | err => rw [hr] at h; obtain ⟨rfl, rfl⟩ := Prod.mk.inj (Option.some.inj h); rfl
      | panic => rw [hr] at h; obtain ⟨rfl, rfl⟩ := Prod.mk.inj (Option.some.inj h); rfl
      | ok r =>
        rw [hr] at h
        dsimp only at h ⊢
        have e : (if r = true then (q.real per).vertices.dropLast ++ [p.real] else (q.real per).vertices ++ [p.real]) =
            (if r = true then q.vertices.dropLast ++ [p] else q.vertices ++ [p]).map V3.real := by
          cases r <;> simp [real, List.map_dropLast]
        rw [e, List.length_map]
        generalize (if r = true then q.vertices.dropLast ++ [p] else q.vertices ++ [p]) = vs at h ⊢
        split_ifs at h ⊢ with h2
        · exact setNormal_real _ per _ _ h
        · obtain ⟨rfl, rfl⟩ := Prod.mk.inj (Option.some.inj h)
          rfl

def around : List (V3 ℚ) → List (V3 ℚ × V3 ℚ)
  | [] => []
  | a :: t => (a :: t).zip (t ++ [a])

theorem around_real (l : List (V3 ℚ)) :
    Loop.around (l.map V3.real) = (around l).map fun p => (p.1.real, p.2.real) := by
  cases l with
  | nil => rfl
  | cons a t =>
    simp only [List.map_cons, Loop.around, around]
    rw [← List.map_cons, show t.map V3.real ++ [a.real] = (t ++ [a]).map V3.real by simp, List.zip_map]
    rfl

def setArea (q : QLoop) : Outcome ℚ × QLoop :=
  if !q.closed then (.err, q)
  else if q.normal.isZero then (.err, q)
  else if q.vertices.length < 3 then (.err, q)
  else
    let rhs := (around q.vertices).foldl (fun acc p => acc + p.1.cross p.2) 0
    let area := q.normal.dot rhs / 2
    let q' := if area < 0 then { q with normal := q.normal.scale (-1) } else q
    (.ok |area|, { q' with area := |area| })

theorem setArea_real (q : QLoop) (per : ℝ) :
    (q.real per).setArea = (Outcome.map (fun a : ℚ => (a : ℝ)) q.setArea.1, q.setArea.2.real per) := by
  unfold Loop.setArea setArea
  have hf : ∀ (l : List (V3 ℚ × V3 ℚ)) (acc : V3 ℚ),
      (l.map fun p => (p.1.real, p.2.real)).foldl (fun (acc : V3 ℝ) p => acc + p.1.cross p.2) acc.real =
        (l.foldl (fun acc p => acc + p.1.cross p.2) acc).real := by
    intro l
    induction l with
    | nil => intro acc; rfl
    | cons x t ih =>
      intro acc
      simp only [List.map_cons, List.foldl_cons, real_cross, real_add]
      exact ih _
  have e : (q.real per).normal.dot ((Loop.around (q.real per).vertices).foldl (fun acc p => acc + p.1.cross p.2) 0) / 2 =
      ((q.normal.dot ((around q.vertices).foldl (fun acc p => acc + p.1.cross p.2) 0) / 2 : ℚ) : ℝ) := by
    rw [show (q.real per).vertices = q.vertices.map V3.real from rfl, around_real, real_zero, hf,
      show (q.real per).normal = q.normal.real from rfl, real_dot]
    push_cast
    ring
  dsimp only
  rw [e]
  generalize q.normal.dot ((around q.vertices).foldl (fun acc p => acc + p.1.cross p.2) 0) / 2 = w
  rw [show (q.real per).normal.isZero = q.normal.isZero from real_isZero _,
    show (q.real per).vertices.length = q.vertices.length from List.length_map ..,
    show (q.real per).closed = q.closed from rfl]
  have hlt : ((w : ℝ) < 0) = (w < 0) := by apply propext; norm_cast
  by_cases h1 : q.closed
  · by_cases h2 : q.normal.isZero
    · simp only [h1, h2, Bool.not_true, Bool.false_eq_true, if_false, if_true, Outcome.map]
    · by_cases h3 : q.vertices.length < 3
      · simp only [h1, h2, h3, Bool.not_true, Bool.false_eq_true, if_false, if_true, Outcome.map]
      · simp only [h1, h2, h3, Bool.not_true, Bool.false_eq_true, if_false, Outcome.map, hlt, Prod.mk.injEq,
          Outcome.ok.injEq]
        refine ⟨by push_cast; rfl, ?_⟩
        split_ifs <;> ext1 <;> simp [real, h1]
        ext <;> simp [V3.real]
  · simp only [h1, Bool.not_false, if_true, Outcome.map]

def lastInLine (q : QLoop) : Outcome Bool :=
  (Outcome.index q.vertices (q.vertices.length - 2)).bind fun a =>
    (Outcome.index q.vertices (q.vertices.length - 1)).bind fun b =>
      (Outcome.index q.vertices 0).bind fun c => a.isCollinearQ b c

def firstInLine (q : QLoop) : Outcome Bool :=
  (Outcome.index q.vertices (q.vertices.length - 1)).bind fun a =>
    (Outcome.index q.vertices 0).bind fun b => (Outcome.index q.vertices 1).bind fun c => a.isCollinearQ b c

theorem lastInLine_real (q : QLoop) (per : ℝ) : (q.real per).lastInLine = q.lastInLine := by
  unfold Loop.lastInLine lastInLine
  simp only [real, List.length_map, index_map, bind_map, isCollinear_real]

theorem firstInLine_real (q : QLoop) (per : ℝ) : (q.real per).firstInLine = q.firstInLine := by
  unfold Loop.firstInLine firstInLine
  simp only [real, List.length_map, index_map, bind_map, isCollinear_real]

def finish (q : QLoop) : Outcome Unit × QLoop :=
  if q.normal.lengthSquared < 1 / 10 ^ 14 then (.err, q)
  else
    match ({ q with closed := true } : QLoop).setArea with
    | (.err, l3) => (.err, l3)
    | (.panic, l3) => (.panic, l3)
    | (.ok _, l3) =>
      if l3.normal.isZero then (.err, l3) else (.ok (), l3)

theorem finish_real (q : QLoop) (per : ℝ) : (q.real per).finish.1 = q.finish.1 ∧ q.finish.2.Rep (q.real per).finish.2 := by
  unfold Loop.finish finish
  have key : ((q.real per).normal.lengthSquared < 1 / 10 ^ 14) = (q.normal.lengthSquared < 1 / 10 ^ 14) := by
    simp only [real, real_lengthSquared]
    rw [show (1 / 10 ^ 14 : ℝ) = ((1 / 10 ^ 14 : ℚ) : ℝ) by norm_num]
    apply propext
    norm_cast
  simp only [key]
  split_ifs with h1
  · exact ⟨rfl, rep_real _ _⟩
  · have e : ({ q.real per with closed := true } : Loop) = ({ q with closed := true } : QLoop).real per := rfl
    rw [e, setArea_real]
    have hs : ∀ a, ({ q with closed := true } : QLoop).setArea.1 = .ok a →
        ({ q with closed := true } : QLoop).setArea.2.closed = true ∧
        3 ≤ ({ q with closed := true } : QLoop).setArea.2.vertices.length := by
      intro a
      unfold setArea
      dsimp only
      split_ifs <;> simp_all
    cases hq : ({ q with closed := true } : QLoop).setArea with
    | mk o q3 =>
      rw [hq] at hs
      cases o with
      | err => exact ⟨rfl, rep_real _ _⟩
      | panic => exact ⟨rfl, rep_real _ _⟩
      | ok a =>
        obtain ⟨hc, hl⟩ := hs a rfl
        dsimp only at hc hl
        simp only [Outcome.map]
        unfold Loop.setPerimeter
        have h1 : (q3.real per).closed = true := hc
        have h2 : (q3.real per).normal.isZero = q3.normal.isZero := real_isZero _
        have h3 : (q3.real per).vertices.length = q3.vertices.length := List.length_map ..
        rw [h1, h2, h3]
        have h4 : ¬ q3.vertices.length < 3 := by omega
        by_cases hz : q3.normal.isZero
        · simp only [hz, Bool.not_true, Bool.false_eq_true, if_false, if_true]
          exact ⟨trivial, rep_real _ _⟩
        · simp only [hz, Bool.not_true, Bool.false_eq_true, if_false, h4]
          exact ⟨trivial, rfl, rfl, hc.symm, rfl⟩

def close (q : QLoop) : Outcome Unit × QLoop :=
  if q.vertices.length < 3 then (.err, q)
  else
    match q.lastInLine with
    | .err => (.err, q)
    | .panic => (.panic, q)
    | .ok col =>
      let l1 := if col then { q with vertices := q.vertices.dropLast } else q
      match (Outcome.index l1.vertices 0).bind fun v => l1.validToAdd v with
      | .err => (.err, l1)
      | .panic => (.panic, l1)
      | .ok () =>
        match l1.firstInLine with
        | .err => (.err, l1)
        | .panic => (.panic, l1)
        | .ok col2 => (if col2 then { l1 with vertices := l1.vertices.tail } else l1 : QLoop).finish

theorem close_real (q : QLoop) (per : ℝ) : (q.real per).close.1 = q.close.1 ∧ q.close.2.Rep (q.real per).close.2 := by
  unfold Loop.close close
  rw [lastInLine_real]
  have hl : (q.real per).vertices.length = q.vertices.length := List.length_map ..
  rw [hl]
  split_ifs with h1
  · exact ⟨rfl, rep_real _ _⟩
  · cases q.lastInLine with
    | err => exact ⟨rfl, rep_real _ _⟩
    | panic => exact ⟨rfl, rep_real _ _⟩
    | ok col =>
      dsimp only
      have e : (if col = true then ({ q.real per with vertices := (q.real per).vertices.dropLast } : Loop) else q.real per) =
          (if col = true then ({ q with vertices := q.vertices.dropLast } : QLoop) else q).real per := by
        cases col <;> simp [real, List.map_dropLast]
      rw [e]
      generalize (if col = true then ({ q with vertices := q.vertices.dropLast } : QLoop) else q) = q1
      have e2 : ((Outcome.index (q1.real per).vertices 0).bind fun v => (q1.real per).validToAdd v) =
          (Outcome.index q1.vertices 0).bind fun v => q1.validToAdd v := by
        rw [show (q1.real per).vertices = q1.vertices.map V3.real from rfl, index_map, bind_map]
        simp only [validToAdd_real]
      rw [e2, firstInLine_real]
      cases ((Outcome.index q1.vertices 0).bind fun v => q1.validToAdd v) with
      | err => exact ⟨rfl, rep_real _ _⟩
      | panic => exact ⟨rfl, rep_real _ _⟩
      | ok u =>
        cases u
        dsimp only
        cases q1.firstInLine with
        | err => exact ⟨rfl, rep_real _ _⟩
        | panic => exact ⟨rfl, rep_real _ _⟩
        | ok col2 =>
          dsimp only
          have e3 : (if col2 = true then ({ q1.real per with vertices := (q1.real per).vertices.tail } : Loop) else q1.real per) =
              (if col2 = true then ({ q1 with vertices := q1.vertices.tail } : QLoop) else q1).real per := by
            cases col2 <;> simp [real, List.map_tail]
          rw [e3]
          exact finish_real _ _

/-- The crossings counted after a side from `a` to `b`. -/
def crossing (normal point d a b : V3 ℚ) (k : ℕ) : ℕ :=
  match (⟨a, b⟩ : Segment ℚ).getIntersectionPt ⟨point, point + d⟩ with
  | none => k
  | some (ta, tb) =>
    if (0 ≤ tb ∧ tb ≤ 1) ∧ (0 ≤ ta ∧ ta ≤ 1) then
      if ta < 1 / 2 ^ 52 then (if (d.cross (b - a)).isSameDirection normal then k + 1 else k)
      else if ta < 1 then k + 1
      else (if (d.cross (a - b)).isSameDirection normal then k + 1 else k)
    else k

/-- The recursion of `Loop.testPoint`. -/
def crossings (normal point d : V3 ℚ) (k : ℕ) : List (V3 ℚ × V3 ℚ) → Outcome (Option ℕ)
  | [] => .ok (some k)
  | e :: t =>
    match (⟨e.1, e.2⟩ : Segment ℚ).containsPointQ point with
    | .err => .err
    | .panic => .panic
    | .ok c => if c then .ok none else crossings normal point d (crossing normal point d e.1 e.2 k) t

def testPoint (q : QLoop) (point : V3 ℚ) : Outcome Bool :=
  if !q.closed then .err
  else (q.isCoplanar point).bind fun cop =>
    if !cop then .ok false
    else (Outcome.index q.vertices 0).bind fun v0 => (Outcome.index q.vertices 1).bind fun v1 =>
      (crossings q.normal point ((point - (v0 + v1).scale (1 / 2)).scale 1000) 0 (around q.vertices)).bind fun r =>
        match r with
        | none => .ok true
        | some k => .ok (decide (k ≠ 0 ∧ k % 2 ≠ 0))

theorem crossings_real (q : QLoop) (per : ℝ) (point d : V3 ℚ) (k : ℕ) (l : List (V3 ℚ × V3 ℚ)) :
    Loop.testPoint.count (q.real per) point.real d.real ⟨point.real, point.real + d.real⟩ k
      (l.map fun p => (p.1.real, p.2.real)) = crossings q.normal point d k l := by
  induction l generalizing k with
  | nil => simp only [List.map_nil, Loop.testPoint.count, crossings]
  | cons e t ih =>
    obtain ⟨a, b⟩ := e
    simp only [List.map_cons]
    rw [Loop.testPoint.count, crossings]
    have h1 := containsPoint_real ⟨a, b⟩ point
    have h2 := real_getIntersectionPt ⟨a, b⟩ ⟨point, point + d⟩
    simp only [Segment.real, ← real_add] at h1 h2
    dsimp only
    rw [h1, h2]
    cases (⟨a, b⟩ : Segment ℚ).containsPointQ point with
    | err => rfl
    | panic => rfl
    | ok c =>
      simp only [Outcome.bind]
      cases c with
      | true => rfl
      | false =>
        simp only [Bool.false_eq_true, if_false]
        unfold crossing
        cases (⟨a, b⟩ : Segment ℚ).getIntersectionPt ⟨point, point + d⟩ with
        | none => exact ih _
        | some p =>
          obtain ⟨ta, tb⟩ := p
          simp only [Option.map_some]
          simp only [ih]
          have hn : (q.real per).normal = q.normal.real := rfl
          rw [hn, real_sub, real_sub, real_cross, real_cross, real_isSameDirection, real_isSameDirection]
          have c1 : ((0 ≤ (tb : ℝ) ∧ (tb : ℝ) ≤ 1) ∧ (0 ≤ (ta : ℝ) ∧ (ta : ℝ) ≤ 1)) =
              ((0 ≤ tb ∧ tb ≤ 1) ∧ (0 ≤ ta ∧ ta ≤ 1)) := by apply propext; norm_cast
          have c2 : ((ta : ℝ) < 1 / 2 ^ 52) = (ta < 1 / 2 ^ 52) := by
            rw [show (1 / 2 ^ 52 : ℝ) = ((1 / 2 ^ 52 : ℚ) : ℝ) by norm_num]
            apply propext; norm_cast
          have c3 : ((ta : ℝ) < 1) = (ta < 1) := by apply propext; norm_cast
          simp only [c1, c2, c3]
          by_cases g1 : (0 ≤ tb ∧ tb ≤ 1) ∧ (0 ≤ ta ∧ ta ≤ 1)
          · rw [if_pos g1, if_pos g1]
            by_cases g2 : ta < 1 / 2 ^ 52
            · rw [if_pos g2, if_pos g2]
            · rw [if_neg g2, if_neg g2]
              by_cases g3 : ta < 1
              · rw [if_pos g3, if_pos g3]
              · rw [if_neg g3, if_neg g3]
          · rw [if_neg g1, if_neg g1]

theorem testPoint_real (q : QLoop) (per : ℝ) (p : V3 ℚ) : (q.real per).testPoint p.real = q.testPoint p := by
  unfold Loop.testPoint testPoint
  rw [isCoplanar_real]
  simp only [show (q.real per).closed = q.closed from rfl, show (q.real per).vertices = q.vertices.map V3.real from rfl,
    index_map, bind_map, around_real]
  have hd : ∀ v0 v1 : V3 ℚ, (p.real - (v0.real + v1.real).scale (1 / 2)).scale 1000 =
      ((p - (v0 + v1).scale (1 / 2)).scale 1000).real := by
    intro v0 v1
    ext <;> simp [V3.real]
  simp only [hd, crossings_real]
  rfl

end QLoop

end Simple.Geometry
