import Mathlib.Tactic.FieldSimp
import Mathlib.Tactic.LinearCombination
import Mathlib.Data.List.Rotate
import Mathlib.Tactic.Abel
import Verif.Geometry.LoopModel
import Verif.Geometry.VecProps
import Verif.Geometry.SegmentProps

/-! C47, C48 and C68: the area of a loop, the protocol of opening and closing, and the points inside. -/

namespace Simple.Geometry.Loop

namespace Spec

/-- Twice the vector area of the triangles that an apex makes with the consecutive points of a path. -/
noncomputable def fan (apex : V3 ℝ) : List (V3 ℝ) → V3 ℝ
  | a :: b :: t => (a - apex).cross (b - apex) + fan apex (b :: t)
  | _ => 0

/-- The vector area of a polygon: that of its triangles from the first vertex. -/
noncomputable def areaVector : List (V3 ℝ) → V3 ℝ
  | [] => 0
  | a :: t => (fan a t).scale (1 / 2)

/-- The length of a path. -/
noncomputable def pathLength : List (V3 ℝ) → ℝ
  | a :: b :: t => (a - b).length + pathLength (b :: t)
  | _ => 0

/-- The length of the boundary of a polygon. -/
noncomputable def boundary : List (V3 ℝ) → ℝ
  | [] => 0
  | a :: t => pathLength (a :: t ++ [a])

/-- All points are in the plane through `o` perpendicular to `n`. -/
def InPlane (n o : V3 ℝ) (l : List (V3 ℝ)) : Prop := ∀ v ∈ l, n.dot (v - o) = 0

end Spec

/-! ### Sums around a list -/

section Chain

variable {α M : Type*} [AddCommMonoid M]

private def chain (f : α → α → M) : List α → M
  | a :: b :: t => f a b + chain f (b :: t)
  | _ => 0

private def cyc (f : α → α → M) : List α → M
  | [] => 0
  | a :: t => chain f (a :: t ++ [a])

private theorem chain_split (f : α → α → M) (xs : List α) (x : α) (ys : List α) :
    chain f (xs ++ x :: ys) = chain f (xs ++ [x]) + chain f (x :: ys) := by
  induction xs with
  | nil => simp [chain]
  | cons a t ih =>
    cases t with
    | nil =>
      cases ys <;> simp [chain]
    | cons b s =>
      simp only [List.cons_append, chain] at ih ⊢
      rw [ih, add_assoc]

private theorem cyc_rotate_one (f : α → α → M) (a : α) (t : List α) : cyc f (t ++ [a]) = cyc f (a :: t) := by
  cases t with
  | nil => rfl
  | cons b s =>
    simp only [cyc, List.cons_append, List.append_assoc, List.nil_append, chain]
    have := chain_split f (b :: s) a [b]
    simp only [List.cons_append] at this
    rw [this]
    simp only [chain, add_zero]
    rw [add_comm]

private theorem cyc_rotate (f : α → α → M) (l : List α) (k : ℕ) : cyc f (l.rotate k) = cyc f l := by
  induction k generalizing l with
  | zero => simp
  | succ k ih =>
    cases l with
    | nil => simp
    | cons a t => rw [List.rotate_cons_succ, ih, cyc_rotate_one]

private theorem chain_reverse (f : α → α → M) (l : List α) : chain f l.reverse = chain (fun a b => f b a) l := by
  induction l with
  | nil => rfl
  | cons a t ih =>
    cases t with
    | nil => rfl
    | cons b s =>
      have : (a :: b :: s).reverse = s.reverse ++ b :: [a] := by simp
      rw [this, chain_split]
      have h2 : s.reverse ++ [b] = (b :: s).reverse := by simp
      rw [h2, ih]
      simp only [chain, add_zero]
      rw [add_comm]

private theorem cyc_reverse (f : α → α → M) (l : List α) : cyc f l.reverse = cyc (fun a b => f b a) l := by
  cases l with
  | nil => rfl
  | cons a t =>
    rw [List.reverse_cons, cyc_rotate_one]
    have h : a :: t.reverse ++ [a] = (a :: t ++ [a]).reverse := by simp
    simp only [cyc]
    rw [h, chain_reverse]

private theorem foldl_zip (f : α → α → M) (acc : M) (a : α) (t : List α) (e : α) :
    ((a :: t).zip (t ++ [e])).foldl (fun acc p => acc + f p.1 p.2) acc = acc + chain f (a :: t ++ [e]) := by
  induction t generalizing acc a with
  | nil => simp [chain]
  | cons b s ih =>
    simp only [List.cons_append, List.zip_cons_cons, List.foldl_cons, chain] at ih ⊢
    rw [ih, add_assoc]

end Chain

/-! ### Vectors -/

noncomputable instance : AddCommGroup (V3 ℝ) where
  add_assoc a b c := by ext <;> simp [add_assoc]
  zero_add a := by ext <;> simp
  add_zero a := by ext <;> simp
  add_comm a b := by ext <;> simp [add_comm]
  neg_add_cancel a := by ext <;> simp
  sub_eq_add_neg a b := by ext <;> simp [sub_eq_add_neg]
  nsmul := nsmulRec
  zsmul := zsmulRec

private theorem sum_around {M : Type*} [AddCommMonoid M] (f : V3 ℝ → V3 ℝ → M) (l : List (V3 ℝ)) :
    (around l).foldl (fun acc p => acc + f p.1 p.2) 0 = cyc f l := by
  cases l with
  | nil => rfl
  | cons a t =>
    simp only [around, cyc]
    rw [foldl_zip, zero_add]

private theorem fan_eq (o a : V3 ℝ) (t : List (V3 ℝ)) :
    Spec.fan o (a :: t) = chain (fun a b => a.cross b) (o :: (a :: t) ++ [o]) := by
  induction t generalizing a with
  | nil => simp only [Spec.fan, List.cons_append, List.nil_append, chain]; ext <;> simp <;> ring
  | cons b s ih =>
    simp only [Spec.fan]
    rw [ih]
    simp only [List.cons_append, chain]
    generalize chain (fun a b => a.cross b) (b :: (s ++ [o])) = w
    ext <;> simp <;> ring

private theorem areaVector_eq (l : List (V3 ℝ)) :
    Spec.areaVector l = (cyc (fun a b : V3 ℝ => a.cross b) l).scale (1 / 2) := by
  cases l with
  | nil => ext <;> simp [Spec.areaVector, cyc]
  | cons a t =>
    cases t with
    | nil => ext <;> simp [Spec.areaVector, cyc, chain, Spec.fan] <;> ring
    | cons b s => simp only [Spec.areaVector]; rw [fan_eq]; rfl

private theorem boundary_eq (l : List (V3 ℝ)) : Spec.boundary l = cyc (fun a b : V3 ℝ => (a - b).length) l := by
  have h : ∀ l : List (V3 ℝ), Spec.pathLength l = chain (fun a b : V3 ℝ => (a - b).length) l := by
    intro l
    induction l with
    | nil => rfl
    | cons a t ih =>
      cases t with
      | nil => rfl
      | cons b s => simp only [Spec.pathLength, chain]; rw [ih]
  cases l with
  | nil => rfl
  | cons a t => simp only [Spec.boundary, cyc]; rw [h]

/-! ### C47 -/

/-- C47: the vector area does not depend on the vertex at which the loop starts. -/
theorem C47_start (l : List (V3 ℝ)) (k : ℕ) : Spec.areaVector (l.rotate k) = Spec.areaVector l := by
  rw [areaVector_eq, areaVector_eq, cyc_rotate]

/-- C47: nor on where the loop is. -/
theorem C47_translation (l : List (V3 ℝ)) (d : V3 ℝ) : Spec.areaVector (l.map (· + d)) = Spec.areaVector l := by
  have h : ∀ (o : V3 ℝ) (t : List (V3 ℝ)), Spec.fan (o + d) (t.map (· + d)) = Spec.fan o t := by
    intro o t
    induction t with
    | nil => rfl
    | cons a t ih =>
      cases t with
      | nil => rfl
      | cons b s =>
        simp only [List.map_cons, Spec.fan] at ih ⊢
        rw [ih]
        have : ∀ x y : V3 ℝ, x + d - (y + d) = x - y := by intro x y; ext <;> simp
        rw [this, this]
  cases l with
  | nil => rfl
  | cons a t => simp only [List.map_cons, Spec.areaVector]; rw [h]

private theorem cyc_neg (l : List (V3 ℝ)) :
    cyc (fun a b : V3 ℝ => b.cross a) l = -cyc (fun a b : V3 ℝ => a.cross b) l := by
  have h : ∀ l : List (V3 ℝ), chain (fun a b : V3 ℝ => b.cross a) l = -chain (fun a b : V3 ℝ => a.cross b) l := by
    intro l
    induction l with
    | nil => ext <;> simp [chain]
    | cons a t ih =>
      cases t with
      | nil => ext <;> simp [chain]
      | cons b s =>
        simp only [chain]
        rw [ih]
        ext <;> simp <;> ring
  cases l with
  | nil => ext <;> simp [cyc]
  | cons a t => exact h _

/-- C47: going around the other way turns the vector area around. -/
theorem C47_direction (l : List (V3 ℝ)) : Spec.areaVector l.reverse = -Spec.areaVector l := by
  rw [areaVector_eq, areaVector_eq, cyc_reverse, cyc_neg]
  ext <;> simp

/-- C47: a corner can be cut off: the vector area is that of the rest and that of the corner. -/
theorem C47_ear (xs ys : List (V3 ℝ)) (a b c : V3 ℝ) :
    Spec.areaVector (xs ++ a :: b :: c :: ys) =
      Spec.areaVector (xs ++ a :: c :: ys) + ((b - a).cross (c - a)).scale (1 / 2) := by
  have h : ∀ zs : List (V3 ℝ), chain (fun a b : V3 ℝ => a.cross b) (xs ++ a :: b :: c :: zs) =
      chain (fun a b : V3 ℝ => a.cross b) (xs ++ a :: c :: zs) + (b - a).cross (c - a) := by
    intro zs
    rw [chain_split, chain_split _ xs a (c :: zs)]
    simp only [chain]
    generalize chain (fun a b : V3 ℝ => a.cross b) (xs ++ [a]) = w
    generalize chain (fun a b : V3 ℝ => a.cross b) (c :: zs) = w'
    ext <;> simp <;> ring
  have h2 : cyc (fun a b : V3 ℝ => a.cross b) (xs ++ a :: b :: c :: ys) =
      cyc (fun a b : V3 ℝ => a.cross b) (xs ++ a :: c :: ys) + (b - a).cross (c - a) := by
    cases xs with
    | nil => simpa [cyc] using h (ys ++ [a])
    | cons x s => simpa [cyc] using h (ys ++ [x])
  rw [areaVector_eq, areaVector_eq, h2]
  ext <;> simp <;> ring

/-- C47: a path out to another polygon, around it and back adds the vector area of that polygon. -/
theorem C47_bridge (xs ys t : List (V3 ℝ)) (e h : V3 ℝ) :
    Spec.areaVector (xs ++ e :: h :: (t ++ h :: e :: ys)) =
      Spec.areaVector (xs ++ e :: ys) + Spec.areaVector (h :: t) := by
  have key : ∀ zs : List (V3 ℝ), chain (fun a b : V3 ℝ => a.cross b) (xs ++ e :: h :: (t ++ h :: e :: zs)) =
      chain (fun a b : V3 ℝ => a.cross b) (xs ++ e :: zs) + chain (fun a b : V3 ℝ => a.cross b) (h :: t ++ [h]) := by
    intro zs
    rw [chain_split, chain_split _ xs e zs]
    have h2 := chain_split (fun a b : V3 ℝ => a.cross b) (h :: t) h (e :: zs)
    simp only [List.cons_append, chain] at h2 ⊢
    rw [h2]
    generalize chain (fun a b : V3 ℝ => a.cross b) (xs ++ [e]) = w
    generalize chain (fun a b : V3 ℝ => a.cross b) (e :: zs) = w'
    generalize chain (fun a b : V3 ℝ => a.cross b) (h :: (t ++ [h])) = w''
    ext <;> simp <;> ring
  have h2 : cyc (fun a b : V3 ℝ => a.cross b) (xs ++ e :: h :: (t ++ h :: e :: ys)) =
      cyc (fun a b : V3 ℝ => a.cross b) (xs ++ e :: ys) + cyc (fun a b : V3 ℝ => a.cross b) (h :: t) := by
    cases xs with
    | nil => simpa [cyc] using key (ys ++ [e])
    | cons x s => simpa [cyc] using key (ys ++ [x])
  rw [areaVector_eq, areaVector_eq, areaVector_eq, h2]
  ext <;> simp <;> ring

private theorem dot_scale (n v : V3 ℝ) (s : ℝ) : n.dot (v.scale s) = n.dot v * s := by
  simp only [V3.dot, V3.scale_x, V3.scale_y, V3.scale_z]; ring

private theorem dot_neg (n v : V3 ℝ) : (-n).dot v = -n.dot v := by
  simp only [V3.dot, V3.neg_x, V3.neg_y, V3.neg_z]; ring

private theorem scale_neg_one (n : V3 ℝ) : n.scale (-1) = -n := by ext <;> simp

private theorem setArea_ok (l : Loop) (a : ℝ) (h : l.setArea.1 = .ok a) :
    l.closed = true ∧ 3 ≤ l.vertices.length ∧ l.normal.isZero = false ∧
    a = |l.normal.dot (Spec.areaVector l.vertices)| ∧
    l.setArea.2 = { l with
      normal := if l.normal.dot (Spec.areaVector l.vertices) < 0 then -l.normal else l.normal, area := a } := by
  unfold setArea at h ⊢
  rw [sum_around (fun a b : V3 ℝ => a.cross b)] at h ⊢
  by_cases h1 : l.closed
  · by_cases h2 : l.normal.isZero
    · simp [h1, h2] at h
    · by_cases h3 : l.vertices.length < 3
      · simp [h1, h2, h3] at h
      · have e : l.normal.dot (Spec.areaVector l.vertices) =
            l.normal.dot (cyc (fun a b : V3 ℝ => a.cross b) l.vertices) / 2 := by
          rw [areaVector_eq, dot_scale]; ring
        simp only [h1, h2, h3, Bool.not_true, Bool.false_eq_true, if_false, Outcome.ok.injEq] at h ⊢
        rw [e]
        refine ⟨trivial, by omega, by simp, h.symm, ?_⟩
        rw [h]
        split_ifs <;> simp [scale_neg_one, h1]
  · simp [h1] at h

/-- C47: the area that is computed for a closed loop is the magnitude of the component of the vector area along the
normal, and the normal is left so that this component is not negative. -/
theorem C47_area (l : Loop) (a : ℝ) (h : l.setArea.1 = .ok a) :
    a = |l.normal.dot (Spec.areaVector l.vertices)| ∧ 0 ≤ a ∧ l.setArea.2.vertices = l.vertices ∧
    l.setArea.2.area = a ∧ (l.setArea.2.normal = l.normal ∨ l.setArea.2.normal = -l.normal) ∧
    l.setArea.2.normal.dot (Spec.areaVector l.vertices) = a := by
  obtain ⟨-, -, -, h1, h2⟩ := setArea_ok l a h
  rw [h2]
  refine ⟨h1, h1 ▸ abs_nonneg _, rfl, rfl, ?_, ?_⟩
  · dsimp only; split_ifs <;> simp
  · dsimp only
    split_ifs with h3
    · rw [dot_neg, h1, abs_of_neg h3]
    · rw [h1, abs_of_nonneg (not_lt.1 h3)]

private theorem setArea_congr (l l' : Loop) (hc : l'.closed = l.closed) (hn : l'.normal.isZero = l.normal.isZero)
    (hl : l'.vertices.length = l.vertices.length)
    (hd : |l'.normal.dot (Spec.areaVector l'.vertices)| = |l.normal.dot (Spec.areaVector l.vertices)|) :
    l'.setArea.1 = l.setArea.1 := by
  have e : ∀ l : Loop, l.normal.dot ((around l.vertices).foldl (fun acc p => acc + p.1.cross p.2) 0) / 2 =
      l.normal.dot (Spec.areaVector l.vertices) := by
    intro l
    rw [sum_around (fun a b : V3 ℝ => a.cross b), areaVector_eq, dot_scale]; ring
  unfold setArea
  dsimp only
  rw [e, e, hc, hn, hl, hd]
  split_ifs <;> rfl

private theorem isZero_neg (n : V3 ℝ) : (-n).isZero = n.isZero := by simp [V3.isZero]

/-- C47: the area does not depend on the first vertex, on the place or on the direction, and reversing the loop turns
its normal around. -/
theorem C47_invariant (l : Loop) (k : ℕ) (d : V3 ℝ) :
    ({ l with vertices := l.vertices.rotate k } : Loop).setArea.1 = l.setArea.1 ∧
    ({ l with vertices := l.vertices.map (· + d) } : Loop).setArea.1 = l.setArea.1 ∧
    l.reverse.setArea.1 = l.setArea.1 ∧
    ({ l with vertices := l.vertices.reverse } : Loop).setArea.1 = l.setArea.1 ∧
    l.reverse.normal = -l.normal ∧ l.reverse.vertices = l.vertices.reverse ∧ l.reverse.getArea = l.getArea := by
  have dn : ∀ n v : V3 ℝ, n.dot (-v) = -n.dot v := by
    intro n v; simp only [V3.dot, V3.neg_x, V3.neg_y, V3.neg_z]; ring
  refine ⟨?_, ?_, ?_, ?_, ?_, rfl, rfl⟩
  · apply setArea_congr <;> simp [C47_start]
  · apply setArea_congr <;> simp [C47_translation]
  · apply setArea_congr <;> simp [reverse, scale_neg_one, isZero_neg, C47_direction, dot_neg, dn]
  · apply setArea_congr <;> simp [C47_direction, dn]
  · simp [reverse, scale_neg_one]

private theorem cross_parallel (n x y : V3 ℝ) (hn : n.lengthSquared = 1) (hx : n.dot x = 0) (hy : n.dot y = 0) :
    x.cross y = n.scale (n.dot (x.cross y)) := by
  simp only [V3.lengthSquared, V3.dot] at hn hx hy
  ext <;> simp [V3.dot]
  · linear_combination (-(x.y * y.z - x.z * y.y)) * hn + (n.y * y.z - n.z * y.y) * hx - (n.y * x.z - n.z * x.y) * hy
  · linear_combination (-(x.z * y.x - x.x * y.z)) * hn + (n.z * y.x - n.x * y.z) * hx - (n.z * x.x - n.x * x.z) * hy
  · linear_combination (-(x.x * y.y - x.y * y.x)) * hn + (n.x * y.y - n.y * y.x) * hx - (n.x * x.y - n.y * x.x) * hy

/-- C47: for a flat loop with its unit normal the area is the size of the vector area: it does not depend on the
normal. -/
theorem C47_flat (l : Loop) (a : ℝ) (o : V3 ℝ) (h : l.setArea.1 = .ok a) (hn : l.normal.lengthSquared = 1)
    (hp : Spec.InPlane l.normal o l.vertices) : a = (Spec.areaVector l.vertices).length := by
  obtain ⟨h1, -⟩ := C47_area l a h
  have hfan : ∀ (p : V3 ℝ) (t : List (V3 ℝ)), Spec.InPlane l.normal p t →
      Spec.fan p t = l.normal.scale (l.normal.dot (Spec.fan p t)) := by
    intro p t ht
    induction t with
    | nil => ext <;> simp [Spec.fan, V3.dot]
    | cons a t ih =>
      cases t with
      | nil => ext <;> simp [Spec.fan, V3.dot]
      | cons b s =>
        have e1 := cross_parallel l.normal (a - p) (b - p) hn (ht a (by simp)) (ht b (by simp))
        have e2 := ih fun v hv => ht v (List.mem_cons_of_mem _ hv)
        simp only [Spec.fan]
        generalize (a - p).cross (b - p) = w at *
        generalize Spec.fan p (b :: s) = w' at *
        have x1 := congrArg V3.x e1
        have y1 := congrArg V3.y e1
        have z1 := congrArg V3.z e1
        have x2 := congrArg V3.x e2
        have y2 := congrArg V3.y e2
        have z2 := congrArg V3.z e2
        simp only [V3.scale_x, V3.scale_y, V3.scale_z, V3.dot] at x1 x2 y1 y2 z1 z2
        ext <;> simp only [V3.add_x, V3.add_y, V3.add_z, V3.scale_x, V3.scale_y, V3.scale_z, V3.dot]
        · linear_combination x1 + x2
        · linear_combination y1 + y2
        · linear_combination z1 + z2
  have hav : Spec.areaVector l.vertices = l.normal.scale (l.normal.dot (Spec.areaVector l.vertices)) := by
    cases hv : l.vertices with
    | nil => ext <;> simp [Spec.areaVector, V3.dot]
    | cons p t =>
      have ht : Spec.InPlane l.normal p t := by
        intro v hm
        have e1 := hp v (by rw [hv]; exact List.mem_cons_of_mem _ hm)
        have e2 := hp p (by rw [hv]; simp)
        simp only [V3.dot, V3.sub_x, V3.sub_y, V3.sub_z] at e1 e2 ⊢
        linear_combination e1 - e2
      have e := hfan p t ht
      simp only [Spec.areaVector]
      rw [dot_scale]
      conv_lhs => rw [e]
      ext <;> simp <;> ring
  rw [h1]
  generalize Spec.areaVector l.vertices = w at *
  rw [V3.length]
  conv_rhs => rw [hav]
  have : (l.normal.scale (l.normal.dot w)).lengthSquared = (l.normal.dot w) ^ 2 := by
    simp only [V3.lengthSquared, V3.scale_x, V3.scale_y, V3.scale_z] at hn ⊢
    linear_combination (l.normal.dot w) ^ 2 * hn
  rw [this, Real.sqrt_sq_eq_abs]

/-! ### C48 -/

namespace Spec

/-- What can be asked of a loop. -/
inductive Op where
  | push (p : V3 ℝ)
  | pushCollinear (p : V3 ℝ) (avoid : Bool)
  | close
  | open_
  | reverse

end Spec

/-- One call: its outcome and the loop after it. -/
noncomputable def step (l : Loop) : Spec.Op → Outcome Unit × Loop
  | .push p => l.push p
  | .pushCollinear p b => l.pushCollinear p b
  | .close => l.close
  | .open_ => (.ok (), l.open_)
  | .reverse => (.ok (), l.reverse)

namespace Spec

/-- The loops that can be reached from a new one by calls of which no `close` fails. -/
inductive Reachable : Loop → Prop
  | new : Reachable Loop.new
  | step (l : Loop) (op : Op) : Reachable l → (op = .close → (l.step op).1 = .ok ()) → Reachable (l.step op).2

/-- A closed loop is a polygon: three vertices or more, a unit normal, the area around it and the length of its
boundary. -/
def Sound (l : Loop) : Prop :=
  3 ≤ l.vertices.length ∧ l.normal.lengthSquared = 1 ∧ 0 ≤ l.area ∧
    l.area = l.normal.dot (areaVector l.vertices) ∧ l.perimeter = boundary l.vertices

end Spec

/-- C48: a point cannot be added to a closed loop. -/
theorem C48_push_closed (l : Loop) (p : V3 ℝ) (b : Bool) (h : l.closed = true) : l.pushCollinear p b = (.err, l) := by
  unfold pushCollinear validToAdd
  simp [h]

private theorem validToAdd_ne_panic (l : Loop) (p : V3 ℝ) : l.validToAdd p ≠ .panic := by
  unfold validToAdd isCoplanar
  cases h : l.vertices with
  | nil => split_ifs <;> simp [Outcome.bind]
  | cons a t =>
    have hlast : (a :: t).getLast? = some ((a :: t).getLast (by simp)) := List.getLast?_eq_getLast_of_ne_nil (by simp)
    rw [hlast]
    dsimp only
    cases l.normal.isZero <;> split_ifs <;> simp [Outcome.bind] <;> split_ifs <;> simp_all

private theorem setNormal_cases (l : Loop) (h : 3 ≤ l.vertices.length) :
    l.setNormal = (.ok (), l) ∨ ∃ n : V3 ℝ, n.lengthSquared = 1 ∧ l.setNormal = (.ok (), { l with normal := n }) := by
  unfold setNormal
  split_ifs with h1
  · exact Or.inl rfl
  · match hv : l.vertices, h with
    | a :: b :: c :: t, _ =>
      dsimp only
      cases hf : (c :: t).find? (fun c => decide (((b - a).cross (c - b)).lengthSquared > 1 / 10 ^ 15)) with
      | none => exact Or.inl rfl
      | some c' =>
        right
        have h2 := List.find?_some hf
        simp only [decide_eq_true_eq] at h2
        have key : ∀ w : V3 ℝ, w.lengthSquared > 1 / 10 ^ 15 → ∃ n : V3 ℝ, n.lengthSquared = 1 ∧ w.normalize = .ok n := by
          intro w h2
          have h3 : w.lengthSquared > 1 / 10 ^ 20 := lt_trans (by norm_num) h2
          have h0 : 0 < w.lengthSquared := lt_trans (by norm_num) h3
          refine ⟨w.scale (1 / Real.sqrt w.lengthSquared), ?_, by simp only [V3.normalize, if_pos h3]⟩
          have hs : Real.sqrt w.lengthSquared * Real.sqrt w.lengthSquared = w.lengthSquared := Real.mul_self_sqrt h0.le
          have hp : 0 < Real.sqrt w.lengthSquared := Real.sqrt_pos.2 h0
          generalize Real.sqrt w.lengthSquared = s at *
          have hs' : w.x * w.x + w.y * w.y + w.z * w.z = s * s := hs.symm
          simp only [V3.lengthSquared, V3.scale_x, V3.scale_y, V3.scale_z]
          field_simp
          linear_combination hs'
        obtain ⟨n, hn, e⟩ := key _ h2
        refine ⟨n, hn, ?_⟩
        dsimp only
        rw [e, ← hv]

private theorem isCollinear_ne_panic (a b c : V3 ℝ) : a.isCollinear b c ≠ .panic := by
  unfold V3.isCollinear
  split_ifs <;> simp

private theorem replacesLast_ne_panic (l : Loop) (p : V3 ℝ) (b : Bool) : l.replacesLast p b ≠ .panic := by
  unfold replacesLast
  split_ifs with h2 h3
  · rw [Outcome.index_of_lt (by omega), Outcome.index_of_lt (by omega)]
    exact isCollinear_ne_panic _ _ _
  · simp
  · simp

/-- The outcomes of adding a point. -/
private theorem push_cases (l : Loop) (p : V3 ℝ) (b : Bool) :
    l.pushCollinear p b = (.err, l) ∨
    (l.closed = false ∧ l.pushCollinear p b = (.ok (), l) ∧ ∃ last, l.vertices.getLast? = some last ∧ last.compare p) ∨
    (l.closed = false ∧ ∃ vs n,
      l.pushCollinear p b = (.ok (), { l with vertices := vs, normal := n }) ∧
      (vs = l.vertices ++ [p] ∨ vs = l.vertices.dropLast ++ [p] ∧ b = true) ∧ (n = l.normal ∨ n.lengthSquared = 1)) := by
  have hclosed : l.closed = true ∨ l.closed = false := by cases l.closed <;> simp
  rcases hclosed with hcl | hcl
  · exact Or.inl (C48_push_closed l p b hcl)
  unfold pushCollinear
  cases hv : l.validToAdd p with
  | err => exact Or.inl rfl
  | panic => exact absurd hv (validToAdd_ne_panic l p)
  | ok u =>
    dsimp only
    by_cases h1 : (l.vertices.getLast?.map fun last => last.compare p) = some true
    · rw [if_pos h1]
      obtain ⟨x, hx, hx'⟩ := Option.map_eq_some_iff.1 h1
      exact Or.inr (Or.inl ⟨hcl, rfl, x, hx, hx'⟩)
    · rw [if_neg h1]
      have fin : ∀ vs : List (V3 ℝ), ∃ n, (if 3 ≤ vs.length then ({ l with vertices := vs } : Loop).setNormal
            else (.ok (), { l with vertices := vs })) = (.ok (), { l with vertices := vs, normal := n }) ∧
            (n = l.normal ∨ n.lengthSquared = 1) := by
        intro vs
        split_ifs with h3
        · rcases setNormal_cases { l with vertices := vs } h3 with h | ⟨n, hn, h⟩
          · exact ⟨l.normal, h, Or.inl rfl⟩
          · exact ⟨n, h, Or.inr hn⟩
        · exact ⟨l.normal, rfl, Or.inl rfl⟩
      cases hr : l.replacesLast p b with
      | err => exact Or.inl rfl
      | panic => exact absurd hr (replacesLast_ne_panic l p b)
      | ok r =>
        right; right
        cases r with
        | false =>
          obtain ⟨n, h, hn⟩ := fin (l.vertices ++ [p])
          exact ⟨hcl, _, n, h, Or.inl rfl, hn⟩
        | true =>
          obtain ⟨n, h, hn⟩ := fin (l.vertices.dropLast ++ [p])
          refine ⟨hcl, _, n, h, Or.inr ⟨rfl, ?_⟩, hn⟩
          by_contra hb
          simp [replacesLast, hb] at hr

/-- C48: adding a point never panics; if it fails, the loop is unchanged; if it succeeds, the loop was open and still is,
and the other vertices are kept, except that the point may stand in place of the last one. -/
theorem C48_push (l : Loop) (p : V3 ℝ) (b : Bool) :
    (l.pushCollinear p b).1 ≠ .panic ∧
    ((l.pushCollinear p b).1 = .err → (l.pushCollinear p b).2 = l) ∧
    ((l.pushCollinear p b).1 = .ok () → l.closed = false ∧ (l.pushCollinear p b).2.closed = false ∧
      (((l.pushCollinear p b).2.vertices = l.vertices ∧ ∃ last, l.vertices.getLast? = some last ∧ last.compare p = true) ∨
        (l.pushCollinear p b).2.vertices = l.vertices ++ [p] ∨
        b = true ∧ (l.pushCollinear p b).2.vertices = l.vertices.dropLast ++ [p])) := by
  rcases push_cases l p b with h | ⟨hcl, h, hx⟩ | ⟨hcl, vs, n, h, hvs, -⟩
  · rw [h]; simp
  · rw [h]
    exact ⟨by simp, by simp, fun _ => ⟨hcl, hcl, Or.inl ⟨rfl, hx⟩⟩⟩
  · rw [h]
    refine ⟨by simp, by simp, fun _ => ⟨hcl, hcl, Or.inr ?_⟩⟩
    rcases hvs with hvs | ⟨hvs, hb⟩
    · exact Or.inl hvs
    · exact Or.inr ⟨hb, hvs⟩

/-- C48: the area, the perimeter and the centroid can be read exactly when the loop is closed; the centroid is the point
whose coordinates are the averages of those of the vertices. -/
theorem C48_measures (l : Loop) :
    ((∃ a, l.getArea = .ok a) ↔ l.closed = true) ∧ ((∃ a, l.getPerimeter = .ok a) ↔ l.closed = true) ∧
    ((∃ c, l.getCentroid = .ok c) ↔ l.closed = true) ∧
    (l.closed = false → l.getArea = .err ∧ l.getPerimeter = .err ∧ l.getCentroid = .err) ∧
    ∀ c, l.getCentroid = .ok c → c = ⟨(l.vertices.map V3.x).sum / l.vertices.length, (l.vertices.map V3.y).sum / l.vertices.length,
      (l.vertices.map V3.z).sum / l.vertices.length⟩ := by
  have hsum : ∀ (vs : List (V3 ℝ)) (acc : V3 ℝ), vs.foldl (fun acc v => acc + v) acc =
      ⟨acc.x + (vs.map V3.x).sum, acc.y + (vs.map V3.y).sum, acc.z + (vs.map V3.z).sum⟩ := by
    intro vs
    induction vs with
    | nil => intro acc; ext <;> simp
    | cons v t ih => intro acc; rw [List.foldl_cons, ih]; ext <;> simp <;> ring
  unfold getArea getPerimeter getCentroid
  cases l.closed
  · simp
  · refine ⟨by simp, by simp, by simp, by simp, fun c hc => ?_⟩
    have := Outcome.ok.inj hc
    rw [← this, hsum]
    ext <;> simp [V3.div]

private theorem setPerimeter_of (l : Loop) (h1 : l.closed = true) (h2 : l.normal.isZero = false)
    (h3 : 3 ≤ l.vertices.length) :
    l.setPerimeter = (.ok (Spec.boundary l.vertices), { l with perimeter := Spec.boundary l.vertices }) := by
  unfold setPerimeter
  rw [sum_around (fun a b : V3 ℝ => (a - b).length), ← boundary_eq]
  rw [h1, h2, if_neg (by simp), if_neg (by simp), if_neg (by omega)]

private theorem isZero_false {n : V3 ℝ} (h : ¬ n.lengthSquared < 1 / 10 ^ 14) : n.isZero = false := by
  by_contra hz
  have hz : n.isZero = true := by simpa using hz
  apply h
  simp only [V3.isZero, V3.tiny, decide_eq_true_eq, abs_lt] at hz
  obtain ⟨⟨a1, a2⟩, ⟨b1, b2⟩, c1, c2⟩ := hz
  have key : ∀ x : ℝ, -(100 * (1 / 2 ^ 52)) < x → x < 100 * (1 / 2 ^ 52) → x * x < 1 / 10 ^ 15 := by
    intro x h1 h2
    have : x * x < (100 * (1 / 2 ^ 52)) * (100 * (1 / 2 ^ 52)) := by nlinarith
    refine lt_trans this (by norm_num)
  have := key _ a1 a2
  have := key _ b1 b2
  have := key _ c1 c2
  unfold V3.lengthSquared
  norm_num at *
  linarith

private theorem boundary_nonneg (l : List (V3 ℝ)) : 0 ≤ Spec.boundary l := by
  have h : ∀ l : List (V3 ℝ), 0 ≤ Spec.pathLength l := by
    intro l
    induction l with
    | nil => exact le_rfl
    | cons a t ih =>
      cases t with
      | nil => exact le_rfl
      | cons b s => exact add_nonneg (Real.sqrt_nonneg _) ih
  cases l with
  | nil => exact le_rfl
  | cons a t => exact h _

/-- The outcomes of the last part of closing. -/
private theorem finish_cases (l : Loop) :
    (l.finish = (.err, l)) ∨
    (l.vertices.length < 3 ∧ l.finish = (.err, { l with closed := true })) ∨
    (3 ≤ l.vertices.length ∧ l.normal.isZero = false ∧ ∃ n, (n = l.normal ∨ n = -l.normal) ∧
      0 ≤ n.dot (Spec.areaVector l.vertices) ∧
      l.finish = (.ok (), ⟨l.vertices, n, true, n.dot (Spec.areaVector l.vertices), Spec.boundary l.vertices⟩)) := by
  unfold finish
  by_cases h : l.normal.lengthSquared < 1 / 10 ^ 14
  · rw [if_pos h]; exact Or.inl rfl
  rw [if_neg h]
  have hz := isZero_false h
  by_cases h3 : l.vertices.length < 3
  · right; left
    refine ⟨h3, ?_⟩
    have : ({ l with closed := true } : Loop).setArea = (.err, { l with closed := true }) := by
      unfold setArea
      simp [hz, h3]
    rw [this]
  · right; right
    refine ⟨by omega, hz, ?_⟩
    have hex : ∃ a, ({ l with closed := true } : Loop).setArea.1 = .ok a := by
      unfold setArea
      simp [hz, h3]
    obtain ⟨a, ha⟩ := hex
    obtain ⟨e1, e2, e3, e4, e5, e6⟩ := C47_area _ a ha
    obtain ⟨-, -, -, -, f⟩ := setArea_ok _ a ha
    generalize hn : (if l.normal.dot (Spec.areaVector l.vertices) < 0 then -l.normal else l.normal) = n at f
    rw [f] at e5 e6
    dsimp only at e5 e6
    refine ⟨n, e5, e6 ▸ e2, ?_⟩
    have hs : ({ l with closed := true } : Loop).setArea = (.ok a, ⟨l.vertices, n, true, a, l.perimeter⟩) :=
      Prod.ext ha f
    rw [hs]
    dsimp only
    have hnz : n.isZero = false := by rcases e5 with rfl | rfl <;> simp [isZero_neg, hz]
    rw [setPerimeter_of _ rfl hnz (by dsimp only; omega)]
    dsimp only
    rw [e6]

private theorem lastInLine_ne_panic (l : Loop) (h : 3 ≤ l.vertices.length) : l.lastInLine ≠ .panic := by
  unfold lastInLine
  rw [Outcome.index_of_lt (by omega), Outcome.index_of_lt (by omega), Outcome.index_of_lt (by omega)]
  exact isCollinear_ne_panic _ _ _

private theorem firstInLine_ne_panic (l : Loop) (h : 2 ≤ l.vertices.length) : l.firstInLine ≠ .panic := by
  unfold firstInLine
  rw [Outcome.index_of_lt (by omega), Outcome.index_of_lt (by omega), Outcome.index_of_lt (by omega)]
  exact isCollinear_ne_panic _ _ _

/-- The outcomes of closing: the loop is open with the vertices that it had or without the last one, closed with fewer
than three, or closed properly. -/
private theorem close_cases (l : Loop) :
    (l.close.1 = .err ∧ (l.close.2 = l ∨
      ∃ vs, vs.Sublist l.vertices ∧ (l.lastInLine = .ok true ∨ l.firstInLine = .ok true) ∧
        (l.close.2 = { l with vertices := vs } ∨
          l.closed = false ∧ vs.length < 3 ∧ l.close.2 = { l with vertices := vs, closed := true }))) ∨
    (l.closed = false ∧ l.close.1 = .ok () ∧ ∃ vs n, vs.Sublist l.vertices ∧ l.vertices.length ≤ vs.length + 2 ∧
      3 ≤ vs.length ∧ (n = l.normal ∨ n = -l.normal) ∧ l.normal.isZero = false ∧ 0 ≤ n.dot (Spec.areaVector vs) ∧
      l.close.2 = ⟨vs, n, true, n.dot (Spec.areaVector vs), Spec.boundary vs⟩) := by
  unfold close
  by_cases h3 : l.vertices.length < 3
  · rw [if_pos h3]; exact Or.inl ⟨rfl, Or.inl rfl⟩
  rw [if_neg h3]
  cases hl : l.lastInLine with
  | err => exact Or.inl ⟨rfl, Or.inl rfl⟩
  | panic => exact absurd hl (lastInLine_ne_panic l (by omega))
  | ok col =>
    dsimp only
    generalize hl1 : (if col = true then { l with vertices := l.vertices.dropLast } else l : Loop) = l1
    have hsub : l1.vertices.Sublist l.vertices := by
      rw [← hl1]; split_ifs
      · exact List.dropLast_sublist _
      · exact List.Sublist.refl _
    have hlen : l.vertices.length ≤ l1.vertices.length + 1 := by
      rw [← hl1]; split_ifs
      · simp only [List.length_dropLast]; omega
      · omega
    have hl1e : l1 = { l with vertices := l1.vertices } := by rw [← hl1]; split_ifs <;> rfl
    have hsame : (l1 = l) ∨ (l.lastInLine = .ok true) := by
      cases col with
      | true => exact Or.inr hl
      | false => left; rw [← hl1]; rfl
    have back : l1 = l ∨ ∃ vs, vs.Sublist l.vertices ∧ (Outcome.ok col = Outcome.ok true ∨ l.firstInLine = .ok true) ∧
        (l1 = { l with vertices := vs } ∨
          l.closed = false ∧ vs.length < 3 ∧ l1 = { l with vertices := vs, closed := true }) := by
      rcases hsame with h | h
      · exact Or.inl h
      · exact Or.inr ⟨l1.vertices, hsub, Or.inl (hl ▸ h), Or.inl hl1e⟩
    rw [Outcome.index_of_lt (by omega : 0 < l1.vertices.length)]
    simp only [Outcome.bind]
    cases hv : l1.validToAdd l1.vertices[0] with
    | err => exact Or.inl ⟨rfl, back⟩
    | panic => exact absurd hv (validToAdd_ne_panic _ _)
    | ok u =>
      have hcl : l.closed = false := by
        have : l1.closed = false := by
          by_contra hc
          have hc : l1.closed = true := by simpa using hc
          simp [validToAdd, hc] at hv
        rw [hl1e] at this; exact this
      dsimp only
      cases hf : l1.firstInLine with
      | err => exact Or.inl ⟨rfl, back⟩
      | panic => exact absurd hf (firstInLine_ne_panic l1 (by omega))
      | ok col2 =>
        dsimp only
        generalize hl2 : (if col2 = true then { l1 with vertices := l1.vertices.tail } else l1 : Loop) = l2
        have hl2e : l2 = { l with vertices := l2.vertices } := by
          rw [hl1e] at hl2
          rw [← hl2]; split_ifs <;> rfl
        have hsub2 : l2.vertices.Sublist l.vertices := by
          refine List.Sublist.trans ?_ hsub
          rw [← hl2]; split_ifs
          · exact List.tail_sublist _
          · exact List.Sublist.refl _
        have hlen2 : l.vertices.length ≤ l2.vertices.length + 2 := by
          have : l1.vertices.length ≤ l2.vertices.length + 1 := by
            rw [← hl2]; split_ifs
            · simp only [List.length_tail]; omega
            · omega
          omega
        have hsame2 : l2 = l ∨ (Outcome.ok col = Outcome.ok true ∨ l.firstInLine = .ok true) := by
          rcases hsame with h | h
          · cases col2 with
            | true => exact Or.inr (Or.inr (h ▸ hf))
            | false => left; rw [← hl2]; exact h
          · exact Or.inr (Or.inl (hl ▸ h))
        have hlt : l2.vertices.length < 3 → (Outcome.ok col = Outcome.ok true ∨ l.firstInLine = .ok true) := by
          intro hlt
          rcases hsame2 with h | h
          · rw [h] at hlt; exact absurd hlt h3
          · exact h
        rcases finish_cases l2 with h | ⟨h4, h⟩ | ⟨h4, h5, n, hn, h6, h⟩
        · left
          rw [h]
          refine ⟨rfl, ?_⟩
          rcases hsame2 with h | h
          · exact Or.inl h
          · exact Or.inr ⟨l2.vertices, hsub2, h, Or.inl hl2e⟩
        · left
          rw [h]
          refine ⟨rfl, Or.inr ⟨l2.vertices, hsub2, hlt h4, Or.inr ⟨hcl, h4, ?_⟩⟩⟩
          dsimp only
          rw [hl2e]
        · right
          rw [h]
          have en : l2.normal = l.normal := by rw [hl2e]
          rw [en] at hn h5
          exact ⟨hcl, rfl, l2.vertices, n, hsub2, hlen2, h4, hn, h5, h6, rfl⟩

/-- C48: closing never panics. If it succeeds, the loop was open, is now closed, keeps its vertices but for the first
and the last one, which may go, has three or more, and its area, which is not negative, and its perimeter are those of
the polygon. -/
theorem C48_close (l : Loop) :
    l.close.1 ≠ .panic ∧
    (l.close.1 = .ok () → l.closed = false ∧ l.close.2.closed = true ∧ l.close.2.vertices.Sublist l.vertices ∧
      l.vertices.length ≤ l.close.2.vertices.length + 2 ∧ 3 ≤ l.close.2.vertices.length ∧
      (l.close.2.normal = l.normal ∨ l.close.2.normal = -l.normal) ∧
      0 ≤ l.close.2.area ∧ l.close.2.area = l.close.2.normal.dot (Spec.areaVector l.close.2.vertices) ∧
      0 ≤ l.close.2.perimeter ∧ l.close.2.perimeter = Spec.boundary l.close.2.vertices) := by
  rcases close_cases l with ⟨h, -⟩ | ⟨h0, h, vs, n, h1, h2, h3, h4, -, h5, h6⟩
  · rw [h]; simp
  · rw [h, h6]
    exact ⟨by simp, fun _ => ⟨h0, rfl, h1, h2, h3, h4, h5, rfl, boundary_nonneg _, rfl⟩⟩

/-- C48, in part: a failed `close` leaves the loop unchanged if neither the last vertex nor the first one is in line
with its neighbours.  Missing: it does not in general (`C48_violated_close`). -/
theorem C48_close_failed_partial (l : Loop) (h : l.close.1 = .err) (h1 : l.lastInLine ≠ .ok true)
    (h2 : l.firstInLine ≠ .ok true) : l.close.2 = l := by
  rcases close_cases l with ⟨-, h3 | ⟨vs, -, h3 | h3, -⟩⟩ | ⟨-, h3, -⟩
  · exact h3
  · exact absurd h3 h1
  · exact absurd h3 h2
  · rw [h] at h3; simp at h3

/-- C48, in part: as long as no `close` fails, a closed loop is a polygon with the area and the perimeter that it
reports, whatever the history.  Missing: a failed `close` can leave a closed loop with a single vertex
(`C48_violated_close`). -/
theorem C48_history_partial (l : Loop) (h : Spec.Reachable l) : l.closed = true → Spec.Sound l := by
  have main : (l.normal = 0 ∨ l.normal.lengthSquared = 1) ∧ (l.closed = true → Spec.Sound l) := by
    induction h with
    | new => exact ⟨Or.inl rfl, by simp [Loop.new]⟩
    | step l op _ hc ih =>
      have neg1 : ∀ n : V3 ℝ, (-n).lengthSquared = n.lengthSquared := by intro n; simp [V3.lengthSquared]
      have push : ∀ p b, ((l.pushCollinear p b).2.normal = 0 ∨ (l.pushCollinear p b).2.normal.lengthSquared = 1) ∧
          ((l.pushCollinear p b).2.closed = true → Spec.Sound (l.pushCollinear p b).2) := by
        intro p b
        rcases push_cases l p b with h | ⟨hcl, h, -⟩ | ⟨hcl, vs, n, h, -, hn⟩
        · rw [h]; exact ih
        · rw [h]; exact ih
        · rw [h]
          refine ⟨?_, by simp [hcl]⟩
          rcases hn with rfl | hn
          · exact ih.1
          · exact Or.inr hn
      cases op with
      | push p => exact push p true
      | pushCollinear p b => exact push p b
      | close =>
        have hc := hc rfl
        simp only [Loop.step] at hc ⊢
        rcases close_cases l with ⟨h, -⟩ | ⟨-, -, vs, n, -, -, h3, hn, hz, h5, h6⟩
        · rw [hc] at h; simp at h
        · rw [h6]
          have hu : n.lengthSquared = 1 := by
            rcases ih.1 with h0 | h0
            · rw [h0] at hz
              simp [V3.isZero, V3.tiny] at hz
            · rcases hn with rfl | rfl
              · exact h0
              · rw [neg1]; exact h0
          exact ⟨Or.inr hu, fun _ => ⟨h3, hu, h5, rfl, rfl⟩⟩
      | open_ => exact ⟨ih.1, by simp [Loop.step, open_]⟩
      | reverse =>
        simp only [Loop.step, reverse, scale_neg_one]
        refine ⟨?_, ?_⟩
        · rcases ih.1 with h0 | h0
          · left; rw [h0]; ext <;> simp
          · right; rw [neg1]; exact h0
        · intro hcl
          obtain ⟨s1, s2, s3, s4, s5⟩ := ih.2 hcl
          refine ⟨by simpa using s1, by rw [neg1]; exact s2, s3, ?_, ?_⟩
          · dsimp only
            rw [s4, C47_direction]
            simp [V3.dot]
          · dsimp only
            rw [s5, boundary_eq, boundary_eq, cyc_reverse]
            congr 1
            funext a b
            simp only [V3.length, V3.lengthSquared, V3.sub_x, V3.sub_y, V3.sub_z]
            congr 1
            ring
  exact main.2

theorem isCollinear_eq (a b c : V3 ℝ) : a.isCollinear b c =
    if a.compare b && a.compare c then .err
    else if a.compare b || a.compare c || b.compare c then .ok true
    else .ok (decide (((b - a).cross (c - b)).lengthSquared < 1 / 10 ^ 10)) := by
  unfold V3.isCollinear
  have : ∀ v : V3 ℝ, (v.length < 1 / 100000 ↔ v.lengthSquared < 1 / 10 ^ 10) := by
    intro v
    unfold V3.length
    rw [Real.sqrt_lt' (by norm_num)]
    norm_num
  simp only [this]

private theorem normalize_z (s : ℝ) (h : 1 / 10 ^ 5 < s) : (⟨0, 0, s⟩ : V3 ℝ).normalize = .ok ⟨0, 0, 1⟩ := by
  have hs : 0 < s := lt_trans (by norm_num) h
  have e : (⟨0, 0, s⟩ : V3 ℝ).lengthSquared = s ^ 2 := by simp [V3.lengthSquared]; ring
  unfold V3.normalize
  rw [e, if_pos (by nlinarith), Real.sqrt_sq hs.le]
  congr 1
  ext <;> simp
  field_simp

private theorem tri (a b c : V3 ℝ) (s : ℝ) (hab : a.compare b = false) (hac : a.compare c = false) (hbc : b.compare c = false)
    (hs : (b - a).cross (c - b) = ⟨0, 0, s⟩) (h : 1 / 10 ^ 5 < s) :
    ((new.push a).2.push b).2.push c = (.ok (), ⟨[a, b, c], ⟨0, 0, 1⟩, false, -1, -1⟩) := by
  have h1 : new.push a = (.ok (), ⟨[a], 0, false, -1, -1⟩) := by
    simp [push, pushCollinear, validToAdd, new, V3.isZero, V3.tiny, replacesLast, Outcome.bind]
  have h2 : (⟨[a], 0, false, -1, -1⟩ : Loop).push b = (.ok (), ⟨[a, b], 0, false, -1, -1⟩) := by
    simp [push, pushCollinear, validToAdd, V3.isZero, V3.tiny, replacesLast, hab, Outcome.bind]
  have hl : (⟨0, 0, s⟩ : V3 ℝ).lengthSquared = s ^ 2 := by simp [V3.lengthSquared]; ring
  have hs1 : (1:ℝ) / 10 ^ 10 < s ^ 2 := by nlinarith
  have hs2 : (1:ℝ) / 10 ^ 15 < s ^ 2 := by refine lt_trans ?_ hs1; norm_num
  rw [h1, h2]
  have hr : (⟨[a, b], 0, false, -1, -1⟩ : Loop).replacesLast c true = .ok false := by
    simp only [replacesLast, Outcome.index]
    simp [Outcome.bind, isCollinear_eq, hab, hac, hbc, hs, hl]
    norm_num at hs1; linarith
  unfold push pushCollinear
  rw [hr]
  have hv : (⟨[a, b], 0, false, -1, -1⟩ : Loop).validToAdd c = .ok () := by
    simp [validToAdd, V3.isZero, V3.tiny, Outcome.bind]
  rw [hv]
  simp only [List.getLast?_cons_cons, List.getLast?_singleton, Option.map_some, hbc]
  simp [setNormal, hs, hl, List.find?]
  have : (0 : V3 ℝ).lengthSquared = 0 := by simp [V3.lengthSquared]
  rw [this, if_neg (by norm_num)]
  have : decide ((10 ^ 15 : ℝ)⁻¹ < s ^ 2) = true := by simpa using hs2
  rw [this]
  simp [normalize_z s h, hs]

/-- The points of `C48_violated_close`. -/
private noncomputable def q0 : V3 ℝ := ⟨0, 0, 0⟩
private noncomputable def q1 : V3 ℝ := ⟨1, 1 / 2000, 0⟩
private noncomputable def q2 : V3 ℝ := ⟨1 / 2, 1 / 2000, 0⟩
private noncomputable def q3 : V3 ℝ := ⟨0, 1 / 2000, 0⟩

private theorem compare_eq (a b : V3 ℝ) : a.compare b = decide ((a - b).lengthSquared ≤ 1 / 10 ^ 6) := by
  unfold V3.compare V3.compareBy
  norm_num

/-- C48 fails: four points are accepted, then `close` fails and leaves a closed loop with a single vertex, whose area is
reported to be `-1`, and to which nothing can be added. -/
theorem C48_violated_close :
    ∃ a b c d : V3 ℝ,
      let l1 := new.push a
      let l2 := l1.2.push b
      let l3 := l2.2.push c
      let l4 := l3.2.push d
      let l5 := l4.2.close
      l1.1 = .ok () ∧ l2.1 = .ok () ∧ l3.1 = .ok () ∧ l4.1 = .ok () ∧ l4.2.vertices.length = 3 ∧
      l5.1 = .err ∧ l5.2.closed = true ∧ l5.2.vertices.length = 1 ∧ l5.2.getArea = .ok (-1) ∧
      ∀ p, (l5.2.push p).1 = .err := by
  have h01 : q0.compare q1 = false := by rw [compare_eq]; norm_num [q0, q1, V3.lengthSquared]
  have h02 : q0.compare q2 = false := by rw [compare_eq]; norm_num [q0, q2, V3.lengthSquared]
  have h12 : q1.compare q2 = false := by rw [compare_eq]; norm_num [q1, q2, V3.lengthSquared]
  have h10 : q1.compare q0 = false := by rw [compare_eq]; norm_num [q0, q1, V3.lengthSquared]
  have h13 : q1.compare q3 = false := by rw [compare_eq]; norm_num [q1, q3, V3.lengthSquared]
  have h23 : q2.compare q3 = false := by rw [compare_eq]; norm_num [q2, q3, V3.lengthSquared]
  have h30 : q3.compare q0 = true := by rw [compare_eq]; norm_num [q0, q3, V3.lengthSquared]
  have h11 : q1.compare q1 = true := by rw [compare_eq]; norm_num [q1, V3.lengthSquared]
  have hz : (⟨0, 0, 1⟩ : V3 ℝ).isZero = false := by norm_num [V3.isZero, V3.tiny]
  have e3 := tri q0 q1 q2 (1 / 4000) h01 h02 h12 (by ext <;> norm_num [q0, q1, q2]) (by norm_num)
  have e1 : (new.push q0) = (.ok (), ⟨[q0], 0, false, -1, -1⟩) := by
    simp [push, pushCollinear, validToAdd, new, V3.isZero, V3.tiny, replacesLast, Outcome.bind]
  have e2 : (⟨[q0], 0, false, -1, -1⟩ : Loop).push q1 = (.ok (), ⟨[q0, q1], 0, false, -1, -1⟩) := by
    simp [push, pushCollinear, validToAdd, V3.isZero, V3.tiny, replacesLast, h01, Outcome.bind]
  have c3 : q1.isCollinear q2 q3 = .ok true := by
    rw [isCollinear_eq, h12, h13, h23]
    norm_num [q1, q2, q3, V3.lengthSquared]
  have i3 : ((⟨q2, q3⟩ : Segment ℝ).intersect ⟨q0, q1⟩) = none := by
    norm_num [Segment.intersect, Segment.getIntersectionPt, q0, q1, q2, q3, V3.isParallel, V3.isZero, V3.tiny,
      V3.lengthSquared, V3.dot, abs_of_pos, abs_of_neg]
  have e4 : (⟨[q0, q1, q2], ⟨0, 0, 1⟩, false, -1, -1⟩ : Loop).push q3 =
      (.ok (), ⟨[q0, q1, q3], ⟨0, 0, 1⟩, false, -1, -1⟩) := by
    have hv : (⟨[q0, q1, q2], ⟨0, 0, 1⟩, false, -1, -1⟩ : Loop).validToAdd q3 = .ok () := by
      have hc : (⟨[q0, q1, q2], ⟨0, 0, 1⟩, false, -1, -1⟩ : Loop).isCoplanar q3 = .ok true := by
        simp [isCoplanar, hz, q0, q3, V3.dot]
      simp [validToAdd, hz, hc, Outcome.bind, consecutive, i3]
    have hr : (⟨[q0, q1, q2], ⟨0, 0, 1⟩, false, -1, -1⟩ : Loop).replacesLast q3 true = .ok true := by
      simp [replacesLast, Outcome.index, Outcome.bind, c3]
    unfold push pushCollinear
    rw [hv, hr]
    simp [h23, setNormal, V3.lengthSquared]
    norm_num
  have e5 : (⟨[q0, q1, q3], ⟨0, 0, 1⟩, false, -1, -1⟩ : Loop).close =
      (.err, ⟨[q1], ⟨0, 0, 1⟩, true, -1, -1⟩) := by
    have a1 : (⟨[q0, q1, q3], ⟨0, 0, 1⟩, false, -1, -1⟩ : Loop).lastInLine = .ok true := by
      simp [lastInLine, Outcome.index, Outcome.bind, isCollinear_eq, h13, h10, h30]
    have a2 : (⟨[q0, q1], ⟨0, 0, 1⟩, false, -1, -1⟩ : Loop).validToAdd q0 = .ok () := by
      have hc : (⟨[q0, q1], ⟨0, 0, 1⟩, false, -1, -1⟩ : Loop).isCoplanar q0 = .ok true := by
        simp [isCoplanar, hz, q0, V3.dot]
      simp [validToAdd, hz, hc, Outcome.bind]
    have a3 : (⟨[q0, q1], ⟨0, 0, 1⟩, false, -1, -1⟩ : Loop).firstInLine = .ok true := by
      simp [firstInLine, Outcome.index, Outcome.bind, isCollinear_eq, h10, h11]
    unfold close
    rw [a1]
    simp [Outcome.index, Outcome.bind, a2, a3, finish, setArea, hz, V3.lengthSquared]
    norm_num
  refine ⟨q0, q1, q2, q3, ?_⟩
  simp only [e1, e2] at e3 ⊢
  simp only [e3, e4, e5]
  refine ⟨trivial, trivial, trivial, trivial, rfl, trivial, trivial, rfl, rfl, fun p => ?_⟩
  unfold push
  rw [C48_push_closed _ _ _ rfl]

/-- A triangle that is built and closed: the hypotheses of C47 and C48 are met. -/
example : ∃ l : Loop, Spec.Reachable l ∧ l.closed = true ∧ l.vertices.length = 3 ∧ l.area = 1 / 2 := by
  have cmp : ∀ x y z : ℝ, 1 ≤ x * x + y * y + z * z → ∀ a b : V3 ℝ, a - b = ⟨x, y, z⟩ → a.compare b = false := by
    intro x y z h a b e
    rw [compare_eq, e]
    apply decide_eq_false
    rw [not_le]
    exact lt_of_lt_of_le (show (1 : ℝ) / 10 ^ 6 < 1 by norm_num) h
  have h01 : (⟨0, 0, 0⟩ : V3 ℝ).compare ⟨1, 0, 0⟩ = false := cmp (-1) 0 0 (by norm_num) _ _ (by ext <;> simp)
  have h02 : (⟨0, 0, 0⟩ : V3 ℝ).compare ⟨0, 1, 0⟩ = false := cmp 0 (-1) 0 (by norm_num) _ _ (by ext <;> simp)
  have h12 : (⟨1, 0, 0⟩ : V3 ℝ).compare ⟨0, 1, 0⟩ = false := cmp 1 (-1) 0 (by norm_num) _ _ (by ext <;> simp)
  have h10 : (⟨1, 0, 0⟩ : V3 ℝ).compare ⟨0, 0, 0⟩ = false := cmp 1 0 0 (by norm_num) _ _ (by ext <;> simp)
  have h20 : (⟨0, 1, 0⟩ : V3 ℝ).compare ⟨0, 0, 0⟩ = false := cmp 0 1 0 (by norm_num) _ _ (by ext <;> simp)
  have h21 : (⟨0, 1, 0⟩ : V3 ℝ).compare ⟨1, 0, 0⟩ = false := cmp (-1) 1 0 (by norm_num) _ _ (by ext <;> simp)
  have hz : (⟨0, 0, 1⟩ : V3 ℝ).isZero = false := by norm_num [V3.isZero, V3.tiny]
  have e3 := tri ⟨0, 0, 0⟩ ⟨1, 0, 0⟩ ⟨0, 1, 0⟩ 1 h01 h02 h12 (by ext <;> norm_num) (by norm_num)
  have hok : (⟨[⟨0, 0, 0⟩, ⟨1, 0, 0⟩, ⟨0, 1, 0⟩], ⟨0, 0, 1⟩, false, -1, -1⟩ : Loop).close.1 = .ok () ∧
      (⟨[⟨0, 0, 0⟩, ⟨1, 0, 0⟩, ⟨0, 1, 0⟩], ⟨0, 0, 1⟩, false, -1, -1⟩ : Loop).close.2.vertices.length = 3 ∧
      (⟨[⟨0, 0, 0⟩, ⟨1, 0, 0⟩, ⟨0, 1, 0⟩], ⟨0, 0, 1⟩, false, -1, -1⟩ : Loop).close.2.area = 1 / 2 ∧
      (⟨[⟨0, 0, 0⟩, ⟨1, 0, 0⟩, ⟨0, 1, 0⟩], ⟨0, 0, 1⟩, false, -1, -1⟩ : Loop).close.2.closed = true := by
    have a1 : (⟨[⟨0, 0, 0⟩, ⟨1, 0, 0⟩, ⟨0, 1, 0⟩], ⟨0, 0, 1⟩, false, -1, -1⟩ : Loop).lastInLine = .ok false := by
      simp only [lastInLine, Outcome.index]
      simp [Outcome.bind, isCollinear_eq, h12, h10, h20]
      norm_num [V3.lengthSquared]
    have i1 : ((⟨⟨0, 1, 0⟩, ⟨0, 0, 0⟩⟩ : Segment ℝ).intersect ⟨⟨0, 0, 0⟩, ⟨1, 0, 0⟩⟩) = none := by
      norm_num [Segment.intersect, Segment.getIntersectionPt, V3.isParallel, V3.isZero, V3.tiny, V3.lengthSquared, V3.dot]
    have a2 : (⟨[⟨0, 0, 0⟩, ⟨1, 0, 0⟩, ⟨0, 1, 0⟩], ⟨0, 0, 1⟩, false, -1, -1⟩ : Loop).validToAdd ⟨0, 0, 0⟩ = .ok () := by
      have hc : (⟨[⟨0, 0, 0⟩, ⟨1, 0, 0⟩, ⟨0, 1, 0⟩], ⟨0, 0, 1⟩, false, -1, -1⟩ : Loop).isCoplanar ⟨0, 0, 0⟩ = .ok true := by
        simp [isCoplanar, hz, V3.dot]
      simp [validToAdd, hz, hc, Outcome.bind, consecutive, i1]
    have a3 : (⟨[⟨0, 0, 0⟩, ⟨1, 0, 0⟩, ⟨0, 1, 0⟩], ⟨0, 0, 1⟩, false, -1, -1⟩ : Loop).firstInLine = .ok false := by
      simp only [firstInLine, Outcome.index]
      simp [Outcome.bind, isCollinear_eq, h20, h21, h01]
      norm_num [V3.lengthSquared]
    have hl : ¬ (⟨0, 0, 1⟩ : V3 ℝ).lengthSquared < 1 / 10 ^ 14 := by norm_num [V3.lengthSquared]
    unfold close
    rw [a1]
    simp [Outcome.index, Outcome.bind, a2, a3, finish, setArea, setPerimeter, hz, around]
    rw [if_neg (by simpa using hl)]
    norm_num [V3.dot, hz]
  refine ⟨_, .step _ .close (.step _ (.push ⟨0, 1, 0⟩) (.step _ (.push ⟨1, 0, 0⟩) (.step _ (.push ⟨0, 0, 0⟩) .new ?_) ?_) ?_)
    ?_, ?_, ?_, ?_⟩
  · simp
  · simp
  · simp
  all_goals simp only [step, e3]
  · exact fun _ => hok.1
  · exact hok.2.2.2
  · exact hok.2.1
  · exact hok.2.2.1

/-! ### C68 -/

/-- C68: an open loop has no inside; a point off the plane of the loop is outside. -/
theorem C68_refused (l : Loop) (p : V3 ℝ) :
    (l.closed = false → l.testPoint p = .err) ∧
    (l.closed = true → l.isCoplanar p = .ok false → l.testPoint p = .ok false) := by
  constructor
  · intro h; simp [testPoint, h]
  · intro h h'; simp [testPoint, h, h', Outcome.bind]

theorem containsPoint_ok (s : Segment ℝ) (p : V3 ℝ) : ∃ b, s.containsPoint p = .ok b := by
  unfold Segment.containsPoint
  split_ifs with h
  · exact ⟨false, rfl⟩
  · cases hc : p.isCollinear s.start s.fin with
    | ok c => cases c <;> exact ⟨_, rfl⟩
    | panic => exact absurd hc (isCollinear_ne_panic _ _ _)
    | err =>
      exfalso
      rw [isCollinear_eq] at hc
      split_ifs at hc with h1
      apply h
      simp only [Bool.and_eq_true, compare_eq, decide_eq_true_eq] at h1
      obtain ⟨h1, h2⟩ := h1
      rw [V3.distance, Real.sqrt_lt' (by norm_num)]
      simp only [V3.lengthSquared, V3.squaredDistance, V3.sub_x, V3.sub_y, V3.sub_z] at h1 h2 ⊢
      norm_num at h1 h2 ⊢
      nlinarith [mul_self_nonneg (p.x - s.start.x + (p.x - s.fin.x)), mul_self_nonneg (p.y - s.start.y + (p.y - s.fin.y)),
        mul_self_nonneg (p.z - s.start.z + (p.z - s.fin.z))]

/-- C68, in part: a point on a side of a closed loop, of a centimetre or more, is inside.  Missing: the points within
the loop, for which it fails (`C68_violated_near`), and those outside; see `C68_inside_partial` and `C68_outside_partial`. -/
theorem C68_edge_partial (l : Loop) (hc : l.closed = true)
    (a b : V3 ℝ) (hab : (a, b) ∈ around l.vertices) (hl : 1 / 100 ≤ a.distance b) (t : ℝ) (h0 : 0 ≤ t) (h1 : t ≤ 1)
    (hp : l.isCoplanar (Segment.Spec.pointAt ⟨a, b⟩ t) = .ok true) :
    l.testPoint (Segment.Spec.pointAt ⟨a, b⟩ t) = .ok true := by
  have hin : (⟨a, b⟩ : Segment ℝ).containsPoint (Segment.Spec.pointAt ⟨a, b⟩ t) = .ok true := by
    rw [Segment.C46_contains ⟨a, b⟩ hl t]
    congr 1
    apply decide_eq_true
    refine ⟨?_, h1⟩
    have : 0 ≤ t * a.squaredDistance b := by
      apply mul_nonneg h0
      unfold V3.squaredDistance
      linarith [mul_self_nonneg (a.x - b.x), mul_self_nonneg (a.y - b.y), mul_self_nonneg (a.z - b.z)]
    refine le_trans ?_ this
    norm_num
  generalize Segment.Spec.pointAt ⟨a, b⟩ t = p at *
  obtain ⟨v0, v1, t', hv⟩ : ∃ v0 v1 t', l.vertices = v0 :: v1 :: t' := by
    match h : l.vertices, hab with
    | [], hab => simp [around] at hab
    | [v], hab =>
      simp only [around, List.nil_append, List.zip_cons_cons, List.zip_nil_left, List.mem_singleton, Prod.mk.injEq] at hab
      obtain ⟨rfl, rfl⟩ := hab
      simp [V3.distance, V3.squaredDistance] at hl
      norm_num at hl
    | v0 :: v1 :: t', _ => exact ⟨v0, v1, t', rfl⟩
  unfold testPoint
  rw [hc, hp]
  simp only [Bool.not_true, Bool.false_eq_true, if_false, Outcome.bind]
  have i0 : Outcome.index l.vertices 0 = .ok v0 := by simp [Outcome.index, hv]
  have i1 : Outcome.index l.vertices 1 = .ok v1 := by simp [Outcome.index, hv]
  rw [i0, i1]
  dsimp only
  generalize hd : (p - (v0 + v1).scale (1 / 2)).scale 1000 = d
  have key : ∀ (es : List (V3 ℝ × V3 ℝ)) (k : ℕ), (a, b) ∈ es →
      testPoint.count l p d ⟨p, p + d⟩ k es = .ok none := by
    intro es
    induction es with
    | nil => intro k h; simp at h
    | cons e es ih =>
      intro k h
      obtain ⟨x, y⟩ := e
      obtain ⟨c, hcp⟩ := containsPoint_ok ⟨x, y⟩ p
      unfold testPoint.count
      dsimp only
      rw [hcp]
      simp only [Outcome.bind]
      cases c with
      | true => rfl
      | false =>
        have hmem : (a, b) ∈ es := by
          rcases List.mem_cons.1 h with h | h
          · obtain ⟨rfl, rfl⟩ := Prod.mk.inj h
            rw [hin] at hcp; simp at hcp
          · exact h
        simp only [Bool.false_eq_true, if_false]
        split
        · exact ih _ hmem
        · split_ifs <;> exact ih _ hmem
  rw [key _ _ hab]

private noncomputable def sq : Loop :=
  ⟨[⟨0, 0, 0⟩, ⟨10, 0, 0⟩, ⟨10, 10, 0⟩, ⟨0, 10, 0⟩], ⟨0, 0, 1⟩, true, 100, 40⟩

/-- C68 fails: a point within a square of ten metres, two millimetres from the middle of its first side, is reported
to be outside, since the ray that is cast from it is only two metres long. -/
theorem C68_violated_near :
    ∃ (l : Loop) (p : V3 ℝ), l.closed = true ∧
      l.vertices = [⟨0, 0, 0⟩, ⟨10, 0, 0⟩, ⟨10, 10, 0⟩, ⟨0, 10, 0⟩] ∧ l.normal = ⟨0, 0, 1⟩ ∧
      p = ⟨5, 1 / 500, 0⟩ ∧ l.testPoint p = .ok false := by
  refine ⟨sq, ⟨5, 1 / 500, 0⟩, rfl, rfl, rfl, rfl, ?_⟩
  have hz : (⟨0, 0, 1⟩ : V3 ℝ).isZero = false := by norm_num [V3.isZero, V3.tiny]
  have hc : sq.isCoplanar ⟨5, 1 / 500, 0⟩ = .ok true := by simp [isCoplanar, sq, hz, V3.dot]
  have nc : ∀ a b : V3 ℝ, (a - b).lengthSquared > 1 / 10 ^ 6 → a.compare b = false := by
    intro a b h
    rw [V3.compare, V3.compareBy]
    apply decide_eq_false
    rw [not_le]
    norm_num at h ⊢
    exact h
  have ns : ∀ a b : V3 ℝ, ((⟨5, 1 / 500, 0⟩ : V3 ℝ) - a).lengthSquared > 1 / 10 ^ 6 →
      ((⟨5, 1 / 500, 0⟩ : V3 ℝ) - b).lengthSquared > 1 / 10 ^ 6 → (a - b).lengthSquared > 1 / 10 ^ 6 →
      ((a - ⟨5, 1 / 500, 0⟩).cross (b - a)).lengthSquared ≥ 1 / 10 ^ 10 →
      (⟨a, b⟩ : Segment ℝ).containsPoint ⟨5, 1 / 500, 0⟩ = .ok false := by
    intro a b h1 h2 h3 h4
    unfold Segment.containsPoint
    split_ifs
    · rfl
    · dsimp only
      have h5 : ¬ ((a - ⟨5, 1 / 500, 0⟩).cross (b - a)).length < 1 / 100000 := by
        rw [not_lt, V3.length, Real.le_sqrt' (by norm_num)]
        norm_num at h4 ⊢
        exact h4
      unfold V3.isCollinear
      rw [nc _ _ h1, nc _ _ h2, nc _ _ h3]
      simp only [Bool.and_self, Bool.or_self, Bool.false_eq_true, if_false, h5, decide_false, Outcome.bind]
      simp
  unfold testPoint
  rw [hc]
  simp only [Outcome.bind]
  simp only [sq, Outcome.index, around, List.zip]
  simp only [List.getElem?_cons_zero, List.getElem?_cons_succ, List.nil_append, List.cons_append, List.zipWith]
  simp only [testPoint.count]
  rw [ns _ _ (by norm_num [V3.lengthSquared]) (by norm_num [V3.lengthSquared]) (by norm_num [V3.lengthSquared])
    (by norm_num [V3.lengthSquared]),
    ns _ _ (by norm_num [V3.lengthSquared]) (by norm_num [V3.lengthSquared]) (by norm_num [V3.lengthSquared])
    (by norm_num [V3.lengthSquared]),
    ns _ _ (by norm_num [V3.lengthSquared]) (by norm_num [V3.lengthSquared]) (by norm_num [V3.lengthSquared])
    (by norm_num [V3.lengthSquared]),
    ns _ _ (by norm_num [V3.lengthSquared]) (by norm_num [V3.lengthSquared]) (by norm_num [V3.lengthSquared])
    (by norm_num [V3.lengthSquared])]
  norm_num [Segment.getIntersectionPt, V3.isParallel, V3.isZero, V3.tiny, V3.lengthSquared, V3.dot, Outcome.bind,
    abs_of_pos, abs_of_neg]

/-- The middle of a side of a square. -/
example : ((⟨0, 0, 0⟩ : V3 ℝ), (⟨10, 0, 0⟩ : V3 ℝ)) ∈ around sq.vertices ∧
    1 / 100 ≤ (⟨0, 0, 0⟩ : V3 ℝ).distance ⟨10, 0, 0⟩ ∧
    sq.isCoplanar (Segment.Spec.pointAt ⟨⟨0, 0, 0⟩, ⟨10, 0, 0⟩⟩ (1 / 2)) = .ok true := by
  have hz : (⟨0, 0, 1⟩ : V3 ℝ).isZero = false := by norm_num [V3.isZero, V3.tiny]
  refine ⟨by simp [sq, around], ?_, by simp [isCoplanar, sq, hz, V3.dot, Segment.Spec.pointAt]⟩
  rw [V3.distance, Real.le_sqrt' (by norm_num)]
  norm_num [V3.squaredDistance]

end Simple.Geometry.Loop
