import Mathlib.Algebra.Order.Field.Basic
import Mathlib.Analysis.SpecialFunctions.Pow.Real
import Verif.Prelude

/-! Model of `/repo/geometry/src/vector3d.rs` and `/repo/geometry/src/point3d.rs`.  `Float` is a field `K`
(or `ℝ` where a square root is taken); `Vector3D` and `Point3D` are the same type. -/

namespace Simple.Geometry

/-- `vector3d.rs:35-42`, `struct Vector3D`, and `point3d.rs:34-41`, `struct Point3D`. -/
@[ext] structure V3 (K : Type*) where
  x : K
  y : K
  z : K
deriving DecidableEq, Repr

namespace V3

section Field

variable {K : Type*} [Field K]

/-- `vector3d.rs:331-337` and `point3d.rs:233-254`. -/
instance : Add (V3 K) := ⟨fun a b => ⟨a.x + b.x, a.y + b.y, a.z + b.z⟩⟩
/-- `vector3d.rs:363-369` and `point3d.rs:280-298`. -/
instance : Sub (V3 K) := ⟨fun a b => ⟨a.x - b.x, a.y - b.y, a.z - b.z⟩⟩
/-- `vector3d.rs:355-361`. -/
instance : Neg (V3 K) := ⟨fun a => ⟨-a.x, -a.y, -a.z⟩⟩
/-- `Vector3D::new(0., 0., 0.)`. -/
instance : Zero (V3 K) := ⟨⟨0, 0, 0⟩⟩

/-- `vector3d.rs:289-295` and `point3d.rs:316-326`, `v * s`. -/
def scale (a : V3 K) (s : K) : V3 K := ⟨a.x * s, a.y * s, a.z * s⟩

/-- `vector3d.rs:315-321`, `v / s`. -/
def div (a : V3 K) (s : K) : V3 K := ⟨a.x / s, a.y / s, a.z / s⟩

/-- `vector3d.rs:279-287`, `a * b`. -/
def dot (a b : V3 K) : K := a.x * b.x + a.y * b.y + a.z * b.z

/-- `vector3d.rs:192-198`, `cross`. -/
def cross (a v : V3 K) : V3 K := ⟨a.y * v.z - a.z * v.y, a.z * v.x - a.x * v.z, a.x * v.y - a.y * v.x⟩

/-- `vector3d.rs:211-213`, `length_squared`. -/
def lengthSquared (a : V3 K) : K := a.x * a.x + a.y * a.y + a.z * a.z

/-- `point3d.rs:87-92`, `squared_distance`. -/
def squaredDistance (a b : V3 K) : K :=
  (a.x - b.x) * (a.x - b.x) + (a.y - b.y) * (a.y - b.y) + (a.z - b.z) * (a.z - b.z)

/-- `vector3d.rs:270-276`, `scale_components`. -/
def scaleComponents (a : V3 K) (x y z : K) : V3 K := ⟨a.x * x, a.y * y, a.z * z⟩

@[simp] theorem add_x (a b : V3 K) : (a + b).x = a.x + b.x := rfl
@[simp] theorem add_y (a b : V3 K) : (a + b).y = a.y + b.y := rfl
@[simp] theorem add_z (a b : V3 K) : (a + b).z = a.z + b.z := rfl
@[simp] theorem sub_x (a b : V3 K) : (a - b).x = a.x - b.x := rfl
@[simp] theorem sub_y (a b : V3 K) : (a - b).y = a.y - b.y := rfl
@[simp] theorem sub_z (a b : V3 K) : (a - b).z = a.z - b.z := rfl
@[simp] theorem neg_x (a : V3 K) : (-a).x = -a.x := rfl
@[simp] theorem neg_y (a : V3 K) : (-a).y = -a.y := rfl
@[simp] theorem neg_z (a : V3 K) : (-a).z = -a.z := rfl
@[simp] theorem zero_x : (0 : V3 K).x = 0 := rfl
@[simp] theorem zero_y : (0 : V3 K).y = 0 := rfl
@[simp] theorem zero_z : (0 : V3 K).z = 0 := rfl
@[simp] theorem scale_x (a : V3 K) (s : K) : (a.scale s).x = a.x * s := rfl
@[simp] theorem scale_y (a : V3 K) (s : K) : (a.scale s).y = a.y * s := rfl
@[simp] theorem scale_z (a : V3 K) (s : K) : (a.scale s).z = a.z * s := rfl
@[simp] theorem cross_x (a b : V3 K) : (a.cross b).x = a.y * b.z - a.z * b.y := rfl
@[simp] theorem cross_y (a b : V3 K) : (a.cross b).y = a.z * b.x - a.x * b.z := rfl
@[simp] theorem cross_z (a b : V3 K) : (a.cross b).z = a.x * b.y - a.y * b.x := rfl

end Field

section Ordered

variable {K : Type*} [Field K] [LinearOrder K]

/-- `100. * Float::EPSILON`. -/
def tiny : K := 100 * (1 / 2 ^ 52)

/-- `vector3d.rs:237-240` and `point3d.rs:73-76`, `is_zero`. -/
def isZero (a : V3 K) : Bool := decide (|a.x| < tiny ∧ |a.y| < tiny ∧ |a.z| < tiny)

/-- `vector3d.rs:186-189`, `Vector3D::compare`. -/
def compareVec (a b : V3 K) : Bool :=
  decide (|a.x - b.x| < 1 / 100000 ∧ |a.y - b.y| < 1 / 100000 ∧ |a.z - b.z| < 1 / 100000)

/-- `vector3d.rs:243-253`, `is_parallel`. -/
def isParallel (a v : V3 K) : Bool :=
  if v.isZero || a.isZero then false
  else decide (|a.dot v * a.dot v - a.lengthSquared * v.lengthSquared| < 1 / 100000)

/-- `vector3d.rs:256-267`, `is_same_direction`. -/
def isSameDirection (a v : V3 K) : Bool := if !a.isParallel v then false else decide (0 < a.dot v)

/-- `point3d.rs:118-120`, `compare_by`. -/
def compareBy (a b : V3 K) (eps : K) : Bool := decide ((a - b).lengthSquared ≤ eps * eps)

/-- `point3d.rs:132-134`, `Point3D::compare`. -/
def compare (a b : V3 K) : Bool := a.compareBy b (1 / 1000)

/-- `point3d.rs:163-167`, `distance_to_plane`. -/
def distanceToPlane (a p normal : V3 K) : K := (a - p).dot normal

end Ordered

section Real

/-- `vector3d.rs:201-203`, `length`. -/
noncomputable def length (a : V3 ℝ) : ℝ := Real.sqrt a.lengthSquared

/-- `vector3d.rs:216-228`, `normalize` (without the feature `quick_inv_sqrt`). -/
noncomputable def normalize (a : V3 ℝ) : Outcome (V3 ℝ) :=
  if a.lengthSquared > 1 / 10 ^ 20 then .ok (a.scale (1 / Real.sqrt a.lengthSquared)) else .panic

/-- `vector3d.rs:109-143`, `get_perpendicular`. -/
noncomputable def getPerpendicular (a : V3 ℝ) : Outcome (V3 ℝ) :=
  if tiny < |a.x| then
    let ay := a.x / Real.sqrt (a.x * a.x + a.y * a.y)
    .ok ⟨-a.y * ay / a.x, ay, 0⟩
  else if tiny < |a.y| then
    let ax := a.y / Real.sqrt (a.x * a.x + a.y * a.y)
    .ok ⟨ax, -a.x * ax / a.y, 0⟩
  else if tiny < |a.z| then
    let ax := a.z / Real.sqrt (a.z * a.z + a.x * a.x)
    .ok ⟨ax, 0, -a.x * ax / a.z⟩
  else .err

/-- `point3d.rs:102-105`, `distance`. -/
noncomputable def distance (a b : V3 ℝ) : ℝ := Real.sqrt (a.squaredDistance b)

/-- `point3d.rs:139-157`, `is_collinear`. -/
noncomputable def isCollinear (a b c : V3 ℝ) : Outcome Bool :=
  if a.compare b && a.compare c then .err
  else if a.compare b || a.compare c || b.compare c then .ok true
  else .ok (decide (((b - a).cross (c - b)).length < 1 / 100000))

/-- `point3d.rs:170-183`, `squared_distance_to_line`. -/
noncomputable def squaredDistanceToLine (p a b : V3 ℝ) : Outcome ℝ :=
  if a.compareBy b (1 / 100000) then .panic
  else (b - a).normalize.bind fun dir =>
    .ok ((p - a) - dir.scale ((p - a).dot dir)).lengthSquared

/-- `point3d.rs:218-221`, `project_into_plane`. -/
noncomputable def projectIntoPlane (p anchor normal : V3 ℝ) : V3 ℝ :=
  p - normal.scale (p.distanceToPlane anchor normal)

end Real

end V3

end Simple.Geometry
