import Mathlib.LinearAlgebra.Matrix.NonsingularInverse
import Mathlib.Analysis.SpecialFunctions.Trigonometric.Basic
import Verif.Geometry.BBoxModel

/-! Model of `/repo/geometry/src/transform.rs`.  `Float` is a field (`ℝ` for the rotations); an array of sixteen
numbers is a matrix, `elem!(row, col)` being its element. -/

namespace Simple.Geometry

/-- `transform.rs:40-44`, `struct Transform`. -/
@[ext] structure Transform (K : Type*) where
  elements : Matrix (Fin 4) (Fin 4) K
  invElements : Matrix (Fin 4) (Fin 4) K

namespace Transform

section Field

variable {K : Type*} [Field K]

/-- `transform.rs:52-74`, `mul4x4point`. -/
def mulPoint (m : Matrix (Fin 4) (Fin 4) K) (p : V3 K) : V3 K :=
  let x := m 0 0 * p.x + m 0 1 * p.y + m 0 2 * p.z + m 0 3
  let y := m 1 0 * p.x + m 1 1 * p.y + m 1 2 * p.z + m 1 3
  let z := m 2 0 * p.x + m 2 1 * p.y + m 2 2 * p.z + m 2 3
  let w := m 3 0 * p.x + m 3 1 * p.y + m 3 2 * p.z + m 3 3
  (⟨x, y, z⟩ : V3 K).div w

/-- `transform.rs:76-83`, `mul4x4vec`. -/
def mulVec (m : Matrix (Fin 4) (Fin 4) K) (v : V3 K) : V3 K :=
  ⟨m 0 0 * v.x + m 0 1 * v.y + m 0 2 * v.z, m 1 0 * v.x + m 1 1 * v.y + m 1 2 * v.z,
    m 2 0 * v.x + m 2 1 * v.y + m 2 2 * v.z⟩

/-- `transform.rs:104-166`, `mul4x4`. -/
def mul4x4 (m1 m2 : Matrix (Fin 4) (Fin 4) K) : Matrix (Fin 4) (Fin 4) K :=
  fun row col => m1 row 0 * m2 0 col + m1 row 1 * m2 1 col + m1 row 2 * m2 2 col + m1 row 3 * m2 3 col

/-- `transform.rs:168-173`, `mul_assign`. -/
def mulAssign (self other : Transform K) : Transform K :=
  ⟨mul4x4 self.elements other.elements, mul4x4 self.invElements other.invElements⟩

/-- `transform.rs:178-189`, `new`. -/
def new : Transform K :=
  ⟨!![1, 0, 0, 0; 0, 1, 0, 0; 0, 0, 1, 0; 0, 0, 0, 1], !![1, 0, 0, 0; 0, 1, 0, 0; 0, 0, 1, 0; 0, 0, 0, 1]⟩

/-- `transform.rs:192-207`, `translate`. -/
def translate (x y z : K) : Transform K :=
  ⟨!![1, 0, 0, x; 0, 1, 0, y; 0, 0, 1, z; 0, 0, 0, 1], !![1, 0, 0, -x; 0, 1, 0, -y; 0, 0, 1, -z; 0, 0, 0, 1]⟩

/-- `transform.rs:210-228`, `scale`. -/
def scale (x y z : K) : Transform K :=
  ⟨!![x, 0, 0, 0; 0, y, 0, 0; 0, 0, z, 0; 0, 0, 0, 1],
    !![1 / x, 0, 0, 0; 0, 1 / y, 0, 0; 0, 0, 1 / z, 0; 0, 0, 0, 1]⟩

/-- `transform.rs:231-249`, `rotate_x`, from the cosine and the sine of the angle. -/
def rotateX (c s : K) : Transform K :=
  ⟨!![1, 0, 0, 0; 0, c, -s, 0; 0, s, c, 0; 0, 0, 0, 1], !![1, 0, 0, 0; 0, c, s, 0; 0, -s, c, 0; 0, 0, 0, 1]⟩

/-- `transform.rs:252-270`, `rotate_y`. -/
def rotateY (c s : K) : Transform K :=
  ⟨!![c, 0, s, 0; 0, 1, 0, 0; -s, 0, c, 0; 0, 0, 0, 1], !![c, 0, -s, 0; 0, 1, 0, 0; s, 0, c, 0; 0, 0, 0, 1]⟩

/-- `transform.rs:273-290`, `rotate_z`. -/
def rotateZ (c s : K) : Transform K :=
  ⟨!![c, -s, 0, 0; s, c, 0, 0; 0, 0, 1, 0; 0, 0, 0, 1], !![c, s, 0, 0; -s, c, 0, 0; 0, 0, 1, 0; 0, 0, 0, 1]⟩

/-- `transform.rs:307-309`, `transform_pt`. -/
def pt (t : Transform K) (p : V3 K) : V3 K := mulPoint t.elements p

/-- `transform.rs:312-314`, `inv_transform_pt`. -/
def invPt (t : Transform K) (p : V3 K) : V3 K := mulPoint t.invElements p

/-- `transform.rs:365-367`, `transform_vec`. -/
def vec (t : Transform K) (v : V3 K) : V3 K := mulVec t.elements v

/-- `transform.rs:370-372`, `inv_transform_vec`. -/
def invVec (t : Transform K) (v : V3 K) : V3 K := mulVec t.invElements v

/-- `transform.rs:433-446`, `transform_normal`. -/
def normal (t : Transform K) (v : V3 K) : V3 K :=
  ⟨t.invElements 0 0 * v.x + t.invElements 1 0 * v.y + t.invElements 2 0 * v.z,
    t.invElements 0 1 * v.x + t.invElements 1 1 * v.y + t.invElements 2 1 * v.z,
    t.invElements 0 2 * v.x + t.invElements 1 2 * v.y + t.invElements 2 2 * v.z⟩

/-- `transform.rs:449-462`, `inv_transform_normal`. -/
def invNormal (t : Transform K) (v : V3 K) : V3 K :=
  ⟨t.elements 0 0 * v.x + t.elements 1 0 * v.y + t.elements 2 0 * v.z,
    t.elements 0 1 * v.x + t.elements 1 1 * v.y + t.elements 2 1 * v.z,
    t.elements 0 2 * v.x + t.elements 1 2 * v.y + t.elements 2 2 * v.z⟩

end Field

section Ordered

variable {K : Type*} [Field K] [LinearOrder K]

/-- `transform.rs:293-302`, `changes_hands`. -/
def changesHands (t : Transform K) : Bool :=
  let m := t.elements
  let determinant := m 0 0 * (m 1 1 * m 2 2 - m 1 2 * m 2 1) - m 0 1 * (m 1 0 * m 2 2 - m 1 2 * m 2 0)
    + m 0 2 * (m 1 0 * m 2 1 - m 1 1 * m 2 0)
  decide (determinant < 0)

/-- The body shared by `transform.rs:544-575` and `transform.rs:578-611`: the box of the eight corners. -/
def bboxWith (f : V3 K → V3 K) (b : BBox K) : BBox K :=
  let r := BBox.fromPoint (f ⟨b.min.x, b.min.y, b.min.z⟩)
  let r := BBox.fromUnionPoint r (f ⟨b.max.x, b.min.y, b.min.z⟩)
  let r := BBox.fromUnionPoint r (f ⟨b.min.x, b.max.y, b.min.z⟩)
  let r := BBox.fromUnionPoint r (f ⟨b.min.x, b.min.y, b.max.z⟩)
  let r := BBox.fromUnionPoint r (f ⟨b.min.x, b.max.y, b.max.z⟩)
  let r := BBox.fromUnionPoint r (f ⟨b.max.x, b.max.y, b.min.z⟩)
  let r := BBox.fromUnionPoint r (f ⟨b.max.x, b.min.y, b.max.z⟩)
  BBox.fromUnionPoint r (f ⟨b.max.x, b.max.y, b.max.z⟩)

/-- `transform.rs:544-575`, `transform_bbox`. -/
def bbox (t : Transform K) (b : BBox K) : BBox K := bboxWith t.pt b

/-- `transform.rs:578-611`, `inv_transform_bbox`. -/
def invBBox (t : Transform K) (b : BBox K) : BBox K := bboxWith t.invPt b

end Ordered

end Transform

end Simple.Geometry
