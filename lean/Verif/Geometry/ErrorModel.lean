import Verif.Geometry.TransformModel

/-! Model of the error bounds of `/repo/geometry/src/transform.rs`.  Every operation is followed by a rounding `r`:
`Round.round53` for the program, the identity for exact arithmetic.  There is no overflow and no underflow. -/

namespace Simple.Geometry.Errors

variable {K : Type*} [Field K]

/-- `lib.rs:119-126`, `gamma!`, with half the distance between one and the next number as `2^-53`. -/
def gamma (r : K → K) (n : K) : K :=
  let nm := r (1 / 2 ^ 53 * n)
  r (nm / r (1 - nm))

/-- `a * x + b * y + c * z`. -/
def sum3 (r : K → K) (a b c x y z : K) : K := r (r (r (a * x) + r (b * y)) + r (c * z))

/-- `a * x + b * y + c * z + d`. -/
def sum4 (r : K → K) (a b c d x y z : K) : K := r (sum3 r a b c x y z + d)

/-- `transform.rs:52-74`, `mul4x4point`; the condition of the `debug_assert` is not modelled. -/
def mulPoint (r : K → K) (m : Matrix (Fin 4) (Fin 4) K) (p : V3 K) : V3 K :=
  let x := sum4 r (m 0 0) (m 0 1) (m 0 2) (m 0 3) p.x p.y p.z
  let y := sum4 r (m 1 0) (m 1 1) (m 1 2) (m 1 3) p.x p.y p.z
  let z := sum4 r (m 2 0) (m 2 1) (m 2 2) (m 2 3) p.x p.y p.z
  let w := sum4 r (m 3 0) (m 3 1) (m 3 2) (m 3 3) p.x p.y p.z
  ⟨r (x / w), r (y / w), r (z / w)⟩

/-- `transform.rs:76-83`, `mul4x4vec`. -/
def mulVec (r : K → K) (m : Matrix (Fin 4) (Fin 4) K) (v : V3 K) : V3 K :=
  ⟨sum3 r (m 0 0) (m 0 1) (m 0 2) v.x v.y v.z, sum3 r (m 1 0) (m 1 1) (m 1 2) v.x v.y v.z,
    sum3 r (m 2 0) (m 2 1) (m 2 2) v.x v.y v.z⟩

/-- `transform.rs:104-166`, `mul4x4`. -/
def mul4x4 (r : K → K) (m1 m2 : Matrix (Fin 4) (Fin 4) K) : Matrix (Fin 4) (Fin 4) K :=
  fun row col => r (sum3 r (m1 row 0) (m1 row 1) (m1 row 2) (m2 0 col) (m2 1 col) (m2 2 col) + r (m1 row 3 * m2 3 col))

/-- `transform.rs:168-173`, `mul_assign`. -/
def mulAssign (r : K → K) (self other : Transform K) : Transform K :=
  ⟨mul4x4 r self.elements other.elements, mul4x4 r self.invElements other.invElements⟩

variable [LinearOrder K]

/-- `(a * x).abs() + (b * y).abs() + (c * z).abs() + d.abs()`. -/
def sumAbs (r : K → K) (a b c d x y z : K) : K := r (r (r (|r (a * x)| + |r (b * y)|) + |r (c * z)|) + |d|)

/-- `transform.rs:85-101`, `mul4x4_abs`. -/
def mulAbs (r : K → K) (m : Matrix (Fin 4) (Fin 4) K) (p : V3 K) : V3 K :=
  ⟨sumAbs r (m 0 0) (m 0 1) (m 0 2) (m 0 3) p.x p.y p.z, sumAbs r (m 1 0) (m 1 1) (m 1 2) (m 1 3) p.x p.y p.z,
    sumAbs r (m 2 0) (m 2 1) (m 2 2) (m 2 3) p.x p.y p.z⟩

/-- `point3d.rs:316-326`, `p * s`, and `vector3d.rs:289-295`. -/
def scale (r : K → K) (p : V3 K) (s : K) : V3 K := ⟨r (p.x * s), r (p.y * s), r (p.z * s)⟩

/-- `point3d.rs:233-254`, `p + q`, and `+=` (256-270). -/
def add (r : K → K) (p q : V3 K) : V3 K := ⟨r (p.x + q.x), r (p.y + q.y), r (p.z + q.z)⟩

/-- The body of `transform.rs:318-323` and 327-332, over the elements or the elements of the inverse. -/
def pointError (r : K → K) (m : Matrix (Fin 4) (Fin 4) K) (p : V3 K) : V3 K × V3 K :=
  (mulPoint r m p, scale r (mulAbs r m p) (gamma r 3))

/-- The body of `transform.rs:336-344` and 348-360. -/
def pointPropagate (r : K → K) (m : Matrix (Fin 4) (Fin 4) K) (p e : V3 K) : V3 K × V3 K :=
  let e2 := (pointError r m p).2
  let e1 := scale r (mulAbs r m e) (r (1 + gamma r 3))
  ((pointError r m p).1, add r e1 e2)

/-- The body of `transform.rs:376-384` and 388-396. -/
def vecError (r : K → K) (m : Matrix (Fin 4) (Fin 4) K) (v : V3 K) : V3 K × V3 K :=
  (mulVec r m v, scale r (mulAbs r m v) (gamma r 3))

/-- The body of `transform.rs:400-412` and 416-428. -/
def vecPropagate (r : K → K) (m : Matrix (Fin 4) (Fin 4) K) (v e : V3 K) : V3 K × V3 K :=
  let e2 := (vecError r m v).2
  let e1 := scale r (mulAbs r m e) (r (1 + gamma r 3))
  ((vecError r m v).1, add r e1 e2)

/-- The end of `transform.rs:468-480`, 484-496, 500-518 and 522-541: the origin is moved along the direction. -/
def moved (r : K → K) (o d e : V3 K) : V3 K :=
  let l2 := sum3 r d.x d.y d.z d.x d.y d.z
  if 0 < l2 then
    let dt := r (sum3 r |d.x| |d.y| |d.z| e.x e.y e.z / l2)
    add r o (scale r d dt)
  else o

/-- `ray3d.rs:31-37`, `struct Ray3D`, with the errors of its origin and its direction. -/
structure RayError (K : Type*) where
  origin : V3 K
  direction : V3 K
  originError : V3 K
  directionError : V3 K

/-- The body of `transform.rs:468-480` and 484-496. -/
def rayError (r : K → K) (m : Matrix (Fin 4) (Fin 4) K) (o d : V3 K) : RayError K :=
  ⟨moved r (pointError r m o).1 (vecError r m d).1 (pointError r m o).2, (vecError r m d).1, (pointError r m o).2,
    (vecError r m d).2⟩

/-- The body of `transform.rs:500-518` and 522-541. -/
def rayPropagate (r : K → K) (m : Matrix (Fin 4) (Fin 4) K) (o d eo ed : V3 K) : RayError K :=
  ⟨moved r (pointPropagate r m o eo).1 (vecPropagate r m d ed).1 (pointPropagate r m o eo).2,
    (vecPropagate r m d ed).1, (pointPropagate r m o eo).2, (vecPropagate r m d ed).2⟩

end Simple.Geometry.Errors

namespace Simple.Geometry.Transform

variable {K : Type*} [Field K] [LinearOrder K]

/-- `transform.rs:318-323`, `transform_pt_with_error`. -/
def ptWithError (r : K → K) (t : Transform K) (p : V3 K) : V3 K × V3 K := Errors.pointError r t.elements p

/-- `transform.rs:327-332`, `inv_transform_pt_with_error`. -/
def invPtWithError (r : K → K) (t : Transform K) (p : V3 K) : V3 K × V3 K := Errors.pointError r t.invElements p

/-- `transform.rs:336-344`, `transform_pt_propagate_error`. -/
def ptPropagateError (r : K → K) (t : Transform K) (p e : V3 K) : V3 K × V3 K := Errors.pointPropagate r t.elements p e

/-- `transform.rs:348-360`, `inv_transform_pt_propagate_error`. -/
def invPtPropagateError (r : K → K) (t : Transform K) (p e : V3 K) : V3 K × V3 K :=
  Errors.pointPropagate r t.invElements p e

/-- `transform.rs:376-384`, `transform_vec_with_error`. -/
def vecWithError (r : K → K) (t : Transform K) (v : V3 K) : V3 K × V3 K := Errors.vecError r t.elements v

/-- `transform.rs:388-396`, `inv_transform_vec_with_error`. -/
def invVecWithError (r : K → K) (t : Transform K) (v : V3 K) : V3 K × V3 K := Errors.vecError r t.invElements v

/-- `transform.rs:400-412`, `transform_vec_propagate_error`. -/
def vecPropagateError (r : K → K) (t : Transform K) (v e : V3 K) : V3 K × V3 K := Errors.vecPropagate r t.elements v e

/-- `transform.rs:416-428`, `inv_transform_vec_propagate_error`. -/
def invVecPropagateError (r : K → K) (t : Transform K) (v e : V3 K) : V3 K × V3 K :=
  Errors.vecPropagate r t.invElements v e

/-- `transform.rs:468-480`, `transform_ray`. -/
def rayWithError (r : K → K) (t : Transform K) (o d : V3 K) : Errors.RayError K := Errors.rayError r t.elements o d

/-- `transform.rs:484-496`, `inv_transform_ray`. -/
def invRayWithError (r : K → K) (t : Transform K) (o d : V3 K) : Errors.RayError K := Errors.rayError r t.invElements o d

/-- `transform.rs:500-518`, `transform_ray_propagate_error`. -/
def rayPropagateError (r : K → K) (t : Transform K) (o d eo ed : V3 K) : Errors.RayError K :=
  Errors.rayPropagate r t.elements o d eo ed

/-- `transform.rs:522-541`, `inv_transform_ray_propagate_error`. -/
def invRayPropagateError (r : K → K) (t : Transform K) (o d eo ed : V3 K) : Errors.RayError K :=
  Errors.rayPropagate r t.invElements o d eo ed

end Simple.Geometry.Transform
