import Mathlib.Analysis.SpecialFunctions.Complex.Arg
import Mathlib.Analysis.SpecialFunctions.Trigonometric.Inverse
import Verif.Geometry.TransformModel
import Verif.Geometry.TriangleModel
import Verif.Geometry.QuadraticModel

/-! Model of `/repo/geometry/src/{intersection,plane3d,disk3d,sphere3d,cylinder3d,distant_source3d}.rs`.

`Float` is `ℝ`: the intervals with errors (`ApproxFloat`, modelled bit by bit in `ApproxModel.lean`) have no width here,
and the errors of a transformed ray are zero.  `y.atan2(x)` is the argument of `x + y i`.  The parameters and the
derivatives of the normal that only exist with the feature `textures` are left out. -/

namespace Simple.Geometry

/-- `Float::EPSILON`. -/
noncomputable def eps : ℝ := 1 / 2 ^ 52

/-- `intersection.rs:29-37`, `enum SurfaceSide`. -/
inductive Side where
  | front | back | nonApplicable
deriving DecidableEq, Repr

/-- `intersection.rs:43-55`, `get_side`, without its debug assertion. -/
noncomputable def Side.get (normal rayDir : V3 ℝ) : V3 ℝ × Side :=
  let dot := normal.dot rayDir
  if dot < 0 then (normal, .front)
  else if 0 < dot then (normal.scale (-1), .back)
  else (0, .nonApplicable)

/-- `intersection.rs:67-101`, `struct IntersectionInfo`. -/
structure HitInfo where
  p : V3 ℝ
  normal : V3 ℝ
  side : Side
  dpdu : V3 ℝ
  dpdv : V3 ℝ

/-- `intersection.rs:127-172`, `IntersectionInfo::new`. -/
noncomputable def HitInfo.new (ray : Ray ℝ) (p dpdu dpdv : V3 ℝ) : Outcome HitInfo :=
  (dpdv.cross dpdu).normalize.bind fun normal =>
    let r := Side.get normal ray.direction
    .ok ⟨p, r.1, r.2, dpdu, dpdv⟩

/-- `intersection.rs:175-191`, `transform`. -/
noncomputable def HitInfo.transform (i : HitInfo) (t : Transform ℝ) : HitInfo :=
  ⟨t.pt i.p, t.normal i.normal, i.side, t.vec i.dpdu, t.vec i.dpdv⟩

/-- `transform.rs:485-497`, `inv_transform_ray`, without errors. -/
noncomputable def Transform.invRay (t : Transform ℝ) (ray : Ray ℝ) : Ray ℝ := ⟨t.invPt ray.origin, t.invVec ray.direction⟩

/-- `round_error.rs:135-164`, `ApproxFloat::solve_quadratic`, without errors; a root is `none` when it is the quotient
by zero.  In the code the coefficients are intervals of positive width: rays that are tangent up to that width, and rays
parallel to the axis of a cylinder, have a discriminant whose lower end is negative, for which the code returns `None`. -/
noncomputable def approxRoots (a b c : ℝ) : Option (Option ℝ × Option ℝ) :=
  let disc := b * b - a * c * 4
  if disc < 0 then none
  else
    let discrSqrt := Real.sqrt disc
    let q := if b < 0 then -(b - discrSqrt) * (1 / 2) else -(b + discrSqrt) * (1 / 2)
    let x1 := Quadratic.quot q a
    let x2 := Quadratic.quot c q
    if Quadratic.gtB x1 x2 then some (x2, x1) else some (x1, x2)

/-- The angle `phi` of `sphere3d.rs:225-230`, `cylinder3d.rs:168-171` and `disk3d.rs:157-160`. -/
noncomputable def phiOf (x y : ℝ) : ℝ :=
  let phi := Complex.arg ⟨x, y⟩
  if phi < 0 then phi + 2 * Real.pi else phi

open Classical in
/-- `sphere3d.rs:199-265` and `cylinder3d.rs:143-207`, which are the same but for `hitAt` and `miss`: the first of the
roots that is positive, or else the second one if the clipping leaves out the first. -/
noncomputable def firstHit (t0 t1 : ℝ) (hitAt : ℝ → V3 ℝ × ℝ) (miss : V3 ℝ × ℝ → Prop) : Option (V3 ℝ × ℝ) :=
  if t1 ≤ 0 then none
  else
    let hitIsT1 : Bool := if 0 < t0 then false else true
    let thit := if 0 < t0 then t0 else t1
    if miss (hitAt thit) then
      if hitIsT1 then none
      else if miss (hitAt t1) then none
      else some (hitAt t1)
    else some (hitAt thit)

/-- `x.clamp(lo, hi)` of the standard library for `lo ≤ hi`. -/
noncomputable def clampReal (x lo hi : ℝ) : ℝ := if x < lo then lo else if hi < x then hi else x

/-- The part of the constructors that deals with `phi_max`: `sphere3d.rs:145-149` and `cylinder3d.rs:101-105`. -/
noncomputable def checkPhi (phiMax : ℝ) : Outcome ℝ :=
  if -eps ≤ phiMax ∧ phiMax ≤ 360 + eps then .ok (clampReal phiMax 0 360 * (Real.pi / 180)) else .panic

/-- `sphere3d.rs:39-62`, `struct Sphere3D`. -/
structure Sphere where
  radius : ℝ
  zmin : ℝ
  zmax : ℝ
  phiMax : ℝ
  deltaTheta : ℝ
  thetaMin : ℝ
  transform : Option (Transform ℝ)

namespace Sphere

/-- `sphere3d.rs:124-167`, `new_partial_transformed`.  (`clamp` panics when the radius is negative.) -/
noncomputable def newPartialTransformed (radius zmin zmax phiMax : ℝ) (transform : Option (Transform ℝ)) :
    Outcome Sphere :=
  if zmin > zmax then .panic
  else if radius < 0 then .panic
  else
    let zmin := clampReal zmin (-radius) radius
    let zmax := clampReal zmax (-radius) radius
    let thetaMin := Real.arccos (clampReal (zmin / radius) (-1) 1)
    let thetaMax := Real.arccos (clampReal (zmax / radius) (-1) 1)
    let r := if thetaMin > thetaMax then (thetaMax, thetaMin) else (thetaMin, thetaMax)
    (checkPhi phiMax).bind fun phiMax => .ok ⟨radius, zmin, zmax, phiMax, r.2 - r.1, r.1, transform⟩

/-- `sphere3d.rs:102-117`, `new_partial`. -/
noncomputable def newPartial (radius : ℝ) (centre : V3 ℝ) (zmin zmax phiMax : ℝ) : Outcome Sphere :=
  let transform := if !centre.isZero then some (Transform.translate centre.x centre.y centre.z) else none
  newPartialTransformed radius zmin zmax phiMax transform

/-- `sphere3d.rs:72-74`, `new`. -/
noncomputable def new (radius : ℝ) (centre : V3 ℝ) : Outcome Sphere :=
  newPartial radius centre (-2 * radius) (2 * radius) 360

/-- `sphere3d.rs:78-84`, `centre`. -/
noncomputable def centre (s : Sphere) : V3 ℝ :=
  match s.transform with
  | none => 0
  | some t => t.pt 0

/-- `sphere3d.rs:220-224`: points too near to the axis are moved. -/
noncomputable def avoidPole (s : Sphere) (p : V3 ℝ) : V3 ℝ :=
  if |p.x| < 1 / 10 ^ 5 * s.radius ∧ |p.y| < 1 / 10 ^ 5 * s.radius then ⟨1 / 10 ^ 5 * s.radius, p.y, p.z⟩ else p

/-- `sphere3d.rs:212-232`, `calc_phit_and_phi`. -/
noncomputable def hitAt (s : Sphere) (ray : Ray ℝ) (thit : ℝ) : V3 ℝ × ℝ :=
  let phit := ray.project thit
  let phit := phit.scale (s.radius / phit.length)
  let phit := s.avoidPole phit
  (phit, phiOf phit.x phit.y)

/-- `sphere3d.rs:237-239` and `sphere3d.rs:252-254`: the hit is clipped. -/
def Clipped (s : Sphere) (h : V3 ℝ × ℝ) : Prop :=
  (s.zmin > -s.radius ∧ h.1.z < s.zmin) ∨ (s.zmax < s.radius ∧ h.1.z > s.zmax) ∨ h.2 > s.phiMax

/-- `sphere3d.rs:169-266`, `approx_basic_intersection`.  A root that is not a number panics in debug builds. -/
noncomputable def basicIntersection (s : Sphere) (ray : Ray ℝ) : Outcome (Option (V3 ℝ × ℝ)) :=
  let d := ray.direction
  let o := ray.origin
  let a := d.x * d.x + d.y * d.y + d.z * d.z
  let b := (o.x * d.x + o.y * d.y + o.z * d.z) * 2
  let c := o.x * o.x + o.y * o.y + o.z * o.z - s.radius * s.radius
  match approxRoots a b c with
  | none => .ok none
  | some (some t0, some t1) => .ok (firstHit t0 t1 (s.hitAt ray) s.Clipped)
  | some _ => .panic

/-- `sphere3d.rs:269-308`, `intersection_info`.  When the sine is zero its inverse is infinite; a coordinate of the hit
that is zero times that is not a number, and neither is the normal, which fails the assertion of `normalize`.  (On a
sphere the sine is only zero at the poles, where `hit.y` is zero.) -/
noncomputable def intersectionInfo (s : Sphere) (ray : Ray ℝ) (hit : V3 ℝ) : Outcome HitInfo :=
  let cosTheta := clampReal (hit.z / s.radius) (-1) 1
  let theta := Real.arccos cosTheta
  let sinTheta := Real.sin theta
  if sinTheta = 0 then .panic
  else
  let oneOverRSinTheta := 1 / s.radius / sinTheta
  let cosPhi := hit.x * oneOverRSinTheta
  let sinPhi := hit.y * oneOverRSinTheta
  let dpdu : V3 ℝ := ⟨-s.phiMax * hit.y, s.phiMax * hit.x, 0⟩
  let dpdv := (⟨hit.z * cosPhi, hit.z * sinPhi, -s.radius * sinTheta⟩ : V3 ℝ).scale s.deltaTheta
  HitInfo.new ray hit dpdu dpdv

/-- `sphere3d.rs:316-320`, `bounds`. -/
noncomputable def bounds (s : Sphere) : BBox ℝ :=
  BBox.new ⟨-s.radius, -s.radius, s.zmin⟩ ⟨s.radius, s.radius, s.zmax⟩

/-- `sphere3d.rs:323-325`, `area`. -/
noncomputable def area (s : Sphere) : ℝ := s.phiMax * s.radius * (s.zmax - s.zmin)

/-- `sphere3d.rs:344-352`, `intersect_local_ray`. -/
noncomputable def intersectLocalRay (s : Sphere) (ray : Ray ℝ) : Outcome (Option HitInfo) :=
  (s.basicIntersection ray).bind fun
    | none => .ok none
    | some (phit, _) => (s.intersectionInfo ray phit).map some

/-- `sphere3d.rs:370-389`, `intersect`. -/
noncomputable def intersect (s : Sphere) (ray : Ray ℝ) : Outcome (Option HitInfo) :=
  match s.transform with
  | none => s.intersectLocalRay ray
  | some t => (s.intersectLocalRay (t.invRay ray)).map fun r => r.map fun i => i.transform t

/-- `sphere3d.rs:393-413`, `simple_intersect`. -/
noncomputable def simpleIntersect (s : Sphere) (ray : Ray ℝ) : Outcome (Option (V3 ℝ)) :=
  match s.transform with
  | none => (s.basicIntersection (Transform.new.invRay ray)).map fun r => r.map fun h => h.1
  | some t => (s.basicIntersection (t.invRay ray)).map fun r => r.map fun h => t.pt h.1

/-- `sphere3d.rs:416-422`, `world_bounds`. -/
noncomputable def worldBounds (s : Sphere) : BBox ℝ :=
  match s.transform with
  | none => s.bounds
  | some t => t.bbox s.bounds

end Sphere

/-- `cylinder3d.rs:38-55`, `struct Cylinder3D`. -/
structure Cylinder where
  radius : ℝ
  zmin : ℝ
  zmax : ℝ
  phiMax : ℝ
  transform : Option (Transform ℝ)

namespace Cylinder

/-- `cylinder3d.rs:88-120`, `new_transformed`. -/
noncomputable def newTransformed (radius zmin zmax phiMax : ℝ) (transform : Option (Transform ℝ)) :
    Outcome Cylinder :=
  if zmin > zmax then .panic
  else (checkPhi phiMax).bind fun phiMax => .ok ⟨radius, zmin, zmax, phiMax, transform⟩

/-- `cylinder3d.rs:69-77`: the transform of a cylinder from a point in the direction of a vector. -/
noncomputable def place (p0 l : V3 ℝ) : Transform ℝ :=
  let theta := Complex.arg ⟨l.z, Real.sqrt (l.x * l.x + l.y * l.y)⟩
  let phi := Complex.arg ⟨l.x, l.y⟩
  ((Transform.translate p0.x p0.y p0.z).mulAssign (Transform.rotateY (Real.cos theta) (Real.sin theta))).mulAssign
    (Transform.rotateZ (Real.cos phi) (Real.sin phi))

/-- `cylinder3d.rs:65-85`, `new_partial`. -/
noncomputable def newPartial (p0 p1 : V3 ℝ) (radius phiMax : ℝ) : Outcome Cylinder :=
  let l := p1 - p0
  newTransformed radius 0 l.length phiMax (some (place p0 l))

/-- `cylinder3d.rs:59-61`, `new`. -/
noncomputable def new (p0 p1 : V3 ℝ) (radius : ℝ) : Outcome Cylinder := newPartial p0 p1 radius 360

/-- `cylinder3d.rs:158-173`, `calc_phit_and_phi`. -/
noncomputable def hitAt (c : Cylinder) (ray : Ray ℝ) (thit : ℝ) : V3 ℝ × ℝ :=
  let phit := ray.project thit
  let hitRad := Real.sqrt (phit.x * phit.x + phit.y * phit.y)
  let phit : V3 ℝ := ⟨phit.x * (c.radius / hitRad), phit.y * (c.radius / hitRad), phit.z⟩
  (phit, phiOf phit.x phit.y)

/-- `cylinder3d.rs:179-181` and `cylinder3d.rs:195-197`: the hit is clipped. -/
def Clipped (c : Cylinder) (h : V3 ℝ × ℝ) : Prop := h.1.z < c.zmin ∨ h.1.z > c.zmax ∨ h.2 > c.phiMax

/-- `cylinder3d.rs:124-208`, `basic_intersection`.  Roots that are not numbers fail the debug assertion that they are in
order. -/
noncomputable def basicIntersection (c : Cylinder) (ray : Ray ℝ) : Outcome (Option (V3 ℝ × ℝ)) :=
  let d := ray.direction
  let o := ray.origin
  let qa := d.x * d.x + d.y * d.y
  let qb := (d.x * o.x + d.y * o.y) * 2
  let qc := o.x * o.x + o.y * o.y - c.radius * c.radius
  match approxRoots qa qb qc with
  | none => .ok none
  | some (some t0, some t1) => .ok (firstHit t0 t1 (c.hitAt ray) c.Clipped)
  | some _ => .panic

/-- `cylinder3d.rs:211-234`, `intersection_info`. -/
noncomputable def intersectionInfo (c : Cylinder) (ray : Ray ℝ) (phit : V3 ℝ) : Outcome HitInfo :=
  let dpdu : V3 ℝ := ⟨-c.phiMax * phit.y, c.phiMax * phit.x, 0⟩
  let dpdv : V3 ℝ := ⟨0, 0, c.zmax - c.zmin⟩
  HitInfo.new ray phit dpdu dpdv

/-- `cylinder3d.rs:237-241`, `bounds`. -/
noncomputable def bounds (c : Cylinder) : BBox ℝ :=
  BBox.new ⟨-c.radius, -c.radius, c.zmin⟩ ⟨c.radius, c.radius, c.zmax⟩

/-- `cylinder3d.rs:249-252`, `area`, without its debug assertion. -/
noncomputable def area (c : Cylinder) : ℝ := (c.zmax - c.zmin) * c.radius * c.phiMax

/-- `cylinder3d.rs:284-292`, `intersect_local_ray`. -/
noncomputable def intersectLocalRay (c : Cylinder) (ray : Ray ℝ) : Outcome (Option HitInfo) :=
  (c.basicIntersection ray).bind fun
    | none => .ok none
    | some (phit, _) => (c.intersectionInfo ray phit).map some

/-- `cylinder3d.rs:298-317`, `intersect`. -/
noncomputable def intersect (c : Cylinder) (ray : Ray ℝ) : Outcome (Option HitInfo) :=
  match c.transform with
  | none => c.intersectLocalRay ray
  | some t => (c.intersectLocalRay (t.invRay ray)).map fun r => r.map fun i => i.transform t

/-- `cylinder3d.rs:321-341`, `simple_intersect`. -/
noncomputable def simpleIntersect (c : Cylinder) (ray : Ray ℝ) : Outcome (Option (V3 ℝ)) :=
  match c.transform with
  | none => (c.basicIntersection (Transform.new.invRay ray)).map fun r => r.map fun h => h.1
  | some t => (c.basicIntersection (t.invRay ray)).map fun r => r.map fun h => t.pt h.1

/-- `cylinder3d.rs:344-350`, `world_bounds`. -/
noncomputable def worldBounds (c : Cylinder) : BBox ℝ :=
  match c.transform with
  | none => c.bounds
  | some t => t.bbox c.bounds

end Cylinder

/-- `plane3d.rs:38-46`, `struct Plane3D`. -/
structure Plane where
  normal : V3 ℝ
  d : ℝ

namespace Plane

/-- `plane3d.rs:50-58`, `new`. -/
noncomputable def new (point normal : V3 ℝ) : Outcome Plane :=
  normal.normalize.bind fun n => .ok ⟨n, n.dot point⟩

/-- `plane3d.rs:61-63`, `test_point`. -/
noncomputable def testPoint (p : Plane) (point : V3 ℝ) : Bool := decide (|p.normal.dot point - p.d| < eps)

/-- `plane3d.rs:67-80`, `intersect`. -/
noncomputable def intersect (p : Plane) (ray : Ray ℝ) : Option ℝ :=
  let den := p.normal.dot ray.direction
  if |den| < eps then none
  else
    let t := (p.d - p.normal.dot ray.origin) / den
    if t < 0 then none else some t

end Plane

/-- `disk3d.rs:36-60`, `struct Disk3D`. -/
structure Disk where
  centre : V3 ℝ
  normal : V3 ℝ
  radius : ℝ
  innerRadius : ℝ
  phiZero : V3 ℝ
  phiMax : ℝ
  transform : Option (Transform ℝ)

namespace Disk

/-- `disk3d.rs:78-130`, `new_detailed`, without the debug assertion that the axes are perpendicular. -/
noncomputable def newDetailed (centre normal : V3 ℝ) (radius innerRadius : ℝ) (phiZero : V3 ℝ) (phiMax : ℝ)
    (transform : Option (Transform ℝ)) : Outcome Disk :=
  normal.normalize.bind fun normal =>
    if normal.isParallel phiZero then .panic
    else (phiZero - normal.scale (normal.dot phiZero)).normalize.bind fun phiZero =>
      if radius ≤ innerRadius then .panic
      else if radius < 0 then .panic
      else if innerRadius < 0 then .panic
      else .ok ⟨centre, normal, radius, innerRadius, phiZero, clampReal phiMax 0 360 * (Real.pi / 180), transform⟩

/-- `disk3d.rs:65-75`, `new`. -/
noncomputable def new (centre normal : V3 ℝ) (radius : ℝ) : Outcome Disk :=
  match normal.getPerpendicular with
  | .ok perpendicular => newDetailed centre normal radius 0 perpendicular 360 none
  | _ => .panic

/-- `disk3d.rs:135-169`, `basic_intersection`. -/
noncomputable def basicIntersection (s : Disk) (ray : Ray ℝ) : Outcome (Option (V3 ℝ × ℝ)) :=
  (Plane.new s.centre s.normal).bind fun plane =>
    match plane.intersect ray with
    | none => .ok none
    | some t =>
      let phit := ray.project t
      let rSquared := (phit - s.centre).lengthSquared
      if rSquared > s.radius * s.radius ∨ rSquared < s.innerRadius * s.innerRadius then .ok none
      else
        let zxn := s.phiZero.cross s.normal
        let r := phit - s.centre
        let x := r.dot s.phiZero
        let y := (-r).dot zxn
        let phi := phiOf x y
        if phi > s.phiMax then .ok none else .ok (some (phit, phi))

/-- `disk3d.rs:227-229`, `area`. -/
noncomputable def area (s : Disk) : ℝ :=
  s.phiMax * (1 / 2) * (s.radius * s.radius - s.innerRadius * s.innerRadius)

end Disk

/-- `distant_source3d.rs:35-55`, `struct DistantSource3D`, without its transform, which is always `None`. -/
structure DistantSource where
  direction : V3 ℝ
  omega : ℝ
  angle : ℝ
  cosHalfAlpha : ℝ
  tanHalfAlpha : ℝ

namespace DistantSource

/-- `distant_source3d.rs:63-75`, `new`. -/
noncomputable def new (direction : V3 ℝ) (angle : ℝ) : Outcome DistantSource :=
  let tanHalfAlpha := Real.tan (angle / 2)
  direction.normalize.bind fun n =>
    .ok ⟨n, tanHalfAlpha * tanHalfAlpha * Real.pi, angle, Real.cos (angle / 2), tanHalfAlpha⟩

/-- `distant_source3d.rs:138-151`, `simple_intersect_local_ray`: does a ray hit the source?  (The point it hits is at the
largest number along the ray.) -/
noncomputable def hits (s : DistantSource) (ray : Ray ℝ) : Outcome Bool :=
  ray.direction.normalize.bind fun d => .ok (decide (d.dot s.direction ≥ s.cosHalfAlpha))

/-- `distant_source3d.rs:79-86`, `get_proxy_disk`. -/
noncomputable def getProxyDisk (s : DistantSource) (t : ℝ) : Outcome Disk :=
  Disk.new (s.direction.scale t) s.direction (t * s.tanHalfAlpha)

end DistantSource

end Simple.Geometry
