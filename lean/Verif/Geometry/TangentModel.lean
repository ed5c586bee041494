import Verif.Geometry.ShapeModel

/-! Model of all that is told about the point where a ray meets a surface, with the feature `textures`:
`/repo/geometry/src/intersection.rs` and the functions `intersection_info` of `sphere3d.rs`, `cylinder3d.rs` and `disk3d.rs`, and
`intersect_local_ray` of `triangle3d.rs`.  `Float` is `ℝ`. -/

namespace Simple.Geometry

/-- `intersection.rs:67-101`, `struct IntersectionInfo`, with the fields of the feature `textures`. -/
structure Detail where
  info : HitInfo
  u : ℝ
  v : ℝ
  dndu : V3 ℝ
  dndv : V3 ℝ

/-- `intersection.rs:127-172`, `IntersectionInfo::new`. -/
noncomputable def Detail.new (ray : Ray ℝ) (p : V3 ℝ) (u v : ℝ) (dpdu dpdv d2pduu d2pdvv d2pduv : V3 ℝ) : Outcome Detail :=
  (HitInfo.new ray p dpdu dpdv).bind fun i =>
    let bigE := dpdu.dot dpdu
    let bigF := dpdu.dot dpdv
    let bigG := dpdv.dot dpdv
    let e := i.normal.dot d2pduu
    let f := i.normal.dot d2pduv
    let g := i.normal.dot d2pdvv
    let inv := 1 / (bigE * bigG - bigF * bigF)
    let dndu := dpdu.scale ((f * bigF - e * bigG) * inv) + dpdv.scale ((e * bigF - f * bigE) * inv)
    let dndv := dpdu.scale ((g * bigF - f * bigG) * inv) + dpdv.scale ((f * bigF - g * bigE) * inv)
    .ok ⟨i, u, v, dndu, dndv⟩

/-- `sphere3d.rs:268-308`, `intersection_info`.  For the poles see `Sphere.intersectionInfo`. -/
noncomputable def Sphere.detail (s : Sphere) (ray : Ray ℝ) (phit : V3 ℝ) (phi : ℝ) : Outcome Detail :=
  let cosTheta := clampReal (phit.z / s.radius) (-1) 1
  let theta := Real.arccos cosTheta
  let sinTheta := Real.sin theta
  if sinTheta = 0 then .panic
  else
  let oneOverRSinTheta := 1 / s.radius / sinTheta
  let cosPhi := phit.x * oneOverRSinTheta
  let sinPhi := phit.y * oneOverRSinTheta
  let u := phi / s.phiMax
  let v := (theta - s.thetaMin) / s.deltaTheta
  let dpdu : V3 ℝ := ⟨-s.phiMax * phit.y, s.phiMax * phit.x, 0⟩
  let dpdv := (⟨phit.z * cosPhi, phit.z * sinPhi, -s.radius * sinTheta⟩ : V3 ℝ).scale s.deltaTheta
  let d2pduu := (⟨phit.x, phit.y, 0⟩ : V3 ℝ).scale (-s.phiMax * s.phiMax)
  let d2pduv := (⟨-sinPhi, cosPhi, 0⟩ : V3 ℝ).scale (s.deltaTheta * phit.z * s.phiMax)
  let d2pdvv := (⟨phit.x, phit.y, phit.z⟩ : V3 ℝ).scale (-s.deltaTheta * s.deltaTheta)
  Detail.new ray phit u v dpdu dpdv d2pduu d2pdvv d2pduv

/-- `cylinder3d.rs:211-234`, `intersection_info`. -/
noncomputable def Cylinder.detail (c : Cylinder) (ray : Ray ℝ) (phit : V3 ℝ) (phi : ℝ) : Outcome Detail :=
  let u := phi / c.phiMax
  let v := (phit.z - c.zmin) / (c.zmax - c.zmin)
  let dpdu : V3 ℝ := ⟨-c.phiMax * phit.y, c.phiMax * phit.x, 0⟩
  let dpdv : V3 ℝ := ⟨0, 0, c.zmax - c.zmin⟩
  let d2pduu := (⟨phit.x, phit.y, 0⟩ : V3 ℝ).scale (-c.phiMax * c.phiMax)
  Detail.new ray phit u v dpdu dpdv d2pduu 0 0

/-- `triangle3d.rs:515-547`, `intersect_local_ray`, from what `basic_intersection` found.  (Line 542 gives `_u` for both parameters.) -/
noncomputable def Triangle.detail (tr : Triangle ℝ) (ray : Ray ℝ) (hit : V3 ℝ × ℝ × ℝ) : Outcome Detail :=
  let dpdu := tr.b - tr.a
  let dpdv := tr.c - tr.a
  (dpdu.cross dpdv).normalize.bind fun normal =>
    let r := Side.get normal ray.direction
    .ok ⟨⟨hit.1, r.1, r.2, dpdu, dpdv⟩, hit.2.1, hit.2.1, 0, 0⟩

/-- `disk3d.rs:172-214`, `intersection_info`. -/
noncomputable def Disk.detail (s : Disk) (ray : Ray ℝ) (phit : V3 ℝ) (phi : ℝ) : Detail :=
  let r := phit - s.centre
  let rhit := r.length
  let u := phi / s.phiMax
  let v := (s.radius - rhit) / (s.radius - s.innerRadius)
  let zxn := s.phiZero.cross s.normal
  let rhitSinPhi := (-r).dot zxn
  let rhitCosPhi := r.dot s.phiZero
  let dpdu := s.phiZero.scale (-rhitSinPhi) + zxn.scale (rhitCosPhi / rhit * (s.innerRadius - s.radius))
  let dpdv := s.phiZero.scale (-rhitCosPhi) + zxn.scale (rhitSinPhi / rhit * (s.radius - s.innerRadius))
  let n := Side.get s.normal ray.direction
  ⟨⟨phit, n.1, n.2, dpdu, dpdv⟩, u, v, 0, 0⟩

end Simple.Geometry
