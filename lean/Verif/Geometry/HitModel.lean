import Verif.Geometry.ShapeModel

/-! Model of the way back of what is told about a hit: `/repo/geometry/src/intersection.rs`, without the feature `textures`. -/

namespace Simple.Geometry

/-- `intersection.rs:194-210`, `inv_transform`. -/
noncomputable def HitInfo.invTransform (i : HitInfo) (t : Transform ℝ) : HitInfo :=
  ⟨t.invPt i.p, t.invNormal i.normal, i.side, t.invVec i.dpdu, t.invVec i.dpdv⟩

end Simple.Geometry
