import Mathlib.Analysis.SpecialFunctions.Pow.Real
import Verif.Prelude

/-! Model of the convection coefficients, `/repo/heat/src/convection.rs`, over the reals. -/

namespace Simple.Heat

noncomputable section

/-- `convection.rs:22`, `MIN_H`. -/
def minH : ℝ := 0.1

/-- `convection.rs:27-52`, `struct ConvectionParams`. -/
structure ConvectionParams where
  airTemperature : ℝ
  airSpeed : ℝ
  radTemperature : ℝ
  surfaceTemperature : ℝ
  roughnessIndex : ℕ
  cosSurfaceTilt : ℝ

/-- `convection.rs:87-111`, `get_tarp_natural_convection_coefficient`; `unreachable!()` is a panic. -/
def ConvectionParams.natural (p : ConvectionParams) : Outcome ℝ :=
  let deltaT := p.airTemperature - p.surfaceTemperature
  (if |deltaT| < 1e-3 ∨ |p.cosSurfaceTilt| < 1e-3 then .ok (1.31 * |deltaT| ^ (1 / 3 : ℝ))
   else if (deltaT < 0 ∧ p.cosSurfaceTilt < 0) ∨ (deltaT > 0 ∧ p.cosSurfaceTilt > 0) then
     .ok (9.482 * |deltaT| ^ (1 / 3 : ℝ) / (7.238 - |p.cosSurfaceTilt|))
   else if (deltaT > 0 ∧ p.cosSurfaceTilt < 0) ∨ (deltaT < 0 ∧ p.cosSurfaceTilt > 0) then
     .ok (1.81 * |deltaT| ^ (1 / 3 : ℝ) / (1.382 + |p.cosSurfaceTilt|))
   else .panic : Outcome ℝ).bind fun h => .ok (if h < minH then minH else h)

/-- `convection.rs:158`, `COEFFICIENTS`. -/
def roughness : List ℝ := [2.17, 1.67, 1.52, 1.13, 1.11, 1]

/-- `convection.rs:152-169`, `get_tarp_convection_coefficient`. -/
def ConvectionParams.tarp (p : ConvectionParams) (area perimeter : ℝ) (windward : Bool) : Outcome ℝ :=
  (Outcome.index roughness p.roughnessIndex).bind fun rf =>
    let wf : ℝ := if windward then 1 else 0.5
    let forced := 2.537 * wf * rf * √(perimeter * p.airSpeed / area)
    p.natural.bind fun natural => .ok (forced + natural)

end
end Simple.Heat
