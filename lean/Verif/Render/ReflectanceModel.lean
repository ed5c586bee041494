import Verif.Render.MaterialModel

/-! Model of the reflectances of materials, `/repo/rendering/src/material/mat_trait.rs`.  The random numbers of each sample
are one argument, of any type; `none` is a spectrum that is not a number. -/

namespace Simple.Render.Materials

open Geometry

/-- `mat_trait.rs:150` and `mat_trait.rs:172-173`: a sample is added to the sum.  With a density of zero it is divided by zero. -/
noncomputable def addSample (scale : ℝ) (density : ℝ) (sample : Option Sample) (rho : Option Spectrum) : Option Spectrum :=
  match sample with
  | none => rho
  | some s => rho.bind fun rho =>
    if s.pdf * density = 0 then none
    else some fun i => rho i + s.spectrum i * |s.wi.z| * scale / (s.pdf * density)

/-- `mat_trait.rs:140-154`, `directional_rho`. -/
noncomputable def directionalRho {R : Type} (sample : V3 ℝ → R → Option Sample) (wo : V3 ℝ) (rs : List R) : Option Spectrum :=
  (rs.foldl (fun rho r => addSample 1 1 (sample wo r) rho) (some (gray 0))).bind fun rho =>
    if rs.length = 0 then none else some fun i => rho i / rs.length

/-- `mat_trait.rs:159-177`, `hemispherical_rho`. -/
noncomputable def hemisphericalRho {R : Type} (sample : V3 ℝ → R → Option Sample) (rs : List ((ℝ × ℝ) × R)) : Option Spectrum :=
  (rs.foldl (fun rho r =>
      let wo := Sampler.uniformHemisphere r.1
      addSample |wo.z| (1 / 2 / Real.pi) (sample wo r.2) rho) (some (gray 0))).bind fun rho =>
    if rs.length = 0 then none else some fun i => rho i / (Real.pi * rs.length)

end Simple.Render.Materials
