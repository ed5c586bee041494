import Mathlib.Analysis.SpecialFunctions.Pow.Real
import Mathlib.Analysis.SpecialFunctions.Log.Basic
import Verif.Geometry.ShapeModel
import Verif.Render.SamplerModel

/-! Model of `/repo/rendering/src/material/*.rs`.  `Float` is `ℝ`, a `Spectrum` has three channels, and the random numbers
are arguments.  Directions are in local coordinates, where the normal is the third axis, as in the code.  The debug
assertions are left out, except where said: theorems show that those about refraction hold. -/

namespace Simple.Render.Materials

open Geometry

/-- `colour.rs:25`, `struct Spectrum`: the operations of the code are those of each channel. -/
abbrev Spectrum := Fin 3 → ℝ

/-- `colour.rs:52-54`, `gray`. -/
def gray (v : ℝ) : Spectrum := fun _ => v

/-- `colour.rs:85-92`, `radiance`. -/
noncomputable def Spectrum.radiance (c : Spectrum) : ℝ := c 0 * (265 / 1000) + c 1 * (67 / 100) + c 2 * (65 / 1000)

/-- `colour.rs:107-116`, `max`. -/
noncomputable def Spectrum.max (c : Spectrum) : ℝ :=
  let m := c 0
  let m := if c 1 > m then c 1 else m
  if c 2 > m then c 2 else m

/-- `mat_trait.rs:48-65`, the cases of `MatFlag` that samples have. -/
inductive Flag where
  | unset | specularReflection | specularTransmission | diffuseReflection | glossyReflection

/-- `mat_trait.rs:40-65`: the bits. -/
def Flag.bits : Flag → ℕ
  | .unset => 0
  | .specularReflection => 16 ||| 1
  | .specularTransmission => 16 ||| 2
  | .diffuseReflection => 4 ||| 1
  | .glossyReflection => 8 ||| 1

/-- `mat_trait.rs:68-70`, `is_reflective`. -/
def Flag.isReflective (f : Flag) : Bool := decide (f.bits &&& 1 > 0)

/-- `mat_trait.rs:71-73`, `is_transmissive`. -/
def Flag.isTransmissive (f : Flag) : Bool := decide (f.bits &&& 2 > 0)

/-- `mat_trait.rs:80-82`, `is_specular`. -/
def Flag.isSpecular (f : Flag) : Bool := decide (f.bits &&& 16 > 0)

/-- `bsdf_sample.rs:6-13`, `struct BSDFSample`, without the fields that have always their default values. -/
structure Sample where
  spectrum : Spectrum
  wi : V3 ℝ
  pdf : ℝ
  flags : Flag

/-- `mat_trait.rs:15-19`, `enum TransportMode`. -/
inductive Mode where
  | radiance | importance

/-! ### Mirrors and refraction -/

/-- `specular.rs:42-74`, `cos_and_n`: the indexes of refraction and the cosines of both sides. -/
noncomputable def cosAndN (vin : V3 ℝ) (n1 : ℝ) (normal : V3 ℝ) (refractionIndex : ℝ) : ℝ × ℝ × ℝ × Option ℝ :=
  let cos1 := |vin.dot normal|
  let n2 := if |n1 - refractionIndex| < 1 / 10 ^ 7 then 1 else refractionIndex
  let sin1 := Max.max (1 - cos1 * cos1) 0
  let sin2 := n1 * n1 * sin1 / (n2 * n2)
  if sin2 > 1 then (n1, cos1, n2, none) else (n1, cos1, n2, some (Real.sqrt (1 - sin2)))

/-- `specular.rs:82-84`, `fresnel_te`. -/
noncomputable def fresnelTe (n1 cos1 n2 cos2 : ℝ) : ℝ := (n1 * cos1 - n2 * cos2) / (n1 * cos1 + n2 * cos2)

/-- `specular.rs:93-96`, `fresnel_tm`. -/
noncomputable def fresnelTm (n1 cos1 n2 cos2 : ℝ) : ℝ := (n1 / cos1 - n2 / cos2) / (n1 / cos1 + n2 / cos2)

/-- `specular.rs:98-102`, `fresnel_reflectance`. -/
noncomputable def fresnelReflectance (n1 cos1 n2 cos2 : ℝ) : ℝ :=
  let parallel := fresnelTm n1 cos1 n2 cos2
  let perpendicular := fresnelTe n1 cos1 n2 cos2
  1 / 2 * (parallel * parallel + perpendicular * perpendicular)

/-- `specular.rs:105-144`, `fresnel_transmission_dir`. -/
noncomputable def transmissionDir (vin normal : V3 ℝ) (n1 cos1 n2 cos2 : ℝ) : V3 ℝ :=
  let ratio := n1 / n2
  vin.scale ratio + normal.scale (ratio * cos1 - cos2)

/-- `specular.rs:147-149`, `mirror_direction`. -/
def mirrorDirection (v : V3 ℝ) : V3 ℝ := ⟨v.x, v.y, -v.z⟩

/-- `mirror.rs:68-81`, `sample_bsdf` of `Mirror`. -/
noncomputable def mirrorSample (colour : Spectrum) (wo : V3 ℝ) : Sample :=
  ⟨fun i => colour i / |wo.z|, mirrorDirection wo, 1, .specularReflection⟩

/-- `dielectric.rs:131-184`, `sample_bsdf` of `Dielectric`, for both flags of transport (as it is called).  Unwrapping the
cosine when there is no refraction panics. -/
noncomputable def dielectricSample (colour : Spectrum) (refractionIndex : ℝ) (wo : V3 ℝ) (eta uc : ℝ) (mode : Mode) :
    Outcome Sample :=
  let normal : V3 ℝ := ⟨0, 0, 1⟩
  let c := cosAndN wo eta normal refractionIndex
  let n1 := c.1
  let cos1 := c.2.1
  let n2 := c.2.2.1
  let cos2 := c.2.2.2
  let refl := match cos2 with
    | some v => fresnelReflectance n1 cos1 n2 v
    | none => 1
  let trans := 1 - refl
  let pr := refl
  let pt := trans
  if uc < pr / (pr + pt) then
    .ok ⟨gray (refl / cos1), mirrorDirection wo, pr / (pr + pt), .specularReflection⟩
  else
    match cos2 with
    | none => .panic
    | some cos2 =>
      let wi := transmissionDir wo normal n1 cos1 n2 cos2
      let spectrum : Spectrum := fun i => trans / cos2 * colour i
      let spectrum : Spectrum := match mode with
        | .radiance => fun i => spectrum i * Real.sqrt (n1 / n2)
        | .importance => spectrum
      .ok ⟨spectrum, wi, pt / (pr + pt), .specularTransmission⟩

/-- `material/mod.rs:161-173`: the index of refraction that the ray tracer keeps, after a dielectric was hit.  Hits that
are parallel to the surface do not get here. -/
def dielectricEta (refractionIndex : ℝ) : Side → ℝ
  | .front => refractionIndex
  | _ => 1

/-- `glass.rs:34-46`, `any_transmission`: whether there is any, and the colour with the channels limited from below. -/
noncomputable def anyTransmission (colour : Spectrum) : Bool × Spectrum :=
  if colour.max < 1 / 10 ^ 15 then (false, colour)
  else (true, fun i => if colour i < 1 / 10 ^ 15 then 1 / 10 ^ 15 else colour i)

/-- `glass.rs:55-59`, `transmitted_cos`. -/
noncomputable def transmittedCos (refractionIndex : ℝ) (direction : V3 ℝ) : ℝ :=
  Real.sqrt (1 - 1 / refractionIndex ^ 2 + (|direction.z| / refractionIndex) ^ 2)

/-- `glass.rs:86-112`: the light that goes through a pane of glass. -/
noncomputable def glassTrans (colour : Spectrum) (refractionIndex : ℝ) (wo : V3 ℝ) : Spectrum :=
  let a := anyTransmission colour
  let cos1 := |wo.z|
  let cos2 := transmittedCos refractionIndex wo
  let fte := ((cos1 - refractionIndex * cos2) / (cos1 + refractionIndex * cos2)) ^ 2
  let ftm := ((1 / cos1 - refractionIndex / cos2) / (1 / cos1 + refractionIndex / cos2)) ^ 2
  if a.1 then fun i =>
    let ct := a.2 i ^ (1 / cos2)
    ct * (1 / 2) * ((1 - fte) ^ 2 / (1 - (ct * fte) ^ 2) + (1 - ftm) ^ 2 / (1 - (ct * ftm) ^ 2))
  else fun _ => 0

/-- `glass.rs:86-118`: the light that is reflected by a pane of glass. -/
noncomputable def glassRefl (colour : Spectrum) (refractionIndex : ℝ) (wo : V3 ℝ) : Spectrum :=
  let a := anyTransmission colour
  let cos1 := |wo.z|
  let cos2 := transmittedCos refractionIndex wo
  let fte := ((cos1 - refractionIndex * cos2) / (cos1 + refractionIndex * cos2)) ^ 2
  let ftm := ((1 / cos1 - refractionIndex / cos2) / (1 / cos1 + refractionIndex / cos2)) ^ 2
  fun i =>
    let ct := if a.1 then a.2 i ^ (1 / cos2) else a.2 i
    let ct := ct ^ 2
    1 / 2 * (fte * (1 + (1 - 2 * fte) * ct) / (1 - fte ^ 2 * ct) + ftm * (1 + (1 - 2 * ftm) * ct) / (1 - ftm ^ 2 * ct))

/-- `glass.rs:77-159`, `sample_bsdf` of `Glass`, for both flags of transport. -/
noncomputable def glassSample (colour : Spectrum) (refractionIndex : ℝ) (wo : V3 ℝ) (uc : ℝ) : Option Sample :=
  let any := (anyTransmission colour).1
  let cos1 := |wo.z|
  let trans := glassTrans colour refractionIndex wo
  let refl := glassRefl colour refractionIndex wo
  let pr := if any then refl.radiance else 1
  let pt := if any then trans.radiance else 0
  if pr < 1 / 10 ^ 19 ∧ pt < 1 / 10 ^ 19 then none
  else if uc ≤ pr / (pr + pt) then
    some ⟨fun i => refl i / cos1, mirrorDirection wo, pr / (pr + pt), .specularReflection⟩
  else
    some ⟨fun i => trans i / cos1, wo, pt / (pr + pt), .specularTransmission⟩

/-! ### Diffuse and glossy materials -/

/-- `local_coordinates_utils.rs:7-9`, `same_heisphere`. -/
def SameHemisphere (w wp : V3 ℝ) : Prop := w.z * wp.z > 0

open Classical in
/-- `diffuse.rs:31-43`, `eval_bsdf` of `Diffuse`. -/
noncomputable def diffuseEval (colour : Spectrum) (wo wi : V3 ℝ) : Spectrum :=
  if SameHemisphere wo wi then fun i => colour i / Real.pi else gray 0

open Classical in
/-- `diffuse.rs:45-57`, `pdf` of `Diffuse`. -/
noncomputable def diffusePdf (wo wi : V3 ℝ) : ℝ := if SameHemisphere wo wi then |wi.z| / Real.pi else 0

/-- `bsdf_sample.rs:26-34`, `new_diffuse`. -/
noncomputable def newDiffuse (f : Spectrum) (u : ℝ × ℝ) : Sample :=
  let wi := Sampler.cosineHemisphere u
  let wi := if wi.z < 0 then ⟨wi.x, wi.y, wi.z * -1⟩ else wi
  ⟨fun i => f i / Real.pi, wi, |wi.z| / Real.pi, .diffuseReflection⟩

/-- `diffuse.rs:59-73`, `sample_bsdf` of `Diffuse`, for both flags of transport. -/
noncomputable def diffuseSample (colour : Spectrum) (u : ℝ × ℝ) : Sample := newDiffuse colour u

open Classical in
/-- `ward.rs:159-189`, `evaluate_ward_anisotropic`: the glossy and the diffuse part. -/
noncomputable def wardEval (specularity alpha beta : ℝ) (wo wi : V3 ℝ) : ℝ × ℝ :=
  if ¬ SameHemisphere wo wi then (0, 0)
  else
    let spec :=
      if specularity > 1 / 10 ^ 5 then
        let alpha := Max.max alpha (1 / 10 ^ 3)
        let beta := Max.max beta (1 / 10 ^ 3)
        let h := (wo + wi).div (wo + wi).length
        let c1 := specularity * h.dot h / (Real.pi * alpha * beta * h.z ^ 4)
        let c2 := -((h.x / alpha) ^ 2 + (h.y / beta) ^ 2) / h.z ^ 2
        c1 * Real.exp c2
      else 0
    (spec / |wo.z|, (1 - specularity) / Real.pi)

open Classical in
/-- `ward.rs:129-153`, `ward_pdf`. -/
noncomputable def wardPdf (specularity alpha beta : ℝ) (wo wi : V3 ℝ) : ℝ :=
  if ¬ SameHemisphere wo wi then 0
  else
    let spec := (wardEval specularity alpha beta wo wi).1
    1 / 2 * (1 + wo.z / wi.z) * spec + (1 - specularity) * |wo.z| / Real.pi

/-- `ward.rs:57-80`: the direction sampled around the mirror direction. -/
noncomputable def wardDirection (alpha beta : ℝ) (wo : V3 ℝ) (xi : ℝ × ℝ) : V3 ℝ :=
  let d := 2 * Real.pi * xi.1
  let cosp := Real.cos d * alpha
  let sinp := Real.sin d * beta
  let d := 1 / Real.sqrt (cosp ^ 2 + sinp ^ 2)
  let cosp := cosp * d
  let sinp := sinp * d
  let d := if xi.2 < 1 / 10 ^ 9 then 1 else Real.sqrt (-Real.log xi.2 / ((cosp / alpha) ^ 2 + (sinp / beta) ^ 2))
  let h : V3 ℝ := ⟨cosp * d, sinp * d, 1⟩
  let d := h.dot wo * 2 / (1 + d ^ 2)
  let v : V3 ℝ := ⟨-wo.x, -wo.y, -wo.z + d⟩
  v.div v.length

/-- `ward.rs:54-120`: the loop of `sample_ward_anisotropic`.  It takes a pair of random numbers in each turn, and `none`
means that those given were not enough. -/
noncomputable def wardLoop (specularity alpha beta : ℝ) (wo : V3 ℝ) : ℕ → List (ℝ × ℝ) → Option Sample
  | _, [] => none
  | attempts, xi :: rest =>
    let attempts := attempts + 1
    let v := wardDirection alpha beta wo xi
    if v.z < 0 ∨ wo.z < 0 then
      let spec := (wardEval specularity alpha beta wo v).1
      let pdf := 1 / 2 * (1 + v.z / wo.z) * spec
      if pdf < 1 / 10 ^ 8 ∧ spec < 1 / 10 ^ 8 then wardLoop specularity alpha beta wo attempts rest
      else some ⟨gray (spec / |wo.z|), -v, pdf, .glossyReflection⟩
    else if attempts > 50 then some ⟨gray 0, v, 1, .glossyReflection⟩
    else wardLoop specularity alpha beta wo attempts rest

/-- `ward.rs:39-127`, `sample_ward_anisotropic`: `u` chooses between glossy and diffuse, `xi` are the random numbers of the
glossy part and `ud` those of the diffuse part. -/
noncomputable def wardSample (specularity alpha beta : ℝ) (wo : V3 ℝ) (u : ℝ) (xi : List (ℝ × ℝ)) (ud : ℝ × ℝ) : Option Sample :=
  let alpha := Max.max alpha (1 / 10 ^ 3)
  let beta := Max.max beta (1 / 10 ^ 3)
  if u < specularity then wardLoop specularity alpha beta wo 0 xi
  else
    let diff := 1 - specularity
    let s := newDiffuse (gray diff) ud
    some { s with pdf := s.pdf * diff }

/-- `metal.rs:87-104`, `eval_bsdf` of `Metal`. -/
noncomputable def metalEval (colour : Spectrum) (specularity roughness : ℝ) (wo wi : V3 ℝ) : Spectrum :=
  let e := wardEval specularity roughness roughness wo wi
  fun i => colour i * (e.1 + e.2)

/-- `plastic.rs:86-103`, `eval_bsdf` of `Plastic`. -/
noncomputable def plasticEval (colour : Spectrum) (specularity roughness : ℝ) (wo wi : V3 ℝ) : Spectrum :=
  let e := wardEval specularity roughness roughness wo wi
  fun i => e.1 + colour i * e.2

/-- `metal.rs:62-85`, `sample_bsdf` of `Metal`. -/
noncomputable def metalSample (colour : Spectrum) (specularity roughness : ℝ) (wo : V3 ℝ) (u : ℝ) (xi : List (ℝ × ℝ))
    (ud : ℝ × ℝ) : Option Sample :=
  (wardSample specularity roughness roughness wo u xi ud).map fun s => { s with spectrum := fun i => s.spectrum i * colour i }

/-- `plastic.rs:61-84`, `sample_bsdf` of `Plastic`. -/
noncomputable def plasticSample (colour : Spectrum) (specularity roughness : ℝ) (wo : V3 ℝ) (u : ℝ) (xi : List (ℝ × ℝ))
    (ud : ℝ × ℝ) : Option Sample :=
  (wardSample specularity roughness roughness wo u xi ud).map fun s =>
    match s.flags with
    | .diffuseReflection => { s with spectrum := fun i => s.spectrum i * colour i }
    | _ => s

/-! ### Local coordinates -/

/-- `triangle/mod.rs:147-185`, `new_info`: the normal, the side and the other two axes where a ray hits a triangle. -/
noncomputable def hitFrame (a b c rayDir : V3 ℝ) : Outcome (V3 ℝ × Side × V3 ℝ × V3 ℝ) :=
  let dpdu := b - a
  let dpdv := c - a
  (dpdu.cross dpdv).normalize.bind fun normal =>
    let s := Side.get normal rayDir
    dpdu.normalize.bind fun e1 =>
      (s.1.cross e1).normalize.bind fun e2 =>
        match s.2 with
        | .back => .ok (s.1, s.2, e2, e1)
        | _ => .ok (s.1, s.2, e1, e2)

/-- `material/mod.rs:132-134`, `to_local`. -/
noncomputable def toLocal (normal e1 e2 v : V3 ℝ) : V3 ℝ := ⟨v.dot e1, v.dot e2, v.dot normal⟩

/-- `material/mod.rs:135-137`, `to_world`. -/
noncomputable def toWorld (normal e1 e2 v : V3 ℝ) : V3 ℝ := e1.scale v.x + e2.scale v.y + normal.scale v.z

end Simple.Render.Materials
