import Verif.Geometry.TriangleModel
import Verif.Render.MaterialModel

/-! Model of `/repo/rendering/src/ray_tracer.rs` and of the choice of a light of `/repo/rendering/src/scene.rs`.  `Float` is
`ℝ`.  What depends on the scene and on random numbers is an argument: what rays hit, the directions sampled, the samples
of materials and the numbers drawn for the roulette. -/

namespace Simple.Render.Tracer

open Geometry Materials

/-- `ray_tracer.rs:54-60`, `power_heuristic`. -/
noncomputable def powerHeuristic (na : ℕ) (pdfa : ℝ) (nb : ℕ) (pdfb : ℝ) : ℝ :=
  let a := na * pdfa
  let b := nb * pdfb
  a * a / (a * a + b * b)

/-- `ray_tracer.rs:63-69`, `balance_heuristic`. -/
noncomputable def balanceHeuristic (na : ℕ) (pdfa : ℝ) (nb : ℕ) (pdfb : ℝ) : ℝ :=
  let a := na * pdfa
  let b := nb * pdfb
  a / (a + b)

/-- `scene.rs:105-119`, `sample_light_uniform`: which of the lights (`inl`) or of the distant lights (`inr`) is chosen with
the random number `i`, and with which probability. -/
noncomputable def sampleLight (lights distant i : ℕ) : Option ((ℕ ⊕ ℕ) × ℝ) :=
  if lights = 0 ∧ distant = 0 then none
  else
    let n := lights + distant
    let i := i % n
    let pdf := 1 / (n : ℝ)
    if i < lights then some (.inl i, pdf) else some (.inr (i - lights), pdf)

/-- A light as seen from a point: the direction to its centre, the directions sampled one after the other, and
`intersect_light` (`ray_tracer.rs:327-366`) for a direction. -/
structure View where
  centre : V3 ℝ
  sampled : ℕ → V3 ℝ
  hit : V3 ℝ → Option (Spectrum × ℝ)

/-- What `get_local_illumination` uses of the point hit and of its material: the normal, the direction to the eye, the
value of the material and its density, both in world coordinates and with the arguments in the order of the methods. -/
structure Surface where
  normal : V3 ℝ
  wo : V3 ℝ
  eval : V3 ℝ → V3 ℝ → Spectrum
  pdf : V3 ℝ → V3 ℝ → ℝ

/-- `ray_tracer.rs:258-267`: what one shadow ray adds. -/
noncomputable def contribution (s : Surface) (n : ℕ) (pLight : ℝ) (wi : V3 ℝ) (colour : Spectrum) (lightPdf : ℝ) : Spectrum :=
  let cosTheta := |s.normal.dot wi|
  let bsdf := s.eval s.wo wi
  let bsdfPdf := s.pdf wi s.wo
  let weight := powerHeuristic n (lightPdf * pLight) 1 bsdfPdf
  fun i => weight * (colour i * cosTheta * bsdf i) / (lightPdf * pLight)

/-- `ray_tracer.rs:236-269`: the loop over the samples.  A ray that misses the light is not counted.  At most `fuel` turns
are made; `none` means that they were not enough. -/
noncomputable def localLoop (s : Surface) (light : View) (pLight : ℝ) (n : ℕ) :
    (fuel turn i : ℕ) → Spectrum → Option Spectrum
  | 0, _, i, acc => if i < n then none else some acc
  | fuel + 1, turn, i, acc =>
    if i < n then
      let wi := if n > 1 then light.sampled turn else light.centre
      match light.hit wi with
      | none => localLoop s light pLight n fuel (turn + 1) i acc
      | some (colour, lightPdf) =>
        if lightPdf < 1 / 10 ^ 18 then localLoop s light pLight n fuel (turn + 1) (i + 1) acc
        else localLoop s light pLight n fuel (turn + 1) (i + 1) fun k => acc k + contribution s n pLight wi colour lightPdf k
    else some acc

/-- `ray_tracer.rs:218-273`, `get_local_illumination`, for a positive number of samples (`BLACK / 0.0` is not a number). -/
noncomputable def localIllumination (s : Surface) (light : Option (View × ℝ)) (n fuel : ℕ) : Option Spectrum :=
  match light with
  | none => some fun _ => 0 / n
  | some (light, pLight) => (localLoop s light pLight n fuel 0 0 (gray 0)).map fun l => fun k => l k / n

/-- `ray_tracer.rs:179-184`: the roulette; `none` ends the path. -/
noncomputable def roulette (beta : Spectrum) (u : ℝ) : Option Spectrum :=
  let q := Max.max (1 - beta.radiance) 0
  if u < q then none else some fun i => beta i / (1 - q)

/-- What `trace_ray` uses of a point hit: whether the ray is parallel to the surface, whether the material emits light or
is specular only, its colour and the normal. -/
structure Hit where
  parallel : Bool
  emits : Bool
  specularOnly : Bool
  colour : Spectrum
  normal : V3 ℝ

/-- The scene and the random numbers: what a ray hits; what `intersect_light` gives for each distant light; the sky; the
direct light and the sample (in world coordinates, with the point where the ray goes on) at the hit of a ray with some
depth; the number drawn for the roulette after it. -/
structure World where
  cast : Ray ℝ → Option Hit
  distant : Ray ℝ → List (Option (Spectrum × ℝ))
  sky : Option (V3 ℝ → ℝ)
  skyColour : Option Spectrum
  direct : ℕ → Ray ℝ → Spectrum
  sample : ℕ → Ray ℝ → Option (Sample × V3 ℝ)
  draw : ℕ → ℝ

/-- `ray_tracer.rs:90-102`: one distant light seen by a ray that leaves the scene. -/
noncomputable def seen (first : Bool) (rayProb : ℝ) : Option (Spectrum × ℝ) → Spectrum
  | none => gray 0
  | some (colour, lightPdf) =>
    if lightPdf > 1 / 10 ^ 18 then
      let w := if first then 1 else powerHeuristic 1 rayProb 1 lightPdf
      fun i => w * colour i
    else gray 0

/-- `ray_tracer.rs:88-112`: what a ray that leaves the scene sees. -/
noncomputable def outside (w : World) (ray : Ray ℝ) (first : Bool) (rayProb : ℝ) : Spectrum := fun i =>
  ((w.distant ray).map fun l => seen first rayProb l i).sum +
    match w.sky with
    | none => 0
    | some sky => w.skyColour.getD (gray 1) i * sky ray.direction

/-- `ray_tracer.rs:86-185`: the loop of `trace_ray`; `left` is `max_depth - depth`.  The light found is returned instead of
added to a variable. -/
noncomputable def follow (w : World) : (left depth : ℕ) → Ray ℝ → (rayProb : ℝ) → (beta : Spectrum) → (specular : Bool) → Spectrum
  | left, depth, ray, rayProb, beta, specular =>
    match w.cast ray with
    | none => fun i => beta i * outside w ray (decide (depth = 0) || specular) rayProb i
    | some hit =>
      if hit.parallel then gray 0
      else if hit.emits then if specular then fun i => beta i * hit.colour i else gray 0
      else
        let here : Spectrum := if hit.specularOnly then gray 0 else fun i => beta i * w.direct depth ray i
        match left with
        | 0 => here
        | left + 1 =>
          match w.sample depth ray with
          | none => here
          | some (s, point) =>
            let beta := fun i => beta i * (s.spectrum i * |hit.normal.dot s.wi| / s.pdf)
            match roulette beta (w.draw depth) with
            | none => here
            | some beta => fun i => here i + follow w left (depth + 1) ⟨point, s.wi⟩ s.pdf beta s.flags.isSpecular i

/-- `ray_tracer.rs:73-187`, `trace_ray`. -/
noncomputable def traceRay (w : World) (maxDepth : ℕ) (ray : Ray ℝ) : Spectrum := follow w maxDepth 0 ray 1 (gray 1) true

/-- `ray_tracer.rs:190-212`, `trace_all_rays`, for a positive number of samples; the worlds differ in the random numbers. -/
noncomputable def traceAll (w : ℕ → World) (maxDepth nAmbient : ℕ) (ray : Ray ℝ) : Spectrum :=
  let n := if maxDepth = 0 then 1 else nAmbient
  fun i => ((List.range n).map fun k => traceRay (w k) maxDepth ray i).sum / n

end Simple.Render.Tracer
