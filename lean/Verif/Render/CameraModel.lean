import Mathlib.Analysis.SpecialFunctions.Trigonometric.Basic
import Mathlib.Algebra.Order.Floor.Ring
import Mathlib.Algebra.Order.Archimedean.Basic
import Verif.Float.Round
import Verif.Geometry.TriangleModel

/-! Model of `/repo/rendering/src/camera/*.rs` and of how `/repo/rendering/src/ray_tracer.rs` goes over the pixels.  `Float`
is `ℝ`, except where the pixel of an index is found: there the division is rounded as `f64` does. -/

namespace Simple.Render.Camera

open Geometry

/-- `view.rs:24-34`, `struct View`. -/
structure View where
  point : V3 ℝ
  direction : V3 ℝ
  up : V3 ℝ
  fieldOfView : ℝ

/-- `pinhole.rs:27-32`, `struct Pinhole`, with the fields of its view and film that are used. -/
structure Pinhole where
  point : V3 ℝ
  direction : V3 ℝ
  up : V3 ℝ
  right : V3 ℝ
  filmDistance : ℝ
  width : ℕ
  height : ℕ

/-- `pinhole.rs:35-44`, `new`, with `view.rs:51-54`, `normalize`, and `view.rs:56-61`, `view_right`. -/
noncomputable def new (view : View) (width height : ℕ) : Outcome Pinhole :=
  let right := view.direction.cross view.up
  let up := right.cross view.direction
  view.direction.normalize.bind fun direction => up.normalize.bind fun up => right.normalize.bind fun right =>
    .ok ⟨view.point, direction, up, right, 1 / Real.tan (view.fieldOfView * (Real.pi / 180) / 2), width, height⟩

/-- `pinhole.rs:112-135`, `gen_ray`; the weight is always one. -/
noncomputable def genRay (cam : Pinhole) (pixel : ℕ × ℕ) : Outcome (Ray ℝ) :=
  let aspectRatio : ℝ := cam.height / cam.width
  let xlim : ℝ := 2
  let ylim := aspectRatio * xlim
  let dx := xlim / cam.width
  let dy := ylim / cam.height
  let x := dx / 2 + pixel.1 * dx - xlim / 2
  let y := dy / 2 + pixel.2 * dy - ylim / 2
  let direction := cam.direction.scale cam.filmDistance + cam.right.scale x - cam.up.scale y
  direction.normalize.bind fun direction => .ok ⟨cam.point, direction⟩

/-- `pinhole.rs:57-108`, `pixel_from_ray`.  The debug assertion holds exactly in `ℝ` and is left out.  A negative number as
`usize` is zero. -/
noncomputable def pixelFromRay (cam : Pinhole) (ray : Ray ℝ) : Outcome ((ℕ × ℕ) × ℝ) :=
  if ray.origin.squaredDistance cam.point > 1 / 10 ^ 24 then .panic
  else
    let normal := cam.direction
    let cos := normal.dot ray.direction
    if |cos| < 1 / 10 ^ 12 then .ok ((0, 0), 0)
    else
      let s := cam.point + normal.scale cam.filmDistance
      let rayLength := (s - ray.origin).dot normal / cos
      let intersectionPt := ray.direction.scale rayLength
      let x := intersectionPt.dot cam.right
      let z := intersectionPt.dot cam.up
      if |z| > 1 ∨ |x| > 1 then .ok ((0, 0), 0)
      else
        let xlim : ℝ := 2
        let aspectRatio : ℝ := cam.height / cam.width
        let ylim := aspectRatio * xlim
        let dx := xlim / cam.width
        let dy := ylim / cam.height
        .ok ((⌊(x + 1) / dx⌋.toNat, ⌊(1 - z) / dy⌋.toNat), 1)

/-! ### Going over the pixels -/

/-- `ray_tracer.rs:310-311`: the pixel of an index.  The subtraction panics below zero, as it does in debug builds. -/
def pixelAt (width pindex : ℕ) : Outcome (ℕ × ℕ) :=
  let y := ⌊Round.round53 ((pindex : ℚ) / width)⌋.toNat
  if pindex < y * width then .panic else .ok (pindex - y * width, y)

/-- `ray_tracer.rs:292-293` and `303-304`: the chunks of the pixels, and the pixels in each, one chunk after the other. -/
def places (total : ℕ) : List (ℕ × ℕ) :=
  (List.range ((total + 127) / 128)).flatMap fun chunk => (List.range (min 128 (total - chunk * 128))).map fun k => (chunk, k)

/-- `ray_tracer.rs:303-318`: what is written in each pixel.  `trace` gets the number of the chunk and the place in it, on
which the random numbers depend, and the ray. -/
noncomputable def renderList {α : Type} (cam : Pinhole) (trace : ℕ → ℕ → Ray ℝ → α) : List (ℕ × ℕ) → Outcome (List α)
  | [] => .ok []
  | (chunk, k) :: rest => (pixelAt cam.width (chunk * 128 + k)).bind fun pixel => (genRay cam pixel).bind fun ray =>
      (renderList cam trace rest).bind fun l => .ok (trace chunk k ray :: l)

/-- `ray_tracer.rs:275-281`, `render`, and `ray_tracer.rs:284-321`, `render_into`: the pixels of the image. -/
noncomputable def render {α : Type} (cam : Pinhole) (trace : ℕ → ℕ → Ray ℝ → α) : Outcome (List α) :=
  renderList cam trace (places (cam.width * cam.height))

end Simple.Render.Camera
