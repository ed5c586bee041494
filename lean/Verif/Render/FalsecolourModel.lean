import Verif.Render.ImageModel

/-! Model of the images in false colours: `/repo/rendering/src/image.rs:291-401`.  `Float` is `ℝ`; a logarithm may also
be minus infinity or NaN.  The encoder of JPEG files is a dependency and is not modelled: what is modelled is what it is
given. -/

namespace Simple.Render.Image

open Colourmap (Rgb)

/-- `colour.rs:102-104`, `luminance`; `WHITE_EFFICACY` is `colour.rs:29`. -/
noncomputable def luminance (c : Rgb ℝ) : ℝ := radiance c * 179

/-- What `f64::log10` gives. -/
inductive Lg
  | nan
  | negInf
  | fin (x : ℝ)

/-- `f64::log10`. -/
noncomputable def log10 (x : ℝ) : Lg :=
  if x < 0 then .nan else if x = 0 then .negInf else .fin (Real.logb 10 x)

/-- `(x * 256.).round() as u8`: half-way cases go away from zero, and the conversion saturates. -/
noncomputable def level (x : ℝ) : ℕ := min 255 ⌊x * 256 + 1 / 2⌋.toNat

/-- What the encoder is given: the width and the height, as `u16`, and the bytes. -/
structure Jpeg where
  width : ℕ
  height : ℕ
  data : List ℕ

/-- `image.rs:327-333` and `image.rs:389-395`: the three bytes of each pixel, one after the other. -/
noncomputable def pushAll {α : Type*} (colour : α → Outcome (Rgb ℝ)) : List α → Outcome (List ℕ)
  | [] => .ok []
  | x :: xs => (colour x).bind fun s =>
    (pushAll colour xs).bind fun rest => .ok (level s.r :: level s.g :: level s.b :: rest)

/-- `image.rs:379-384`: the maximum, looked for from `m` on. -/
noncomputable def searchMax (m : ℝ) (l : List ℝ) : ℝ := l.foldl (fun m v => if m < v then v else m) m

/-- `image.rs:351-388`: the limits of the linear scale; `MIN_MIN` is zero. -/
noncomputable def limits (min max : Option ℝ) (lums : List ℝ) : ℝ × ℝ :=
  (match min with | some v => Max.max v 0 | none => 0,
   match max with
   | some v => v
   | none => let m := searchMax 0 lums; if m ≤ 0 then 2 * 0 else m)

/-- `image.rs:342-401`, `save_falsecolour`. -/
noncomputable def falsecolour (im : Buffer) (min max : Option ℝ) (table : List (Rgb ℝ)) : Outcome Jpeg :=
  let lums := im.pixels.map luminance
  let lim := limits min max lums
  (pushAll (fun x => Colourmap.mapLinear id x lim.1 lim.2 table) lums).bind fun data =>
  .ok ⟨im.width % 2 ^ 16, im.height % 2 ^ 16, data⟩

/-- `image.rs:315-319`: the maximum among the logarithms, looked for from `m` on.  NaN and minus infinity are not
greater than anything. -/
noncomputable def searchMaxLog (m : ℝ) (l : List Lg) : ℝ :=
  l.foldl (fun m v => match v with | .fin v => if m < v then v else m | _ => m) m

/-- `image.rs:300-325`: the limits of the logarithmic scale; `MIN_MIN` is 0.001. -/
noncomputable def limitsLog (min max : Option ℝ) (logs : List Lg) : ℝ × Lg :=
  (match min with | some v => Real.logb 10 (Max.max v (1 / 1000)) | none => Real.logb 10 (1 / 1000),
   match max with
   | some v => log10 v
   | none => let m := searchMaxLog (1 / 1000) logs; .fin (if m ≤ 1 / 1000 then 2 * (1 / 1000) else m))

/-- `colourmap/mod.rs:71-97`, `map_linear_colour`, when the value or the maximum may be NaN or minus infinity.  No
comparison with NaN holds: a NaN value goes past every bin, to the `unreachable!()`, and so does, when the maximum is
NaN, a value above the minimum. -/
noncomputable def mapLog (x : Lg) (min : ℝ) (max : Lg) (table : List (Rgb ℝ)) : Outcome (Rgb ℝ) :=
  match x with
  | .nan => .panic
  | .negInf => Outcome.index table 0
  | .fin x => match max with
    | .nan => if x ≤ min then Outcome.index table 0 else .panic
    | .negInf => Colourmap.mapLinear id x min x table
    | .fin max => Colourmap.mapLinear id x min max table

/-- `image.rs:292-339`, `save_log_falsecolour`. -/
noncomputable def logFalsecolour (im : Buffer) (min max : Option ℝ) (table : List (Rgb ℝ)) : Outcome Jpeg :=
  let logs := im.pixels.map fun p => log10 (luminance p)
  let lim := limitsLog min max logs
  (pushAll (fun x => mapLog x lim.1 lim.2 table) logs).bind fun data =>
  .ok ⟨im.width % 2 ^ 16, im.height % 2 ^ 16, data⟩

end Simple.Render.Image
