import Verif.Render.CameraModel
import Verif.Render.DaylightModel
import Verif.Render.FalsecolourModel
import Verif.Render.MatrixFileModel

/-! Model of the commands `/repo/bin/spict.rs`, `/repo/bin/scompare.rs`, `/repo/bin/sfalsecolor.rs` and `/repo/bin/sfluxmtx.rs`.

Simplifications: `Float` is `ℝ`; files are functions of their paths; how scenes are read, what tracing a ray gives, the tables of
colours and the JPEG encoder are arguments; what is on the screen is left out.  When writing stops midway (a panic while colours are
encoded) the file counts as empty. -/

namespace Simple.Render.Tools

open Geometry Image Colourmap

abbrev Text := List Char

/-- The contents of files. -/
abbrev Files := Text → Option (List ℕ)

/-- How a command ends: exit code zero, exit code one, or a panic. -/
inductive End
  | success
  | failure
  | panic
deriving DecidableEq

structure After where
  files : Files
  ending : End

/-! ## Triplets -/

/-- `str::split(' ')`. -/
def split : Text → List Text
  | [] => [[]]
  | c :: cs =>
    if c = ' ' then [] :: split cs
    else
      match split cs with
      | [] => [[c]]
      | w :: ws => (c :: w) :: ws

/-- `str::trim`. -/
def trim (s : Text) : Text := ((s.dropWhile Char.isWhitespace).reverse.dropWhile Char.isWhitespace).reverse

/-- `spict.rs:37-76`, `from_str` of `Triplet`; `parse` is that of `Float`. -/
def triplet (parse : Text → Option ℝ) (s : Text) : Option (V3 ℝ) :=
  match split (trim s) with
  | [x, y, z] =>
    match parse x with
    | none => none
    | some a =>
      match parse y with
      | none => none
      | some b =>
        match parse z with
        | none => none
        | some c => some ⟨a, b, c⟩
  | _ => none

/-! ## Files -/

/-- What the commands find around them. -/
structure World where
  /-- May a file be created here? -/
  creates : Text → Bool
  /-- Are the bytes a text in UTF-8? -/
  utf8 : List ℕ → Bool
  /-- Are debug assertions compiled? -/
  checks : Bool
  /-- What the JPEG encoder writes, if it does not fail. -/
  jpeg : Jpeg → Option (List ℕ)

def fill (files : Files) (path : Text) (content : List ℕ) : Files := fun p => if p = path then some content else files p

/-- `image.rs:168-188`, `save_hdre`: the file is created first. -/
noncomputable def saveHdre (w : World) (files : Files) (im : Buffer) (path : Text) : After :=
  if w.creates path then
    match save w.checks im with
    | .ok content => ⟨fill files path content, .success⟩
    | .err => ⟨fill files path [], .failure⟩
    | .panic => ⟨fill files path [], .panic⟩
  else ⟨files, .failure⟩

/-- `image.rs:334-338` and `396-400`: the file is created when the colours are known. -/
def saveJpeg (w : World) (files : Files) (j : Outcome Jpeg) (path : Text) : After :=
  match j with
  | .ok j =>
    if w.creates path then
      match w.jpeg j with
      | some content => ⟨fill files path content, .success⟩
      | none => ⟨fill files path [], .failure⟩
    else ⟨files, .failure⟩
  | .err => ⟨files, .failure⟩
  | .panic => ⟨files, .panic⟩

/-- `image.rs:191-289`, `from_file`. -/
noncomputable def load (w : World) (files : Files) (path : Text) : Outcome Buffer :=
  match files path with
  | none => .err
  | some content => read w.utf8 content

/-- The scale of false colours that was asked for: its table of colours, whether it is logarithmic, and its limits. -/
structure Scale where
  table : List (Rgb ℝ)
  log : Bool
  min : Option ℝ
  max : Option ℝ

/-- `sfalsecolor.rs:64-78` and `scompare.rs:86-90`. -/
noncomputable def inColours (w : World) (files : Files) (im : Buffer) (s : Scale) (path : Text) : After :=
  if s.log then saveJpeg w files (logFalsecolour im s.min s.max s.table) path
  else saveJpeg w files (falsecolour im s.min s.max s.table) path

/-- `sfalsecolor.rs:43-79`, `main`. -/
noncomputable def sfalsecolor (w : World) (files : Files) (input output : Text) (s : Scale) : After :=
  match load w files input with
  | .ok im => inColours w files im s output
  | .err => ⟨files, .failure⟩
  | .panic => ⟨files, .panic⟩

/-- `scompare.rs:49-94`, `main`. -/
noncomputable def scompare (w : World) (files : Files) (input1 input2 output : Text) (s : Option Scale) : After :=
  match (load w files input1).bind fun a => (load w files input2).bind fun b => diff b a with
  | .ok d =>
    match s with
    | some s => inColours w files d s output
    | none => saveHdre w files d output
  | .err => ⟨files, .failure⟩
  | .panic => ⟨files, .panic⟩

/-! ## Scenes -/

/-- How scenes are read, and what is traced: the settings of the tracer, then the number of the chunk, the place in it, and the ray. -/
structure Scenes (S : Type) where
  fromRadiance : Text → Outcome S
  fromSimple : Text → Outcome S
  trace : S → (depth shadow ambient : ℕ) → ℕ → ℕ → Ray ℝ → Rgb ℝ

def endsWith (path suffix : Text) : Bool := suffix.isSuffixOf path

/-- `spict.rs:138-146` and `sfluxmtx.rs:65-72`. -/
def readScene {S : Type} (sc : Scenes S) (path : Text) : Outcome S :=
  if endsWith path ".rad".toList then sc.fromRadiance path
  else if endsWith path ".spl".toList then sc.fromSimple path
  else .err

/-- `spict.rs:78-132`, `struct Inputs`, without the files. -/
structure Picture where
  depth : ℕ
  shadow : ℕ
  ambient : ℕ
  x : ℕ
  y : ℕ
  viewPoint : V3 ℝ
  viewDirection : V3 ℝ
  viewUp : V3 ℝ
  fieldOfView : ℝ

/-- `spict.rs:149-177`: the image. -/
noncomputable def picture {S : Type} (sc : Scenes S) (p : Picture) (scene : S) : Outcome Buffer :=
  p.viewDirection.normalize.bind fun direction => p.viewUp.normalize.bind fun up =>
    (Camera.new ⟨p.viewPoint, direction, up, p.fieldOfView⟩ p.x p.y).bind fun camera =>
      (Camera.render camera (sc.trace scene p.depth p.shadow p.ambient)).bind fun pixels => .ok ⟨p.x, p.y, pixels⟩

/-- `spict.rs:134-180`, `main`. -/
noncomputable def spict {S : Type} (w : World) (sc : Scenes S) (files : Files) (input output : Text) (p : Picture) : After :=
  match (readScene sc input).bind (picture sc p) with
  | .ok im => saveHdre w files im output
  | .err => ⟨files, .failure⟩
  | .panic => ⟨files, .panic⟩

/-- `sfluxmtx.rs:82-107`: the sensors. -/
def sensors : List (Ray ℝ) := List.replicate 6 ⟨⟨1, 6, 1⟩, ⟨0, 0, 1⟩⟩

/-- `sfluxmtx.rs:57-119`, `main`, up to the file: the matrix.  `numbers` are the random numbers and what the rays meet, for each sensor.  The
option `nSensors` and what comes from the standard input (`given`) are not used. -/
noncomputable def sfluxmtx {S : Type} (w : World) (sc : Scenes S) (input : Text) (mf depth : ℕ) (_nSensors : ℕ) (_given : List (Ray ℝ))
    (numbers : S → ℕ → List ((ℝ × ℝ) × Daylight.Course)) : Outcome (Matrix.GMatrix Materials.Spectrum) :=
  (readScene sc input).bind fun scene => (Weather.Reinhart.new mf).bind fun sky =>
    Daylight.calcDc w.checks sky depth (sensors.zipIdx.map fun r => (r.1, numbers scene r.2))

end Simple.Render.Tools
