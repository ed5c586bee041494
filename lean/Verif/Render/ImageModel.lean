import Mathlib.Analysis.SpecialFunctions.Log.Base
import Mathlib.Data.Nat.Digits.Defs
import Verif.Render.ColourmapModel

/-! Model of `/repo/rendering/src/image.rs`.  `Float` is `ℝ`.  A byte is a natural number (below 256), a file is its
bytes; that a file is written and read back unchanged is taken for granted. -/

namespace Simple.Render.Image

open Colourmap (Rgb)

/-- `image.rs:39-48`, `rusty_frexp`. -/
noncomputable def frexp (s : ℝ) : ℝ × ℤ :=
  if s = 0 then (s, 0)
  else
    let lg := Real.logb 2 |s|
    let x := (2 : ℝ) ^ (lg - ⌊lg⌋ - 1)
    ((if 0 < s then 1 else -1) * x, ⌊lg⌋ + 1)

/-- `image.rs:51-53`, `rusty_ldexp`. -/
noncomputable def ldexp (x : ℝ) (n : ℤ) : ℝ := x * 2 ^ n

/-- `x.floor() as u8`, which saturates. -/
noncomputable def floorU8 (x : ℝ) : ℕ := min 255 ⌊x⌋.toNat

/-- `x as u8`, of an `i32`, which wraps. -/
def i32AsU8 (x : ℤ) : ℕ := (x % 256).toNat

/-- `image.rs:55-79`, `colour_to_rgbe`; `checks` says whether the program is built with its `debug_assert!`s. -/
noncomputable def encode (checks : Bool) (c : Rgb ℝ) : Outcome (ℕ × ℕ × ℕ × ℕ) :=
  let v := c.r
  let v := if v < c.g then c.g else v
  let v := if v < c.b then c.b else v
  if v < 1 / 10 ^ 19 then .ok (0, 0, 0, 0)
  else
    let mantissa := (frexp v).1 * (256 / v)
    let e := (frexp v).2
    let r := floorU8 (c.r * mantissa)
    let g := floorU8 (c.g * mantissa)
    let b := floorU8 (c.b * mantissa)
    if checks = true ∧ ¬ (0 ≤ e + 128 ∧ e + 128 ≤ 255) then .panic
    else .ok (r, g, b, i32AsU8 (e + 128))

/-- `image.rs:81-93`, `rgbe_to_colour`. -/
noncomputable def decode (p : ℕ × ℕ × ℕ × ℕ) : Rgb ℝ :=
  if p.2.2.2 = 0 then ⟨0, 0, 0⟩
  else
    let f := ldexp 1 ((p.2.2.2 : ℤ) - (128 + 8))
    ⟨p.1 * f, p.2.1 * f, p.2.2.1 * f⟩

/-- `image.rs:98-106`, `struct ImageBuffer`. -/
structure Buffer where
  width : ℕ
  height : ℕ
  pixels : List (Rgb ℝ)

/-- `image.rs:128-134`, `new`. -/
def new (width height : ℕ) : Buffer := ⟨width, height, List.replicate (width * height) ⟨0, 0, 0⟩⟩

/-- `image.rs:156-165`, `from_pixels`. -/
def fromPixels (width height : ℕ) (pixels : List (Rgb ℝ)) : Outcome Buffer :=
  if pixels.length ≠ width * height then .panic else .ok ⟨width, height, pixels⟩

/-- `image.rs:116-124`, `index`. -/
def get (im : Buffer) (x y : ℕ) : Outcome (Rgb ℝ) := Outcome.index im.pixels (y * im.width + x)

/-- `image.rs:108-114`, `index_mut`, and an assignment to what it gives. -/
def put (im : Buffer) (x y : ℕ) (c : Rgb ℝ) : Outcome Buffer :=
  if y * im.width + x < im.pixels.length then .ok { im with pixels := im.pixels.set (y * im.width + x) c } else .panic

/-- `colour.rs:85-92`, `radiance`. -/
noncomputable def radiance (c : Rgb ℝ) : ℝ := c.r * (265 / 1000) + c.g * (67 / 100) + c.b * (65 / 1000)

/-- `image.rs:137-153`, `diff`. -/
noncomputable def diff (a b : Buffer) : Outcome Buffer :=
  if (a.width, a.height) ≠ (b.width, b.height) then .err
  else fromPixels a.width a.height
    ((a.pixels.zip b.pixels).map fun p => let d := |radiance p.1 - radiance p.2|; ⟨d, d, d⟩)

/-! ## Files -/

/-- `format!("{}", n)`. -/
def decimal (n : ℕ) : List ℕ := if n = 0 then [48] else (Nat.digits 10 n).reverse.map (· + 48)

/-- `b"…"`: the bytes of a text. -/
def bytes (s : String) : List ℕ := s.toList.map Char.toNat

/-- The four bytes of a pixel. -/
def pixelBytes (p : ℕ × ℕ × ℕ × ℕ) : List ℕ := [p.1, p.2.1, p.2.2.1, p.2.2.2]

/-- `image.rs:183-186`: the pixels, one after the other. -/
noncomputable def savePixels (checks : Bool) : List (Rgb ℝ) → Outcome (List ℕ)
  | [] => .ok []
  | c :: cs => (encode checks c).bind fun p => (savePixels checks cs).bind fun rest => .ok (pixelBytes p ++ rest)

/-- `image.rs:180-181`: the line with the size. -/
def sizeLine (height width : ℕ) : List ℕ := bytes "-Y " ++ decimal height ++ bytes " +X " ++ decimal width

/-- `image.rs:168-188`, `save_hdre`: what is written. -/
noncomputable def save (checks : Bool) (im : Buffer) : Outcome (List ℕ) :=
  (savePixels checks im.pixels).bind fun body =>
  .ok (bytes "#?RGBE" ++ [10] ++ (bytes "FORMAT=32-bit_rle_rgbe" ++ [10] ++ ([10] ++ (sizeLine im.height im.width ++ [10] ++ body))))

/-- `image.rs:212-218`: the bytes up to the next end of line, and those after it. -/
def nextLine : List ℕ → Option (List ℕ × List ℕ)
  | [] => none
  | c :: cs => if c = 10 then some ([], cs) else (nextLine cs).map fun l => (c :: l.1, l.2)

/-- `<[u8]>::split`. -/
def splitBy (p : ℕ → Bool) : List ℕ → List (List ℕ)
  | [] => [[]]
  | c :: cs =>
    if p c then [] :: splitBy p cs
    else match splitBy p cs with
      | [] => [[c]]
      | w :: ws => (c :: w) :: ws

/-- `u8::is_ascii_whitespace`. -/
def isSpace (c : ℕ) : Bool := c == 32 || c == 9 || c == 10 || c == 12 || c == 13

/-- The digits of a `usize`, none of them missing. -/
def parseDigits (l : List ℕ) : Option ℕ :=
  if l ≠ [] ∧ l.all (fun c => decide (48 ≤ c ∧ c ≤ 57)) = true then
    let n := l.foldl (fun n c => n * 10 + (c - 48)) 0
    if n < 2 ^ 64 then some n else none
  else none

/-- `str::parse::<usize>`. -/
def parseUsize (l : List ℕ) : Option ℕ :=
  match l with
  | 43 :: rest => parseDigits rest
  | l => parseDigits l

/-- `image.rs:220-246`: the line with the size. `utf8` says whether `std::str::from_utf8` accepts the bytes. -/
def parseSize (utf8 : List ℕ → Bool) (line : List ℕ) : Outcome (ℕ × ℕ) :=
  if utf8 line = false then .err
  else match splitBy isSpace line with
    | [_, h, k, w] =>
      if k ≠ bytes "+X" then .err
      else match parseUsize h, parseUsize w with
        | some h, some w => .ok (h, w)
        | _, _ => .err
    | _ => .err

/-- `image.rs:248-267`: the line with the format. -/
def formatOk (line : List ℕ) : Bool :=
  match splitBy (· == 61) line with
  | [_, f] => f == bytes "32-bit_rle_rgbe"
  | _ => false

/-- `image.rs:211-269`, the loop that reads the header: the height, the width and what follows.  There is a line less in
each round, so that there are fewer rounds than bytes and one. -/
def readHeader (utf8 : List ℕ → Bool) : ℕ → List ℕ → Outcome ((ℕ × ℕ) × List ℕ)
  | 0, _ => .err
  | fuel + 1, content =>
    match nextLine content with
    | none => .err
    | some (line, rest) =>
      if bytes "-Y" <+: line then (parseSize utf8 line).bind fun s => .ok (s, rest)
      else if bytes "FORMAT" <+: line then
        if formatOk line then readHeader utf8 fuel rest else .err
      else readHeader utf8 fuel rest

/-- `chunks_exact(4)`. -/
def chunks4 : List ℕ → List (ℕ × ℕ × ℕ × ℕ)
  | r :: g :: b :: e :: rest => (r, g, b, e) :: chunks4 rest
  | _ => []

/-- `image.rs:191-289`, `from_file`, of a file that can be read. -/
noncomputable def read (utf8 : List ℕ → Bool) (content : List ℕ) : Outcome Buffer :=
  (readHeader utf8 (content.length + 1) content).bind fun h =>
  .ok ⟨h.1.2, h.1.1, (chunks4 h.2).map decode⟩

end Simple.Render.Image
