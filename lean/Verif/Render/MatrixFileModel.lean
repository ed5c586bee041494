import Mathlib.Data.Fin.VecNotation
import Verif.Matrix.Model
import Verif.Render.ImageModel

/-! Model of the matrix files of `/repo/rendering/src/colour_matrix.rs`.  A text is the list of its bytes; files that are
not UTF-8 are left out.  Matrices of numbers and of colours are treated at once: an entry has `c` components, one or three.
How numbers are printed and read is a parameter, `Text`; `fixed` below is one. -/

namespace Simple.Render.MatrixFile

open Image Matrix

/-- `Display` and `FromStr` of the components. -/
structure Text (F : Type) where
  print : F → List ℕ
  parse : List ℕ → Option F

/-- `colour.rs:119-123`, `fmt`: the components with a space between them. -/
def printEntry {F : Type} (t : Text F) {c : ℕ} (v : Fin c → F) : List ℕ := [32].intercalate (List.ofFn fun i => t.print (v i))

/-- `colour_matrix.rs:77-81` and `104-108`: a line. -/
def saveRow {F : Type} (t : Text F) {c : ℕ} (m : GMatrix (Fin c → F)) (row : ℕ) : List ℕ → Outcome (List ℕ)
  | [] => .ok [10]
  | col :: cols => (m.get row col).bind fun v => (saveRow t m row cols).bind fun rest => .ok (printEntry t v ++ 9 :: rest)

/-- `colour_matrix.rs:76-82` and `103-109`: the lines. -/
def saveRows {F : Type} (t : Text F) {c : ℕ} (m : GMatrix (Fin c → F)) : List ℕ → Outcome (List ℕ)
  | [] => .ok []
  | row :: rows => (saveRow t m row (List.range m.ncols)).bind fun line => (saveRows t m rows).bind fun rest => .ok (line ++ rest)

/-- `colour_matrix.rs:67-73` and `94-100`. -/
def saveHeader (nrows ncols ncomp : ℕ) : List ℕ :=
  bytes "#?SIMPLE" ++ 10 :: (bytes "NROWS=" ++ decimal nrows ++ 10 :: (bytes "NCOLS=" ++ decimal ncols ++ 10 ::
    (bytes "NCOMP=" ++ decimal ncomp ++ 10 :: (bytes "FORMAT=ascii" ++ 10 :: [10]))))

/-- `colour_matrix.rs:60-85`, `save_colour_matrix`, and `87-112`, `save_matrix`. -/
def save {F : Type} (t : Text F) {c : ℕ} (m : GMatrix (Fin c → F)) : Outcome (List ℕ) :=
  (saveRows t m (List.range m.nrows)).bind fun body => .ok (saveHeader m.nrows m.ncols c ++ body)

/-- `str::lines`: the end of a line may be `\r\n`, and the last line may have none. -/
def lines : List ℕ → List ℕ → List (List ℕ)
  | current, [] => if current = [] then [] else [current.reverse]
  | current, b :: rest =>
    if b = 10 then (match current with | 13 :: l => l.reverse | l => l.reverse) :: lines [] rest
    else lines (b :: current) rest

/-- `str::split_ascii_whitespace`. -/
def words (line : List ℕ) : List (List ℕ) := (splitBy isSpace line).filter (· ≠ [])

/-- `colour_matrix.rs:142-154`, and the same for the other fields: a field of the header. -/
def field (line : List ℕ) : Outcome ℕ :=
  match splitBy (· == 61) line with
  | [_, v] => match parseUsize v with
    | some n => .ok n
    | none => .err
  | _ => .err

/-- `colour_matrix.rs:131-193`: the header; returns how many lines it has and the number of rows and columns. -/
def header (ncomp : ℕ) : List (List ℕ) → (count : ℕ) → (nrows ncols : Option ℕ) → Outcome (ℕ × Option ℕ × Option ℕ)
  | [], count, nrows, ncols => .ok (count, nrows, ncols)
  | line :: rest, count, nrows, ncols =>
    if line.head?.all isSpace then .ok (count + 1, nrows, ncols)
    else if bytes "NROWS" <+: line then (field line).bind fun v => header ncomp rest (count + 1) (some v) ncols
    else if bytes "NCOLS" <+: line then (field line).bind fun v => header ncomp rest (count + 1) nrows (some v)
    else if bytes "NCOMP" <+: line then (field line).bind fun v => if v ≠ ncomp then .err else header ncomp rest (count + 1) nrows ncols
    else header ncomp rest (count + 1) nrows ncols

/-- `colour_matrix.rs:228-254`: an entry; there are enough words, since they have been counted. -/
def entry {F : Type} (t : Text F) (c : ℕ) (ws : List (List ℕ)) (ncol : ℕ) : Outcome (Fin c → F) :=
  if h : ∀ k : Fin c, ((ws[c * ncol + k]?).bind t.parse).isSome then .ok fun k => ((ws[c * ncol + k]?).bind t.parse).get (h k) else .err

/-- `colour_matrix.rs:226-259`: the entries of a line. -/
def readRow {F : Type} (t : Text F) {c : ℕ} (ws : List (List ℕ)) (nrow : ℕ) : List ℕ → GMatrix (Fin c → F) → Outcome (GMatrix (Fin c → F))
  | [], m => .ok m
  | ncol :: cols, m => (entry t c ws ncol).bind fun v =>
    match m.set nrow ncol v with
    | (.ok _, m') => readRow t ws nrow cols m'
    | (.err, _) => .err
    | (.panic, _) => .panic

/-- `colour_matrix.rs:215-260`: the lines after the header. -/
def readRows {F : Type} (t : Text F) {c : ℕ} (ncols : ℕ) : (nrow : ℕ) → List (List ℕ) → GMatrix (Fin c → F) → Outcome (GMatrix (Fin c → F))
  | _, [], m => .ok m
  | nrow, line :: rest, m =>
    let values := words line
    if values.length ≠ c * ncols then .err
    else (readRow t values nrow (List.range ncols) m).bind fun m => readRows t ncols (nrow + 1) rest m

/-- `colour_matrix.rs:114-264`, `read_colour_matrix`, and `266-404`, `read_matrix`: the matrix in the text of a file. -/
def read {F : Type} [Zero F] (t : Text F) (c : ℕ) (content : List ℕ) : Outcome (GMatrix (Fin c → F)) :=
  let ls := lines [] content
  (header c ls 0 none none).bind fun h =>
    match h.2.1, h.2.2 with
    | some nrows, some ncols => readRows t ncols 0 (ls.drop h.1) (GMatrix.new 0 nrows ncols)
    | _, _ => .err

/-! ### Numbers with five decimals -/

/-- The five decimals. -/
def decimals (n : ℕ) : List ℕ := [n / 10000 + 48, n / 1000 % 10 + 48, n / 100 % 10 + 48, n / 10 % 10 + 48, n % 10 + 48]

/-- `{:.5}` of a number; `near` chooses one of the nearest integers. -/
def printFixed (near : ℚ → ℕ) (q : ℚ) : List ℕ :=
  let n := near (|q| * 10 ^ 5)
  (if q < 0 then [45] else []) ++ (decimal (n / 10 ^ 5) ++ 46 :: decimals (n % 10 ^ 5))

/-- The value of some digits. -/
def digits (l : List ℕ) : Option ℕ :=
  if l.all (fun c => decide (48 ≤ c ∧ c ≤ 57)) = true then some (l.foldl (fun n c => n * 10 + (c - 48)) 0) else none

/-- `str::parse::<f64>` of a number without sign, before it is rounded to a `f64`; numbers with an exponent are left out. -/
def parseUnsigned (l : List ℕ) : Option ℚ :=
  match splitBy (· == 46) l with
  | [i] => if i = [] then none else (digits i).map fun n => (n : ℚ)
  | [i, f] => if i = [] ∧ f = [] then none else (digits i).bind fun n => (digits f).map fun d => (n : ℚ) + d / 10 ^ f.length
  | _ => none

/-- `str::parse::<f64>`; `rnd` is the rounding to a `f64`. -/
def parseFloat (rnd : ℚ → ℚ) (l : List ℕ) : Option ℚ :=
  match l with
  | 45 :: rest => (parseUnsigned rest).map fun q => rnd (-q)
  | 43 :: rest => (parseUnsigned rest).map rnd
  | l => (parseUnsigned l).map rnd

/-- The text of the components of a colour. -/
def fixed (near : ℚ → ℕ) (rnd : ℚ → ℚ) : Text ℚ := ⟨printFixed near, parseFloat rnd⟩

end Simple.Render.MatrixFile
