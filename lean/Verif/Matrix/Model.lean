import Verif.Prelude
import Mathlib.Algebra.Ring.Defs
import Mathlib.Algebra.Field.Basic
import Mathlib.Algebra.Order.Ring.Abs

/-!
# Model of the `matrix` crate: dense matrices

`T: Numberish` is an arbitrary type with the algebraic operations used.  `usize` arithmetic does
not overflow.  Mutating methods return the new value of `self` next to their result.
-/

namespace Simple.Matrix

variable {T : Type*}

/-- `matrix/src/generic_matrix.rs:9-13`, `struct GenericMatrix`. -/
structure GMatrix (T : Type*) where
  nrows : ℕ
  ncols : ℕ
  data : List T
deriving DecidableEq, Repr

namespace GMatrix

/-- `generic_matrix.rs:34-40`, `from_data`. -/
def fromData (nrows ncols : ℕ) (data : List T) : Outcome (GMatrix T) :=
  if nrows * ncols ≠ data.length then .panic else .ok ⟨nrows, ncols, data⟩

/-- `generic_matrix.rs:44-50`, `new`. -/
def new (v : T) (nrows ncols : ℕ) : GMatrix T := ⟨nrows, ncols, List.replicate (nrows * ncols) v⟩

/-- The loop of `generic_matrix.rs:60-64`, starting at row `nrow`. -/
def diagLoop (n : ℕ) : ℕ → List T → List T → List T
  | _, [], v => v
  | nrow, x :: xs, v => diagLoop n (nrow + 1) xs (v.set (nrow * (n + 1)) x)

/-- `generic_matrix.rs:55-67`, `diag`. -/
def diag [Zero T] (d : List T) : Outcome (GMatrix T) :=
  let n := d.length
  let v := List.replicate (n * n) (0 : T)
  fromData n n (diagLoop n 0 d v)

/-- `generic_matrix.rs:71-87`, `eye`. -/
def eye [Zero T] [One T] (n : ℕ) : GMatrix T :=
  ⟨n, n, (List.range (n * n)).map fun i =>
    let col := i % n
    let row := (i - col) / n
    if row = col then 1 else 0⟩

/-- `generic_matrix.rs:91-97`, `empty`. -/
def empty : GMatrix T := ⟨0, 0, []⟩

/-- `generic_matrix.rs:101-103`, `is_empty`. -/
def isEmpty (A : GMatrix T) : Bool := A.nrows == 0 && A.ncols == 0

/-- `generic_matrix.rs:121-123`, `size`. -/
def size (A : GMatrix T) : ℕ × ℕ := (A.nrows, A.ncols)

/-- `generic_matrix.rs:126-128`, `index`. -/
def index (A : GMatrix T) (r c : ℕ) : ℕ := A.ncols * r + c

/-- `generic_matrix.rs:114-118`, `copy_from`: both `assert_eq!` and `copy_from_slice` panic on
mismatch. -/
def copyFrom (A B : GMatrix T) : Outcome (GMatrix T) :=
  if A.nrows ≠ B.nrows then .panic
  else if A.ncols ≠ B.ncols then .panic
  else if A.data.length ≠ B.data.length then .panic
  else .ok ⟨A.nrows, A.ncols, B.data⟩

/-- `generic_matrix.rs:131-138`, `get`. -/
def get (A : GMatrix T) (r c : ℕ) : Outcome T :=
  if r < A.nrows ∧ c < A.ncols then Outcome.index A.data (A.index r c) else .err

/-- Writing `f old` at position `i` of the data; the indexing panics out of bounds. -/
def update (A : GMatrix T) (i : ℕ) (f : T → T) : Outcome (GMatrix T) :=
  if h : i < A.data.length then .ok ⟨A.nrows, A.ncols, A.data.set i (f A.data[i])⟩ else .panic

/-- `generic_matrix.rs:141-150`, `set`.  Returns the result and the new matrix. -/
def set (A : GMatrix T) (r c : ℕ) (v : T) : Outcome T × GMatrix T :=
  if r < A.nrows ∧ c < A.ncols then
    match A.update (A.ncols * r + c) (fun _ => v) with
    | .ok A' => (.ok v, A')
    | _ => (.panic, A)
  else (.err, A)

/-- `generic_matrix.rs:153-161`, `add_to_element`. -/
def addToElement [Add T] (A : GMatrix T) (r c : ℕ) (v : T) : Outcome Unit × GMatrix T :=
  if r < A.nrows ∧ c < A.ncols then
    match A.update (A.index r c) (fun x => x + v) with
    | .ok A' => (.ok (), A')
    | _ => (.panic, A)
  else (.err, A)

/-- `generic_matrix.rs:164-172`, `scale_element`. -/
def scaleElement [Mul T] (A : GMatrix T) (r c : ℕ) (v : T) : Outcome Unit × GMatrix T :=
  if r < A.nrows ∧ c < A.ncols then
    match A.update (A.index r c) (fun x => x * v) with
    | .ok A' => (.ok (), A')
    | _ => (.panic, A)
  else (.err, A)

/-- Writing the results `rs` over a prefix of `into`: the zip of iterators
in `generic_matrix.rs:188-192`, which stops at the shortest. -/
def overwrite : List T → List T → List T
  | _, [] => []
  | [], l => l
  | x :: xs, _ :: ys => x :: overwrite xs ys

/-- `generic_matrix.rs:177-196`, `add_into`.  The size of `into` is not checked. -/
def addInto [Add T] (A B into : GMatrix T) : Outcome Unit × GMatrix T :=
  if A.ncols ≠ B.ncols ∨ A.nrows ≠ B.nrows then (.err, into)
  else (.ok (), ⟨into.nrows, into.ncols, overwrite (List.zipWith (· + ·) A.data B.data) into.data⟩)

/-- `generic_matrix.rs:199-217`, `sub_into`. -/
def subInto [Sub T] (A B into : GMatrix T) : Outcome Unit × GMatrix T :=
  if A.ncols ≠ B.ncols ∨ A.nrows ≠ B.nrows then (.err, into)
  else (.ok (), ⟨into.nrows, into.ncols, overwrite (List.zipWith (· - ·) A.data B.data) into.data⟩)

/-- `generic_matrix.rs:220-229`, `scale_into` (scalar of the same type as the entries). -/
def scaleInto [Mul T] (A : GMatrix T) (s : T) (into : GMatrix T) : Outcome Unit × GMatrix T :=
  if A.ncols ≠ into.ncols ∨ A.nrows ≠ into.nrows then (.err, into)
  else (.ok (), ⟨into.nrows, into.ncols, overwrite (A.data.map (· * s)) into.data⟩)

/-- `slice::chunks_exact(n)` for `n > 0`: the consecutive full chunks of length `n`. -/
def chunksExact (n : ℕ) (l : List T) : List (List T) :=
  (List.range (l.length / n)).map fun i => (l.drop (n * i)).take n

/-- `iter().skip(c).step_by(k)` for `k > 0`. -/
def skipStepBy (c k : ℕ) (l : List T) : List T :=
  (List.range ((l.length - c + (k - 1)) / k)).filterMap fun i => l[c + k * i]?

/-- One entry of the product, `generic_matrix.rs:264-269`. -/
def prodItem [Zero T] [Add T] [Mul T] (B : GMatrix T) (row : List T) (col : ℕ) : T :=
  (List.zipWith (· * ·) row (skipStepBy col B.ncols B.data)).foldl (· + ·) 0

/-- `generic_matrix.rs:233-276`, `prod_into` (the sequential version; the parallel version
computes the same independent rows).  `chunks_exact(0)` panics.  Rows of `into` beyond the zip
keep the cleared value. -/
def prodInto [Zero T] [Add T] [Mul T] (A B into : GMatrix T) : Outcome Unit × GMatrix T :=
  if A.ncols ≠ B.nrows then (.err, into)
  else if into.nrows ≠ A.nrows ∨ into.ncols ≠ B.ncols then (.err, into)
  else
    let cleared := into.data.map (· * 0)
    if A.ncols = 0 ∨ B.ncols = 0 then (.panic, ⟨into.nrows, into.ncols, cleared⟩)
    else
      let newRows := List.zipWith (fun row _ => (List.range B.ncols).map (prodItem B row))
        (chunksExact A.ncols A.data) (chunksExact B.ncols cleared)
      (.ok (), ⟨into.nrows, into.ncols, overwrite newRows.flatten cleared⟩)

/-- One entry of the n-diagonal product, `generic_matrix.rs:320-335`, where `s` is the one-sided
band width; `*item` starts at `start` (the cleared value). -/
def prodNDiagItem [Zero T] [Add T] [Mul T] (B : GMatrix T) (ncols s diagI : ℕ) (row : List T)
    (c : ℕ) (start : T) : T :=
  let ini := if diagI ≥ s then diagI - s else 0
  let fin := if diagI + s + 1 > ncols then ncols else diagI + s + 1
  (((row.zipIdx).take fin).drop ini).foldl
    (fun acc p => acc + p.1 * (B.data[B.index p.2 c]?.getD 0)) start

/-- `generic_matrix.rs:292-341`, `prod_n_diag_into`.  `one_sided_n!(0)` underflows. The accesses
`other.data[other_i]` are within bounds for well-formed matrices, because
`i < self.ncols = other.nrows` and `c < other.ncols`. -/
def prodNDiagInto [Zero T] [Add T] [Mul T] (A B : GMatrix T) (n : ℕ) (into : GMatrix T) :
    Outcome Unit × GMatrix T :=
  if A.ncols ≠ B.nrows then (.err, into)
  else if into.nrows ≠ A.nrows ∨ into.ncols ≠ B.ncols then (.err, into)
  else
    let cleared := into.data.map (· * 0)
    if A.ncols = 0 ∨ B.ncols = 0 ∨ n = 0 then (.panic, ⟨into.nrows, into.ncols, cleared⟩)
    else
      let s := (n - 1) / 2
      let newRows := List.zipWith
        (fun (p : List T × ℕ) intoRow =>
          (intoRow.zipIdx).map fun q => prodNDiagItem B A.ncols s p.2 p.1 q.2 q.1)
        (chunksExact A.ncols A.data).zipIdx (chunksExact B.ncols cleared)
      (.ok (), ⟨into.nrows, into.ncols, overwrite newRows.flatten cleared⟩)

/-- `generic_matrix.rs:281-287`, `prod_tri_diag_into`. -/
def prodTriDiagInto [Zero T] [Add T] [Mul T] (A B into : GMatrix T) : Outcome Unit × GMatrix T :=
  prodNDiagInto A B 3 into

/-- `generic_matrix.rs:344-353`, `from_prod_n_diag`. -/
def fromProdNDiag [Zero T] [Add T] [Mul T] (A B : GMatrix T) (n : ℕ) : Outcome (GMatrix T) :=
  match prodNDiagInto A B n (new 0 A.nrows B.ncols) with
  | (.ok _, C) => .ok C
  | (.err, _) => .err
  | (.panic, _) => .panic

/-- `generic_matrix.rs:356-370`, `compare`; indexing `other.data[i]` may panic for ill-formed
matrices only. -/
def compare [DecidableEq T] (A B : GMatrix T) : Bool :=
  if A.ncols ≠ B.ncols then false
  else if A.nrows ≠ B.nrows then false
  else (List.range A.data.length).all fun i => A.data[i]? = B.data[i]?

/-- `generic_matrix.rs:373-391`, `concat_rows`. -/
def concatRows (A B : GMatrix T) : Outcome Unit × GMatrix T :=
  if A.ncols ≠ B.ncols then (.err, A)
  else (.ok (), ⟨A.nrows + B.nrows, A.ncols, A.data ++ B.data⟩)

/-- `generic_matrix.rs:394-413`, operator `+`. -/
def add [Add T] (A B : GMatrix T) : Outcome (GMatrix T) :=
  if A.ncols ≠ B.ncols ∨ A.nrows ≠ B.nrows then .panic
  else .ok ⟨A.nrows, A.ncols, List.zipWith (· + ·) A.data B.data⟩

/-- `generic_matrix.rs:428-446`, operator `-`. -/
def sub [Sub T] (A B : GMatrix T) : Outcome (GMatrix T) :=
  if A.ncols ≠ B.ncols ∨ A.nrows ≠ B.nrows then .panic
  else .ok ⟨A.nrows, A.ncols, List.zipWith (· - ·) A.data B.data⟩

/-- `generic_matrix.rs:461-471` and `482-486`, operators `* s` and `*= s`. -/
def smul [Mul T] (A : GMatrix T) (s : T) : GMatrix T := ⟨A.nrows, A.ncols, A.data.map (· * s)⟩

/-- `generic_matrix.rs:473-480`, operator `*` between matrices; `unwrap` panics on `Err`. -/
def mul [Zero T] [Add T] [Mul T] (A B : GMatrix T) : Outcome (GMatrix T) :=
  match prodInto A B (new 0 A.nrows B.ncols) with
  | (.ok _, C) => .ok C
  | _ => .panic

end GMatrix
end Simple.Matrix
