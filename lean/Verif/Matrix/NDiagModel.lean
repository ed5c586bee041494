import Verif.Matrix.Model

/-!
# Model of `matrix/src/n_diag_generic_matrix.rs`: compact n-diagonal matrices
-/

namespace Simple.Matrix

variable {T : Type*}

/-- `n_diag_generic_matrix.rs:7-14`, `struct NDiagGenericMatrix<N, T>`. -/
structure NDiag (N : ℕ) (T : Type*) where
  nrows : ℕ
  ncols : ℕ
  data : List T
deriving DecidableEq, Repr

namespace NDiag

/-- `matrix/src/lib.rs`, macro `one_sided_n!`. -/
def oneSided (N : ℕ) : ℕ := (N - 1) / 2

/-- `n_diag_generic_matrix.rs:84-94`, `zeroes_before`. -/
def zeroesBefore (N row : ℕ) : ℕ := if row < oneSided N then 0 else row - oneSided N

/-- `n_diag_generic_matrix.rs:96-115`, `n_in_row`. -/
def nInRow (N row ncols : ℕ) : ℕ :=
  if row < oneSided N then oneSided N + 1 + row
  else if zeroesBefore N row + N ≤ ncols then N
  else if zeroesBefore N row < ncols then ncols - zeroesBefore N row
  else 0

/-- `n_diag_generic_matrix.rs:76-82`, `acc_n_in_row`. -/
def accNInRow (N row ncols : ℕ) : ℕ :=
  (List.range row).foldl (fun n r => n + nInRow N r ncols) 0

/-- `n_diag_generic_matrix.rs:37-64`, `new`; `validate_n` (29-33) panics unless `N` is odd.
The requested value `v` fills a vector that is then mapped to `one * index`. -/
def new [One T] [Mul T] [NatCast T] (N : ℕ) (v : T) (nrows ncols : ℕ) : Outcome (NDiag N T) :=
  if N = 0 ∨ N % 2 = 0 then .panic
  else
    let n := accNInRow N nrows ncols
    let data := List.replicate n v
    .ok ⟨nrows, ncols, data.zipIdx.map fun p => 1 * (p.2 : T)⟩

/-- `n_diag_generic_matrix.rs:131-134`, `is_diag_value`. -/
def isDiagValue (N r c : ℕ) : Bool := c + oneSided N ≥ r && c ≤ r + oneSided N

/-- `n_diag_generic_matrix.rs:118-128`, `index` (the subtraction is on unsigned integers, it
cannot underflow inside of the band). -/
def index {N : ℕ} (A : NDiag N T) (r c : ℕ) : Outcome ℕ :=
  if isDiagValue N r c then
    if zeroesBefore N r ≤ accNInRow N r A.ncols + c then
      .ok (accNInRow N r A.ncols + c - zeroesBefore N r)
    else .panic
  else .err

/-- `n_diag_generic_matrix.rs:142-153`, `get`. -/
def get [Zero T] {N : ℕ} (A : NDiag N T) (r c : ℕ) : Outcome T :=
  if r < A.nrows ∧ c < A.ncols then
    if isDiagValue N r c then
      match A.index r c with
      | .ok i => Outcome.index A.data i
      | .err => .err
      | .panic => .panic
    else .ok 0
  else .err

/-- The common shape of `set`, `add_to_element` and `scale_element`
(`n_diag_generic_matrix.rs:156-171`, `174-189`, `192-207`): check, index, replace the stored value
`x` by `f x`, and return `v`. -/
def modify {N : ℕ} (A : NDiag N T) (r c : ℕ) (v : T) (f : T → T) : Outcome T × NDiag N T :=
  if r < A.nrows ∧ c < A.ncols then
    if isDiagValue N r c then
      match A.index r c with
      | .ok i =>
        if h : i < A.data.length then (.ok v, ⟨A.nrows, A.ncols, A.data.set i (f A.data[i])⟩)
        else (.panic, A)
      | .err => (.err, A)
      | .panic => (.panic, A)
    else (.err, A)
  else (.err, A)

/-- `n_diag_generic_matrix.rs:156-171`, `set`. -/
def set {N : ℕ} (A : NDiag N T) (r c : ℕ) (v : T) : Outcome T × NDiag N T := A.modify r c v (fun _ => v)
/-- `n_diag_generic_matrix.rs:174-189`, `add_to_element`. -/
def addToElement [Add T] {N : ℕ} (A : NDiag N T) (r c : ℕ) (v : T) : Outcome T × NDiag N T :=
  A.modify r c v (fun x => x + v)
/-- `n_diag_generic_matrix.rs:192-207`, `scale_element`. -/
def scaleElement [Mul T] {N : ℕ} (A : NDiag N T) (r c : ℕ) (v : T) : Outcome T × NDiag N T :=
  A.modify r c v (fun x => x * v)

/-- `slice[a..b]`, which panics out of bounds. -/
def slice (l : List T) (a b : ℕ) : Outcome (List T) :=
  if a ≤ b ∧ b ≤ l.length then .ok ((l.drop a).take (b - a)) else .panic

/-- Loop of `n_diag_generic_matrix.rs:228-244`: the values of rows `row, row+1, ...`, `k` of
them, with `acc` stored values already consumed.  Stops at a panic. -/
def columnProdLoop [Zero T] [Add T] [Mul T] {N : ℕ} (A : NDiag N T) (vec : List T) :
    (k row acc : ℕ) → Outcome (List T)
  | 0, _, _ => .ok []
  | k + 1, row, acc =>
    let nz := nInRow N row A.ncols
    if nz > 0 then
      match slice A.data acc (acc + nz) with
      | .ok this =>
        match slice vec (zeroesBefore N row) (zeroesBefore N row + nz) with
        | .ok other =>
          match columnProdLoop A vec k (row + 1) (acc + nz) with
          | .ok rest => .ok ((List.zipWith (· * ·) this other).foldl (· + ·) 0 :: rest)
          | .err => .err
          | .panic => .panic
        | .err => .err
        | .panic => .panic
      | .err => .err
      | .panic => .panic
    else
      match columnProdLoop A vec k (row + 1) acc with
      | .ok rest => .ok (0 :: rest)
      | .err => .err
      | .panic => .panic

/-- `n_diag_generic_matrix.rs:210-247`, `column_prod_into`: the new contents of `into`. -/
def columnProdInto [Zero T] [Add T] [Mul T] {N : ℕ} (A : NDiag N T) (vec into : List T) :
    Outcome (List T) :=
  if vec.length ≠ A.ncols then .err
  else if vec.length ≠ into.length then .err
  else columnProdLoop A vec vec.length 0 0

/-- `n_diag_generic_matrix.rs:250-259`, `scale_into`. -/
def scaleInto [Mul T] {N : ℕ} (A : NDiag N T) (s : T) (into : NDiag N T) :
    Outcome Unit × NDiag N T :=
  if A.ncols ≠ into.ncols ∨ A.nrows ≠ into.nrows then (.err, into)
  else (.ok (), ⟨into.nrows, into.ncols, GMatrix.overwrite (A.data.map (· * s)) into.data⟩)

/-- `n_diag_generic_matrix.rs:262-266`, `*=`. -/
def mulAssign [Mul T] {N : ℕ} (A : NDiag N T) (s : T) : NDiag N T :=
  ⟨A.nrows, A.ncols, A.data.map (· * s)⟩

/-- `n_diag_generic_matrix.rs:70-74`, `copy_from`. -/
def copyFrom {N : ℕ} (A B : NDiag N T) : Outcome (NDiag N T) :=
  if A.nrows ≠ B.nrows then .panic
  else if A.ncols ≠ B.ncols then .panic
  else if A.data.length ≠ B.data.length then .panic
  else .ok ⟨A.nrows, A.ncols, B.data⟩

end NDiag
end Simple.Matrix
