import Verif.Matrix.NDiagModel
import Mathlib.Algebra.Order.Field.Basic

/-!
# Model of `matrix/src/matrix.rs` and `matrix/src/n_diag_matrix.rs`: linear solvers

Floats are elements of an ordered field `K` (exact arithmetic).  The threshold
`TINY = 1e-26` is the parameter `tiny`.
-/

namespace Simple.Matrix

variable {K : Type*} [Field K] [LinearOrder K]

/-- `matrix.rs:43-51`, `aux_scale`: multiplies the `k` entries of row `row` from column `col` on,
stopping at the last column.  Rows are within bounds wherever it is called (see `down`). -/
def auxScale (A : GMatrix K) (row : ℕ) (v : K) : (k col : ℕ) → GMatrix K
  | 0, _ => A
  | k + 1, col =>
    if col = A.ncols then A
    else auxScale ⟨A.nrows, A.ncols, A.data.modify (A.index row col) (· * v)⟩ row v k (col + 1)

/-- `matrix.rs:52-55`, `scale_row`. -/
def scaleRow (s : ℕ) (A b : GMatrix K) (row : ℕ) (v : K) : GMatrix K × GMatrix K :=
  (auxScale A row v (s + 1) row, auxScale b row v b.ncols 0)

/-- `matrix.rs:58-74`, `aux_add`. -/
def auxAdd (A : GMatrix K) (rowFrom rowInto : ℕ) (scale : K) : (k col : ℕ) → GMatrix K
  | 0, _ => A
  | k + 1, col =>
    if col = A.ncols then A
    else
      let aux := A.data.getD (A.index rowFrom col) 0
      auxAdd ⟨A.nrows, A.ncols, A.data.modify (A.index rowInto col) (· + scale * aux)⟩
        rowFrom rowInto scale k (col + 1)

/-- `matrix.rs:75-87`, `add_rows`. -/
def addRows (s : ℕ) (A b : GMatrix K) (rowFrom rowInto : ℕ) (scale : K) : GMatrix K × GMatrix K :=
  (auxAdd A rowFrom rowInto scale (s + 1) rowFrom, auxAdd b rowFrom rowInto scale b.ncols 0)

/-- State of the elimination.  `skipped` is a ghost flag: it records that a non-zero entry was
left in place because it is not larger than `TINY`. -/
structure GState (K : Type*) where
  A : GMatrix K
  b : GMatrix K
  skipped : Bool

/-- `matrix.rs:110-119`: eliminating column `c` in the `k` rows from `r` on. -/
def elimDown (tiny : K) (s c : ℕ) : (k r : ℕ) → GState K → Outcome (GState K)
  | 0, _, st => .ok st
  | k + 1, r, st =>
    match st.A.get r c with
    | .ok other =>
      if |other| > tiny then
        if r < st.b.nrows then
          let (A, b) := addRows s st.A st.b c r (-other)
          elimDown tiny s c k (r + 1) ⟨A, b, st.skipped⟩
        else .panic
      else elimDown tiny s c k (r + 1) ⟨st.A, st.b, st.skipped || decide (other ≠ 0)⟩
    | .err => .ok st
    | .panic => .panic

/-- `matrix.rs:90-120`: the `k` remaining columns, from `c` on.  `self.data[self.index(c, c)]`
panics when there are fewer rows than columns, and so does `b` when it has no row `c`. -/
def down (tiny : K) (s : ℕ) : (k c : ℕ) → GState K → Outcome (GState K)
  | 0, _, st => .ok st
  | k + 1, c, st =>
    match st.A.get c c with
    | .ok pivot =>
      if |pivot| < tiny then .err
      else if c < st.b.nrows then
        let (A, b) := scaleRow s st.A st.b c (1 / pivot)
        if c = A.ncols - 1 then .ok ⟨A, b, st.skipped⟩
        else
          match elimDown tiny s c s (c + 1) ⟨A, b, st.skipped⟩ with
          | .ok st' => down tiny s k (c + 1) st'
          | .err => .err
          | .panic => .panic
      else .panic
    | _ => .panic

/-- `matrix.rs:129-136`: `for r in (ini..c).rev()`, the `k` rows below `ini + k`, going up. -/
def elimUp (tiny : K) (s c ini : ℕ) : (k : ℕ) → GState K → GState K
  | 0, st => st
  | k + 1, st =>
    match st.A.get (ini + k) c with
    | .ok other =>
      if |other| > tiny then
        let (A, b) := addRows s st.A st.b c (ini + k) (-other)
        elimUp tiny s c ini k ⟨A, b, st.skipped⟩
      else elimUp tiny s c ini k ⟨st.A, st.b, st.skipped || decide (other ≠ 0)⟩
    | _ => elimUp tiny s c ini k st

/-- `matrix.rs:123-137`: `for c in (1..ncols).rev()`, columns `k, k-1, ..., 1`.  The
`debug_assert` on the pivot is not modelled (in exact arithmetic the pivot is one). -/
def up (tiny : K) (s : ℕ) : (k : ℕ) → GState K → GState K
  | 0, st => st
  | k + 1, st =>
    let c := k + 1
    let ini := if c < s then 0 else c - s
    up tiny s k (elimUp tiny s c ini (c - ini) st)

/-- `matrix.rs:38-136`, `mut_n_diag_gaussian`.  `one_sided_n!(0)` underflows. -/
def mutNDiagGaussian (tiny : K) (A b : GMatrix K) (n : ℕ) : Outcome (GState K) :=
  if n = 0 then .panic
  else
    let s := (n - 1) / 2
    match down tiny s A.ncols 0 ⟨A, b, false⟩ with
    | .ok st => .ok (up tiny s (A.ncols - 1) st)
    | .err => .err
    | .panic => .panic

/-- `matrix.rs:20-26`, `n_diag_gaussian`: works on clones; the second component is the ghost
flag. -/
def nDiagGaussian (tiny : K) (A b : GMatrix K) (n : ℕ) : Outcome (GMatrix K × Bool) :=
  match mutNDiagGaussian tiny A b n with
  | .ok st => .ok (st.b, st.skipped)
  | .err => .err
  | .panic => .panic

/-- `n_diag_matrix.rs:22-27`: filling the dense copy, row by row. -/
def fillDense {N : ℕ} (D : NDiag N K) : List (ℕ × ℕ) → GMatrix K → Outcome (GMatrix K)
  | [], M => .ok M
  | (r, c) :: l, M =>
    match D.get r c with
    | .ok v =>
      match M.set r c v with
      | (.ok _, M') => fillDense D l M'
      | (.err, _) => .err
      | (.panic, _) => .panic
    | .err => .err
    | .panic => .panic

/-- `n_diag_matrix.rs:19-32`, `mut_gaussian`: the new contents of `b` and the ghost flag.
`self` is not modified. -/
def NDiag.mutGaussian {N : ℕ} (tiny : K) (D : NDiag N K) (b : List K) : Outcome (List K × Bool) :=
  let bAux : GMatrix K := ⟨b.length, 1, b⟩
  let coords := (List.range D.nrows).flatMap fun r => (List.range D.ncols).map fun c => (r, c)
  match fillDense D coords (GMatrix.new 0 D.ncols D.nrows) with
  | .ok A =>
    match mutNDiagGaussian tiny A bAux N with
    | .ok st => .ok (st.b.data, st.skipped)
    | .err => .err
    | .panic => .panic
  | .err => .err
  | .panic => .panic

end Simple.Matrix
