import Verif.Matrix.Model

/-!
# Model of `matrix/src/matrix.rs:140-204`, `gauss_seidel`

The numbers are of any type with the operations used, so that the same definition can be read with
exact arithmetic or with numbers that include NaN.
-/

namespace Simple.Matrix

variable {K : Type*} [Zero K] [Add K] [Sub K] [Mul K] [Div K] [Neg K] [LT K] [DecidableLT K]

/-- `Float::abs`. -/
def absF (x : K) : K := if x < 0 then -x else x

/-- `matrix.rs:171-187`: the new value of component `i`, given the components already updated
in this sweep (`newX`) and the previous iterate (`x`). -/
def gsComponent (A : GMatrix K) (b x newX : List K) (n i : ℕ) : K :=
  let s1 := (List.range i).foldl (fun s j => s + A.data.getD (A.index i j) 0 * newX.getD j 0) 0
  let s2 := (List.range' (i + 1) (n - (i + 1))).foldl
    (fun s j => s + A.data.getD (A.index i j) 0 * x.getD j 0) 0
  (b.getD i 0 - s1 - s2) / A.data.getD (A.index i i) 0

/-- `matrix.rs:168-188`: one sweep.  `new_x` is first filled with zeroes and then written from the
first component on; the components not written yet are not read. -/
def gsSweep (A : GMatrix K) (b x : List K) (n : ℕ) : List K :=
  (List.range n).foldl (fun newX i => newX ++ [gsComponent A b x newX n i]) []

/-- `matrix.rs:190-196`: largest change, starting from `-Float::MAX`. -/
def gsMaxErr (lowest : K) (x newX : List K) (n : ℕ) : K :=
  (List.range n).foldl (fun m i =>
    let err := absF (x.getD i 0 - newX.getD i 0)
    if m < err then err else m) lowest

/-- `matrix.rs:167-201`: the loop, with `k` iterations left.  Returns the result and `x`. -/
def gsLoop (lowest conv : K) (A : GMatrix K) (b : List K) (n : ℕ) : (k : ℕ) → List K →
    Outcome Unit × List K
  | 0, x => (.err, x)
  | k + 1, x =>
    let newX := gsSweep A b x n
    if gsMaxErr lowest x newX n < conv then (.ok (), x)
    else gsLoop lowest conv A b n k newX

/-- `matrix.rs:140-204`, `gauss_seidel`.  `copy_from_slice` panics when `x` is not a column;
indexing panics when `b` has no data. -/
def gaussSeidel (lowest : K) (A b x : GMatrix K) (maxIter : ℕ) (conv : K) :
    Outcome Unit × GMatrix K :=
  if A.ncols ≠ A.nrows then (.err, x)
  else if A.ncols ≠ b.nrows then (.err, x)
  else if A.ncols ≠ x.nrows then (.err, x)
  else if 0 < maxIter ∧ (x.data.length ≠ A.nrows ∨ b.data.length < A.nrows) then (.panic, x)
  else
    let r := gsLoop lowest conv A b.data A.nrows maxIter x.data
    (r.1, ⟨x.nrows, x.ncols, r.2⟩)

end Simple.Matrix
