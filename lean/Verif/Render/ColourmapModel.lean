import Mathlib.Algebra.Field.Rat
import Mathlib.Algebra.Order.Field.Basic
import Verif.Prelude

/-! Model of `/repo/rendering/src/colourmap/mod.rs`.  `Float` is an ordered field, and every operation is followed by
`rnd`: the identity for exact numbers, a rounding where rounding matters.  The tables of colours are not modelled: the
theorems are about every table. -/

namespace Simple.Render.Colourmap

variable {K : Type*} [Field K] [LinearOrder K]

/-- `[Float; 3]`. -/
structure Rgb (K : Type*) where
  r : K
  g : K
  b : K
deriving DecidableEq, Repr

/-- `mod.rs:90-92`: a channel between two colours. -/
def blend (rnd : K → K) (a b lam : K) : K := rnd (a + rnd (rnd (b - a) * lam))

/-- `mod.rs:84-95`, the loop, from `i` on; the end is `unreachable!()`. -/
def search (rnd : K → K) (x min delta : K) (map : List (Rgb K)) : List ℕ → Outcome (Rgb K)
  | [] => .panic
  | i :: is =>
    let binStart := rnd (min + rnd ((i - 1 : ℕ) * delta))
    let binEnd := rnd (binStart + delta)
    if x ≤ binEnd then
      let lam := rnd (rnd (x - binStart) / delta)
      (Outcome.index map (i - 1)).bind fun p =>
      (Outcome.index map i).bind fun q =>
      .ok ⟨blend rnd p.r q.r lam, blend rnd p.g q.g lam, blend rnd p.b q.b lam⟩
    else search rnd x min delta map is

/-- `mod.rs:71-97`, `map_linear_colour`.  (With fewer than two colours, `map.len() - 1` overflows or is zero; the loop is
empty then.) -/
def mapLinear (rnd : K → K) (x min max : K) (map : List (Rgb K)) : Outcome (Rgb K) :=
  if x ≤ min then Outcome.index map 0
  else if max ≤ x then
    match map.getLast? with
    | some c => .ok c
    | none => .panic
  else
    let delta := rnd (rnd (max - min) / (map.length - 1 : ℕ))
    search rnd x min delta map (List.range' 1 (map.length - 1))

end Simple.Render.Colourmap
