import Mathlib.Algebra.Ring.Defs
import Verif.Prelude

/-! Model of the crate `polynomial` (`/repo/polynomial/src/lib.rs`). -/

namespace Simple.Poly

/-- The number of slots, `[Float; 12]` in `lib.rs:78`. -/
def capacity : ℕ := 12

/-- `lib.rs:75-83`, `struct Polynomial`.  The array `[Float; 12]` is a list; the floating point
numbers are the elements of a semiring. -/
structure Polynomial (K : Type*) where
  coefficients : List K
  len : ℕ
deriving DecidableEq

namespace Polynomial

variable {K : Type*} [Semiring K]

/-- `lib.rs:88-93`, `Polynomial::new`. -/
def new : Polynomial K := ⟨List.replicate capacity 0, 0⟩

/-- `lib.rs:96-98`, `is_empty`. -/
def isEmpty (p : Polynomial K) : Bool := p.len == 0

/-- `lib.rs:101-110`, `push`.  Panics when there is no free slot. -/
def push (p : Polynomial K) (v : K) : Outcome (Polynomial K) :=
  if p.len ≥ p.coefficients.length then .panic
  else .ok ⟨p.coefficients.set p.len v, p.len + 1⟩

/-- The loop `for i in 0..self.len` of `lib.rs:118-125`; indexing beyond the array panics. -/
def evalLoop (p : Polynomial K) (x : K) : (n i : ℕ) → (y : K) → Outcome K
  | 0, _, y => .ok y
  | n + 1, i, y =>
    match Outcome.index p.coefficients i with
    | .ok c => evalLoop p x n (i + 1) (y + c * x ^ i)
    | .err => .err
    | .panic => .panic

/-- `lib.rs:118-125`, `eval`. -/
def eval (p : Polynomial K) (x : K) : Outcome K := evalLoop p x p.len 0 0

/-- The loop of the macro, `lib.rs:161-164`. -/
def polyLoop (given : List K) : (n i : ℕ) → List K → List K
  | 0, _, c => c
  | n + 1, i, c => polyLoop given n (i + 1) (c.set i (given.getD i 0))

/-- `lib.rs:144-171`, the macro `poly!`: the empty macro is `new`, more than 12 values panic. -/
def poly (given : List K) : Outcome (Polynomial K) :=
  if given = [] then .ok new
  else if given.length > capacity then .panic
  else .ok ⟨polyLoop given given.length 0 (List.replicate capacity 0), given.length⟩

/-- A history of pushes, each of them panicking when there is no free slot. -/
def pushAll (p : Polynomial K) : List K → Outcome (Polynomial K)
  | [] => .ok p
  | v :: vs =>
    match p.push v with
    | .ok q => q.pushAll vs
    | .err => .err
    | .panic => .panic

end Polynomial
end Simple.Poly
