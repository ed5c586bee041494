import Mathlib.Data.Rat.Defs
import Mathlib.Algebra.Order.Ring.Rat

/-! The numbers of type `f64`, with the arithmetic of IEEE 754 (round to nearest, ties to even), as Rust prescribes it:
subnormal numbers, overflow, signed zeros, infinities and NaN.  It is used where what the program does depends on the bits.
Everything here can be computed. -/

namespace Simple

/-- The sign and the other 63 bits of an `f64`. -/
structure F64 where
  neg : Bool
  mag : ℕ
deriving DecidableEq, Repr

namespace F64

/-- The bits of infinity without the sign; those of NaN are larger. -/
def infMag : ℕ := 2047 * 2 ^ 52

/-- The absolute value of a finite number, divided by the least positive number, from its bits: the exponent is above bit
52.  (The bits of infinity give the number that would follow the greatest.) -/
def scaled (m : ℕ) : ℕ := if m / 2 ^ 52 = 0 then m % 2 ^ 52 else (2 ^ 52 + m % 2 ^ 52) * 2 ^ (m / 2 ^ 52 - 1)

/-- The absolute value of a finite number. -/
def mval (m : ℕ) : ℚ := scaled m / 2 ^ 1074

/-- `is_nan`. -/
def isNan (f : F64) : Bool := decide (infMag < f.mag)

/-- `is_infinite`. -/
def isInf (f : F64) : Bool := decide (f.mag = infMag)

/-- `is_finite`. -/
def isFinite (f : F64) : Bool := decide (f.mag < infMag)

/-- The number that a finite `f64` stands for. -/
def val (f : F64) : ℚ := if f.neg then -mval f.mag else mval f.mag

/-- NaN. -/
def nan : F64 := ⟨false, infMag + 2 ^ 51⟩

/-- An infinity. -/
def inf (neg : Bool) : F64 := ⟨neg, infMag⟩

/-- A zero. -/
def zero (neg : Bool) : F64 := ⟨neg, 0⟩

/-- `to_bits`. -/
def toBits (f : F64) : ℕ := (if f.neg then 2 ^ 63 else 0) + f.mag

/-- `from_bits`. -/
def ofBits (b : ℕ) : F64 := ⟨decide (2 ^ 63 ≤ b), b % 2 ^ 63⟩

/-! ### Rounding -/

/-- The greatest number below `m + 2 ^ k` that has the property, if `m` has it and so have all those below one that
has. -/
def largest (p : ℕ → Bool) : (k m : ℕ) → ℕ
  | 0, m => m
  | k + 1, m => if p (m + 2 ^ k) then largest p k (m + 2 ^ k) else largest p k m

/-- The bits of the number nearest to a positive real, which is given by its order relative to the rational numbers:
`cmp v` compares `v` with it. -/
def nearest (cmp : ℚ → Ordering) : ℕ :=
  let m := largest (fun m => decide (m < infMag) && cmp (mval m) != .gt) 63 0
  match cmp ((mval m + mval (m + 1)) / 2) with
  | .gt => m
  | .lt => m + 1
  | .eq => if m % 2 = 0 then m else m + 1

/-- The number nearest to a rational; `neg` is the sign of a zero. -/
def round (neg : Bool) (x : ℚ) : F64 :=
  if x = 0 then zero neg else ⟨decide (x < 0), nearest fun v => compare v |x|⟩

/-! ### Arithmetic -/

/-- `-a`. -/
def minus (a : F64) : F64 := ⟨!a.neg, a.mag⟩

/-- `a + b`. -/
def add (a b : F64) : F64 :=
  if a.isNan || b.isNan then nan
  else if a.isInf then (if b.isInf && a.neg != b.neg then nan else a)
  else if b.isInf then b
  else round (a.neg && b.neg) (a.val + b.val)

/-- `a - b`. -/
def sub (a b : F64) : F64 := add a b.minus

/-- `a * b`. -/
def mul (a b : F64) : F64 :=
  let neg := a.neg != b.neg
  if a.isNan || b.isNan then nan
  else if a.isInf || b.isInf then (if a.mag = 0 || b.mag = 0 then nan else inf neg)
  else round neg (a.val * b.val)

/-- `a / b`. -/
def div (a b : F64) : F64 :=
  let neg := a.neg != b.neg
  if a.isNan || b.isNan then nan
  else if a.isInf then (if b.isInf then nan else inf neg)
  else if b.isInf then zero neg
  else if b.mag = 0 then (if a.mag = 0 then nan else inf neg)
  else round neg (a.val / b.val)

/-- `a.sqrt()`. -/
def sqrt (a : F64) : F64 :=
  if a.isNan then nan
  else if a.mag = 0 then a
  else if a.neg then nan
  else if a.isInf then a
  else ⟨false, nearest fun v => compare (v * v) a.val⟩

/-- `a < b`. -/
def lt (a b : F64) : Bool :=
  if a.isNan || b.isNan then false
  else if a.isInf then a.neg && !(b.isInf && b.neg)
  else if b.isInf then !b.neg
  else decide (a.val < b.val)

/-- `a <= b`. -/
def le (a b : F64) : Bool := !a.isNan && !b.isNan && !lt b a

/-- The `f64` nearest to a literal. -/
def lit (x : ℚ) : F64 := round false x

end F64

end Simple
