import Mathlib.Algebra.Order.Field.Rat
import Mathlib.Data.Rat.Cast.Order

/-!
# Extended numbers: finite values, infinities and NaN

A model of the special values of IEEE arithmetic: exact rational arithmetic on finite values (no
rounding, no overflow), the two infinities and NaN with the propagation rules of IEEE 754.  There
is one zero: the quotient of a positive (negative) number by zero is the positive (negative)
infinity, and `0 / 0` is NaN.  Used only where the behaviour of the code with such values is the
point.
-/

namespace Simple

inductive XF where
  | nan
  | ninf
  | pinf
  | fin (q : ℚ)
deriving DecidableEq, Repr

namespace XF

instance : Zero XF := ⟨fin 0⟩
instance : One XF := ⟨fin 1⟩

def neg : XF → XF
  | nan => nan
  | ninf => pinf
  | pinf => ninf
  | fin q => fin (-q)
instance : Neg XF := ⟨neg⟩

def add : XF → XF → XF
  | nan, _ => nan
  | _, nan => nan
  | pinf, ninf => nan
  | ninf, pinf => nan
  | pinf, _ => pinf
  | _, pinf => pinf
  | ninf, _ => ninf
  | _, ninf => ninf
  | fin p, fin q => fin (p + q)
instance : Add XF := ⟨add⟩
instance : Sub XF := ⟨fun a b => a + -b⟩

/-- Infinity with the sign of `q`, NaN for zero. -/
def infOf (q : ℚ) : XF := if q > 0 then pinf else if q < 0 then ninf else nan

def mul : XF → XF → XF
  | nan, _ => nan
  | _, nan => nan
  | pinf, pinf => pinf
  | ninf, ninf => pinf
  | pinf, ninf => ninf
  | ninf, pinf => ninf
  | pinf, fin q => infOf q
  | fin q, pinf => infOf q
  | ninf, fin q => infOf (-q)
  | fin q, ninf => infOf (-q)
  | fin p, fin q => fin (p * q)
instance : Mul XF := ⟨mul⟩

def div : XF → XF → XF
  | nan, _ => nan
  | _, nan => nan
  | pinf, pinf => nan
  | pinf, ninf => nan
  | ninf, pinf => nan
  | ninf, ninf => nan
  | fin _, pinf => fin 0
  | fin _, ninf => fin 0
  | pinf, fin q => if q < 0 then ninf else pinf
  | ninf, fin q => if q < 0 then pinf else ninf
  | fin p, fin q => if q = 0 then infOf p else fin (p / q)
instance : Div XF := ⟨div⟩

/-- `<`: false as soon as one side is NaN. -/
def ltB : XF → XF → Bool
  | nan, _ => false
  | _, nan => false
  | ninf, ninf => false
  | ninf, _ => true
  | _, ninf => false
  | pinf, _ => false
  | fin _, pinf => true
  | fin p, fin q => p < q
instance : LT XF := ⟨fun a b => ltB a b = true⟩
instance : DecidableLT XF := fun a b => inferInstanceAs (Decidable (ltB a b = true))

/-- `<=`: false as soon as one side is NaN. -/
def leB : XF → XF → Bool
  | nan, _ => false
  | _, nan => false
  | ninf, _ => true
  | _, pinf => true
  | pinf, _ => false
  | _, ninf => false
  | fin p, fin q => p ≤ q
instance : LE XF := ⟨fun a b => leB a b = true⟩
instance : DecidableLE XF := fun a b => inferInstanceAs (Decidable (leB a b = true))

end XF
end Simple
