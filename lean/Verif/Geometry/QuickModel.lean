import Verif.Float.Round
import Verif.Float.Ext
import Verif.Geometry.VecModel

/-! Vectors in the build with the feature `quick_inv_sqrt`: the fast inverse square root, computed with `f32` from the bits of a
number, and what uses it.  Numbers that are not infinite nor NaN are rational, and are rounded after each operation: to 24
significant bits (`f32`), becoming infinite from `2 ^ 128` on, or to 53 (`f64`).  Numbers so small that `f32` keeps fewer bits
(under `2 ^ -126`) are not modelled. -/

namespace Simple.Geometry.Quick

open Simple.Round

/-- The nearest number with 24 significant bits, ties to even. -/
def round24 (q : ℚ) : ℚ :=
  if q = 0 then 0
  else
    let u := pow2 (exponent q - 23)
    nearestEven (q / u) * u

/-- A result as `f32`. -/
def f32 : XF → XF
  | .fin q => if 2 ^ 128 ≤ |round24 q| then XF.infOf q else .fin (round24 q)
  | x => x

/-- A result as `f64`, of numbers that are not too large for it. -/
def f64 : XF → XF
  | .fin q => .fin (round53 q)
  | x => x

/-- The bits of a positive `f32` (`std::mem::transmute::<f32, i32>`): the exponent, then the 23 bits after the leading one. -/
def bits : XF → ℕ
  | .fin q => ((exponent q + 127) * 2 ^ 23 + (⌊q / pow2 (exponent q - 23)⌋ - 2 ^ 23)).toNat
  | _ => 255 * 2 ^ 23

/-- The positive `f32` with the given bits (`std::mem::transmute::<i32, f32>`), for exponents from 1 to 254. -/
def ofBits (i : ℕ) : XF := .fin (pow2 ((i / 2 ^ 23 : ℕ) - 127) * (1 + (i % 2 ^ 23 : ℕ) / 2 ^ 23))

/-- `quick_inverse_sqrt.rs:44-45`, one of the two iterations. -/
def iteration (x2 y : XF) : XF := f32 (y * f32 (.fin (3 / 2) - f32 (f32 (x2 * y) * y)))

/-- `quick_inverse_sqrt.rs:29-49`, `quick_inv_sqrt`, of a positive number. -/
def quickInvSqrt (number : ℚ) : XF :=
  let number := f32 (.fin number)
  let x2 := f32 (number * .fin (1 / 2))
  let y := ofBits (0x5f3759df - bits number / 2)
  let y := iteration x2 y
  iteration x2 y

/-- `vector3d.rs:211-213`, `length_squared`, rounded. -/
def lengthSquared (a : V3 ℚ) : ℚ :=
  round53 (round53 (round53 (a.x * a.x) + round53 (a.y * a.y)) + round53 (a.z * a.z))

/-- `vector3d.rs:216-228`, `normalize`, with the feature `quick_inv_sqrt`. -/
def normalize (a : V3 ℚ) : Outcome (V3 XF) :=
  let l2 := lengthSquared a
  if round53 (1 / 10 ^ 20) < l2 then
    let l := quickInvSqrt l2
    .ok ⟨f64 (.fin a.x * l), f64 (.fin a.y * l), f64 (.fin a.z * l)⟩
  else .panic

/-- `100. * Float::EPSILON`. -/
def tiny : ℚ := 100 / 2 ^ 52

/-- `vector3d.rs:148-183`, `get_perpendicular`, with the feature `quick_inv_sqrt`. -/
def getPerpendicular (a : V3 ℚ) : Outcome (V3 XF) :=
  if tiny < |a.x| then
    let ay := f64 (.fin a.x * quickInvSqrt (round53 (round53 (a.x * a.x) + round53 (a.y * a.y))))
    .ok ⟨f64 (f64 (.fin (-a.y) * ay) / .fin a.x), ay, .fin 0⟩
  else if tiny < |a.y| then
    let ax := f64 (.fin a.y * quickInvSqrt (round53 (round53 (a.x * a.x) + round53 (a.y * a.y))))
    .ok ⟨ax, f64 (f64 (.fin (-a.x) * ax) / .fin a.y), .fin 0⟩
  else if tiny < |a.z| then
    let ax := f64 (.fin a.z * quickInvSqrt (round53 (round53 (a.z * a.z) + round53 (a.x * a.x))))
    .ok ⟨ax, .fin 0, f64 (f64 (.fin (-a.x) * ax) / .fin a.z)⟩
  else .err

end Simple.Geometry.Quick
