import Mathlib.Analysis.SpecialFunctions.Pow.Real
import Verif.Prelude

/-! Model of `/repo/geometry/src/utils.rs`. -/

namespace Simple.Geometry.Quadratic

/-- A quotient that can be the zero over zero of IEEE arithmetic: `none` is NaN.  (In `solve_quadratic` a zero
divisor only meets a zero dividend.) -/
noncomputable def quot (x y : ℝ) : Option ℝ := if y = 0 then none else some (x / y)

/-- `x1 > x2` with NaN. -/
noncomputable def gtB : Option ℝ → Option ℝ → Bool
  | some x, some y => decide (x > y)
  | _, _ => false

/-- `utils.rs:33-68`, `solve_quadratic`; each of the values returned may be NaN. -/
noncomputable def solveQuadratic (a b c : ℝ) : Option (Option ℝ × Option ℝ) :=
  if a = 0 then
    if b = 0 then none
    else
      let x := -c / b
      some (some x, some x)
  else
    let disc := b * b - 4 * a * c
    if disc < 0 then none
    else
      let discrSqrt := Real.sqrt disc
      let q := if b < 0 then -(1 / 2) * (b - discrSqrt) else -(1 / 2) * (b + discrSqrt)
      let x1 := quot q a
      let x2 := quot c q
      if gtB x1 x2 then some (x2, x1) else some (x1, x2)

end Simple.Geometry.Quadratic
