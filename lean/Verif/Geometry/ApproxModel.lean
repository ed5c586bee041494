import Verif.Prelude
import Verif.Float.F64Model

/-! Model of `/repo/geometry/src/round_error.rs`, with `f64` bit by bit. -/

namespace Simple.Geometry

/-- `round_error.rs:37-54`, `next_float_up`. -/
def nextUp (v : F64) : F64 :=
  if v.isInf && F64.lt (.zero false) v then v
  else if v.toBits = 2 ^ 63 then .zero false
  else if F64.le (.zero false) v then .ofBits (v.toBits + 1)
  else .ofBits (v.toBits - 1)

/-- `round_error.rs:56-70`, `next_float_down`. -/
def nextDown (v : F64) : F64 :=
  if v.isInf && F64.lt v (.zero false) then v
  else if v.toBits = 0 then .zero false
  else if F64.lt (.zero false) v then .ofBits (v.toBits - 1)
  else .ofBits (v.toBits + 1)

/-- `round_error.rs:75-81`, `struct ApproxFloat`. -/
structure Approx where
  low : F64
  high : F64
deriving DecidableEq, Repr

namespace Approx

/-- `round_error.rs:91-96`, `from_value_and_error`. -/
def ofError (value error : F64) : Approx := ⟨value.sub error, value.add error⟩

/-- `round_error.rs:84-86`, `from`. -/
def ofFloat (value : F64) : Approx := ofError value (.zero false)

/-- `round_error.rs:105-107`, `midpoint`, and `as_float` (110-112). -/
def midpoint (a : Approx) : F64 := (a.low.add a.high).div (.lit 2)

/-- `round_error.rs:115-123`, `sqrt`. -/
def sqrt (a : Approx) : Approx := ⟨nextDown a.low.sqrt, nextUp a.high.sqrt⟩

/-- `round_error.rs:126-128`, `absolute_error`. -/
def absoluteError (a : Approx) : F64 := (a.high.sub a.low).div (.lit 2)

/-- `round_error.rs:167-176`, `neg`. -/
def minus (a : Approx) : Approx := ⟨a.low.minus, a.high.minus⟩

/-- `round_error.rs:178-187`, `add`, and `add_assign` (315-320). -/
def add (a b : Approx) : Approx := ⟨nextDown (a.low.add b.low), nextUp (a.high.add b.high)⟩

/-- `round_error.rs:197-206`, `sub`, and `sub_assign` (328-333). -/
def sub (a b : Approx) : Approx := ⟨nextDown (a.low.sub b.low), nextUp (a.high.sub b.high)⟩

/-- `round_error.rs:217-231`, `max_min`. -/
def maxMin (x y z w : F64) : F64 × F64 :=
  [y, z, w].foldl (fun s v => (if F64.lt s.1 v then v else s.1, if F64.lt v s.2 then v else s.2)) (x, x)

/-- `round_error.rs:233-257`, `mul`. -/
def mul (a b : Approx) : Approx :=
  let min := (maxMin (nextDown (a.low.mul b.low)) (nextDown (a.high.mul b.low)) (nextDown (a.low.mul b.high))
    (nextDown (a.high.mul b.high))).2
  let max := (maxMin (nextUp (a.low.mul b.low)) (nextUp (a.high.mul b.low)) (nextUp (a.low.mul b.high))
    (nextUp (a.high.mul b.high))).1
  ⟨nextDown min, nextUp max⟩

/-- `round_error.rs:259-279`, `mul` with a number. -/
def scale (a : Approx) (b : F64) : Approx :=
  let min := nextDown (a.low.mul b)
  let max := nextUp (a.high.mul b)
  if F64.lt max min then ⟨nextDown max, nextUp min⟩ else ⟨nextDown min, nextUp max⟩

/-- `round_error.rs:281-305`, `div`. -/
def div (a b : Approx) : Approx :=
  let min := (maxMin (nextDown (a.low.div b.low)) (nextDown (a.high.div b.low)) (nextDown (a.low.div b.high))
    (nextDown (a.high.div b.high))).2
  let max := (maxMin (nextUp (a.low.div b.low)) (nextUp (a.high.div b.low)) (nextUp (a.low.div b.high))
    (nextUp (a.high.div b.high))).1
  ⟨nextDown min, nextUp max⟩

/-- `round_error.rs:341-353`, `mul_assign`. -/
def mulAssign (a b : Approx) : Approx :=
  let m := maxMin (a.low.mul b.low) (a.high.mul b.low) (a.low.mul b.high) (a.high.mul b.high)
  ⟨nextDown m.2, nextUp m.1⟩

/-- `round_error.rs:361-373`, `div_assign`. -/
def divAssign (a b : Approx) : Approx :=
  let m := maxMin (a.low.div b.low) (a.high.div b.low) (a.low.div b.high) (a.high.div b.high)
  ⟨nextDown m.2, nextUp m.1⟩

/-- `round_error.rs:135-164`, `solve_quadratic`. -/
def solveQuadratic (a b c : Approx) : Option (Approx × Approx) :=
  let disc := (b.mul b).sub ((a.mul c).scale (.lit 4))
  if disc.low.lt (.zero false) then none
  else
    let discrSqrt := disc.sqrt
    let q := if b.midpoint.lt (.zero false) then ((b.sub discrSqrt).minus).scale (.lit (1 / 2))
      else ((b.add discrSqrt).minus).scale (.lit (1 / 2))
    let x1 := q.div a
    let x2 := c.div q
    if x2.low.lt x1.low then some (x2, x1) else some (x1, x2)

end Approx

end Simple.Geometry
