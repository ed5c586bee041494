import Verif.Geometry.PolygonModel

/-! Model of how loops and polygons are written in JSON and read from it: `Serialize` and `Deserialize` of
`/repo/geometry/src/loop3d.rs` and `/repo/geometry/src/polygon3d.rs`.

Simplification: a number is read as it was written (`Float` is `ℝ`). -/

namespace Simple.Geometry

/-- An element of a JSON array: a number, or anything else. -/
inductive Item where
  | num (x : ℝ)
  | other

/-- A JSON value: an array, or anything else. -/
inductive Value where
  | array (l : List Item)
  | other

/-- The three coordinates of each point. -/
def coordinates (l : List (V3 ℝ)) : List Item := l.flatMap fun v => [.num v.x, .num v.y, .num v.z]

namespace Loop

/-- `loop3d.rs:121-135`, `serialize`. -/
def write (l : Loop) : Value := .array (coordinates l.vertices)

/-- `loop3d.rs:147-179`, the loop of `deserialize`: three numbers are a point; anything else panics. -/
noncomputable def readPoints (l : Loop) : List Item → Outcome Loop
  | [] => .ok l
  | .num x :: .num y :: .num z :: t =>
    match l.pushCollinear ⟨x, y, z⟩ false with
    | (.ok (), l') => readPoints l' t
    | (.err, _) => .err
    | (.panic, _) => .panic
  | _ => .panic

/-- The loop after `close`, or its error. -/
noncomputable def closed? (l : Loop) : Outcome Loop :=
  match l.close with
  | (.ok (), l') => .ok l'
  | (.err, _) => .err
  | (.panic, _) => .panic

/-- `loop3d.rs:137-185`, `deserialize`. A value that is not an array gives an empty loop, which cannot be closed. -/
noncomputable def read : Value → Outcome Loop
  | .array a => (new.readPoints a).bind closed?
  | .other => new.closed?

end Loop

namespace Polygon

/-- `polygon3d.rs:83-91`, `serialize`. -/
noncomputable def write (p : Polygon) : Outcome Value := p.getClosedLoop.map Loop.write

/-- `polygon3d.rs:49-63`, `from`. -/
noncomputable def ofLoop (l : Loop) : Outcome Polygon :=
  match l.getArea with
  | .ok area => .ok ⟨l, [], area, l.normal⟩
  | _ => .panic

/-- `polygon3d.rs:72-81`, `deserialize`. -/
noncomputable def read (v : Value) : Outcome Polygon := (Loop.read v).bind ofLoop

end Polygon

end Simple.Geometry
