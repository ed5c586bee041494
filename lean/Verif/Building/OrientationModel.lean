import Mathlib.Analysis.SpecialFunctions.Trigonometric.Basic
import Verif.Building.ModelModel

/-! Model of the orientation of surfaces, `/repo/model/src/surface_trait.rs`, over the real
numbers. -/

namespace Simple.Building

/-- `surface_trait.rs:8-28`, `enum Orientation`. -/
inductive Orientation where
  | north | east | south | west | northEast | northWest | southEast | southWest | horizontal
deriving DecidableEq

/-- `surface_trait.rs:66`, `COS_22_5`. -/
noncomputable def cos225 : ℝ := 0.923879532511287

open Classical in
/-- `surface_trait.rs:68-98`: the compass direction of a normalised horizontal vector. -/
noncomputable def compass (x y : ℝ) : Outcome Orientation :=
  let facesNorth : Prop := y > 0
  let facesEast : Prop := x > 0
  let isNorth : Prop := y > cos225
  let isSouth : Prop := y < -cos225
  let isEast : Prop := x > cos225
  let isWest : Prop := x < -cos225
  let isNorthEast : Prop := facesNorth ∧ facesEast ∧ ¬ isNorth ∧ ¬ isEast
  let isNorthWest : Prop := facesNorth ∧ ¬ facesEast ∧ ¬ isNorth ∧ ¬ isWest
  let isSouthEast : Prop := ¬ facesNorth ∧ facesEast ∧ ¬ isSouth ∧ ¬ isEast
  let isSouthWest : Prop := ¬ facesNorth ∧ ¬ facesEast ∧ ¬ isSouth ∧ ¬ isWest
  if isNorth then .ok .north
  else if isNorthEast then .ok .northEast
  else if isNorthWest then .ok .northWest
  else if isSouth then .ok .south
  else if isSouthEast then .ok .southEast
  else if isSouthWest then .ok .southWest
  else if isWest then .ok .west
  else if isEast then .ok .east
  else .panic

/-- `surface_trait.rs:54-100`, `get_orientation`.  Normalising panics when the horizontal part has a
squared length of at most 1e-20 (`geometry/src/vector3d.rs:216-228`). -/
noncomputable def getOrientation (x y z : ℝ) : Outcome Orientation :=
  if |z| ≥ Real.cos (Real.pi / 4) then .ok .horizontal
  else if x ^ 2 + y ^ 2 > 1e-20 then
    compass (x * (1 / √(x ^ 2 + y ^ 2))) (y * (1 / √(x ^ 2 + y ^ 2)))
  else .panic

/-- `surface_trait.rs:149-164`, `outside_orientation`; the outer `none` is the `None` it returns. -/
noncomputable def outsideOrientation {F : Type*} (front back : Boundary F) (x y z : ℝ) :
    Option (Outcome Orientation) :=
  match front, back with
  | .outdoor, .space _ => some (getOrientation x y z)
  | .space _, .outdoor => some (getOrientation (x * -1) (y * -1) (z * -1))
  | _, _ => none

/-- `surface_trait.rs:167-184`, `inside_orientation`. -/
noncomputable def insideOrientation {F : Type*} (front back : Boundary F) (x y z : ℝ) :
    Option (Outcome Orientation) :=
  match front, back with
  | .outdoor, .space _ => some (getOrientation (x * -1) (y * -1) (z * -1))
  | .space _, .outdoor => some (getOrientation x y z)
  | _, _ => none

end Simple.Building
