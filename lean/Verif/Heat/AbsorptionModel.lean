import Verif.Heat.DiscretizationModel
import Verif.Heat.GlazingModel

/-! Model of how the sun that the layers of a construction absorb is given to the nodes of a surface, in
`ThermalSurfaceData::new` of `/repo/heat/src/surface.rs`, over an ordered field. -/

namespace Simple.Heat

variable {F : Type*} [Field F] [LinearOrder F]

/-- `add_to_element` of a column, `/repo/matrix/src/generic_matrix.rs:153-161`. -/
def addElem (l : List F) (i : ℕ) (v : F) : Outcome (List F) :=
  if i < l.length then .ok (l.modify i (· + v)) else .err

/-- `surface.rs:449-453` and `485-489`: segments of a layer. -/
def layerSegments (n : ℕ) : ℕ := if n = 0 then 1 else n

/-- The loop of `surface.rs:459-465`: the same to `count` nodes from `i` on. -/
def spread (v : F) : (count i : ℕ) → List F → Outcome (List F)
  | 0, _, l => .ok l
  | count + 1, i, l => (addElem l i v).bind (spread v count (i + 1))

/-- The loop of `surface.rs:447-474`, for the absorptances from `alphaI` on. -/
def frontAlphasLoop (nElements : List ℕ) (layers : List (Layer F)) : (alphaI globalI : ℕ) → List F → List F →
    Outcome (List F)
  | _, _, [], acc => .ok acc
  | alphaI, globalI, alpha :: rest, acc =>
    (Outcome.index nElements (2 * alphaI)).bind fun n =>
      (Outcome.index layers (2 * alphaI)).bind fun layer =>
        match layer with
        | .gas => .panic
        | .normal tau _ _ =>
          (if tau.getD 0 > 0 then
              spread (alpha / ((layerSegments n + 1 : ℕ) : F)) (layerSegments n + 1) globalI acc
            else addElem acc globalI alpha).bind fun acc =>
            frontAlphasLoop nElements layers (alphaI + 1) (globalI + (layerSegments n + 1)) rest acc

/-- The loop of `surface.rs:495-498`: the same to `count` nodes from `globalI - i - 1` back; a subtraction below
zero is a panic. -/
def spreadBack (v : F) (globalI : ℕ) : (count i : ℕ) → List F → Outcome (List F)
  | 0, _, l => .ok l
  | count + 1, i, l =>
    if i + 1 ≤ globalI then (addElem l (globalI - i - 1) v).bind (spreadBack v globalI count (i + 1)) else .panic

/-- The loop of `surface.rs:483-507`, for the absorptances from `alphaI` on. -/
def backAlphasLoop (nElements : List ℕ) (layers : List (Layer F)) : (alphaI globalI : ℕ) → List F → List F →
    Outcome (List F)
  | _, _, [], acc => .ok acc
  | alphaI, globalI, alpha :: rest, acc =>
    if 2 * alphaI + 1 ≤ layers.length then
      (Outcome.index nElements (layers.length - 2 * alphaI - 1)).bind fun n =>
        (Outcome.index layers (layers.length - 2 * alphaI - 1)).bind fun layer =>
          match layer with
          | .gas => .panic
          | .normal tau _ _ =>
            (if tau.getD 0 > 0 then
                spreadBack (alpha / ((layerSegments n + 1 : ℕ) : F)) globalI (layerSegments n + 1) 0 acc
              else if 1 ≤ globalI then addElem acc (globalI - 1) alpha else .panic).bind fun acc =>
              if layerSegments n + 1 ≤ globalI then
                backAlphasLoop nElements layers (alphaI + 1) (globalI - (layerSegments n + 1)) rest acc
              else .panic
    else .panic

/-- `surface.rs:433-507` (and `/repo/heat/src/glazing.rs:111-133`): the share of the sun on the front, and of
that on the back, which each of the `nNodes` nodes absorbs.  The warning about mixed constructions is left out. -/
def nodeAlphas (layers : List (Layer F)) (nElements : List ℕ) (nNodes : ℕ) : Outcome (List F × List F) :=
  (if layers.isEmpty then .err else glazingFromIter layers : Outcome (List (Glazing F))).bind fun frontGlazing =>
    (glazingFromIter layers.reverse).bind fun backGlazing =>
      (alphas frontGlazing).bind fun frontPrev =>
        (frontAlphasLoop nElements layers 0 0 frontPrev (List.replicate nNodes 0)).bind fun front =>
          (alphas backGlazing).bind fun backPrev =>
            (backAlphasLoop nElements layers 0 nNodes backPrev (List.replicate nNodes 0)).bind fun back =>
              .ok (front, back)

end Simple.Heat
