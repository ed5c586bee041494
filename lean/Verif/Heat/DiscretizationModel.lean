import Mathlib.Algebra.Order.Field.Basic
import Verif.Matrix.NDiagModel

/-! Model of the discretisation of constructions, `/repo/heat/src/discretization.rs`, over a field.

Materials and substances are resolved by name in the code; here a construction is the list of its
layers, so that the errors for names which do not exist are not modelled. -/

namespace Simple.Heat

variable {F : Type*}

/-- `model::substance::gas::GasSpecification`, the ones that have a counterpart in `heat/src/gas.rs`. -/
inductive GasSpec where
  | air | argon | xenon | krypton
deriving DecidableEq

/-- `model::substance::Normal`, the fields used here. -/
structure NormalSubstance (F : Type*) where
  conductivity : Option F
  density : Option F
  specificHeat : Option F
  frontEmissivity : Option F
  backEmissivity : Option F

/-- `model::Substance`; the gas is `none` when it is not one of the four standard ones. -/
inductive Subst (F : Type*) where
  | normal (s : NormalSubstance F)
  | gas (g : Option GasSpec)

/-- A layer of a construction: `model::Material` with its substance. -/
structure Mat (F : Type*) where
  thickness : F
  substance : Subst F

/-- `heat/src/cavity.rs`, `struct Cavity`. -/
structure Cavity (F : Type*) where
  gas : GasSpec
  thickness : F
  height : F
  angle : F
  eout : F
  ein : F
deriving DecidableEq

/-- `discretization.rs:32-45`, `enum UValue`. -/
inductive UValue (F : Type*) where
  | solid (u : F)
  | cavity (c : Cavity F)
  | back
  | none
deriving DecidableEq

/-- `discretization.rs:65-82`, `struct Discretization`: masses and U-values of the segments. -/
structure Discretization (F : Type*) where
  segments : List (F × UValue F)
  tstepSubdivision : ℕ
  nElements : List ℕ
deriving DecidableEq

/-! ## Chunks -/

/-- The loop of `discretization.rs:119-129`; ends with the push of line 130.  A failed assertion is a
panic. -/
def chunkLoop : (start prev : ℕ) → List ℕ → Outcome (List (ℕ × ℕ))
  | start, prev, [] => .ok [(start, prev + 1)]
  | start, prev, i :: rest =>
    if i > start then
      if i > prev then
        if i - prev = 1 then chunkLoop start i rest
        else (chunkLoop i i rest).bind fun l => .ok ((start, prev + 1) :: l)
      else .panic
    else .panic

/-- `discretization.rs:112-132`, `chunk_segments`. -/
def chunkSegments : List ℕ → Outcome (List (ℕ × ℕ))
  | [] => .ok []
  | i :: rest => chunkLoop i i rest

section
variable [Field F] [LinearOrder F]

/-- `discretization.rs:139-155`, `get_chunks`. -/
def Discretization.getChunks (d : Discretization F) :
    Outcome (List (ℕ × ℕ) × List (ℕ × ℕ)) :=
  let massNodes := d.segments.zipIdx.filterMap fun p => if p.1.1 ≥ 1 / 100000 then some p.2 else none
  let nomassNodes := d.segments.zipIdx.filterMap fun p => if p.1.1 < 1 / 100000 then some p.2 else none
  (chunkSegments massNodes).bind fun mass =>
    (chunkSegments nomassNodes).bind fun nomass => .ok (mass, nomass)
end

/-! ## Building the segments -/

section
variable [Field F]

/-- `?` on an `Option` that is an error when it is missing. -/
def need {α : Type*} : Option α → Outcome α
  | some a => .ok a
  | none => .err

/-- `discretization.rs:185-198`: the mass of each element of a layer. -/
def elementMass (m : Mat F) (n : ℕ) : Outcome F :=
  if n = 0 then .ok 0
  else
    match m.substance with
    | .normal s =>
      let dx := m.thickness / n
      (need s.density).bind fun rho =>
        (need s.specificHeat).bind fun cp => .ok (rho * cp * dx)
    | .gas _ => .ok 0

/-- `discretization.rs:218-269`: the U-value of an element of layer `nLayer`, which has `n ≥ 1`
elements. -/
def elementU (layers : List (Mat F)) (height angle : F) (nLayer : ℕ) (m : Mat F) (n : ℕ) :
    Outcome (UValue F) :=
  match m.substance with
  | .normal s =>
    let dx := m.thickness / n
    (need s.conductivity).bind fun k => .ok (.solid (k / dx))
  | .gas g =>
    (need g).bind fun gas =>
      if nLayer = 0 then .err
      else
        (need layers[nLayer - 1]?).bind fun prev =>
          (need layers[nLayer + 1]?).bind fun next =>
            match next.substance, prev.substance with
            | .normal sn, .normal sp =>
              .ok (.cavity { gas, thickness := m.thickness, height, angle,
                             eout := sp.backEmissivity.getD (84 / 100),
                             ein := sn.frontEmissivity.getD (84 / 100) })
            | _, _ => .err

/-- `v[i] = f(v[i])`, a panic out of bounds. -/
def modifyAt {α : Type*} (l : List α) (i : ℕ) (f : α → α) : Outcome (List α) :=
  if i < l.length then .ok (l.modify i f) else .panic

/-- The body of the loop of `discretization.rs:204-271` for one element. -/
def buildElement (layers : List (Mat F)) (height angle : F) (nLayer : ℕ) (m : Mat F) (n : ℕ)
    (mass : F) (segments : List (F × UValue F)) (nSegment : ℕ) : Outcome (List (F × UValue F)) :=
  match m.substance with
  | .normal _ =>
    (modifyAt segments nSegment fun s => (s.1 + mass / 2, s.2)).bind fun segments =>
      (modifyAt segments (nSegment + 1) fun s => (s.1 + mass / 2, s.2)).bind fun segments =>
        (elementU layers height angle nLayer m n).bind fun u =>
          modifyAt segments nSegment fun s => (s.1, u)
  | .gas _ =>
    (elementU layers height angle nLayer m n).bind fun u =>
      modifyAt segments nSegment fun s => (s.1, u)

/-- The loop of `discretization.rs:204-271`, `count` elements; returns the segments and
`n_segment`. -/
def buildElements (layers : List (Mat F)) (height angle : F) (nLayer : ℕ) (m : Mat F) (n : ℕ)
    (mass : F) : (count : ℕ) → List (F × UValue F) → (nSegment : ℕ) →
      Outcome (List (F × UValue F) × ℕ)
  | 0, segments, nSegment => .ok (segments, nSegment)
  | count + 1, segments, nSegment =>
    (buildElement layers height angle nLayer m n mass segments nSegment).bind fun segments =>
      buildElements layers height angle nLayer m n mass count segments (nSegment + 1)

/-- The loop of `discretization.rs:177-274` over the layers from `nLayer` on. -/
def buildLayers (layers : List (Mat F)) (height angle : F) (nNodes : ℕ) :
    (nLayer : ℕ) → List ℕ → List (F × UValue F) → (nSegment : ℕ) → Outcome (List (F × UValue F))
  | _, [], segments, _ => .ok segments
  | nLayer, n :: rest, segments, nSegment =>
    (Outcome.index layers nLayer).bind fun m =>
      (elementMass m n).bind fun mass =>
        let n' := if n = 0 then 1 else n
        (buildElements layers height angle nLayer m n' mass n' segments nSegment).bind fun (s, i) =>
          (modifyAt s (nNodes - 1) fun x => (x.1, .back)).bind fun s =>
            buildLayers layers height angle nNodes (nLayer + 1) rest s i

/-- `discretization.rs:168-171`, the number of nodes. -/
def nNodes (nElements : List ℕ) : ℕ :=
  nElements.sum + ((nElements.filter (· = 0)).length + 1)

/-- `discretization.rs:158-290`, `build`; the `debug_assert` is a panic. -/
def build (layers : List (Mat F)) (tstepSubdivision : ℕ) (nElements : List ℕ) (height angle : F) :
    Outcome (Discretization F) :=
  if nElements.length = layers.length then
    (buildLayers layers height angle (nNodes nElements) 0 nElements
      (List.replicate (nNodes nElements) (0, .none)) 0).bind fun segments =>
        .ok { segments, tstepSubdivision, nElements }
  else .panic

/-- The loop of `discretization.rs:300-307`; `todo!()` and `unreachable!()` are panics. -/
def rLoop : List (F × UValue F) → F → Outcome F
  | [], r => .ok r
  | (_, .cavity _) :: _, _ => .panic
  | (_, .solid v) :: rest, r => rLoop rest (r + 1 / v)
  | (_, .back) :: rest, r => rLoop rest (r + 0)
  | (_, .none) :: _, _ => .panic

/-- `discretization.rs:297-311`, `r_value`. -/
def Discretization.rValue [LinearOrder F] (d : Discretization F) : Outcome F :=
  (rLoop d.segments 0).bind fun r => if r > 0 then .ok r else .panic

end
end Simple.Heat
