import Mathlib.Logic.Function.Basic
import Mathlib.Algebra.Notation.Defs
import Verif.Building.StateModel

/-! Model of `/repo/model/src/model.rs`: the lists of objects of a building, how they are added and
looked up, and what depends on them directly.

Simplifications: warnings are not modelled; only the fields that these functions read or write are
kept; an `Arc` is its content (the field `shared` of a surface tells whether somebody outside of the
model holds a reference, which makes `Arc::get_mut` fail); mutexes are never poisoned.  The
geometry of a surface is abstract: `Geo` gives the operations the model uses. -/

namespace Simple.Building

open State

/-- `boundary.rs:46-90`, `enum Boundary`. -/
inductive Boundary (F : Type*) where
  | outdoor
  | ground
  | space (name : String)
  | ambientTemperature (t : F)
  | adiabatic
deriving DecidableEq

/-- `fenestration.rs:88-96`, `enum FenestrationType`. -/
inductive FenestrationType where
  | window | door | opening
deriving DecidableEq

/-- `surface.rs:46-76`, `enum SurfaceType`. -/
inductive SurfaceType where
  | exteriorWall | interiorWall | groundFloor | exteriorFloor | interiorFloor | ceiling | roof | other
deriving DecidableEq

/-- What is used of a `Polygon3D`: `cutHole` is `polygon3d.rs:211-252` (`none` for an error, which
leaves the polygon as it was), `sameDirection` compares the normals, `pointsUp` is
`normal.z > 0`, `area` is the net area. -/
structure Geo (P F : Type*) where
  cutHole : P → P → Option P
  sameDirection : P → P → Bool
  pointsUp : P → Bool
  area : P → F

structure Substance where
  name : String
deriving DecidableEq

structure Material where
  name : String
  substance : String
deriving DecidableEq

structure Construction where
  name : String
  materials : List String
deriving DecidableEq

structure Space where
  name : String
  dryBulbIndex : Option ℕ := none
deriving DecidableEq

set_option linter.dupNamespace false in
structure Building where
  name : String
deriving DecidableEq

structure Object where
  name : String
  space : Option String
deriving DecidableEq

structure Surface (P F : Type*) where
  name : String
  construction : String
  vertices : P
  front : Boundary F
  back : Boundary F
  category : Option SurfaceType
  shared : Bool
deriving DecidableEq

structure Fenestration (P F : Type*) where
  name : String
  construction : String
  category : FenestrationType
  vertices : P
  front : Boundary F
  back : Boundary F
  parent : Option String
  openFractionIndex : Option ℕ
deriving DecidableEq

/-- `hvac/mod.rs:47-57`, `enum HVAC`; a field that was not given is `none`. -/
inductive Hvac (F : Type*) where
  | idealHeaterCooler (name : String) (target : Option String) (heatingSetpoint coolingSetpoint
      maxHeating maxCooling : Option F) (index : Option ℕ)
  | electricHeater (name : String) (target : Option String) (heatingSetpoint maxHeating : Option F)
      (index : Option ℕ)
deriving DecidableEq

def Hvac.name {F : Type*} : Hvac F → String
  | .idealHeaterCooler n _ _ _ _ _ _ => n
  | .electricHeater n _ _ _ _ => n

def Hvac.index {F : Type*} : Hvac F → Option ℕ
  | .idealHeaterCooler _ _ _ _ _ _ i => i
  | .electricHeater _ _ _ _ i => i

def Hvac.withIndex {F : Type*} (i : ℕ) : Hvac F → Hvac F
  | .idealHeaterCooler n t a b c d _ => .idealHeaterCooler n t a b c d (some i)
  | .electricHeater n t a b _ => .electricHeater n t a b (some i)

structure Luminaire where
  name : String
  index : Option ℕ
deriving DecidableEq

/-- `model.rs:45-98`, `struct Model` (the fields that the functions below use). -/
structure Model (P F : Type*) where
  substances : List Substance
  materials : List Material
  constructions : List Construction
  spaces : List Space
  buildings : List Building
  objects : List Object
  surfaces : List (Surface P F)
  fenestrations : List (Fenestration P F)
  hvacs : List (Hvac F)
  luminaires : List Luminaire
  state : Option (Header F)
deriving DecidableEq

namespace Model

variable {P F : Type*}

/-- `model.rs:155-173`, `default`. -/
def empty : Model P F := ⟨[], [], [], [], [], [], [], [], [], [], some Header.new⟩

/-- The loop that all the `get_...` have: the first one with that name, else an error. -/
def findNamed {α : Type*} (nm : α → String) (name : String) : List α → Outcome α
  | [] => .err
  | a :: l => if nm a = name then .ok a else findNamed nm name l

/-- `model.rs:589-597`. -/
def getSubstance (m : Model P F) (n : String) : Outcome Substance := findNamed (·.name) n m.substances
/-- `model.rs:640-648`. -/
def getMaterial (m : Model P F) (n : String) : Outcome Material := findNamed (·.name) n m.materials
/-- `model.rs:692-700`. -/
def getConstruction (m : Model P F) (n : String) : Outcome Construction :=
  findNamed (·.name) n m.constructions
/-- `model.rs:805-813`. -/
def getSurface (m : Model P F) (n : String) : Outcome (Surface P F) := findNamed (·.name) n m.surfaces
/-- `model.rs:852-860`. -/
def getSpace (m : Model P F) (n : String) : Outcome Space := findNamed (·.name) n m.spaces
/-- `model.rs:903-911`. -/
def getBuilding (m : Model P F) (n : String) : Outcome Building := findNamed (·.name) n m.buildings
/-- `model.rs:1121-1129`. -/
def getFenestration (m : Model P F) (n : String) : Outcome (Fenestration P F) :=
  findNamed (·.name) n m.fenestrations
/-- `model.rs:1195-1208`. -/
def getHvac (m : Model P F) (n : String) : Outcome (Hvac F) := findNamed Hvac.name n m.hvacs
/-- `model.rs:1261-1269`. -/
def getLuminaire (m : Model P F) (n : String) : Outcome Luminaire := findNamed (·.name) n m.luminaires

/-- `model.rs:1298-1305`, `get_material_substance`. -/
def getMaterialSubstance (m : Model P F) (n : String) : Outcome Substance :=
  (m.getMaterial n).bind fun mat => m.getSubstance mat.substance

/-- `is_err()`. -/
def isErr {α : Type*} : Outcome α → Bool
  | .ok _ => false
  | _ => true

/-- `model.rs:351-358`, `push_to_state`. -/
def pushToState (m : Model P F) (e : Element) (v : F) : Outcome ℕ × Model P F :=
  match m.state with
  | some h => ((h.push e v).1, { m with state := some (h.push e v).2 })
  | none => (.err, m)

/-- `model.rs:383-385`, `take_state`. -/
def takeState (m : Model P F) : Option (Header F) × Model P F := (m.state, { m with state := none })

/-- `model.rs:558-567`. -/
def addSubstance (m : Model P F) (a : Substance) : Model P F :=
  { m with substances := m.substances ++ [a] }
/-- `model.rs:615-625`. -/
def addMaterial (m : Model P F) (a : Material) : Model P F := { m with materials := m.materials ++ [a] }
/-- `model.rs:666-677`. -/
def addConstruction (m : Model P F) (a : Construction) : Model P F :=
  { m with constructions := m.constructions ++ [a] }
/-- `model.rs:831-838`. -/
def addSpace (m : Model P F) (a : Space) : Model P F := { m with spaces := m.spaces ++ [a] }
/-- `model.rs:878-888`. -/
def addBuilding (m : Model P F) (a : Building) : Model P F := { m with buildings := m.buildings ++ [a] }

/-- `model.rs:528-540`, `add_object`. -/
def addObject (m : Model P F) (a : Object) : Outcome Unit × Model P F :=
  match a.space with
  | some s => if isErr (m.getSpace s) then (.err, m) else (.ok (), { m with objects := m.objects ++ [a] })
  | none => (.ok (), { m with objects := m.objects ++ [a] })

/-- `model.rs:758-763`: a boundary that is a space has to exist. -/
def boundaryMissing (m : Model P F) : Boundary F → Bool
  | .space s => isErr (m.getSpace s)
  | _ => false

/-- `model.rs:744-768`, `add_surface`. -/
def addSurface (m : Model P F) (a : Surface P F) : Outcome Unit × Model P F :=
  if isErr (m.getConstruction a.construction) then (.err, m)
  else if m.boundaryMissing a.front then (.err, m)
  else if m.boundaryMissing a.back then (.err, m)
  else (.ok (), { m with surfaces := m.surfaces ++ [a] })

/-- `model.rs:1037-1061`: finds the first surface called `parent`, and cuts the hole in it.  Returns
the updated list and the parent; `.err` if it is not there, or it cannot be borrowed, or the hole
cannot be cut. -/
def cutParent (g : Geo P F) (parent : String) (hole : P) :
    List (Surface P F) → Outcome (List (Surface P F) × Surface P F)
  | [] => .err
  | s :: rest =>
    if s.name = parent then
      if s.shared then .err
      else
        match g.cutHole s.vertices hole with
        | some v => .ok ({ s with vertices := v } :: rest, { s with vertices := v })
        | none => .err
    else
      match cutParent g parent hole rest with
      | .ok (l, p) => .ok (s :: l, p)
      | .err => .err
      | .panic => .panic

/-- `model.rs:1070-1083`: the boundaries are those of the parent, swapped if they face opposite
directions. -/
def inherit (g : Geo P F) (s : Surface P F) (a : Fenestration P F) : Fenestration P F :=
  if g.sameDirection s.vertices a.vertices then { a with front := s.front, back := s.back }
  else { a with front := s.back, back := s.front }

/-- `model.rs:1007-1085`, `add_fenestration`. -/
def addFenestration [Zero F] (g : Geo P F) (m : Model P F) (a : Fenestration P F) :
    Outcome Unit × Model P F :=
  if a.category ≠ .opening ∧ isErr (m.getConstruction a.construction) then (.err, m)
  else
    match m.pushToState (.fenestrationOpenFraction m.fenestrations.length) 0 with
    | (.ok i, m1) =>
      match a.openFractionIndex with
      | some _ => (.err, m1)
      | none =>
        let a1 : Fenestration P F := { a with openFractionIndex := some i }
        match a.parent with
        | none => (.ok (), { m1 with fenestrations := m1.fenestrations ++ [a1] })
        | some p =>
          match cutParent g p a.vertices m1.surfaces with
          | .ok (surfaces, parent) => (.ok (), { m1 with
              surfaces := surfaces
              fenestrations := m1.fenestrations ++ [inherit g parent a1] })
          | _ => (.err, m1)
    | (_, m1) => (.err, m1)

/-- `model.rs:1147-1175`, `add_hvac`. -/
def addHvac [Zero F] (m : Model P F) (a : Hvac F) : Outcome Unit × Model P F :=
  match m.pushToState (.heatingCoolingPowerConsumption m.hvacs.length) 0 with
  | (.ok i, m1) =>
    match a.index with
    | some _ => (.err, m1)
    | none => (.ok (), { m1 with hvacs := m1.hvacs ++ [a.withIndex i] })
  | (_, m1) => (.err, m1)

/-- `model.rs:1227-1247`, `add_luminaire`. -/
def addLuminaire [Zero F] (m : Model P F) (a : Luminaire) : Outcome Unit × Model P F :=
  match m.pushToState (.luminairePowerConsumption m.luminaires.length) 0 with
  | (.ok i, m1) =>
    match a.index with
    | some _ => (.err, m1)
    | none => (.ok (), { m1 with luminaires := m1.luminaires ++ [{ a with index := some i }] })
  | (_, m1) => (.err, m1)

/-- The calls that change a model. -/
inductive Op (P F : Type*) where
  | substance (a : Substance)
  | material (a : Material)
  | construction (a : Construction)
  | space (a : Space)
  | building (a : Building)
  | object (a : Object)
  | surface (a : Surface P F)
  | fenestration (a : Fenestration P F)
  | hvac (a : Hvac F)
  | luminaire (a : Luminaire)
  | takeState

/-- One call: what it returns, and the model afterwards. -/
def apply [Zero F] (g : Geo P F) (m : Model P F) : Op P F → Outcome Unit × Model P F
  | .substance a => (.ok (), m.addSubstance a)
  | .material a => (.ok (), m.addMaterial a)
  | .construction a => (.ok (), m.addConstruction a)
  | .space a => (.ok (), m.addSpace a)
  | .building a => (.ok (), m.addBuilding a)
  | .object a => m.addObject a
  | .surface a => m.addSurface a
  | .fenestration a => m.addFenestration g a
  | .hvac a => m.addHvac a
  | .luminaire a => m.addLuminaire a
  | .takeState => (.ok (), m.takeState.2)

/-- A history of calls. -/
def applyAll [Zero F] (g : Geo P F) (m : Model P F) : List (Op P F) → Model P F
  | [] => m
  | op :: ops => applyAll g (m.apply g op).2 ops

/-- `model.rs:1332-1352`: what a system contributes. -/
def setpointsOf : Hvac F → Option F × Option F
  | .electricHeater _ _ h _ _ => (h, none)
  | .idealHeaterCooler _ _ h c _ _ _ => (h, c)

/-- `model.rs:1327-1355`, `get_hvac_setpoints`.  A `HashMap` is a partial function. -/
def getHvacSetpoints (m : Model P F) : String → Option (Option F × Option F) :=
  m.hvacs.foldl (fun map h => Function.update map h.name (some (setpointsOf h))) (fun _ => none)

/-- `model.rs:1378-1393`: the space a floor belongs to. -/
def floorSpace (g : Geo P F) (s : Surface P F) : Option String :=
  if g.pointsUp s.vertices then
    match s.front with
    | .space n => some n
    | _ => none
  else
    match s.back with
    | .space n => some n
    | _ => none

/-- Whether the category of the surface counts as floor, `model.rs:1398-1420`. -/
def isFloor : SurfaceType → Bool
  | .groundFloor => true
  | .interiorFloor => true
  | .exteriorFloor => true
  | _ => false

/-- The loop of `model.rs:1395-1423`. -/
def spaceSizesLoop [Add F] (g : Geo P F) :
    List (Surface P F) → F → (String → Option F) → Outcome (F × (String → Option F))
  | [], total, areas => .ok (total, areas)
  | s :: rest, total, areas =>
    match s.category, floorSpace g s with
    | some cat, some space =>
      if isFloor cat then
        match areas space with
        | some k => spaceSizesLoop g rest (total + g.area s.vertices)
            (Function.update areas space (some (k + g.area s.vertices)))
        | none => .panic
      else spaceSizesLoop g rest total areas
    | _, _ => spaceSizesLoop g rest total areas

/-- `model.rs:1370-1426`, `get_space_sizes`. -/
def getSpaceSizes [Add F] [Zero F] (g : Geo P F) (m : Model P F) :
    Outcome (F × (String → Option F)) :=
  spaceSizesLoop g m.surfaces 0
    (m.spaces.foldl (fun map s => Function.update map s.name (some 0)) (fun _ => none))

end Model
end Simple.Building
