import Verif.Building.ModelModel
import Verif.Geometry.TriangulationModel
import Verif.Render.StageModel

/-! Model of `/repo/rendering/src/from_simple_model.rs`: the scene of a building.  `Float` is `ℝ`. -/

namespace Simple.Render.FromModel

open Geometry Materials Stage

/-- `normal.rs:47-140`, `struct Normal`: the fields used for solar radiation; one that was not given is `none`. -/
structure Normal where
  name : String
  frontSolarAbsorbtance : Option ℝ
  backSolarAbsorbtance : Option ℝ
  solarTransmittance : Option ℝ

/-- `model/src/substance/mod.rs:63-70`, `enum Substance`. -/
inductive Substance where
  | normal (s : Normal)
  | gas (name : String)

/-- `model/src/substance/mod.rs:63-70`: the name. -/
def Substance.name : Substance → String
  | .normal s => s.name
  | .gas n => n

/-- `model/src/surface.rs:93-111`, `struct Surface`: the fields used here. -/
structure Surface where
  vertices : Polygon
  construction : String

/-- `fenestration.rs:115-130`, `struct Fenestration`: the fields used here. -/
structure Fenestration where
  vertices : Polygon
  construction : String
  category : Building.FenestrationType

/-- `model.rs:45-98`, `struct Model`: the fields used here. -/
structure Model where
  substances : List Substance
  materials : List Building.Material
  constructions : List Building.Construction
  surfaces : List Surface
  fenestrations : List Fenestration

/-- `model.rs:692-700`, `get_construction`. -/
def Model.getConstruction (m : Model) (n : String) : Outcome Building.Construction :=
  Building.Model.findNamed (·.name) n m.constructions

/-- `model.rs:1298-1305`, `get_material_substance`, with `model.rs:640-648` and `model.rs:589-597`. -/
def Model.getMaterialSubstance (m : Model) (n : String) : Outcome Substance :=
  (Building.Model.findNamed (·.name) n m.materials).bind fun mat =>
    Building.Model.findNamed Substance.name mat.substance m.substances

/-- `scene.rs:82-85`, `enum Wavelengths`. -/
inductive Wavelengths where
  | solar | visible

/-- `from_simple_model.rs:43-48`, `enum SceneElement`. -/
inductive Element where
  | surface | fenestration

/-- `from_simple_model.rs:36-38`, `transmittance_to_transmissivity`. -/
noncomputable def transmittanceToTransmissivity (tau : ℝ) : ℝ :=
  (Real.sqrt (8402528435 / 10 ^ 10 + 72522239 / 10 ^ 10 * tau ^ 2) - 9166530661 / 10 ^ 10) / (36261119 / 10 ^ 10) / tau

/-- `from_simple_model.rs:193-246`, `substance_to_material`, for `Wavelengths::Solar`: for the other `build_scene` never
comes here.  A transmittance of zero divides a negative number by zero, which gives `-inf`: it is not over zero. -/
noncomputable def substanceToMaterial : Substance → Option Material
  | .normal s =>
    let alpha := match s.frontSolarAbsorbtance with | some v => v | none => 7 / 10
    let rho := 1 - alpha
    let tau := match s.solarTransmittance with | some v => transmittanceToTransmissivity v | none => 0
    if tau > 0 then some (.glass (gray tau) (152 / 100)) else some (.plastic (gray rho) 0 0)
  | .gas _ => none

/-- `from_simple_model.rs:183-190`, `get_modifier_index`. -/
def modifierIndex (modifiers : List String) (item : String) : Option ℕ := modifiers.findIdx? (· = item)

/-- `from_simple_model.rs:166-181`, `push_substance`. -/
noncomputable def pushSubstance (modifiers : List String) (scene : Stage) (substance : Substance) : Option (ℕ × Stage) :=
  match modifierIndex modifiers substance.name with
  | some i => some (i, scene)
  | none => match substanceToMaterial substance with
    | none => none
    | some m => some (scene.pushMaterial m)

/-- A scene and `triangle_map`. -/
abbrev Built := Stage × List (Element × ℕ)

/-- `from_simple_model.rs:106-109` and `from_simple_model.rs:153-156`: the triangles are added. -/
noncomputable def addTriangles (front back : ℕ) (element : Element) (i : ℕ) : List (Triangle ℝ) → Built → Outcome Built
  | [], b => .ok b
  | t :: ts, b => (b.1.pushObject front back (.triangle t)).bind fun s =>
      addTriangles front back element i ts (s, b.2 ++ [(element, i)])

/-- `from_simple_model.rs:71-109`, and `from_simple_model.rs:119-156`, which is the same: a surface or a fenestration. -/
noncomputable def addWall (modifiers : List String) (model : Model) (element : Element) (i : ℕ) (polygon : Polygon)
    (constructionName : String) (b : Built) : Outcome Built :=
  (model.getConstruction constructionName).bind fun construction =>
  if construction.materials.isEmpty then .panic
  else
    (Outcome.index construction.materials 0).bind fun frontName =>
    (model.getMaterialSubstance frontName).bind fun frontSubstance =>
    match pushSubstance modifiers b.1 frontSubstance with
    | none => .err
    | some (front, scene) =>
      match construction.materials.getLast? with
      | none => .err
      | some lastName =>
        (model.getMaterialSubstance lastName).bind fun backSubstance =>
        match pushSubstance modifiers scene backSubstance with
        | none => .err
        | some (back, scene) =>
          (Mesh.ofPolygon polygon).bind fun t =>
          addTriangles front back element i (t.triangles.map (·.triangle)) (scene, b.2)

/-- `from_simple_model.rs:66-110`: the surfaces, of which the first has the number `i`. -/
noncomputable def addSurfaces (modifiers : List String) (model : Model) (i : ℕ) : List Surface → Built → Outcome Built
  | [], b => .ok b
  | s :: l, b =>
    if s.vertices.area < 1 / 100000 then addSurfaces modifiers model (i + 1) l b
    else (addWall modifiers model .surface i s.vertices s.construction b).bind (addSurfaces modifiers model (i + 1) l)

/-- `from_simple_model.rs:113-157`: the fenestrations, of which the first has the number `i`. -/
noncomputable def addFenestrations (modifiers : List String) (model : Model) (i : ℕ) :
    List Fenestration → Built → Outcome Built
  | [], b => .ok b
  | s :: l, b =>
    if s.category = .opening then addFenestrations modifiers model (i + 1) l b
    else (addWall modifiers model .fenestration i s.vertices s.construction b).bind
      (addFenestrations modifiers model (i + 1) l)

/-- `from_simple_model.rs:53-160`, `build_scene`. -/
noncomputable def buildScene (modifiers : List String) (model : Model) : Wavelengths → Outcome Built
  | .visible => .panic
  | .solar =>
    (addSurfaces modifiers model 0 model.surfaces (Stage.new, [])).bind
      (addFenestrations modifiers model 0 model.fenestrations)

/-- `scene.rs:91-96`, `from_simple_model`: a new reader has no modifiers, and none is ever added to a reader. -/
noncomputable def fromSimpleModel (model : Model) (wavelength : Wavelengths) : Outcome Stage :=
  (buildScene [] model wavelength).map (·.1)

end Simple.Render.FromModel
