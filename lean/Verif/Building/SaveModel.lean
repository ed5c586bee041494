import Verif.Building.ModelModel
import Verif.Building.ScannerModel

/-! Model of how a building is saved and loaded: `Serialize` and `Deserialize` of
`/repo/model/src/model.rs` (JSON), `Display` of `model.rs` and `parse_model` of
`/repo/model/src/scanner.rs` (SIMPLE text).

Simplifications: the derived `Serialize` and `Deserialize` of an object are taken to write and read its
fields, apart from the attributes: fields with `#[serde(skip)]` (the places in the state) are neither
written nor read, and `parent_surface` is read but not written (`model/src/fenestration.rs:178-179`).  The
polygons have their own `Serialize` and `Deserialize`, which are a parameter here (`Codec`) and are
modelled in `Verif/Geometry/SaveModel.lean`.  The JSON text of a whole model is the list of its sections; the
JSON of an object within a SIMPLE text is a parameter (`Json`).  Outputs, site details and solar options are
arbitrary data.  As everywhere in the model of buildings, only the fields that are used are kept. -/

namespace Simple.Save

open Building State

variable {P W F O S Q : Type*}

/-- How a polygon is written and read. -/
structure Codec (P W : Type*) where
  enc : P → Outcome W
  dec : W → Outcome P

/-- `model.rs:45-98`, `struct Model`, with the fields that `Building.Model` leaves out. -/
structure Whole (P F O S Q : Type*) where
  core : Model P F
  name : Option String
  outputs : List O
  site : Option S
  solar : Option Q

/-- `model.rs:155-173`, `default`. -/
def Whole.empty : Whole P F O S Q := ⟨Model.empty, none, [], none, none⟩

/-- Something for every element of a list, up to the first that fails. -/
def traverse {α β : Type*} (f : α → Outcome β) : List α → Outcome (List β)
  | [] => .ok []
  | a :: l => (f a).bind fun b => (traverse f l).bind fun bs => .ok (b :: bs)

/-- What is written of a surface (`model/src/surface.rs:91-177`). -/
def encSurface (c : Codec P W) (s : Surface P F) : Outcome (Surface W F) :=
  (c.enc s.vertices).bind fun w => .ok ⟨s.name, s.construction, w, s.front, s.back, s.category, false⟩

/-- A surface from what was written. -/
def decSurface (c : Codec P W) (s : Surface W F) : Outcome (Surface P F) :=
  (c.dec s.vertices).bind fun p => .ok ⟨s.name, s.construction, p, s.front, s.back, s.category, false⟩

/-- What is written of a fenestration (`model/src/fenestration.rs:113-226`): not its parent. -/
def encFenestration (c : Codec P W) (f : Fenestration P F) : Outcome (Fenestration W F) :=
  (c.enc f.vertices).bind fun w =>
    .ok ⟨f.name, f.construction, f.category, w, f.front, f.back, none, none⟩

/-- A fenestration from what was written, which may have a parent. -/
def decFenestration (c : Codec P W) (f : Fenestration W F) : Outcome (Fenestration P F) :=
  (c.dec f.vertices).bind fun p =>
    .ok ⟨f.name, f.construction, f.category, p, f.front, f.back, f.parent, none⟩

/-- `model/src/hvac/ideal_heater_cooler.rs:47-89`, `electric_heater.rs:49-76`: the place in the state is
not written. -/
def bareHvac : Hvac F → Hvac F
  | .idealHeaterCooler n t a b c d _ => .idealHeaterCooler n t a b c d none
  | .electricHeater n t a b _ => .electricHeater n t a b none

/-- `model/src/luminaire.rs:41-64`: the place in the state is not written. -/
def bareLuminaire (l : Luminaire) : Luminaire := { l with index := none }

/-- `model/src/space.rs:92-148`: the places in the state are not written. -/
def bareSpace (s : Space) : Space := { s with dryBulbIndex := none }

/-! ## JSON -/

/-- A field of the JSON object that stands for a model. -/
inductive Section (W F O S Q : Type*) where
  | buildings (l : List Building)
  | constructions (l : List Construction)
  | fenestrations (l : List (Fenestration W F))
  | hvacs (l : List (Hvac F))
  | luminaires (l : List Luminaire)
  | materials (l : List Material)
  | name (n : Option String)
  | objects (l : List Object)
  | outputs (l : List O)
  | siteDetails (s : Option S)
  | solarOptions (s : Option Q)
  | spaces (l : List Space)
  | surfaces (l : List (Surface W F))
  | substances (l : List Substance)
  /-- Any other field. -/
  | other (key : String)

/-- A field that is left out when there is nothing. -/
def optional {α β : Type*} (f : Option α → β) : Option α → List β
  | some a => [f (some a)]
  | none => []

/-- `model.rs:43-98`, the derived `Serialize`: the fields in the order of the declaration. -/
def writeJson (c : Codec P W) (m : Whole P F O S Q) : Outcome (List (Section W F O S Q)) :=
  (traverse (encFenestration c) m.core.fenestrations).bind fun fs =>
    (traverse (encSurface c) m.core.surfaces).bind fun ss =>
      .ok ([.buildings m.core.buildings, .constructions m.core.constructions, .fenestrations fs,
          .hvacs (m.core.hvacs.map bareHvac), .luminaires (m.core.luminaires.map bareLuminaire),
          .materials m.core.materials] ++ optional .name m.name ++
        [.objects m.core.objects, .outputs m.outputs] ++ optional .siteDetails m.site ++
        optional .solarOptions m.solar ++
        [.spaces (m.core.spaces.map bareSpace), .surfaces ss, .substances m.core.substances])

/-- A loop that adds objects, up to the first that is refused. -/
def addAll {α : Type*} (add : Model P F → α → Outcome Unit × Model P F) : Model P F → List α → Outcome (Model P F)
  | m, [] => .ok m
  | m, a :: l =>
    match add m a with
    | (.ok (), m') => addAll add m' l
    | (.err, _) => .err
    | (.panic, _) => .panic

/-- `model.rs:192-276`, one turn of the loop of `visit_map`. -/
def readSection [Zero F] (c : Codec P W) (g : Geo P F) (m : Whole P F O S Q) :
    Section W F O S Q → Outcome (Whole P F O S Q)
  | .buildings l => .ok { m with core := l.foldl Model.addBuilding m.core }
  | .constructions l => .ok { m with core := l.foldl Model.addConstruction m.core }
  | .fenestrations l => (traverse (decFenestration c) l).bind fun fs =>
      (addAll (Model.addFenestration g) m.core fs).bind fun core => .ok { m with core := core }
  | .hvacs l => (addAll Model.addHvac m.core (l.map bareHvac)).bind fun core => .ok { m with core := core }
  | .luminaires l => (addAll Model.addLuminaire m.core (l.map bareLuminaire)).bind fun core =>
      .ok { m with core := core }
  | .materials l => .ok { m with core := l.foldl Model.addMaterial m.core }
  | .name n => .ok { m with name := n }
  | .objects l => .ok { m with core := { m.core with objects := m.core.objects ++ l } }
  | .outputs l => .ok { m with outputs := m.outputs ++ l }
  | .siteDetails s => .ok { m with site := s }
  | .solarOptions s => .ok { m with solar := s }
  | .spaces l => .ok { m with core := (l.map bareSpace).foldl Model.addSpace m.core }
  | .surfaces l => (traverse (decSurface c) l).bind fun ss =>
      .ok { m with core := { m.core with surfaces := m.core.surfaces ++ ss } }
  | .substances l => .ok { m with core := l.foldl Model.addSubstance m.core }
  | .other _ => .err

/-- The loop of `visit_map`, `model.rs:191-277`. -/
def readSections [Zero F] (c : Codec P W) (g : Geo P F) :
    Whole P F O S Q → List (Section W F O S Q) → Outcome (Whole P F O S Q)
  | m, [] => .ok m
  | m, s :: l => (readSection c g m s).bind fun m' => readSections c g m' l

/-- `scanner.rs:437` and `model.rs:408-410`: the state is taken from the model. -/
def finish (m : Whole P F O S Q) : Outcome (Whole P F O S Q × Header F) :=
  match m.core.takeState with
  | (some h, core) => .ok ({ m with core := core }, h)
  -- `model.rs:410` panics, `scanner.rs:437` gives an error; it never happens
  | (none, _) => .err

/-- `model.rs:403-412`, `from_json`, for a text that is a JSON object with these fields. -/
def fromJson [Zero F] (c : Codec P W) (g : Geo P F) (doc : List (Section W F O S Q)) :
    Outcome (Whole P F O S Q × Header F) :=
  (readSections c g Whole.empty doc).bind finish

/-! ## SIMPLE text -/

/-- An object of a SIMPLE file. -/
inductive Obj (W F O S Q : Type*) where
  | building (a : Building)
  | construction (a : Construction)
  | fenestration (a : Fenestration W F)
  | hvac (a : Hvac F)
  | luminaire (a : Luminaire)
  | material (a : Material)
  | object (a : Object)
  | output (a : O)
  | siteDetails (a : S)
  | solarOptions (a : Q)
  | space (a : Space)
  | surface (a : Surface W F)
  | substance (a : Substance)

/-- The identifier in front of an object (`scanner.rs:257-271`, `model.rs:101-152`). -/
def Obj.kind : Obj W F O S Q → List Char
  | .building _ => "Building".toList
  | .construction _ => "Construction".toList
  | .fenestration _ => "Fenestration".toList
  | .hvac _ => "HVAC".toList
  | .luminaire _ => "Luminaire".toList
  | .material _ => "Material".toList
  | .object _ => "Object".toList
  | .output _ => "Output".toList
  | .siteDetails _ => "SiteDetails".toList
  | .solarOptions _ => "SolarOptions".toList
  | .space _ => "Space".toList
  | .surface _ => "Surface".toList
  | .substance _ => "Substance".toList

/-- The JSON of an object: `show` writes it (`serde_json::to_string_pretty`, `json5::to_string`); `parse`
(`json5::from_str`) reads the object of a kind, and fails if the text is not one. -/
structure Json (W F O S Q : Type*) where
  show_ : Obj W F O S Q → List Char
  parse : List Char → List Char → Option (Obj W F O S Q)

/-- `model.rs:101-152`, `Display`: the objects that are written, in order.  The name of the model and the solar
options are not among them. -/
def textObjects (c : Codec P W) (m : Whole P F O S Q) : Outcome (List (Obj W F O S Q)) :=
  (traverse (encFenestration c) m.core.fenestrations).bind fun fs =>
    (traverse (encSurface c) m.core.surfaces).bind fun ss =>
      .ok (m.core.buildings.map .building ++ m.core.constructions.map .construction ++ fs.map .fenestration ++
        m.core.hvacs.map (fun h => .hvac (bareHvac h)) ++ m.core.luminaires.map (fun l => .luminaire (bareLuminaire l)) ++
        m.core.materials.map .material ++ m.core.objects.map .object ++ m.outputs.map .output ++
        m.site.toList.map .siteDetails ++ m.core.substances.map .substance ++
        m.core.spaces.map (fun s => .space (bareSpace s)) ++ ss.map .surface)

/-- The text of an object: the identifier, a space, the JSON and two line ends (`derive/src/object_struct.rs:43-49`);
outputs have two more (`model.rs:131-133`). -/
def objectText (j : Json W F O S Q) (o : Obj W F O S Q) : List Char :=
  o.kind ++ ([' '] ++ (j.show_ o ++
    match o with
    | .output _ => ['\n', '\n', '\n', '\n']
    | _ => ['\n', '\n']))

/-- `model.rs:101-152`, `to_string`; `print_to_file` writes it. -/
def writeText (c : Codec P W) (j : Json W F O S Q) (m : Whole P F O S Q) : Outcome (List Char) :=
  (textObjects c m).bind fun os => .ok (os.map (objectText j)).flatten

/-- `scanner.rs:280-425`: an object is added to the model. -/
def readObject [Zero F] (c : Codec P W) (g : Geo P F) (m : Whole P F O S Q) :
    Obj W F O S Q → Outcome (Whole P F O S Q)
  | .building a => .ok { m with core := m.core.addBuilding a }
  | .construction a => .ok { m with core := m.core.addConstruction a }
  | .fenestration a => (decFenestration c a).bind fun f =>
      (addAll (Model.addFenestration g) m.core [f]).bind fun core => .ok { m with core := core }
  | .hvac a => (addAll Model.addHvac m.core [bareHvac a]).bind fun core => .ok { m with core := core }
  | .luminaire a => (addAll Model.addLuminaire m.core [bareLuminaire a]).bind fun core => .ok { m with core := core }
  | .material a => .ok { m with core := m.core.addMaterial a }
  | .object a => (addAll Model.addObject m.core [a]).bind fun core => .ok { m with core := core }
  | .output a => .ok { m with outputs := m.outputs ++ [a] }
  | .siteDetails a => .ok { m with site := some a }
  | .solarOptions a => .ok { m with solar := some a }
  | .space a => .ok { m with core := m.core.addSpace (bareSpace a) }
  | .surface a => (decSurface c a).bind fun s =>
      (addAll Model.addSurface m.core [s]).bind fun core => .ok { m with core := core }
  | .substance a => .ok { m with core := m.core.addSubstance a }

/-- `scanner.rs:273-435`: the objects, in the order in which they are read. -/
def readItems [Zero F] (c : Codec P W) (g : Geo P F) (j : Json W F O S Q) :
    Whole P F O S Q → List (List Char × List Char) → Outcome (Whole P F O S Q)
  | m, [] => .ok m
  | m, (kind, body) :: l =>
    match j.parse kind body with
    | none => .err
    | some o => (readObject c g m o).bind fun m' => readItems c g j m' l

/-- What loading a text gives: the scanner may never come back (`Verif/Building/ScannerModel.lean`). -/
inductive Loaded (α : Type*) where
  | done (o : Outcome α)
  | hang

/-- `scanner.rs:217-439`, `parse_model`; `from_bytes` and `from_file` of `model.rs`. -/
def fromText [Zero F] (c : Codec P W) (g : Geo P F) (j : Json W F O S Q) (text : List Char) :
    Loaded (Whole P F O S Q × Header F) :=
  match Scan.scanItems text with
  | .hang => .hang
  | .err => .done .err
  | .ok items => .done ((readItems c g j Whole.empty (Scan.additions items)).bind finish)

end Simple.Save
