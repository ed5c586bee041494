import Verif.Geometry.TriangulationModel
import Verif.Render.MatrixFileModel
import Verif.Render.StageModel

/-! Model of `/repo/rendering/src/from_radiance.rs`.  A text is the list of its bytes, and instead of the index of the next
byte the reader has the bytes from there on.  `Float` is `ℝ`: `utf8` says whether `std::str::from_utf8` accepts some bytes,
and `parse` is `str::parse::<Float>`, of which infinities and NaN are left out. -/

namespace Simple.Render.Radiance

open Geometry Materials Stage Image

/-- `from_radiance.rs:35-40`, `struct RadianceReader`. -/
structure Reader where
  rest : List ℕ
  isDone : Bool
  modifiers : List (List ℕ)
  line : ℕ

/-- `from_radiance.rs:49-59`, `get_modifier_index`. -/
def modifierIndex (r : Reader) (name : List ℕ) : Outcome ℕ :=
  match r.modifiers.findIdx? (· == name) with
  | some i => .ok i
  | none => .panic

/-- `from_radiance.rs:99-117`, `consume_char`. -/
def consumeChar (source : List ℕ) (r : Reader) : Outcome (Bool × Reader) :=
  let r := if source = [] then { r with isDone := true } else r
  if r.isDone then .ok (false, r)
  else
    match r.rest with
    | [] => .panic
    | c :: rest => .ok (true, { r with rest := rest, isDone := rest.isEmpty, line := if c = 10 then r.line + 1 else r.line })

/-- `from_radiance.rs:63-78`, `consume_whitespace`. -/
def consumeWhitespace (source : List ℕ) (r : Reader) : Outcome (Bool × Reader) :=
  let r := if source = [] then { r with isDone := true } else r
  if r.isDone then .ok (false, r)
  else
    match r.rest with
    | [] => .panic
    | c :: _ => if isSpace c then consumeChar source r else .ok (false, r)

/-- `from_radiance.rs:82-95`, `consume_non_white`. -/
def consumeNonWhite (source : List ℕ) (r : Reader) : Outcome (Bool × Reader) :=
  let r := if source = [] then { r with isDone := true } else r
  if r.isDone then .ok (false, r)
  else
    match r.rest with
    | [] => .panic
    | c :: _ => if isSpace c then .ok (false, r) else consumeChar source r

theorem consumeChar_shorter {source : List ℕ} {r r' : Reader} (h : consumeChar source r = .ok (true, r')) :
    r'.rest.length < r.rest.length := by
  unfold consumeChar at h
  by_cases hs : source = []
  · simp [hs] at h
  · simp only [hs, if_false] at h
    by_cases hd : r.isDone = true
    · simp [hd] at h
    · simp only [hd] at h
      cases hr : r.rest with
      | nil => simp [hr] at h
      | cons c rest =>
        simp only [hr, Bool.false_eq_true, if_false, Outcome.ok.injEq, Prod.mk.injEq, true_and] at h
        subst h
        simp

theorem consumeWhitespace_shorter {source : List ℕ} {r r' : Reader} (h : consumeWhitespace source r = .ok (true, r')) :
    r'.rest.length < r.rest.length := by
  unfold consumeWhitespace at h
  by_cases hs : source = []
  · simp [hs] at h
  · simp only [hs, if_false] at h
    by_cases hd : r.isDone = true
    · simp [hd] at h
    · simp only [hd] at h
      cases hr : r.rest with
      | nil => simp [hr] at h
      | cons c rest =>
        simp only [hr, Bool.false_eq_true, if_false] at h
        by_cases hc : isSpace c = true
        · rw [if_pos hc] at h
          rw [← hr]
          exact consumeChar_shorter h
        · rw [if_neg hc] at h
          simp at h

theorem consumeNonWhite_shorter {source : List ℕ} {r r' : Reader} (h : consumeNonWhite source r = .ok (true, r')) :
    r'.rest.length < r.rest.length := by
  unfold consumeNonWhite at h
  by_cases hs : source = []
  · simp [hs] at h
  · simp only [hs, if_false] at h
    by_cases hd : r.isDone = true
    · simp [hd] at h
    · simp only [hd] at h
      cases hr : r.rest with
      | nil => simp [hr] at h
      | cons c rest =>
        simp only [hr, Bool.false_eq_true, if_false] at h
        by_cases hc : isSpace c = true
        · rw [if_pos hc] at h
          simp at h
        · rw [if_neg hc] at h
          rw [← hr]
          exact consumeChar_shorter h

/-- `from_radiance.rs:120-126`, `reach_next_token`. -/
def reachNextToken (source : List ℕ) (r : Reader) : Outcome Reader :=
  match h : consumeWhitespace source r with
  | .ok (true, r') => reachNextToken source r'
  | .ok (false, r') => .ok r'
  | .err => .err
  | .panic => .panic
termination_by r.rest.length
decreasing_by exact consumeWhitespace_shorter h

/-- `from_radiance.rs:133-137`: the loop of `consume_token`. -/
def reachEnd (source : List ℕ) (r : Reader) : Outcome Reader :=
  match h : consumeNonWhite source r with
  | .ok (true, r') => reachEnd source r'
  | .ok (false, r') => .ok r'
  | .err => .err
  | .panic => .panic
termination_by r.rest.length
decreasing_by exact consumeNonWhite_shorter h

/-- `from_radiance.rs:129-147`, `consume_token`. -/
def consumeToken (utf8 : List ℕ → Bool) (source : List ℕ) (r : Reader) : Outcome (List ℕ × Reader) :=
  (reachNextToken source r).bind fun start =>
  (reachEnd source start).bind fun r =>
  if start.rest.length = r.rest.length then .ok ([], r)
  else
    let token := start.rest.take (start.rest.length - r.rest.length)
    if utf8 token then .ok (token, r) else .err

section Objects

variable (utf8 : List ℕ → Bool) (parse : List ℕ → Option ℝ) (source : List ℕ)

/-- `from_radiance.rs:195-196`, and wherever a token must be there: `assert_eq!`. -/
def expect (token : List ℕ) (r : Reader) : Outcome Reader :=
  (consumeToken utf8 source r).bind fun t => if t.1 = token then .ok t.2 else .panic

/-- `from_radiance.rs:201-204`, and wherever a number is read. -/
noncomputable def number (r : Reader) : Outcome (ℝ × Reader) :=
  (consumeToken utf8 source r).bind fun t =>
    match parse t.1 with
    | some x => .ok (x, t.2)
    | none => .err

/-- Several numbers, one after the other. -/
noncomputable def numbers : ℕ → Reader → Outcome (List ℝ × Reader)
  | 0, r => .ok ([], r)
  | n + 1, r => (number utf8 parse source r).bind fun x =>
    (numbers n x.2).bind fun xs => .ok (x.1 :: xs.1, xs.2)

/-- `from_radiance.rs:195-200`, and at the beginning of the other objects: no texts, no integers, `n` numbers, which are
read. -/
noncomputable def arguments (n : ℕ) (r : Reader) : Outcome (List ℝ × Reader) :=
  (expect utf8 source (bytes "0") r).bind fun r =>
  (expect utf8 source (bytes "0") r).bind fun r =>
  (expect utf8 source (decimal n) r).bind fun r =>
  numbers utf8 parse source n r

/-- The name of a material is recorded, and the material added. -/
def addMaterial (name : List ℕ) (m : Material) (r : Reader) (s : Stage) : Outcome (Reader × Stage) :=
  .ok ({ r with modifiers := r.modifiers ++ [name] }, (s.pushMaterial m).2)

/-- `from_radiance.rs:188-237`, `consume_metal`. -/
noncomputable def consumeMetal (name : List ℕ) (r : Reader) (s : Stage) : Outcome (Reader × Stage) :=
  (arguments utf8 parse source 5 r).bind fun a =>
    match a.1 with
    | [red, green, blue, specularity, roughness] =>
      addMaterial name (if specularity < 1 / 10 ^ 5 then .diffuse ![red, green, blue]
        else .metal ![red, green, blue] specularity roughness) a.2 s
    | _ => .panic

/-- `from_radiance.rs:240-290`, `consume_plastic`. -/
noncomputable def consumePlastic (name : List ℕ) (r : Reader) (s : Stage) : Outcome (Reader × Stage) :=
  (arguments utf8 parse source 5 r).bind fun a =>
    match a.1 with
    | [red, green, blue, specularity, roughness] =>
      addMaterial name (if specularity < 1 / 10 ^ 5 then .diffuse ![red, green, blue]
        else .plastic ![red, green, blue] specularity roughness) a.2 s
    | _ => .panic

/-- `from_radiance.rs:293-325`, `consume_light`. -/
noncomputable def consumeLight (name : List ℕ) (r : Reader) (s : Stage) : Outcome (Reader × Stage) :=
  (arguments utf8 parse source 3 r).bind fun a =>
    match a.1 with
    | [red, green, blue] => addMaterial name (.light ![red, green, blue]) a.2 s
    | _ => .panic

/-- `from_radiance.rs:328-360`, `consume_mirror`. -/
noncomputable def consumeMirror (name : List ℕ) (r : Reader) (s : Stage) : Outcome (Reader × Stage) :=
  (arguments utf8 parse source 3 r).bind fun a =>
    match a.1 with
    | [red, green, blue] => addMaterial name (.mirror ![red, green, blue]) a.2 s
    | _ => .panic

/-- `from_radiance.rs:363-406`, `consume_dielectric`. -/
noncomputable def consumeDielectric (name : List ℕ) (r : Reader) (s : Stage) : Outcome (Reader × Stage) :=
  (arguments utf8 parse source 5 r).bind fun a =>
    match a.1 with
    | [red, green, blue, refractionIndex, _] => addMaterial name (.dielectric ![red, green, blue] refractionIndex) a.2 s
    | _ => .panic

/-- `from_radiance.rs:409-477`, `consume_glass`. -/
noncomputable def consumeGlass (name : List ℕ) (r : Reader) (s : Stage) : Outcome (Reader × Stage) :=
  (expect utf8 source (bytes "0") r).bind fun r =>
  (expect utf8 source (bytes "0") r).bind fun r =>
  (consumeToken utf8 source r).bind fun t =>
    if t.1 = bytes "4" then
      (numbers utf8 parse source 4 t.2).bind fun a =>
        match a.1 with
        | [red, green, blue, refractionIndex] => addMaterial name (.glass ![red, green, blue] refractionIndex) a.2 s
        | _ => .panic
    else if t.1 = bytes "3" then
      (numbers utf8 parse source 3 t.2).bind fun a =>
        match a.1 with
        | [red, green, blue] => addMaterial name (.glass ![red, green, blue] (152 / 100)) a.2 s
        | _ => .panic
    else .panic

/-- An object with the same material on both sides is added. -/
noncomputable def addObject (index : ℕ) (p : Primitive) (r : Reader) (s : Stage) : Outcome (Reader × Stage) :=
  (s.pushObject index index p).bind fun s => .ok (r, s)

/-- `from_radiance.rs:480-516`, `consume_sphere`. -/
noncomputable def consumeSphere (modifier : List ℕ) (r : Reader) (s : Stage) : Outcome (Reader × Stage) :=
  (arguments utf8 parse source 4 r).bind fun a =>
    match a.1 with
    | [x, y, z, radius] =>
      (Sphere.new radius ⟨x, y, z⟩).bind fun sphere =>
      (modifierIndex a.2 modifier).bind fun i => addObject i (.sphere sphere) a.2 s
    | _ => .panic

/-- `from_radiance.rs:519-554`, `consume_source`. -/
noncomputable def consumeSource (modifier : List ℕ) (r : Reader) (s : Stage) : Outcome (Reader × Stage) :=
  (arguments utf8 parse source 4 r).bind fun a =>
    match a.1 with
    | [x, y, z, angle] =>
      (DistantSource.new ⟨x, y, z⟩ (angle * (Real.pi / 180))).bind fun distant =>
      (modifierIndex a.2 modifier).bind fun i => addObject i (.source distant) a.2 s
    | _ => .panic

/-- `from_radiance.rs:578-593`: the loop over the vertices, `n` of which are left. -/
noncomputable def consumeVertices : ℕ → Loop → Reader → Outcome (Loop × Reader)
  | 0, l, r => .ok (l, r)
  | n + 1, l, r =>
    (number utf8 parse source r).bind fun x =>
    (number utf8 parse source x.2).bind fun y =>
    (number utf8 parse source y.2).bind fun z =>
      match l.push ⟨x.1, y.1, z.1⟩ with
      | (.ok (), l) => consumeVertices n l z.2
      | (.err, _) => .err
      | (.panic, _) => .panic

/-- `from_radiance.rs:596-599`, and `triangulation3d.rs:303-305`, `get_trilist`: the triangles of a loop. -/
noncomputable def trianglesOf (l : Loop) : Outcome (List (Triangle ℝ)) :=
  match l.close with
  | (.ok (), l) => (Polygon.new l).bind fun p => (Mesh.ofPolygon p).bind fun m => .ok (m.triangles.map (·.triangle))
  | (.err, _) => .err
  | (.panic, _) => .panic

/-- `from_radiance.rs:601-603`: the triangles are added. -/
noncomputable def addTriangles (index : ℕ) : List (Triangle ℝ) → Stage → Outcome Stage
  | [], s => .ok s
  | t :: ts, s => (s.pushObject index index (.triangle t)).bind (addTriangles index ts)

/-- `from_radiance.rs:557-606`, `consume_polygon`. -/
noncomputable def consumePolygon (modifier : List ℕ) (r : Reader) (s : Stage) : Outcome (Reader × Stage) :=
  (expect utf8 source (bytes "0") r).bind fun r =>
  (expect utf8 source (bytes "0") r).bind fun r =>
  (consumeToken utf8 source r).bind fun t =>
    match parseUsize t.1 with
    | none => .err
    | some n =>
      if n % 3 ≠ 0 then .panic
      else
        (consumeVertices utf8 parse source (n / 3) Loop.new t.2).bind fun l =>
        (modifierIndex l.2 modifier).bind fun i =>
        (trianglesOf l.1).bind fun ts =>
        (addTriangles i ts s).bind fun s => .ok (l.2, s)

/-- `from_radiance.rs:150-185`, `consume_object`. -/
noncomputable def consumeObject (r : Reader) (s : Stage) : Outcome (Reader × Stage) :=
  (reachNextToken source r).bind fun r =>
  if r.isDone then .ok (r, s)
  else
    (consumeToken utf8 source r).bind fun modifier =>
    if modifier.2.isDone then .panic
    else
      (consumeToken utf8 source modifier.2).bind fun kind =>
      if kind.2.isDone then .panic
      else
        (consumeToken utf8 source kind.2).bind fun name =>
        if name.2.isDone then .panic
        else if kind.1 = bytes "plastic" then consumePlastic utf8 parse source name.1 name.2 s
        else if kind.1 = bytes "metal" then consumeMetal utf8 parse source name.1 name.2 s
        else if kind.1 = bytes "light" then consumeLight utf8 parse source name.1 name.2 s
        else if kind.1 = bytes "mirror" then consumeMirror utf8 parse source name.1 name.2 s
        else if kind.1 = bytes "dielectric" then consumeDielectric utf8 parse source name.1 name.2 s
        else if kind.1 = bytes "glass" then consumeGlass utf8 parse source name.1 name.2 s
        else if kind.1 = bytes "sphere" then consumeSphere utf8 parse source modifier.1 name.2 s
        else if kind.1 = bytes "source" then consumeSource utf8 parse source modifier.1 name.2 s
        else if kind.1 = bytes "polygon" then consumePolygon utf8 parse source modifier.1 name.2 s
        else .panic

/-- `from_radiance.rs:623-625`: the loop, which is left after `fuel` objects at the latest. -/
noncomputable def consumeAll : ℕ → Reader → Stage → Option (Outcome Stage)
  | 0, _, _ => none
  | fuel + 1, r, s =>
    if r.isDone then some (.ok s)
    else
      match consumeObject utf8 parse source r s with
      | .ok (r, s) => consumeAll fuel r s
      | .err => some .err
      | .panic => some .panic

/-- `from_radiance.rs:618-628`, `from_radiance_source`; `none` would be a loop that does not end. -/
noncomputable def fromSource : Option (Outcome Stage) :=
  consumeAll utf8 parse source (source.length + 2) ⟨source, false, [], 0⟩ Stage.new

end Objects

end Simple.Render.Radiance
