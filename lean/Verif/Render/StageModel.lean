import Verif.Render.MaterialModel
import Verif.Render.MeshModel

/-! Model of the parts of `/repo/rendering/src/scene.rs` that build a scene, and of `/repo/rendering/src/from_obj.rs`.
`Float` is `ℝ`. -/

namespace Simple.Render.Stage

open Geometry Materials Meshing

/-- `material/mod.rs:61-69`, `enum Material`. -/
inductive Material where
  | plastic (colour : Spectrum) (specularity roughness : ℝ)
  | metal (colour : Spectrum) (specularity roughness : ℝ)
  | diffuse (colour : Spectrum)
  | light (colour : Spectrum)
  | mirror (colour : Spectrum)
  | dielectric (colour : Spectrum) (refractionIndex : ℝ)
  | glass (colour : Spectrum) (refractionIndex : ℝ)

/-- `material/mod.rs:101-103`, `emits_direct_light`. -/
def Material.emitsDirectLight : Material → Bool
  | .light _ => true
  | _ => false

/-- `primitive.rs:33-38`, `enum Primitive`. -/
inductive Primitive where
  | sphere (s : Sphere)
  | triangle (t : Triangle ℝ)
  | cylinder (c : Cylinder)
  | source (s : DistantSource)

/-- `scene.rs:38-43`, `struct Object`. -/
structure Object where
  primitive : Primitive
  front : ℕ
  back : ℕ

/-- `scene.rs:46-80`, `struct Scene`, without the sky and the acceleration structure. -/
structure Stage where
  triangles : List (Triangle ℝ)
  normals : List Normals
  frontMaterials : List ℕ
  backMaterials : List ℕ
  materials : List Material
  lights : List Object
  distantLights : List Object

/-- `scene.rs:98-100`, `Scene::new`. -/
def Stage.new : Stage := ⟨[], [], [], [], [], [], []⟩

/-- `scene.rs:288-292`, `push_material`. -/
def Stage.pushMaterial (s : Stage) (m : Material) : ℕ × Stage :=
  let materials := s.materials ++ [m]
  (materials.length - 1, { s with materials := materials })

/-- `primitive.id() == "source"`, `primitive.rs:48-55`. -/
def Primitive.isSource : Primitive → Bool
  | .source _ => true
  | _ => false

/-- `scene.rs:337-347`: the triangles of a primitive. -/
noncomputable def meshOf (p : Primitive) (isLight : Bool) : Outcome (List (Triangle ℝ) × List Normals) :=
  match p with
  | .triangle tr => meshTriangle tr
  | .sphere s => meshSphere s
  | _ => if !isLight then .panic else .ok ([], [])

/-- `scene.rs:299-357`, `push_object`. -/
noncomputable def Stage.pushObject (s : Stage) (front back : ℕ) (p : Primitive) : Outcome Stage :=
  if front ≥ s.materials.length then .panic
  else if back ≥ s.materials.length then .panic
  else
    (Outcome.index s.materials front).bind fun mf =>
    (Outcome.index s.materials back).bind fun mb =>
    let isLight := mf.emitsDirectLight || mb.emitsDirectLight
    let s := if isLight then
        if p.isSource then { s with distantLights := s.distantLights ++ [⟨p, front, back⟩] }
        else { s with lights := s.lights ++ [⟨p, front, back⟩] }
      else s
    (meshOf p isLight).bind fun m =>
    .ok { s with
      triangles := s.triangles ++ m.1
      normals := s.normals ++ m.2
      frontMaterials := s.frontMaterials ++ List.replicate m.1.length front
      backMaterials := s.backMaterials ++ List.replicate m.1.length back }

/-- `from_obj.rs:74-82`: the vertices of a face. -/
def faceVertices (vertices : List (V3 ℝ)) : List ℕ → Outcome (List (V3 ℝ))
  | [] => .ok []
  | i :: l => (Outcome.index vertices i).bind fun v => (faceVertices vertices l).bind fun vs => .ok (v :: vs)

/-- `from_obj.rs:40-162`, `process`, without the normals and the textures, which are read and not used. -/
def objTriangles (vertices : List (V3 ℝ)) : List (List ℕ) → Outcome (List (V3 ℝ × V3 ℝ × V3 ℝ))
  | [] => .ok []
  | face :: faces =>
    if face.length > 4 then objTriangles vertices faces
    else
      (faceVertices vertices face).bind fun p =>
      (Outcome.index p 0).bind fun a =>
      (Outcome.index p 1).bind fun b =>
      (Outcome.index p 2).bind fun c =>
      let half : Outcome (List (V3 ℝ × V3 ℝ × V3 ℝ)) :=
        if p.length = 4 then (Outcome.index p 3).bind fun d => .ok [(a, c, d)] else .ok []
      half.bind fun half =>
      (objTriangles vertices faces).bind fun rest => .ok ((a, b, c) :: (half ++ rest))

/-- `from_obj.rs:190-201`: the loop over the triangles. -/
noncomputable def pushTriangles (front back : ℕ) : List (V3 ℝ × V3 ℝ × V3 ℝ) → Stage → Outcome Stage
  | [], s => .ok s
  | (a, b, c) :: l, s =>
    match Triangle.new a b c with
    | .ok tri => (s.pushObject front back (.triangle tri)).bind (pushTriangles front back l)
    | .err => pushTriangles front back l s
    | .panic => .panic

/-- `from_obj.rs:180-202`, `add_from_obj_source`, from the vertices and the faces that the library read: the numbers of
vertices in a face start at 0. -/
noncomputable def Stage.addFromObj (s : Stage) (vertices : List (V3 ℝ)) (faces : List (List ℕ)) (front back : ℕ) :
    Outcome Stage :=
  (objTriangles vertices faces).bind fun l => pushTriangles front back l s

end Simple.Render.Stage
