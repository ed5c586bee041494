import Verif.Render.BvhModel

/-! Model of the life of a scene, `/repo/rendering/src/scene.rs`: objects are added to it, its acceleration structure is built and built
again, and rays are cast.

Simplifications: `Float` is `ℚ`; an object is the triangles and the normals that its primitive is made of, and the numbers of its two
materials, which are taken to exist (what primitives are made of, lights and materials are in `StageModel`). -/

namespace Simple.Render.Life

open Geometry Bvh

/-- What `push_object` adds for a primitive, `scene.rs:337-350`. -/
structure Piece where
  mesh : List (Triangle ℚ × (V3 ℚ × V3 ℚ × V3 ℚ))
  front : ℕ
  back : ℕ

/-- `scene.rs:46-80`, `struct Scene`: what it has for its triangles, and the acceleration structure. -/
structure Live where
  scene : Scene
  accelerator : Option (List FlatNode)

/-- `scene.rs:98-100`, `Scene::new`. -/
def Live.new : Live := ⟨⟨[], [], [], []⟩, none⟩

/-- `scene.rs:348-357`, the end of `push_object`. -/
def Live.push (s : Live) (p : Piece) : Live :=
  let additional := p.mesh.length
  let front := List.replicate additional p.front
  let back := List.replicate additional p.back
  { s with scene := ⟨s.scene.triangles ++ p.mesh.map (·.1), s.scene.normals ++ p.mesh.map (·.2), s.scene.frontMaterials ++ front,
      s.scene.backMaterials ++ back⟩ }

/-- `scene.rs:227-231`, `rebuild_accelerator`: the mapping, and the scene that is left. -/
def Live.rebuild (lib : Sorting) (s : Live) : Outcome (List ℕ × Live) :=
  (Bvh.new lib s.scene).bind fun r => .ok (r.2.1, ⟨r.2.2, some r.1⟩)

/-- `scene.rs:212-219`, `build_accelerator`. -/
def Live.build (lib : Sorting) (s : Live) : Outcome (List ℕ × Live) :=
  if s.accelerator.isSome then .panic
  else (Bvh.new lib s.scene).bind fun r => .ok (r.2.1, ⟨r.2.2, some r.1⟩)

/-- `scene.rs:243-270`, `cast_ray`. -/
def Live.cast (s : Live) (ray : Ray ℚ) (cap : ℕ) : Outcome (Option (ℕ × V3 ℚ × ℚ × ℚ)) :=
  match s.accelerator with
  | some nodes => castRay nodes s.scene.triangles ray cap
  | none => .panic

/-- `scene.rs:273-284`, `unobstructed_distance`. -/
def Live.unobstructedDistance (s : Live) (ray : Ray ℚ) (d2 : ℚ) (cap : ℕ) : Outcome Bool :=
  match s.accelerator with
  | some nodes => unobstructed nodes s.scene.triangles ray d2 cap
  | none => .panic

/-- What is done to a scene. -/
inductive Op
  | push (p : Piece)
  | build
  | rebuild

/-- One operation on the scene. -/
def Live.step (lib : Sorting) (s : Live) : Op → Outcome Live
  | .push p => .ok (s.push p)
  | .build => (s.build lib).bind fun r => .ok r.2
  | .rebuild => (s.rebuild lib).bind fun r => .ok r.2

/-- The operations, one after another. -/
def Live.run (lib : Sorting) : Live → List Op → Outcome Live
  | s, [] => .ok s
  | s, op :: ops => (s.step lib op).bind fun s => s.run lib ops

end Simple.Render.Life
