import Verif.Render.MeshProps
import Verif.Render.StageModel

/-! # C81: what a scene holds after it is built -/

namespace Simple.Render.Stage

open Geometry Materials Meshing

namespace Spec

/-- Something that is done while a scene is built. -/
inductive Step where
  | material (m : Material)
  | object (o : Object)

/-- A history: the steps one after the other. -/
noncomputable def run : List Step → Stage → Outcome Stage
  | [], s => .ok s
  | .material m :: l, s => run l (s.pushMaterial m).2
  | .object o :: l, s => (s.pushObject o.front o.back o.primitive).bind (run l)

/-- The materials of a history. -/
def materialsOf : List Step → List Material
  | [] => []
  | .material m :: l => m :: materialsOf l
  | .object _ :: l => materialsOf l

/-- The objects of a history. -/
def objectsOf : List Step → List Object
  | [] => []
  | .material _ :: l => objectsOf l
  | .object o :: l => o :: objectsOf l

/-- A primitive that is far away. -/
def Far : Primitive → Prop
  | .source _ => True
  | _ => False

/-- One of the two materials of an object is a light. -/
def Emits (ms : List Material) (o : Object) : Prop :=
  (∃ c, ms[o.front]? = some (.light c)) ∨ ∃ c, ms[o.back]? = some (.light c)

/-- The triangles that stand for a primitive, with the normals at their vertices. -/
noncomputable def pieces (p : Primitive) : List (Triangle ℝ × Normals) :=
  match p with
  | .triangle tr => match meshTriangle tr with | .ok (ts, ns) => ts.zip ns | _ => []
  | .sphere s => match meshSphere s with | .ok (ts, ns) => ts.zip ns | _ => []
  | _ => []

/-- A triangle of a scene: its vertices, its normals, and the materials of its two faces. -/
abbrev Entry := Triangle ℝ × Normals × ℕ × ℕ

/-- The triangles of a scene. -/
def entries (s : Stage) : List Entry := s.triangles.zip (s.normals.zip (s.frontMaterials.zip s.backMaterials))

/-- The triangles of an object. -/
noncomputable def entriesOf (o : Object) : List Entry := (pieces o.primitive).map fun x => (x.1, x.2, o.front, o.back)

/-- The vectors of a scene that have an element for each triangle have the same length. -/
def InStep (s : Stage) : Prop :=
  s.normals.length = s.triangles.length ∧ s.frontMaterials.length = s.triangles.length ∧
    s.backMaterials.length = s.triangles.length

/-- The triangles of a face of three or four vertices. -/
def fan : List (V3 ℝ) → List (V3 ℝ × V3 ℝ × V3 ℝ)
  | [a, b, c] => [(a, b, c)]
  | [a, b, c, d] => [(a, b, c), (a, c, d)]
  | _ => []

/-- A point of the quadrilateral with vertices `a`, `b`, `c` and `d`, the diagonals of which cross each other. -/
def InQuad (a b c d p : V3 ℝ) : Prop :=
  ∃ x y z w, 0 ≤ x ∧ 0 ≤ y ∧ 0 ≤ z ∧ 0 ≤ w ∧ x + y + z + w = 1 ∧
    p = a.scale x + b.scale y + c.scale z + d.scale w

end Spec

open Spec

/-! ### One object -/

private theorem mapAll_length {α β : Type} {f : α → Outcome β} :
    ∀ {l : List α} {l' : List β}, mapAll f l = .ok l' → l'.length = l.length
  | [], l', h => by
    simp only [mapAll, Outcome.ok.injEq] at h
    subst h
    rfl
  | a :: l, l', h => by
    unfold mapAll at h
    cases ha : f a with
    | err => rw [ha] at h; simp [Outcome.bind] at h
    | panic => rw [ha] at h; simp [Outcome.bind] at h
    | ok b =>
      rw [ha] at h
      simp only [Outcome.bind] at h
      cases hl : mapAll f l with
      | err => rw [hl] at h; simp at h
      | panic => rw [hl] at h; simp at h
      | ok bs =>
        rw [hl] at h
        simp only [Outcome.ok.injEq] at h
        subst h
        simp [mapAll_length hl]

private theorem meshOf_spec {p : Primitive} {e : Bool} {ts : List (Triangle ℝ)} {ns : List Normals}
    (h : meshOf p e = .ok (ts, ns)) : ns.length = ts.length ∧ ts.zip ns = pieces p := by
  unfold meshOf at h
  cases p with
  | triangle tr =>
    simp only at h
    obtain ⟨h1, n, h2, -⟩ := C80_triangle tr ts ns h
    refine ⟨by rw [h1, h2]; rfl, ?_⟩
    unfold pieces
    simp only [h]
  | sphere s =>
    simp only at h
    refine ⟨?_, by unfold pieces; simp only [h]⟩
    unfold meshSphere at h
    cases h1 : refineTimes s.radius s.centre 5 (start s.radius s.centre) with
    | err => rw [h1] at h; simp [Outcome.bind] at h
    | panic => rw [h1] at h; simp [Outcome.bind] at h
    | ok ts' =>
      rw [h1] at h
      simp only [Outcome.bind] at h
      cases h2 : mapAll (normalsOf s.centre) ts' with
      | err => rw [h2] at h; simp at h
      | panic => rw [h2] at h; simp at h
      | ok ns' =>
        rw [h2] at h
        simp only [Outcome.ok.injEq, Prod.mk.injEq] at h
        obtain ⟨rfl, rfl⟩ := h
        exact mapAll_length h2
  | cylinder c =>
    simp only at h
    cases e <;> simp at h
    obtain ⟨rfl, rfl⟩ := h
    simp [pieces]
  | source c =>
    simp only at h
    cases e <;> simp at h
    obtain ⟨rfl, rfl⟩ := h
    simp [pieces]

private theorem emits_iff {ms : List Material} {o : Object} {mf mb : Material} (hf : ms[o.front]? = some mf)
    (hb : ms[o.back]? = some mb) : (mf.emitsDirectLight || mb.emitsDirectLight) = true ↔ Emits ms o := by
  unfold Emits
  rw [hf, hb]
  constructor
  · intro h
    rw [Bool.or_eq_true] at h
    rcases h with h | h
    · cases mf <;> simp [Material.emitsDirectLight] at h
      exact .inl ⟨_, rfl⟩
    · cases mb <;> simp [Material.emitsDirectLight] at h
      exact .inr ⟨_, rfl⟩
  · rintro (⟨c, h⟩ | ⟨c, h⟩) <;> simp only [Option.some.injEq] at h <;> subst h <;> simp [Material.emitsDirectLight]

private theorem zip4_append {α β γ δ : Type} {a a' : List α} {b b' : List β} {c c' : List γ} {d d' : List δ}
    (hb : b.length = a.length) (hc : c.length = a.length) (hd : d.length = a.length) :
    (a ++ a').zip ((b ++ b').zip ((c ++ c').zip (d ++ d'))) =
      a.zip (b.zip (c.zip d)) ++ a'.zip (b'.zip (c'.zip d')) := by
  rw [List.zip_append (by rw [hc, hd]), List.zip_append (by simp [hb, hc, hd]), List.zip_append (by simp [hb, hc, hd])]

private theorem zip_const (ts : List (Triangle ℝ)) (ns : List Normals) (h : ns.length = ts.length) (f b : ℕ) :
    ts.zip (ns.zip ((List.replicate ts.length f).zip (List.replicate ts.length b))) =
      (ts.zip ns).map fun x => (x.1, x.2, f, b) := by
  induction ts generalizing ns with
  | nil => simp
  | cons t ts ih =>
    cases ns with
    | nil => simp at h
    | cons n ns =>
      simp only [List.length_cons, Nat.add_right_cancel_iff] at h
      simp only [List.length_cons, List.replicate_succ, List.zip_cons_cons, List.map_cons]
      rw [ih ns h]

open Classical in
private theorem push_spec {s s' : Stage} {o : Object} (h : s.pushObject o.front o.back o.primitive = .ok s')
    (hs : InStep s) :
    o.front < s.materials.length ∧ o.back < s.materials.length ∧ s'.materials = s.materials ∧ InStep s' ∧
      entries s' = entries s ++ entriesOf o ∧
      s'.lights = s.lights ++ (if Emits s.materials o ∧ ¬ Far o.primitive then [o] else []) ∧
      s'.distantLights = s.distantLights ++ (if Emits s.materials o ∧ Far o.primitive then [o] else []) := by
  unfold Stage.pushObject at h
  by_cases h1 : o.front ≥ s.materials.length
  · rw [if_pos h1] at h
    simp at h
  · by_cases h2 : o.back ≥ s.materials.length
    · rw [if_neg h1, if_pos h2] at h
      simp at h
    · rw [if_neg h1, if_neg h2] at h
      have hf : s.materials[o.front]? = some s.materials[o.front] := List.getElem?_eq_getElem (by omega)
      have hb : s.materials[o.back]? = some s.materials[o.back] := List.getElem?_eq_getElem (by omega)
      rw [Outcome.index_of_lt (by omega), Outcome.index_of_lt (by omega)] at h
      simp only [Outcome.bind] at h
      have he := emits_iff hf hb
      generalize (s.materials[o.front].emitsDirectLight || s.materials[o.back].emitsDirectLight) = e at h he
      have hfar : o.primitive.isSource = true ↔ Far o.primitive := by
        cases o.primitive <;> simp [Primitive.isSource, Far]
      cases hm : meshOf o.primitive e with
      | err => rw [hm] at h; simp at h
      | panic => rw [hm] at h; simp at h
      | ok m =>
        obtain ⟨ts, ns⟩ := m
        rw [hm] at h
        simp only [Outcome.ok.injEq] at h
        obtain ⟨hl, hp⟩ := meshOf_spec hm
        obtain ⟨q1, q2, q3⟩ := hs
        refine ⟨by omega, by omega, ?_⟩
        have main : ∀ s0 : Stage, s0.triangles = s.triangles → s0.normals = s.normals →
            s0.frontMaterials = s.frontMaterials → s0.backMaterials = s.backMaterials →
            let s1 : Stage := { s0 with
              triangles := s0.triangles ++ ts
              normals := s0.normals ++ ns
              frontMaterials := s0.frontMaterials ++ List.replicate ts.length o.front
              backMaterials := s0.backMaterials ++ List.replicate ts.length o.back }
            InStep s1 ∧ entries s1 = entries s ++ entriesOf o := by
          intro s0 e1 e2 e3 e4 s1
          refine ⟨⟨?_, ?_, ?_⟩, ?_⟩
          · simp only [s1, List.length_append, e1, e2, q1, hl]
          · simp only [s1, List.length_append, e1, e3, q2, List.length_replicate]
          · simp only [s1, List.length_append, e1, e4, q3, List.length_replicate]
          · unfold entries entriesOf
            simp only [s1, e1, e2, e3, e4]
            rw [zip4_append q1 q2 q3, zip_const ts ns hl, hp]
        cases e with
        | false =>
          have hne : ¬ Emits s.materials o := fun h' => by simpa using he.2 h'
          simp only [Bool.false_eq_true, if_false] at h
          subst h
          obtain ⟨m1, m2⟩ := main s rfl rfl rfl rfl
          refine ⟨rfl, m1, m2, ?_, ?_⟩
          · rw [if_neg fun h' => hne h'.1, List.append_nil]
          · rw [if_neg fun h' => hne h'.1, List.append_nil]
        | true =>
          have hem : Emits s.materials o := he.1 rfl
          simp only [if_true] at h
          by_cases hsrc : o.primitive.isSource = true
          · rw [if_pos hsrc] at h
            subst h
            obtain ⟨m1, m2⟩ := main { s with distantLights := s.distantLights ++ [⟨o.primitive, o.front, o.back⟩] }
              rfl rfl rfl rfl
            refine ⟨rfl, m1, m2, ?_, ?_⟩
            · rw [if_neg fun h' => h'.2 (hfar.1 hsrc), List.append_nil]
            · rw [if_pos ⟨hem, hfar.1 hsrc⟩]
          · rw [if_neg hsrc] at h
            subst h
            obtain ⟨m1, m2⟩ := main { s with lights := s.lights ++ [⟨o.primitive, o.front, o.back⟩] } rfl rfl rfl rfl
            refine ⟨rfl, m1, m2, ?_, ?_⟩
            · rw [if_pos ⟨hem, fun h' => hsrc (hfar.2 h')⟩]
            · rw [if_neg fun h' => hsrc (hfar.2 h'.2), List.append_nil]

/-! ### Histories -/

private theorem emits_append {ms more : List Material} {o : Object} (hf : o.front < ms.length) (hb : o.back < ms.length) :
    Emits (ms ++ more) o ↔ Emits ms o := by
  unfold Emits
  rw [List.getElem?_append_left hf, List.getElem?_append_left hb]

open Classical in
private theorem run_spec : ∀ (l : List Step) (s s' : Stage), run l s = .ok s' → InStep s →
    s'.materials = s.materials ++ materialsOf l ∧ InStep s' ∧
      entries s' = entries s ++ (objectsOf l).flatMap entriesOf ∧
      (∀ o ∈ objectsOf l, o.front < s'.materials.length ∧ o.back < s'.materials.length) ∧
      s'.lights = s.lights ++ (objectsOf l).filter (fun o => Emits s'.materials o ∧ ¬ Far o.primitive) ∧
      s'.distantLights = s.distantLights ++ (objectsOf l).filter (fun o => Emits s'.materials o ∧ Far o.primitive)
  | [], s, s', h, hs => by
    simp only [run, Outcome.ok.injEq] at h
    subst h
    simp [materialsOf, objectsOf, hs]
  | .material m :: l, s, s', h, hs => by
    simp only [run] at h
    obtain ⟨h1, h2, h3, h4, h5, h6⟩ := run_spec l _ s' h hs
    refine ⟨?_, h2, h3, h4, h5, h6⟩
    rw [h1]
    simp [Stage.pushMaterial, materialsOf]
  | .object o :: l, s, s', h, hs => by
    simp only [run] at h
    cases hp : s.pushObject o.front o.back o.primitive with
    | err => rw [hp] at h; simp [Outcome.bind] at h
    | panic => rw [hp] at h; simp [Outcome.bind] at h
    | ok s1 =>
      rw [hp] at h
      simp only [Outcome.bind] at h
      obtain ⟨p1, p2, p3, p4, p5, p6, p7⟩ := push_spec hp hs
      obtain ⟨h1, h2, h3, h4, h5, h6⟩ := run_spec l s1 s' h p4
      have he : Emits s'.materials o ↔ Emits s.materials o := by
        rw [h1, p3]
        exact emits_append p1 p2
      refine ⟨by rw [h1, p3, materialsOf], h2, ?_, ?_, ?_, ?_⟩
      · rw [h3, p5, objectsOf, List.flatMap_cons, List.append_assoc]
      · intro o' ho'
        rw [objectsOf, List.mem_cons] at ho'
        rcases ho' with rfl | ho'
        · rw [h1, p3, List.length_append]
          omega
        · exact h4 o' ho'
      · rw [h5, p6, objectsOf, List.filter_cons, List.append_assoc]
        congr 1
        simp only [he]
        by_cases hc : Emits s.materials o ∧ ¬ Far o.primitive
        · rw [if_pos hc, if_pos (by simpa using hc)]
          rfl
        · rw [if_neg hc, if_neg (by simpa using hc)]
          rfl
      · rw [h6, p7, objectsOf, List.filter_cons, List.append_assoc]
        congr 1
        simp only [he]
        by_cases hc : Emits s.materials o ∧ Far o.primitive
        · rw [if_pos hc, if_pos (by simpa using hc)]
          rfl
        · rw [if_neg hc, if_neg (by simpa using hc)]
          rfl

open Classical in
/-- C81: a scene after whatever history of materials and objects that did not panic.  It has the materials, in order, and
the triangles of the objects, in order, each with its normals and the two materials of its object, which exist; and its
lights (and its distant lights) are the objects that are not far away (and those that are) with a material that emits. -/
theorem C81_history (l : List Step) (s : Stage) (h : run l Stage.new = .ok s) :
    s.materials = materialsOf l ∧ InStep s ∧ entries s = (objectsOf l).flatMap entriesOf ∧
      (∀ e ∈ entries s, e.2.2.1 < s.materials.length ∧ e.2.2.2 < s.materials.length) ∧
      s.lights = (objectsOf l).filter (fun o => Emits s.materials o ∧ ¬ Far o.primitive) ∧
      s.distantLights = (objectsOf l).filter (fun o => Emits s.materials o ∧ Far o.primitive) := by
  obtain ⟨h1, h2, h3, h4, h5, h6⟩ := run_spec l Stage.new s h ⟨rfl, rfl, rfl⟩
  refine ⟨by rw [h1]; rfl, h2, by rw [h3]; rfl, ?_, by rw [h5]; rfl, by rw [h6]; rfl⟩
  intro e he
  rw [h3] at he
  have he' : e ∈ (objectsOf l).flatMap entriesOf := he
  obtain ⟨o, ho, ho'⟩ := List.mem_flatMap.1 he'
  unfold entriesOf at ho'
  obtain ⟨x, -, rfl⟩ := List.mem_map.1 ho'
  exact h4 o ho

/-- C81: a material that is added gets the number by which the scene finds it, and those added before keep theirs. -/
theorem C81_material (s : Stage) (m : Material) :
    (s.pushMaterial m).2.materials[(s.pushMaterial m).1]? = some m ∧
      ∀ (i : ℕ) (m' : Material), s.materials[i]? = some m' → (s.pushMaterial m).2.materials[i]? = some m' := by
  refine ⟨by simp [Stage.pushMaterial], fun i m' hi => ?_⟩
  have : i < s.materials.length := (List.getElem?_eq_some_iff.1 hi).1
  simp only [Stage.pushMaterial]
  rw [List.getElem?_append_left this, hi]

/-- C81: an object is taken if its materials exist and it is a triangle that is not degenerate, a sphere that is not tiny,
or a light. -/
theorem C81_taken (s : Stage) (o : Object) (hf : o.front < s.materials.length) (hb : o.back < s.materials.length)
    (h : (∃ t : Triangle ℝ, o.primitive = .triangle t ∧ 1 / 10 ^ 20 < ((t.b - t.a).cross (t.c - t.a)).lengthSquared) ∨
      (∃ q : Sphere, o.primitive = .sphere q ∧ 1 / 10 ^ 9 ≤ q.radius) ∨
      ((∃ q, o.primitive = .cylinder q) ∨ ∃ q, o.primitive = .source q) ∧ Emits s.materials o) :
    ∃ s', s.pushObject o.front o.back o.primitive = .ok s' := by
  have hf' : s.materials[o.front]? = some s.materials[o.front] := List.getElem?_eq_getElem hf
  have hb' : s.materials[o.back]? = some s.materials[o.back] := List.getElem?_eq_getElem hb
  have he := emits_iff hf' hb'
  have hm : ∃ m, meshOf o.primitive (s.materials[o.front].emitsDirectLight || s.materials[o.back].emitsDirectLight) =
      .ok m := by
    rcases h with ⟨t, ht, hn⟩ | ⟨q, hq, hr⟩ | ⟨⟨q, hq⟩ | ⟨q, hq⟩, hem⟩
    · rw [ht]
      unfold meshOf meshTriangle V3.normalize
      simp only
      rw [if_pos hn]
      exact ⟨_, rfl⟩
    · rw [hq]
      obtain ⟨ts, ns, e, -⟩ := C80_sphere_partial q hr
      exact ⟨_, e⟩
    · rw [he.2 hem, hq]
      exact ⟨_, rfl⟩
    · rw [he.2 hem, hq]
      exact ⟨_, rfl⟩
  obtain ⟨m, hm⟩ := hm
  unfold Stage.pushObject
  rw [if_neg (not_le.2 hf), if_neg (not_le.2 hb), Outcome.index_of_lt hf, Outcome.index_of_lt hb]
  simp only [Outcome.bind]
  rw [hm]
  exact ⟨_, rfl⟩

/-- C81: an object with a material that does not exist, and a cylinder or a distant source that does not emit, panics. -/
theorem C81_refused (s : Stage) (o : Object)
    (h : s.materials.length ≤ o.front ∨ s.materials.length ≤ o.back ∨
      ((∃ q, o.primitive = .cylinder q) ∨ ∃ q, o.primitive = .source q) ∧ ¬ Emits s.materials o) :
    s.pushObject o.front o.back o.primitive = .panic := by
  unfold Stage.pushObject
  by_cases h1 : o.front ≥ s.materials.length
  · rw [if_pos h1]
  · by_cases h2 : o.back ≥ s.materials.length
    · rw [if_neg h1, if_pos h2]
    · rw [if_neg h1, if_neg h2]
      have hf : s.materials[o.front]? = some s.materials[o.front] := List.getElem?_eq_getElem (by omega)
      have hb : s.materials[o.back]? = some s.materials[o.back] := List.getElem?_eq_getElem (by omega)
      rw [Outcome.index_of_lt (by omega), Outcome.index_of_lt (by omega)]
      simp only [Outcome.bind]
      have he := emits_iff hf hb
      generalize (s.materials[o.front].emitsDirectLight || s.materials[o.back].emitsDirectLight) = e at he ⊢
      rcases h with h | h | ⟨h, hne⟩
      · omega
      · omega
      · have : e = false := by
          cases e
          · rfl
          · exact absurd (he.1 rfl) hne
        subst this
        rcases h with ⟨q, hq⟩ | ⟨q, hq⟩ <;> rw [hq] <;> rfl

/-- A light over a floor. -/
example : ∃ s, run [.material (.diffuse (gray 1)), .material (.light (gray 10)),
    .object ⟨.triangle ⟨⟨0, 0, 0⟩, ⟨1, 0, 0⟩, ⟨0, 1, 0⟩⟩, 0, 0⟩,
    .object ⟨.triangle ⟨⟨0, 0, 3⟩, ⟨0, 1, 3⟩, ⟨1, 0, 3⟩⟩, 1, 1⟩] Stage.new = .ok s := by
  have key : ∀ (s : Stage) (f b : ℕ) (t : Triangle ℝ), f < s.materials.length → b < s.materials.length →
      1 / 10 ^ 20 < ((t.b - t.a).cross (t.c - t.a)).lengthSquared → ∃ s', s.pushObject f b (.triangle t) = .ok s' :=
    fun s f b t hf hb ht => C81_taken s ⟨.triangle t, f, b⟩ hf hb (.inl ⟨t, rfl, ht⟩)
  simp only [run, Stage.pushMaterial, Stage.new]
  obtain ⟨s1, h1⟩ := key ⟨[], [], [], [], [] ++ [.diffuse (gray 1)] ++ [.light (gray 10)], [], []⟩ 0 0
    ⟨⟨0, 0, 0⟩, ⟨1, 0, 0⟩, ⟨0, 1, 0⟩⟩ (by simp) (by simp) (by norm_num [V3.lengthSquared, V3.cross])
  have hm : s1.materials = _ :=
    (push_spec (o := ⟨.triangle ⟨⟨0, 0, 0⟩, ⟨1, 0, 0⟩, ⟨0, 1, 0⟩⟩, 0, 0⟩) h1 ⟨rfl, rfl, rfl⟩).2.2.1
  obtain ⟨s2, h2⟩ := key s1 1 1 ⟨⟨0, 0, 3⟩, ⟨0, 1, 3⟩, ⟨1, 0, 3⟩⟩ (by simp [hm]) (by simp [hm])
    (by norm_num [V3.lengthSquared, V3.cross])
  rw [h1]
  simp only [Outcome.bind]
  rw [h2]
  exact ⟨_, rfl⟩

/-- C81, violated: an object made of a light-emitting material is said to be added twice, to the scene and to the lights.
A cylinder is added to the lights only: no ray meets it. -/
theorem C81_violated_cylinder (s : Stage) (q : Cylinder) (hs : InStep s) (front : ℕ) (c : Spectrum)
    (hf : s.materials[front]? = some (.light c)) :
    ∃ s', s.pushObject front front (.cylinder q) = .ok s' ∧ s'.lights = s.lights ++ [⟨.cylinder q, front, front⟩] ∧
      entries s' = entries s := by
  have hlt : front < s.materials.length := (List.getElem?_eq_some_iff.1 hf).1
  obtain ⟨s', h⟩ := C81_taken s ⟨.cylinder q, front, front⟩ hlt hlt (.inr (.inr ⟨.inl ⟨q, rfl⟩, .inl ⟨c, hf⟩⟩))
  obtain ⟨-, -, -, -, h5, h6, -⟩ := push_spec (o := ⟨.cylinder q, front, front⟩) h hs
  refine ⟨s', h, ?_, ?_⟩
  · rw [h6]
    congr 1
    exact if_pos ⟨.inl ⟨c, hf⟩, fun h => h⟩
  · rw [h5]
    simp [entriesOf, pieces]

/-! ### OBJ files -/

private theorem new_no_panic (a b c : V3 ℝ) : Triangle.new a b c ≠ .panic := by
  unfold Triangle.new
  by_cases h : (a.compare b || a.compare c || b.compare c) = true
  · rw [if_pos h]
    simp
  · rw [if_neg h]
    unfold V3.isCollinear
    by_cases h1 : (a.compare b && a.compare c) = true
    · rw [if_pos h1]
      simp [Outcome.bind]
    · rw [if_neg h1]
      by_cases h2 : (a.compare b || a.compare c || b.compare c) = true
      · exact absurd h2 h
      · rw [if_neg h2]
        simp only [Outcome.bind]
        split <;> simp

private theorem pushTriangles_run (front back : ℕ) : ∀ (l : List (V3 ℝ × V3 ℝ × V3 ℝ)) (s : Stage),
    pushTriangles front back l s = run (l.filterMap fun x =>
      match Triangle.new x.1 x.2.1 x.2.2 with
      | .ok t => some (Step.object ⟨.triangle t, front, back⟩)
      | _ => none) s
  | [], s => rfl
  | (a, b, c) :: l, s => by
    unfold pushTriangles
    rw [List.filterMap_cons]
    simp only
    cases h : Triangle.new a b c with
    | ok t =>
      simp only [run]
      congr 1
      funext s'
      exact pushTriangles_run front back l s'
    | err => exact pushTriangles_run front back l s
    | panic => exact absurd h (new_no_panic a b c)

private theorem faceVertices_ok {vertices : List (V3 ℝ)} : ∀ {face : List ℕ}, (∀ i ∈ face, i < vertices.length) →
    faceVertices vertices face = .ok (face.filterMap fun i => vertices[i]?) ∧
      (face.filterMap fun i => vertices[i]?).length = face.length
  | [], _ => ⟨rfl, rfl⟩
  | i :: l, h => by
    obtain ⟨h1, h2⟩ := faceVertices_ok (face := l) fun j hj => h j (by simp [hj])
    have hlt : i < vertices.length := h i (by simp)
    have hi : vertices[i]? = some vertices[i] := List.getElem?_eq_getElem hlt
    unfold faceVertices
    rw [Outcome.index_of_lt hlt, h1, List.filterMap_cons, hi]
    exact ⟨rfl, by simp [h2]⟩

private theorem objTriangles_ok {vertices : List (V3 ℝ)} : ∀ {faces : List (List ℕ)},
    (∀ f ∈ faces, (f.length = 3 ∨ f.length = 4) ∧ ∀ i ∈ f, i < vertices.length) →
    objTriangles vertices faces = .ok (faces.flatMap fun f => fan (f.filterMap fun i => vertices[i]?))
  | [], _ => rfl
  | face :: faces, h => by
    obtain ⟨h1, h2⟩ := h face (by simp)
    obtain ⟨e1, e2⟩ := faceVertices_ok h2
    have ih := objTriangles_ok (vertices := vertices) (faces := faces) fun f hf => h f (by simp [hf])
    unfold objTriangles
    rw [if_neg (by omega), e1, List.flatMap_cons]
    simp only [Outcome.bind]
    generalize (face.filterMap fun i => vertices[i]?) = p at *
    rcases h1 with h1 | h1
    · rw [h1] at e2
      obtain ⟨a, b, c, rfl⟩ := List.length_eq_three.1 e2
      rw [ih]
      simp [Outcome.index, fan]
    · rw [h1] at e2
      match p, e2 with
      | [a, b, c, d], _ =>
        rw [ih]
        simp [Outcome.index, fan]

/-- C81: an OBJ file the faces of which have three or four vertices, which exist.  Adding it is adding, one after the
other, the triangles of its faces, except those that cannot be made. -/
theorem C81_obj_partial (s : Stage) (vertices : List (V3 ℝ)) (faces : List (List ℕ)) (front back : ℕ)
    (h : ∀ f ∈ faces, (f.length = 3 ∨ f.length = 4) ∧ ∀ i ∈ f, i < vertices.length) :
    s.addFromObj vertices faces front back =
      run ((faces.flatMap fun f => fan (f.filterMap fun i => vertices[i]?)).filterMap fun x =>
        match Triangle.new x.1 x.2.1 x.2.2 with
        | .ok t => some (Step.object ⟨.triangle t, front, back⟩)
        | _ => none) s := by
  unfold Stage.addFromObj
  rw [objTriangles_ok h]
  exact pushTriangles_run front back _ s

/-- The two faces of the file in the tests of the program. -/
example : ∀ f ∈ ([[0, 1, 2, 3], [0, 1, 2]] : List (List ℕ)),
    (f.length = 3 ∨ f.length = 4) ∧ ∀ i ∈ f, i < ([0, 0, 0, 0] : List (V3 ℝ)).length := by
  simp

/-- C81, violated: a face with five vertices or more is left out, whatever it is, without an error. -/
theorem C81_violated_large (s : Stage) (vertices : List (V3 ℝ)) (face : List ℕ) (front back : ℕ) (h : 5 ≤ face.length) :
    s.addFromObj vertices [face] front back = .ok s := by
  unfold Stage.addFromObj objTriangles
  rw [if_pos (by omega)]
  rfl

/-- C81: the two triangles of a face of four vertices, the diagonals of which cross, have the points of the face. -/
theorem C81_quad (a b c d : V3 ℝ) (u v : ℝ) (hu : 0 ≤ u ∧ u ≤ 1) (hv : 0 ≤ v ∧ v ≤ 1)
    (hx : a.scale (1 - u) + c.scale u = b.scale (1 - v) + d.scale v) (p : V3 ℝ) :
    (∃ t ∈ fan [a, b, c, d], Meshing.Spec.InTriangle ⟨t.1, t.2.1, t.2.2⟩ p) ↔ InQuad a b c d p := by
  simp only [fan, List.mem_cons, List.not_mem_nil, or_false, exists_eq_or_imp, exists_eq_left]
  constructor
  · rintro (⟨x, y, z, hx, hy, hz, hs, rfl⟩ | ⟨x, y, z, hx, hy, hz, hs, rfl⟩)
    · exact ⟨x, y, z, 0, hx, hy, hz, le_rfl, by linarith, by ext <;> simp⟩
    · exact ⟨x, 0, y, z, hx, le_rfl, hy, hz, by linarith, by ext <;> simp⟩
  · rintro ⟨x, y, z, w, hx', hy, hz, hw, hs, rfl⟩
    have e1 := congrArg V3.x hx
    have e2 := congrArg V3.y hx
    have e3 := congrArg V3.z hx
    simp only [V3.add_x, V3.add_y, V3.add_z, V3.scale_x, V3.scale_y, V3.scale_z] at e1 e2 e3
    have hu1 : 0 ≤ 1 - u := by linarith
    have hv1 : 0 ≤ 1 - v := by linarith
    -- take away as much as possible of the crossing from `b` and `d`
    by_cases hc : y * v ≤ w * (1 - v) ∧ v ≠ 1
    · have hpos : 0 < 1 - v := lt_of_le_of_ne hv1 fun h => hc.2 (by linarith)
      right
      refine ⟨x + y / (1 - v) * (1 - u), z + y / (1 - v) * u, w - y / (1 - v) * v, by positivity,
        add_nonneg hz (mul_nonneg (by positivity) hu.1), ?_, ?_, ?_⟩
      · rw [sub_nonneg, div_mul_eq_mul_div, div_le_iff₀ hpos]
        exact hc.1
      · field_simp
        linear_combination (1 - v) * hs
      · ext <;> simp only [V3.add_x, V3.add_y, V3.add_z, V3.scale_x, V3.scale_y, V3.scale_z] <;> field_simp
        · linear_combination (-y) * e1
        · linear_combination (-y) * e2
        · linear_combination (-y) * e3
    · have hpos : 0 < v := by
        rcases hv.1.lt_or_eq with h | h
        · exact h
        · exfalso
          apply hc
          refine ⟨?_, by linarith⟩
          rw [← h]
          linarith
      left
      refine ⟨x + w / v * (1 - u), y - w / v * (1 - v), z + w / v * u, by positivity, ?_,
        add_nonneg hz (mul_nonneg (by positivity) hu.1), ?_, ?_⟩
      · rw [sub_nonneg, div_mul_eq_mul_div, div_le_iff₀ hpos]
        by_cases h1 : v = 1
        · rw [h1]
          linarith
        · exact le_of_not_ge fun h => hc ⟨h, h1⟩
      · field_simp
        linear_combination v * hs
      · ext <;> simp only [V3.add_x, V3.add_y, V3.add_z, V3.scale_x, V3.scale_y, V3.scale_z] <;> field_simp
        · linear_combination (-w) * e1
        · linear_combination (-w) * e2
        · linear_combination (-w) * e3

/-- A square. -/
example : V3.scale (⟨0, 0, 0⟩ : V3 ℝ) (1 - 1 / 2) + V3.scale ⟨1, 1, 0⟩ (1 / 2) =
    V3.scale ⟨1, 0, 0⟩ (1 - 1 / 2) + V3.scale ⟨0, 1, 0⟩ (1 / 2) := by
  ext <;> norm_num

end Simple.Render.Stage
