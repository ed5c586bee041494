import Mathlib.Tactic.NormNum
import Mathlib.Tactic.Linarith
import Verif.Geometry.TriangulationProps
import Verif.Render.SpecularProps
import Verif.Render.StageProps
import Verif.Render.FromModelModel

/-! # C83: the scene of a building -/

namespace Simple.Render.FromModel

open Geometry Materials Stage

namespace Spec

/-- The first layer of the construction with that name has the substance `f`, and the last one has the substance `b`:
of several things with the same name it is the first that counts. -/
def Clad (m : Model) (construction : String) (f b : Substance) : Prop :=
  ∃ c first last mf ml, m.constructions.find? (fun x => x.name = construction) = some c ∧
    c.materials.head? = some first ∧ c.materials.getLast? = some last ∧
    m.materials.find? (fun x => x.name = first) = some mf ∧ m.materials.find? (fun x => x.name = last) = some ml ∧
    m.substances.find? (fun x => x.name = mf.substance) = some f ∧
    m.substances.find? (fun x => x.name = ml.substance) = some b

/-- The construction of a surface or a fenestration. -/
def constructionOf (m : Model) : Element × ℕ → Option String
  | (.surface, i) => m.surfaces[i]?.map (·.construction)
  | (.fenestration, i) => m.fenestrations[i]?.map (·.construction)

/-- The triangles of a polygon. -/
noncomputable def panes (p : Polygon) : List (Triangle ℝ) :=
  match Mesh.ofPolygon p with
  | .ok mesh => mesh.triangles.map (·.triangle)
  | _ => []

/-- The triangles of a surface, with the surface they come from: one that is too small has none. -/
noncomputable def ofSurface (x : Surface × ℕ) : List (Triangle ℝ × Element × ℕ) :=
  if x.1.vertices.area < 1 / 100000 then [] else (panes x.1.vertices).map fun t => (t, .surface, x.2)

/-- The triangles of a fenestration, with the fenestration they come from: an opening has none. -/
noncomputable def ofFenestration (x : Fenestration × ℕ) : List (Triangle ℝ × Element × ℕ) :=
  if x.1.category = .opening then [] else (panes x.1.vertices).map fun t => (t, .fenestration, x.2)

/-- Something solid. -/
def Solid : Substance → Prop
  | .normal _ => True
  | .gas _ => False

/-- The construction exists, both its outermost layers are solid, and the polygon can be triangulated. -/
def Buildable (m : Model) (construction : String) (p : Polygon) : Prop :=
  (∃ f b, Clad m construction f b ∧ Solid f ∧ Solid b) ∧ ∃ mesh, Mesh.ofPolygon p = .ok mesh

end Spec

open Spec Stage.Spec

/-! ### Looking things up -/

private theorem findNamed_eq {α : Type*} (nm : α → String) (n : String) (l : List α) :
    Building.Model.findNamed nm n l = match l.find? (fun x => nm x = n) with | some a => .ok a | none => .err := by
  induction l with
  | nil => rfl
  | cons a l ih =>
    unfold Building.Model.findNamed
    by_cases h : nm a = n
    · rw [if_pos h, List.find?_cons_of_pos (by simpa using h)]
    · rw [if_neg h, List.find?_cons_of_neg (by simpa using h), ih]

private theorem findNamed_ok {α : Type*} {nm : α → String} {n : String} {l : List α} {a : α} :
    Building.Model.findNamed nm n l = .ok a ↔ l.find? (fun x => nm x = n) = some a := by
  rw [findNamed_eq]
  cases l.find? (fun x => nm x = n) <;> simp

private theorem bind_ok {α β : Type} {x : Outcome α} {f : α → Outcome β} {b : β} :
    x.bind f = .ok b ↔ ∃ a, x = .ok a ∧ f a = .ok b := by
  cases x <;> simp [Outcome.bind]

private theorem substance_ok {m : Model} {n : String} {s : Substance} :
    m.getMaterialSubstance n = .ok s ↔ ∃ mat, m.materials.find? (fun x => x.name = n) = some mat ∧
      m.substances.find? (fun x => x.name = mat.substance) = some s := by
  unfold Model.getMaterialSubstance
  rw [bind_ok]
  simp only [findNamed_ok]

/-! ### One triangle -/

private theorem push_triangle {s s' : Stage} {f b : ℕ} {t : Triangle ℝ}
    (h : s.pushObject f b (.triangle t) = .ok s') :
    s'.materials = s.materials ∧ s'.triangles = s.triangles ++ [t] ∧ (∃ n, s'.normals = s.normals ++ [n]) ∧
      s'.frontMaterials = s.frontMaterials ++ [f] ∧ s'.backMaterials = s.backMaterials ++ [b] := by
  unfold Stage.pushObject at h
  by_cases h1 : f ≥ s.materials.length
  · rw [if_pos h1] at h
    simp at h
  · by_cases h2 : b ≥ s.materials.length
    · rw [if_neg h1, if_pos h2] at h
      simp at h
    · rw [if_neg h1, if_neg h2, Outcome.index_of_lt (by omega), Outcome.index_of_lt (by omega)] at h
      simp only [Outcome.bind, meshOf, Primitive.isSource] at h
      cases hm : Meshing.meshTriangle t with
      | err => rw [hm] at h; simp at h
      | panic => rw [hm] at h; simp at h
      | ok r =>
        obtain ⟨ts, ns⟩ := r
        obtain ⟨rfl, n, rfl, -⟩ := Meshing.C80_triangle t ts ns hm
        rw [hm] at h
        simp only [Outcome.ok.injEq] at h
        subst h
        generalize (s.materials[f].emitsDirectLight || s.materials[b].emitsDirectLight) = e
        cases e <;> exact ⟨rfl, rfl, ⟨_, rfl⟩, rfl, rfl⟩

/-! ### The triangles of a wall -/

private theorem triangles_spec {f b : ℕ} {el : Element} {i : ℕ} : ∀ {ts : List (Triangle ℝ)} {x y : Built},
    addTriangles f b el i ts x = .ok y →
      y.1.materials = x.1.materials ∧ y.1.triangles = x.1.triangles ++ ts ∧
      (∃ ns, y.1.normals = x.1.normals ++ ns ∧ ns.length = ts.length) ∧
      y.1.frontMaterials = x.1.frontMaterials ++ List.replicate ts.length f ∧
      y.1.backMaterials = x.1.backMaterials ++ List.replicate ts.length b ∧
      y.2 = x.2 ++ List.replicate ts.length (el, i)
  | [], x, y, h => by
    simp only [addTriangles, Outcome.ok.injEq] at h
    subst h
    exact ⟨rfl, by simp, ⟨[], by simp⟩, by simp, by simp, by simp⟩
  | t :: ts, x, y, h => by
    simp only [addTriangles] at h
    obtain ⟨s, hs, h⟩ := bind_ok.1 h
    obtain ⟨p1, p2, ⟨n, p3⟩, p4, p5⟩ := push_triangle hs
    obtain ⟨q1, q2, ⟨ns, q3, q3'⟩, q4, q5, q6⟩ := triangles_spec h
    simp only at q1 q2 q3 q4 q5 q6
    refine ⟨q1.trans p1, by rw [q2, p2]; simp, ⟨n :: ns, by rw [q3, p3]; simp, by simp [q3']⟩, ?_, ?_, ?_⟩
    · rw [q4, p4, List.append_assoc]; rfl
    · rw [q5, p5, List.append_assoc]; rfl
    · rw [q6, List.append_assoc]; rfl

private theorem triangles_ok {f b : ℕ} {el : Element} {i : ℕ} : ∀ {ts : List (Triangle ℝ)} {x : Built},
    f < x.1.materials.length → b < x.1.materials.length →
    (∀ t ∈ ts, 1 / 10 ^ 20 < ((t.b - t.a).cross (t.c - t.a)).lengthSquared) →
    ∃ y, addTriangles f b el i ts x = .ok y
  | [], x, _, _, _ => ⟨x, rfl⟩
  | t :: ts, x, hf, hb, ht => by
    obtain ⟨s, hs⟩ := C81_taken x.1 ⟨.triangle t, f, b⟩ hf hb (.inl ⟨t, rfl, ht t (by simp)⟩)
    obtain ⟨p1, -⟩ := push_triangle hs
    obtain ⟨y, hy⟩ := triangles_ok (f := f) (b := b) (el := el) (i := i) (ts := ts) (x := (s, x.2 ++ [(el, i)]))
      (by simpa [p1] using hf) (by simpa [p1] using hb) fun t' h' => ht t' (by simp [h'])
    exact ⟨y, by simp only [addTriangles]; exact bind_ok.2 ⟨s, hs, hy⟩⟩

private theorem panes_large {p : Polygon} {mesh : Mesh} (h : Mesh.ofPolygon p = .ok mesh) :
    ∀ t ∈ mesh.triangles.map (·.triangle), 1 / 10 ^ 20 < ((t.b - t.a).cross (t.c - t.a)).lengthSquared := by
  intro t ht
  obtain ⟨l, l', -, -, -, h1, -⟩ := Mesh.C50_triangulation p mesh h
  obtain ⟨⟨c1, c2, c3, hp⟩, -⟩ := h1 t ht
  unfold V3.isCollinear at hp
  rw [c1, c2, c3] at hp
  simp only [Bool.false_and, Bool.or_self, Bool.false_eq_true, if_false, Outcome.ok.injEq, decide_eq_false_iff_not,
    not_lt] at hp
  have e : ((t.b - t.a).cross (t.c - t.a)).lengthSquared = ((t.b - t.a).cross (t.c - t.b)).lengthSquared := by
    unfold V3.lengthSquared V3.cross
    simp only [V3.sub_x, V3.sub_y, V3.sub_z]
    ring
  rw [e]
  unfold V3.length at hp
  have := (Real.le_sqrt' (by norm_num)).1 hp
  refine lt_of_lt_of_le ?_ this
  norm_num

/-! ### One wall -/

private theorem push_fresh (scene : Stage) (s : Substance) :
    pushSubstance [] scene s = (substanceToMaterial s).map scene.pushMaterial := by
  unfold pushSubstance modifierIndex
  simp only [List.findIdx?_nil]
  cases substanceToMaterial s <;> rfl

/-- What a wall adds. -/
private structure Added (m : Model) (e : Element × ℕ) (c : String) (p : Polygon) (x y : Built) : Prop where
  mk' ::
  walls : ∃ f b mf mb mesh, Clad m c f b ∧ substanceToMaterial f = some mf ∧ substanceToMaterial b = some mb ∧
    Mesh.ofPolygon p = .ok mesh ∧ y.1.materials = x.1.materials ++ [mf, mb] ∧
    y.1.triangles = x.1.triangles ++ mesh.triangles.map (·.triangle) ∧
    (∃ ns, y.1.normals = x.1.normals ++ ns ∧ ns.length = mesh.triangles.length) ∧
    y.1.frontMaterials = x.1.frontMaterials ++ List.replicate mesh.triangles.length x.1.materials.length ∧
    y.1.backMaterials = x.1.backMaterials ++ List.replicate mesh.triangles.length (x.1.materials.length + 1) ∧
    y.2 = x.2 ++ List.replicate mesh.triangles.length e

private theorem wall_spec {m : Model} {el : Element} {i : ℕ} {p : Polygon} {c : String} {x y : Built}
    (h : addWall [] m el i p c x = .ok y) : Added m (el, i) c p x y := by
  unfold addWall at h
  obtain ⟨con, h1, h⟩ := bind_ok.1 h
  have h1 := findNamed_ok.1 h1
  by_cases he : con.materials.isEmpty = true
  · rw [if_pos he] at h
    simp at h
  · rw [if_neg he] at h
    obtain ⟨fn, h2, h⟩ := bind_ok.1 h
    have h2' : con.materials.head? = some fn := by
      cases hc : con.materials with
      | nil => simp [hc] at he
      | cons a l =>
        rw [hc, Outcome.index_of_lt (by simp)] at h2
        simpa using h2
    obtain ⟨fs, h3, h⟩ := bind_ok.1 h
    obtain ⟨fm, h3a, h3b⟩ := substance_ok.1 h3
    rw [push_fresh] at h
    cases hmf : substanceToMaterial fs with
    | none => rw [hmf] at h; simp at h
    | some mf =>
      rw [hmf] at h
      simp only [Option.map_some] at h
      cases hl : con.materials.getLast? with
      | none => rw [hl] at h; simp at h
      | some ln =>
        rw [hl] at h
        simp only at h
        obtain ⟨bs, h4, h⟩ := bind_ok.1 h
        obtain ⟨bm, h4a, h4b⟩ := substance_ok.1 h4
        rw [push_fresh] at h
        cases hmb : substanceToMaterial bs with
        | none => rw [hmb] at h; simp at h
        | some mb =>
          rw [hmb] at h
          simp only [Option.map_some] at h
          obtain ⟨mesh, h5, h⟩ := bind_ok.1 h
          obtain ⟨q1, q2, q3, q4, q5, q6⟩ := triangles_spec h
          simp only [Stage.pushMaterial, List.length_append, List.length_map, List.length_singleton, List.append_assoc,
            List.singleton_append, Nat.add_sub_cancel] at q1 q2 q3 q4 q5 q6
          exact ⟨fs, bs, mf, mb, mesh, ⟨con, fn, ln, fm, bm, h1, h2', hl, h3a, h4a, h3b, h4b⟩, hmf, hmb, h5, q1, q2, q3, q4,
            by simpa using q5, q6⟩

private theorem ite_some {α : Type} {p : Prop} [Decidable p] (a b : α) : ∃ x, (if p then some a else some b) = some x := by
  split <;> exact ⟨_, rfl⟩

private theorem solid_iff {f : Substance} : (∃ mf, substanceToMaterial f = some mf) ↔ Solid f := by
  cases f with
  | gas n => simp [substanceToMaterial, Solid]
  | normal s =>
    simp only [Solid, iff_true, substanceToMaterial]
    exact ite_some _ _

private theorem wall_ok {m : Model} {el : Element} {i : ℕ} {p : Polygon} {c : String} {x : Built}
    (h : Buildable m c p) : ∃ y, addWall [] m el i p c x = .ok y := by
  obtain ⟨⟨f, b, ⟨con, fn, ln, fm, bm, h1, h2, h3, h4, h5, h6, h7⟩, hf, hb⟩, mesh, hm⟩ := h
  obtain ⟨mf, hmf⟩ := solid_iff.2 hf
  obtain ⟨mb, hmb⟩ := solid_iff.2 hb
  unfold addWall
  rw [show m.getConstruction c = .ok con from findNamed_ok.2 h1]
  simp only [Outcome.bind]
  cases hc : con.materials with
  | nil => rw [hc] at h2; simp at h2
  | cons a l =>
    rw [hc] at h2 h3
    simp only [List.head?_cons, Option.some.injEq] at h2
    subst h2
    simp only [List.isEmpty_cons, Bool.false_eq_true, if_false]
    rw [Outcome.index_of_lt (by simp)]
    simp only [List.getElem_cons_zero]
    rw [substance_ok.2 ⟨fm, h4, h6⟩]
    simp only
    rw [push_fresh, hmf]
    simp only [Option.map_some]
    rw [h3]
    simp only
    rw [substance_ok.2 ⟨bm, h5, h7⟩]
    simp only
    rw [push_fresh, hmb]
    simp only [Option.map_some]
    rw [hm]
    simp only
    exact triangles_ok (by simp [Stage.pushMaterial]) (by simp [Stage.pushMaterial]) (panes_large hm)

private theorem wall_ok_iff {m : Model} {el : Element} {i : ℕ} {p : Polygon} {c : String} {x : Built} :
    (∃ y, addWall [] m el i p c x = .ok y) ↔ Buildable m c p := by
  refine ⟨?_, wall_ok⟩
  rintro ⟨y, h⟩
  obtain ⟨f, b, mf, mb, mesh, h1, h2, h3, h4, -⟩ := (wall_spec h).walls
  exact ⟨⟨f, b, h1, solid_iff.1 ⟨_, h2⟩, solid_iff.1 ⟨_, h3⟩⟩, mesh, h4⟩

/-! ### The whole building -/

/-- What holds of a scene while it is built. -/
private structure Good (m : Model) (x : Built) : Prop where
  step : InStep x.1
  len : x.2.length = x.1.triangles.length
  mats : ∀ r ∈ (x.1.frontMaterials.zip x.1.backMaterials).zip x.2, ∃ c f b, constructionOf m r.2 = some c ∧ Clad m c f b ∧
    ∃ mf mb, substanceToMaterial f = some mf ∧ substanceToMaterial b = some mb ∧
      x.1.materials[r.1.1]? = some mf ∧ x.1.materials[r.1.2]? = some mb

private theorem zip_replicate {α β : Type} (l : List α) (b : β) : l.zip (List.replicate l.length b) = l.map fun a => (a, b) := by
  induction l with
  | nil => rfl
  | cons a l ih => simp [List.replicate_succ, ih]

private theorem good_wall {m : Model} {e : Element × ℕ} {c : String} {p : Polygon} {x y : Built}
    (h : Added m e c p x y) (he : constructionOf m e = some c) (hx : Good m x) :
    Good m y ∧ y.1.triangles.zip y.2 = x.1.triangles.zip x.2 ++ (panes p).map (fun t => (t, e)) ∧
      y.1.materials.length = x.1.materials.length + 2 := by
  obtain ⟨f, b, mf, mb, mesh, h1, h2, h3, h4, h5, h6, ⟨ns, h7, h7'⟩, h8, h9, h10⟩ := h.walls
  obtain ⟨⟨g1, g2, g3⟩, g4, g5⟩ := hx
  have hp : panes p = mesh.triangles.map (·.triangle) := by unfold panes; rw [h4]
  refine ⟨⟨⟨?_, ?_, ?_⟩, ?_, ?_⟩, ?_, ?_⟩
  · rw [h7, h6]; simp [g1, h7']
  · rw [h8, h6]; simp [g2]
  · rw [h9, h6]; simp [g3]
  · rw [h10, h6]; simp [g4]
  · rw [h8, h9, h10, List.zip_append (by rw [g2, g3]), List.zip_append (by simp [g2, g3, g4])]
    intro r hr
    rcases List.mem_append.1 hr with hr | hr
    · obtain ⟨c', f', b', q1, q2, mf', mb', q3, q4, q5, q6⟩ := g5 r hr
      refine ⟨c', f', b', q1, q2, mf', mb', q3, q4, ?_, ?_⟩
      · rw [h5, List.getElem?_append_left (List.getElem?_eq_some_iff.1 q5).1]; exact q5
      · rw [h5, List.getElem?_append_left (List.getElem?_eq_some_iff.1 q6).1]; exact q6
    · have ha := List.of_mem_zip hr
      have hb := List.of_mem_zip ha.1
      have e1 := List.eq_of_mem_replicate hb.1
      have e2 := List.eq_of_mem_replicate hb.2
      have e3 := List.eq_of_mem_replicate ha.2
      refine ⟨c, f, b, by rw [e3]; exact he, h1, mf, mb, h2, h3, ?_, ?_⟩
      · rw [h5, e1, List.getElem?_append_right le_rfl]; simp
      · rw [h5, e2, List.getElem?_append_right (by omega)]; simp
  · rw [h6, h10, List.zip_append (by rw [g4]), hp]
    congr 1
    rw [← zip_replicate, List.length_map]
  · rw [h5]; simp

private theorem surfaces_spec {m : Model} : ∀ {l : List Surface} {i : ℕ} {x y : Built},
    (∀ (k : ℕ) (s : Surface), l[k]? = some s → m.surfaces[i + k]? = some s) →
    addSurfaces [] m i l x = .ok y → Good m x →
    Good m y ∧ y.1.triangles.zip y.2 = x.1.triangles.zip x.2 ++ (l.zipIdx i).flatMap ofSurface ∧
      y.1.materials.length = x.1.materials.length + 2 * l.countP (fun s => ¬ s.vertices.area < 1 / 100000)
  | [], i, x, y, _, h, hx => by
    simp only [addSurfaces, Outcome.ok.injEq] at h
    subst h
    exact ⟨hx, by simp, by simp⟩
  | s :: l, i, x, y, hl, h, hx => by
    have hl' : ∀ (k : ℕ) (s : Surface), l[k]? = some s → m.surfaces[i + 1 + k]? = some s := by
      intro k s' hs'
      rw [show i + 1 + k = i + (k + 1) by omega]
      exact hl (k + 1) s' (by simpa using hs')
    unfold addSurfaces at h
    by_cases ha : s.vertices.area < 1 / 100000
    · rw [if_pos ha] at h
      obtain ⟨g1, g2, g3⟩ := surfaces_spec hl' h hx
      refine ⟨g1, ?_, ?_⟩
      · rw [g2, List.zipIdx_cons, List.flatMap_cons, show ofSurface (s, i) = [] from if_pos ha, List.nil_append]
      · rw [g3, List.countP_cons_of_neg (by simpa using ha)]
    · rw [if_neg ha] at h
      obtain ⟨z, hz, h⟩ := bind_ok.1 h
      obtain ⟨w1, w2, w3⟩ := good_wall (wall_spec hz)
        (by simp only [constructionOf]; rw [show m.surfaces[i]? = some s from hl 0 s rfl]; rfl) hx
      obtain ⟨g1, g2, g3⟩ := surfaces_spec hl' h w1
      refine ⟨g1, ?_, ?_⟩
      · rw [g2, w2, List.zipIdx_cons, List.flatMap_cons, List.append_assoc]
        congr 2
        rw [ofSurface, if_neg ha]
      · rw [g3, w3, List.countP_cons_of_pos (by simpa using ha)]
        omega

private theorem fenestrations_spec {m : Model} : ∀ {l : List Fenestration} {i : ℕ} {x y : Built},
    (∀ (k : ℕ) (s : Fenestration), l[k]? = some s → m.fenestrations[i + k]? = some s) →
    addFenestrations [] m i l x = .ok y → Good m x →
    Good m y ∧ y.1.triangles.zip y.2 = x.1.triangles.zip x.2 ++ (l.zipIdx i).flatMap ofFenestration ∧
      y.1.materials.length = x.1.materials.length + 2 * l.countP (fun s => ¬ s.category = .opening)
  | [], i, x, y, _, h, hx => by
    simp only [addFenestrations, Outcome.ok.injEq] at h
    subst h
    exact ⟨hx, by simp, by simp⟩
  | s :: l, i, x, y, hl, h, hx => by
    have hl' : ∀ (k : ℕ) (s : Fenestration), l[k]? = some s → m.fenestrations[i + 1 + k]? = some s := by
      intro k s' hs'
      rw [show i + 1 + k = i + (k + 1) by omega]
      exact hl (k + 1) s' (by simpa using hs')
    unfold addFenestrations at h
    by_cases ha : s.category = .opening
    · rw [if_pos ha] at h
      obtain ⟨g1, g2, g3⟩ := fenestrations_spec hl' h hx
      refine ⟨g1, ?_, ?_⟩
      · rw [g2, List.zipIdx_cons, List.flatMap_cons, show ofFenestration (s, i) = [] from if_pos ha, List.nil_append]
      · rw [g3, List.countP_cons_of_neg (by simpa using ha)]
    · rw [if_neg ha] at h
      obtain ⟨z, hz, h⟩ := bind_ok.1 h
      obtain ⟨w1, w2, w3⟩ := good_wall (wall_spec hz)
        (by simp only [constructionOf]; rw [show m.fenestrations[i]? = some s from hl 0 s rfl]; rfl) hx
      obtain ⟨g1, g2, g3⟩ := fenestrations_spec hl' h w1
      refine ⟨g1, ?_, ?_⟩
      · rw [g2, w2, List.zipIdx_cons, List.flatMap_cons, List.append_assoc]
        congr 2
        rw [ofFenestration, if_neg ha]
      · rw [g3, w3, List.countP_cons_of_pos (by simpa using ha)]
        omega

private theorem build_spec {m : Model} {s : Stage} {map : List (Element × ℕ)}
    (h : buildScene [] m .solar = .ok (s, map)) :
    Good m (s, map) ∧
      s.triangles.zip map = (m.surfaces.zipIdx).flatMap ofSurface ++ (m.fenestrations.zipIdx).flatMap ofFenestration ∧
      s.materials.length = 2 * (m.surfaces.countP (fun s => ¬ s.vertices.area < 1 / 100000) +
        m.fenestrations.countP fun s => ¬ s.category = .opening) := by
  unfold buildScene at h
  obtain ⟨x, hx, h⟩ := bind_ok.1 h
  obtain ⟨g1, g2, g3⟩ := surfaces_spec (by simp) hx ⟨⟨rfl, rfl, rfl⟩, rfl, by simp [Stage.new]⟩
  obtain ⟨k1, k2, k3⟩ := fenestrations_spec (by simp) h g1
  refine ⟨k1, ?_, ?_⟩
  · simp only at k2
    rw [k2, g2]
    simp [Stage.new]
  · simp only at k3
    rw [k3, g3]
    simp only [Stage.new, List.length_nil]
    omega

/-- C83: the triangles of the scene of a building are those of its surfaces and of its fenestrations, in that order, but
for the surfaces of less than 0.1 cm² and the openings, and the list that comes with the scene tells for each triangle
which surface or which fenestration it is from.  Its face at the front has the material of the first layer of the
construction, and that at the back has the material of the last layer. -/
theorem C83_scene (m : Model) (s : Stage) (map : List (Element × ℕ)) (h : buildScene [] m .solar = .ok (s, map)) :
    InStep s ∧ map.length = s.triangles.length ∧
    s.triangles.zip map = (m.surfaces.zipIdx).flatMap ofSurface ++ (m.fenestrations.zipIdx).flatMap ofFenestration ∧
    ∀ (k : ℕ) (e : Element × ℕ) (front back : ℕ), map[k]? = some e → s.frontMaterials[k]? = some front →
      s.backMaterials[k]? = some back → ∃ c f b, constructionOf m e = some c ∧ Clad m c f b ∧
        ∃ mf mb, substanceToMaterial f = some mf ∧ substanceToMaterial b = some mb ∧
          s.materials[front]? = some mf ∧ s.materials[back]? = some mb := by
  obtain ⟨⟨g1, g2, g3⟩, h2, -⟩ := build_spec h
  refine ⟨g1, g2, h2, ?_⟩
  intro k e front back h3 h4 h5
  refine g3 ((front, back), e) ?_
  refine List.mem_of_getElem? (i := k) ?_
  simp only [List.zip, List.getElem?_zipWith, h3, h4, h5]

/-- C83: the scene is built when, and only when, all that is not left out has a construction in the building, with solid
layers on both sides, and a polygon that can be triangulated.  No triangle of it is refused. -/
theorem C83_built (m : Model) : (∃ b, buildScene [] m .solar = .ok b) ↔
    (∀ s ∈ m.surfaces, 1 / 100000 ≤ s.vertices.area → Buildable m s.construction s.vertices) ∧
    ∀ s ∈ m.fenestrations, s.category ≠ .opening → Buildable m s.construction s.vertices := by
  have hs : ∀ (l : List Surface) (i : ℕ) (x : Built), (∃ y, addSurfaces [] m i l x = .ok y) ↔
      ∀ s ∈ l, 1 / 100000 ≤ s.vertices.area → Buildable m s.construction s.vertices := by
    intro l
    induction l with
    | nil => intro i x; simp [addSurfaces]
    | cons s l ih =>
      intro i x
      unfold addSurfaces
      rw [List.forall_mem_cons]
      by_cases ha : s.vertices.area < 1 / 100000
      · rw [if_pos ha, ih]
        exact ⟨fun h => ⟨fun h' => absurd h' (not_le.2 ha), h⟩, fun h => h.2⟩
      · rw [if_neg ha]
        constructor
        · rintro ⟨y, h⟩
          obtain ⟨z, hz, h⟩ := bind_ok.1 h
          exact ⟨fun _ => wall_ok_iff.1 ⟨z, hz⟩, (ih _ _).1 ⟨y, h⟩⟩
        · rintro ⟨h1, h2⟩
          obtain ⟨z, hz⟩ := wall_ok_iff.2 (h1 (not_lt.1 ha))
          obtain ⟨y, hy⟩ := (ih (i + 1) z).2 h2
          exact ⟨y, bind_ok.2 ⟨z, hz, hy⟩⟩
  have hf : ∀ (l : List Fenestration) (i : ℕ) (x : Built), (∃ y, addFenestrations [] m i l x = .ok y) ↔
      ∀ s ∈ l, s.category ≠ .opening → Buildable m s.construction s.vertices := by
    intro l
    induction l with
    | nil => intro i x; simp [addFenestrations]
    | cons s l ih =>
      intro i x
      unfold addFenestrations
      rw [List.forall_mem_cons]
      by_cases ha : s.category = .opening
      · rw [if_pos ha, ih]
        exact ⟨fun h => ⟨fun h' => absurd ha h', h⟩, fun h => h.2⟩
      · rw [if_neg ha]
        constructor
        · rintro ⟨y, h⟩
          obtain ⟨z, hz, h⟩ := bind_ok.1 h
          exact ⟨fun _ => wall_ok_iff.1 ⟨z, hz⟩, (ih _ _).1 ⟨y, h⟩⟩
        · rintro ⟨h1, h2⟩
          obtain ⟨z, hz⟩ := wall_ok_iff.2 (h1 ha)
          obtain ⟨y, hy⟩ := (ih (i + 1) z).2 h2
          exact ⟨y, bind_ok.2 ⟨z, hz, hy⟩⟩
  unfold buildScene
  constructor
  · rintro ⟨y, h⟩
    obtain ⟨z, hz, h⟩ := bind_ok.1 h
    exact ⟨(hs _ _ _).1 ⟨z, hz⟩, (hf _ _ _).1 ⟨y, h⟩⟩
  · rintro ⟨h1, h2⟩
    obtain ⟨z, hz⟩ := (hs m.surfaces 0 (Stage.new, [])).2 h1
    obtain ⟨y, hy⟩ := (hf m.fenestrations 0 z).2 h2
    exact ⟨y, bind_ok.2 ⟨z, hz, hy⟩⟩

/-! ### The materials -/

/-- The light that goes through the glass of a substance with the transmittance `tau`, and the light it reflects, in the
direction of the normal. -/
private theorem glass_at {t : ℝ} (ht : 1 / 1000 ≤ t) (i : Fin 3) :
    glassTrans (gray t) (152 / 100) ⟨0, 0, 1⟩ i = t * (1 - 169 / 3969) ^ 2 / (1 - (t * (169 / 3969)) ^ 2) ∧
    glassRefl (gray t) (152 / 100) ⟨0, 0, 1⟩ i =
      169 / 3969 * (1 + (1 - 2 * (169 / 3969)) * t ^ 2) / (1 - (169 / 3969) ^ 2 * t ^ 2) := by
  have ha : anyTransmission (gray t) = (true, gray t) := by
    have hmax : ¬ (gray t).max < 1 / 10 ^ 15 := by
      unfold Spectrum.max gray
      norm_num
      linarith
    unfold anyTransmission
    rw [if_neg hmax]
    congr 1
    funext j
    rw [if_neg]
    unfold gray
    norm_num
    linarith
  have hc : transmittedCos (152 / 100) ⟨0, 0, 1⟩ = 1 := by
    unfold transmittedCos
    rw [show (1 - 1 / (152 / 100 : ℝ) ^ 2 + (|(1 : ℝ)| / (152 / 100)) ^ 2) = 1 by rw [abs_one]; ring, Real.sqrt_one]
  unfold glassTrans glassRefl
  simp only [ha, hc, abs_one, if_true, div_one, gray, Real.rpow_one, mul_one]
  constructor
  · norm_num
    ring
  · norm_num
    ring

private theorem transmissivity_root {T : ℝ} (h0 : 0 < T) :
    (36261119 / 10 ^ 10 * T * transmittanceToTransmissivity T + 9166530661 / 10 ^ 10) ^ 2 =
      8402528435 / 10 ^ 10 + 72522239 / 10 ^ 10 * T ^ 2 := by
  unfold transmittanceToTransmissivity
  have hn : (0 : ℝ) ≤ 8402528435 / 10 ^ 10 + 72522239 / 10 ^ 10 * T ^ 2 := by positivity
  generalize he : (8402528435 / 10 ^ 10 + 72522239 / 10 ^ 10 * T ^ 2 : ℝ) = e at hn
  have : 36261119 / 10 ^ 10 * T * ((√e - 9166530661 / 10 ^ 10) / (36261119 / 10 ^ 10) / T) + 9166530661 / 10 ^ 10 = √e := by
    field_simp
    ring
  rw [this, Real.sq_sqrt hn]

private theorem transmissivity_range {T : ℝ} (h0 : 1 / 100 ≤ T) (h1 : T ≤ 1) :
    1 / 1000 ≤ transmittanceToTransmissivity T ∧ transmittanceToTransmissivity T ≤ 11 / 10 := by
  have hT : 0 < T := by linarith
  unfold transmittanceToTransmissivity
  rw [div_div, le_div_iff₀ (by positivity), div_le_iff₀ (by positivity), le_sub_iff_add_le, sub_le_iff_le_add]
  constructor
  · apply Real.le_sqrt_of_sq_le
    nlinarith
  · apply Real.sqrt_le_iff.2
    constructor
    · positivity
    · nlinarith

/-- C83: a substance that lets light through becomes a glass, and the share of the light that goes through that glass at
normal incidence is the transmittance of the substance, to five decimals.

Missing: faint and clear glass (`C83_violated_faint`, `C83_violated_clear`). -/
theorem C83_glass_partial (s : Normal) (T : ℝ) (hs : s.solarTransmittance = some T) (h0 : 1 / 100 ≤ T) (h1 : T ≤ 1) :
    ∃ t, substanceToMaterial (.normal s) = some (.glass (gray t) (152 / 100)) ∧
      ∀ i, |glassTrans (gray t) (152 / 100) ⟨0, 0, 1⟩ i - T| ≤ 1 / 10 ^ 5 := by
  obtain ⟨r0, r1⟩ := transmissivity_range h0 h1
  have hr := transmissivity_root (T := T) (by linarith)
  refine ⟨transmittanceToTransmissivity T, ?_, ?_⟩
  · simp only [substanceToMaterial, hs]
    rw [if_pos (by linarith)]
  · intro i
    rw [(glass_at r0 i).1]
    generalize transmittanceToTransmissivity T = t at r0 r1 hr
    have hd : 99 / 100 ≤ 1 - (t * (169 / 3969)) ^ 2 := by nlinarith
    have hd0 : 0 < 1 - (t * (169 / 3969)) ^ 2 := by linarith
    have key : |t * (1 - 169 / 3969) ^ 2 - T * (1 - (t * (169 / 3969)) ^ 2)| ≤ 99 / 100 * (1 / 10 ^ 5) := by
      have hr2 : t * (9166530661 / 10 ^ 10) - (72522239 / (2 * 36261119)) * T + 36261119 / 10 ^ 10 / 2 * T * t ^ 2 =
          (8402528435 / 10 ^ 10 - (9166530661 / 10 ^ 10) ^ 2) / (2 * (36261119 / 10 ^ 10) * T) := by
        rw [eq_div_iff (by positivity)]
        linarith
      have hb : -(13 / 10 ^ 7) ≤ (8402528435 / 10 ^ 10 - (9166530661 / 10 ^ 10) ^ 2) / (2 * (36261119 / 10 ^ 10) * T) ∧
          (8402528435 / 10 ^ 10 - (9166530661 / 10 ^ 10) ^ 2) / (2 * (36261119 / 10 ^ 10) * T) ≤ 0 := by
        constructor
        · rw [le_div_iff₀ (by positivity)]
          nlinarith
        · apply div_nonpos_of_nonpos_of_nonneg
          · norm_num
          · positivity
      rw [← hr2] at hb
      have ht2 : T * t ^ 2 ≤ 2 := by nlinarith
      have ht2' : 0 ≤ T * t ^ 2 := by positivity
      rw [abs_le]
      constructor <;> nlinarith
    rw [div_sub' hd0.ne', abs_div, abs_of_pos hd0, div_le_iff₀ hd0]
    calc _ = |t * (1 - 169 / 3969) ^ 2 - T * (1 - (t * (169 / 3969)) ^ 2)| := by congr 1; ring
      _ ≤ 99 / 100 * (1 / 10 ^ 5) := key
      _ ≤ 1 / 10 ^ 5 * (1 - (t * (169 / 3969)) ^ 2) := by nlinarith

/-- C83: a substance that has no transmittance becomes an opaque surface without gloss that reflects what the substance
does not absorb, or 30% when that is not known. -/
theorem C83_opaque (s : Normal) (hs : s.solarTransmittance = none) :
    substanceToMaterial (.normal s) = some (.plastic (gray (1 - s.frontSolarAbsorbtance.getD (7 / 10))) 0 0) := by
  simp only [substanceToMaterial, hs]
  rw [if_neg (lt_irrefl _)]
  cases s.frontSolarAbsorbtance <;> rfl

/-- C83: a gas has no material. -/
theorem C83_gas (n : String) : substanceToMaterial (.gas n) = none := rfl

/-- C83, violated: a substance that lets some light through, but a hundredth of a percent of it or less, becomes opaque. -/
theorem C83_violated_faint (s : Normal) (T : ℝ) (hs : s.solarTransmittance = some T) (h0 : 0 < T) (h1 : T ≤ 1 / 10000) :
    ∃ rho, substanceToMaterial (.normal s) = some (.plastic (gray rho) 0 0) := by
  have : ¬ transmittanceToTransmissivity T > 0 := by
    rw [gt_iff_lt, not_lt]
    unfold transmittanceToTransmissivity
    rw [div_div]
    apply div_nonpos_of_nonpos_of_nonneg
    · rw [sub_nonpos]
      apply Real.sqrt_le_iff.2
      constructor
      · norm_num
      · nlinarith
    · positivity
  simp only [substanceToMaterial, hs]
  rw [if_neg this]
  exact ⟨_, rfl⟩

/-- C83, violated: a substance with a transmittance of 0.92 or more, which is allowed, becomes a glass that gives out
more light than it gets. -/
theorem C83_violated_clear (s : Normal) (T : ℝ) (hs : s.solarTransmittance = some T) (h0 : 92 / 100 ≤ T) (h1 : T ≤ 1) :
    ∃ t, substanceToMaterial (.normal s) = some (.glass (gray t) (152 / 100)) ∧
      ∀ i, 1 < glassRefl (gray t) (152 / 100) ⟨0, 0, 1⟩ i + glassTrans (gray t) (152 / 100) ⟨0, 0, 1⟩ i := by
  have hT : 0 < T := by linarith
  have h2 : 1 < transmittanceToTransmissivity T := by
    unfold transmittanceToTransmissivity
    rw [div_div, lt_div_iff₀ (by positivity), lt_sub_iff_add_lt]
    apply Real.lt_sqrt_of_sq_lt
    nlinarith
  obtain ⟨r0, r1⟩ := transmissivity_range (by linarith) h1
  refine ⟨transmittanceToTransmissivity T, ?_, ?_⟩
  · simp only [substanceToMaterial, hs]
    rw [if_pos (by linarith)]
  · intro i
    rw [(glass_at r0 i).1, (glass_at r0 i).2]
    generalize transmittanceToTransmissivity T = t at r0 r1 h2
    have hd0 : 0 < 1 - (169 / 3969) ^ 2 * t ^ 2 := by nlinarith
    rw [show 1 - (t * (169 / 3969)) ^ 2 = 1 - (169 / 3969) ^ 2 * t ^ 2 by ring, ← add_div, lt_div_iff₀ hd0]
    nlinarith

/-- C83, violated: the absorptance of the back of a substance, which is a field of it, changes nothing. -/
theorem C83_violated_back (s : Normal) (a : Option ℝ) :
    substanceToMaterial (.normal { s with backSolarAbsorbtance := a }) = substanceToMaterial (.normal s) := rfl

/-- C83, violated: a substance that is already in the scene is added to it again, with another number, and the scene of a
building has two materials for each surface and each fenestration in it, however few substances they are made of. -/
theorem C83_violated_again :
    (∀ (scene scene' : Stage) (i : ℕ) (s : Substance), pushSubstance [] scene s = some (i, scene') →
      ∃ scene'', pushSubstance [] scene' s = some (i + 1, scene'') ∧
        scene''.materials.length = scene.materials.length + 2) ∧
    ∀ (m : Model) (s : Stage) (map : List (Element × ℕ)), buildScene [] m .solar = .ok (s, map) →
      s.materials.length = 2 * (m.surfaces.countP (fun s => ¬ s.vertices.area < 1 / 100000) +
        m.fenestrations.countP fun s => ¬ s.category = .opening) := by
  constructor
  · intro scene scene' i s h
    rw [push_fresh] at h ⊢
    cases hm : substanceToMaterial s with
    | none => rw [hm] at h; simp at h
    | some mat =>
      rw [hm] at h
      simp only [Option.map_some, Option.some.injEq, Prod.mk.injEq, Stage.pushMaterial] at h ⊢
      obtain ⟨rfl, rfl⟩ := h
      exact ⟨_, ⟨by simp, rfl⟩, by simp⟩
  · intro m s map h
    exact (build_spec h).2.2

/-- C83, violated: a scene for visible light, which is one of the two that can be asked for, panics for any building. -/
theorem C83_violated_visible (m : Model) : fromSimpleModel m .visible = .panic := rfl

/-! ### A building -/

/-- A building with a wall of brick, that has a gap in it, and a window of glass in another one; the hypotheses of
`C83_built` and of `C83_scene` are met, and the scene has the six triangles of the two. -/
example : ∃ (m : Model) (s : Stage) (map : List (Element × ℕ)), buildScene [] m .solar = .ok (s, map) ∧
    s.triangles.length = 6 ∧ m.surfaces.length = 1 ∧ m.fenestrations.length = 2 := by
  obtain ⟨poly, mesh, l, l', h1, h2, h3, -, h4, -, -, -, harea⟩ := Mesh.pentagon
  let m : Model := ⟨[.normal ⟨"brick", some (1 / 2), none, none⟩, .gas "air", .normal ⟨"glass", none, none, some (8 / 10)⟩],
    [⟨"bricks", "brick"⟩, ⟨"gap", "air"⟩, ⟨"pane", "glass"⟩],
    [⟨"wall", ["bricks", "gap", "bricks"]⟩, ⟨"window", ["pane"]⟩, ⟨"nothing", ["gap"]⟩],
    [⟨poly, "wall"⟩], [⟨poly, "nothing", .opening⟩, ⟨poly, "window", .window⟩]⟩
  have hb : ∃ b, buildScene [] m .solar = .ok b := by
    rw [C83_built]
    constructor
    · intro s hs _
      simp only [m, List.mem_singleton] at hs
      subst hs
      exact ⟨⟨.normal ⟨"brick", some (1 / 2), none, none⟩, .normal ⟨"brick", some (1 / 2), none, none⟩,
        ⟨⟨"wall", ["bricks", "gap", "bricks"]⟩, "bricks", "bricks", ⟨"bricks", "brick"⟩, ⟨"bricks", "brick"⟩, rfl, rfl, rfl, rfl,
          rfl, rfl, rfl⟩, trivial, trivial⟩, mesh, h1⟩
    · intro s hs hne
      simp only [m, List.mem_cons, List.not_mem_nil, or_false] at hs
      rcases hs with rfl | rfl
      · exact absurd rfl hne
      · exact ⟨⟨.normal ⟨"glass", none, none, some (8 / 10)⟩, .normal ⟨"glass", none, none, some (8 / 10)⟩,
          ⟨⟨"window", ["pane"]⟩, "pane", "pane", ⟨"pane", "glass"⟩, ⟨"pane", "glass"⟩, rfl, rfl, rfl, rfl,
            rfl, rfl, rfl⟩, trivial, trivial⟩, mesh, h1⟩
  obtain ⟨⟨s, map⟩, hb⟩ := hb
  refine ⟨m, s, map, hb, ?_, rfl, rfl⟩
  obtain ⟨-, e1, e2, -⟩ := C83_scene m s map hb
  have e3 := congrArg List.length e2
  have hlen : mesh.triangles.length = 3 := by
    obtain ⟨k, k', q1, q2, q3, -⟩ := Mesh.C50_triangulation poly mesh h1
    rw [h2, Outcome.ok.injEq] at q1
    subst q1
    rw [h3] at q2
    simp only [Prod.mk.injEq, true_and] at q2
    subst q2
    rw [h4] at q3
    simpa [Mesh.Spec.triangles] using q3
  rw [List.length_zip, e1, min_self] at e3
  rw [e3]
  have hna : ¬ poly.area < 1 / 100000 := by rw [harea]; norm_num
  simp only [m, List.zipIdx_cons, List.zipIdx_nil, List.flatMap_cons, List.flatMap_nil, List.append_nil, ofSurface,
    ofFenestration, if_neg hna, if_true, List.nil_append, List.length_append, reduceCtorEq, if_false, List.length_map, panes,
    h1, hlen]

end Simple.Render.FromModel
