import Verif.Render.BvhTraceProps
import Verif.Render.LifeModel

/-! # C112: the life of a scene -/

namespace Simple.Render.Life

open Geometry Bvh Bvh.Spec

namespace Spec

/-- A triangle with what belongs to it. -/
structure Item where
  triangle : Triangle ℚ
  normals : V3 ℚ × V3 ℚ × V3 ℚ
  front : ℕ
  back : ℕ

/-- What was added to the scene. -/
def pushed : List Op → List Item
  | [] => []
  | .push p :: ops => p.mesh.map (fun m => ⟨m.1, m.2, p.front, p.back⟩) ++ pushed ops
  | _ :: ops => pushed ops

/-- The scene has these triangles, in this order, and each of them has its own normals and materials. -/
structure Table (s : Scene) (items : List Item) : Prop where
  triangles : s.triangles = items.map (·.triangle)
  normals : s.normals = items.map (·.normals)
  front : s.frontMaterials = items.map (·.front)
  back : s.backMaterials = items.map (·.back)

/-- The acceleration structure is built twice without being asked to build it again. -/
def Twice (ops : List Op) : Prop := ∃ a b, ops = a ++ Op.build :: b ∧ (Op.build ∈ a ∨ Op.rebuild ∈ a)

/-- The ray hits this triangle at `p`, neither too near nor too far. -/
def Hits (ray : Ray ℚ) (t : Triangle ℚ) (p : V3 ℚ) : Prop :=
  ∃ u v, Triangle.baricentric ray t = some (p, u, v) ∧ 1 / 10 ^ 7 < dist2 ray p ∧ dist2 ray p < floatMax

end Spec

open Spec

/-! ### Tables -/

private theorem gather_length {α : Type} (l : List α) : ∀ (is : List ℕ) (r : List α), gather l is = .ok r → r.length = is.length
  | [], r, h => by
    rw [gather] at h
    rw [← Outcome.ok.inj h]
    rfl
  | i :: is, r, h => by
    rw [gather] at h
    cases ha : Outcome.index l i with
    | ok a =>
      rw [ha] at h
      cases hb : gather l is with
      | ok as =>
        rw [hb] at h
        have : a :: as = r := Outcome.ok.inj h
        rw [← this, List.length_cons, List.length_cons, gather_length l is as hb]
      | err => rw [hb] at h; cases h
      | panic => rw [hb] at h; cases h
    | err => rw [ha] at h; cases h
    | panic => rw [ha] at h; cases h

private theorem bind_ok {α β : Type} {x : Outcome α} {f : α → Outcome β} {b : β} (h : x.bind f = .ok b) : ∃ a, x = .ok a ∧ f a = .ok b := by
  cases x with
  | ok a => exact ⟨a, rfl, h⟩
  | err => cases h
  | panic => cases h

private theorem new_lengths {lib : Sorting} {scene scene' : Scene} {nodes : List FlatNode} {order : List ℕ} (hne : scene.triangles.length ≠ 0)
    (h : Bvh.new lib scene = .ok (nodes, order, scene')) : scene'.triangles.length = order.length ∧ scene'.normals.length = order.length ∧
      scene'.frontMaterials.length = order.length ∧ scene'.backMaterials.length = order.length := by
  unfold Bvh.new at h
  rw [if_neg hne] at h
  obtain ⟨root, -, h⟩ := bind_ok h
  obtain ⟨a, h1, h⟩ := bind_ok h
  obtain ⟨b, h2, h⟩ := bind_ok h
  obtain ⟨c, h3, h⟩ := bind_ok h
  obtain ⟨d, h4, h⟩ := bind_ok h
  have := Outcome.ok.inj h
  simp only [Prod.mk.injEq] at this
  obtain ⟨-, e2, e3⟩ := this
  rw [← e2, ← e3]
  exact ⟨gather_length _ _ _ h1, gather_length _ _ _ h2, gather_length _ _ _ h3, gather_length _ _ _ h4⟩

private theorem by_index {α β : Type} (f : α → β) (items : List α) (old new : List β) (order : List ℕ) (hold : old = items.map f)
    (hlen : new.length = order.length) (hlt : ∀ i ∈ order, i < items.length)
    (h : ∀ k i : ℕ, order[k]? = some i → new[k]? = old[i]?) (items' : List α) (hitems' : order.filterMap (items[·]?) = items') :
    new = items'.map f := by
  subst hold hitems'
  have e : ∀ (order : List ℕ) (new : List β), (∀ i ∈ order, i < items.length) → new.length = order.length →
      (∀ k i : ℕ, order[k]? = some i → new[k]? = (items.map f)[i]?) → new = (order.filterMap (items[·]?)).map f := by
    intro order
    induction order with
    | nil =>
      intro new _ hl _
      rw [List.length_eq_zero_iff.1 hl]
      rfl
    | cons i order ih =>
      intro new hlt hl h
      cases new with
      | nil => simp at hl
      | cons b new =>
        have hi := hlt i List.mem_cons_self
        have hb := h 0 i rfl
        rw [List.getElem?_cons_zero, List.getElem?_map, List.getElem?_eq_getElem hi] at hb
        rw [List.filterMap_cons, List.getElem?_eq_getElem hi]
        dsimp only
        rw [List.map_cons, ← ih new (fun j hj => hlt j (List.mem_cons_of_mem _ hj)) (by simpa using hl) (fun k j hk => h (k + 1) j hk)]
        congr 1
        exact Option.some.inj hb
  exact e order new hlt hlen h

private theorem range_filterMap {α : Type} (items : List α) : (List.range items.length).filterMap (items[·]?) = items := by
  induction items using List.reverseRecOn with
  | nil => rfl
  | append_singleton l a ih =>
    rw [List.length_append, List.length_singleton, List.range_succ, List.filterMap_append]
    congr 1
    · refine Eq.trans ?_ ih
      apply List.filterMap_congr
      intro i hi
      rw [List.getElem?_append_left (List.mem_range.1 hi)]
    · simp

private theorem new_table (lib : Sorting) (s : Scene) (items : List Item) (h : Table s items) :
    ∃ nodes order s' items', Bvh.new lib s = .ok (nodes, order, s') ∧ Table s' items' ∧ items'.Perm items := by
  have l1 : s.triangles.length = items.length := by rw [h.triangles, List.length_map]
  have l2 : s.normals.length = s.triangles.length := by rw [h.normals, List.length_map, l1]
  have l3 : s.frontMaterials.length = s.triangles.length := by rw [h.front, List.length_map, l1]
  have l4 : s.backMaterials.length = s.triangles.length := by rw [h.back, List.length_map, l1]
  by_cases h0 : s.triangles.length = 0
  · refine ⟨[], [], s, items, ?_, h, .refl _⟩
    unfold Bvh.new
    rw [if_pos h0]
  · obtain ⟨nodes, order, s', e, perm, -, keep⟩ := C52_build lib s l2 l3 l4
    obtain ⟨k1, k2, k3, k4⟩ := new_lengths h0 e
    have hlt : ∀ i ∈ order, i < items.length := by
      intro i hi
      rw [← l1]
      exact List.mem_range.1 (perm.mem_iff.1 hi)
    refine ⟨nodes, order, s', order.filterMap (items[·]?), e, ⟨?_, ?_, ?_, ?_⟩, ?_⟩
    · exact by_index _ items _ _ order h.triangles k1 hlt (fun k i hk => (keep k i hk).1) _ rfl
    · exact by_index _ items _ _ order h.normals k2 hlt (fun k i hk => (keep k i hk).2.1) _ rfl
    · exact by_index _ items _ _ order h.front k3 hlt (fun k i hk => (keep k i hk).2.2.1) _ rfl
    · exact by_index _ items _ _ order h.back k4 hlt (fun k i hk => (keep k i hk).2.2.2) _ rfl
    · have := (perm.filterMap (items[·]?))
      rw [l1, range_filterMap] at this
      exact this

private theorem push_table (s : Live) (items : List Item) (p : Piece) (h : Table s.scene items) :
    Table (s.push p).scene (items ++ p.mesh.map fun m => ⟨m.1, m.2, p.front, p.back⟩) := by
  refine ⟨?_, ?_, ?_, ?_⟩
  · simp only [Live.push, List.map_append, h.triangles, List.map_map]; rfl
  · simp only [Live.push, List.map_append, h.normals, List.map_map]; rfl
  · simp only [Live.push, List.map_append, h.front, List.map_map]
    congr 1
    rw [← List.map_const']
    rfl
  · simp only [Live.push, List.map_append, h.back, List.map_map]
    congr 1
    rw [← List.map_const']
    rfl

/-! ### Histories -/

private theorem run_append (lib : Sorting) (a b : List Op) : ∀ s : Live, s.run lib (a ++ b) = (s.run lib a).bind fun s => s.run lib b := by
  induction a with
  | nil => intro s; rfl
  | cons op a ih =>
    intro s
    rw [List.cons_append, Live.run, Live.run]
    cases s.step lib op with
    | ok s' => exact ih s'
    | err => rfl
    | panic => rfl

/-- What holds after each history. -/
private structure Inv (lib : Sorting) (s : Live) (items : List Item) : Prop where
  table : ∃ items', Table s.scene items' ∧ items'.Perm items
  tree : ∀ nodes, s.accelerator = some nodes → nodes = [] ∨ ∃ root n, nodes = flatten 0 root ∧ Tile (leaves root) 0 n ∧ n ≤ s.scene.triangles.length

private theorem rebuild_inv (lib : Sorting) (s : Live) (items : List Item) (h : Inv lib s items) :
    ∃ nodes order scene', Bvh.new lib s.scene = .ok (nodes, order, scene') ∧ Inv lib ⟨scene', some nodes⟩ items := by
  obtain ⟨items', ht, hp⟩ := h.table
  obtain ⟨nodes, order, scene', items'', e, ht', hp'⟩ := new_table lib s.scene items' ht
  refine ⟨nodes, order, scene', e, ⟨items'', ht', hp'.trans hp⟩, ?_⟩
  rintro nodes' hn
  obtain rfl : nodes = nodes' := Option.some.inj hn
  by_cases h0 : s.scene.triangles = []
  · left
    unfold Bvh.new at e
    rw [if_pos (by rw [h0]; rfl)] at e
    have := Outcome.ok.inj e
    simp only [Prod.mk.injEq] at this
    exact this.1.symm
  · right
    obtain ⟨root, e', tile, -⟩ := C52_tree lib s.scene scene' nodes order h0 e
    exact ⟨root, _, e', tile, le_refl _⟩

private theorem step_inv (lib : Sorting) (s : Live) (items : List Item) (h : Inv lib s items) (op : Op) :
    (∃ s', s.step lib op = .ok s' ∧ Inv lib s' (items ++ pushed [op]) ∧ s'.accelerator.isSome = (s.accelerator.isSome || decide (op matches .build | .rebuild))) ∧
      (op matches .build → s.accelerator.isSome = false) ∨
    s.step lib op = .panic ∧ (op matches .build) ∧ s.accelerator.isSome = true := by
  cases op with
  | push p =>
    left
    refine ⟨⟨s.push p, rfl, ⟨?_, ?_⟩, by simp [Live.push]⟩, by simp⟩
    · obtain ⟨items', ht, hp⟩ := h.table
      refine ⟨_, push_table s items' p ht, ?_⟩
      simp only [pushed, List.append_nil]
      exact hp.append (.refl _)
    · intro nodes hn
      rcases h.tree nodes hn with h | ⟨root, n, h1, h2, h3⟩
      · exact .inl h
      · refine .inr ⟨root, n, h1, h2, h3.trans ?_⟩
        simp only [Live.push, List.length_append]
        omega
  | build =>
    by_cases hs : s.accelerator.isSome = true
    · right
      refine ⟨?_, rfl, hs⟩
      simp only [Live.step, Live.build, hs, if_true]
      rfl
    · left
      obtain ⟨nodes, order, scene', e, hi⟩ := rebuild_inv lib s items h
      refine ⟨⟨⟨scene', some nodes⟩, ?_, ?_, by simp⟩, fun _ => by simpa using hs⟩
      · simp only [Live.step, Live.build]
        rw [if_neg hs, e]
        rfl
      · simpa [pushed] using hi
  | rebuild =>
    left
    obtain ⟨nodes, order, scene', e, hi⟩ := rebuild_inv lib s items h
    refine ⟨⟨⟨scene', some nodes⟩, ?_, ?_, by simp⟩, by simp⟩
    · simp only [Live.step, Live.rebuild]
      rw [e]
      rfl
    · simpa [pushed] using hi

private theorem pushed_append (a b : List Op) : pushed (a ++ b) = pushed a ++ pushed b := by
  induction a with
  | nil => rfl
  | cons op a ih => cases op <;> simp [pushed, ih]

private theorem run_inv (lib : Sorting) (ops : List Op) :
    (∃ s, Live.new.run lib ops = .ok s ∧ Inv lib s (pushed ops) ∧ (s.accelerator.isSome = true ↔ Op.build ∈ ops ∨ Op.rebuild ∈ ops) ∧ ¬ Twice ops) ∨
    Live.new.run lib ops = .panic ∧ Twice ops := by
  induction ops using List.reverseRecOn with
  | nil =>
    left
    refine ⟨Live.new, rfl, ⟨⟨[], ⟨rfl, rfl, rfl, rfl⟩, .refl _⟩, fun nodes h => by cases h⟩, by simp [Live.new], ?_⟩
    rintro ⟨a, b, h, -⟩
    simp at h
  | append_singleton ops op ih =>
    rw [run_append]
    rcases ih with ⟨s, e, hi, ha, hb⟩ | ⟨e, h⟩
    · rw [e]
      have hlast : Twice (ops ++ [op]) → Twice ops ∨ (op = .build ∧ (Op.build ∈ ops ∨ Op.rebuild ∈ ops)) := by
        rintro ⟨a, b, h, hm⟩
        rcases List.eq_nil_or_concat b with rfl | ⟨b', x, rfl⟩
        · obtain ⟨h1, h2⟩ := List.append_inj' h rfl
          right
          rw [h1]
          exact ⟨by simpa using h2, hm⟩
        · left
          rw [List.concat_eq_append, ← List.cons_append, ← List.append_assoc] at h
          exact ⟨a, b', (List.append_inj' h rfl).1, hm⟩
      rcases step_inv lib s (pushed ops) hi op with ⟨⟨s', e', hi', ha'⟩, hn⟩ | ⟨e', hop, hs⟩
      · left
        refine ⟨s', ?_, by rw [pushed_append]; exact hi', ?_, ?_⟩
        · show (s.run lib [op]) = _
          rw [Live.run, e']
          rfl
        · rw [ha', Bool.or_eq_true, ha]
          cases op <;> simp
        · intro ht
          rcases hlast ht with h | ⟨rfl, h⟩
          · exact hb h
          · have := hn rfl
            rw [ha.2 h] at this
            cases this
      · right
        refine ⟨?_, ops, [], ?_, ha.1 hs⟩
        · show (s.run lib [op]) = _
          rw [Live.run, e']
          rfl
        · cases op with
          | build => rfl
          | push p => cases hop
          | rebuild => cases hop
    · right
      obtain ⟨a, b, h, hm⟩ := h
      refine ⟨by rw [e]; rfl, a, b ++ [op], by rw [h]; simp, hm⟩

/-- C112, what a scene has: after each history of additions and builds, it has the triangles that were added, each once, and each with its
own normals and materials.  Only building an acceleration structure that is there already panics. -/
theorem C112_kept (lib : Sorting) (ops : List Op) :
    (¬ Twice ops → ∃ s items, Live.new.run lib ops = .ok s ∧ Table s.scene items ∧ items.Perm (pushed ops)) ∧
    (Twice ops → Live.new.run lib ops = .panic) := by
  rcases run_inv lib ops with ⟨s, e, hi, -, hb⟩ | ⟨e, h⟩
  · obtain ⟨items, ht, hp⟩ := hi.table
    exact ⟨fun _ => ⟨s, items, e, ht, hp⟩, fun h => absurd h hb⟩
  · exact ⟨fun h' => absurd h h', fun _ => e⟩

/-! ### What rays see -/

private theorem boxTest_perm {a b : List (Triangle ℚ)} (h : a.Perm b) (ray : Ray ℚ) (hb : BoxTest a ray) : BoxTest b ray := by
  intro i p t hit ht box hbox hfaces
  obtain ⟨t', u, v, ht', hb1, hb2⟩ := hit
  have hm : t ∈ a := h.mem_iff.2 (List.mem_of_getElem? ht)
  obtain ⟨k, hk⟩ := List.mem_iff_getElem?.1 hm
  have : t = t' := Option.some.inj (ht.symm.trans ht')
  subst this
  refine hb k p t ⟨t, u, v, hk, hb1, hb2⟩ hk box hbox ?_
  have e : (fun c => ∃ t ∈ a, c = worldBounds t) = fun c => ∃ t ∈ b, c = worldBounds t := by
    funext c
    exact propext ⟨fun ⟨t, ht, hc⟩ => ⟨t, h.mem_iff.1 ht, hc⟩, fun ⟨t, ht, hc⟩ => ⟨t, h.mem_iff.2 ht, hc⟩⟩
  rw [e]
  exact hfaces

private theorem item_at {s : Scene} {items : List Item} (ht : Table s items) {i : ℕ} {t : Triangle ℚ} (h : s.triangles[i]? = some t) :
    ∃ item, items[i]? = some item ∧ item.triangle = t := by
  rw [ht.triangles, List.getElem?_map] at h
  cases hi : items[i]? with
  | none => rw [hi] at h; cases h
  | some item => rw [hi] at h; exact ⟨item, rfl, Option.some.inj h⟩

/-- C112, what rays see when the acceleration structure was built last: nothing, and then the ray hits nothing that was ever added; or a triangle
that was added, which the ray hits at that point, with its own materials, and none that was added is closer.  The only other outcome is a
panic, when the tree is higher than the stack.

Missing: objects that are added after the structure was built (`C112_violated_later`). -/
theorem C112_seen_partial (lib : Sorting) (ops : List Op) (last : Op) (hlast : last = .build ∨ last = .rebuild) (hops : ¬ Twice (ops ++ [last])) (ray : Ray ℚ)
    (cap : ℕ) (hn : (pushed ops).length < 2 ^ 15) (hbox : BoxTest ((pushed ops).map (·.triangle)) ray) :
    ∃ s, Live.new.run lib (ops ++ [last]) = .ok s ∧
      ((s.cast ray cap = .ok none ∧ ∀ item ∈ pushed ops, ∀ p, ¬ Hits ray item.triangle p) ∨
       (∃ i p u v, s.cast ray cap = .ok (some (i, p, u, v)) ∧ ∃ item ∈ pushed ops, Hits ray item.triangle p ∧ p = Triangle.Spec.at_ item.triangle u v ∧
          s.scene.triangles[i]? = some item.triangle ∧ s.scene.normals[i]? = some item.normals ∧ s.scene.frontMaterials[i]? = some item.front ∧
          s.scene.backMaterials[i]? = some item.back ∧
          ∀ item' ∈ pushed ops, ∀ q, Hits ray item'.triangle q → dist2 ray p ≤ dist2 ray q) ∨
       (s.cast ray cap = .panic ∧ ∃ root, s.accelerator = some (flatten 0 root) ∧ cap < height root)) := by
  have hpush : pushed (ops ++ [last]) = pushed ops := by
    rw [pushed_append]
    rcases hlast with rfl | rfl <;> simp [pushed]
  rcases run_inv lib ops with ⟨s0, e0, hi0, ha0, hb0⟩ | ⟨-, h⟩
  · obtain ⟨nodes, order, scene', e, hi⟩ := rebuild_inv lib s0 _ hi0
    have hrun : Live.new.run lib (ops ++ [last]) = .ok ⟨scene', some nodes⟩ := by
      rw [run_append, e0]
      show s0.run lib [last] = _
      rcases hlast with rfl | rfl
      · have : s0.accelerator.isSome = false := by
          by_contra hne
          exact hops ⟨ops, [], rfl, ha0.1 (by revert hne; cases s0.accelerator.isSome <;> simp)⟩
        simp only [Live.run, Live.step, Live.build]
        rw [this, if_neg (by simp), e]
        rfl
      · simp only [Live.run, Live.step, Live.rebuild]
        rw [e]
        rfl
    obtain ⟨items, ht, hp⟩ := hi.table
    have htri : scene'.triangles.Perm ((pushed ops).map (·.triangle)) := by
      have := ht.triangles
      simp only at this
      rw [this]
      exact hp.map _
    have hlen : scene'.triangles.length < 2 ^ 15 := by
      rw [htri.length_eq, List.length_map]
      exact hn
    have hit : ∀ item ∈ pushed ops, ∀ q, Hits ray item.triangle q → ∃ j, Hit scene'.triangles ray j q := by
      intro item hm q ⟨u, v, h1, h2, h3⟩
      obtain ⟨j, hj⟩ := List.mem_iff_getElem?.1 (htri.mem_iff.2 (List.mem_map_of_mem hm))
      exact ⟨j, _, u, v, hj, h1, h2, h3⟩
    refine ⟨_, hrun, ?_⟩
    rcases C53_cast_ray lib s0.scene scene' nodes order ray cap e (hlen.trans (by norm_num)) (fun _ _ _ hk => by omega)
      (boxTest_perm htri.symm ray hbox) with ⟨h1, h2⟩ | ⟨i, p, u, v, t, h1, h2, h3, h4⟩ | ⟨h1, root, h2, h3⟩
    · refine .inl ⟨h1, fun item hm q hq => ?_⟩
      obtain ⟨j, hj⟩ := hit item hm q hq
      exact h2 j q hj
    · refine .inr (.inl ⟨i, p, u, v, h1, ?_⟩)
      obtain ⟨⟨t', u', v', k1, k2, k3⟩, h6⟩ := h2
      obtain ⟨item, hi, rfl⟩ := item_at ht h3
      obtain rfl : item.triangle = t' := Option.some.inj (h3.symm.trans k1)
      have hget : ∀ {β : Type} (f : Item → β) (l : List β), l = items.map f → l[i]? = some (f item) := by
        intro β f l hl
        rw [hl, List.getElem?_map, hi]
        rfl
      refine ⟨item, hp.mem_iff.1 (List.mem_of_getElem? hi), ⟨u', v', k2, k3⟩, h4, h3, hget _ _ ht.normals, hget _ _ ht.front, hget _ _ ht.back, ?_⟩
      intro item' hm q hq
      obtain ⟨j, hj⟩ := hit item' hm q hq
      exact h6 j q hj
    · exact .inr (.inr ⟨h1, root, by rw [h2], h3⟩)
  · exact absurd (by
      obtain ⟨a, b, h, hm⟩ := h
      exact ⟨a, b ++ [last], by rw [h]; simp, hm⟩) hops

/-- C112, before the acceleration structure is built, casting rays panics. -/
theorem C112_before (lib : Sorting) (ops : List Op) (h : Op.build ∉ ops ∧ Op.rebuild ∉ ops) (ray : Ray ℚ) (d2 : ℚ) (cap : ℕ) :
    ∃ s, Live.new.run lib ops = .ok s ∧ s.cast ray cap = .panic ∧ s.unobstructedDistance ray d2 cap = .panic := by
  rcases run_inv lib ops with ⟨s, e, -, ha, -⟩ | ⟨-, a, b, hab, -⟩
  · have : s.accelerator = none := by
      rw [← Option.not_isSome_iff_eq_none, ha]
      exact fun h' => h'.elim h.1 h.2
    refine ⟨s, e, ?_, ?_⟩
    · unfold Live.cast
      rw [this]
    · unfold Live.unobstructedDistance
      rw [this]
  · exact absurd (by rw [hab]; simp) h.1

/-! ### What is added later -/

private theorem slice_append (ts extra : List (Triangle ℚ)) (ray : Ray ℚ) (ini fin : ℕ) (h : fin ≤ ts.length) :
    intersectSlice (ts ++ extra) ray ini fin = intersectSlice ts ray ini fin := by
  unfold intersectSlice
  have e : ((ts ++ extra).zipIdx.drop ini).take (fin - ini) = (ts.zipIdx.drop ini).take (fin - ini) := by
    rw [List.zipIdx_append]
    by_cases hi : ini ≤ ts.length
    · rw [List.drop_append_of_le_length (by rw [List.length_zipIdx]; exact hi), List.take_append_of_le_length]
      rw [List.length_drop, List.length_zipIdx]
      omega
    · have : fin - ini = 0 := by omega
      rw [this, List.take_zero, List.take_zero]
  rw [e]

private theorem visit_append (ts extra : List (Triangle ℚ)) (ray : Ray ℚ) (b : Best) (ini fin : ℕ) (h : fin ≤ ts.length) :
    visitLeaf (ts ++ extra) ray b ini fin = visitLeaf ts ray b ini fin := by
  unfold visitLeaf
  rw [slice_append ts extra ray ini fin h]

/-- Each leaf is among the first `n` triangles. -/
private def Under (nodes : List FlatNode) (n : ℕ) : Prop := ∀ node ∈ nodes, node.isLeaf = true → asUsize node.next + asUsize node.nPrims ≤ n

private theorem index_mem {α : Type} {l : List α} {i : ℕ} {a : α} (h : Outcome.index l i = .ok a) : a ∈ l := by
  unfold Outcome.index at h
  cases hi : l[i]? with
  | none => rw [hi] at h; cases h
  | some b => rw [hi] at h; cases h; exact List.mem_of_getElem? hi

private theorem traverse_append (nodes : List FlatNode) (ts extra : List (Triangle ℚ)) (ray : Ray ℚ) (inv : V3 XF) (cap : ℕ)
    (h : Under nodes ts.length) : ∀ (fuel current : ℕ) (stack : List ℕ) (b : Best),
    traverse nodes (ts ++ extra) ray inv cap fuel current stack b = traverse nodes ts ray inv cap fuel current stack b := by
  intro fuel
  induction fuel with
  | zero => intro _ _ _; rfl
  | succ fuel ih =>
    intro current stack b
    unfold Bvh.traverse
    dsimp only
    cases hi : Outcome.index nodes current with
    | err => rfl
    | panic => rfl
    | ok node =>
      simp only [Outcome.bind]
      by_cases h1 : node.bounds.intersect ray.origin inv = true
      · rw [if_pos h1, if_pos h1]
        by_cases h2 : node.isLeaf = true
        · rw [if_pos h2, if_pos h2, visit_append _ _ _ _ _ _ (h node (index_mem hi) h2)]
          cases stack with
          | nil => rfl
          | cons i rest => exact ih i rest _
        · rw [if_neg h2, if_neg h2, ih, ih]
      · rw [if_neg h1, if_neg h1]
        cases stack with
        | nil => rfl
        | cons i rest => exact ih i rest _

private theorem probe_append (nodes : List FlatNode) (ts extra : List (Triangle ℚ)) (ray : Ray ℚ) (inv : V3 XF) (d2 : ℚ) (cap : ℕ)
    (h : Under nodes ts.length) : ∀ (fuel current : ℕ) (stack : List ℕ),
    probe nodes (ts ++ extra) ray inv d2 cap fuel current stack = probe nodes ts ray inv d2 cap fuel current stack := by
  intro fuel
  induction fuel with
  | zero => intro _ _; rfl
  | succ fuel ih =>
    intro current stack
    unfold probe
    dsimp only
    cases hi : Outcome.index nodes current with
    | err => rfl
    | panic => rfl
    | ok node =>
      simp only [Outcome.bind]
      by_cases h1 : node.bounds.intersect ray.origin inv = true
      · rw [if_pos h1, if_pos h1]
        by_cases h2 : node.isLeaf = true
        · rw [if_pos h2, if_pos h2]
          have : leafBlocks (ts ++ extra) ray d2 (asUsize node.next) (asUsize node.next + asUsize node.nPrims) =
              leafBlocks ts ray d2 (asUsize node.next) (asUsize node.next + asUsize node.nPrims) := by
            unfold leafBlocks
            rw [slice_append ts extra ray _ _ (h node (index_mem hi) h2)]
          rw [this]
          cases stack with
          | nil => rfl
          | cons i rest => dsimp only; rw [ih i rest]
        · rw [if_neg h2, if_neg h2, ih, ih]
      · rw [if_neg h1, if_neg h1]
        cases stack with
        | nil => rfl
        | cons i rest => exact ih i rest

private theorem fold_lt (ray : Ray ℚ) (n : ℕ) : ∀ (l : List (Triangle ℚ × ℕ)) (b : Best), (∀ t ∈ l, t.2 < n) → (∀ q, b.1 = some q → q.1 < n) →
    ∀ q, (l.foldl (tryTriangle ray) b).1 = some q → q.1 < n := by
  intro l
  induction l with
  | nil => intro b _ hb; exact hb
  | cons t l ih =>
    intro b hl hb
    refine ih _ (fun t ht => hl t (List.mem_cons_of_mem _ ht)) ?_
    intro q hq
    unfold tryTriangle at hq
    cases hbar : Triangle.baricentric ray t.1 with
    | none => rw [hbar] at hq; exact hb q hq
    | some x =>
      rw [hbar] at hq
      simp only [keepCloser] at hq
      by_cases hc : 1 / 10 ^ 7 < (x.1 - ray.origin).lengthSquared ∧ (x.1 - ray.origin).lengthSquared < b.2
      · rw [if_pos hc] at hq
        rw [← Option.some.inj hq]
        exact hl t List.mem_cons_self
      · rw [if_neg hc] at hq
        exact hb q hq

private theorem visit_lt (ts : List (Triangle ℚ)) (ray : Ray ℚ) (b : Best) (ini fin : ℕ) (hb : ∀ q, b.1 = some q → q.1 < ts.length) :
    ∀ q, (visitLeaf ts ray b ini fin).1 = some q → q.1 < ts.length := by
  intro q hq
  unfold visitLeaf at hq
  cases hs : intersectSlice ts ray ini fin with
  | none => rw [hs] at hq; exact hb q hq
  | some x =>
    rw [hs] at hq
    have hx : x.1 < ts.length := by
      refine fold_lt ray ts.length _ (none, floatMax) ?_ (by simp) x hs
      intro t ht
      have := List.mem_zipIdx (List.mem_of_mem_drop (List.mem_of_mem_take ht))
      omega
    simp only [keepCloser] at hq
    by_cases hc : 1 / 10 ^ 7 < (x.2 - ray.origin).lengthSquared ∧ (x.2 - ray.origin).lengthSquared < b.2
    · rw [if_pos hc] at hq
      rw [← Option.some.inj hq]
      exact hx
    · rw [if_neg hc] at hq
      exact hb q hq

private theorem traverse_lt (nodes : List FlatNode) (ts : List (Triangle ℚ)) (ray : Ray ℚ) (inv : V3 XF) (cap : ℕ) :
    ∀ (fuel current : ℕ) (stack : List ℕ) (b : Best), (∀ q, b.1 = some q → q.1 < ts.length) →
    ∀ q, traverse nodes ts ray inv cap fuel current stack b = .ok (some q) → q.1 < ts.length := by
  intro fuel
  induction fuel with
  | zero => intro _ _ _ _ q h; cases h
  | succ fuel ih =>
    intro current stack b hb q hq
    unfold Bvh.traverse at hq
    dsimp only at hq
    obtain ⟨node, -, hq⟩ := bind_ok hq
    by_cases h1 : node.bounds.intersect ray.origin inv = true
    · rw [if_pos h1] at hq
      by_cases h2 : node.isLeaf = true
      · rw [if_pos h2] at hq
        cases stack with
        | nil => exact visit_lt ts ray b _ _ hb q (Outcome.ok.inj hq)
        | cons i rest => exact ih i rest _ (visit_lt ts ray b _ _ hb) q hq
      · rw [if_neg h2] at hq
        by_cases h3 : cap ≤ stack.length
        · rw [if_pos h3] at hq; cases hq
        · rw [if_neg h3] at hq
          by_cases h4 : isNeg inv node.axis = true
          · rw [if_pos h4] at hq; exact ih _ _ _ hb q hq
          · rw [if_neg h4] at hq; exact ih _ _ _ hb q hq
    · rw [if_neg h1] at hq
      cases stack with
      | nil => exact hb q (Outcome.ok.inj hq)
      | cons i rest => exact ih i rest _ hb q hq

private theorem flatten_leaf : ∀ (t : Node) (off : ℕ), ∀ node ∈ flatten off t, node.isLeaf = true →
    ∃ r ∈ leaves t, node.next = asI32 r.1 ∧ node.nPrims = asI16 r.2 := by
  intro t
  induction t with
  | leaf b first n =>
    intro off node hm _
    rw [flatten] at hm
    have hm := List.mem_singleton.1 hm
    rw [hm]
    exact ⟨(first, n), List.mem_singleton.2 rfl, by dsimp only, by dsimp only⟩
  | interior b a l r hl hr =>
    intro off node hm hleaf
    rw [flatten] at hm
    rcases List.mem_cons.1 hm with rfl | hm
    · simp [FlatNode.isLeaf] at hleaf
    · rcases List.mem_append.1 hm with hm | hm
      · obtain ⟨q, h1, h2⟩ := hl _ node hm hleaf
        exact ⟨q, List.mem_append_left _ h1, h2⟩
      · obtain ⟨q, h1, h2⟩ := hr _ node hm hleaf
        exact ⟨q, List.mem_append_right _ h1, h2⟩

private theorem tile_le : ∀ {l : List (ℕ × ℕ)} {a b : ℕ}, Tile l a b → a ≤ b ∧ ∀ r ∈ l, r.1 + r.2 ≤ b := by
  intro l
  induction l with
  | nil => intro a b h; exact ⟨le_of_eq h, by simp⟩
  | cons q l ih =>
    intro a b ⟨h1, _, h3⟩
    obtain ⟨k1, k2⟩ := ih h3
    refine ⟨by omega, fun r hr => ?_⟩
    rcases List.mem_cons.1 hr with rfl | hr
    · omega
    · exact k2 r hr

private theorem under_of (s : Live) {lib : Sorting} {items : List Item} (h : Inv lib s items) (hn : s.scene.triangles.length < 2 ^ 15) (nodes : List FlatNode)
    (ha : s.accelerator = some nodes) : Under nodes s.scene.triangles.length := by
  rcases h.tree nodes ha with rfl | ⟨root, n, rfl, tile, hle⟩
  · intro node hm
    cases hm
  · intro node hm hleaf
    obtain ⟨r, hr, e1, e2⟩ := flatten_leaf root 0 node hm hleaf
    have hb := (tile_le tile).2 r hr
    rw [e1, e2]
    unfold asUsize asI32 asI16
    rw [Int.bmod_eq_of_le (by omega) (by omega), Int.bmod_eq_of_le (by omega) (by omega)]
    omega

/-- C112 fails for what is added after the acceleration structure was built: whatever it is, rays go through it.  They see, and they are told to be
free, exactly as before it was added. -/
theorem C112_violated_later (lib : Sorting) (ops : List Op) (s : Live) (h : Live.new.run lib ops = .ok s) (hb : Op.build ∈ ops ∨ Op.rebuild ∈ ops)
    (hn : (pushed ops).length < 2 ^ 15) (p : Piece) (ray : Ray ℚ) (d2 : ℚ) (cap : ℕ) :
    ∃ s', Live.new.run lib (ops ++ [.push p]) = .ok s' ∧ s'.cast ray cap = s.cast ray cap ∧
      s'.unobstructedDistance ray d2 cap = s.unobstructedDistance ray d2 cap := by
  rcases run_inv lib ops with ⟨s0, e0, hi, ha, -⟩ | ⟨e0, -⟩
  · obtain rfl : s0 = s := Outcome.ok.inj (e0.symm.trans h)
    refine ⟨s0.push p, by rw [run_append, h]; rfl, ?_⟩
    obtain ⟨nodes, hnodes⟩ := Option.isSome_iff_exists.1 (ha.2 hb)
    have hlen : s0.scene.triangles.length < 2 ^ 15 := by
      obtain ⟨items, ht, hp⟩ := hi.table
      rw [ht.triangles, List.length_map, hp.length_eq]
      exact hn
    have hu := under_of s0 hi hlen nodes hnodes
    have hacc : (s0.push p).accelerator = some nodes := hnodes
    unfold Live.cast Live.unobstructedDistance
    rw [hacc, hnodes]
    dsimp only
    have hts : (s0.push p).scene.triangles = s0.scene.triangles ++ p.mesh.map (·.1) := rfl
    rw [hts]
    have hint : intersect nodes (s0.scene.triangles ++ p.mesh.map (·.1)) ray cap = intersect nodes s0.scene.triangles ray cap := by
      unfold intersect
      rw [traverse_append nodes _ _ _ _ _ hu]
    constructor
    · unfold castRay
      rw [hint]
      cases hc : intersect nodes s0.scene.triangles ray cap with
      | err => rfl
      | panic => rfl
      | ok r =>
        cases r with
        | none => rfl
        | some q =>
          have hq : q.1 < s0.scene.triangles.length := by
            unfold intersect at hc
            by_cases h0 : nodes.length = 0
            · rw [if_pos h0] at hc; cases hc
            · rw [if_neg h0] at hc
              exact traverse_lt nodes _ ray _ cap _ _ _ _ (by simp) q hc
          simp only [Outcome.bind]
          have : Outcome.index (s0.scene.triangles ++ p.mesh.map (·.1)) q.1 = Outcome.index s0.scene.triangles q.1 := by
            unfold Outcome.index
            rw [List.getElem?_append_left hq]
          rw [this]
    · unfold unobstructed
      rw [probe_append nodes _ _ _ _ _ _ hu]
  · rw [e0] at h
    cases h

/-- The triangle and the ray of the examples. -/
private def corner : Triangle ℚ := ⟨⟨0, 0, 0⟩, ⟨1, 0, 0⟩, ⟨0, 1, 0⟩⟩

private def down : Ray ℚ := ⟨⟨1 / 4, 1 / 4, 1⟩, ⟨0, 0, -1⟩⟩

/-- A triangle that was added after the acceleration structure of an empty scene was built is not seen by a ray that hits it. -/
example (lib : Sorting) : ∃ s, Live.new.run lib [.build, .push ⟨[(corner, ⟨0, 0, 1⟩, ⟨0, 0, 1⟩, ⟨0, 0, 1⟩)], 0, 0⟩] = .ok s ∧ s.cast down 32 = .ok none ∧
    ∃ t ∈ s.scene.triangles, Hits down t ⟨1 / 4, 1 / 4, 0⟩ := by
  refine ⟨_, rfl, rfl, corner, List.mem_singleton.2 rfl, 1 / 4, 1 / 4, ?_, ?_, ?_⟩ <;> decide +kernel

/-- Built again, it can be seen: this history and this ray meet what `C112_seen_partial` asks for. -/
example : ¬ Twice ([.build, .push ⟨[(corner, ⟨0, 0, 1⟩, ⟨0, 0, 1⟩, ⟨0, 0, 1⟩)], 0, 0⟩] ++ [.rebuild]) ∧
    BoxTest ((pushed [.build, .push ⟨[(corner, ⟨0, 0, 1⟩, ⟨0, 0, 1⟩, ⟨0, 0, 1⟩)], 0, 0⟩]).map (·.triangle)) down := by
  constructor
  · rintro ⟨a, b, h, hm⟩
    rcases a with _ | ⟨x, _ | ⟨y, _ | ⟨z, a⟩⟩⟩ <;> simp at h <;> simp_all
  · have e : (pushed [.build, .push ⟨[(corner, ⟨0, 0, 1⟩, ⟨0, 0, 1⟩, ⟨0, 0, 1⟩)], 0, 0⟩]).map (·.triangle) = [corner] := rfl
    rw [e]
    refine C53_box_test_partial [corner] down ?_ ?_ ?_ ?_
    · intro i t p u v hi hb
      have ht : t = corner := List.mem_singleton.1 (List.mem_of_getElem? hi)
      have hc : Triangle.baricentric down corner = some (⟨1 / 4, 1 / 4, 0⟩, 1 / 4, 1 / 4) := by decide +kernel
      rw [ht, hc] at hb
      simp only [Option.some.injEq, Prod.mk.injEq] at hb
      obtain ⟨-, rfl, rfl⟩ := hb
      norm_num
    · intro _ t ht
      rw [List.mem_singleton.1 ht]
      norm_num [corner, down]
    · intro _ t ht
      rw [List.mem_singleton.1 ht]
      norm_num [corner, down]
    · intro h
      norm_num [down] at h

end Simple.Render.Life
