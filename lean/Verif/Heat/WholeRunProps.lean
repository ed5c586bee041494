import Verif.Heat.WholeProps

/-! # C104: steps of the heat model on the state of a whole building, one after the other -/

namespace Simple.Heat.Whole

open Simple.Building Wiring Spec

noncomputable section

/-! ## What each surface gets -/

namespace Spec

/-- Surface number `i` of a list gets, at its places, what it calculates on its own from what the state has for it and for the
rooms around it. -/
def Served (m : ThermalModel) (tiny : ℝ) (cav : CavityU ℝ) (index : String → Option ℕ) (w : StepWeather) (dt : ℝ) (st st' : List ℝ)
    (ws : List ThermalWall) (mems mems' : List SurfaceMemory) : Prop :=
  ∀ (i : ℕ) (tw : ThermalWall), ws[i]? = some tw → ∃ mem mem' x, mems[i]? = some mem ∧ mems'[i]? = some mem' ∧
    tw.surf.step tiny cav (readings st tw.parent) w.tOut
      (fun name => (index name).bind fun i => (m.rooms[i]?).bind fun z => value st z.places.dryBulb)
      w.windDirection w.windSpeed dt mem = .ok (x, mem') ∧
    (∀ j < tw.parent.nodes, st'[tw.parent.first.getD 0 + j]? = x.temperatures[j]?) ∧
    value st' (tw.parent.field .front .convection) = some x.frontHs ∧ value st' (tw.parent.field .back .convection) = some x.backHs ∧
    value st' (tw.parent.field .front .heatFlow) = some x.frontFlow ∧ value st' (tw.parent.field .back .heatFlow) = some x.backFlow

end Spec

theorem served_of {m : ThermalModel} {n : ℕ} (tiny : ℝ) (cav : CavityU ℝ) (index : String → Option ℕ) (w : StepWeather) (dt : ℝ)
    (st : List ℝ) (hl : st.length = n) (L : List (ℕ × ℝ)) (hd : (L.map Prod.fst).Nodup) :
    ∀ (ws : List ThermalWall) (mems : List SurfaceMemory) (res : List (Written × SurfaceMemory)),
    (∀ tw ∈ ws, Complete n tw.parent) →
    List.Forall₂ (fun (tw : ThermalWall) (mem : SurfaceMemory) => mem.temperatures.length = tw.parent.nodes) ws mems →
    List.Forall₂ (Alone tiny cav w dt (spaceTemperature m.rooms index st) st) (ws.zip mems) res →
    (∀ p ∈ wallPairs ws res, p ∈ L) → (∀ tw ∈ ws, Outside tw.parent (L.map Prod.fst)) →
    Served m tiny cav index w dt st (assignAll L st) ws mems (res.map Prod.snd) := by
  intro ws
  induction ws with
  | nil => intro mems res _ _ _ _ _ i tw h; simp at h
  | cons tw ws ih =>
    intro mems res hc hm hS hL ho i tw' hi
    obtain ⟨mem, mems, m1, m2, rfl⟩ := List.forall₂_cons_left_iff.1 hm
    rw [List.zip_cons_cons] at hS
    obtain ⟨r, res, h1, h2, rfl⟩ := List.forall₂_cons_left_iff.1 hS
    unfold wallPairs at hL
    rw [List.zipWith_cons_cons, List.flatten_cons] at hL
    cases i with
    | zero =>
      rw [List.getElem?_cons_zero] at hi
      cases hi
      obtain ⟨e1, e2⟩ := alone_nodes h1
      have hx : r.1.temperatures.length = tw.parent.nodes := by rw [e1, e2, m1]
      obtain ⟨-, w1, -, -, w2, w3, w4, w5⟩ := wall_after (hc tw (by simp)) r.1 hx L (fun p hp => hL p (List.mem_append_left _ hp)) hd
        (ho tw (by simp)) st hl
      exact ⟨mem, r.2, r.1, rfl, rfl, h1, w1, w2, w3, w4, w5⟩
    | succ i =>
      exact ih mems res (fun x hx => hc x (by simp [hx])) m2 h2 (fun p hp => hL p (List.mem_append_right _ hp))
        (fun x hx => ho x (by simp [hx])) i tw' hi

/-- **C104.**  After a step of a building every surface and every fenestration has at its places in the state, the temperatures
of all its nodes, its convection coefficients and its heat flows, what it calculates on its own from what the state had. -/
theorem C104_surface {m : ThermalModel} (tiny : ℝ) (cav : CavityU ℝ) (index : String → Option ℕ) (w : StepWeather) (dt : ℝ)
    (mem mem' : Memory) (st st' : List ℝ) (hW : Wired m st.length) (hmem : Sized m mem)
    (h : step m tiny cav index w dt mem st = .ok (mem', st')) :
    Served m tiny cav index w dt st st' m.surfaces mem.surfaces mem'.surfaces ∧
      Served m tiny cav index w dt st st' m.fenestrations mem.fenestrations mem'.fenestrations := by
  obtain ⟨resS, resF, temps, hS, hF, hz, e⟩ := step_inv hW tiny cav index w dt mem hmem st rfl _ h
  cases e
  have aS := alone_list _ _ _ hmem.surfaces hS
  have aF := alone_list _ _ _ hmem.fenestrations hF
  have ht : temps.length = m.rooms.length := by
    rw [zonesStep_length hz]
    show (m.rooms.map (room st)).length = _
    simp
  have kT := total_fst (aS.imp fun _ _ h => h.1) (aF.imp fun _ _ h => h.1) temps ht
  have hd : ((total m resS resF temps).map Prod.fst).Nodup := by rw [kT]; exact hW.distinct
  have hout : ∀ tw ∈ m.surfaces ++ m.fenestrations, Outside tw.parent ((total m resS resF temps).map Prod.fst) := by
    intro tw htw s q hq k hk hm
    rw [kT] at hm
    exact hW.radiation tw htw s q hq k hk hm
  exact ⟨served_of tiny cav index w dt st rfl _ hd _ _ _ hW.surfaces hmem.surfaces hS
      (fun p hp => List.mem_append_left _ (List.mem_append_left _ hp)) (fun tw htw => hout tw (by simp [htw])),
    served_of tiny cav index w dt st rfl _ hd _ _ _ hW.fenestrations hmem.fenestrations hF
      (fun p hp => List.mem_append_left _ (List.mem_append_right _ hp)) (fun tw htw => hout tw (by simp [htw]))⟩

/-! ## Several steps -/

theorem Synced.sized {m : ThermalModel} {mem : Memory} {st : List ℝ} (h : Synced m mem st) : Sized m mem :=
  ⟨h.surfaces.imp fun _ _ h => h.1, h.fenestrations.imp fun _ _ h => h.1⟩

/-- **C104.**  However many steps go by, the heat model on the flat state of a whole building does what its parts do, each with
its own values; the memory keeps the temperatures that the nodes have in the state; nothing else of the state changes. -/
theorem C104_march {m : ThermalModel} (tiny : ℝ) (cav : CavityU ℝ) (index : String → Option ℕ) (dt : ℝ) :
    ∀ (ws : List StepWeather) (mem : Memory) (st : List ℝ), Wired m st.length → Synced m mem st →
    (∀ hs, HeatState.march tiny cav index dt ws (apart m mem st) = .ok hs → ∃ mem' st', march m tiny cav index dt ws mem st = .ok (mem', st') ∧
      apart m mem' st' = hs ∧ Synced m mem' st' ∧ st'.length = st.length ∧ ∀ k, k ∉ writes m → st'[k]? = st[k]?) ∧
    (∀ r, march m tiny cav index dt ws mem st = .ok r → ∃ hs, HeatState.march tiny cav index dt ws (apart m mem st) = .ok hs) := by
  intro ws
  induction ws with
  | nil =>
    intro mem st _ hs
    exact ⟨fun h he => by cases he; exact ⟨mem, st, rfl, rfl, hs, rfl, fun _ _ => rfl⟩, fun r _ => ⟨_, rfl⟩⟩
  | cons w ws ih =>
    intro mem st hW hs
    obtain ⟨h1, h2⟩ := C104_step_partial tiny cav index w dt mem st hW (Synced.sized hs)
    constructor
    · intro hs1 h
      rw [HeatState.march] at h
      obtain ⟨a, a1, a2⟩ := bind_ok h
      obtain ⟨mem', st', b1, b2, b3, b4, b5⟩ := h1 a a1
      rw [← b2] at a2
      obtain ⟨mem2, st2, c1, c2, c3, c4, c5⟩ := (ih mem' st' (by rw [b4]; exact hW) b3).1 _ a2
      exact ⟨mem2, st2, by rw [march, b1]; exact c1, c2, c3, c4.trans b4, fun k hk => (c5 k hk).trans (b5 k hk)⟩
    · intro r h
      rw [march] at h
      obtain ⟨a, a1, a2⟩ := bind_ok h
      obtain ⟨hs1, b1⟩ := h2 a a1
      obtain ⟨mem', st', c1, c2, c3, c4, -⟩ := h1 hs1 b1
      rw [a1] at c1
      cases c1
      obtain ⟨hs2, d1⟩ := (ih mem' st' (by rw [c4]; exact hW) c3).2 _ a2
      exact ⟨hs2, by rw [HeatState.march, b1, Outcome.bind, ← c2]; exact d1⟩

/-! ## Memory -/

theorem getNodes_eq {n : ℕ} {w : Wiring.Wall} (hc : Complete n w) {st : List ℝ} (hl : st.length = n) :
    ∃ temps, getNodes w st = .ok temps ∧ temps.length = w.nodes ∧ ∀ j < w.nodes, temps[j]? = st[w.first.getD 0 + j]? := by
  obtain ⟨a, a1, a2, a3⟩ := hc.ends
  have hn := hc.nodes
  have e : a + w.nodes - 1 + 1 - a = w.nodes := by omega
  refine ⟨(List.range w.nodes).map fun j => st[a + j]?.getD 0, ?_, by simp, ?_⟩
  · unfold getNodes
    rw [a1, a2]
    dsimp only
    rw [e]
    refine collect_map _ _ _ fun j hj => ?_
    have hj' : a + j < st.length := by rw [List.mem_range] at hj; omega
    rw [Outcome.index_of_lt hj', List.getElem?_eq_getElem hj']
    rfl
  · intro j hj
    have hj' : a + j < st.length := by omega
    rw [a1, Option.getD_some, List.getElem?_map, List.getElem?_range hj, Option.map_some, List.getElem?_eq_getElem hj']
    rfl

theorem allocate_all {n : ℕ} (st : List ℝ) (hl : st.length = n) : ∀ (ws : List ThermalWall), (∀ tw ∈ ws, Complete n tw.parent) →
    ∃ mems, collect (fun tw : ThermalWall => (getNodes tw.parent st).bind tw.surf.allocate) ws = .ok mems ∧
      List.Forall₂ (InSync st) ws mems ∧ List.Forall₂ (fun (tw : ThermalWall) mem => Heat.Spec.Fitting tw.surf mem) ws mems := by
  intro ws
  induction ws with
  | nil => intro _; exact ⟨[], rfl, .nil, .nil⟩
  | cons tw ws ih =>
    intro hc
    obtain ⟨mems, h1, h2, h3⟩ := ih fun x hx => hc x (by simp [hx])
    obtain ⟨temps, t1, t2, t3⟩ := getNodes_eq (hc tw (by simp)) hl
    obtain ⟨mem, a1, a2, a3⟩ := C87_allocated tw.surf temps
    refine ⟨mem :: mems, ?_, .cons ⟨by rw [a3]; exact t2, fun j hj => by rw [a3]; exact t3 j hj⟩ h2, .cons a2 h3⟩
    rw [collect, t1, Outcome.bind, a1, Outcome.bind, h1, Outcome.bind]

/-- **C104.**  The memory that is allocated for a building holds the temperatures of the nodes in the state. -/
theorem C104_allocated {m : ThermalModel} (st : List ℝ) (hW : Wired m st.length) :
    ∃ mem, allocate m st = .ok mem ∧ Synced m mem st := by
  obtain ⟨s, s1, s2, -⟩ := allocate_all st rfl m.surfaces hW.surfaces
  obtain ⟨f, f1, f2, -⟩ := allocate_all st rfl m.fenestrations hW.fenestrations
  refine ⟨⟨s, f⟩, ?_, s2, f2⟩
  unfold allocate
  dsimp only
  rw [s1, Outcome.bind, f1, Outcome.bind]

/-! ## Rest -/

namespace Spec

/-- The places of convection coefficients and heat flows. -/
def flows (m : ThermalModel) : List ℕ :=
  (m.surfaces ++ m.fenestrations).flatMap fun tw =>
    [(tw.parent.field .front .convection).getD 0, (tw.parent.field .back .convection).getD 0,
      (tw.parent.field .front .heatFlow).getD 0, (tw.parent.field .back .heatFlow).getD 0]

end Spec

theorem writes_cases {m : ThermalModel} {k : ℕ} (h : k ∈ writes m) : k ∈ flows m ∨
    (∃ tw ∈ m.surfaces, ∃ j < tw.parent.nodes, k = tw.parent.first.getD 0 + j) ∨
    (∃ tw ∈ m.fenestrations, ∃ j < tw.parent.nodes, k = tw.parent.first.getD 0 + j) ∨
    ∃ z ∈ m.rooms, k = z.places.dryBulb.getD 0 := by
  unfold writes at h
  rcases List.mem_append.1 h with h | h
  · rcases List.mem_append.1 h with h | h
    · obtain ⟨tw, ht, hk⟩ := List.mem_flatMap.1 h
      rcases List.mem_append.1 hk with hk | hk
      · obtain ⟨j, j1, rfl⟩ := List.mem_map.1 hk
        exact .inr (.inl ⟨tw, ht, j, List.mem_range.1 j1, rfl⟩)
      · exact .inl (List.mem_flatMap.2 ⟨tw, by simp [ht], hk⟩)
    · obtain ⟨tw, ht, hk⟩ := List.mem_flatMap.1 h
      rcases List.mem_append.1 hk with hk | hk
      · obtain ⟨j, j1, rfl⟩ := List.mem_map.1 hk
        exact .inr (.inr (.inl ⟨tw, ht, j, List.mem_range.1 j1, rfl⟩))
      · exact .inl (List.mem_flatMap.2 ⟨tw, by simp [ht], hk⟩)
  · obtain ⟨z, hz, rfl⟩ := List.mem_map.1 h
    exact .inr (.inr (.inr ⟨z, hz, rfl⟩))

theorem nodes_apart (st : List ℝ) : ∀ (ws : List ThermalWall) (mems : List SurfaceMemory), ws.length = mems.length →
    Heat.Spec.nodes (List.zipWith (part st) ws mems) = mems.map fun mem => mem.temperatures := by
  intro ws
  induction ws with
  | nil => intro mems h; cases mems with | nil => rfl | cons => simp at h
  | cons tw ws ih =>
    intro mems h
    cases mems with
    | nil => simp at h
    | cons mem mems =>
      have := ih mems (by simpa using h)
      unfold Heat.Spec.nodes at this ⊢
      rw [List.zipWith_cons_cons, List.map_cons, this, List.map_cons]
      rfl

theorem node_same {st st' : List ℝ} : ∀ {ws : List ThermalWall} {mems mems' : List SurfaceMemory}, List.Forall₂ (InSync st) ws mems →
    List.Forall₂ (InSync st') ws mems' → (mems'.map fun mem => mem.temperatures) = mems.map (fun mem => mem.temperatures) →
    ∀ tw ∈ ws, ∀ j < tw.parent.nodes, st'[tw.parent.first.getD 0 + j]? = st[tw.parent.first.getD 0 + j]? := by
  intro ws mems mems' h
  induction h generalizing mems' with
  | nil => intro _ _ tw ht; cases ht
  | @cons tw mem ws mems h1 h2 ih =>
    intro h' he tw' ht j hj
    obtain ⟨mem', mems', g1, g2, rfl⟩ := List.forall₂_cons_left_iff.1 h'
    rw [List.map_cons, List.map_cons, List.cons.injEq] at he
    rcases List.mem_cons.1 ht with rfl | ht
    · rw [← h1.2 j hj, ← g1.2 j hj, he.1]
    · exact ih g2 he.2 tw' ht j hj

/-- **C104.**  In a building at rest, in the dark and without heating, the state of the whole building stays as it is, however
many steps go by and however the wind blows: only convection coefficients and heat flows may change.  It is still at rest. -/
theorem C104_rest {m : ThermalModel} (tiny : ℝ) (htiny : 0 < tiny) (cav : CavityU ℝ) (t : ℝ) (index : String → Option ℕ)
    (W : Set StepWeather) (dt : ℝ) (ws : List StepWeather) (mem : Memory) (st : List ℝ) (hW : Wired m st.length)
    (hs : Synced m mem st) (hr : Heat.Spec.AtRest (apart m mem st) tiny cav t index W) (hw : ∀ w ∈ ws, w ∈ W ∧ w.tOut = t) :
    ∃ mem' st', march m tiny cav index dt ws mem st = .ok (mem', st') ∧ Synced m mem' st' ∧ st'.length = st.length ∧
      Heat.Spec.AtRest (apart m mem' st') tiny cav t index W ∧ ∀ k, k ∉ flows m → st'[k]? = st[k]? := by
  obtain ⟨hs', h1, h2, h3, h4, h5⟩ := C87_building tiny htiny cav t index W dt ws _ hr hw
  obtain ⟨mem', st', g1, rfl, g3, g4, g5⟩ := (C104_march tiny cav index dt ws mem st hW hs).1 hs' h1
  refine ⟨mem', st', g1, g3, g4, h2, fun k hk => ?_⟩
  have e4 : (mem'.surfaces.map fun mem => mem.temperatures) = mem.surfaces.map fun mem => mem.temperatures := by
    rw [← nodes_apart st' m.surfaces mem'.surfaces g3.surfaces.length_eq, ← nodes_apart st m.surfaces mem.surfaces hs.surfaces.length_eq]
    exact h4
  have e5 : (mem'.fenestrations.map fun mem => mem.temperatures) = mem.fenestrations.map fun mem => mem.temperatures := by
    rw [← nodes_apart st' m.fenestrations mem'.fenestrations g3.fenestrations.length_eq,
      ← nodes_apart st m.fenestrations mem.fenestrations hs.fenestrations.length_eq]
    exact h5
  by_cases hkw : k ∈ writes m
  · rcases writes_cases hkw with h | ⟨tw, ht, j, hj, rfl⟩ | ⟨tw, ht, j, hj, rfl⟩ | ⟨z, hz, rfl⟩
    · exact absurd h hk
    · exact node_same hs.surfaces g3.surfaces e4 tw ht j hj
    · exact node_same hs.fenestrations g3.fenestrations e5 tw ht j hj
    · obtain ⟨k, k1, k2⟩ := hW.rooms z hz
      obtain ⟨i, hi, rfl⟩ := List.mem_iff_getElem.1 hz
      have h3' : m.rooms.map (room st') = m.rooms.map (room st) := h3
      have := congrArg (fun l => (l[i]?).map ZoneIn.temp) h3'
      simp only [List.getElem?_map, List.getElem?_eq_getElem hi, Option.map_some, Option.some.injEq] at this
      rw [k1]
      unfold room value at this
      rw [k1] at this
      simpa using this
  · exact g5 k hkw

/-! ## Nodes inside -/

/-- **C104 is violated** where the temperature of a node inside a surface is set in the state: a step goes by the temperatures
in its memory, and comes to the same, whatever was set. -/
theorem C104_violated_nodes {m : ThermalModel} (tiny : ℝ) (cav : CavityU ℝ) (index : String → Option ℕ) (w : StepWeather) (dt : ℝ)
    (mem : Memory) (st : List ℝ) (hW : Wired m st.length) (hmem : Sized m mem) (r : Memory × List ℝ)
    (h : step m tiny cav index w dt mem st = .ok r) (tw : ThermalWall) (ht : tw ∈ m.surfaces ++ m.fenestrations) (j : ℕ) (hj : 0 < j)
    (hj' : j + 1 < tw.parent.nodes) (v : ℝ) :
    step m tiny cav index w dt mem (st.set (tw.parent.first.getD 0 + j) v) = .ok r := by
  obtain ⟨resS, resF, temps, hS, hF, hz, rfl⟩ := step_inv hW tiny cav index w dt mem hmem st rfl _ h
  set k := tw.parent.first.getD 0 + j with hk
  have aS := (alone_list _ _ _ hmem.surfaces hS).imp fun _ _ h => h.1
  have aF := (alone_list _ _ _ hmem.fenestrations hF).imp fun _ _ h => h.1
  have htl : temps.length = m.rooms.length := by
    rw [zonesStep_length hz]
    show (m.rooms.map (room st)).length = _
    simp
  have kT := total_fst aS aF temps htl
  have hkk : k ∈ keys tw.parent := List.mem_append_left _ (List.mem_map.2 ⟨j, by simp; omega, rfl⟩)
  have hkw : k ∈ writes m := by
    rcases List.mem_append.1 ht with ht | ht
    · exact List.mem_append_left _ (List.mem_append_left _ (List.mem_flatMap.2 ⟨tw, ht, hkk⟩))
    · exact List.mem_append_left _ (List.mem_append_right _ (List.mem_flatMap.2 ⟨tw, ht, hkk⟩))
  have hother : ∀ (f : Option ℕ), f ≠ some k → value (st.set k v) f = value st f := by
    intro f hf
    cases f with
    | none => rfl
    | some i =>
      show (st.set k v)[i]? = st[i]?
      rw [List.getElem?_set_ne]
      intro e
      exact hf (by rw [e])
  have hd := hW.distinct
  unfold writes at hd
  obtain ⟨hd1, hd2, hd3⟩ := List.nodup_append.1 hd
  have hk1 : k ∈ m.surfaces.flatMap (fun tw => keys tw.parent) ++ m.fenestrations.flatMap (fun tw => keys tw.parent) := by
    rcases List.mem_append.1 ht with ht | ht
    · exact List.mem_append_left _ (List.mem_flatMap.2 ⟨tw, ht, hkk⟩)
    · exact List.mem_append_right _ (List.mem_flatMap.2 ⟨tw, ht, hkk⟩)
  -- the ends of any surface are other places
  have hends : ∀ tw' ∈ m.surfaces ++ m.fenestrations, tw'.parent.first ≠ some k ∧ tw'.parent.last ≠ some k := by
    have hd' : ((m.surfaces ++ m.fenestrations).flatMap fun tw => keys tw.parent).Nodup := by
      rw [List.flatMap_append]; exact hd1
    have hcomp : ∀ tw' ∈ m.surfaces ++ m.fenestrations, Complete st.length tw'.parent := by
      intro tw' h'
      rcases List.mem_append.1 h' with h' | h'
      · exact hW.surfaces _ h'
      · exact hW.fenestrations _ h'
    obtain ⟨n1, n2⟩ := List.nodup_flatMap.1 hd'
    intro tw' h'
    obtain ⟨a, a1, a2, a3⟩ := (hcomp tw' h').ends
    have hn' := (hcomp tw' h').nodes
    by_cases he : tw' = tw
    · subst he
      rw [a1, a2]
      rw [a1, Option.getD_some] at hk
      constructor
      · intro e; rw [Option.some.injEq] at e; omega
      · intro e; rw [Option.some.injEq] at e; omega
    · have hdis : List.Disjoint (keys tw'.parent) (keys tw.parent) := by
        obtain ⟨i1, l1, e1⟩ := List.mem_iff_getElem.1 h'
        obtain ⟨i2, l2, e2⟩ := List.mem_iff_getElem.1 ht
        have hp := List.pairwise_iff_getElem.1 n2
        rcases Nat.lt_trichotomy i1 i2 with hlt | heq | hgt
        · have := hp i1 i2 l1 l2 hlt
          rw [e1, e2] at this
          exact this
        · subst heq
          exact absurd (e1.symm.trans e2) he
        · have := hp i2 i1 l2 l1 hgt
          rw [e1, e2] at this
          exact this.symm
      exact ⟨fun e => hdis (mem_nodeKeys (hcomp tw' h') (.inl e)) hkk, fun e => hdis (mem_nodeKeys (hcomp tw' h') (.inr e)) hkk⟩
  have hread : ∀ tw' ∈ m.surfaces ++ m.fenestrations, readings (st.set k v) tw'.parent = readings st tw'.parent := by
    intro tw' h'
    have hrad : ∀ s q, q = .sun ∨ q = .infrared → tw'.parent.field s q ≠ some k := fun s q hq e => hW.radiation tw' h' s q hq k e hkw
    unfold readings
    rw [hother _ (hends tw' h').1, hother _ (hends tw' h').2, hother _ (hrad _ _ (.inl rfl)), hother _ (hrad _ _ (.inl rfl)),
      hother _ (hrad _ _ (.inr rfl)), hother _ (hrad _ _ (.inr rfl))]
  have hroom : ∀ z ∈ m.rooms, room (st.set k v) z = room st z := by
    intro z hz
    have h := hW.air z hz
    unfold room
    rw [hother _ fun e => (h k (.inl e)).2 hkw, hother _ fun e => (h k (.inr (.inl e))).2 hkw,
      hother _ fun e => (h k (.inr (.inr (.inl e)))).2 hkw, hother _ fun e => (h k (.inr (.inr (.inr e)))).2 hkw,
      hother _ fun e => hd3 k hk1 k (by rw [List.mem_map]; exact ⟨z, hz, by rw [e]; rfl⟩) rfl]
  have hsp : spaceTemperature m.rooms index (st.set k v) = spaceTemperature m.rooms index st := by
    funext name
    unfold spaceTemperature
    cases index name with
    | none => rfl
    | some i =>
      simp only [Option.bind_some]
      cases hz : m.rooms[i]? with
      | none => rfl
      | some z => exact congrArg ZoneIn.temp (hroom z (List.mem_of_getElem? hz))
  have hAlone : ∀ (ws : List ThermalWall) (mems : List SurfaceMemory) (res : List (Written × SurfaceMemory)),
      (∀ tw' ∈ ws, tw' ∈ m.surfaces ++ m.fenestrations) →
      List.Forall₂ (Alone tiny cav w dt (spaceTemperature m.rooms index st) st) (ws.zip mems) res →
      List.Forall₂ (Alone tiny cav w dt (spaceTemperature m.rooms index (st.set k v)) (st.set k v)) (ws.zip mems) res := by
    intro ws mems res hsub hA
    refine forall₂_imp_mem (fun x hx r hr => ?_) hA
    have hx1 := (List.of_mem_zip (show (x.1, x.2) ∈ _ from hx)).1
    unfold Alone at hr ⊢
    rw [hsp, hread x.1 (hsub _ hx1)]
    exact hr
  have hS' := hAlone _ _ _ (fun x hx => by simp [hx]) hS
  have hF' := hAlone _ _ _ (fun x hx => by simp [hx]) hF
  have hafter : ∀ (ws : List ThermalWall) (mems : List SurfaceMemory) (res : List (Written × SurfaceMemory)),
      (∀ tw' ∈ ws, tw' ∈ m.surfaces ++ m.fenestrations) →
      List.zipWith (after (st.set k v) index) (ws.zip mems) res = List.zipWith (after st index) (ws.zip mems) res := by
    intro ws
    induction ws with
    | nil => intro mems res _; rfl
    | cons a ws ih =>
      intro mems res hsub
      cases mems with
      | nil => rfl
      | cons b mems =>
        cases res with
        | nil => rfl
        | cons r res =>
          rw [List.zip_cons_cons, List.zipWith_cons_cons, List.zipWith_cons_cons, ih mems res fun x hx => hsub x (by simp [hx])]
          congr 1
          unfold after part
          rw [hread a (hsub a (by simp))]
  have hpow : ∀ a ∈ m.hvacs ++ m.luminaires, (a.space, value (st.set k v) a.power) = (a.space, value st a.power) := by
    intro a ha
    rw [hother _ fun e => (hW.powers a ha k e).2 hkw]
  have hin : inputs m mem index (st.set k v) resS resF = inputs m mem index st resS resF := by
    unfold inputs
    rw [hafter _ _ _ (fun x hx => by simp [hx]), hafter _ _ _ (fun x hx => by simp [hx]), List.map_congr_left hroom,
      List.map_congr_left fun a ha => hpow a (by simp [ha]), List.map_congr_left fun a ha => hpow a (by simp [ha])]
  rw [step_of hW tiny cav index w dt mem hmem (st.set k v) (by simp) resS resF hS' hF', hin, hz, Outcome.bind]
  congr 2
  apply List.ext_getElem?
  intro i
  by_cases hi : i ∈ (total m resS resF temps).map Prod.fst
  · obtain ⟨p, hp, rfl⟩ := List.mem_map.1 hi
    have hdT : ((total m resS resF temps).map Prod.fst).Nodup := by rw [kT]; exact hW.distinct
    by_cases hlt : p.1 < st.length
    · rw [assignAll_get _ _ p.1 p.2 hdT hp (by simpa using hlt), assignAll_get _ _ p.1 p.2 hdT hp hlt]
    · rw [List.getElem?_eq_none (by rw [assignAll_length]; simpa using hlt), List.getElem?_eq_none (by rw [assignAll_length]; omega)]
  · rw [assignAll_other _ _ _ hi, assignAll_other _ _ _ hi, List.getElem?_set_ne]
    rintro rfl
    exact hi (by rw [kT]; exact hkw)

/-! ## Examples -/

/-- A wall of three nodes with mass. -/
def exampleThick : Surf :=
  { exampleWall with
    frontAlphas := [0.7, 0, 0], backAlphas := [0, 0, 0.7],
    segments := [(50000, .solid 2), (70000, .solid 2), (50000, .back)], massiveChunks := [(0, 3)] }

theorem exampleThick_rest (cav : CavityU ℝ) (index : String → Option ℕ) (n : ℕ)
    (hi : ∀ name, ∃ i, index name = some i ∧ i < n) (mem : SurfaceMemory)
    (hm : exampleThick.allocate [20, 20, 20] = .ok mem) (W : Set StepWeather) :
    Heat.Spec.PartAtRest ⟨exampleThick, exampleReadings, mem⟩ 1e-9 cav 20 index n W (fun _ => 2) := by
  obtain ⟨mem', h1, h2, h3⟩ := C87_allocated exampleThick [20, 20, 20]
  rw [hm] at h1
  cases h1
  refine ⟨⟨by simp [exampleThick], rfl, rfl, ?_, by simp [exampleThick, exampleWall], by simp [exampleThick]⟩, ?_, h2, ?_, ?_, fun name _ => hi name⟩
  · intro i x hi hx
    have : i = 0 ∨ i = 1 := by simp [exampleThick] at hi; omega
    rcases this with rfl | rfl
    · simp only [exampleThick, List.getElem?_cons_zero, Option.some.injEq] at hx
      rw [← hx]; rfl
    · simp only [exampleThick, List.getElem?_cons_succ, List.getElem?_cons_zero, Option.some.injEq] at hx
      rw [← hx]; rfl
  · refine ⟨by norm_num, rfl, rfl, Or.inl rfl, Or.inl rfl, ?_, ?_, ?_, ?_, ?_, ?_⟩ <;> simp [exampleThick, exampleWall]
  · show mem.temperatures = _
    rw [h3]; rfl
  · intro w _ f b _ c hc
    simp [exampleThick, exampleWall] at hc

/-- A surface with its places from `b` on. -/
def exampleWallAt (b nodes : ℕ) : Wiring.Wall where
  opening := false
  nodes := nodes
  field := fun s q => some (b + match s, q with
    | .front, .convection => 0 | .back, .convection => 1 | .front, .heatFlow => 2 | .back, .heatFlow => 3
    | .front, .sun => 4 | .back, .sun => 5 | .front, .infrared => 6 | .back, .infrared => 7)
  first := some (b + 8)
  last := some (b + 8 + nodes - 1)

/-- Two rooms with a thick wall between them and a door to the outdoors. -/
def exampleHouse : ThermalModel where
  rooms := [⟨⟨some 0, some 23, some 24⟩, none, none, 50⟩, ⟨⟨some 1, none, none⟩, none, none, 80⟩]
  surfaces := [⟨exampleThick, exampleWallAt 2 3⟩]
  fenestrations := [⟨exampleDoor, exampleWallAt 13 2⟩]
  hvacs := [⟨0, some 25⟩]
  luminaires := []

def exampleState : List ℝ :=
  [20, 20, 1, 1, 0, 0, 0, 0, 0, sigma * (20 + 273.15) ^ 4, 20, 20, 20, 1, 1, 0, 0, 0, 0, 0, sigma * (20 + 273.15) ^ 4, 20, 20, 0.1, 20, 0]

theorem exampleWallAt_complete (b nodes n : ℕ) (h : 0 < nodes) (hn : b + 8 + nodes ≤ n) : Complete n (exampleWallAt b nodes) :=
  ⟨fun s q => ⟨_, rfl, by cases s <;> cases q <;> (dsimp only; omega)⟩, h, ⟨b + 8, rfl, rfl, hn⟩⟩

theorem exampleHouse_writes : writes exampleHouse = [10, 11, 12, 2, 3, 4, 5, 21, 22, 13, 14, 15, 16, 0, 1] := rfl

theorem exampleHouse_wired : Wired exampleHouse 26 := by
  refine ⟨?_, ?_, ?_, by rw [exampleHouse_writes]; decide, ?_, ?_, ?_⟩
  · intro tw h
    obtain rfl := List.mem_singleton.1 h
    exact exampleWallAt_complete _ _ _ (by norm_num) (by norm_num)
  · intro tw h
    obtain rfl := List.mem_singleton.1 h
    exact exampleWallAt_complete _ _ _ (by norm_num) (by norm_num)
  · intro z h
    rcases List.mem_cons.1 h with rfl | h
    · exact ⟨0, rfl, by norm_num⟩
    · obtain rfl := List.mem_singleton.1 h
      exact ⟨1, rfl, by norm_num⟩
  · rw [exampleHouse_writes]
    intro tw h s q hq k hk
    rcases List.mem_cons.1 h with rfl | h
    · rcases hq with rfl | rfl <;> cases s <;> cases hk <;> decide
    · obtain rfl := List.mem_singleton.1 h
      rcases hq with rfl | rfl <;> cases s <;> cases hk <;> decide
  · rw [exampleHouse_writes]
    intro z h k hk
    rcases List.mem_cons.1 h with rfl | h
    · rcases hk with hk | hk | hk | hk <;> cases hk <;> decide
    · obtain rfl := List.mem_singleton.1 h
      rcases hk with hk | hk | hk | hk <;> cases hk
  · rw [exampleHouse_writes]
    intro a h k hk
    obtain rfl := List.mem_singleton.1 (show a ∈ [(⟨0, some 25⟩ : Appliance)] from h)
    cases hk
    decide

theorem exampleHouse_rest (cav : CavityU ℝ) : ∃ mem, allocate exampleHouse exampleState = .ok mem ∧ Synced exampleHouse mem exampleState ∧
    Heat.Spec.AtRest (apart exampleHouse mem exampleState) 1e-9 cav 20 (fun name => if name = "a" then some 0 else some 1) Set.univ := by
  obtain ⟨m1, a1, -, a3⟩ := C87_allocated exampleThick [20, 20, 20]
  obtain ⟨m2, b1, -, b3⟩ := C87_allocated exampleDoor [20, 20]
  have hi : ∀ name : String, ∃ i, (if name = "a" then some 0 else some 1 : Option ℕ) = some i ∧ i < 2 := by
    intro name
    by_cases h : name = "a"
    · exact ⟨0, by rw [if_pos h], by norm_num⟩
    · exact ⟨1, by rw [if_neg h], by norm_num⟩
  have g1 : getNodes (exampleWallAt 2 3) exampleState = .ok [20, 20, 20] := rfl
  have g2 : getNodes (exampleWallAt 13 2) exampleState = .ok [20, 20] := rfl
  refine ⟨⟨[m1], [m2]⟩, ?_, ⟨.cons ⟨by rw [a3]; rfl, ?_⟩ .nil, .cons ⟨by rw [b3]; rfl, ?_⟩ .nil⟩, ?_, ?_, ?_, ?_, ?_⟩
  · unfold allocate
    simp only [exampleHouse, collect]
    rw [g1, g2]
    simp only [Outcome.bind]
    rw [a1, b1]
  · rw [a3]
    intro j hj
    change j < 3 at hj
    interval_cases j <;> rfl
  · rw [b3]
    intro j hj
    change j < 2 at hj
    interval_cases j <;> rfl
  · intro z hz
    rcases List.mem_cons.1 hz with rfl | hz
    · exact ⟨rfl, fun t' h => ⟨_, rfl, .inl (Option.some.inj h).symm⟩, fun t' h => (by cases h)⟩
    · obtain rfl := List.mem_singleton.1 hz
      exact ⟨rfl, ⟨fun t' h => (by cases h), fun t' h => (by cases h)⟩⟩
  · intro x hx
    obtain rfl := List.mem_singleton.1 hx
    exact ⟨by norm_num [apart, exampleHouse], rfl⟩
  · intro x hx
    cases hx
  · intro p hp
    obtain rfl := List.mem_singleton.1 hp
    exact ⟨_, exampleThick_rest cav _ 2 hi m1 a1 _⟩
  · intro p hp
    obtain rfl := List.mem_singleton.1 hp
    exact ⟨_, exampleDoor_rest cav _ 2 hi m2 b1 _⟩

/-- `C104_rest`, and with it `C104_march` and `C104_allocated`, are not vacuous: a house of two rooms whose steps go through. -/
example (cav : CavityU ℝ) (dt : ℝ) (ws : List StepWeather) (hw : ∀ w ∈ ws, w.tOut = 20) :
    ∃ mem mem' st', allocate exampleHouse exampleState = .ok mem ∧
      march exampleHouse 1e-9 cav (fun name => if name = "a" then some 0 else some 1) dt ws mem exampleState = .ok (mem', st') ∧
      st'[0]? = some 20 ∧ st'[11]? = some 20 ∧ st'.length = 26 := by
  obtain ⟨mem, h1, h2, h3⟩ := exampleHouse_rest cav
  obtain ⟨mem', st', g1, -, g3, -, g4⟩ := C104_rest 1e-9 (by norm_num) cav 20 _ Set.univ dt ws mem exampleState exampleHouse_wired h2 h3
    fun w h => ⟨Set.mem_univ _, hw w h⟩
  have hf : flows exampleHouse = [2, 3, 4, 5, 13, 14, 15, 16] := rfl
  exact ⟨mem, mem', st', h1, g1, by rw [g4 0 (by rw [hf]; decide)]; rfl, by rw [g4 11 (by rw [hf]; decide)]; rfl, g3⟩

/-- `C104_violated_nodes` is met in this house: setting the node in the middle of the wall to 80 degrees is to no avail. -/
example (cav : CavityU ℝ) (dt : ℝ) (w : StepWeather) (hw : w.tOut = 20) :
    ∃ mem r, step exampleHouse 1e-9 cav (fun name => if name = "a" then some 0 else some 1) w dt mem exampleState = .ok r ∧
      step exampleHouse 1e-9 cav (fun name => if name = "a" then some 0 else some 1) w dt mem (exampleState.set 11 80) = .ok r ∧
      r.2[11]? = some 20 := by
  obtain ⟨mem, h1, h2, h3⟩ := exampleHouse_rest cav
  obtain ⟨mem', st', g1, -, g3, -, g4⟩ := C104_rest 1e-9 (by norm_num) cav 20 _ Set.univ dt [w] mem exampleState exampleHouse_wired h2 h3
    fun w' h => ⟨Set.mem_univ _, by rw [List.mem_singleton.1 h]; exact hw⟩
  rw [march] at g1
  obtain ⟨a, a1, a2⟩ := bind_ok g1
  cases a2
  have hf : flows exampleHouse = [2, 3, 4, 5, 13, 14, 15, 16] := rfl
  refine ⟨mem, a, a1, ?_, by rw [g4 11 (by rw [hf]; decide)]; rfl⟩
  exact C104_violated_nodes _ cav _ w dt mem exampleState exampleHouse_wired (Synced.sized h2) _ a1 ⟨exampleThick, exampleWallAt 2 3⟩
    (by simp [exampleHouse]) 1 (by norm_num) (by show 1 + 1 < 3; norm_num) 80

/-- `C104_step_partial` and `C104_surface` are not vacuous either. -/
example (cav : CavityU ℝ) (dt : ℝ) (w : StepWeather) (hw : w.tOut = 20) :
    ∃ mem hs, Sized exampleHouse mem ∧ Wired exampleHouse exampleState.length ∧
      (apart exampleHouse mem exampleState).step 1e-9 cav (fun name => if name = "a" then some 0 else some 1) w dt = .ok hs := by
  obtain ⟨mem, h1, h2, h3⟩ := exampleHouse_rest cav
  obtain ⟨hs, k1, -⟩ := step_rest _ 1e-9 (by norm_num) cav 20 _ Set.univ h3 w (Set.mem_univ _) hw dt
  exact ⟨mem, hs, Synced.sized h2, exampleHouse_wired, k1⟩

end
end Simple.Heat.Whole
