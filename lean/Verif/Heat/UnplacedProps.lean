import Verif.Heat.WholeProps

/-! # C104: buildings whose parts have no place in the state -/

namespace Simple.Heat.Whole

open Simple.Building Wiring

private theorem expect_cases (field : Option ℕ) (state : List ℝ) : (∃ v, expect field state = .ok v) ∨ expect field state = .panic := by
  cases field with
  | none => exact .inr rfl
  | some k =>
    unfold expect Outcome.index
    cases h : state[k]? with
    | none => exact .inr (by simp [h])
    | some v => exact .inl ⟨v, by simp [h]⟩

private theorem collect_panics {α β : Type} (f : α → Outcome β) : ∀ l : List α, (∀ x ∈ l, (∃ v, f x = .ok v) ∨ f x = .panic) →
    (∃ x ∈ l, f x = .panic) → collect f l = .panic
  | [], _, ⟨_, h, _⟩ => by cases h
  | x :: l, hl, hp => by
    rw [collect]
    rcases hl x (by simp) with ⟨v, hv⟩ | hv
    · rw [hv]
      have : ∃ y ∈ l, f y = .panic := by
        obtain ⟨y, h1, h2⟩ := hp
        rcases List.mem_cons.1 h1 with rfl | h1
        · rw [hv] at h2; cases h2
        · exact ⟨y, h1, h2⟩
      simp only [Outcome.bind, collect_panics f l (fun y hy => hl y (by simp [hy])) this]
    · rw [hv]
      rfl

/-- C104: if a room has no place in the state for its temperature the march panics, whatever else there is. -/
theorem C104_room_unplaced (m : ThermalModel) (h : ∃ z ∈ m.rooms, z.places.dryBulb = none) (tiny : ℝ) (cav : CavityU ℝ) (index : String → Option ℕ)
    (dt : ℝ) (w : StepWeather) (ws : List StepWeather) (mem : Memory) (state : List ℝ) :
    march m tiny cav index dt (w :: ws) mem state = .panic := by
  obtain ⟨z, h1, h2⟩ := h
  have : collect (fun z : Room => expect z.places.dryBulb state) m.rooms = .panic :=
    collect_panics _ _ (fun z _ => expect_cases _ _) ⟨z, h1, by rw [h2]; rfl⟩
  rw [march, step, this]
  rfl

/-- It is not vacuous: the second of two rooms. -/
example (mem : Memory) (w : StepWeather) (cav : CavityU ℝ) : march ⟨[⟨⟨some 0, none, none⟩, none, none, 50⟩, ⟨⟨none, none, none⟩, none, none, 80⟩], [], [], [], []⟩
    1e-9 cav (fun _ => none) 300 [w] mem [20] = .panic :=
  C104_room_unplaced _ ⟨_, List.mem_cons_of_mem _ (List.mem_singleton.2 rfl), rfl⟩ _ _ _ _ _ _ _ _

private theorem getNodes_cases (w : Wiring.Wall) (state : List ℝ) : (∃ v, getNodes w state = .ok v) ∨ getNodes w state = .panic := by
  unfold getNodes
  cases w.first with
  | none => exact .inr rfl
  | some ini =>
    cases w.last with
    | none => exact .inr rfl
    | some last =>
      simp only
      have hi : ∀ j, (∃ v, Outcome.index state (ini + j) = .ok v) ∨ Outcome.index state (ini + j) = .panic := fun j => expect_cases (some (ini + j)) state
      by_cases hp : ∃ j ∈ List.range (last + 1 - ini), Outcome.index state (ini + j) = .panic
      · exact .inr (collect_panics _ _ (fun j _ => hi j) hp)
      · refine .inl ⟨_, collect_map _ (fun j => (state[ini + j]?).getD 0) _ fun j hj => ?_⟩
        rcases hi j with ⟨v, hv⟩ | hv
        · rw [hv]
          unfold Outcome.index at hv
          cases e : state[ini + j]? with
          | none => simp [e] at hv
          | some u => simpa [e] using hv.symm
        · exact absurd ⟨j, hj, hv⟩ hp

private theorem collect_total {α β : Type} (f : α → Outcome β) : ∀ l : List α, (∀ x ∈ l, ∃ v, f x = .ok v) → ∃ r, collect f l = .ok r
  | [], _ => ⟨[], rfl⟩
  | x :: l, h => by
    obtain ⟨v, hv⟩ := h x (by simp)
    obtain ⟨r, hr⟩ := collect_total f l fun y hy => h y (by simp [hy])
    exact ⟨v :: r, by rw [collect, hv]; simp only [Outcome.bind, hr]⟩

/-- C104: to prepare a building panics if a surface or an opening has no place in the state for its nodes, and only then if the places that there are
are within the state. -/
theorem C104_wall_unplaced (m : ThermalModel) (state : List ℝ)
    (hs : ∀ tw ∈ m.surfaces ++ m.fenestrations, ∀ last, tw.parent.last = some last → last < state.length) :
    ((∃ tw ∈ m.surfaces ++ m.fenestrations, tw.parent.first = none ∨ tw.parent.last = none) → allocate m state = .panic) ∧
      ((∀ tw ∈ m.surfaces ++ m.fenestrations, tw.parent.first ≠ none ∧ tw.parent.last ≠ none) → ∃ mem, allocate m state = .ok mem) := by
  have one : ∀ tw : ThermalWall, (∃ v, (getNodes tw.parent state).bind tw.surf.allocate = .ok v) ∨
      (getNodes tw.parent state).bind tw.surf.allocate = .panic := by
    intro tw
    rcases getNodes_cases tw.parent state with ⟨v, hv⟩ | hv
    · obtain ⟨mem, h, -⟩ := C87_allocated tw.surf v
      exact .inl ⟨mem, by rw [hv]; exact h⟩
    · exact .inr (by rw [hv]; rfl)
  have all : ∀ l : List ThermalWall, (∃ r, collect (fun tw => (getNodes tw.parent state).bind tw.surf.allocate) l = .ok r) ∨
      collect (fun tw => (getNodes tw.parent state).bind tw.surf.allocate) l = .panic := by
    intro l
    by_cases h : ∃ x ∈ l, (getNodes x.parent state).bind x.surf.allocate = .panic
    · exact .inr (collect_panics _ l (fun x _ => one x) h)
    · exact .inl (collect_total _ l fun x hx => (one x).resolve_right fun e => h ⟨x, hx, e⟩)
  have unfolded : allocate m state = (collect (fun tw => (getNodes tw.parent state).bind tw.surf.allocate) m.surfaces).bind fun s =>
      (collect (fun tw => (getNodes tw.parent state).bind tw.surf.allocate) m.fenestrations).bind fun f => .ok ⟨s, f⟩ := rfl
  constructor
  · rintro ⟨tw, h1, h2⟩
    have hp : (getNodes tw.parent state).bind tw.surf.allocate = .panic := by
      have : getNodes tw.parent state = .panic := by
        unfold getNodes
        rcases h2 with h2 | h2 <;> rw [h2]
        cases tw.parent.first <;> rfl
      rw [this]
      rfl
    rw [unfolded]
    rcases List.mem_append.1 h1 with h1 | h1
    · rw [collect_panics _ m.surfaces (fun x _ => one x) ⟨tw, h1, hp⟩]
      rfl
    · rw [collect_panics _ m.fenestrations (fun x _ => one x) ⟨tw, h1, hp⟩]
      rcases all m.surfaces with ⟨r, hr⟩ | hr <;> rw [hr] <;> rfl
  · intro h
    have ok : ∀ tw ∈ m.surfaces ++ m.fenestrations, ∃ v, (getNodes tw.parent state).bind tw.surf.allocate = .ok v := by
      intro tw htw
      obtain ⟨h1, h2⟩ := h tw htw
      obtain ⟨ini, e1⟩ := Option.ne_none_iff_exists'.1 h1
      obtain ⟨last, e2⟩ := Option.ne_none_iff_exists'.1 h2
      have hl := hs tw htw last e2
      obtain ⟨r, hr⟩ := collect_total (fun j => Outcome.index state (ini + j)) (List.range (last + 1 - ini)) fun j hj => by
        have hj := List.mem_range.1 hj
        exact ⟨state[ini + j], by simp [Outcome.index, List.getElem?_eq_getElem (show ini + j < state.length by omega)]⟩
      obtain ⟨mem, hm, -⟩ := C87_allocated tw.surf r
      refine ⟨mem, ?_⟩
      unfold getNodes
      rw [e1, e2]
      simp only [hr]
      exact hm
    obtain ⟨r1, e1⟩ := collect_total _ m.surfaces fun tw htw => ok tw (by simp [htw])
    obtain ⟨r2, e2⟩ := collect_total _ m.fenestrations fun tw htw => ok tw (by simp [htw])
    refine ⟨⟨r1, r2⟩, ?_⟩
    rw [unfolded, e1, e2]
    rfl

/-- C104: a surface with no place in the state for the sun or the infrared that reaches it makes the march panic; here the first one, as those before it
may refuse to go on. -/
theorem C104_radiation_unplaced (m : ThermalModel) (tw : ThermalWall) (rest : List ThermalWall) (hm : m.surfaces = tw :: rest)
    (h : ∃ s, tw.parent.field s .sun = none ∨ tw.parent.field s .infrared = none) (tiny : ℝ) (cav : CavityU ℝ) (index : String → Option ℕ)
    (dt : ℝ) (w : StepWeather) (ws : List StepWeather) (mem : Memory) (state : List ℝ) :
    march m tiny cav index dt (w :: ws) mem state = .panic := by
  have key : readWall tw.parent state = .panic := by
    have hn : ∀ field v, expect field state = .ok v → field ≠ none := by
      rintro field v h rfl
      cases h
    unfold readWall
    rcases expect_cases tw.parent.first state with ⟨v1, e1⟩ | e1 <;> rw [e1] <;> [skip; rfl]
    rcases expect_cases tw.parent.last state with ⟨v2, e2⟩ | e2 <;> rw [e2] <;> [skip; rfl]
    rcases expect_cases (tw.parent.field .front .infrared) state with ⟨v3, e3⟩ | e3 <;> rw [e3] <;> [skip; rfl]
    rcases expect_cases (tw.parent.field .back .infrared) state with ⟨v4, e4⟩ | e4 <;> rw [e4] <;> [skip; rfl]
    rcases expect_cases (tw.parent.field .front .sun) state with ⟨v5, e5⟩ | e5 <;> rw [e5] <;> [skip; rfl]
    rcases expect_cases (tw.parent.field .back .sun) state with ⟨v6, e6⟩ | e6 <;> rw [e6] <;> [skip; rfl]
    obtain ⟨s, h | h⟩ := h <;> cases s
    · exact absurd h (hn _ _ e5)
    · exact absurd h (hn _ _ e6)
    · exact absurd h (hn _ _ e3)
    · exact absurd h (hn _ _ e4)
  rw [march, step]
  rcases (by
      by_cases hp : ∃ z ∈ m.rooms, expect z.places.dryBulb state = .panic
      · exact .inr (collect_panics _ _ (fun z _ => expect_cases _ _) hp)
      · exact .inl (collect_total _ _ fun z hz => (expect_cases _ _).resolve_right fun e => hp ⟨z, hz, e⟩) :
      (∃ r, collect (fun z : Room => expect z.places.dryBulb state) m.rooms = .ok r) ∨
        collect (fun z : Room => expect z.places.dryBulb state) m.rooms = .panic) with ⟨r, hr⟩ | hr
  · rw [hr]
    simp only [Outcome.bind, iterate, hm, collect, sides, key]
  · rw [hr]
    rfl

/-- `C104_wall_unplaced` is not vacuous: of two walls, the second has been given no place. -/
example (surf : Surf) : allocate ⟨[], [⟨surf, ⟨false, 2, fun _ _ => some 0, some 1, some 2⟩⟩], [⟨surf, ⟨true, 2, fun _ _ => some 0, none, none⟩⟩], [], []⟩
    [0, 20, 21] = .panic :=
  (C104_wall_unplaced _ _ (by simp)).1 ⟨_, List.mem_append.2 (.inr (List.mem_singleton.2 rfl)), .inl rfl⟩

/-- Nor is `C104_radiation_unplaced`: a wall for which no solar model was made. -/
example (surf : Surf) (mem : Memory) (w : StepWeather) (cav : CavityU ℝ) :
    march ⟨[], [⟨surf, ⟨false, 2, fun _ q => match q with | .sun => none | _ => some 0, some 1, some 2⟩⟩], [], [], []⟩ 1e-9 cav (fun _ => none) 300 [w] mem
      [0, 20, 21] = .panic :=
  C104_radiation_unplaced _ _ _ rfl ⟨.front, .inl rfl⟩ _ _ _ _ _ _ _ _

end Simple.Heat.Whole
