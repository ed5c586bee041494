import Mathlib.Data.List.Forall2
import Mathlib.Data.List.Nodup
import Verif.Heat.SurfaceProps
import Verif.Heat.WholeModel
import Verif.Sim.WiringProps

/-! # C104: a step of the heat model on the state of a whole building -/

namespace Simple.Heat.Whole

open Simple.Building Wiring

noncomputable section

namespace Spec

/-- The places that a step writes for a surface: its nodes, convection coefficients and heat flows. -/
def keys (w : Wiring.Wall) : List ℕ :=
  (List.range w.nodes).map (w.first.getD 0 + ·) ++
    [(w.field .front .convection).getD 0, (w.field .back .convection).getD 0,
      (w.field .front .heatFlow).getD 0, (w.field .back .heatFlow).getD 0]

/-- The places that a step writes. -/
def writes (m : ThermalModel) : List ℕ :=
  m.surfaces.flatMap (fun tw => keys tw.parent) ++ m.fenestrations.flatMap (fun tw => keys tw.parent) ++
    m.rooms.map fun z => z.places.dryBulb.getD 0

/-- A surface has all its places, in a state of `n` values; its nodes are contiguous. -/
structure Complete (n : ℕ) (w : Wiring.Wall) : Prop where
  fields : ∀ s q, ∃ k, w.field s q = some k ∧ k < n
  nodes : 0 < w.nodes
  ends : ∃ a, w.first = some a ∧ w.last = some (a + w.nodes - 1) ∧ a + w.nodes ≤ n

/-- Everything has its place in a state of `n` values, no two things are written at the same place, and what is read
but belongs to others is not written. -/
structure Wired (m : ThermalModel) (n : ℕ) : Prop where
  surfaces : ∀ tw ∈ m.surfaces, Complete n tw.parent
  fenestrations : ∀ tw ∈ m.fenestrations, Complete n tw.parent
  rooms : ∀ z ∈ m.rooms, ∃ k, z.places.dryBulb = some k ∧ k < n
  distinct : (writes m).Nodup
  radiation : ∀ tw ∈ m.surfaces ++ m.fenestrations, ∀ s q, q = .sun ∨ q = .infrared → ∀ k, tw.parent.field s q = some k →
    k ∉ writes m
  air : ∀ z ∈ m.rooms, ∀ k, (z.places.infiltrationTemperature = some k ∨ z.places.infiltrationVolume = some k ∨
    z.ventilationTemperature = some k ∨ z.ventilationVolume = some k) → k < n ∧ k ∉ writes m
  powers : ∀ a ∈ m.hvacs ++ m.luminaires, ∀ k, a.power = some k → k < n ∧ k ∉ writes m

/-- A value of the state. -/
def value (st : List ℝ) (field : Option ℕ) : Option ℝ := field.bind (st[·]?)

/-- What the state says about a surface. -/
def readings (st : List ℝ) (w : Wiring.Wall) : Readings where
  front := (value st w.first).getD 0
  back := (value st w.last).getD 0
  irFront := (value st (w.field .front .infrared)).getD 0
  irBack := (value st (w.field .back .infrared)).getD 0
  solarFront := some ((value st (w.field .front .sun)).getD 0)
  solarBack := some ((value st (w.field .back .sun)).getD 0)

/-- What the state says about a room. -/
def room (st : List ℝ) (z : Room) : ZoneIn where
  infTemp := value st z.places.infiltrationTemperature
  infVolume := value st z.places.infiltrationVolume
  ventTemp := value st z.ventilationTemperature
  ventVolume := value st z.ventilationVolume
  temp := value st z.places.dryBulb
  volume := z.volume

/-- A surface with its memory and what the state says about it. -/
def part (st : List ℝ) (tw : ThermalWall) (mem : SurfaceMemory) : Part := ⟨tw.surf, readings st tw.parent, mem⟩

/-- A building apart: every object with its own values. -/
def apart (m : ThermalModel) (mem : Memory) (st : List ℝ) : HeatState where
  rooms := m.rooms.map (room st)
  hvacs := m.hvacs.map fun a => (a.space, value st a.power)
  luminaires := m.luminaires.map fun a => (a.space, value st a.power)
  surfaces := List.zipWith (part st) m.surfaces mem.surfaces
  fenestrations := List.zipWith (part st) m.fenestrations mem.fenestrations

/-- The memory of a surface has the temperatures of its nodes in the state. -/
def InSync (st : List ℝ) (tw : ThermalWall) (mem : SurfaceMemory) : Prop :=
  mem.temperatures.length = tw.parent.nodes ∧
    ∀ j < tw.parent.nodes, mem.temperatures[j]? = st[tw.parent.first.getD 0 + j]?

/-- The memory has the temperatures of all the nodes in the state. -/
structure Synced (m : ThermalModel) (mem : Memory) (st : List ℝ) : Prop where
  surfaces : List.Forall₂ (InSync st) m.surfaces mem.surfaces
  fenestrations : List.Forall₂ (InSync st) m.fenestrations mem.fenestrations

/-- The memories have as many temperatures as there are nodes. -/
structure Sized (m : ThermalModel) (mem : Memory) : Prop where
  surfaces : List.Forall₂ (fun (tw : ThermalWall) (mem : SurfaceMemory) => mem.temperatures.length = tw.parent.nodes) m.surfaces mem.surfaces
  fenestrations : List.Forall₂ (fun (tw : ThermalWall) (mem : SurfaceMemory) => mem.temperatures.length = tw.parent.nodes)
    m.fenestrations mem.fenestrations

end Spec

open Spec

/-! ## Writing in a state -/

/-- Values at places. -/
def assignAll (l : List (ℕ × ℝ)) (st : List ℝ) : List ℝ := l.foldl (fun st p => st.set p.1 p.2) st

theorem assignAll_length (l : List (ℕ × ℝ)) : ∀ st, (assignAll l st).length = st.length := by
  induction l with
  | nil => intro st; rfl
  | cons p l ih => intro st; show (assignAll l (st.set p.1 p.2)).length = _; rw [ih, List.length_set]

theorem assignAll_append (a b : List (ℕ × ℝ)) (st : List ℝ) : assignAll (a ++ b) st = assignAll b (assignAll a st) :=
  List.foldl_append

theorem assignAll_other (l : List (ℕ × ℝ)) : ∀ (st : List ℝ) (k : ℕ), k ∉ l.map Prod.fst → (assignAll l st)[k]? = st[k]? := by
  induction l with
  | nil => intro st k _; rfl
  | cons p l ih =>
    intro st k hk
    simp only [List.map_cons, List.mem_cons, not_or] at hk
    show (assignAll l (st.set p.1 p.2))[k]? = _
    rw [ih _ _ hk.2, List.getElem?_set_ne (Ne.symm hk.1)]

theorem assignAll_get (l : List (ℕ × ℝ)) : ∀ (st : List ℝ) (k : ℕ) (v : ℝ), (l.map Prod.fst).Nodup → (k, v) ∈ l → k < st.length →
    (assignAll l st)[k]? = some v := by
  induction l with
  | nil => intro st k v _ h; cases h
  | cons p l ih =>
    intro st k v hn h hk
    rw [List.map_cons, List.nodup_cons] at hn
    show (assignAll l (st.set p.1 p.2))[k]? = _
    rcases List.mem_cons.1 h with h | h
    · subst h
      rw [assignAll_other _ _ _ hn.1, List.getElem?_set_self hk]
    · exact ih _ _ _ hn.2 h (by rw [List.length_set]; exact hk)

theorem collect_ok {α β : Type} (f : α → Outcome β) : ∀ (l : List α) (r : List β),
    collect f l = .ok r ↔ List.Forall₂ (fun a b => f a = .ok b) l r := by
  intro l
  induction l with
  | nil =>
    intro r
    simp only [collect, List.forall₂_nil_left_iff, Outcome.ok.injEq]
    exact eq_comm
  | cons a l ih =>
    intro r
    rw [collect]
    cases ha : f a with
    | err => simp [Outcome.bind, List.forall₂_cons_left_iff, ha]
    | panic => simp [Outcome.bind, List.forall₂_cons_left_iff, ha]
    | ok b =>
      rw [Outcome.bind]
      cases hl : collect f l with
      | err =>
        simp only [Outcome.bind, List.forall₂_cons_left_iff, reduceCtorEq, false_iff]
        rintro ⟨b', u, -, h2, -⟩
        rw [← ih, hl] at h2
        cases h2
      | panic =>
        simp only [Outcome.bind, List.forall₂_cons_left_iff, reduceCtorEq, false_iff]
        rintro ⟨b', u, -, h2, -⟩
        rw [← ih, hl] at h2
        cases h2
      | ok l' =>
        simp only [Outcome.bind, Outcome.ok.injEq, List.forall₂_cons_left_iff]
        constructor
        · rintro rfl
          exact ⟨b, l', ha, (ih _).1 hl, rfl⟩
        · rintro ⟨b', u, h1, h2, rfl⟩
          rw [ha] at h1
          cases h1
          rw [← ih, hl] at h2
          cases h2
          rfl

/-- A total function that agrees with it on the list. -/
theorem collect_map {α β : Type} (f : α → Outcome β) (g : α → β) (l : List α) (h : ∀ a ∈ l, f a = .ok (g a)) :
    collect f l = .ok (l.map g) := by
  rw [collect_ok, List.forall₂_map_right_iff]
  exact List.forall₂_same.2 h

/-! ## Reading -/

theorem expect_eq {n : ℕ} {field : Option ℕ} {k : ℕ} (hf : field = some k) (hk : k < n) {st : List ℝ} (hl : st.length = n) :
    expect field st = .ok ((value st field).getD 0) := by
  subst hl
  subst hf
  simp only [expect, Outcome.index, value, Option.bind_some, List.getElem?_eq_getElem hk, Option.getD_some]

theorem get_eq {n : ℕ} {field : Option ℕ} (hf : ∀ k, field = some k → k < n) {st : List ℝ} (hl : st.length = n) :
    get field st = .ok (value st field) := by
  subst hl
  cases field with
  | none => rfl
  | some k =>
    have hk := hf k rfl
    simp only [get, Outcome.index, value, Option.bind_some, List.getElem?_eq_getElem hk, Outcome.map]

theorem readWall_eq {n : ℕ} {w : Wiring.Wall} (h : Complete n w) {st : List ℝ} (hl : st.length = n) :
    readWall w st = .ok (readings st w) := by
  obtain ⟨a, h1, h2, h3⟩ := h.ends
  have hn := h.nodes
  have hf := fun s q => (h.fields s q)
  obtain ⟨k1, e1, l1⟩ := hf .front .infrared
  obtain ⟨k2, e2, l2⟩ := hf .back .infrared
  obtain ⟨k3, e3, l3⟩ := hf .front .sun
  obtain ⟨k4, e4, l4⟩ := hf .back .sun
  unfold readWall
  rw [expect_eq h1 (by omega) hl, expect_eq h2 (by omega) hl, expect_eq e1 l1 hl, expect_eq e2 l2 hl, expect_eq e3 l3 hl,
    expect_eq e4 l4 hl]
  rfl

/-! ## The nodes -/

theorem setFrom_eq (temps : List ℝ) : ∀ (count j i : ℕ) (st : List ℝ), j + count = temps.length → i + count ≤ st.length →
    setFrom temps count j i st = .ok (assignAll (((List.range count).map (i + ·)).zip (temps.drop j)) st) := by
  intro count
  induction count with
  | zero => intro j i st _ _; simp [setFrom, assignAll]
  | succ count ih =>
    intro j i st h1 h2
    have hj : j < temps.length := by omega
    rw [setFrom, Outcome.index_of_lt hj, Outcome.bind, if_pos (by omega), ih _ _ _ (by omega) (by rw [List.length_set]; omega),
      List.range_succ_eq_map, List.map_cons, List.drop_eq_getElem_cons hj, List.zip_cons_cons, List.map_map]
    have : ((fun x => i + x) ∘ Nat.succ) = fun x => i + 1 + x := by
      funext x; simp only [Function.comp]; omega
    rw [this]
    rfl

/-! ## The march of a surface keeps its number of nodes -/

theorem halfway_length (temps : List ℝ) : ∀ (count a b : ℕ) (l l' : List ℝ), halfway temps count a b l = .ok l' →
    l'.length = l.length := by
  intro count
  induction count with
  | zero => intro a b l l' h; rw [halfway] at h; cases h; rfl
  | succ count ih =>
    intro a b l l' h
    rw [halfway] at h
    cases h1 : Outcome.index temps a with
    | err => rw [h1] at h; cases h
    | panic => rw [h1] at h; cases h
    | ok v =>
      rw [h1, Outcome.bind] at h
      cases h2 : getT l b with
      | err => rw [h2] at h; cases h
      | panic => rw [h2] at h; cases h
      | ok t =>
        rw [h2, Outcome.bind] at h
        rw [ih _ _ _ _ h, List.length_set]

theorem storeTemps_length (temps : List ℝ) : ∀ (count a b : ℕ) (l l' : List ℝ), storeTemps temps count a b l = .ok l' →
    l'.length = l.length := by
  intro count
  induction count with
  | zero => intro a b l l' h; rw [storeTemps] at h; cases h; rfl
  | succ count ih =>
    intro a b l l' h
    rw [storeTemps] at h
    cases h1 : Outcome.index temps a with
    | err => rw [h1] at h; cases h
    | panic => rw [h1] at h; cases h
    | ok v =>
      rw [h1, Outcome.bind] at h
      by_cases hb : b < l.length
      · rw [if_pos hb] at h
        rw [ih _ _ _ _ h, List.length_set]
      · rw [if_neg hb] at h; cases h

theorem bind_ok {α β : Type} {x : Outcome α} {f : α → Outcome β} {b : β} (h : x.bind f = .ok b) : ∃ a, x = .ok a ∧ f a = .ok b := by
  cases x with
  | ok a => exact ⟨a, rfl, h⟩
  | err => cases h
  | panic => cases h

theorem nomassLoop_length (tiny : ℝ) (cav : CavityU ℝ) (segments : List (ℝ × UValue ℝ)) (solar : List ℝ) (front : Env ℝ)
    (fh fr : ℝ) (back : Env ℝ) (bh br : ℝ) (ini fin : ℕ) : ∀ (left : ℕ) (old : ℝ) (T : List ℝ) (mem : ChunkMemory ℝ)
    (r : List ℝ × ChunkMemory ℝ),
    nomassLoop tiny cav segments solar front fh fr back bh br ini fin left old T mem = .ok r → r.1.length = T.length := by
  intro left
  induction left with
  | zero =>
    intro old T mem r h
    rw [nomassLoop] at h
    obtain ⟨x, -, h⟩ := bind_ok h
    obtain ⟨total, -, h⟩ := bind_ok h
    dsimp only at h
    by_cases c1 : total / ((fin - ini : ℕ) : ℝ) > old
    · rw [if_pos c1] at h; cases h; rfl
    · rw [if_neg c1] at h
      obtain ⟨T', h1, h⟩ := bind_ok h
      have := halfway_length _ _ _ _ _ _ h1
      by_cases c2 : total / ((fin - ini : ℕ) : ℝ) < allowedError (19001 - 0)
      · rw [if_pos c2] at h; cases h; exact this
      · rw [if_neg c2] at h; cases h; exact this
  | succ left ih =>
    intro old T mem r h
    rw [nomassLoop] at h
    obtain ⟨x, -, h⟩ := bind_ok h
    obtain ⟨total, -, h⟩ := bind_ok h
    dsimp only at h
    by_cases c1 : total / ((fin - ini : ℕ) : ℝ) > old
    · rw [if_pos c1] at h; cases h; rfl
    · rw [if_neg c1] at h
      obtain ⟨T', h1, h⟩ := bind_ok h
      have := halfway_length _ _ _ _ _ _ h1
      by_cases c2 : total / ((fin - ini : ℕ) : ℝ) < allowedError (19001 - (left + 1))
      · rw [if_pos c2] at h; cases h; exact this
      · rw [if_neg c2] at h; exact (ih _ _ _ _ h).trans this

theorem marchMass_length (cav : CavityU ℝ) (segments : List (ℝ × UValue ℝ)) (T solar : List ℝ) (dt : ℝ) (front : Env ℝ)
    (fh fr : ℝ) (back : Env ℝ) (bh br : ℝ) (ini fin : ℕ) (mem : ChunkMemory ℝ) (r : List ℝ × ChunkMemory ℝ)
    (h : marchMass cav segments T solar dt front fh fr back bh br ini fin mem = .ok r) : r.1.length = T.length := by
  unfold marchMass at h
  obtain ⟨_, -, h⟩ := bind_ok h
  obtain ⟨_, -, h⟩ := bind_ok h
  obtain ⟨_, -, h⟩ := bind_ok h
  obtain ⟨_, -, h⟩ := bind_ok h
  obtain ⟨_, -, h⟩ := bind_ok h
  obtain ⟨_, -, h⟩ := bind_ok h
  obtain ⟨T', h1, h⟩ := bind_ok h
  cases h
  exact storeTemps_length _ _ _ _ _ _ h1

theorem chunksLoop_length (march : MarchChunk) (hm : ∀ a b m T r, march a b m T = .ok r → r.1.length = T.length) :
    ∀ (cs : List (ℕ × ℕ)) (mems : List (ChunkMemory ℝ)) (T : List ℝ) (r : List ℝ × List (ChunkMemory ℝ)),
      chunksLoop march cs mems T = .ok r → r.1.length = T.length := by
  intro cs
  induction cs with
  | nil => intro mems T r h; rw [chunksLoop] at h; cases h; rfl
  | cons c cs ih =>
    intro mems T r h
    cases mems with
    | nil => cases h
    | cons mem mems =>
      rw [chunksLoop] at h
      obtain ⟨x, h1, h⟩ := bind_ok h
      obtain ⟨y, h2, h⟩ := bind_ok h
      cases h
      exact (ih _ _ _ h2).trans (hm _ _ _ _ _ h1)

theorem march_length (s : Surf) (tiny : ℝ) (cav : CavityU ℝ) (r : Readings) (tf tb wd v dt : ℝ) (mem mem' : SurfaceMemory)
    (h : s.march tiny cav r tf tb wd v dt mem = .ok mem') : mem'.temperatures.length = mem.temperatures.length := by
  unfold Surf.march at h
  obtain ⟨_, -, h⟩ := bind_ok h
  obtain ⟨_, -, h⟩ := bind_ok h
  dsimp only at h
  obtain ⟨y, h1, h⟩ := bind_ok h
  obtain ⟨z, h2, h⟩ := bind_ok h
  cases h
  have e1 := chunksLoop_length _ (fun a b m T r hr => nomassLoop_length _ _ _ _ _ _ _ _ _ _ _ _ _ _ _ _ _ hr) _ _ _ _ h1
  have e2 := chunksLoop_length _ (fun a b m T r hr => marchMass_length _ _ _ _ _ _ _ _ _ _ _ _ _ _ _ hr) _ _ _ _ h2
  exact e2.trans e1

/-! ## What is written for a surface -/

/-- Places and values. -/
def pairs (w : Wiring.Wall) (x : Written) : List (ℕ × ℝ) :=
  (keys w).zip (x.temperatures ++ [x.frontHs, x.backHs, x.frontFlow, x.backFlow])

theorem keys_length (w : Wiring.Wall) : (keys w).length = w.nodes + 4 := by simp [keys]

theorem pairs_fst (w : Wiring.Wall) (x : Written) (h : x.temperatures.length = w.nodes) : (pairs w x).map Prod.fst = keys w := by
  unfold pairs
  rw [List.map_fst_zip]
  simp [keys_length, h]

theorem pairs_eq (w : Wiring.Wall) (x : Written) (h : x.temperatures.length = w.nodes) :
    pairs w x = ((List.range w.nodes).map (w.first.getD 0 + ·)).zip x.temperatures ++
      [((w.field .front .convection).getD 0, x.frontHs), ((w.field .back .convection).getD 0, x.backHs),
        ((w.field .front .heatFlow).getD 0, x.frontFlow), ((w.field .back .heatFlow).getD 0, x.backFlow)] := by
  unfold pairs keys
  rw [List.zip_append (by simp [h])]
  rfl

theorem node_mem (w : Wiring.Wall) (x : Written) (h : x.temperatures.length = w.nodes) (j : ℕ) (v : ℝ) (hj : x.temperatures[j]? = some v) :
    (w.first.getD 0 + j, v) ∈ pairs w x := by
  rw [pairs_eq w x h]
  apply List.mem_append_left
  have hlt : j < w.nodes := by
    rw [← h]; by_contra hc; rw [List.getElem?_eq_none (by omega)] at hj; cases hj
  apply List.mem_of_getElem? (i := j)
  rw [List.getElem?_zip_eq_some]
  exact ⟨by simp [hlt], hj⟩

/-- The nodes of a surface. -/
def nodeKeys (w : Wiring.Wall) : List ℕ := (List.range w.nodes).map (w.first.getD 0 + ·)

theorem value_other {l : List (ℕ × ℝ)} {st : List ℝ} {field : Option ℕ} (h : ∀ k, field = some k → k ∉ l.map Prod.fst) :
    value (assignAll l st) field = value st field := by
  cases field with
  | none => rfl
  | some k => exact assignAll_other _ _ _ (h k rfl)

theorem value_mem {l : List (ℕ × ℝ)} {st : List ℝ} {field : Option ℕ} {k : ℕ} {v : ℝ} (hf : field = some k)
    (hn : (l.map Prod.fst).Nodup) (hv : (k, v) ∈ l) (hk : k < st.length) : value (assignAll l st) field = some v := by
  subst hf
  exact assignAll_get _ _ _ _ hn hv hk

theorem readings_congr {st st' : List ℝ} {w : Wiring.Wall} {f b : ℝ} (h1 : value st' w.first = some f) (h2 : value st' w.last = some b)
    (h : ∀ s q, q = .sun ∨ q = .infrared → value st' (w.field s q) = value st (w.field s q)) :
    readings st' w = { readings st w with front := f, back := b } := by
  unfold readings
  rw [h1, h2, h _ _ (.inl rfl), h _ _ (.inl rfl), h _ _ (.inr rfl), h _ _ (.inr rfl)]
  rfl

/-- Places of radiation are not among those that are written. -/
def Outside (w : Wiring.Wall) (K : List ℕ) : Prop :=
  ∀ s q, q = .sun ∨ q = .infrared → ∀ k, w.field s q = some k → k ∉ K

theorem writeOne_eq {n : ℕ} (w : StepWeather) (tw : ThermalWall) (mem : SurfaceMemory) (t : ℝ × ℝ) (st : List ℝ) (hc : Complete n tw.parent)
    (hl : st.length = n) (hm : mem.temperatures.length = tw.parent.nodes) (hd : (keys tw.parent).Nodup)
    (ho : Outside tw.parent (keys tw.parent)) :
    ∃ f b, mem.temperatures.head? = some f ∧ mem.temperatures.getLast? = some b ∧
      writeOne w (tw, mem, t) st =
        (borderConditions tw.surf { readings st tw.parent with front := f, back := b } t.1 t.2 w.windDirection w.windSpeed).bind fun c =>
          .ok (assignAll (pairs tw.parent ⟨mem.temperatures, c.1.2, c.2.2, (f - t.1) * c.1.2, (b - t.2) * c.2.2⟩) st) := by
  have hn := hc.nodes
  obtain ⟨a, a1, a2, a3⟩ := hc.ends
  have hne : mem.temperatures ≠ [] := by intro h; rw [h] at hm; simp at hm; omega
  refine ⟨_, _, List.head?_eq_some_head hne, List.getLast?_eq_some_getLast hne, ?_⟩
  obtain ⟨k1, e1, l1⟩ := hc.fields .front .convection
  obtain ⟨k2, e2, l2⟩ := hc.fields .back .convection
  obtain ⟨k3, e3, l3⟩ := hc.fields .front .heatFlow
  obtain ⟨k4, e4, l4⟩ := hc.fields .back .heatFlow
  have hcount : a + tw.parent.nodes - 1 + 1 - a = tw.parent.nodes := by omega
  have hset : setNodes tw.parent mem.temperatures st = .ok (assignAll ((nodeKeys tw.parent).zip mem.temperatures) st) := by
    unfold setNodes
    rw [a1, a2]
    dsimp only
    rw [hcount, setFrom_eq _ _ _ _ _ (by omega) (by omega), List.drop_zero]
    unfold nodeKeys
    rw [a1]
    rfl
  set nodesL := (nodeKeys tw.parent).zip mem.temperatures with hN
  have hfst : nodesL.map Prod.fst = nodeKeys tw.parent := by
    rw [hN, List.map_fst_zip]
    simp [nodeKeys, hm]
  have hsub : ∀ k ∈ nodeKeys tw.parent, k ∈ keys tw.parent := fun k hk => List.mem_append_left _ hk
  have hnd : (nodesL.map Prod.fst).Nodup := by rw [hfst]; exact (List.nodup_append.1 hd).1
  have hmem : ∀ (j : ℕ) (v : ℝ), mem.temperatures[j]? = some v → (a + j, v) ∈ nodesL := by
    intro j v hj
    have hlt : j < tw.parent.nodes := by
      rw [← hm]; by_contra hc; rw [List.getElem?_eq_none (by omega)] at hj; cases hj
    apply List.mem_of_getElem? (i := j)
    rw [hN, List.getElem?_zip_eq_some]
    exact ⟨by simp [nodeKeys, hlt, a1], hj⟩
  have hr : readings (assignAll nodesL st) tw.parent
      = { readings st tw.parent with front := mem.temperatures.head hne, back := mem.temperatures.getLast hne } := by
    apply readings_congr
    · refine value_mem a1 hnd (hmem 0 _ ?_) (by omega)
      rw [← List.head?_eq_getElem?, List.head?_eq_some_head hne]
    · refine value_mem a2 hnd ?_ (by omega)
      have : a + tw.parent.nodes - 1 = a + (tw.parent.nodes - 1) := by omega
      rw [this]
      apply hmem
      rw [← hm, ← List.getLast?_eq_getElem?, List.getLast?_eq_some_getLast hne]
    · intro s q hq
      refine value_other fun k hk hmem => ho s q hq k hk (hsub k ?_)
      rw [← hfst]; exact hmem
  unfold writeOne
  dsimp only
  rw [hset, Outcome.bind, List.head?_eq_some_head hne, List.getLast?_eq_some_getLast hne]
  dsimp only
  rw [readWall_eq hc (by rw [assignAll_length]; exact hl), Outcome.bind, hr]
  cases borderConditions tw.surf { readings st tw.parent with front := mem.temperatures.head hne, back := mem.temperatures.getLast hne }
    t.1 t.2 w.windDirection w.windSpeed with
  | err => rfl
  | panic => rfl
  | ok c =>
    simp only [Outcome.bind]
    rw [pairs_eq _ _ hm, assignAll_append, e1, e2, e3, e4]
    simp only [set, assignAll_length, List.length_set, hl, l1, l2, l3, l4, if_true, Option.getD_some]
    rfl

/-! ## All the surfaces -/

/-- What is written for a surface that has marched. -/
def Writes (st0 : List ℝ) (w : StepWeather) (y : ThermalWall × SurfaceMemory × ℝ × ℝ) (x : Written) : Prop :=
  ∃ f b c, y.2.1.temperatures.head? = some f ∧ y.2.1.temperatures.getLast? = some b ∧
    borderConditions y.1.surf { readings st0 y.1.parent with front := f, back := b } y.2.2.1 y.2.2.2 w.windDirection w.windSpeed = .ok c ∧
    x = ⟨y.2.1.temperatures, c.1.2, c.2.2, (f - y.2.2.1) * c.1.2, (b - y.2.2.2) * c.2.2⟩

/-- The surfaces of a list can be written one after the other. -/
structure Writable (n : ℕ) (ys : List (ThermalWall × SurfaceMemory × ℝ × ℝ)) : Prop where
  complete : ∀ y ∈ ys, Complete n y.1.parent
  nodes : ∀ y ∈ ys, y.2.1.temperatures.length = y.1.parent.nodes
  distinct : ∀ y ∈ ys, (keys y.1.parent).Nodup
  outside : ∀ y ∈ ys, ∀ y' ∈ ys, Outside y.1.parent (keys y'.1.parent)

theorem Writable.tail {n : ℕ} {y} {ys : List (ThermalWall × SurfaceMemory × ℝ × ℝ)} (h : Writable n (y :: ys)) : Writable n ys :=
  ⟨fun z hz => h.complete z (by simp [hz]), fun z hz => h.nodes z (by simp [hz]), fun z hz => h.distinct z (by simp [hz]),
    fun z hz z' hz' => h.outside z (by simp [hz]) z' (by simp [hz'])⟩

/-- The radiation of the surfaces is as it was. -/
def SameSky (st0 st : List ℝ) (ys : List (ThermalWall × SurfaceMemory × ℝ × ℝ)) : Prop :=
  ∀ y ∈ ys, ∀ s q, q = .sun ∨ q = .infrared → value st (y.1.parent.field s q) = value st0 (y.1.parent.field s q)

theorem readings_ends {st st0 : List ℝ} {w : Wiring.Wall} (f b : ℝ)
    (h : ∀ s q, q = .sun ∨ q = .infrared → value st (w.field s q) = value st0 (w.field s q)) :
    ({ readings st w with front := f, back := b } : Readings) = { readings st0 w with front := f, back := b } := by
  unfold readings
  rw [h _ _ (.inl rfl), h _ _ (.inl rfl), h _ _ (.inr rfl), h _ _ (.inr rfl)]

/-- The places and values of several surfaces. -/
def allPairs (ys : List (ThermalWall × SurfaceMemory × ℝ × ℝ)) (xs : List Written) : List (ℕ × ℝ) :=
  (List.zipWith (fun y x => pairs y.1.parent x) ys xs).flatten

theorem sameSky_after {n : ℕ} {st0 st : List ℝ} {y} {ys : List (ThermalWall × SurfaceMemory × ℝ × ℝ)} (hw : Writable n (y :: ys))
    (hs : SameSky st0 st (y :: ys)) (x : Written) (hx : x.temperatures = y.2.1.temperatures) :
    SameSky st0 (assignAll (pairs y.1.parent x) st) ys := by
  intro z hz s q hq
  rw [← hs z (by simp [hz]) s q hq]
  refine value_other fun k hk => ?_
  rw [pairs_fst _ _ (by rw [hx]; exact hw.nodes y (by simp))]
  exact hw.outside z (by simp [hz]) y (by simp) s q hq k hk

theorem writeAll_ok {n : ℕ} (w : StepWeather) (st0 : List ℝ) : ∀ (ys : List (ThermalWall × SurfaceMemory × ℝ × ℝ)) (xs : List Written)
    (st : List ℝ), Writable n ys → st.length = n → SameSky st0 st ys → List.Forall₂ (Writes st0 w) ys xs →
    writeAll w ys st = .ok (assignAll (allPairs ys xs) st) := by
  intro ys
  induction ys with
  | nil => intro xs st _ _ _ h; cases h; rfl
  | cons y ys ih =>
    intro xs st hw hl hs h
    obtain ⟨x, xs, ⟨f, b, c, h1, h2, h3, h4⟩, hr, rfl⟩ := List.forall₂_cons_left_iff.1 h
    obtain ⟨f', b', g1, g2, g3⟩ := writeOne_eq w y.1 y.2.1 y.2.2 st (hw.complete y (by simp)) hl (hw.nodes y (by simp))
      (hw.distinct y (by simp)) (hw.outside y (by simp) y (by simp))
    rw [h1] at g1
    rw [h2] at g2
    cases g1
    cases g2
    rw [readings_ends f b (hs y (by simp)), h3, Outcome.bind, ← h4] at g3
    rw [writeAll, g3, Outcome.bind, ih xs _ hw.tail (by rw [assignAll_length]; exact hl)
      (sameSky_after hw hs x (by rw [h4])) hr]
    unfold allPairs
    rw [List.zipWith_cons_cons, List.flatten_cons, assignAll_append]

theorem writeAll_inv {n : ℕ} (w : StepWeather) (st0 : List ℝ) : ∀ (ys : List (ThermalWall × SurfaceMemory × ℝ × ℝ)) (st st' : List ℝ),
    Writable n ys → st.length = n → SameSky st0 st ys → writeAll w ys st = .ok st' → ∃ xs, List.Forall₂ (Writes st0 w) ys xs := by
  intro ys
  induction ys with
  | nil => intro st st' _ _ _ _; exact ⟨[], .nil⟩
  | cons y ys ih =>
    intro st st' hw hl hs h
    obtain ⟨f, b, g1, g2, g3⟩ := writeOne_eq w y.1 y.2.1 y.2.2 st (hw.complete y (by simp)) hl (hw.nodes y (by simp))
      (hw.distinct y (by simp)) (hw.outside y (by simp) y (by simp))
    rw [writeAll] at h
    obtain ⟨st1, h1, h2⟩ := bind_ok h
    rw [g3] at h1
    obtain ⟨c, h3, h4⟩ := bind_ok h1
    cases h4
    obtain ⟨xs, hx⟩ := ih _ _ hw.tail (by rw [assignAll_length]; exact hl) (sameSky_after hw hs _ rfl) h2
    rw [readings_ends f b (hs y (by simp))] at h3
    exact ⟨_ :: xs, .cons ⟨f, b, c, g1, g2, h3, rfl⟩ hx⟩

/-- A surface on its own, with what the state says about it. -/
def Alone (tiny : ℝ) (cav : CavityU ℝ) (w : StepWeather) (dt : ℝ) (spaces : String → Option ℝ) (st : List ℝ)
    (x : ThermalWall × SurfaceMemory) (r : Written × SurfaceMemory) : Prop :=
  x.1.surf.step tiny cav (readings st x.1.parent) w.tOut spaces w.windDirection w.windSpeed dt x.2 = .ok r

theorem alone_iff (tiny : ℝ) (cav : CavityU ℝ) (w : StepWeather) (dt : ℝ) (spaces : String → Option ℝ) (st : List ℝ)
    (tw : ThermalWall) (mem : SurfaceMemory) (r : Written × SurfaceMemory) :
    Alone tiny cav w dt spaces st (tw, mem) r ↔ ∃ t, sideTemperatures tw.surf (readings st tw.parent) w.tOut spaces = .ok t ∧
      tw.surf.march tiny cav (readings st tw.parent) t.1 t.2 w.windDirection w.windSpeed dt mem = .ok r.2 ∧
      Writes st w (tw, r.2, t) r.1 := by
  unfold Alone Surf.step Writes
  dsimp only
  constructor
  · intro h
    obtain ⟨t, h1, h⟩ := bind_ok h
    obtain ⟨mem', h2, h⟩ := bind_ok h
    cases hf : mem'.temperatures.head? with
    | none => rw [hf] at h; cases h
    | some f =>
      cases hb : mem'.temperatures.getLast? with
      | none => rw [hf, hb] at h; cases h
      | some b =>
        rw [hf, hb] at h
        obtain ⟨c, h3, h⟩ := bind_ok h
        cases h
        exact ⟨t, h1, h2, f, b, c, hf, hb, h3, rfl⟩
  · rintro ⟨t, h1, h2, f, b, c, hf, hb, h3, h4⟩
    rw [h1, Outcome.bind, h2, Outcome.bind, hf, hb]
    dsimp only
    rw [h3, Outcome.bind, ← h4]

theorem split (tiny : ℝ) (cav : CavityU ℝ) (w : StepWeather) (dt : ℝ) (spaces : String → Option ℝ) (n : ℕ) (st : List ℝ)
    (hl : st.length = n) : ∀ (ws : List ThermalWall) (mems : List SurfaceMemory) (res : List (Written × SurfaceMemory)),
    (∀ tw ∈ ws, Complete n tw.parent) → ws.length = mems.length →
    List.Forall₂ (Alone tiny cav w dt spaces st) (ws.zip mems) res →
    ∃ temps, List.Forall₂ (fun a b => sides w spaces st a = .ok b) ws temps ∧
      List.Forall₂ (fun a b => marchOne tiny cav w dt st a = .ok b) (ws.zip (mems.zip temps)) (res.map Prod.snd) ∧
      List.Forall₂ (Writes st w) (ws.zip ((res.map Prod.snd).zip temps)) (res.map Prod.fst) := by
  intro ws
  induction ws with
  | nil => intro mems res _ _ h; cases h; exact ⟨[], .nil, .nil, .nil⟩
  | cons tw ws ih =>
    intro mems res hc hlen h
    cases mems with
    | nil => simp at hlen
    | cons mem mems =>
      rw [List.zip_cons_cons] at h
      obtain ⟨r, res, h1, h2, rfl⟩ := List.forall₂_cons_left_iff.1 h
      obtain ⟨temps, g1, g2, g3⟩ := ih mems res (fun x hx => hc x (by simp [hx])) (by simpa using hlen) h2
      obtain ⟨t, t1, t2, t3⟩ := (alone_iff _ _ _ _ _ _ _ _ _).1 h1
      have hr := readWall_eq (hc tw (by simp)) hl
      refine ⟨t :: temps, .cons ?_ g1, .cons ?_ g2, .cons t3 g3⟩
      · unfold sides; rw [hr]; exact t1
      · unfold marchOne; dsimp only; rw [hr]; exact t2

theorem join (tiny : ℝ) (cav : CavityU ℝ) (w : StepWeather) (dt : ℝ) (spaces : String → Option ℝ) (n : ℕ) (st : List ℝ)
    (hl : st.length = n) : ∀ (ws : List ThermalWall) (mems mems' : List SurfaceMemory) (temps : List (ℝ × ℝ)) (xs : List Written),
    (∀ tw ∈ ws, Complete n tw.parent) → ws.length = mems.length →
    List.Forall₂ (fun a b => sides w spaces st a = .ok b) ws temps →
    List.Forall₂ (fun a b => marchOne tiny cav w dt st a = .ok b) (ws.zip (mems.zip temps)) mems' →
    List.Forall₂ (Writes st w) (ws.zip (mems'.zip temps)) xs →
    List.Forall₂ (Alone tiny cav w dt spaces st) (ws.zip mems) (xs.zip mems') := by
  intro ws
  induction ws with
  | nil => intro mems mems' temps xs _ _ _ _ h3; cases h3; exact .nil
  | cons tw ws ih =>
    intro mems mems' temps xs hc hlen h1 h2 h3
    cases mems with
    | nil => simp at hlen
    | cons mem mems =>
      obtain ⟨t, temps, t1, g1, rfl⟩ := List.forall₂_cons_left_iff.1 h1
      obtain ⟨mem', mems', t2, g2, rfl⟩ := List.forall₂_cons_left_iff.1 h2
      obtain ⟨x, xs, t3, g3, rfl⟩ := List.forall₂_cons_left_iff.1 h3
      have hr := readWall_eq (hc tw (by simp)) hl
      refine .cons ((alone_iff _ _ _ _ _ _ _ _ _).2 ⟨t, ?_, ?_, t3⟩)
        (ih mems mems' temps xs (fun x hx => hc x (by simp [hx])) (by simpa using hlen) g1 g2 g3)
      · unfold sides at t1; rw [hr] at t1; exact t1
      · unfold marchOne at t2; dsimp only at t2; rw [hr] at t2; exact t2

theorem zip_forall {P : ThermalWall → SurfaceMemory → Prop} {ws : List ThermalWall} {mems : List SurfaceMemory} (temps : List (ℝ × ℝ))
    (h : List.Forall₂ P ws mems) : ∀ y ∈ ws.zip (mems.zip temps), P y.1 y.2.1 ∧ y.1 ∈ ws := by
  induction h generalizing temps with
  | nil => intro y hy; simp at hy
  | @cons a b l r h1 h2 ih =>
    intro y hy
    cases temps with
    | nil => simp at hy
    | cons t temps =>
      rw [List.zip_cons_cons, List.zip_cons_cons, List.mem_cons] at hy
      rcases hy with rfl | hy
      · exact ⟨h1, by simp⟩
      · exact ⟨(ih temps y hy).1, by simp [(ih temps y hy).2]⟩

/-- The surfaces of a list march and are written apart from each other. -/
structure Loop (n : ℕ) (ws : List ThermalWall) : Prop where
  complete : ∀ tw ∈ ws, Complete n tw.parent
  distinct : (ws.flatMap fun tw => keys tw.parent).Nodup
  outside : ∀ tw ∈ ws, ∀ tw' ∈ ws, Outside tw.parent (keys tw'.parent)

theorem Loop.writable {n : ℕ} {ws : List ThermalWall} (h : Loop n ws) {mems : List SurfaceMemory} (temps : List (ℝ × ℝ))
    (hm : List.Forall₂ (fun tw mem => mem.temperatures.length = tw.parent.nodes) ws mems) : Writable n (ws.zip (mems.zip temps)) := by
  have hz := zip_forall temps hm
  exact ⟨fun y hy => h.complete _ (hz y hy).2, fun y hy => (hz y hy).1,
    fun y hy => (List.nodup_flatMap.1 h.distinct).1 _ (hz y hy).2, fun y hy y' hy' => h.outside _ (hz y hy).2 _ (hz y' hy').2⟩

theorem marched_nodes (tiny : ℝ) (cav : CavityU ℝ) (w : StepWeather) (dt : ℝ) (st : List ℝ) : ∀ (ws : List ThermalWall)
    (mems mems' : List SurfaceMemory) (temps : List (ℝ × ℝ)), ws.length = temps.length →
    List.Forall₂ (fun (tw : ThermalWall) (mem : SurfaceMemory) => mem.temperatures.length = tw.parent.nodes) ws mems →
    List.Forall₂ (fun a b => marchOne tiny cav w dt st a = .ok b) (ws.zip (mems.zip temps)) mems' →
    List.Forall₂ (fun (tw : ThermalWall) (mem : SurfaceMemory) => mem.temperatures.length = tw.parent.nodes) ws mems' := by
  intro ws
  induction ws with
  | nil => intro mems mems' temps _ _ h; cases h; exact .nil
  | cons tw ws ih =>
    intro mems mems' temps hlen hm h
    obtain ⟨mem, mems, m1, m2, rfl⟩ := List.forall₂_cons_left_iff.1 hm
    cases temps with
    | nil => simp at hlen
    | cons t temps =>
      obtain ⟨mem', mems', t2, h2, rfl⟩ := List.forall₂_cons_left_iff.1 h
      refine .cons ?_ (ih mems mems' temps (by simpa using hlen) m2 h2)
      unfold marchOne at t2
      obtain ⟨r, -, hr⟩ := bind_ok t2
      rw [march_length _ _ _ _ _ _ _ _ _ _ _ hr]
      exact m1

/-- Places and values of the surfaces of a list. -/
def wallPairs (ws : List ThermalWall) (res : List (Written × SurfaceMemory)) : List (ℕ × ℝ) :=
  (List.zipWith (fun tw r => pairs tw.parent r.1) ws res).flatten

theorem allPairs_eq : ∀ (ws : List ThermalWall) (res : List (Written × SurfaceMemory)) (temps : List (ℝ × ℝ)),
    ws.length = temps.length →
    allPairs (ws.zip ((res.map Prod.snd).zip temps)) (res.map Prod.fst) = wallPairs ws res := by
  intro ws
  induction ws with
  | nil => intro res temps _; simp [allPairs, wallPairs]
  | cons tw ws ih =>
    intro res temps hlen
    cases temps with
    | nil => simp at hlen
    | cons t temps =>
      cases res with
      | nil => simp [allPairs, wallPairs]
      | cons r res =>
        have := ih res temps (by simpa using hlen)
        unfold allPairs wallPairs at this ⊢
        simp only [List.map_cons, List.zip_cons_cons, List.zipWith_cons_cons, List.flatten_cons, this]

theorem iterate_ok (tiny : ℝ) (cav : CavityU ℝ) (w : StepWeather) (dt : ℝ) (spaces : String → Option ℝ) {n : ℕ} {ws : List ThermalWall}
    (hL : Loop n ws) (mems : List SurfaceMemory) (st : List ℝ) (hl : st.length = n)
    (hm : List.Forall₂ (fun tw mem => mem.temperatures.length = tw.parent.nodes) ws mems) (res : List (Written × SurfaceMemory))
    (h : List.Forall₂ (Alone tiny cav w dt spaces st) (ws.zip mems) res) :
    iterate tiny cav w dt spaces ws mems st = .ok (res.map Prod.snd, assignAll (wallPairs ws res) st) := by
  obtain ⟨temps, g1, g2, g3⟩ := split tiny cav w dt spaces n st hl ws mems res hL.complete hm.length_eq h
  have hlen := g1.length_eq
  have hm' := marched_nodes tiny cav w dt st ws mems _ temps hlen hm g2
  unfold iterate
  rw [(collect_ok _ _ _).2 g1, Outcome.bind, (collect_ok _ _ _).2 g2, Outcome.bind,
    writeAll_ok w st _ _ st (hL.writable temps hm') hl (fun _ _ _ _ _ => rfl) g3, Outcome.bind, allPairs_eq _ _ _ hlen]

theorem iterate_inv (tiny : ℝ) (cav : CavityU ℝ) (w : StepWeather) (dt : ℝ) (spaces : String → Option ℝ) {n : ℕ} {ws : List ThermalWall}
    (hL : Loop n ws) (mems : List SurfaceMemory) (st : List ℝ) (hl : st.length = n)
    (hm : List.Forall₂ (fun tw mem => mem.temperatures.length = tw.parent.nodes) ws mems) (r : List SurfaceMemory × List ℝ)
    (h : iterate tiny cav w dt spaces ws mems st = .ok r) :
    ∃ res, List.Forall₂ (Alone tiny cav w dt spaces st) (ws.zip mems) res := by
  unfold iterate at h
  obtain ⟨temps, h1, h⟩ := bind_ok h
  obtain ⟨mems', h2, h⟩ := bind_ok h
  obtain ⟨st', h3, -⟩ := bind_ok h
  rw [collect_ok] at h1 h2
  have hlen := h1.length_eq
  have hm' := marched_nodes tiny cav w dt st ws mems _ temps hlen hm h2
  obtain ⟨xs, hx⟩ := writeAll_inv w st _ st _ (hL.writable temps hm') hl (fun _ _ _ _ _ => rfl) h3
  exact ⟨_, join tiny cav w dt spaces n st hl ws mems mems' temps xs hL.complete hm.length_eq h1 h2 hx⟩

/-! ## What the state has afterwards -/

/-- A surface after a step, in a state where all of `L` was written. -/
theorem wall_after {n : ℕ} {w : Wiring.Wall} (hc : Complete n w) (x : Written) (hx : x.temperatures.length = w.nodes)
    (L : List (ℕ × ℝ)) (hL : ∀ p ∈ pairs w x, p ∈ L) (hd : (L.map Prod.fst).Nodup) (ho : Outside w (L.map Prod.fst))
    (st : List ℝ) (hl : st.length = n) :
    readings (assignAll L st) w = { readings st w with front := x.temperatures.head?.getD 0, back := x.temperatures.getLast?.getD 0 } ∧
    (∀ j < w.nodes, (assignAll L st)[w.first.getD 0 + j]? = x.temperatures[j]?) ∧
    value (assignAll L st) w.first = x.temperatures.head? ∧ value (assignAll L st) w.last = x.temperatures.getLast? ∧
    value (assignAll L st) (w.field .front .convection) = some x.frontHs ∧
    value (assignAll L st) (w.field .back .convection) = some x.backHs ∧
    value (assignAll L st) (w.field .front .heatFlow) = some x.frontFlow ∧
    value (assignAll L st) (w.field .back .heatFlow) = some x.backFlow := by
  have hn := hc.nodes
  obtain ⟨a, a1, a2, a3⟩ := hc.ends
  have hnode : ∀ j < w.nodes, (assignAll L st)[w.first.getD 0 + j]? = x.temperatures[j]? := by
    intro j hj
    have hj' : j < x.temperatures.length := by omega
    rw [List.getElem?_eq_getElem hj']
    refine assignAll_get _ _ _ _ hd (hL _ (node_mem w x hx j _ (List.getElem?_eq_getElem hj'))) ?_
    rw [a1, hl]; simp only [Option.getD_some]; omega
  have hfirst : value (assignAll L st) w.first = x.temperatures.head? := by
    have := hnode 0 hn
    rw [a1] at this ⊢
    rw [List.head?_eq_getElem?]
    exact this
  have hlast : value (assignAll L st) w.last = x.temperatures.getLast? := by
    have := hnode (w.nodes - 1) (by omega)
    rw [a1] at this
    rw [a2, List.getLast?_eq_getElem?, hx]
    have e : a + w.nodes - 1 = a + (w.nodes - 1) := by omega
    rw [e]
    exact this
  have hne : x.temperatures ≠ [] := by intro h; rw [h] at hx; simp at hx; omega
  have hfield : ∀ (s : Wiring.Side) (q : Quantity) (v : ℝ), ((w.field s q).getD 0, v) ∈ pairs w x → value (assignAll L st) (w.field s q) = some v := by
    intro s q v hv
    obtain ⟨k, e, l⟩ := hc.fields s q
    rw [e] at hv
    exact value_mem e hd (hL _ hv) (by omega)
  refine ⟨?_, hnode, hfirst, hlast, hfield _ _ _ ?_, hfield _ _ _ ?_, hfield _ _ _ ?_, hfield _ _ _ ?_⟩
  · rw [List.head?_eq_some_head hne] at hfirst ⊢
    rw [List.getLast?_eq_some_getLast hne] at hlast ⊢
    exact readings_congr hfirst hlast fun s q hq => value_other fun k hk => ho s q hq k hk
  all_goals rw [pairs_eq w x hx]; simp

theorem wallPairs_fst : ∀ (ws : List ThermalWall) (res : List (Written × SurfaceMemory)),
    List.Forall₂ (fun (tw : ThermalWall) (r : Written × SurfaceMemory) => r.1.temperatures.length = tw.parent.nodes) ws res →
    (wallPairs ws res).map Prod.fst = ws.flatMap fun tw => keys tw.parent := by
  intro ws res h
  induction h with
  | nil => rfl
  | @cons a b l r h1 h2 ih =>
    unfold wallPairs at ih ⊢
    rw [List.zipWith_cons_cons, List.flatten_cons, List.map_append, ih, pairs_fst _ _ h1, List.flatMap_cons]

theorem wallPairs_mem : ∀ (ws : List ThermalWall) (res : List (Written × SurfaceMemory)) (L : List (ℕ × ℝ)),
    (∀ p ∈ wallPairs ws res, p ∈ L) → ws.length = res.length →
    List.Forall₂ (fun (tw : ThermalWall) (r : Written × SurfaceMemory) => ∀ p ∈ pairs tw.parent r.1, p ∈ L) ws res := by
  intro ws
  induction ws with
  | nil => intro res L _ hl; cases res with | nil => exact .nil | cons => simp at hl
  | cons tw ws ih =>
    intro res L h hl
    cases res with
    | nil => simp at hl
    | cons r res =>
      unfold wallPairs at h
      rw [List.zipWith_cons_cons, List.flatten_cons] at h
      exact .cons (fun p hp => h p (List.mem_append_left _ hp))
        (ih res L (fun p hp => h p (List.mem_append_right _ hp)) (by simpa using hl))

/-- What a surface on its own leaves. -/
theorem alone_nodes {tiny : ℝ} {cav : CavityU ℝ} {w : StepWeather} {dt : ℝ} {spaces : String → Option ℝ} {st : List ℝ}
    {tw : ThermalWall} {mem : SurfaceMemory} {r : Written × SurfaceMemory} (h : Alone tiny cav w dt spaces st (tw, mem) r) :
    r.1.temperatures = r.2.temperatures ∧ r.2.temperatures.length = mem.temperatures.length := by
  obtain ⟨t, -, h2, f, b, c, -, -, -, h4⟩ := (alone_iff _ _ _ _ _ _ _ _ _).1 h
  exact ⟨by rw [h4], march_length _ _ _ _ _ _ _ _ _ _ _ h2⟩

theorem alone_list {tiny : ℝ} {cav : CavityU ℝ} {w : StepWeather} {dt : ℝ} {spaces : String → Option ℝ} {st : List ℝ} :
    ∀ (ws : List ThermalWall) (mems : List SurfaceMemory) (res : List (Written × SurfaceMemory)),
    List.Forall₂ (fun (tw : ThermalWall) (mem : SurfaceMemory) => mem.temperatures.length = tw.parent.nodes) ws mems →
    List.Forall₂ (Alone tiny cav w dt spaces st) (ws.zip mems) res →
    List.Forall₂ (fun (tw : ThermalWall) (r : Written × SurfaceMemory) =>
      r.1.temperatures.length = tw.parent.nodes ∧ r.1.temperatures = r.2.temperatures) ws res := by
  intro ws
  induction ws with
  | nil => intro mems res _ h; cases h; exact .nil
  | cons tw ws ih =>
    intro mems res hm h
    obtain ⟨mem, mems, m1, m2, rfl⟩ := List.forall₂_cons_left_iff.1 hm
    obtain ⟨r, res, h1, h2, rfl⟩ := List.forall₂_cons_left_iff.1 h
    obtain ⟨e1, e2⟩ := alone_nodes h1
    exact .cons ⟨by rw [e1, e2]; exact m1, e1⟩ (ih mems res m2 h2)

/-! ## Parts -/

/-- A part after a step of its own, and what it leaves for the zones. -/
def after (st : List ℝ) (index : String → Option ℕ) (x : ThermalWall × SurfaceMemory) (r : Written × SurfaceMemory) : Part × SurfaceIn :=
  ({ part st x.1 x.2 with
      readings := { readings st x.1.parent with front := r.1.temperatures.head?.getD 0, back := r.1.temperatures.getLast?.getD 0 }
      mem := r.2 }, (part st x.1 x.2).toZones index r.1)

theorem parts_iff (tiny : ℝ) (cav : CavityU ℝ) (w : StepWeather) (dt : ℝ) (spaces : String → Option ℝ) (st : List ℝ)
    (index : String → Option ℕ) : ∀ (ws : List ThermalWall) (mems : List SurfaceMemory) (l : List (Part × SurfaceIn)),
    collect (fun p : Part => p.step tiny cav index spaces w.tOut w.windDirection w.windSpeed dt) (List.zipWith (part st) ws mems) = .ok l ↔
      ∃ res, List.Forall₂ (Alone tiny cav w dt spaces st) (ws.zip mems) res ∧ l = List.zipWith (after st index) (ws.zip mems) res := by
  intro ws
  induction ws with
  | nil =>
    intro mems l
    rw [collect_ok]
    simp only [List.zipWith_nil_left, List.zip_nil_left, List.forall₂_nil_left_iff]
    constructor
    · rintro rfl; exact ⟨[], rfl, rfl⟩
    · rintro ⟨res, -, rfl⟩; rfl
  | cons tw ws ih =>
    intro mems l
    cases mems with
    | nil =>
      rw [collect_ok]
      simp only [List.zipWith_nil_right, List.zip_nil_right, List.forall₂_nil_left_iff, List.zipWith_nil_left]
      constructor
      · rintro rfl; exact ⟨[], rfl, rfl⟩
      · rintro ⟨res, -, rfl⟩; rfl
    | cons mem mems =>
      rw [collect_ok, List.zipWith_cons_cons, List.zip_cons_cons]
      constructor
      · intro h
        obtain ⟨p, l, h1, h2, rfl⟩ := List.forall₂_cons_left_iff.1 h
        obtain ⟨res, r1, r2⟩ := (ih mems l).1 ((collect_ok _ _ _).2 h2)
        obtain ⟨r, r3, r4⟩ := bind_ok h1
        cases r4
        exact ⟨r :: res, .cons r3 r1, by rw [List.zipWith_cons_cons, ← r2]; rfl⟩
      · rintro ⟨res, h, rfl⟩
        obtain ⟨r, res, h1, h2, rfl⟩ := List.forall₂_cons_left_iff.1 h
        rw [List.zipWith_cons_cons]
        refine .cons ?_ ((collect_ok _ _ _).1 ((ih mems _).2 ⟨res, h2, rfl⟩))
        unfold Part.step
        have h1' : (part st tw mem).surf.step tiny cav (part st tw mem).readings w.tOut spaces w.windDirection w.windSpeed dt
            (part st tw mem).mem = .ok r := h1
        rw [h1']
        rfl

/-! ## Rooms -/

theorem currentTemps_eq (st : List ℝ) : ∀ (rooms : List Room), (∀ z ∈ rooms, ∃ k, z.places.dryBulb = some k ∧ k < st.length) →
    currentTemps (rooms.map (room st)) = .ok (rooms.map fun z => (value st z.places.dryBulb).getD 0) := by
  intro rooms
  induction rooms with
  | nil => intro _; rfl
  | cons z rooms ih =>
    intro h
    obtain ⟨k, h1, h2⟩ := h z (by simp)
    have hv : value st z.places.dryBulb = some st[k] := by rw [h1]; exact List.getElem?_eq_getElem h2
    rw [List.map_cons, currentTemps]
    simp only [room, hv]
    rw [ih fun z hz => h z (by simp [hz])]
    simp only [Outcome.bind, List.map_cons, hv, Option.getD_some]

theorem futureTemps_length (t a b c : List ℝ) (dt : ℝ) : ∀ (n i : ℕ) (l : List ℝ), futureTemps t a b c dt n i = .ok l → l.length = n := by
  intro n
  induction n with
  | zero => intro i l h; rw [futureTemps] at h; cases h; rfl
  | succ n ih =>
    intro i l h
    rw [futureTemps] at h
    obtain ⟨_, -, h⟩ := bind_ok h
    obtain ⟨_, -, h⟩ := bind_ok h
    obtain ⟨_, -, h⟩ := bind_ok h
    obtain ⟨_, -, h⟩ := bind_ok h
    obtain ⟨r, h1, h⟩ := bind_ok h
    cases h
    rw [List.length_cons, ih _ _ h1]

theorem setRooms_eq {n : ℕ} (future : List ℝ) : ∀ (rooms : List Room) (i : ℕ) (st : List ℝ), i + rooms.length = future.length →
    st.length = n → (∀ z ∈ rooms, ∃ k, z.places.dryBulb = some k ∧ k < n) →
    setRooms future i rooms st = .ok (assignAll ((rooms.map fun z => z.places.dryBulb.getD 0).zip (future.drop i)) st) := by
  intro rooms
  induction rooms with
  | nil => intro i st _ _ _; rfl
  | cons z rooms ih =>
    intro i st h1 h2 h3
    rw [List.length_cons] at h1
    have hi : i < future.length := by omega
    obtain ⟨k, k1, k2⟩ := h3 z (by simp)
    rw [setRooms, Outcome.index_of_lt hi, Outcome.bind, k1, set, if_pos (by omega), Outcome.bind,
      ih (i + 1) _ (by omega) (by rw [List.length_set]; exact h2) (fun z hz => h3 z (by simp [hz])), List.map_cons,
      List.drop_eq_getElem_cons hi, List.zip_cons_cons, k1]
    rfl

/-! ## A whole step -/

/-- All that a step writes. -/
def total (m : ThermalModel) (resS resF : List (Written × SurfaceMemory)) (temps : List ℝ) : List (ℕ × ℝ) :=
  wallPairs m.surfaces resS ++ wallPairs m.fenestrations resF ++ (m.rooms.map fun z => z.places.dryBulb.getD 0).zip temps

/-- What the zones are calculated from. -/
def inputs (m : ThermalModel) (mem : Memory) (index : String → Option ℕ) (st : List ℝ) (resS resF : List (Written × SurfaceMemory)) : Inputs where
  hvacs := m.hvacs.map fun a => (a.space, value st a.power)
  luminaires := m.luminaires.map fun a => (a.space, value st a.power)
  zones := m.rooms.map (room st)
  surfaces := (List.zipWith (after st index) (m.surfaces.zip mem.surfaces) resS).map Prod.snd
  fenestrations := (List.zipWith (after st index) (m.fenestrations.zip mem.fenestrations) resF).map Prod.snd

theorem loopS {m : ThermalModel} {n : ℕ} (h : Wired m n) : Loop n m.surfaces :=
  ⟨h.surfaces, (List.nodup_append.1 (List.nodup_append.1 h.distinct).1).1, fun tw ht tw' ht' s q hq k hk hm =>
    h.radiation tw (by simp [ht]) s q hq k hk
      (List.mem_append_left _ (List.mem_append_left _ (List.mem_flatMap.2 ⟨tw', ht', hm⟩)))⟩

theorem loopF {m : ThermalModel} {n : ℕ} (h : Wired m n) : Loop n m.fenestrations :=
  ⟨h.fenestrations, (List.nodup_append.1 (List.nodup_append.1 h.distinct).1).2.1, fun tw ht tw' ht' s q hq k hk hm =>
    h.radiation tw (by simp [ht]) s q hq k hk
      (List.mem_append_left _ (List.mem_append_right _ (List.mem_flatMap.2 ⟨tw', ht', hm⟩)))⟩

theorem mem_nodeKeys {w : Wiring.Wall} {n k : ℕ} (hc : Complete n w) (h : w.first = some k ∨ w.last = some k) : k ∈ keys w := by
  obtain ⟨a, a1, a2, -⟩ := hc.ends
  have hn := hc.nodes
  apply List.mem_append_left
  rw [List.mem_map, a1]
  rcases h with h | h
  · rw [a1] at h; cases h; exact ⟨0, by simp [hn], rfl⟩
  · rw [a2] at h; cases h
    exact ⟨w.nodes - 1, by simp; omega, by simp only [Option.getD_some]; omega⟩

theorem readings_other {n : ℕ} {w : Wiring.Wall} (hc : Complete n w) {L : List (ℕ × ℝ)} (st : List ℝ)
    (h : ∀ k ∈ keys w, k ∉ L.map Prod.fst) (ho : Outside w (L.map Prod.fst)) : readings (assignAll L st) w = readings st w := by
  unfold readings
  rw [value_other (l := L) (fun k hk => h k (mem_nodeKeys hc (.inl hk))), value_other (l := L) (fun k hk => h k (mem_nodeKeys hc (.inr hk))),
    value_other (l := L) (fun k hk => ho _ _ (.inr rfl) k hk), value_other (l := L) (fun k hk => ho _ _ (.inr rfl) k hk),
    value_other (l := L) (fun k hk => ho _ _ (.inl rfl) k hk), value_other (l := L) (fun k hk => ho _ _ (.inl rfl) k hk)]

theorem forall₂_imp_mem {α β : Type} {P Q : α → β → Prop} {a : List α} {b : List β} (h : ∀ x ∈ a, ∀ y, P x y → Q x y)
    (hP : List.Forall₂ P a b) : List.Forall₂ Q a b := by
  induction hP with
  | nil => exact .nil
  | cons h1 h2 ih => exact .cons (h _ (by simp) _ h1) (ih fun x hx => h x (by simp [hx]))

theorem total_fst {m : ThermalModel} {resS resF : List (Written × SurfaceMemory)}
    (hS : List.Forall₂ (fun (tw : ThermalWall) (r : Written × SurfaceMemory) => r.1.temperatures.length = tw.parent.nodes) m.surfaces resS)
    (hF : List.Forall₂ (fun (tw : ThermalWall) (r : Written × SurfaceMemory) => r.1.temperatures.length = tw.parent.nodes) m.fenestrations resF)
    (temps : List ℝ) (ht : temps.length = m.rooms.length) : (total m resS resF temps).map Prod.fst = writes m := by
  unfold total writes
  rw [List.map_append, List.map_append, wallPairs_fst _ _ hS, wallPairs_fst _ _ hF, List.map_fst_zip (by simp [ht])]

/-- What is read for the zones, where all of `L` was written. -/
theorem sides_after {n : ℕ} (index : String → Option ℕ) (ws : List ThermalWall) (mems : List SurfaceMemory) (res : List (Written × SurfaceMemory))
    (hc : ∀ tw ∈ ws, Complete n tw.parent) (hlen : ws.length = mems.length)
    (hS : List.Forall₂ (fun (tw : ThermalWall) (r : Written × SurfaceMemory) => r.1.temperatures.length = tw.parent.nodes) ws res)
    (L : List (ℕ × ℝ)) (hL : ∀ p ∈ wallPairs ws res, p ∈ L) (hd : (L.map Prod.fst).Nodup)
    (ho : ∀ tw ∈ ws, Outside tw.parent (L.map Prod.fst)) (st0 st : List ℝ) (hl : st.length = n) :
    collect (readSides index (assignAll L st)) ws = .ok ((List.zipWith (after st0 index) (ws.zip mems) res).map Prod.snd) := by
  have hm := wallPairs_mem ws res L hL hS.length_eq
  clear hL
  rw [collect_ok]
  induction ws generalizing mems res with
  | nil => cases hS; exact .nil
  | cons tw ws ih =>
    obtain ⟨r, res, h1, h2, rfl⟩ := List.forall₂_cons_left_iff.1 hS
    cases mems with
    | nil => simp at hlen
    | cons mem mems =>
      rw [List.forall₂_cons] at hm
      rw [List.zip_cons_cons, List.zipWith_cons_cons, List.map_cons]
      refine .cons ?_ (ih mems res (fun x hx => hc x (by simp [hx])) (by simpa using hlen) h2
        (fun x hx => ho x (by simp [hx])) hm.2)
      have hcw := hc tw (by simp)
      obtain ⟨-, -, w1, w2, w3, w4, -, -⟩ := wall_after hcw r.1 h1 L hm.1 hd (ho tw (by simp)) st hl
      obtain ⟨a, a1, a2, a3⟩ := hcw.ends
      have hn := hcw.nodes
      have hl' : (assignAll L st).length = n := by rw [assignAll_length]; exact hl
      unfold readSides
      rw [get_eq (n := n) (fun k hk => by obtain ⟨k', e, l⟩ := hcw.fields .front .convection; rw [e] at hk; cases hk; exact l) hl', w3,
        get_eq (n := n) (fun k hk => by obtain ⟨k', e, l⟩ := hcw.fields .back .convection; rw [e] at hk; cases hk; exact l) hl', w4,
        expect_eq a1 (by omega) hl', w1, expect_eq a2 (by omega) hl', w2]
      rfl

/-- What is not written for the surfaces and fenestrations is the same for the rooms. -/
theorem room_before {m : ThermalModel} {n : ℕ} (hW : Wired m n) (st : List ℝ) (L : List (ℕ × ℝ))
    (hL : ∀ k ∈ L.map Prod.fst, k ∈ m.surfaces.flatMap (fun tw => keys tw.parent) ++ m.fenestrations.flatMap fun tw => keys tw.parent) :
    ∀ z ∈ m.rooms, room (assignAll L st) z = room st z := by
  have hd := hW.distinct
  unfold writes at hd
  obtain ⟨hd1, hd2, hd3⟩ := List.nodup_append.1 hd
  intro z hz
  have h := hW.air z hz
  have hno : ∀ k, k ∉ writes m → k ∉ L.map Prod.fst := fun k hk hm => hk (List.mem_append_left _ (hL k hm))
  unfold room
  rw [value_other (l := L) fun k hk => hno k (h k (.inl hk)).2, value_other (l := L) fun k hk => hno k (h k (.inr (.inl hk))).2,
    value_other (l := L) fun k hk => hno k (h k (.inr (.inr (.inl hk)))).2, value_other (l := L) fun k hk => hno k (h k (.inr (.inr (.inr hk)))).2,
    value_other (l := L) fun k hk hm => hd3 k (hL k hm) k (by rw [List.mem_map]; exact ⟨z, hz, by rw [hk]; rfl⟩) rfl]

/-- The fenestrations see what was before the surfaces wrote. -/
theorem fens_see {m : ThermalModel} {n : ℕ} (hW : Wired m n) (tiny : ℝ) (cav : CavityU ℝ) (index : String → Option ℕ) (w : StepWeather)
    (dt : ℝ) (mem : Memory) (st : List ℝ) (resS : List (Written × SurfaceMemory))
    (nS : List.Forall₂ (fun (tw : ThermalWall) (r : Written × SurfaceMemory) => r.1.temperatures.length = tw.parent.nodes) m.surfaces resS) :
    ∀ x ∈ m.fenestrations.zip mem.fenestrations, ∀ r,
      (Alone tiny cav w dt (spaceTemperature m.rooms index (assignAll (wallPairs m.surfaces resS) st)) (assignAll (wallPairs m.surfaces resS) st) x r ↔
        Alone tiny cav w dt (spaceTemperature m.rooms index st) st x r) := by
  have kS := wallPairs_fst _ _ nS
  have hd := hW.distinct
  unfold writes at hd
  obtain ⟨hd1, hd2, hd3⟩ := List.nodup_append.1 hd
  obtain ⟨hdS, hdF, hdSF⟩ := List.nodup_append.1 hd1
  have hsp : spaceTemperature m.rooms index (assignAll (wallPairs m.surfaces resS) st) = spaceTemperature m.rooms index st := by
    funext name
    unfold spaceTemperature
    cases index name with
    | none => rfl
    | some i =>
      simp only [Option.bind_some]
      cases hz : m.rooms[i]? with
      | none => rfl
      | some z =>
        have := congrArg ZoneIn.temp (room_before hW st (wallPairs m.surfaces resS) (fun k hk => by
          rw [kS] at hk; exact List.mem_append_left _ hk) z (List.mem_of_getElem? hz))
        exact this
  intro x hx r
  rw [hsp]
  have hxF := (List.of_mem_zip (show (x.1, x.2) ∈ _ from hx)).1
  unfold Alone
  rw [readings_other (hW.fenestrations x.1 hxF)]
  · intro k hk hm
    rw [kS] at hm
    exact hdSF k hm k (List.mem_flatMap.2 ⟨x.1, hxF, hk⟩) rfl
  · intro s q hq k hk hm
    rw [kS] at hm
    exact hW.radiation x.1 (by simp [hxF]) s q hq k hk (List.mem_append_left _ (List.mem_append_left _ hm))

theorem step_of {m : ThermalModel} {n : ℕ} (hW : Wired m n) (tiny : ℝ) (cav : CavityU ℝ) (index : String → Option ℕ) (w : StepWeather)
    (dt : ℝ) (mem : Memory) (hmem : Sized m mem) (st : List ℝ) (hl : st.length = n) (resS resF : List (Written × SurfaceMemory))
    (hS : List.Forall₂ (Alone tiny cav w dt (spaceTemperature m.rooms index st) st) (m.surfaces.zip mem.surfaces) resS)
    (hF : List.Forall₂ (Alone tiny cav w dt (spaceTemperature m.rooms index st) st) (m.fenestrations.zip mem.fenestrations) resF) :
    step m tiny cav index w dt mem st = (zonesStep (inputs m mem index st resS resF) dt).bind fun temps =>
      .ok (⟨resS.map Prod.snd, resF.map Prod.snd⟩, assignAll (total m resS resF temps) st) := by
  have nS := (alone_list _ _ _ hmem.surfaces hS).imp fun _ _ h => h.1
  have nF := (alone_list _ _ _ hmem.fenestrations hF).imp fun _ _ h => h.1
  have kS := wallPairs_fst _ _ nS
  have kF := wallPairs_fst _ _ nF
  have hd := hW.distinct
  unfold writes at hd
  obtain ⟨hd1, hd2, hd3⟩ := List.nodup_append.1 hd
  obtain ⟨hdS, hdF, hdSF⟩ := List.nodup_append.1 hd1
  have hroom := room_before hW st
  have hF' := forall₂_imp_mem (fun x hx r => (fens_see hW tiny cav index w dt mem st resS nS x hx r).2) hF
  have i1 := iterate_ok tiny cav w dt (spaceTemperature m.rooms index st) (loopS hW) mem.surfaces st hl hmem.surfaces resS hS
  have i2 := iterate_ok tiny cav w dt _ (loopF hW) mem.fenestrations _ (by rw [assignAll_length]; exact hl) hmem.fenestrations resF hF'
  set L := wallPairs m.surfaces resS ++ wallPairs m.fenestrations resF with hLdef
  have hst2 : assignAll (wallPairs m.fenestrations resF) (assignAll (wallPairs m.surfaces resS) st) = assignAll L st := by
    rw [hLdef, assignAll_append]
  have kL : L.map Prod.fst = m.surfaces.flatMap (fun tw => keys tw.parent) ++ m.fenestrations.flatMap fun tw => keys tw.parent := by
    rw [hLdef, List.map_append, kS, kF]
  have hl2 : (assignAll L st).length = n := by rw [assignAll_length]; exact hl
  have hout : ∀ tw ∈ m.surfaces ++ m.fenestrations, Outside tw.parent (L.map Prod.fst) := by
    intro tw ht s q hq k hk hm
    rw [kL] at hm
    exact hW.radiation tw ht s q hq k hk (List.mem_append_left _ hm)
  have hroom2 := hroom L (fun k hk => by rw [← kL]; exact hk)
  have hpower : ∀ a ∈ m.hvacs ++ m.luminaires, readPower (assignAll L st) a = .ok (a.space, value st a.power) := by
    intro a ha
    have h := hW.powers a ha
    unfold readPower
    rw [get_eq (n := n) (fun k hk => (h k hk).1) hl2, value_other (l := L) fun k hk hm => (h k hk).2 (by
      rw [kL] at hm; exact List.mem_append_left _ hm)]
    rfl
  have r1 := collect_map (readPower (assignAll L st)) (fun a => (a.space, value st a.power)) m.hvacs fun a ha => hpower a (by simp [ha])
  have r2 := collect_map (readPower (assignAll L st)) (fun a => (a.space, value st a.power)) m.luminaires fun a ha => hpower a (by simp [ha])
  have r3 := collect_map (readRoom (assignAll L st)) (room st) m.rooms fun z hz => by
    have h := hW.air z hz
    obtain ⟨k, k1, k2⟩ := hW.rooms z hz
    unfold readRoom
    rw [get_eq (n := n) (fun k hk => (h k (.inl hk)).1) hl2, get_eq (n := n) (fun k hk => (h k (.inr (.inl hk))).1) hl2,
      get_eq (n := n) (fun k hk => (h k (.inr (.inr (.inl hk)))).1) hl2, get_eq (n := n) (fun k hk => (h k (.inr (.inr (.inr hk)))).1) hl2,
      get_eq (n := n) (fun k' hk => by rw [k1] at hk; cases hk; exact k2) hl2]
    rw [← hroom2 z hz]
    rfl
  have r4 := sides_after index m.surfaces mem.surfaces resS hW.surfaces hmem.surfaces.length_eq nS L
    (fun p hp => List.mem_append_left _ hp) (by rw [kL]; exact hd1) (fun tw ht => hout tw (by simp [ht])) st st hl
  have r5 := sides_after index m.fenestrations mem.fenestrations resF hW.fenestrations hmem.fenestrations.length_eq nF L
    (fun p hp => List.mem_append_right _ hp) (by rw [kL]; exact hd1) (fun tw ht => hout tw (by simp [ht])) st st hl
  have r0 := collect_map (fun z : Room => expect z.places.dryBulb st) (fun z => (value st z.places.dryBulb).getD 0) m.rooms fun z hz => by
    obtain ⟨k, k1, k2⟩ := hW.rooms z hz
    exact expect_eq k1 k2 hl
  have rc := currentTemps_eq st m.rooms fun z hz => by rw [hl]; exact hW.rooms z hz
  unfold step
  rw [r0, Outcome.bind, i1, Outcome.bind]
  dsimp only
  rw [i2, Outcome.bind]
  dsimp only
  rw [hst2, r1, Outcome.bind, r2, Outcome.bind, r3, Outcome.bind, r4, Outcome.bind, r5, Outcome.bind]
  unfold zonesStep
  have hz : (inputs m mem index st resS resF).zones = m.rooms.map (room st) := rfl
  rw [hz, rc, Outcome.bind, List.length_map]
  show (calculateAbc (inputs m mem index st resS resF)).bind _ = _
  cases calculateAbc (inputs m mem index st resS resF) with
  | err => rfl
  | panic => rfl
  | ok x =>
    obtain ⟨ab, c⟩ := x
    simp only [Outcome.bind]
    cases hft : futureTemps (m.rooms.map fun z => (value st z.places.dryBulb).getD 0) ab.1 ab.2 c dt m.rooms.length 0 with
    | err => rfl
    | panic => rfl
    | ok future =>
      have hlen := futureTemps_length _ _ _ _ _ _ _ _ hft
      simp only []
      rw [setRooms_eq (n := n) future m.rooms 0 _ (by omega) hl2 hW.rooms, List.drop_zero, ← assignAll_append]
      rfl

theorem step_inv {m : ThermalModel} {n : ℕ} (hW : Wired m n) (tiny : ℝ) (cav : CavityU ℝ) (index : String → Option ℕ) (w : StepWeather)
    (dt : ℝ) (mem : Memory) (hmem : Sized m mem) (st : List ℝ) (hl : st.length = n) (r : Memory × List ℝ)
    (h : step m tiny cav index w dt mem st = .ok r) : ∃ resS resF temps,
    List.Forall₂ (Alone tiny cav w dt (spaceTemperature m.rooms index st) st) (m.surfaces.zip mem.surfaces) resS ∧
    List.Forall₂ (Alone tiny cav w dt (spaceTemperature m.rooms index st) st) (m.fenestrations.zip mem.fenestrations) resF ∧
    zonesStep (inputs m mem index st resS resF) dt = .ok temps ∧
    r = (⟨resS.map Prod.snd, resF.map Prod.snd⟩, assignAll (total m resS resF temps) st) := by
  have h0 := h
  unfold step at h
  obtain ⟨cur, -, h⟩ := bind_ok h
  obtain ⟨s, h1, h⟩ := bind_ok h
  obtain ⟨f, h2, -⟩ := bind_ok h
  obtain ⟨resS, hS⟩ := iterate_inv tiny cav w dt _ (loopS hW) mem.surfaces st hl hmem.surfaces _ h1
  have nS := (alone_list _ _ _ hmem.surfaces hS).imp fun _ _ h => h.1
  rw [iterate_ok tiny cav w dt _ (loopS hW) mem.surfaces st hl hmem.surfaces resS hS] at h1
  cases h1
  obtain ⟨resF, hF⟩ := iterate_inv tiny cav w dt _ (loopF hW) mem.fenestrations _ (by rw [assignAll_length]; exact hl) hmem.fenestrations _ h2
  have hF' := forall₂_imp_mem (fun x hx r => (fens_see hW tiny cav index w dt mem st resS nS x hx r).1) hF
  rw [step_of hW tiny cav index w dt mem hmem st hl resS resF hS hF'] at h0
  obtain ⟨temps, t1, t2⟩ := bind_ok h0
  cases t2
  exact ⟨resS, resF, temps, hS, hF', t1, rfl⟩

theorem spaces_apart (m : ThermalModel) (mem : Memory) (index : String → Option ℕ) (st : List ℝ) :
    (fun name => (index name).bind fun i => ((apart m mem st).rooms[i]?).bind fun z => z.temp) = spaceTemperature m.rooms index st := by
  funext name
  unfold spaceTemperature
  cases index name with
  | none => rfl
  | some i =>
    simp only [Option.bind_some, apart, List.getElem?_map]
    cases m.rooms[i]? with
    | none => rfl
    | some z => rfl

theorem apart_of {m : ThermalModel} (tiny : ℝ) (cav : CavityU ℝ) (index : String → Option ℕ) (w : StepWeather)
    (dt : ℝ) (mem : Memory) (st : List ℝ) (hs : HeatState) : (apart m mem st).step tiny cav index w dt = .ok hs ↔
    ∃ resS resF temps,
    List.Forall₂ (Alone tiny cav w dt (spaceTemperature m.rooms index st) st) (m.surfaces.zip mem.surfaces) resS ∧
    List.Forall₂ (Alone tiny cav w dt (spaceTemperature m.rooms index st) st) (m.fenestrations.zip mem.fenestrations) resF ∧
    zonesStep (inputs m mem index st resS resF) dt = .ok temps ∧
    hs = { apart m mem st with
      rooms := List.zipWith (fun z t => { z with temp := some t }) (m.rooms.map (room st)) temps
      surfaces := (List.zipWith (after st index) (m.surfaces.zip mem.surfaces) resS).map Prod.fst
      fenestrations := (List.zipWith (after st index) (m.fenestrations.zip mem.fenestrations) resF).map Prod.fst } := by
  unfold HeatState.step
  dsimp only
  rw [spaces_apart]
  constructor
  · intro h
    obtain ⟨a, h1, h⟩ := bind_ok h
    obtain ⟨b, h2, h⟩ := bind_ok h
    obtain ⟨temps, h3, h⟩ := bind_ok h
    obtain ⟨resS, s1, rfl⟩ := (parts_iff _ _ _ _ _ _ _ _ _ _).1 h1
    obtain ⟨resF, f1, rfl⟩ := (parts_iff _ _ _ _ _ _ _ _ _ _).1 h2
    cases h
    exact ⟨resS, resF, temps, s1, f1, h3, rfl⟩
  · rintro ⟨resS, resF, temps, h1, h2, h3, rfl⟩
    have g1 := (parts_iff tiny cav w dt _ st index _ _ _).2 ⟨resS, h1, rfl⟩
    have g2 := (parts_iff tiny cav w dt _ st index _ _ _).2 ⟨resF, h2, rfl⟩
    show (collect _ (List.zipWith (part st) m.surfaces mem.surfaces)).bind _ = _
    rw [g1, Outcome.bind]
    show (collect _ (List.zipWith (part st) m.fenestrations mem.fenestrations)).bind _ = _
    rw [g2, Outcome.bind]
    have h3' := h3
    unfold inputs at h3'
    show (zonesStep _ dt).bind _ = _
    erw [h3']
    rfl

theorem zonesStep_length {x : Inputs} {dt : ℝ} {temps : List ℝ} (h : zonesStep x dt = .ok temps) : temps.length = x.zones.length := by
  unfold zonesStep at h
  obtain ⟨c, -, h⟩ := bind_ok h
  obtain ⟨a, -, h⟩ := bind_ok h
  exact futureTemps_length _ _ _ _ _ _ _ _ h

/-- The parts of a state where all of `L` was written. -/
theorem parts_after {n : ℕ} (index : String → Option ℕ) (ws : List ThermalWall) (mems : List SurfaceMemory) (res : List (Written × SurfaceMemory))
    (hc : ∀ tw ∈ ws, Complete n tw.parent) (hlen : ws.length = mems.length)
    (hS : List.Forall₂ (fun (tw : ThermalWall) (r : Written × SurfaceMemory) => r.1.temperatures.length = tw.parent.nodes ∧
      r.1.temperatures = r.2.temperatures) ws res)
    (L : List (ℕ × ℝ)) (hL : ∀ p ∈ wallPairs ws res, p ∈ L) (hd : (L.map Prod.fst).Nodup)
    (ho : ∀ tw ∈ ws, Outside tw.parent (L.map Prod.fst)) (st : List ℝ) (hl : st.length = n) :
    List.zipWith (part (assignAll L st)) ws (res.map Prod.snd) = (List.zipWith (after st index) (ws.zip mems) res).map Prod.fst ∧
    List.Forall₂ (InSync (assignAll L st)) ws (res.map Prod.snd) := by
  have hm := wallPairs_mem ws res L hL hS.length_eq
  clear hL
  induction ws generalizing mems res with
  | nil => cases hS; exact ⟨rfl, .nil⟩
  | cons tw ws ih =>
    obtain ⟨r, res, h1, h2, rfl⟩ := List.forall₂_cons_left_iff.1 hS
    cases mems with
    | nil => simp at hlen
    | cons mem mems =>
      rw [List.forall₂_cons] at hm
      obtain ⟨i1, i2⟩ := ih mems res (fun x hx => hc x (by simp [hx])) (by simpa using hlen) h2 (fun x hx => ho x (by simp [hx])) hm.2
      obtain ⟨w0, w00, -⟩ := wall_after (hc tw (by simp)) r.1 h1.1 L hm.1 hd (ho tw (by simp)) st hl
      rw [List.zip_cons_cons, List.zipWith_cons_cons, List.map_cons, List.map_cons, List.zipWith_cons_cons, i1]
      refine ⟨?_, .cons ⟨by rw [← h1.2]; exact h1.1, fun j hj => by rw [w00 j hj, h1.2]⟩ i2⟩
      congr 1
      unfold part after
      rw [w0]
      rfl

/-- Rooms after a step. -/
theorem rooms_after {n : ℕ} (L : List (ℕ × ℝ)) (hd : (L.map Prod.fst).Nodup) (st : List ℝ) (hl : st.length = n) :
    ∀ (rooms : List Room) (temps : List ℝ), temps.length = rooms.length → (∀ z ∈ rooms, ∃ k, z.places.dryBulb = some k ∧ k < n) →
    (∀ z ∈ rooms, ∀ k, (z.places.infiltrationTemperature = some k ∨ z.places.infiltrationVolume = some k ∨
      z.ventilationTemperature = some k ∨ z.ventilationVolume = some k) → k ∉ L.map Prod.fst) →
    (∀ p ∈ (rooms.map fun z => z.places.dryBulb.getD 0).zip temps, p ∈ L) →
    rooms.map (room (assignAll L st)) = List.zipWith (fun z t => { z with temp := some t }) (rooms.map (room st)) temps := by
  intro rooms
  induction rooms with
  | nil => intro temps _ _ _ _; rfl
  | cons z rooms ih =>
    intro temps hlen hc ho hL
    cases temps with
    | nil => simp at hlen
    | cons t temps =>
      rw [List.map_cons, List.zip_cons_cons] at hL
      rw [List.map_cons, List.map_cons, List.zipWith_cons_cons, ih temps (by simpa using hlen) (fun x hx => hc x (by simp [hx]))
        (fun x hx => ho x (by simp [hx])) (fun p hp => hL p (by simp [hp]))]
      congr 1
      have h := ho z (by simp)
      obtain ⟨k, k1, k2⟩ := hc z (by simp)
      unfold room
      rw [value_other (l := L) fun k hk => h k (.inl hk), value_other (l := L) fun k hk => h k (.inr (.inl hk)),
        value_other (l := L) fun k hk => h k (.inr (.inr (.inl hk))), value_other (l := L) fun k hk => h k (.inr (.inr (.inr hk))),
        value_mem (l := L) (st := st) k1 hd (hL _ (List.mem_cons.2 (.inl (by rw [k1]; rfl)))) (by omega)]

/-- **C104.**  A step of the heat model on the flat state of a whole building is the step of its parts, each with its own
values: where everything has its own place in the state, the one goes through if and only if the other does, what the state
holds afterwards is what the parts have, the memory holds the temperatures of the nodes in the state, and nothing else of the
state changes.

Missing: temperatures that are set in the state for the nodes inside of surfaces (`C104_violated_nodes`). -/
theorem C104_step_partial {m : ThermalModel} (tiny : ℝ) (cav : CavityU ℝ) (index : String → Option ℕ) (w : StepWeather) (dt : ℝ)
    (mem : Memory) (st : List ℝ) (hW : Wired m st.length) (hmem : Sized m mem) :
    (∀ hs, (apart m mem st).step tiny cav index w dt = .ok hs → ∃ mem' st', step m tiny cav index w dt mem st = .ok (mem', st') ∧
      apart m mem' st' = hs ∧ Synced m mem' st' ∧ st'.length = st.length ∧ ∀ k, k ∉ writes m → st'[k]? = st[k]?) ∧
    (∀ r, step m tiny cav index w dt mem st = .ok r → ∃ hs, (apart m mem st).step tiny cav index w dt = .ok hs) := by
  constructor
  · intro hs h
    obtain ⟨resS, resF, temps, hS, hF, hz, rfl⟩ := (apart_of _ _ _ _ _ _ _ _).1 h
    have aS := alone_list _ _ _ hmem.surfaces hS
    have aF := alone_list _ _ _ hmem.fenestrations hF
    have ht : temps.length = m.rooms.length := by
      have := zonesStep_length hz
      rw [this]
      show (m.rooms.map (room st)).length = _
      simp
    have kT := total_fst (aS.imp fun _ _ h => h.1) (aF.imp fun _ _ h => h.1) temps ht
    have hd : ((total m resS resF temps).map Prod.fst).Nodup := by rw [kT]; exact hW.distinct
    have hout : ∀ tw ∈ m.surfaces ++ m.fenestrations, Outside tw.parent ((total m resS resF temps).map Prod.fst) := by
      intro tw htw s q hq k hk hm
      rw [kT] at hm
      exact hW.radiation tw htw s q hq k hk hm
    obtain ⟨p1, p2⟩ := parts_after index m.surfaces mem.surfaces resS hW.surfaces hmem.surfaces.length_eq aS (total m resS resF temps)
      (fun p hp => List.mem_append_left _ (List.mem_append_left _ hp)) hd (fun tw htw => hout tw (by simp [htw])) st rfl
    obtain ⟨q1, q2⟩ := parts_after index m.fenestrations mem.fenestrations resF hW.fenestrations hmem.fenestrations.length_eq aF
      (total m resS resF temps) (fun p hp => List.mem_append_left _ (List.mem_append_right _ hp)) hd
      (fun tw htw => hout tw (by simp [htw])) st rfl
    refine ⟨⟨resS.map Prod.snd, resF.map Prod.snd⟩, assignAll (total m resS resF temps) st, ?_, ?_, ⟨p2, q2⟩, assignAll_length _ _, ?_⟩
    · rw [step_of hW tiny cav index w dt mem hmem st rfl resS resF hS hF, hz]
      rfl
    · have hr := rooms_after (n := st.length) (total m resS resF temps) hd st rfl m.rooms temps ht hW.rooms
        (fun z hz k hk hm => (hW.air z hz k hk).2 (by rw [← kT]; exact hm)) (fun p hp => List.mem_append_right _ hp)
      have hp : ∀ a ∈ m.hvacs ++ m.luminaires, (a.space, value (assignAll (total m resS resF temps) st) a.power) = (a.space, value st a.power) := by
        intro a ha
        rw [value_other (l := total m resS resF temps) fun k hk hm => (hW.powers a ha k hk).2 (by rw [← kT]; exact hm)]
      unfold apart
      rw [p1, q1, hr, List.map_congr_left fun a ha => hp a (by simp [ha]), List.map_congr_left fun a ha => hp a (by simp [ha])]
    · intro k hk
      exact assignAll_other _ _ _ (by rw [kT]; exact hk)
  · intro r h
    obtain ⟨resS, resF, temps, hS, hF, hz, -⟩ := step_inv hW tiny cav index w dt mem hmem st rfl r h
    exact ⟨_, (apart_of _ _ _ _ _ _ _ _).2 ⟨resS, resF, temps, hS, hF, hz, rfl⟩⟩

end
end Simple.Heat.Whole
