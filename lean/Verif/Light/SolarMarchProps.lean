import Mathlib.Tactic.Linarith
import Verif.Light.SolarMarchModel
import Verif.Sim.WiringProps
import Verif.Matrix.Props

/-! # C103: the solar radiation of a whole building -/

namespace Simple.Light.March

open Simple.Light Wiring Wiring.Spec Matrix Matrix.Spec State

namespace Spec

/-- Solar irradiance of a side after a step, from what arrives in the step and what was there before: the average of both;
sides that see neither the outdoors nor a space get none from before, and surfaces do not get negative radiation. -/
noncomputable def sunAfter (kind : Kind) (b : Boundary) (arrives before : ℝ) : ℝ :=
  ((match kind with | .surface => max 0 arrives | .fenestration => arrives) +
    match b with | .space | .outdoor => before | _ => 0) / 2

/-- Radiation of a black body at a temperature in Celsius, with the constant of Stefan and Boltzmann. -/
noncomputable def blackBody (t : ℝ) : ℝ := 5.670374419e-8 * (t + 273.15) ^ 4

/-- Infrared irradiance of a side after a step: in a space, that of a black body at the temperature of the side itself; of
one at the temperature that is given; none new for ground and adiabatic sides; and outdoors, the part of the sky, and that
of the ground and the air at the temperature outdoors. -/
noncomputable def infraredAfter (b : Boundary) (side outdoors horizontalIr : ℝ) (v : ViewFactors) (before : ℝ) : ℝ :=
  match b with
  | .space => blackBody side
  | .ambientTemperature t => blackBody t
  | .ground | .adiabatic => before
  | .outdoor => v.sky * horizontalIr + (v.ground + v.air) * blackBody outdoors

/-- The value of a quantity. -/
def value (o : Objects) (state : List ℝ) (s : Slot) : Option ℝ := (place o s).bind (state[·]?)

/-- The node of a wall at a side. -/
def sideNode (kind : Kind) (i nodes : ℕ) : Side → Slot
  | .front => .node kind i 0
  | .back => .node kind i (nodes - 1)

/-- Does the wall take part? All do but openings. -/
def Takes (kind : Kind) (w : Wall) : Prop := ¬(kind = .fenestration ∧ w.opening = true)

/-- The optical data are for this building and this subdivision of the sky, and `coefficients` are the daylight
coefficients. -/
structure Fits (o : Objects) (m : Solar)
    (coefficients : (kind : Kind) → Side → _root_.Matrix (Fin (walls o kind).length) (Fin (Weather.Reinhart.nBins m.mf)) ℝ) : Prop where
  views : ∀ kind s, (m.info.viewFactors kind s).length = (walls o kind).length
  none : ∀ kind s, walls o kind = [] → m.info.dc kind s = GMatrix.empty
  some : ∀ kind s, walls o kind ≠ [] → Rep (m.info.dc kind s) (coefficients kind s)

end Spec

open Spec

/-! ## Tasks -/

/-- A write to a cell of the state. -/
structure Task where
  cell : ℕ
  f : (ℕ → ℝ) → ℝ

def view (st : List ℝ) : ℕ → ℝ := fun k => (st[k]?).getD 0

def run (ts : List Task) (st : List ℝ) : List ℝ := ts.foldl (fun st t => st.set t.cell (t.f (view st))) st

theorem run_append (a b : List Task) (st : List ℝ) : run (a ++ b) st = run b (run a st) := by
  simp [run, List.foldl_append]

theorem run_length (ts : List Task) : ∀ st, (run ts st).length = st.length := by
  induction ts with
  | nil => intro st; rfl
  | cons t ts ih =>
    intro st
    have := ih (st.set t.cell (t.f (view st)))
    simpa [run] using this

/-- Tasks read only their own cell and the cells of `R`. -/
def Local (R : ℕ → Prop) (t : Task) : Prop :=
  ∀ s s' : ℕ → ℝ, (∀ k, R k → s k = s' k) → s t.cell = s' t.cell → t.f s = t.f s'

theorem view_set_ne (st : List ℝ) (c k : ℕ) (v : ℝ) (h : c ≠ k) : view (st.set c v) k = view st k := by
  simp [view, List.getElem?_set_ne h]

theorem run_frame (ts : List Task) : ∀ (st : List ℝ) (k : ℕ), (∀ t ∈ ts, t.cell ≠ k) → (run ts st)[k]? = st[k]? := by
  induction ts with
  | nil => intro st k _; rfl
  | cons t ts ih =>
    intro st k h
    have := ih (st.set t.cell (t.f (view st))) k (fun u hu => h u (List.mem_cons_of_mem _ hu))
    rw [List.getElem?_set_ne (h t List.mem_cons_self)] at this
    simpa [run] using this

theorem run_get (R : ℕ → Prop) (ts : List Task) : ∀ (st : List ℝ), (∀ t ∈ ts, t.cell < st.length) →
    ts.Pairwise (fun t u => t.cell ≠ u.cell) → (∀ t ∈ ts, Local R t) → (∀ t ∈ ts, ¬R t.cell) →
    ∀ t ∈ ts, (run ts st)[t.cell]? = some (t.f (view st)) := by
  induction ts with
  | nil => intro st _ _ _ _ t ht; cases ht
  | cons a ts ih =>
    intro st hc hp hl hr t ht
    rw [List.pairwise_cons] at hp
    have hrun : run (a :: ts) st = run ts (st.set a.cell (a.f (view st))) := rfl
    rw [hrun]
    rcases List.mem_cons.1 ht with rfl | ht'
    · rw [run_frame ts _ _ (fun u hu => (hp.1 u hu).symm), List.getElem?_set_self (hc t List.mem_cons_self)]
    · rw [ih (st.set a.cell (a.f (view st))) (fun u hu => by simpa using hc u (List.mem_cons_of_mem _ hu)) hp.2
        (fun u hu => hl u (List.mem_cons_of_mem _ hu)) (fun u hu => hr u (List.mem_cons_of_mem _ hu)) t ht']
      congr 1
      refine hl t ht _ _ (fun k hk => ?_) ?_
      · exact view_set_ne _ _ _ _ (fun e => hr a List.mem_cons_self (e ▸ hk))
      · exact view_set_ne _ _ _ _ (hp.1 t ht')

/-- Tasks of the walls of a list, from number `i` on. -/
def tasksFrom (g : ℕ → Wall → List Task) : ℕ → List Wall → List Task
  | _, [] => []
  | i, w :: ws => g i w ++ tasksFrom g (i + 1) ws

theorem mem_tasksFrom (g : ℕ → Wall → List Task) (t : Task) : ∀ (ws : List Wall) (i : ℕ),
    t ∈ tasksFrom g i ws ↔ ∃ j w, ws[j]? = some w ∧ t ∈ g (i + j) w := by
  intro ws
  induction ws with
  | nil => intro i; simp [tasksFrom]
  | cons w ws ih =>
    intro i
    rw [tasksFrom, List.mem_append, ih]
    constructor
    · rintro (h | ⟨j, w', h1, h2⟩)
      · exact ⟨0, w, rfl, h⟩
      · exact ⟨j + 1, w', by simpa using h1, by rwa [show i + (j + 1) = i + 1 + j by omega]⟩
    · rintro ⟨j, w', h1, h2⟩
      cases j with
      | zero => left; simp at h1; subst h1; exact h2
      | succ j => right; exact ⟨j, w', by simpa using h1, by rwa [show i + 1 + j = i + (j + 1) by omega]⟩

/-- Cells of the tasks of different walls are different, if each cell is of a quantity of the wall. -/
theorem pairwise_tasksFrom (own : ℕ → Slot → Prop) (hown : ∀ c s s', own c s → own c s' → s = s') (kind : Kind)
    (g : ℕ → Wall → List Task) : ∀ (ws : List Wall) (i : ℕ),
    (∀ j w, ws[j]? = some w → (g (i + j) w).Pairwise (fun t u => t.cell ≠ u.cell) ∧
      ∀ t ∈ g (i + j) w, ∃ s q, own t.cell (.wall kind (i + j) s q)) →
    (tasksFrom g i ws).Pairwise (fun t u => t.cell ≠ u.cell) := by
  intro ws
  induction ws with
  | nil => intro i _; simp [tasksFrom]
  | cons w ws ih =>
    intro i h
    have h0 := h 0 w rfl
    rw [Nat.add_zero] at h0
    have hs : ∀ j w', ws[j]? = some w' → (g (i + 1 + j) w').Pairwise (fun t u => t.cell ≠ u.cell) ∧
        ∀ t ∈ g (i + 1 + j) w', ∃ s q, own t.cell (.wall kind (i + 1 + j) s q) := fun j w' hj => by
      have := h (j + 1) w' (by simpa using hj)
      rwa [show i + (j + 1) = i + 1 + j by omega] at this
    rw [tasksFrom, List.pairwise_append]
    refine ⟨h0.1, ih (i + 1) hs, fun t ht u hu e => ?_⟩
    obtain ⟨j, w', hj, hu⟩ := (mem_tasksFrom g u ws (i + 1)).1 hu
    obtain ⟨s, q, o1⟩ := h0.2 t ht
    obtain ⟨s', q', o2⟩ := (hs j w' hj).2 u hu
    have := hown _ _ _ o1 (e ▸ o2)
    simp only [Slot.wall.injEq] at this
    omega

/-! ## The loops -/

def cell (w : Wall) (s : Side) (q : Quantity) : ℕ := (w.field s q).getD 0

/-- Infrared radiation of a side. -/
noncomputable def irTask (b : Boundary) (v : ViewFactors) (db horizontalIr : ℝ) (w : Wall) (s : Side) : List Task :=
  match b with
  | .space => [⟨cell w s .infrared, fun st => ir (st ((node w s).getD 0)) 1⟩]
  | .ambientTemperature t => [⟨cell w s .infrared, fun _ => ir t 1⟩]
  | .ground => []
  | .adiabatic => []
  | .outdoor => [⟨cell w s .infrared, fun _ => (v.ground + v.air) * ir db 1 + v.sky * horizontalIr⟩]

noncomputable def vf (info : OpticalInfo) (kind : Kind) (s : Side) (i : ℕ) : ViewFactors :=
  ((info.viewFactors kind s)[i]?).getD ⟨0, 0, 0⟩

noncomputable def irTasks (kind : Kind) (b : Building) (info : OpticalInfo) (db horizontalIr : ℝ) (i : ℕ) (w : Wall) : List Task :=
  if skips kind w then []
  else irTask (b.boundary kind i .front) (vf info kind .front i) db horizontalIr w .front ++
    irTask (b.boundary kind i .back) (vf info kind .back i) db horizontalIr w .back

/-- The wall has its places in a state of length `n`. -/
structure Placed (n : ℕ) (w : Wall) : Prop where
  sun : ∀ s, ∃ c, w.field s .sun = some c ∧ c < n
  infrared : ∀ s, ∃ c, w.field s .infrared = some c ∧ c < n
  node : ∀ s, ∃ c, node w s = some c ∧ c < n

theorem irSide_eq (b : Boundary) (info : OpticalInfo) (kind : Kind) (i : ℕ) (db horizontalIr : ℝ) (w : Wall) (s : Side)
    (st : List ℝ) (hp : Placed st.length w) (hv : i < (info.viewFactors kind s).length) :
    irSide b (info.viewFactors kind s) i db horizontalIr w s st = .ok (run (irTask b (vf info kind s i) db horizontalIr w s) st) := by
  obtain ⟨c, h1, h2⟩ := hp.infrared s
  obtain ⟨d, h3, h4⟩ := hp.node s
  have hc : cell w s .infrared = c := by simp [cell, h1]
  cases b with
  | space =>
    have : view st d = st[d] := by simp [view, List.getElem?_eq_getElem h4]
    simp only [irSide, get, h3, Outcome.index_of_lt h4, Outcome.map, Outcome.bind, Light.March.set, h1, if_pos h2, irTask, run,
      List.foldl_cons, List.foldl_nil, hc, Option.getD_some, this]
  | ambientTemperature t => simp only [irSide, Light.March.set, h1, if_pos h2, irTask, run, List.foldl_cons, List.foldl_nil, hc]
  | ground => rfl
  | adiabatic => rfl
  | outdoor =>
    have : vf info kind s i = (info.viewFactors kind s)[i] := by simp [vf, List.getElem?_eq_getElem hv]
    simp only [irSide, Outcome.index_of_lt hv, Outcome.bind, Light.March.set, h1, if_pos h2, irTask, run, List.foldl_cons,
      List.foldl_nil, hc, this]

theorem irLoop_eq (kind : Kind) (b : Building) (info : OpticalInfo) (db horizontalIr : ℝ) (n : ℕ) : ∀ (ws : List Wall) (i : ℕ)
    (st : List ℝ), st.length = n → (∀ (j : ℕ) (w : Wall), ws[j]? = some w → skips kind w = false → Placed n w) →
    (∀ s, i + ws.length ≤ (info.viewFactors kind s).length) →
    irLoop kind b info db horizontalIr i ws st = .ok (run (tasksFrom (irTasks kind b info db horizontalIr) i ws) st) := by
  intro ws
  induction ws with
  | nil => intro i st _ _ _; rfl
  | cons w ws ih =>
    intro i st hl hp hv
    have hp' : ∀ (j : ℕ) (w' : Wall), ws[j]? = some w' → skips kind w' = false → Placed n w' := fun j w' hj => hp (j + 1) w' (by simpa using hj)
    have hv' : ∀ s, i + 1 + ws.length ≤ (info.viewFactors kind s).length := fun s => by
      have := hv s
      simp only [List.length_cons] at this
      omega
    have hi : ∀ s, i < (info.viewFactors kind s).length := fun s => by have := hv' s; omega
    rw [irLoop, tasksFrom, run_append]
    by_cases hs : skips kind w = true
    · rw [if_pos hs, ih (i + 1) st hl hp' hv', irTasks, if_pos hs]
      rfl
    · rw [if_neg hs, irTasks, if_neg hs, run_append]
      have hw := hp 0 w rfl (by simpa using hs)
      rw [irSide_eq _ info kind i db horizontalIr w .front st (hl ▸ hw) (hi _)]
      simp only [Outcome.bind]
      rw [irSide_eq _ info kind i db horizontalIr w .back _ (by rw [run_length]; exact hl ▸ hw) (hi _)]
      simp only
      rw [ih (i + 1) _ (by rw [run_length, run_length, hl]) hp' hv']

def nightTasks (kind : Kind) (_ : ℕ) (w : Wall) : List Task :=
  if skips kind w then [] else [⟨cell w .front .sun, fun _ => 0⟩, ⟨cell w .back .sun, fun _ => 0⟩]

theorem nightLoop_eq (kind : Kind) (n : ℕ) : ∀ (ws : List Wall) (i : ℕ) (st : List ℝ), st.length = n →
    (∀ (j : ℕ) (w : Wall), ws[j]? = some w → skips kind w = false → Placed n w) →
    nightLoop kind ws st = .ok (run (tasksFrom (nightTasks kind) i ws) st) := by
  intro ws
  induction ws with
  | nil => intro i st _ _; rfl
  | cons w ws ih =>
    intro i st hl hp
    have hp' : ∀ (j : ℕ) (w' : Wall), ws[j]? = some w' → skips kind w' = false → Placed n w' := fun j w' hj => hp (j + 1) w' (by simpa using hj)
    rw [nightLoop, tasksFrom, run_append]
    by_cases hs : skips kind w = true
    · rw [if_pos hs, ih (i + 1) st hl hp', nightTasks, if_pos hs]
      rfl
    · rw [if_neg hs, nightTasks, if_neg hs]
      have hw := hp 0 w rfl (by simpa using hs)
      obtain ⟨c, h1, h2⟩ := hw.sun .front
      obtain ⟨d, h3, h4⟩ := hw.sun .back
      simp only [Light.March.set, h1, h3, if_pos (hl.symm ▸ h2), Outcome.bind, List.length_set, if_pos (hl.symm ▸ h4)]
      rw [ih (i + 1) _ (by simp [hl]) hp']
      simp [run, cell, h1, h3]

/-- Sun of a side, when `v` arrives. -/
noncomputable def dayTask (kind : Kind) (b : Boundary) (v : ℝ) (w : Wall) (s : Side) : Task :=
  ⟨cell w s .sun, fun st => ((if kind = .surface ∧ v < 0 then 0 else v) + if receivesSun b then st (cell w s .sun) else 0) / 2⟩

theorem daySide_eq (kind : Kind) (b : Boundary) (irradiance : GMatrix ℝ) (i : ℕ) (v : ℝ) (hv : irradiance.get i 0 = .ok v) (w : Wall)
    (s : Side) (st : List ℝ) (hp : Placed st.length w) :
    daySide kind b irradiance i w s st = .ok (run [dayTask kind b v w s] st) := by
  obtain ⟨c, h1, h2⟩ := hp.sun s
  have hc : cell w s .sun = c := by simp [cell, h1]
  unfold daySide
  cases hb : receivesSun b with
  | true =>
    have : view st c = st[c] := by simp [view, List.getElem?_eq_getElem h2]
    simp only [if_true, Outcome.bind, hv, get, h1, Outcome.index_of_lt h2, Outcome.map, Light.March.set, if_pos h2, run,
      List.foldl_cons, List.foldl_nil, dayTask, hc, hb, this]
  | false =>
    have h2' : c < (st.set c 0).length := by simpa using h2
    have : (st.set c 0)[c] = 0 := by simp
    simp only [Bool.false_eq_true, if_false, Outcome.bind, hv, get, h1, Light.March.set, if_pos h2, Outcome.index_of_lt h2', Outcome.map,
      if_pos h2', run, List.foldl_cons, List.foldl_nil, dayTask, hc, hb, this, List.set_set]

noncomputable def dayTasks (kind : Kind) (s : Side) (b : Building) (arrives : ℕ → ℝ) (i : ℕ) (w : Wall) : List Task :=
  if skips kind w then [] else [dayTask kind (b.boundary kind i s) (arrives i) w s]

theorem dayLoop_eq (kind : Kind) (s : Side) (b : Building) (irradiance : GMatrix ℝ) (arrives : ℕ → ℝ) (n : ℕ) : ∀ (ws : List Wall)
    (i : ℕ) (st : List ℝ), st.length = n → (∀ (j : ℕ) (w : Wall), ws[j]? = some w → skips kind w = false → Placed n w) →
    (∀ j, j < ws.length → irradiance.get (i + j) 0 = .ok (arrives (i + j))) →
    dayLoop kind s b irradiance i ws st = .ok (run (tasksFrom (dayTasks kind s b arrives) i ws) st) := by
  intro ws
  induction ws with
  | nil => intro i st _ _ _; rfl
  | cons w ws ih =>
    intro i st hl hp hv
    have hp' : ∀ (j : ℕ) (w' : Wall), ws[j]? = some w' → skips kind w' = false → Placed n w' := fun j w' hj => hp (j + 1) w' (by simpa using hj)
    have hv' : ∀ j, j < ws.length → irradiance.get (i + 1 + j) 0 = .ok (arrives (i + 1 + j)) := fun j hj => by
      have := hv (j + 1) (by simpa using hj)
      rwa [show i + (j + 1) = i + 1 + j by omega] at this
    rw [dayLoop, tasksFrom, run_append]
    by_cases hs : skips kind w = true
    · rw [if_pos hs, ih (i + 1) st hl hp' hv', dayTasks, if_pos hs]
      rfl
    · rw [if_neg hs, dayTasks, if_neg hs]
      have hw := hp 0 w rfl (by simpa using hs)
      rw [daySide_eq kind _ irradiance i (arrives i) (by simpa using hv 0 (by simp)) w s st (hl ▸ hw)]
      simp only [Outcome.bind]
      rw [ih (i + 1) _ (by rw [run_length, hl]) hp' hv']

/-! ## Places -/

/-- `own c s`: cell `c` of the state is that of quantity `s`. -/
def Own (h : Header ℚ) (c : ℕ) (s : Slot) : Prop := h.elements[c]? = some (elementOf s)

theorem Own.unique {h : Header ℚ} {c : ℕ} {s s' : Slot} (a : Own h c s) (b : Own h c s') : s = s' := by
  unfold Own at a b
  rw [a] at b
  exact elementOf_injective (Option.some.inj b)

theorem Own.lt {h : Header ℚ} {c : ℕ} {s : Slot} (a : Own h c s) : c < h.elements.length := by
  by_contra hc
  unfold Own at a
  rw [List.getElem?_eq_none (by omega)] at a
  cases a

/-- Places of a wall that takes part. -/
structure In (h : Header ℚ) (kind : Kind) (i : ℕ) (w : Wall) : Prop where
  field : ∀ s q, ∃ c, w.field s q = some c ∧ Own h c (.wall kind i s q)
  node : ∀ s, ∃ c, node w s = some c ∧ Own h c (sideNode kind i w.nodes s)

theorem In.placed {h : Header ℚ} {kind : Kind} {i : ℕ} {w : Wall} (hw : In h kind i w) : Placed h.elements.length w :=
  ⟨fun s => (hw.field s .sun).imp fun _ hc => ⟨hc.1, hc.2.lt⟩, fun s => (hw.field s .infrared).imp fun _ hc => ⟨hc.1, hc.2.lt⟩,
    fun s => (hw.node s).imp fun _ hc => ⟨hc.1, hc.2.lt⟩⟩

theorem In.cell {h : Header ℚ} {kind : Kind} {i : ℕ} {w : Wall} (hw : In h kind i w) (s : Side) (q : Quantity) :
    Own h (cell w s q) (.wall kind i s q) ∧ w.field s q = some (cell w s q) := by
  obtain ⟨c, h1, h2⟩ := hw.field s q
  rw [Light.March.cell, h1]
  exact ⟨h2, rfl⟩

theorem skips_takes {kind : Kind} {w : Wall} : skips kind w = false ↔ Takes kind w := by
  cases kind <;> simp [skips, Takes]

theorem placed (calculated : Bool) (o o' : Objects) (h h' : Header ℚ) (hv : h.defaultValues ≠ none) (hf : Fresh o)
    (hn : physicsNew calculated o h = .ok (o', h')) (hnodes : ∀ kind, ∀ w ∈ walls o kind, Takes kind w → 0 < w.nodes)
    (kind : Kind) (i : ℕ) (w : Wall) (hi : (walls o' kind)[i]? = some w) (ht : Takes kind w) : In h' kind i w := by
  obtain ⟨o2, h2, w1, -, -, w2, w3, w4, -⟩ := C90_wired calculated o h hv hf
  rw [hn] at w1
  cases w1
  have hm := congrArg (fun l : List (Bool × ℕ) => l[i]?) (w2 kind)
  simp only [List.getElem?_map, hi, Option.map_some] at hm
  cases hw0 : (walls o kind)[i]? with
  | none => rw [hw0] at hm; simp at hm
  | some w0 =>
    rw [hw0] at hm
    simp only [Option.map_some, Option.some.injEq, Prod.mk.injEq] at hm
    have ht0 : Takes kind w0 := by unfold Takes at ht ⊢; rw [← hm.1]; exact ht
    refine ⟨fun s q => ?_, fun s => ?_⟩
    · obtain ⟨k, k1, k2⟩ := w3 (.wall kind i s q) ⟨w0, hw0, fun hc => absurd hc ht0⟩
      rw [place, hi] at k1
      exact ⟨k, k1, k2⟩
    · obtain ⟨a, a1, a2⟩ := w4 kind i w hi ht
      have h0 : 0 < w.nodes := by rw [hm.2]; exact hnodes kind w0 (List.mem_of_getElem? hw0) ht0
      have hp : ∀ j, j < w.nodes → Own h' (a + j) (.node kind i j) := fun j hj => by
        obtain ⟨k, k1, k2⟩ := w3 (.node kind i j) ⟨w0, hw0, ht0, hm.2 ▸ hj⟩
        simp only [place, hi, Option.bind_some, a1, Option.map_some, Option.some.injEq] at k1
        rw [k1]
        exact k2
      cases s with
      | front => exact ⟨a, a1, hp 0 h0⟩
      | back => exact ⟨a + w.nodes - 1, a2, by
          have := hp (w.nodes - 1) (by omega)
          rwa [show a + (w.nodes - 1) = a + w.nodes - 1 by omega] at this⟩

theorem lastNodes (calculated : Bool) (o o' : Objects) (h h' : Header ℚ) (hv : h.defaultValues ≠ none) (hf : Fresh o)
    (hn : physicsNew calculated o h = .ok (o', h')) (hnodes : ∀ kind, ∀ w ∈ walls o kind, Takes kind w → 0 < w.nodes)
    (kind : Kind) (i : ℕ) (w : Wall) (hi : (walls o' kind)[i]? = some w) (ht : Takes kind w) :
    ∃ a, 0 < w.nodes ∧ w.first = some a ∧ w.last = some (a + w.nodes - 1) := by
  obtain ⟨o2, h2, w1, -, -, w2, -, w4, -⟩ := C90_wired calculated o h hv hf
  rw [hn] at w1
  cases w1
  have hm := congrArg (fun l : List (Bool × ℕ) => l[i]?) (w2 kind)
  simp only [List.getElem?_map, hi, Option.map_some] at hm
  cases hw0 : (walls o kind)[i]? with
  | none => rw [hw0] at hm; simp at hm
  | some w0 =>
    rw [hw0] at hm
    simp only [Option.map_some, Option.some.injEq, Prod.mk.injEq] at hm
    have ht0 : Takes kind w0 := by unfold Takes at ht ⊢; rw [← hm.1]; exact ht
    obtain ⟨a, a1, a2⟩ := w4 kind i w hi ht
    exact ⟨a, by rw [hm.2]; exact hnodes kind w0 (List.mem_of_getElem? hw0) ht0, a1, a2⟩

/-! ## All tasks -/

/-- The cells with temperatures of nodes. -/
def IsNode (h : Header ℚ) (c : ℕ) : Prop := ∃ kind i j, Own h c (.node kind i j)

theorem sideNode_isNode {h : Header ℚ} {kind : Kind} {i nodes : ℕ} {s : Side} {c : ℕ} (hc : Own h c (sideNode kind i nodes s)) :
    IsNode h c := by
  cases s with
  | front => exact ⟨kind, i, 0, hc⟩
  | back => exact ⟨kind, i, nodes - 1, hc⟩

theorem irTask_mem {h : Header ℚ} {kind : Kind} {i : ℕ} {w : Wall} (hw : In h kind i w) (b : Boundary) (v : ViewFactors)
    (db horizontalIr : ℝ) (s : Side) (t : Task) (ht : t ∈ irTask b v db horizontalIr w s) :
    t.cell = cell w s .infrared ∧ Local (IsNode h) t := by
  obtain ⟨c, h1, h2⟩ := hw.node s
  cases b with
  | space =>
    simp only [irTask, List.mem_singleton] at ht
    subst ht
    refine ⟨rfl, fun st st' hr _ => ?_⟩
    simp only [h1, Option.getD_some]
    rw [hr c (sideNode_isNode h2)]
  | ambientTemperature t => simp only [irTask, List.mem_singleton] at ht; subst ht; exact ⟨rfl, fun _ _ _ _ => rfl⟩
  | ground => simp [irTask] at ht
  | adiabatic => simp [irTask] at ht
  | outdoor => simp only [irTask, List.mem_singleton] at ht; subst ht; exact ⟨rfl, fun _ _ _ _ => rfl⟩

theorem irTask_pairwise (b : Boundary) (v : ViewFactors) (db horizontalIr : ℝ) (w : Wall) (s : Side) :
    (irTask b v db horizontalIr w s).Pairwise (fun t u => t.cell ≠ u.cell) := by
  cases b <;> simp [irTask]

/-- A list of tasks for the walls of a kind, with cells for one quantity. -/
structure Good (h : Header ℚ) (kind : Kind) (sides : Side → Prop) (q : Quantity) (ts : List Task) : Prop where
  own : ∀ t ∈ ts, ∃ i s, sides s ∧ Own h t.cell (.wall kind i s q)
  apart : ts.Pairwise (fun t u => t.cell ≠ u.cell)
  reads : ∀ t ∈ ts, Local (IsNode h) t

theorem good_from {h : Header ℚ} {kind : Kind} {sides : Side → Prop} {q : Quantity} (g : ℕ → Wall → List Task) (ws : List Wall)
    (hg : ∀ (i : ℕ) (w : Wall), ws[i]? = some w → (g i w).Pairwise (fun t u => t.cell ≠ u.cell) ∧
      ∀ t ∈ g i w, (∃ s, sides s ∧ Own h t.cell (.wall kind i s q)) ∧ Local (IsNode h) t) :
    Good h kind sides q (tasksFrom g 0 ws) := by
  refine ⟨fun t ht => ?_, ?_, fun t ht => ?_⟩
  · obtain ⟨j, w, hj, hm⟩ := (mem_tasksFrom g t ws 0).1 ht
    rw [Nat.zero_add] at hm
    obtain ⟨s, hs⟩ := ((hg j w hj).2 t hm).1
    exact ⟨j, s, hs⟩
  · refine pairwise_tasksFrom (Own h) (fun _ _ _ a b => a.unique b) kind g ws 0 fun j w hj => ?_
    rw [Nat.zero_add]
    exact ⟨(hg j w hj).1, fun t ht => ((hg j w hj).2 t ht).1.imp fun s hs => ⟨q, hs.2⟩⟩
  · obtain ⟨j, w, hj, hm⟩ := (mem_tasksFrom g t ws 0).1 ht
    rw [Nat.zero_add] at hm
    exact ((hg j w hj).2 t hm).2

theorem irTasks_good {h : Header ℚ} (kind : Kind) (b : Building) (info : OpticalInfo) (db horizontalIr : ℝ) (ws : List Wall)
    (hw : ∀ (i : ℕ) (w : Wall), ws[i]? = some w → Takes kind w → In h kind i w) :
    Good h kind (fun _ => True) .infrared (tasksFrom (irTasks kind b info db horizontalIr) 0 ws) := by
  refine good_from _ ws fun i w hi => ?_
  unfold irTasks
  cases hs : skips kind w with
  | true => simp
  | false =>
    have hin := hw i w hi (skips_takes.1 hs)
    simp only [Bool.false_eq_true, if_false]
    refine ⟨?_, fun t ht => ?_⟩
    · rw [List.pairwise_append]
      refine ⟨irTask_pairwise _ _ _ _ _ _, irTask_pairwise _ _ _ _ _ _, fun t ht u hu e => ?_⟩
      rw [(irTask_mem hin _ _ _ _ _ t ht).1, (irTask_mem hin _ _ _ _ _ u hu).1] at e
      have := (hin.cell .front .infrared).1.unique (e ▸ (hin.cell .back .infrared).1)
      simp at this
    · rcases List.mem_append.1 ht with ht | ht
      · have := irTask_mem hin _ _ _ _ _ t ht
        exact ⟨⟨.front, trivial, this.1 ▸ (hin.cell .front .infrared).1⟩, this.2⟩
      · have := irTask_mem hin _ _ _ _ _ t ht
        exact ⟨⟨.back, trivial, this.1 ▸ (hin.cell .back .infrared).1⟩, this.2⟩

theorem nightTasks_good {h : Header ℚ} (kind : Kind) (ws : List Wall)
    (hw : ∀ (i : ℕ) (w : Wall), ws[i]? = some w → Takes kind w → In h kind i w) :
    Good h kind (fun _ => True) .sun (tasksFrom (nightTasks kind) 0 ws) := by
  refine good_from _ ws fun i w hi => ?_
  unfold nightTasks
  cases hs : skips kind w with
  | true => simp
  | false =>
    have hin := hw i w hi (skips_takes.1 hs)
    simp only [Bool.false_eq_true, if_false]
    refine ⟨?_, fun t ht => ?_⟩
    · simp only [List.pairwise_cons, List.mem_singleton, forall_eq, List.not_mem_nil, false_imp_iff, implies_true, List.Pairwise.nil,
        and_true]
      intro e
      have := (hin.cell .front .sun).1.unique (e ▸ (hin.cell .back .sun).1)
      simp at this
    · simp only [List.mem_cons, List.not_mem_nil, or_false] at ht
      rcases ht with rfl | rfl
      · exact ⟨⟨.front, trivial, (hin.cell .front .sun).1⟩, fun _ _ _ _ => rfl⟩
      · exact ⟨⟨.back, trivial, (hin.cell .back .sun).1⟩, fun _ _ _ _ => rfl⟩

theorem dayTasks_good {h : Header ℚ} (kind : Kind) (s : Side) (b : Building) (arrives : ℕ → ℝ) (ws : List Wall)
    (hw : ∀ (i : ℕ) (w : Wall), ws[i]? = some w → Takes kind w → In h kind i w) :
    Good h kind (· = s) .sun (tasksFrom (dayTasks kind s b arrives) 0 ws) := by
  refine good_from _ ws fun i w hi => ?_
  unfold dayTasks
  cases hs : skips kind w with
  | true => simp
  | false =>
    have hin := hw i w hi (skips_takes.1 hs)
    simp only [Bool.false_eq_true, if_false]
    refine ⟨by simp, fun t ht => ?_⟩
    simp only [List.mem_singleton] at ht
    subst ht
    refine ⟨⟨s, rfl, (hin.cell s .sun).1⟩, fun st st' _ e => ?_⟩
    simp only [dayTask] at e ⊢
    rw [e]

theorem Good.ne {h : Header ℚ} {k1 k2 : Kind} {S1 S2 : Side → Prop} {q1 q2 : Quantity} {a b : List Task}
    (ha : Good h k1 S1 q1 a) (hb : Good h k2 S2 q2 b) (hd : k1 ≠ k2 ∨ q1 ≠ q2 ∨ ∀ s, S1 s → ¬S2 s) :
    ∀ t ∈ a, ∀ u ∈ b, t.cell ≠ u.cell := by
  intro t ht u hu e
  obtain ⟨i, s, h1, h2⟩ := ha.own t ht
  obtain ⟨i', s', h3, h4⟩ := hb.own u hu
  have := h2.unique (e ▸ h4)
  simp only [Slot.wall.injEq] at this
  obtain ⟨e1, -, e3, e4⟩ := this
  subst e3
  rcases hd with hd | hd | hd
  · exact hd e1
  · exact hd e4
  · exact hd s h1 h3

/-- Tasks that write solar and infrared irradiance only. -/
structure Fine (h : Header ℚ) (ts : List Task) : Prop where
  own : ∀ t ∈ ts, ∃ kind i s q, (q = .sun ∨ q = .infrared) ∧ Own h t.cell (.wall kind i s q)
  apart : ts.Pairwise (fun t u => t.cell ≠ u.cell)
  reads : ∀ t ∈ ts, Local (IsNode h) t

theorem Good.fine {h : Header ℚ} {kind : Kind} {S : Side → Prop} {q : Quantity} {ts : List Task} (hg : Good h kind S q ts)
    (hq : q = .sun ∨ q = .infrared) : Fine h ts :=
  ⟨fun t ht => by obtain ⟨i, s, -, ho⟩ := hg.own t ht; exact ⟨kind, i, s, q, hq, ho⟩, hg.apart, hg.reads⟩

theorem Fine.append {h : Header ℚ} {a b : List Task} (ha : Fine h a) (hb : Fine h b) (hd : ∀ t ∈ a, ∀ u ∈ b, t.cell ≠ u.cell) :
    Fine h (a ++ b) := by
  refine ⟨fun t ht => ?_, List.pairwise_append.2 ⟨ha.apart, hb.apart, hd⟩, fun t ht => ?_⟩
  · rcases List.mem_append.1 ht with ht | ht
    exacts [ha.own t ht, hb.own t ht]
  · rcases List.mem_append.1 ht with ht | ht
    exacts [ha.reads t ht, hb.reads t ht]

theorem Fine.get {h : Header ℚ} {ts : List Task} (hf : Fine h ts) {st : List ℝ} (hl : st.length = h.elements.length) :
    (∀ t ∈ ts, (run ts st)[t.cell]? = some (t.f (view st))) ∧
    (∀ k, (∀ kind i s q, (q = .sun ∨ q = .infrared) → ¬Own h k (.wall kind i s q)) → (run ts st)[k]? = st[k]?) ∧
    ∀ k, (∀ t ∈ ts, t.cell ≠ k) → (run ts st)[k]? = st[k]? := by
  refine ⟨run_get (IsNode h) ts st (fun t ht => ?_) hf.apart hf.reads (fun t ht => ?_), fun k hk => ?_, fun k hk => run_frame ts st k hk⟩
  · obtain ⟨kind, i, s, q, -, ho⟩ := hf.own t ht
    rw [hl]
    exact ho.lt
  · obtain ⟨kind, i, s, q, -, ho⟩ := hf.own t ht
    rintro ⟨kind', i', j', ho'⟩
    have := ho.unique ho'
    cases this
  · refine run_frame ts st k fun t ht e => ?_
    obtain ⟨kind, i, s, q, hq, ho⟩ := hf.own t ht
    exact hk kind i s q hq (e ▸ ho)

/-! ## A step -/

noncomputable def allIr (b : Building) (info : OpticalInfo) (db horizontalIr : ℝ) : List Task :=
  tasksFrom (irTasks .surface b info db horizontalIr) 0 (b.walls .surface) ++
    tasksFrom (irTasks .fenestration b info db horizontalIr) 0 (b.walls .fenestration)

theorem updateIr_eq (b : Building) (info : OpticalInfo) (db horizontalIr : ℝ) (h : Header ℚ) (st : List ℝ)
    (hl : st.length = h.elements.length)
    (hw : ∀ (kind : Kind) (i : ℕ) (w : Wall), (b.walls kind)[i]? = some w → Takes kind w → In h kind i w)
    (hv : ∀ kind s, (info.viewFactors kind s).length = (b.walls kind).length) :
    updateIr b info db horizontalIr st = .ok (run (allIr b info db horizontalIr) st) := by
  unfold updateIr allIr
  rw [irLoop_eq .surface b info db horizontalIr _ _ 0 st hl (fun j w hj hs => (hw _ j w hj (skips_takes.1 hs)).placed)
    (fun s => by rw [hv, Nat.zero_add])]
  simp only [Outcome.bind]
  rw [irLoop_eq .fenestration b info db horizontalIr _ _ 0 _ (by rw [run_length, hl])
    (fun j w hj hs => (hw _ j w hj (skips_takes.1 hs)).placed) (fun s => by rw [hv, Nat.zero_add]), run_append]

theorem allIr_fine (b : Building) (info : OpticalInfo) (db horizontalIr : ℝ) (h : Header ℚ)
    (hw : ∀ (kind : Kind) (i : ℕ) (w : Wall), (b.walls kind)[i]? = some w → Takes kind w → In h kind i w) :
    Fine h (allIr b info db horizontalIr) ∧
      ∀ t ∈ allIr b info db horizontalIr, ∃ kind i s, Own h t.cell (.wall kind i s .infrared) := by
  have g1 := irTasks_good .surface b info db horizontalIr _ (hw .surface)
  have g2 := irTasks_good .fenestration b info db horizontalIr _ (hw .fenestration)
  refine ⟨(g1.fine (Or.inr rfl)).append (g2.fine (Or.inr rfl)) (g1.ne g2 (Or.inl (by simp))), fun t ht => ?_⟩
  rcases List.mem_append.1 ht with ht | ht
  · obtain ⟨i, s, -, ho⟩ := g1.own t ht; exact ⟨_, i, s, ho⟩
  · obtain ⟨i, s, -, ho⟩ := g2.own t ht; exact ⟨_, i, s, ho⟩

theorem mem_allIr (b : Building) (info : OpticalInfo) (db horizontalIr : ℝ) (kind : Kind) (i : ℕ) (w : Wall)
    (hi : (b.walls kind)[i]? = some w) (ht : Takes kind w) (s : Side) (t : Task)
    (hm : t ∈ irTask (b.boundary kind i s) (vf info kind s i) db horizontalIr w s) : t ∈ allIr b info db horizontalIr := by
  have hs := skips_takes.2 ht
  have : t ∈ tasksFrom (irTasks kind b info db horizontalIr) 0 (b.walls kind) := by
    rw [mem_tasksFrom]
    refine ⟨i, w, hi, ?_⟩
    rw [Nat.zero_add, irTasks, hs]
    simp only [Bool.false_eq_true, if_false, List.mem_append]
    cases s with
    | front => exact Or.inl hm
    | back => exact Or.inr hm
  unfold allIr
  rw [List.mem_append]
  cases kind with
  | surface => exact Or.inl this
  | fenestration => exact Or.inr this

theorem ir_blackBody (t : ℝ) : ir t 1 = blackBody t := by
  unfold ir blackBody
  norm_num

theorem value_wall {h : Header ℚ} {o : Objects} {kind : Kind} {i : ℕ} {w : Wall} (hi : (walls o kind)[i]? = some w) (hin : In h kind i w)
    (s : Side) (q : Quantity) (st : List ℝ) : value o st (.wall kind i s q) = st[cell w s q]? := by
  simp [value, place, hi, (hin.cell s q).2]

theorem view_get {st : List ℝ} {k : ℕ} (hk : k < st.length) : st[k]? = some (view st k) := by
  simp [view, List.getElem?_eq_getElem hk]

/-- The infrared radiation after the tasks of a step. -/
theorem infrared_after (b : Building) (info : OpticalInfo) (db horizontalIr : ℝ) (h : Header ℚ) (o : Objects) (ho : b.walls = walls o)
    (st : List ℝ) (hl : st.length = h.elements.length)
    (hw : ∀ (kind : Kind) (i : ℕ) (w : Wall), (walls o kind)[i]? = some w → Takes kind w → In h kind i w)
    (rest : List Task) (hrest : ∀ t ∈ rest, ∃ kind i s, Own h t.cell (.wall kind i s .sun))
    (hfine : Fine h (allIr b info db horizontalIr ++ rest))
    (hfirst : ∀ (kind : Kind) (i : ℕ) (w : Wall), (walls o kind)[i]? = some w → Takes kind w →
      ∀ s, value o st (sideNode kind i w.nodes s) = st[(node w s).getD 0]?)
    (kind : Kind) (i : ℕ) (w : Wall) (hi : (walls o kind)[i]? = some w) (ht : Takes kind w) (s : Side) (v : ViewFactors)
    (hv : (info.viewFactors kind s)[i]? = some v) :
    ∃ side before, value o st (sideNode kind i w.nodes s) = some side ∧ value o st (.wall kind i s .infrared) = some before ∧
      value o (run (allIr b info db horizontalIr ++ rest) st) (.wall kind i s .infrared) =
        some (infraredAfter (b.boundary kind i s) side db horizontalIr v before) := by
  have hin := hw kind i w hi ht
  obtain ⟨c, n1, n2⟩ := hin.node s
  have hc : c < st.length := hl ▸ n2.lt
  have hcell := hin.cell s .infrared
  have hcl : cell w s .infrared < st.length := hl ▸ hcell.1.lt
  have hvf : vf info kind s i = v := by simp [vf, hv]
  refine ⟨view st c, view st (cell w s .infrared), ?_, ?_, ?_⟩
  · rw [hfirst kind i w hi ht s, n1]
    exact view_get hc
  · rw [value_wall hi hin]
    exact view_get hcl
  · rw [value_wall hi hin]
    obtain ⟨f1, -, f2⟩ := hfine.get hl
    have mem : ∀ t, t ∈ irTask (b.boundary kind i s) (vf info kind s i) db horizontalIr w s →
        t ∈ allIr b info db horizontalIr ++ rest := fun t hm =>
      List.mem_append_left _ (mem_allIr b info db horizontalIr kind i w (ho ▸ hi) ht s t hm)
    have keep : irTask (b.boundary kind i s) (vf info kind s i) db horizontalIr w s = [] →
        (run (allIr b info db horizontalIr ++ rest) st)[cell w s .infrared]? = some (view st (cell w s .infrared)) := by
      intro hnil
      rw [f2 _ fun t hm e => ?_, view_get hcl]
      rcases List.mem_append.1 hm with hm | hm
      · -- another infrared task with this cell
        have key : ∃ kind' j w', (walls o kind')[j]? = some w' ∧ Takes kind' w' ∧ ∃ s', t ∈ irTask (b.boundary kind' j s')
            (vf info kind' s' j) db horizontalIr w' s' := by
          have aux : ∀ kind', t ∈ tasksFrom (irTasks kind' b info db horizontalIr) 0 (b.walls kind') →
              ∃ kind' j w', (walls o kind')[j]? = some w' ∧ Takes kind' w' ∧ ∃ s', t ∈ irTask (b.boundary kind' j s')
                (vf info kind' s' j) db horizontalIr w' s' := by
            intro kind' hk
            obtain ⟨j, w', h1, h2⟩ := (mem_tasksFrom _ t _ 0).1 hk
            rw [Nat.zero_add, irTasks] at h2
            cases hs : skips kind' w' with
            | true => rw [hs] at h2; simp at h2
            | false =>
              rw [hs] at h2
              simp only [Bool.false_eq_true, if_false, List.mem_append] at h2
              refine ⟨kind', j, w', ho ▸ h1, skips_takes.1 hs, ?_⟩
              rcases h2 with h2 | h2
              exacts [⟨_, h2⟩, ⟨_, h2⟩]
          rcases List.mem_append.1 hm with hm | hm
          exacts [aux _ hm, aux _ hm]
        obtain ⟨kind', j, w', h1, h2, s', h3⟩ := key
        have hin' := hw kind' j w' h1 h2
        have hc' := (irTask_mem hin' _ _ _ _ _ t h3).1
        have := hcell.1.unique (show Own h (cell w s .infrared) _ from e ▸ hc' ▸ (hin'.cell s' .infrared).1)
        simp only [Slot.wall.injEq] at this
        obtain ⟨rfl, rfl, rfl, -⟩ := this
        rw [hi] at h1
        cases h1
        rw [hnil] at h3
        cases h3
      · obtain ⟨kind', j, s', ho'⟩ := hrest t hm
        have := hcell.1.unique (e ▸ ho')
        simp at this
    cases hb : b.boundary kind i s with
    | space =>
      have := f1 ⟨cell w s .infrared, fun st => ir (st ((node w s).getD 0)) 1⟩ (mem _ (by rw [hb]; simp [irTask]))
      simp only [n1, Option.getD_some, ir_blackBody] at this
      exact this
    | ambientTemperature t =>
      have := f1 ⟨cell w s .infrared, fun _ => ir t 1⟩ (mem _ (by rw [hb]; simp [irTask]))
      simp only [ir_blackBody] at this
      exact this
    | ground => exact keep (by rw [hb]; rfl)
    | adiabatic => exact keep (by rw [hb]; rfl)
    | outdoor =>
      have := f1 ⟨cell w s .infrared, fun _ => (v.ground + v.air) * ir db 1 + v.sky * horizontalIr⟩
        (mem _ (by rw [hb, hvf]; simp [irTask]))
      simp only [ir_blackBody] at this
      rw [this, infraredAfter, add_comm]

/-- Tasks of the sun by day. -/
noncomputable def allDay (b : Building) (arrives : Kind → Side → ℕ → ℝ) : List Task :=
  tasksFrom (dayTasks .surface .front b (arrives .surface .front)) 0 (b.walls .surface) ++
  (tasksFrom (dayTasks .surface .back b (arrives .surface .back)) 0 (b.walls .surface) ++
  (tasksFrom (dayTasks .fenestration .front b (arrives .fenestration .front)) 0 (b.walls .fenestration) ++
  tasksFrom (dayTasks .fenestration .back b (arrives .fenestration .back)) 0 (b.walls .fenestration)))

theorem dayPart_eq (kind : Kind) (s : Side) (b : Building) (info : OpticalInfo) (vec : GMatrix ℝ) (arrives : ℕ → ℝ) (h : Header ℚ)
    (st : List ℝ) (hl : st.length = h.elements.length)
    (hw : ∀ (i : ℕ) (w : Wall), (b.walls kind)[i]? = some w → Takes kind w → In h kind i w)
    (he : b.walls kind = [] → info.dc kind s = GMatrix.empty)
    (hm : b.walls kind ≠ [] → (info.dc kind s).isEmpty = false ∧ ∃ C, GMatrix.mul (info.dc kind s) vec = .ok C ∧
      ∀ i, i < (b.walls kind).length → C.get i 0 = .ok (arrives i)) :
    dayPart kind s b info vec st = .ok (run (tasksFrom (dayTasks kind s b arrives) 0 (b.walls kind)) st) := by
  unfold dayPart
  by_cases hnil : b.walls kind = []
  · rw [he hnil, hnil]
    rfl
  · obtain ⟨h1, C, h2, h3⟩ := hm hnil
    rw [h1, h2]
    simp only [Bool.false_eq_true, if_false, Outcome.bind]
    exact dayLoop_eq kind s b C arrives _ _ 0 st hl (fun j w hj hs => (hw j w hj (skips_takes.1 hs)).placed)
      (fun j hj => by rw [Nat.zero_add]; exact h3 j hj)

theorem updateSun_day (m : Solar) (b : Building) (sky : Sky) (vec : GMatrix ℝ) (arrives : Kind → Side → ℕ → ℝ) (h : Header ℚ)
    (st : List ℝ) (hl : st.length = h.elements.length)
    (hw : ∀ (kind : Kind) (i : ℕ) (w : Wall), (b.walls kind)[i]? = some w → Takes kind w → In h kind i w)
    (hday : sky.directNormal + sky.diffuseHorizontal ≥ 1 / 10 ^ 4) (hvec : sky.vector m.mf = .ok vec)
    (he : ∀ kind s, b.walls kind = [] → m.info.dc kind s = GMatrix.empty)
    (hm : ∀ kind s, b.walls kind ≠ [] → (m.info.dc kind s).isEmpty = false ∧ ∃ C, GMatrix.mul (m.info.dc kind s) vec = .ok C ∧
      ∀ i, i < (b.walls kind).length → C.get i 0 = .ok (arrives kind s i)) :
    updateSun m b sky st = .ok (run (allDay b arrives) st) := by
  unfold updateSun allDay
  rw [if_neg (not_not.2 hday), hvec]
  simp only [Outcome.bind]
  rw [dayPart_eq .surface .front b m.info vec (arrives .surface .front) h st hl (hw _) (he _ _) (hm _ _)]
  simp only
  rw [dayPart_eq .surface .back b m.info vec (arrives .surface .back) h _ (by rw [run_length, hl]) (hw _) (he _ _) (hm _ _)]
  simp only
  rw [dayPart_eq .fenestration .front b m.info vec (arrives .fenestration .front) h _ (by rw [run_length, run_length, hl]) (hw _) (he _ _)
    (hm _ _)]
  simp only
  rw [dayPart_eq .fenestration .back b m.info vec (arrives .fenestration .back) h _ (by rw [run_length, run_length, run_length, hl]) (hw _)
    (he _ _) (hm _ _), run_append, run_append, run_append]

theorem allDay_fine (b : Building) (arrives : Kind → Side → ℕ → ℝ) (h : Header ℚ)
    (hw : ∀ (kind : Kind) (i : ℕ) (w : Wall), (b.walls kind)[i]? = some w → Takes kind w → In h kind i w) :
    Fine h (allDay b arrives) ∧ ∀ t ∈ allDay b arrives, ∃ kind i s, Own h t.cell (.wall kind i s .sun) := by
  have g1 := dayTasks_good .surface .front b (arrives .surface .front) _ (hw .surface)
  have g2 := dayTasks_good .surface .back b (arrives .surface .back) _ (hw .surface)
  have g3 := dayTasks_good .fenestration .front b (arrives .fenestration .front) _ (hw .fenestration)
  have g4 := dayTasks_good .fenestration .back b (arrives .fenestration .back) _ (hw .fenestration)
  have f := fun {ts : List Task} {k : Kind} {S : Side → Prop} (g : Good h k S .sun ts) => g.fine (Or.inl rfl)
  have sd : ∀ s : Side, s = .front → ¬s = .back := by rintro s rfl; simp
  refine ⟨(f g1).append ((f g2).append ((f g3).append (f g4) (g3.ne g4 (Or.inr (Or.inr sd)))) fun t ht u hu => ?_) fun t ht u hu => ?_,
    fun t ht => ?_⟩
  · rcases List.mem_append.1 hu with hu | hu
    exacts [g2.ne g3 (Or.inl (by simp)) t ht u hu, g2.ne g4 (Or.inl (by simp)) t ht u hu]
  · rcases List.mem_append.1 hu with hu | hu
    · exact g1.ne g2 (Or.inr (Or.inr sd)) t ht u hu
    · rcases List.mem_append.1 hu with hu | hu
      exacts [g1.ne g3 (Or.inl (by simp)) t ht u hu, g1.ne g4 (Or.inl (by simp)) t ht u hu]
  · rcases List.mem_append.1 ht with ht | ht
    · obtain ⟨i, s, -, ho⟩ := g1.own t ht; exact ⟨_, i, s, ho⟩
    · rcases List.mem_append.1 ht with ht | ht
      · obtain ⟨i, s, -, ho⟩ := g2.own t ht; exact ⟨_, i, s, ho⟩
      · rcases List.mem_append.1 ht with ht | ht
        · obtain ⟨i, s, -, ho⟩ := g3.own t ht; exact ⟨_, i, s, ho⟩
        · obtain ⟨i, s, -, ho⟩ := g4.own t ht; exact ⟨_, i, s, ho⟩

theorem mem_allDay (b : Building) (arrives : Kind → Side → ℕ → ℝ) (kind : Kind) (i : ℕ) (w : Wall)
    (hi : (b.walls kind)[i]? = some w) (ht : Takes kind w) (s : Side) :
    dayTask kind (b.boundary kind i s) (arrives kind s i) w s ∈ allDay b arrives := by
  have hs := skips_takes.2 ht
  have : dayTask kind (b.boundary kind i s) (arrives kind s i) w s ∈ tasksFrom (dayTasks kind s b (arrives kind s)) 0 (b.walls kind) := by
    rw [mem_tasksFrom]
    refine ⟨i, w, hi, ?_⟩
    rw [Nat.zero_add, dayTasks, hs]
    simp
  unfold allDay
  rw [List.mem_append, List.mem_append, List.mem_append]
  cases kind <;> cases s <;> tauto

/-- Tasks of the sun at night. -/
def allNight (b : Building) : List Task :=
  tasksFrom (nightTasks .surface) 0 (b.walls .surface) ++ tasksFrom (nightTasks .fenestration) 0 (b.walls .fenestration)

theorem updateSun_night (m : Solar) (b : Building) (sky : Sky) (h : Header ℚ) (st : List ℝ) (hl : st.length = h.elements.length)
    (hw : ∀ (kind : Kind) (i : ℕ) (w : Wall), (b.walls kind)[i]? = some w → Takes kind w → In h kind i w)
    (hnight : sky.directNormal + sky.diffuseHorizontal < 1 / 10 ^ 4) :
    updateSun m b sky st = .ok (run (allNight b) st) := by
  unfold updateSun allNight
  rw [if_pos (not_le.2 hnight),
    nightLoop_eq .surface _ _ 0 st hl fun j w hj hs => (hw _ j w hj (skips_takes.1 hs)).placed]
  simp only [Outcome.bind]
  rw [nightLoop_eq .fenestration _ _ 0 _ (by rw [run_length, hl]) fun j w hj hs => (hw _ j w hj (skips_takes.1 hs)).placed, run_append]

theorem allNight_fine (b : Building) (h : Header ℚ)
    (hw : ∀ (kind : Kind) (i : ℕ) (w : Wall), (b.walls kind)[i]? = some w → Takes kind w → In h kind i w) :
    Fine h (allNight b) ∧ ∀ t ∈ allNight b, ∃ kind i s, Own h t.cell (.wall kind i s .sun) := by
  have g1 := nightTasks_good .surface _ (hw .surface)
  have g2 := nightTasks_good .fenestration _ (hw .fenestration)
  refine ⟨(g1.fine (Or.inl rfl)).append (g2.fine (Or.inl rfl)) (g1.ne g2 (Or.inl (by simp))), fun t ht => ?_⟩
  rcases List.mem_append.1 ht with ht | ht
  · obtain ⟨i, s, -, ho⟩ := g1.own t ht; exact ⟨_, i, s, ho⟩
  · obtain ⟨i, s, -, ho⟩ := g2.own t ht; exact ⟨_, i, s, ho⟩

theorem mem_allNight (b : Building) (kind : Kind) (i : ℕ) (w : Wall) (hi : (b.walls kind)[i]? = some w) (ht : Takes kind w) (s : Side) :
    (⟨cell w s .sun, fun _ => 0⟩ : Task) ∈ allNight b := by
  have hs := skips_takes.2 ht
  have : (⟨cell w s .sun, fun _ => 0⟩ : Task) ∈ tasksFrom (nightTasks kind) 0 (b.walls kind) := by
    rw [mem_tasksFrom]
    refine ⟨i, w, hi, ?_⟩
    rw [nightTasks, hs]
    cases s <;> simp
  unfold allNight
  rw [List.mem_append]
  cases kind
  exacts [Or.inl this, Or.inr this]

theorem Fine.both {h : Header ℚ} {a b : List Task} (ha : Fine h a) (hb : Fine h b)
    (oa : ∀ t ∈ a, ∃ kind i s, Own h t.cell (.wall kind i s .infrared)) (ob : ∀ t ∈ b, ∃ kind i s, Own h t.cell (.wall kind i s .sun)) :
    Fine h (a ++ b) := by
  refine ha.append hb fun t ht u hu e => ?_
  obtain ⟨k, i, s, h1⟩ := oa t ht
  obtain ⟨k', i', s', h2⟩ := ob u hu
  have := h1.unique (e ▸ h2)
  simp at this

/-! ## The property -/

/-- C103 (infrared radiation and the rest of the state), for the state before and the one after a step. -/
def Spec.Infrared (o : Objects) (h : Header ℚ) (boundary : Kind → ℕ → Side → Boundary) (m : Solar) (sky : Sky)
    (before after : List ℝ) : Prop :=
  after.length = before.length ∧
  (∀ (kind : Kind) (i : ℕ) (w : Wall) (s : Side) (v : ViewFactors), (walls o kind)[i]? = some w → Takes kind w →
    (m.info.viewFactors kind s)[i]? = some v →
    ∃ side old, value o before (sideNode kind i w.nodes s) = some side ∧ value o before (.wall kind i s .infrared) = some old ∧
      value o after (.wall kind i s .infrared) = some (infraredAfter (boundary kind i s) side sky.dryBulb sky.horizontalIr v old)) ∧
  ∀ k : ℕ, (∀ kind i s q, q = .sun ∨ q = .infrared → h.elements[k]? ≠ some (elementOf (.wall kind i s q))) → after[k]? = before[k]?

theorem hfirst_of (o' : Objects) (h' : Header ℚ)
    (hw : ∀ (kind : Kind) (i : ℕ) (w : Wall), (walls o' kind)[i]? = some w → Takes kind w → In h' kind i w)
    (hlast : ∀ (kind : Kind) (i : ℕ) (w : Wall), (walls o' kind)[i]? = some w → Takes kind w →
      ∃ a, 0 < w.nodes ∧ w.first = some a ∧ w.last = some (a + w.nodes - 1)) (st : List ℝ) :
    ∀ (kind : Kind) (i : ℕ) (w : Wall), (walls o' kind)[i]? = some w → Takes kind w →
      ∀ s, value o' st (sideNode kind i w.nodes s) = st[(node w s).getD 0]? := by
  intro kind i w hi ht s
  obtain ⟨a, a0, a1, a2⟩ := hlast kind i w hi ht
  cases s with
  | front => simp [value, sideNode, place, hi, a1, node]
  | back =>
    simp only [value, sideNode, place, hi, Option.bind_some, a1, Option.map_some, node, a2, Option.getD_some]
    rw [show a + (w.nodes - 1) = a + w.nodes - 1 by omega]

/-- C103 (day): for any building whose models were built, any state of it and any sky by day, with optical data that fit:
a step does not fail; the sun on every side is the average of what was there before and of the sum, over the patches of the
sky, of the daylight coefficients of this very side times the radiation of the patch; the infrared radiation is what the
side faces gives; and nothing else in the state changes.

Missing: optical data of another building (`C103_violated_other`, `C103_violated_grown`). -/
theorem C103_day_partial (calculated : Bool) (o o' : Objects) (h h' : Header ℚ) (hv : h.defaultValues ≠ none) (hf : Fresh o)
    (hn : physicsNew calculated o h = .ok (o', h')) (hnodes : ∀ kind, ∀ w ∈ walls o kind, Takes kind w → 0 < w.nodes)
    (boundary : Kind → ℕ → Side → Boundary) (m : Solar)
    (coefficients : (kind : Kind) → Side → _root_.Matrix (Fin (walls o' kind).length) (Fin (Weather.Reinhart.nBins m.mf)) ℝ)
    (hm : Fits o' m coefficients) (sky : Sky) (hday : sky.directNormal + sky.diffuseHorizontal ≥ 1 / 10 ^ 4)
    (vec : GMatrix ℝ) (V : _root_.Matrix (Fin (Weather.Reinhart.nBins m.mf)) (Fin 1) ℝ) (hvec : sky.vector m.mf = .ok vec) (hV : Rep vec V)
    (state : List ℝ) (hl : state.length = h'.elements.length) :
    ∃ state', march m ⟨walls o', boundary⟩ sky state = .ok state' ∧ Spec.Infrared o' h' boundary m sky state state' ∧
      ∀ (kind : Kind) (i : Fin (walls o' kind).length) (s : Side), Takes kind (walls o' kind)[i] →
        ∃ old, value o' state (.wall kind i s .sun) = some old ∧ value o' state' (.wall kind i s .sun) =
          some (sunAfter kind (boundary kind i s) (∑ j, coefficients kind s i j * V j 0) old) := by
  set b : Building := ⟨walls o', boundary⟩ with hb
  have hw : ∀ (kind : Kind) (i : ℕ) (w : Wall), (walls o' kind)[i]? = some w → Takes kind w → In h' kind i w :=
    placed calculated o o' h h' hv hf hn hnodes
  have hlast : ∀ (kind : Kind) (i : ℕ) (w : Wall), (walls o' kind)[i]? = some w → Takes kind w →
      ∃ a, 0 < w.nodes ∧ w.first = some a ∧ w.last = some (a + w.nodes - 1) :=
    lastNodes calculated o o' h h' hv hf hn hnodes
  have hbins : 0 < Weather.Reinhart.nBins m.mf := by unfold Weather.Reinhart.nBins; omega
  let arrives : Kind → Side → ℕ → ℝ := fun kind s i =>
    if hi : i < (walls o' kind).length then ∑ j, coefficients kind s ⟨i, hi⟩ j * V j 0 else 0
  have e1 := updateIr_eq b m.info sky.dryBulb sky.horizontalIr h' state hl hw hm.views
  have e2 := updateSun_day m b sky vec arrives h' (run (allIr b m.info sky.dryBulb sky.horizontalIr) state) (by rw [run_length, hl]) hw hday
    hvec hm.none fun kind s hne => by
      have hR := hm.some kind s hne
      obtain ⟨C, c1, c2⟩ := C08_mul hbins Nat.one_pos hR hV
      refine ⟨?_, C, c1, fun i hi => ?_⟩
      · rw [GMatrix.isEmpty, hR.ncols]
        simp only [Bool.and_eq_false_iff, beq_eq_false_iff_ne, ne_eq]
        exact Or.inr hbins.ne'
      · have := c2.get ⟨i, hi⟩ 0
        have ha : arrives kind s i = ∑ j, coefficients kind s ⟨i, hi⟩ j * V j 0 := dif_pos hi
        rw [ha]
        simpa [_root_.Matrix.mul_apply] using this
  obtain ⟨f1, o1⟩ := allIr_fine b m.info sky.dryBulb sky.horizontalIr h' hw
  obtain ⟨f2, o2⟩ := allDay_fine b arrives h' hw
  have hfine := f1.both f2 o1 o2
  refine ⟨run (allIr b m.info sky.dryBulb sky.horizontalIr ++ allDay b arrives) state, ?_, ⟨run_length _ _, ?_, ?_⟩, ?_⟩
  · unfold march
    rw [e1]
    simp only [Outcome.bind]
    rw [e2, run_append]
  · intro kind i w s v hi ht hvv
    exact infrared_after b m.info sky.dryBulb sky.horizontalIr h' o' rfl state hl hw _ o2 hfine (hfirst_of o' h' hw hlast state) kind i w hi
      ht s v hvv
  · exact (hfine.get hl).2.1
  · intro kind i s ht
    have hi : (walls o' kind)[(i : ℕ)]? = some (walls o' kind)[i] := by simp
    have hin := hw kind i _ hi ht
    have hcl : cell (walls o' kind)[i] s .sun < state.length := hl ▸ (hin.cell s .sun).1.lt
    refine ⟨view state (cell (walls o' kind)[i] s .sun), ?_, ?_⟩
    · rw [value_wall hi hin]
      exact view_get hcl
    · rw [value_wall hi hin]
      have := (hfine.get hl).1 _ (List.mem_append_right _ (mem_allDay b arrives kind i _ hi ht s))
      rw [show (dayTask kind (b.boundary kind i s) (arrives kind s i) (walls o' kind)[i] s).cell = cell (walls o' kind)[i] s .sun from rfl] at this
      rw [this]
      congr 1
      have ha : arrives kind s i = ∑ j, coefficients kind s i j * V j 0 := dif_pos i.2
      simp only [dayTask, ha, sunAfter]
      congr 2
      · cases kind with
        | fenestration => simp
        | surface =>
          simp only [true_and]
          split_ifs with hneg
          · rw [max_eq_left hneg.le]
          · rw [max_eq_right (not_lt.1 hneg)]
      · show (if receivesSun (boundary kind i s) = true then _ else _) = _
        cases boundary kind i s <;> simp [receivesSun]

/-- C103 (night): with less than 0.0001 W/m2 of direct and diffuse radiation together there is no sun on any side, whatever was
there before; the rest is as by day. -/
theorem C103_night (calculated : Bool) (o o' : Objects) (h h' : Header ℚ) (hv : h.defaultValues ≠ none) (hf : Fresh o)
    (hn : physicsNew calculated o h = .ok (o', h')) (hnodes : ∀ kind, ∀ w ∈ walls o kind, Takes kind w → 0 < w.nodes)
    (boundary : Kind → ℕ → Side → Boundary) (m : Solar)
    (hviews : ∀ kind s, (m.info.viewFactors kind s).length = (walls o' kind).length)
    (sky : Sky) (hnight : sky.directNormal + sky.diffuseHorizontal < 1 / 10 ^ 4)
    (state : List ℝ) (hl : state.length = h'.elements.length) :
    ∃ state', march m ⟨walls o', boundary⟩ sky state = .ok state' ∧ Spec.Infrared o' h' boundary m sky state state' ∧
      ∀ (kind : Kind) (i : Fin (walls o' kind).length) (s : Side), Takes kind (walls o' kind)[i] →
        value o' state' (.wall kind i s .sun) = some 0 := by
  set b : Building := ⟨walls o', boundary⟩ with hb
  have hw : ∀ (kind : Kind) (i : ℕ) (w : Wall), (walls o' kind)[i]? = some w → Takes kind w → In h' kind i w :=
    placed calculated o o' h h' hv hf hn hnodes
  have hlast : ∀ (kind : Kind) (i : ℕ) (w : Wall), (walls o' kind)[i]? = some w → Takes kind w →
      ∃ a, 0 < w.nodes ∧ w.first = some a ∧ w.last = some (a + w.nodes - 1) :=
    lastNodes calculated o o' h h' hv hf hn hnodes
  have e1 := updateIr_eq b m.info sky.dryBulb sky.horizontalIr h' state hl hw hviews
  have e2 := updateSun_night m b sky h' (run (allIr b m.info sky.dryBulb sky.horizontalIr) state) (by rw [run_length, hl]) hw hnight
  obtain ⟨f1, o1⟩ := allIr_fine b m.info sky.dryBulb sky.horizontalIr h' hw
  obtain ⟨f2, o2⟩ := allNight_fine b h' hw
  have hfine := f1.both f2 o1 o2
  refine ⟨run (allIr b m.info sky.dryBulb sky.horizontalIr ++ allNight b) state, ?_, ⟨run_length _ _, ?_, ?_⟩, ?_⟩
  · unfold march
    rw [e1]
    simp only [Outcome.bind]
    rw [e2, run_append]
  · intro kind i w s v hi ht hvv
    exact infrared_after b m.info sky.dryBulb sky.horizontalIr h' o' rfl state hl hw _ o2 hfine (hfirst_of o' h' hw hlast state) kind i w hi
      ht s v hvv
  · exact (hfine.get hl).2.1
  · intro kind i s ht
    have hi : (walls o' kind)[(i : ℕ)]? = some (walls o' kind)[i] := by simp
    have hin := hw kind i _ hi ht
    rw [value_wall hi hin]
    exact (hfine.get hl).1 _ (List.mem_append_right _ (mem_allNight b kind i _ hi ht s))

/-! ## The optical data -/

/-- C103 (saved data): optical data that a run saves are what the next run uses, without calculating them again. -/
theorem C103_saved (calculate calculate' : Outcome OpticalInfo) (n : ℕ) (m : Solar) (source : Source)
    (hr : new calculate n .absent = .ok (m, source)) : new calculate' n source = .ok (m, source) := by
  unfold new opticalInfo at hr
  cases calculate with
  | ok info =>
    simp only [Outcome.map, Outcome.bind] at hr
    cases hd : derive n info with
    | ok mf =>
      rw [hd] at hr
      simp only [Outcome.ok.injEq, Prod.mk.injEq] at hr
      obtain ⟨rfl, rfl⟩ := hr
      simp [new, opticalInfo, Outcome.bind, hd, Outcome.map]
    | err => rw [hd] at hr; cases hr
    | panic => rw [hd] at hr; cases hr
  | err => cases hr
  | panic => cases hr

theorem nBins_inj {a b : ℕ} (h : Weather.Reinhart.nBins a = Weather.Reinhart.nBins b) : a = b := by
  unfold Weather.Reinhart.nBins at h
  have : a ^ 2 = b ^ 2 := by omega
  exact Nat.pow_left_injective (by norm_num : (2 : ℕ) ≠ 0) this

theorem deriveFrom_eq (mf : ℕ) : ∀ (fuel start : ℕ), start + fuel = 10 → start ≤ mf →
    deriveFrom (Weather.Reinhart.nBins mf) fuel start = if mf < 9 then .ok mf else .err := by
  intro fuel
  induction fuel with
  | zero => intro start h1 h2; rw [deriveFrom, if_neg (by omega)]
  | succ fuel ih =>
    intro start h1 h2
    rw [deriveFrom]
    by_cases h9 : start ≥ 9
    · rw [if_pos h9, if_neg (by omega)]
    · rw [if_neg h9]
      by_cases he : Weather.Reinhart.nBins start = Weather.Reinhart.nBins mf
      · rw [if_pos he, nBins_inj he]
        rw [if_pos (by have := nBins_inj he; omega)]
      · rw [if_neg he]
        have : start ≠ mf := fun e => he (by rw [e])
        exact ih (start + 1) (by omega) (by omega)

/-- C103 (subdivision): for a building with surfaces and data calculated with a subdivision of the sky from 1 to 8, the model
uses this very subdivision. -/
theorem C103_subdivision (n mf : ℕ) (hn : 0 < n) (h1 : 1 ≤ mf) (h8 : mf ≤ 8) (info : OpticalInfo)
    (hc : (info.dc .surface .back).ncols = Weather.Reinhart.nBins mf) : derive n info = .ok mf := by
  unfold derive GMatrix.size
  rw [if_neg hn.ne', hc]
  have : Weather.Reinhart.nBins mf ≠ 0 := by unfold Weather.Reinhart.nBins; omega
  simp only
  rw [if_neg this, deriveFrom_eq mf 9 1 rfl h1, if_pos (by omega)]

/-- C103 fails for finer subdivisions: from 9 on the data are calculated, and then refused. -/
theorem C103_violated_fine (n mf : ℕ) (hn : 0 < n) (h9 : 9 ≤ mf) (info : OpticalInfo)
    (hc : (info.dc .surface .back).ncols = Weather.Reinhart.nBins mf) (source : Source) (hs : source = .noPath ∨ source = .absent) :
    new (.ok info) n source = .err := by
  have hd : derive n info = .err := by
    unfold derive GMatrix.size
    rw [if_neg hn.ne', hc]
    have : Weather.Reinhart.nBins mf ≠ 0 := by unfold Weather.Reinhart.nBins; omega
    simp only
    rw [if_neg this, deriveFrom_eq mf 9 1 rfl (by omega), if_neg (by omega)]
  rcases hs with rfl | rfl <;> simp [new, opticalInfo, Outcome.map, Outcome.bind, hd]

/-- C103 fails for buildings with fenestrations but no surfaces, when the subdivision is not 1: the model takes the
subdivision to be 1, and every step by day panics. -/
theorem C103_violated_no_surfaces (mf : ℕ) (hmf : 2 ≤ mf) (info : OpticalInfo) (source : Source)
    (hs : source = .noPath ∨ source = .absent) (b : Building) (h0 : b.walls .surface = [])
    (he : ∀ s, info.dc .surface s = GMatrix.empty) (hc : (info.dc .fenestration .front).ncols = Weather.Reinhart.nBins mf)
    (sky : Sky) (hday : sky.directNormal + sky.diffuseHorizontal ≥ 1 / 10 ^ 4) (vec : GMatrix ℝ)
    (hvec : sky.vector 1 = .ok vec) (hV : vec.nrows = Weather.Reinhart.nBins 1) (state : List ℝ) :
    ∃ m source', new (.ok info) (b.walls .surface).length source = .ok (m, source') ∧
      ∀ state', updateIr b m.info sky.dryBulb sky.horizontalIr state = .ok state' → march m b sky state = .panic := by
  have hx : ∃ source', new (.ok info) (b.walls .surface).length source = .ok (⟨info, 1⟩, source') := by
    rw [h0]
    rcases hs with rfl | rfl <;> simp [new, opticalInfo, Outcome.map, Outcome.bind, derive]
  obtain ⟨source', hx⟩ := hx
  refine ⟨⟨info, 1⟩, source', hx, fun state' h1 => ?_⟩
  have hne : (info.dc .fenestration .front).ncols ≠ vec.nrows := by
    rw [hc, hV]
    intro e
    have := nBins_inj e
    omega
  have hE : (info.dc .fenestration .front).isEmpty = false := by
    rw [GMatrix.isEmpty, hc]
    simp [Weather.Reinhart.nBins]
  unfold march
  simp only at h1 ⊢
  rw [h1]
  simp only [Outcome.bind, updateSun]
  rw [if_neg (not_not.2 hday), hvec]
  simp only [dayPart, he, show (GMatrix.empty : GMatrix ℝ).isEmpty = true from rfl, if_true, hE, Bool.false_eq_true, if_false,
    C08_mul_mismatch _ _ hne]
  rfl

private theorem derive_not_panic (n : ℕ) (info : OpticalInfo) : derive n info ≠ .panic := by
  have h : ∀ fuel mf ncols, deriveFrom ncols fuel mf ≠ .panic := by
    intro fuel
    induction fuel with
    | zero => intro mf ncols h; cases h
    | succ fuel ih =>
      intro mf ncols
      rw [deriveFrom]
      split_ifs
      · simp
      · simp
      · exact ih _ _
  unfold derive
  simp only
  split_ifs
  · simp
  · simp
  · exact h _ _ _

/-- C103: a path that is not a file, or a file that is not of optical data, is an error, whatever the building; and the model is not made with a
panic unless the optical data had to be calculated and that panicked. -/
theorem C103_refused (calculate : Outcome OpticalInfo) (n : ℕ) :
    new calculate n .corrupt = .err ∧ new calculate n .notFile = .err ∧
    ∀ source, new calculate n source = .panic ↔ calculate = .panic ∧ (source = .noPath ∨ source = .absent) := by
  refine ⟨rfl, rfl, fun source => ?_⟩
  have hd := derive_not_panic n
  cases source with
  | corrupt => simp [new, opticalInfo, Outcome.bind]
  | notFile => simp [new, opticalInfo, Outcome.bind]
  | data info =>
    have := hd info
    cases h : derive n info <;> simp_all [new, opticalInfo, Outcome.bind, Outcome.map]
  | absent =>
    cases calculate with
    | ok info =>
      have := hd info
      cases h : derive n info <;> simp_all [new, opticalInfo, Outcome.bind, Outcome.map]
    | _ => simp [new, opticalInfo, Outcome.bind, Outcome.map]
  | noPath =>
    cases calculate with
    | ok info =>
      have := hd info
      cases h : derive n info <;> simp_all [new, opticalInfo, Outcome.bind, Outcome.map]
    | _ => simp [new, opticalInfo, Outcome.bind, Outcome.map]

/-- C103 fails if the building changes: whatever optical data are at the path are used, for any building; those of the
building are not even calculated. -/
theorem C103_violated_other (calculate : Outcome OpticalInfo) (n mf : ℕ) (old : OpticalInfo) (hd : derive n old = .ok mf) :
    new calculate n (.data old) = .ok (⟨old, mf⟩, .data old) := by
  simp [new, opticalInfo, Outcome.bind, hd, Outcome.map]

/-- C103 fails with data of another building: if the building has got a surface more, outdoors, than when the data were saved, every step
panics. -/
theorem C103_violated_grown (m : Solar) (b : Building) (sky : Sky) (ws : List Wall) (w : Wall) (h : Header ℚ) (state : List ℝ)
    (hb : b.walls .surface = ws ++ [w]) (hout : b.boundary .surface ws.length .front = .outdoor)
    (hviews : ∀ s, (m.info.viewFactors .surface s).length = ws.length) (hl : state.length = h.elements.length)
    (hw : ∀ (i : ℕ) (w : Wall), ws[i]? = some w → In h .surface i w) :
    march m b sky state = .panic := by
  have key : ∀ (l : List Wall) (i : ℕ) (st : List ℝ), st.length = h.elements.length → i + l.length = ws.length →
      (∀ (j : ℕ) (w : Wall), l[j]? = some w → Placed h.elements.length w) →
      irLoop .surface b m.info sky.dryBulb sky.horizontalIr i (l ++ [w]) st = .panic := by
    intro l
    induction l with
    | nil =>
      intro i st hst hi _
      rw [List.nil_append, irLoop, show skips .surface w = false from rfl]
      simp only [List.length_nil, Nat.add_zero] at hi
      rw [hi, hout]
      simp only [Bool.false_eq_true, if_false, irSide, Outcome.index_of_ge (hviews .front).le, Outcome.bind]
    | cons a l ih =>
      intro i st hst hi hp
      simp only [List.length_cons] at hi
      rw [List.cons_append, irLoop, show skips .surface a = false from rfl]
      have ha := hp 0 a rfl
      simp only [Bool.false_eq_true, if_false]
      rw [irSide_eq _ m.info .surface i _ _ a .front st (hst ▸ ha) (by rw [hviews]; omega)]
      simp only [Outcome.bind]
      rw [irSide_eq _ m.info .surface i _ _ a .back _ (by rw [run_length]; exact hst ▸ ha) (by rw [hviews]; omega)]
      simp only
      exact ih (i + 1) _ (by rw [run_length, run_length, hst]) (by omega) fun j w' hj => hp (j + 1) w' (by simpa using hj)
  unfold march updateIr
  rw [hb, key ws 0 state hl (by omega) fun j w' hj => (hw j w' hj).placed]
  rfl

/-! ## Examples -/

/-- The building with a space, a wall and an opening of C90, with data that fit: what C103_day_partial and C103_night need. -/
example : ∃ (o' : Objects) (h' : Header ℚ) (m : Solar) (coefficients : (kind : Kind) → Side →
      _root_.Matrix (Fin (walls o' kind).length) (Fin (Weather.Reinhart.nBins m.mf)) ℝ) (sky : Sky) (vec : GMatrix ℝ)
      (V : _root_.Matrix (Fin (Weather.Reinhart.nBins m.mf)) (Fin 1) ℝ),
    physicsNew true small (Header.new : Header ℚ) = .ok (o', h') ∧
    (∀ kind, ∀ w ∈ walls small kind, Takes kind w → 0 < w.nodes) ∧ Fits o' m coefficients ∧
    sky.directNormal + sky.diffuseHorizontal ≥ 1 / 10 ^ 4 ∧ sky.vector m.mf = .ok vec ∧ Rep vec V := by
  have hf : Fresh small := by
    refine ⟨?_, ?_⟩
    · intro kind w hw
      cases kind <;> simp [walls, small] at hw <;> subst hw <;> simp
    · intro z hz
      simp [small] at hz
      subst hz
      simp
  obtain ⟨o', h', hp, -⟩ := C90_wired true small (Header.new : Header ℚ) (by simp [Header.new]) hf
  refine ⟨o', h', ⟨⟨fun kind _ => List.replicate (walls o' kind).length ⟨1, 0, 0⟩,
    fun kind _ => if walls o' kind = [] then GMatrix.empty else GMatrix.new (1 / 2) (walls o' kind).length (Weather.Reinhart.nBins 1)⟩, 1⟩,
    fun _ _ _ _ => 1 / 2, ⟨100, 50, 20, 300, fun mf => .ok (GMatrix.new 3 (Weather.Reinhart.nBins mf) 1)⟩, _, fun _ _ => 3, hp, ?_,
    ⟨by simp, fun kind s hk => by simp [hk], fun kind s hk => ?_⟩, by norm_num, rfl, C07_new 3 _ _⟩
  · intro kind w hw ht
    cases kind <;> simp [walls, small] at hw <;> subst hw
    · simp
    · simp [Takes] at ht
  · simp only [hk, if_false]
    exact C07_new _ _ _

/-- A surface outdoors, in the sun: what was there and what arrives are averaged. -/
example : sunAfter .surface .outdoor 300 100 = 200 ∧ sunAfter .surface .outdoor (-8) 100 = 50 ∧
    sunAfter .fenestration .outdoor (-8) 0 = -4 := by
  refine ⟨by norm_num [sunAfter], ?_, by norm_num [sunAfter]⟩
  rw [sunAfter, max_eq_left (by norm_num)]
  norm_num

end Simple.Light.March
