import Verif.Sim.ScriptModel
import Mathlib.Tactic.NormNum
import Mathlib.Tactic.Linarith

/-! # C92: what control scripts can do -/

namespace Simple.Script

namespace Spec

/-- A script has an assignment of a value to a property, in some of its branches. -/
inductive Assigns (p : String) (v : Value) : Script → Prop
  | here (g : Group) (s : Selector) (ok err : Script) : Assigns p v (.set g s p v ok err)
  | setOk (g : Group) (s : Selector) (p' : String) (v' : Value) (ok err : Script) : Assigns p v ok →
      Assigns p v (.set g s p' v' ok err)
  | setErr (g : Group) (s : Selector) (p' : String) (v' : Value) (ok err : Script) : Assigns p v err →
      Assigns p v (.set g s p' v' ok err)
  | getOk (g : Group) (s : Selector) (p' : String) (ok : ℚ → Script) (err : Script) (x : ℚ) : Assigns p v (ok x) →
      Assigns p v (.get g s p' ok err)
  | getErr (g : Group) (s : Selector) (p' : String) (ok : ℚ → Script) (err : Script) : Assigns p v err →
      Assigns p v (.get g s p' ok err)
  | lookOk (g : Group) (s : Selector) (ok err : Script) : Assigns p v ok → Assigns p v (.look g s ok err)
  | lookErr (g : Group) (s : Selector) (ok err : Script) : Assigns p v err → Assigns p v (.look g s ok err)

/-- The element number `i` of the state is the property `p` of an object of the building. -/
def IsProperty (m : Model) (p : String) (i : ℕ) : Prop :=
  ∃ g, ∃ o ∈ m.objects g, ∃ f, (p, f) ∈ properties o.kind ∧ o.index f = some i

/-- What a script calls each magnitude. -/
def scriptName : Field → String
  | .dryBulbTemperature => "dry_bulb_temperature"
  | .brightness => "brightness"
  | .loudness => "loudness"
  | .infiltrationVolume => "infiltration_volume"
  | .infiltrationTemperature => "infiltration_temperature"
  | .ventilationVolume => "ventilation_volume"
  | .ventilationTemperature => "ventilation_temperature"
  | .firstNodeTemperature => "front_temperature"
  | .lastNodeTemperature => "back_temperature"
  | .openFraction => "open_fraction"
  | .frontConvectionCoefficient => "front_convection_coefficient"
  | .backConvectionCoefficient => "back_convection_coefficient"
  | .frontConvectiveHeatFlow => "front_convective_heat_flow"
  | .backConvectiveHeatFlow => "back_convective_heat_flow"
  | .frontIncidentSolarIrradiance => "front_incident_solar_irradiance"
  | .backIncidentSolarIrradiance => "back_incident_solar_irradiance"
  | .frontIRIrradiance => "front_ir_irradiance"
  | .backIRIrradiance => "back_ir_irradiance"
  | .powerConsumption => "power_consumption"
  | .heatingCoolingConsumption => "power_consumption"

/-- Whose each magnitude is. -/
def Has (k : Kind) : Field → Prop
  | .dryBulbTemperature | .brightness | .loudness | .infiltrationVolume | .infiltrationTemperature | .ventilationVolume
  | .ventilationTemperature => k = .space
  | .openFraction => k = .fenestration
  | .powerConsumption => k = .luminaire
  | .heatingCoolingConsumption => k = .electricHeater ∨ k = .idealHeaterCooler
  | _ => k = .surface ∨ k = .fenestration

/-- The state that a script leaves, with or without errors. -/
def Leaves (r : Ended) (state : List ℚ) : Prop := r = .ok state ∨ r = .err state

end Spec

open Spec

/-! ## Looking up -/

/-- C92: looking up by name gives the first object with that name, and an error if there is none. -/
theorem C92_by_name (l : List Obj) (n : String) :
    (∀ o, byName l n = .ok o ↔ ∃ k : ℕ, l[k]? = some o ∧ o.name = n ∧ ∀ j < k, ∀ o' : Obj, l[j]? = some o' → o'.name ≠ n) ∧
    (byName l n = .err ↔ ∀ o ∈ l, o.name ≠ n) := by
  have key : ∀ o, l.find? (fun o => decide (o.name = n)) = some o ↔
      ∃ k : ℕ, l[k]? = some o ∧ o.name = n ∧ ∀ j < k, ∀ o' : Obj, l[j]? = some o' → o'.name ≠ n := by
    intro o
    rw [List.find?_eq_some_iff_getElem]
    constructor
    · rintro ⟨h1, k, hk, h2, h3⟩
      refine ⟨k, by rw [List.getElem?_eq_getElem hk, h2], by simpa using h1, fun j hj o' ho' => ?_⟩
      rw [List.getElem?_eq_getElem (by omega)] at ho'
      cases ho'
      simpa using h3 j hj
    · rintro ⟨k, h1, h2, h3⟩
      have hk : k < l.length := by
        by_contra hc
        rw [List.getElem?_eq_none (by omega)] at h1
        cases h1
      rw [List.getElem?_eq_getElem hk] at h1
      refine ⟨by simpa using h2, k, hk, Option.some.inj h1, fun j hj => ?_⟩
      have := h3 j hj _ (List.getElem?_eq_getElem (by omega))
      simpa using this
  constructor
  · intro o
    rw [← key o]
    unfold byName
    cases l.find? (fun o => decide (o.name = n)) with
    | none => simp
    | some a => simp
  · have : byName l n = .err ↔ l.find? (fun o => decide (o.name = n)) = none := by
      unfold byName
      cases l.find? (fun o => decide (o.name = n)) with
      | none => simp
      | some a => simp
    rw [this, List.find?_eq_none]
    simp

/-- C92: looking up by number gives the object in that place, and an error if the number is negative or too large; unless
there are no objects. -/
theorem C92_by_index_partial (checks : Bool) (l : List Obj) (i : ℤ) (hl : l ≠ []) :
    (∀ o, byIndex checks l i = .ok o ↔ 0 ≤ i ∧ l[i.toNat]? = some o) ∧
    (byIndex checks l i = .err ↔ i < 0 ∨ (l.length : ℤ) ≤ i) := by
  have hl' : l.length ≠ 0 := by simpa using hl
  unfold byIndex
  by_cases h1 : i < 0
  · rw [if_pos h1]
    exact ⟨fun o => ⟨fun h => (by cases h), fun h => absurd h.1 (by omega)⟩, by simp [h1]⟩
  rw [if_neg h1]
  by_cases h2 : (l.length : ℤ) ≤ i
  · rw [if_pos h2, if_neg (by simp [hl'])]
    refine ⟨fun o => ⟨fun h => (by cases h), fun h => ?_⟩, by simp [h2]⟩
    rw [List.getElem?_eq_none (by omega)] at h
    cases h.2
  rw [if_neg h2]
  have hk : i.toNat < l.length := by omega
  unfold Outcome.index
  rw [List.getElem?_eq_getElem hk]
  refine ⟨fun o => ⟨fun h => ⟨by omega, by cases h; rfl⟩, fun h => by cases h.2; rfl⟩, ?_⟩
  constructor
  · intro h; cases h
  · intro h; omega

/-- C92 is violated when there are no objects: in a build with overflow checks, looking up by any number that is not
negative panics instead of being an error of the script. -/
theorem C92_violated_empty (i : ℤ) (hi : 0 ≤ i) : byIndex true [] i = .panic := by
  unfold byIndex
  rw [if_neg (by omega), if_pos (by simpa using hi)]
  simp

/-! ## Properties -/

theorem properties_nodup (k : Kind) : ((properties k).map Prod.fst).Nodup ∧ ((properties k).map Prod.snd).Nodup := by
  cases k <;> decide +kernel

theorem lookup_mem {l : List (String × Field)} (hn : (l.map Prod.fst).Nodup) (p : String) (f : Field) :
    l.lookup p = some f ↔ (p, f) ∈ l := by
  induction l with
  | nil => simp
  | cons a l ih =>
    obtain ⟨q, g⟩ := a
    simp only [List.map_cons, List.nodup_cons] at hn
    rw [List.lookup_cons]
    by_cases hp : p = q
    · subst hp
      simp only [beq_self_eq_true, Option.some.injEq, List.mem_cons, Prod.mk.injEq, true_and]
      refine ⟨fun h => Or.inl h.symm, fun h => h.elim Eq.symm (fun h => ?_)⟩
      exact absurd (List.mem_map.2 ⟨_, h, rfl⟩) hn.1
    · have : (p == q) = false := by simpa using hp
      simp only [this, List.mem_cons, Prod.mk.injEq, hp, false_and, false_or]
      exact ih hn.2

/-- C92: the properties of an object of each type are exactly those of the table, and different properties are different
fields. -/
theorem C92_properties (k : Kind) (p q : String) (f : Field) :
    (fieldOf k p = some f ↔ (p, f) ∈ properties k) ∧ (fieldOf k p = some f → fieldOf k q = some f → p = q) := by
  obtain ⟨h1, h2⟩ := properties_nodup k
  refine ⟨lookup_mem h1 p f, fun hp hq => ?_⟩
  rw [fieldOf, lookup_mem h1] at hp hq
  obtain ⟨i, hi, ei⟩ := List.getElem_of_mem hp
  obtain ⟨j, hj, ej⟩ := List.getElem_of_mem hq
  have : i = j := by
    refine (h2.getElem_inj_iff (hi := by simpa using hi) (hj := by simpa using hj)).1 ?_
    rw [List.getElem_map, List.getElem_map, ei, ej]
  subst this
  rw [ei] at ej
  exact (Prod.mk.inj ej).1

/-- C92: the name that a script uses for a property of an object stands for the magnitude with that name, if the object is of a type
that has it, and for nothing otherwise: the front temperature of a wall is that of its first node, and so on. -/
theorem C92_names (k : Kind) (p : String) (f : Field) : fieldOf k p = some f ↔ Has k f ∧ p = scriptName f := by
  rw [fieldOf, lookup_mem (properties_nodup k).1]
  cases k <;> cases f <;> simp [properties, wallFields, Has, scriptName]

/-- C92: setting a property of an object that has it gives it the value, and changes no other element of the state; an
object that does not have it, or a property that is not there, is an error, both for setting and for reading. -/
theorem C92_set (o : Obj) (p : String) (v : Value) (state : List ℚ) :
    (∀ f i, (p, f) ∈ properties o.kind → o.index f = some i → i < state.length →
      ∃ state', setProperty o p v state = .ok state' ∧ state'.length = state.length ∧
        getProperty o p state' = .ok v.toFloat ∧ ∀ j ≠ i, state'[j]? = state[j]?) ∧
    ((∀ f, (p, f) ∈ properties o.kind → o.index f = none) →
      setProperty o p v state = .err ∧ getProperty o p state = .err) := by
  constructor
  · intro f i hf hi hlt
    have hf := ((C92_properties o.kind p p f).1).2 hf
    refine ⟨state.set i v.toFloat, ?_, by simp, ?_, fun j hj => by rw [List.getElem?_set_ne (Ne.symm hj)]⟩
    · simp [setProperty, hf, hi, hlt]
    · simp [getProperty, hf, hi, Outcome.index, hlt]
  · intro h
    cases hf : fieldOf o.kind p with
    | none => simp [setProperty, getProperty, hf]
    | some f =>
      have := h f (((C92_properties o.kind p p f).1).1 hf)
      simp [setProperty, getProperty, hf, this]

/-- C92: integers up to 2⁵³ are assigned exactly; others as the nearest number that a floating point number can be. -/
theorem C92_integers (v : ℤ) : (|v| ≤ 2 ^ 53 → (Value.int v).toFloat = v) ∧
    ∀ y, Round.Spec.Representable y → |(Value.int v).toFloat - v| ≤ |y - v| := by
  refine ⟨fun h => ?_, fun y hy => Round.round53_nearest v y hy⟩
  apply Round.round53_id
  by_cases hv : |v| < 2 ^ 53
  · exact ⟨v, 0, hv, by simp⟩
  · rcases abs_choice v with hc | hc
    · exact ⟨1, 53, by norm_num, by
        have : v = 2 ^ 53 := by omega
        rw [this]; norm_num⟩
    · exact ⟨-1, 53, by norm_num, by
        have : v = -2 ^ 53 := by omega
        rw [this]; norm_num⟩

/-! ## Scripts -/

theorem find_mem {checks : Bool} {m : Model} {g : Group} {s : Selector} {o : Obj} (h : find checks m g s = .ok o) :
    o ∈ m.objects g := by
  cases s with
  | name n =>
    obtain ⟨k, hk, -⟩ := ((C92_by_name (m.objects g) n).1 o).1 h
    exact List.mem_of_getElem? hk
  | index i =>
    have hne : m.objects g ≠ [] := by
      intro hc
      simp only [find, byIndex, hc] at h
      by_cases h1 : i < 0
      · rw [if_pos h1] at h; cases h
      · rw [if_neg h1] at h
        by_cases h2 : (([] : List Obj).length : ℤ) ≤ i
        · rw [if_pos h2] at h
          split at h <;> cases h
        · simp at h2
          omega
    obtain ⟨-, hk⟩ := ((C92_by_index_partial checks (m.objects g) i hne).1 o).1 h
    exact List.mem_of_getElem? hk

theorem handle_leaves {α : Type} {r : Outcome α} {ok : α → Ended} {err : Ended} {s : List ℚ}
    (h : Leaves (handle r ok err) s) : (∃ a, r = .ok a ∧ Leaves (ok a) s) ∨ Leaves err s := by
  cases r with
  | ok a => exact Or.inl ⟨a, rfl, h⟩
  | err => exact Or.inr h
  | panic => rcases h with h | h <;> cases h

/-- C92: whatever a script does, and however it ends, the state keeps its size, and each of its elements either is as
before or is a property of an object of the building, with a value that the script assigns to that property. -/
theorem C92_frame (checks research : Bool) (m : Model) (script : Script) (state state' : List ℚ)
    (h : Leaves (run checks research m script state) state') :
    state'.length = state.length ∧ ∀ i, state'[i]? = state[i]? ∨
      ∃ p v, IsProperty m p i ∧ Assigns p v script ∧ state'[i]? = some v.toFloat := by
  induction script generalizing state with
  | done =>
    rcases h with h | h
    · cases h; exact ⟨rfl, fun i => Or.inl rfl⟩
    · cases h
  | fail =>
    rcases h with h | h
    · cases h
    · cases h; exact ⟨rfl, fun i => Or.inl rfl⟩
  | look g s ok err ih1 ih2 =>
    rw [run] at h
    rcases handle_leaves h with ⟨_, -, h⟩ | h
    · obtain ⟨a, b⟩ := ih1 _ h
      exact ⟨a, fun i => (b i).imp id fun ⟨p, v, b1, b2, b3⟩ => ⟨p, v, b1, .lookOk g s ok err b2, b3⟩⟩
    · obtain ⟨a, b⟩ := ih2 _ h
      exact ⟨a, fun i => (b i).imp id fun ⟨p, v, b1, b2, b3⟩ => ⟨p, v, b1, .lookErr g s ok err b2, b3⟩⟩
  | get g s q ok err ih1 ih2 =>
    rw [run] at h
    rcases handle_leaves h with ⟨x, -, h⟩ | h
    · obtain ⟨a, b⟩ := ih1 x _ h
      exact ⟨a, fun i => (b i).imp id fun ⟨p, v, b1, b2, b3⟩ => ⟨p, v, b1, .getOk g s q ok err x b2, b3⟩⟩
    · obtain ⟨a, b⟩ := ih2 _ h
      exact ⟨a, fun i => (b i).imp id fun ⟨p, v, b1, b2, b3⟩ => ⟨p, v, b1, .getErr g s q ok err b2, b3⟩⟩
  | set g s q w ok err ih1 ih2 =>
    rw [run] at h
    rcases handle_leaves h with ⟨mid, hm, h⟩ | h
    · obtain ⟨a, b⟩ := ih1 _ h
      cases hfind : find checks m g s with
      | err => rw [hfind] at hm; cases hm
      | panic => rw [hfind] at hm; cases hm
      | ok o =>
        rw [hfind] at hm
        simp only [Outcome.bind, setProperty] at hm
        cases hf : fieldOf o.kind q with
        | none => rw [hf] at hm; cases hm
        | some f =>
          rw [hf] at hm
          simp only at hm
          cases hi : o.index f with
          | none => rw [hi] at hm; cases hm
          | some k =>
            rw [hi] at hm
            simp only at hm
            by_cases hk : k < state.length
            · rw [if_pos hk] at hm
              cases hm
              refine ⟨by simpa using a, fun i => ?_⟩
              rcases b i with b | ⟨p, v, b1, b2, b3⟩
              · by_cases hik : k = i
                · subst hik
                  refine Or.inr ⟨q, w, ⟨g, o, find_mem hfind, f, ((C92_properties o.kind q q f).1).1 hf, hi⟩,
                    .here g s ok err, ?_⟩
                  rw [b, List.getElem?_set_self hk]
                · left
                  rw [b, List.getElem?_set_ne hik]
              · exact Or.inr ⟨p, v, b1, .setOk g s q w ok err b2, b3⟩
            · rw [if_neg hk] at hm
              cases hm
    · obtain ⟨a, b⟩ := ih2 _ h
      exact ⟨a, fun i => (b i).imp id fun ⟨p, v, b1, b2, b3⟩ => ⟨p, v, b1, .setErr g s q w ok err b2, b3⟩⟩

/-! ## Research mode -/

/-- Fields that the people in a building can change: those with the attribute `operational`. -/
def Spec.Operational (f : Field) : Prop := f = .openFraction ∨ f = .powerConsumption ∨ f = .heatingCoolingConsumption

/-- A room. -/
def room : Obj := ⟨.space, "room", fun f => if f = .dryBulbTemperature then some 0 else none⟩

def building : Model := ⟨[room], [], [], [], []⟩

/-- C92 is violated: research mode, which should allow "unrealistic functions", makes no difference; and without it a script
can set what nobody could set in a building, such as the temperature of a room. -/
theorem C92_violated_research :
    (∀ checks m script state, run checks true m script state = run checks false m script state) ∧
    run true false building (.set .space (.name "room") "dry_bulb_temperature" (.float 50) .done .fail) [20] = .ok [50] ∧
    ¬∃ f, Operational f ∧ room.index f = some 0 := by
  refine ⟨?_, by decide +kernel, ?_⟩
  · intro checks m script
    induction script with
    | done => intro state; rfl
    | fail => intro state; rfl
    | look g s ok err ih1 ih2 => intro state; rw [run, run, ih1, ih2]
    | get g s p ok err ih1 ih2 =>
      intro state
      rw [run, run, ih2]
      congr 1
      funext v
      exact ih1 v state
    | set g s p v ok err ih1 ih2 =>
      intro state
      rw [run, run, ih2]
      congr 1
      funext st
      exact ih1 st
  · rintro ⟨f, hf, h⟩
    rcases hf with rfl | rfl | rfl <;> simp [room] at h

/-! ## Examples -/

/-- A script that turns on a heater if the room is cold. -/
def thermostat : Script :=
  .get .space (.name "room") "dry_bulb_temperature"
    (fun t => if t < 20 then .set .hvac (.index 0) "power_consumption" (.int 1000) .done .fail
      else .set .hvac (.index 0) "power_consumption" (.int 0) .done .fail) .fail

def heated : Model :=
  ⟨[room], [], [], [], [⟨.electricHeater, "heater", fun f => if f = .heatingCoolingConsumption then some 1 else none⟩]⟩

example : Leaves (run true false heated thermostat [15, 0]) [15, 1000] ∧
    Leaves (run true false heated thermostat [25, 500]) [25, 0] ∧ IsProperty heated "power_consumption" 1 := by
  refine ⟨Or.inl (by decide +kernel), Or.inl (by decide +kernel), .hvac, _, List.mem_singleton.2 rfl,
    .heatingCoolingConsumption, by decide, by decide⟩

end Simple.Script
