import Mathlib.Data.List.Nodup
import Mathlib.Data.List.Forall2
import Mathlib.Tactic.IntervalCases
import Verif.Sim.NamesModel
import Verif.Sim.CsvProps

/-! # C91: outputs are requested by name -/

namespace Simple.Names

open State Csv

namespace Spec

/-- The quantity that an element is. -/
def quantity : Element → Variant
  | .clothing => .clothing
  | .fenestrationOpenFraction _ => .fenestrationOpenFraction
  | .heatingCoolingPowerConsumption _ => .heatingCoolingPowerConsumption
  | .luminairePowerConsumption _ => .luminairePowerConsumption
  | .surfaceFrontConvectionCoefficient _ => .surfaceFrontConvectionCoefficient
  | .surfaceBackConvectionCoefficient _ => .surfaceBackConvectionCoefficient
  | .surfaceFrontConvectiveHeatFlow _ => .surfaceFrontConvectiveHeatFlow
  | .surfaceBackConvectiveHeatFlow _ => .surfaceBackConvectiveHeatFlow
  | .surfaceFrontSolarIrradiance _ => .surfaceFrontSolarIrradiance
  | .surfaceBackSolarIrradiance _ => .surfaceBackSolarIrradiance
  | .surfaceFrontIRIrradiance _ => .surfaceFrontIRIrradiance
  | .surfaceBackIRIrradiance _ => .surfaceBackIRIrradiance
  | .fenestrationFrontConvectionCoefficient _ => .fenestrationFrontConvectionCoefficient
  | .fenestrationBackConvectionCoefficient _ => .fenestrationBackConvectionCoefficient
  | .fenestrationFrontConvectiveHeatFlow _ => .fenestrationFrontConvectiveHeatFlow
  | .fenestrationBackConvectiveHeatFlow _ => .fenestrationBackConvectiveHeatFlow
  | .fenestrationFrontSolarIrradiance _ => .fenestrationFrontSolarIrradiance
  | .fenestrationBackSolarIrradiance _ => .fenestrationBackSolarIrradiance
  | .fenestrationFrontIRIrradiance _ => .fenestrationFrontIRIrradiance
  | .fenestrationBackIRIrradiance _ => .fenestrationBackIRIrradiance
  | .spaceDryBulbTemperature _ => .spaceDryBulbTemperature
  | .spaceInfiltrationVolume _ => .spaceInfiltrationVolume
  | .spaceInfiltrationTemperature _ => .spaceInfiltrationTemperature
  | .spaceVentilationVolume _ => .spaceVentilationVolume
  | .spaceVentilationTemperature _ => .spaceVentilationTemperature
  | .spaceAirExchangeVolume _ _ => .spaceAirExchangeVolume
  | .surfaceNodeTemperature _ _ => .surfaceNodeTemperature
  | .fenestrationNodeTemperature _ _ => .fenestrationNodeTemperature

/-- The name of an element in a building: that of its object; those of the two spaces for the air that goes from one to
another; that of the object and the number for a node. -/
def label (m : Names) : Element → Option Text
  | .clothing => some []
  | .heatingCoolingPowerConsumption i => m.hvacs[i]?
  | .luminairePowerConsumption i => m.luminaires[i]?
  | .surfaceFrontConvectionCoefficient i | .surfaceBackConvectionCoefficient i
  | .surfaceFrontConvectiveHeatFlow i | .surfaceBackConvectiveHeatFlow i
  | .surfaceFrontSolarIrradiance i | .surfaceBackSolarIrradiance i
  | .surfaceFrontIRIrradiance i | .surfaceBackIRIrradiance i => m.surfaces[i]?
  | .fenestrationOpenFraction i
  | .fenestrationFrontConvectionCoefficient i | .fenestrationBackConvectionCoefficient i
  | .fenestrationFrontConvectiveHeatFlow i | .fenestrationBackConvectiveHeatFlow i
  | .fenestrationFrontSolarIrradiance i | .fenestrationBackSolarIrradiance i
  | .fenestrationFrontIRIrradiance i | .fenestrationBackIRIrradiance i => m.fenestrations[i]?
  | .spaceDryBulbTemperature i | .spaceInfiltrationVolume i | .spaceInfiltrationTemperature i
  | .spaceVentilationVolume i | .spaceVentilationTemperature i => m.spaces[i]?
  | .spaceAirExchangeVolume i j => m.spaces[i]?.bind fun a => m.spaces[j]?.map fun b => a ++ '-' :: b
  | .surfaceNodeTemperature i j => m.surfaces[i]?.map fun a => a ++ '-' :: Nat.toDigits 10 j
  | .fenestrationNodeTemperature i j => m.fenestrations[i]?.map fun a => a ++ '-' :: Nat.toDigits 10 j

/-- No quotation marks, backslashes or control characters. -/
def Plain (t : Text) : Prop := ∀ c ∈ t, c ≠ '"' ∧ c ≠ '\\' ∧ 32 ≤ c.toNat

/-- An output asks for an element by its quantity and its name. -/
def Asks (m : Names) (o : Output) (e : Element) : Prop := quantity e = o.variant ∧ label m e = some o.text

end Spec

open Spec

/-! ## Texts -/

/-- All the quantities. -/
def allVariants : List Variant :=
  [.clothing, .fenestrationOpenFraction, .heatingCoolingPowerConsumption, .luminairePowerConsumption,
    .surfaceFrontConvectionCoefficient, .surfaceBackConvectionCoefficient,
    .surfaceFrontConvectiveHeatFlow, .surfaceBackConvectiveHeatFlow,
    .surfaceFrontSolarIrradiance, .surfaceBackSolarIrradiance, .surfaceFrontIRIrradiance, .surfaceBackIRIrradiance,
    .fenestrationFrontConvectionCoefficient, .fenestrationBackConvectionCoefficient,
    .fenestrationFrontConvectiveHeatFlow, .fenestrationBackConvectiveHeatFlow,
    .fenestrationFrontSolarIrradiance, .fenestrationBackSolarIrradiance,
    .fenestrationFrontIRIrradiance, .fenestrationBackIRIrradiance,
    .spaceDryBulbTemperature, .spaceInfiltrationVolume, .spaceInfiltrationTemperature,
    .spaceVentilationVolume, .spaceVentilationTemperature, .spaceAirExchangeVolume,
    .surfaceNodeTemperature, .fenestrationNodeTemperature]

theorem mem_allVariants (v : Variant) : v ∈ allVariants := by
  cases v <;> decide +kernel

theorem ident_injective : Function.Injective Variant.ident := by
  intro v w h
  have hn : (allVariants.map Variant.ident).Nodup := by decide +kernel
  exact List.inj_on_of_nodup_map hn (mem_allVariants v) (mem_allVariants w) h

theorem ident_quote (v : Variant) : '"' ∉ v.ident := by
  cases v <;> decide +kernel

theorem split_eq {c : Char} : ∀ {a b x y : Text}, c ∉ a → c ∉ b → a ++ c :: x = b ++ c :: y → a = b ∧ x = y
  | [], [], x, y, _, _, h => by simpa using h
  | [], b :: bs, x, y, _, hb, h => by
    simp only [List.nil_append, List.cons_append, List.cons.injEq] at h
    exact absurd (h.1 ▸ List.mem_cons_self) hb
  | a :: as, [], x, y, ha, _, h => by
    simp only [List.nil_append, List.cons_append, List.cons.injEq] at h
    exact absurd (h.1 ▸ List.mem_cons_self) ha
  | a :: as, b :: bs, x, y, ha, hb, h => by
    simp only [List.cons_append, List.cons.injEq] at h
    obtain ⟨h1, h2⟩ := split_eq (fun hc => ha (List.mem_cons_of_mem _ hc)) (fun hc => hb (List.mem_cons_of_mem _ hc)) h.2
    exact ⟨by rw [h.1, h1], h2⟩

theorem split_last {c : Char} {a b x y : Text} (hx : c ∉ x) (hy : c ∉ y) (h : a ++ c :: x = b ++ c :: y) :
    a = b ∧ x = y := by
  have h' := congrArg List.reverse h
  simp only [List.reverse_append, List.reverse_cons, List.append_assoc, List.singleton_append] at h'
  obtain ⟨h1, h2⟩ := split_eq (by simpa using hx) (by simpa using hy) h'
  exact ⟨List.reverse_injective h2, List.reverse_injective h1⟩

theorem entry_inj {v w : Variant} {a b : Text} : entry v a = entry w b ↔ v = w ∧ a = b := by
  constructor
  · intro h
    unfold entry at h
    simp only [List.append_assoc, List.cons_append, List.nil_append, List.cons.injEq, true_and] at h
    obtain ⟨h1, h2⟩ := split_eq (ident_quote v) (ident_quote w) h
    refine ⟨ident_injective h1, ?_⟩
    simp only [List.cons.injEq, true_and] at h2
    exact List.append_cancel_right h2
  · rintro ⟨rfl, rfl⟩
    rfl

theorem escape_plain {t : Text} (h : Plain t) : escape t = t := by
  induction t with
  | nil => rfl
  | cons c t ih =>
    have hc := h c (by simp)
    have : escapeChar c = [c] := by
      unfold escapeChar
      have n : ∀ d : Char, d.toNat < 32 → c ≠ d := by
        rintro d hd rfl
        omega
      rw [if_neg hc.1, if_neg hc.2.1, if_neg (n _ (by decide)), if_neg (n _ (by decide)), if_neg (n _ (by decide)),
        if_neg (by omega), if_neg (by omega), if_neg (by omega)]
    unfold escape at ih ⊢
    rw [List.flatMap_cons, this, ih (fun d hd => h d (List.mem_cons_of_mem _ hd))]
    rfl

theorem digits_hyphen (n : ℕ) : '-' ∉ Nat.toDigits 10 n := by
  intro h
  have := Nat.isDigit_of_mem_toDigits (by decide) (by decide) h
  revert this
  decide

theorem digitChar_inj {a b : ℕ} (ha : a < 10) (hb : b < 10) (h : Nat.digitChar a = Nat.digitChar b) : a = b := by
  have h1 := Nat.toNat_digitChar_sub_48_of_lt_ten ha
  have h2 := Nat.toNat_digitChar_sub_48_of_lt_ten hb
  rw [h, h2] at h1
  exact h1.symm

theorem digits_injective : ∀ m n : ℕ, Nat.toDigits 10 m = Nat.toDigits 10 n → m = n := by
  intro m
  induction m using Nat.strong_induction_on with
  | _ m ih =>
    intro n h
    rw [Nat.toDigits_eq_if (by decide), Nat.toDigits_eq_if (n := n) (by decide)] at h
    by_cases hm : m < 10
    · by_cases hn : n < 10
      · rw [if_pos hm, if_pos hn] at h
        simp only [List.cons.injEq, and_true] at h
        exact digitChar_inj hm hn h
      · rw [if_pos hm, if_neg hn] at h
        have := congrArg List.length h
        have h0 := Nat.length_toDigits_pos (b := 10) (n := n / 10)
        simp at this
    · by_cases hn : n < 10
      · rw [if_neg hm, if_pos hn] at h
        have := congrArg List.length h
        have h0 := Nat.length_toDigits_pos (b := 10) (n := m / 10)
        simp at this
      · rw [if_neg hm, if_neg hn] at h
        obtain ⟨h1, h2⟩ := List.append_inj' h rfl
        simp only [List.cons.injEq, and_true] at h2
        have := ih (m / 10) (by omega) (n / 10) h1
        have := digitChar_inj (Nat.mod_lt _ (by decide)) (Nat.mod_lt _ (by decide)) h2
        omega

/-! ## Names of elements -/

theorem one_ok {v : Variant} {names : List Text} {i : ℕ} {t : Text} (h : names[i]? = some t) :
    one v names i = .ok (entry v t) := by
  simp [one, Outcome.index, h, Outcome.bind]

theorem numbered_ok {v : Variant} {names : List Text} {i j : ℕ} {t : Text}
    (h : (names[i]?.map fun a => a ++ '-' :: Nat.toDigits 10 j) = some t) : numbered v names i j = .ok (entry v t) := by
  cases hn : names[i]? with
  | none => rw [hn] at h; simp at h
  | some n =>
    rw [hn] at h
    simp only [Option.map_some, Option.some.injEq] at h
    simp [numbered, Outcome.index, hn, Outcome.bind, decimal, h]

/-- The text of an element has its quantity and its name. -/
theorem stringify_ok {m : Names} {e : Element} {t : Text} (h : label m e = some t) :
    stringify m e = .ok (entry (quantity e) t) := by
  cases e with
  | clothing =>
    simp only [label, Option.some.injEq] at h
    subst h
    rfl
  | spaceAirExchangeVolume i j =>
    simp only [label] at h
    cases ha : m.spaces[i]? with
    | none => rw [ha] at h; simp at h
    | some a =>
      cases hb : m.spaces[j]? with
      | none => rw [ha, hb] at h; simp at h
      | some b =>
        rw [ha, hb] at h
        simp only [Option.bind_some, Option.map_some, Option.some.injEq] at h
        simp [stringify, Outcome.index, ha, hb, Outcome.bind, quantity, h]
  | surfaceNodeTemperature i j => exact numbered_ok h
  | fenestrationNodeTemperature i j => exact numbered_ok h
  | _ => exact one_ok h

theorem fullHeader_ok {m : Names} : ∀ {es : List Element}, (∀ e ∈ es, label m e ≠ none) →
    ∃ hd : List Text, fullHeader m es = .ok hd ∧ hd.length = es.length ∧
      ∀ (k : ℕ) (e : Element), es[k]? = some e → ∃ t, label m e = some t ∧ hd[k]? = some (entry (quantity e) t)
  | [], _ => ⟨[], rfl, rfl, by simp⟩
  | e :: es, h => by
    obtain ⟨hd, h1, h2, h3⟩ := fullHeader_ok (es := es) (fun x hx => h x (List.mem_cons_of_mem _ hx))
    cases ht : label m e with
    | none => exact absurd ht (h e (by simp))
    | some t =>
      refine ⟨entry (quantity e) t :: hd, ?_, by simp [h2], ?_⟩
      · rw [fullHeader, stringify_ok ht]
        simp only [Outcome.bind, h1]
      · intro k x hk
        cases k with
        | zero =>
          simp only [List.getElem?_cons_zero, Option.some.injEq] at hk
          subst hk
          exact ⟨t, ht, by simp⟩
        | succ k => exact h3 k x (by simpa using hk)

theorem asks_iff {m : Names} {e : Element} {o : Output} {t : Text} (ho : Plain o.text) (ht : label m e = some t) :
    entry (quantity e) t = request o ↔ Asks m o e := by
  rw [request, escape_plain ho, entry_inj, Asks, ht, Option.some.injEq]

/-! ## The property -/

/-- C91, the part that holds: when the objects of the elements of the state exist, and each output asks, with a plain
text, for an element that is there, the report has for each output the first element that it asks for. -/
theorem C91_first_partial (m : Names) (elements : List Element) (outputs : List Output)
    (he : ∀ e ∈ elements, label m e ≠ none) (hne : outputs ≠ []) (hp : ∀ o ∈ outputs, Plain o.text)
    (ha : ∀ o ∈ outputs, ∃ e ∈ elements, Asks m o e) :
    ∃ ks, reported m elements outputs = .ok ks ∧ List.Forall₂ (fun (o : Output) (k : ℕ) =>
      (∃ e, elements[k]? = some e ∧ Asks m o e) ∧ ∀ j < k, ∀ e, elements[j]? = some e → ¬Asks m o e) outputs ks := by
  obtain ⟨hd, h1, h2, h3⟩ := fullHeader_ok he
  have hin : ∀ r ∈ outputs.map request, r ∈ hd := by
    intro r hr
    obtain ⟨o, ho, rfl⟩ := List.mem_map.1 hr
    obtain ⟨e, hmem, ha⟩ := ha o ho
    obtain ⟨k, hk, rfl⟩ := List.getElem_of_mem hmem
    obtain ⟨t, ht, hk2⟩ := h3 k _ (List.getElem?_eq_getElem hk)
    rw [(asks_iff (hp o ho) ht).2 ha] at hk2
    exact List.mem_of_getElem? hk2
  obtain ⟨-, -, h4⟩ := reportIndexes_known hd (outputs.map request) hin (by simpa using hne)
  refine ⟨_, by rw [reported, h1]; rfl, ?_⟩
  rw [List.forall₂_map_left_iff] at h4
  have : ∀ (os : List Output) (ks : List ℕ), (∀ o ∈ os, Plain o.text) →
      List.Forall₂ (fun o k => Csv.Spec.IsPosition hd (request o) k) os ks → List.Forall₂ (fun (o : Output) (k : ℕ) =>
      (∃ e, elements[k]? = some e ∧ Asks m o e) ∧ ∀ j < k, ∀ e, elements[j]? = some e → ¬Asks m o e) os ks := by
    intro os ks hp hh
    induction hh with
    | nil => exact .nil
    | @cons o k os ks hk _ ih =>
      refine .cons ⟨?_, ?_⟩ (ih (fun x hx => hp x (List.mem_cons_of_mem _ hx)))
      · have hlt : k < elements.length := by
          rw [← h2]
          by_contra hc
          have := hk.1
          rw [List.getElem?_eq_none (by omega)] at this
          cases this
        obtain ⟨t, ht, hkt⟩ := h3 k _ (List.getElem?_eq_getElem hlt)
        refine ⟨_, List.getElem?_eq_getElem hlt, (asks_iff (hp o (by simp)) ht).1 ?_⟩
        have := hk.1
        rw [hkt] at this
        exact Option.some.inj this
      · intro j hj e hje hA
        obtain ⟨t, ht, hjt⟩ := h3 j e hje
        rw [(asks_iff (hp o (by simp)) ht).2 hA] at hjt
        exact hk.2 j hj hjt
  exact this _ _ hp h4

theorem nodup_get {l : List Text} (h : l.Nodup) {i j : ℕ} {t : Text} (hi : l[i]? = some t) (hj : l[j]? = some t) : i = j := by
  have hi' : i < l.length := by
    by_contra hc
    rw [List.getElem?_eq_none (by omega)] at hi
    cases hi
  have hj' : j < l.length := by
    by_contra hc
    rw [List.getElem?_eq_none (by omega)] at hj
    cases hj
  rw [List.getElem?_eq_getElem hi'] at hi
  rw [List.getElem?_eq_getElem hj'] at hj
  exact h.getElem_inj_iff.1 (Option.some.inj (hi.trans hj.symm))

theorem nodup_node {l : List Text} (h : l.Nodup) {i j i' j' : ℕ} {t : Text}
    (h1 : (l[i]?.map fun a => a ++ '-' :: Nat.toDigits 10 j) = some t)
    (h2 : (l[i']?.map fun a => a ++ '-' :: Nat.toDigits 10 j') = some t) : i = i' ∧ j = j' := by
  cases ha : l[i]? with
  | none => rw [ha] at h1; simp at h1
  | some a =>
    cases hb : l[i']? with
    | none => rw [hb] at h2; simp at h2
    | some b =>
      rw [ha] at h1
      rw [hb] at h2
      simp only [Option.map_some, Option.some.injEq] at h1 h2
      obtain ⟨e1, e2⟩ := split_last (digits_hyphen j) (digits_hyphen j') (h1.trans h2.symm)
      exact ⟨nodup_get h ha (e1 ▸ hb), digits_injective _ _ e2⟩

/-- Objects of the same kind have different names. -/
structure Spec.Distinct (m : Names) : Prop where
  fenestrations : m.fenestrations.Nodup
  hvacs : m.hvacs.Nodup
  luminaires : m.luminaires.Nodup
  surfaces : m.surfaces.Nodup
  spaces : m.spaces.Nodup

/-- C91, the part that holds: when objects of the same kind have different names, and, for the air that goes between
spaces, their names have no hyphens, an output asks for one element at most. -/
theorem C91_unambiguous_partial (m : Names) (hd : Distinct m) (o : Output)
    (hh : o.variant = .spaceAirExchangeVolume → ∀ n ∈ m.spaces, '-' ∉ n) (e e' : Element) (h : Asks m o e)
    (h' : Asks m o e') : e = e' := by
  obtain ⟨q, l⟩ := h
  obtain ⟨q', l'⟩ := h'
  cases e with
  | clothing => cases e' <;> first | rfl | (rw [← q] at q'; simp [quantity] at q')
  | spaceAirExchangeVolume i j =>
    cases e' with
    | spaceAirExchangeVolume i' j' =>
      have hh := hh q.symm
      simp only [label] at l l'
      cases ha : m.spaces[i]? with
      | none => rw [ha] at l; simp at l
      | some a =>
      cases hb : m.spaces[j]? with
      | none => rw [ha, hb] at l; simp at l
      | some b =>
      cases ha' : m.spaces[i']? with
      | none => rw [ha'] at l'; simp at l'
      | some a' =>
      cases hb' : m.spaces[j']? with
      | none => rw [ha', hb'] at l'; simp at l'
      | some b' =>
        rw [ha, hb] at l
        rw [ha', hb'] at l'
        simp only [Option.bind_some, Option.map_some, Option.some.injEq] at l l'
        obtain ⟨e1, e2⟩ := split_eq (hh _ (List.mem_of_getElem? ha)) (hh _ (List.mem_of_getElem? ha')) (l.trans l'.symm)
        rw [nodup_get hd.spaces ha (e1 ▸ ha'), nodup_get hd.spaces hb (e2 ▸ hb')]
    | _ => rw [← q] at q'; simp [quantity] at q'
  | surfaceNodeTemperature i j =>
    cases e' with
    | surfaceNodeTemperature i' j' => obtain ⟨rfl, rfl⟩ := nodup_node hd.surfaces l l'; rfl
    | _ => rw [← q] at q'; simp [quantity] at q'
  | fenestrationNodeTemperature i j =>
    cases e' with
    | fenestrationNodeTemperature i' j' => obtain ⟨rfl, rfl⟩ := nodup_node hd.fenestrations l l'; rfl
    | _ => rw [← q] at q'; simp [quantity] at q'
  | _ =>
    cases e' <;> first
      | (rw [← q] at q'; simp [quantity] at q'; done)
      | rw [nodup_get hd.fenestrations l l']
      | rw [nodup_get hd.hvacs l l']
      | rw [nodup_get hd.luminaires l l']
      | rw [nodup_get hd.surfaces l l']
      | rw [nodup_get hd.spaces l l']

/-- C91, the part that holds: with such names, requesting any elements of the state by quantity and name reports exactly
those elements, in that order. -/
theorem C91_requested_partial (m : Names) (elements : List Element) (hd : Distinct m) (hn : elements.Nodup)
    (he : ∀ e ∈ elements, label m e ≠ none) (wanted : List ℕ) (outputs : List Output) (hne : outputs ≠ [])
    (hp : ∀ o ∈ outputs, Plain o.text)
    (hh : ∀ o ∈ outputs, o.variant = .spaceAirExchangeVolume → ∀ n ∈ m.spaces, '-' ∉ n)
    (ha : List.Forall₂ (fun (o : Output) (k : ℕ) => ∃ e, elements[k]? = some e ∧ Asks m o e) outputs wanted) :
    reported m elements outputs = .ok wanted := by
  have hex : ∀ o ∈ outputs, ∃ e ∈ elements, Asks m o e := by
    clear hne hp hh
    induction ha with
    | nil => simp
    | cons h _ ih =>
      intro o ho
      rcases List.mem_cons.1 ho with rfl | ho
      · obtain ⟨e, h1, h2⟩ := h
        exact ⟨e, List.mem_of_getElem? h1, h2⟩
      · exact ih o ho
  obtain ⟨ks, h1, h2⟩ := C91_first_partial m elements outputs he hne hp hex
  rw [h1]
  congr 1
  clear h1 hex hne hp
  induction ha generalizing ks with
  | nil => cases h2; rfl
  | @cons o k os wanted h _ ih =>
    cases h2 with
    | @cons _ k' _ ks' g gs =>
      rw [ih (fun x hx => hh x (List.mem_cons_of_mem _ hx)) ks' gs]
      congr 1
      obtain ⟨e, e1, e2⟩ := h
      obtain ⟨⟨f, f1, f2⟩, -⟩ := g
      obtain rfl := C91_unambiguous_partial m hd o (hh o (by simp)) e f e2 f2
      have hk : k < elements.length := by
        by_contra hc
        rw [List.getElem?_eq_none (by omega)] at e1
        cases e1
      have hk' : k' < elements.length := by
        by_contra hc
        rw [List.getElem?_eq_none (by omega)] at f1
        cases f1
      rw [List.getElem?_eq_getElem hk] at e1
      rw [List.getElem?_eq_getElem hk'] at f1
      exact hn.getElem_inj_iff.1 (Option.some.inj (f1.trans e1.symm))

/-! ## Violations -/

/-- C91 is violated for the air that goes between spaces with hyphens in their names: asking for the air from `A-B` to `C`
reports the air from `A` to `B-C`. -/
theorem C91_violated_hyphen :
    let m : Names := ⟨[], [], [], [], ["A".toList, "B-C".toList, "A-B".toList, "C".toList]⟩
    Distinct m ∧ Asks m ⟨.spaceAirExchangeVolume, "A-B-C".toList⟩ (.spaceAirExchangeVolume 2 3) ∧
      reported m [.spaceAirExchangeVolume 0 1, .spaceAirExchangeVolume 2 3]
        [⟨.spaceAirExchangeVolume, "A-B-C".toList⟩] = .ok [0] := by
  refine ⟨⟨by decide, by decide, by decide, by decide, by decide⟩, ⟨rfl, by decide⟩, by decide +kernel⟩

/-- C91 is violated for names with quotation marks: of two spaces `A\"` and `A"`, asking for the second one reports the
first one. -/
theorem C91_violated_quote :
    let m : Names := ⟨[], [], [], [], [['A', '\\', '"'], ['A', '"']]⟩
    Distinct m ∧ Asks m ⟨.spaceDryBulbTemperature, ['A', '"']⟩ (.spaceDryBulbTemperature 1) ∧
      reported m [.spaceDryBulbTemperature 0, .spaceDryBulbTemperature 1]
        [⟨.spaceDryBulbTemperature, ['A', '"']⟩] = .ok [0] := by
  refine ⟨⟨by decide, by decide, by decide, by decide, by decide⟩, ⟨rfl, by decide⟩, by decide +kernel⟩

theorem hexDigit_visible (n : ℕ) (h : n < 16) : 32 ≤ (hexDigit n).toNat ∧ hexDigit n ≠ '"' := by
  unfold hexDigit
  interval_cases n <;> decide

/-- What is written for a character is either an escaped quotation mark, or has none; and has no control characters. -/
theorem escapeChar_cases (c : Char) :
    (escapeChar c = ['\\', '"'] ∨ '"' ∉ escapeChar c) ∧ ∀ d ∈ escapeChar c, 32 ≤ d.toNat := by
  unfold escapeChar
  by_cases h1 : c = '"'
  · rw [if_pos h1]; exact ⟨Or.inl rfl, by decide⟩
  rw [if_neg h1]
  by_cases h2 : c = '\\'
  · rw [if_pos h2]; exact ⟨Or.inr (by decide), by decide⟩
  rw [if_neg h2]
  by_cases h3 : c = '\n'
  · rw [if_pos h3]; exact ⟨Or.inr (by decide), by decide⟩
  rw [if_neg h3]
  by_cases h4 : c = '\r'
  · rw [if_pos h4]; exact ⟨Or.inr (by decide), by decide⟩
  rw [if_neg h4]
  by_cases h5 : c = '\t'
  · rw [if_pos h5]; exact ⟨Or.inr (by decide), by decide⟩
  rw [if_neg h5]
  by_cases h6 : c.toNat = 8
  · rw [if_pos h6]; exact ⟨Or.inr (by decide), by decide⟩
  rw [if_neg h6]
  by_cases h7 : c.toNat = 12
  · rw [if_pos h7]; exact ⟨Or.inr (by decide), by decide⟩
  rw [if_neg h7]
  by_cases h8 : c.toNat < 32
  · rw [if_pos h8]
    obtain ⟨a1, a2⟩ := hexDigit_visible (c.toNat / 16) (by omega)
    obtain ⟨b1, b2⟩ := hexDigit_visible (c.toNat % 16) (by omega)
    refine ⟨Or.inr ?_, ?_⟩
    · simp only [List.mem_cons, List.not_mem_nil, or_false, not_or]
      exact ⟨by decide, by decide, by decide, by decide, a2.symm, b2.symm⟩
    · intro d hd
      simp only [List.mem_cons, List.not_mem_nil, or_false] at hd
      rcases hd with rfl | rfl | rfl | rfl | rfl | rfl
      · decide
      · decide
      · decide
      · decide
      · exact a1
      · exact b1
  · rw [if_neg h8]
    refine ⟨Or.inr (by simpa using fun h => h1 h.symm), ?_⟩
    intro d hd
    simp only [List.mem_singleton] at hd
    subst hd
    omega

theorem escape_quote : ∀ (t p s : Text), escape t = p ++ '"' :: s → ∃ p', p = p' ++ ['\\']
  | [], p, s, h => by
    have := congrArg List.length h
    simp [escape] at this
  | c :: t, p, s, h => by
    have h' : escapeChar c ++ escape t = p ++ '"' :: s := by
      rw [← h]
      simp [escape]
    rcases List.append_eq_append_iff.1 h' with ⟨a, h1, h2⟩ | ⟨a, h1, h2⟩
    · obtain ⟨p', hp⟩ := escape_quote t a s h2
      exact ⟨escapeChar c ++ p', by rw [h1, hp, List.append_assoc]⟩
    · cases a with
      | nil =>
        simp only [List.nil_append] at h2
        obtain ⟨p', hp⟩ := escape_quote t [] s h2.symm
        have := congrArg List.length hp
        simp at this
      | cons x a =>
        simp only [List.cons_append, List.cons.injEq] at h2
        obtain ⟨rfl, h2⟩ := h2
        rcases (escapeChar_cases c).1 with hq | hq
        · rw [hq] at h1
          cases p with
          | nil => simp at h1
          | cons y p =>
            simp only [List.cons_append, List.cons.injEq] at h1
            obtain ⟨rfl, h1⟩ := h1
            cases p with
            | nil => exact ⟨[], rfl⟩
            | cons z p =>
              have := congrArg List.length h1
              simp at this
        · rw [h1] at hq
          simp at hq

/-- C91 is violated for names with control characters (a tab, an end of line), and for those with a quotation mark that
does not follow a backslash: no request at all matches the elements of the object. -/
theorem C91_violated_unreachable (m : Names) (e : Element) (t : Text) (h : label m e = some t)
    (ht : (∃ c ∈ t, c.toNat < 32) ∨ ∃ p s, t = p ++ '"' :: s ∧ ∀ p', p ≠ p' ++ ['\\']) :
    ∃ text, stringify m e = .ok text ∧ ∀ o, request o ≠ text := by
  refine ⟨_, stringify_ok h, ?_⟩
  intro o ho
  have ho := (entry_inj.1 ho).2
  rcases ht with ⟨c, hc, hlt⟩ | ⟨p, s, rfl, hp⟩
  · rw [← ho] at hc
    obtain ⟨d, -, hd⟩ := List.mem_flatMap.1 hc
    have := (escapeChar_cases d).2 c hd
    omega
  · obtain ⟨p', hp'⟩ := escape_quote _ _ _ ho
    exact hp p' hp'

/-! ## Examples -/

/-- A building with two spaces and a wall. -/
def demo : Names := ⟨[], [], [], ["wall-1".toList], ["Living room".toList, "Küche".toList]⟩

def demoElements : List Element :=
  [.spaceDryBulbTemperature 0, .spaceDryBulbTemperature 1, .surfaceNodeTemperature 0 1, .surfaceNodeTemperature 0 11]

example : Distinct demo ∧ demoElements.Nodup ∧ (∀ e ∈ demoElements, label demo e ≠ none) ∧
    Plain "wall-1-11".toList ∧ Asks demo ⟨.surfaceNodeTemperature, "wall-1-11".toList⟩ (.surfaceNodeTemperature 0 11) ∧
    reported demo demoElements [⟨.surfaceNodeTemperature, "wall-1-11".toList⟩, ⟨.spaceDryBulbTemperature, "Küche".toList⟩] =
      .ok [3, 1] := by
  refine ⟨⟨by decide, by decide, by decide, by decide, by decide⟩, by decide, by decide +kernel, ?_, ⟨rfl, by decide +kernel⟩,
    by decide +kernel⟩
  unfold Plain
  decide +kernel

end Simple.Names
