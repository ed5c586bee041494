import Mathlib.Algebra.Order.Group.Defs
import Mathlib.Algebra.Order.Ring.Rat
import Mathlib.Tactic.Linarith
import Verif.Sim.ControlModel

/-! C23: the thermostat. -/

set_option linter.unusedSectionVars false

namespace Simple.Control

open Building

variable {P F : Type*} [AddCommGroup F] [LinearOrder F]

/-- Specification: what a system that has a target space at temperature `t` has to consume; `none`
means that it is left as it was. -/
def Spec.demand (t : F) : Hvac F → Option F
  | .electricHeater _ (some _) (some sp) (some p) _ => some (if t < sp then p else 0)
  | .electricHeater _ _ _ _ _ => none
  | .idealHeaterCooler _ (some _) (some hsp) (some csp) (some hp) (some cp) _ =>
    some (if t > csp then -cp else if t < hsp then hp else 0)
  | .idealHeaterCooler _ (some _) (some hsp) _ (some hp) _ _ => some (if t < hsp then hp else 0)
  | .idealHeaterCooler _ (some _) _ (some csp) _ (some cp) _ => some (if t > csp then -cp else 0)
  | .idealHeaterCooler _ _ _ _ _ _ _ => none

/-- The space where the thermostat of a system is. -/
def target : Hvac F → Option String
  | .electricHeater _ t _ _ _ => t
  | .idealHeaterCooler _ t _ _ _ _ _ => t

theorem setConsumption_ok {i : Option ℕ} {v : F} {st st' : List F} (h : setConsumption i v st = .ok st') :
    ∃ k, i = some k ∧ k < st.length ∧ st' = st.set k v := by
  unfold setConsumption at h
  cases i with
  | none => simp at h
  | some k =>
    simp only at h
    split_ifs at h with hk
    exact ⟨k, rfl, hk, (Outcome.ok.inj h).symm⟩

theorem bind_eq_ok {α β : Type*} {x : Outcome α} {f : α → Outcome β} {b : β} (h : x.bind f = .ok b) :
    ∃ a, x = .ok a ∧ f a = .ok b := by
  cases x with
  | ok a => exact ⟨a, rfl, h⟩
  | err => simp [Outcome.bind] at h
  | panic => simp [Outcome.bind] at h

/-- One system: only its own position may change, and it becomes what the specification says. -/
theorem controlOne_spec (m : Model P F) (h : Hvac F) (st st' : List F) (hok : controlOne m h st = .ok st') :
    st'.length = st.length ∧
    (∀ j, h.index ≠ some j → st'[j]? = st[j]?) ∧
    (∀ i, h.index = some i → target h = none → st'[i]? = st[i]?) ∧
    (∀ i s, h.index = some i → target h = some s →
      (∀ t v, tempOf m s st = .ok t → Spec.demand t h = some v → st'[i]? = some v) ∧
      (∀ t, tempOf m s st = .ok t → Spec.demand t h = none → st'[i]? = st[i]?) ∧
      ((∃ t v, tempOf m s st = .ok t ∧ Spec.demand t h = some v) ∨ st' = st)) := by
  have keep : st' = st → (∀ t s, target h = some s → tempOf m s st = .ok t → Spec.demand t h = none) →
    st'.length = st.length ∧
    (∀ j, h.index ≠ some j → st'[j]? = st[j]?) ∧
    (∀ i, h.index = some i → target h = none → st'[i]? = st[i]?) ∧
    (∀ i s, h.index = some i → target h = some s →
      (∀ t v, tempOf m s st = .ok t → Spec.demand t h = some v → st'[i]? = some v) ∧
      (∀ t, tempOf m s st = .ok t → Spec.demand t h = none → st'[i]? = st[i]?) ∧
      ((∃ t v, tempOf m s st = .ok t ∧ Spec.demand t h = some v) ∨ st' = st)) := by
    rintro rfl hd
    refine ⟨rfl, fun _ _ => rfl, fun _ _ _ => rfl, fun i s _ hs => ⟨fun t v ht hv => ?_, fun _ _ _ => rfl, .inr rfl⟩⟩
    rw [hd t s hs ht] at hv
    simp at hv
  have put : ∀ (s : String) (t v : F) (k : ℕ), target h = some s → tempOf m s st = .ok t →
      Spec.demand t h = some v → h.index = some k → k < st.length → st' = st.set k v →
    st'.length = st.length ∧
    (∀ j, h.index ≠ some j → st'[j]? = st[j]?) ∧
    (∀ i, h.index = some i → target h = none → st'[i]? = st[i]?) ∧
    (∀ i s, h.index = some i → target h = some s →
      (∀ t v, tempOf m s st = .ok t → Spec.demand t h = some v → st'[i]? = some v) ∧
      (∀ t, tempOf m s st = .ok t → Spec.demand t h = none → st'[i]? = st[i]?) ∧
      ((∃ t v, tempOf m s st = .ok t ∧ Spec.demand t h = some v) ∨ st' = st)) := by
    intro s t v k hs ht hd hk hlt hst
    subst hst
    refine ⟨by simp, fun j hj => ?_, fun i _ hn => ?_, fun i s' hi hs' => ⟨fun t' v' ht' hv' => ?_, fun t' ht' hn => ?_, ?_⟩⟩
    · rw [List.getElem?_set_ne]; rintro rfl; exact hj hk
    · rw [hn] at hs; simp at hs
    · rw [hs] at hs'; obtain rfl := Option.some.inj hs'
      rw [ht] at ht'; obtain rfl := Outcome.ok.inj ht'
      rw [hd] at hv'; obtain rfl := Option.some.inj hv'
      rw [hk] at hi; obtain rfl := Option.some.inj hi
      simp [hlt]
    · rw [hs] at hs'; obtain rfl := Option.some.inj hs'
      rw [ht] at ht'; obtain rfl := Outcome.ok.inj ht'
      rw [hd] at hn; simp at hn
    · rw [hs] at hs'; obtain rfl := Option.some.inj hs'
      exact .inl ⟨t, v, ht, hd⟩
  unfold controlOne at hok
  cases h with
  | electricHeater n tg sp p ix =>
    simp only [controlElectric] at hok
    cases tg with
    | none => exact keep (Outcome.ok.inj hok).symm (fun t s hs _ => by simp [target] at hs)
    | some s =>
      cases sp with
      | none => exact keep (Outcome.ok.inj hok).symm (fun t s hs _ => rfl)
      | some sp =>
        cases p with
        | none => exact keep (Outcome.ok.inj hok).symm (fun t s hs _ => rfl)
        | some p =>
          simp only at hok
          obtain ⟨t, ht, hok⟩ := bind_eq_ok hok
          split_ifs at hok with hlt
          · obtain ⟨k, hk, hkl, hst⟩ := setConsumption_ok hok
            exact put s t p k rfl ht (by simp [Spec.demand, hlt]) hk hkl hst
          · obtain ⟨k, hk, hkl, hst⟩ := setConsumption_ok hok
            exact put s t 0 k rfl ht (by simp [Spec.demand, hlt]) hk hkl hst
  | idealHeaterCooler n tg hsp csp hp cp ix =>
    cases tg with
    | none => exact keep (Outcome.ok.inj hok).symm (fun t s hs _ => by simp [target] at hs)
    | some s =>
      simp only at hok
      obtain ⟨t, ht, hok2⟩ := bind_eq_ok hok
      obtain ⟨⟨s1, hh⟩, h1, hok3⟩ := bind_eq_ok hok2
      simp only at hok3
      -- heating
      have hheat : (∃ a b, hsp = some a ∧ hp = some b ∧ hh = true ∧ ∃ k, ix = some k ∧ k < st.length ∧
            s1 = st.set k (if t < a then b else 0)) ∨
          ((hsp = none ∨ hp = none) ∧ hh = false ∧ s1 = st) := by
        unfold heatingPart at h1
        cases hsp with
        | none => right; obtain ⟨rfl, rfl⟩ := Prod.mk.inj (Outcome.ok.inj h1); exact ⟨.inl rfl, rfl, rfl⟩
        | some a =>
          cases hp with
          | none => right; obtain ⟨rfl, rfl⟩ := Prod.mk.inj (Outcome.ok.inj h1); exact ⟨.inr rfl, rfl, rfl⟩
          | some b =>
            left
            simp only at h1
            obtain ⟨s2, h2, h3⟩ := bind_eq_ok h1
            obtain ⟨rfl, rfl⟩ := Prod.mk.inj (Outcome.ok.inj h3)
            refine ⟨a, b, rfl, rfl, rfl, ?_⟩
            split_ifs at h2 ⊢ with hlt
            · exact setConsumption_ok h2
            · exact setConsumption_ok h2
      have hcool : (∃ a b, csp = some a ∧ cp = some b) ∨ ((csp = none ∨ cp = none)) := by
        cases csp <;> cases cp <;> simp
      rcases hcool with ⟨c, q, rfl, rfl⟩ | hcool
      · simp only [coolingPart] at hok3
        rcases hheat with ⟨a, b, rfl, rfl, rfl, k, rfl, hk, rfl⟩ | ⟨hnone, rfl, rfl⟩
        · simp only [Bool.not_true, Bool.false_eq_true, if_false] at hok3
          by_cases hc : c < t
          · rw [if_pos hc] at hok3
            obtain ⟨k', hk', _, hst⟩ := setConsumption_ok hok3
            obtain rfl := Option.some.inj hk'
            rw [List.set_set] at hst
            exact put s t (-q) k rfl ht (by simp [Spec.demand, hc]) rfl hk hst
          · rw [if_neg hc] at hok3
            exact put s t _ k rfl ht (by simp only [Spec.demand, gt_iff_lt, if_neg hc]) rfl hk
              (Outcome.ok.inj hok3).symm
        · split_ifs at hok3 with hc hb
          · obtain ⟨k, hk, hkl, hst⟩ := setConsumption_ok hok3
            exact put s t (-q) k rfl ht
              (by rcases hnone with rfl | rfl <;> simp [Spec.demand, hc]) hk hkl hst
          · obtain ⟨k, hk, hkl, hst⟩ := setConsumption_ok hok3
            exact put s t 0 k rfl ht
              (by rcases hnone with rfl | rfl <;> simp [Spec.demand, hc]) hk hkl hst
          · exact absurd rfl hb
      · have hok' : s1 = st' := by
          unfold coolingPart at hok3
          rcases hcool with rfl | rfl
          · exact Outcome.ok.inj hok3
          · cases csp <;> exact Outcome.ok.inj hok3
        subst hok'
        rcases hheat with ⟨a, b, rfl, rfl, rfl, k, rfl, hk, rfl⟩ | ⟨hnone, rfl, rfl⟩
        · exact put s t _ k rfl ht
            (by rcases hcool with rfl | rfl <;> simp [Spec.demand]) rfl hk rfl
        · refine keep rfl (fun t s hs _ => ?_)
          rcases hnone with rfl | rfl <;> rcases hcool with rfl | rfl
          · rfl
          · cases csp <;> rfl
          · cases hsp <;> rfl
          · cases hsp <;> cases csp <;> rfl

/-- The temperatures are not touched by writing elsewhere. -/
theorem tempOf_congr (m : Model P F) (s : String) (st st' : List F)
    (h : ∀ x ∈ m.spaces, ∀ i, x.dryBulbIndex = some i → st'[i]? = st[i]?) : tempOf m s st' = tempOf m s st := by
  unfold tempOf
  cases hs : m.getSpace s with
  | err => rfl
  | panic => rfl
  | ok x =>
    simp only
    cases hi : x.dryBulbIndex with
    | none => rfl
    | some i =>
      simp only
      have hx : x ∈ m.spaces := by
        unfold Model.getSpace at hs
        revert hs
        generalize m.spaces = l
        intro hs
        induction l with
        | nil => simp [Model.findNamed] at hs
        | cons a l ih =>
          unfold Model.findNamed at hs
          split_ifs at hs
          · obtain rfl := Outcome.ok.inj hs; simp
          · exact List.mem_cons_of_mem _ (ih hs)
      unfold Outcome.index
      rw [h x hx i hi]

/-- **C23** (thermostat).  After the control has been applied, every system whose target space is
at temperature `t` consumes what the specification says: its heating power when `t` is below the
heating set-point, minus its cooling power when `t` is above the cooling set-point, and zero
otherwise; systems without a target or set-points are left as they were, and so is everything else in
the state.  The systems have different positions in the state (`C61_no_sharing`), and none has that
of a temperature. -/
theorem C23_control (m : Model P F) (st st' : List F)
    (hdist : m.hvacs.Pairwise fun a b => ∀ i, a.index = some i → b.index ≠ some i)
    (htemp : ∀ h ∈ m.hvacs, ∀ x ∈ m.spaces, ∀ i, h.index = some i → x.dryBulbIndex ≠ some i)
    (hok : control m st = .ok st') :
    st'.length = st.length ∧
    (∀ j, (∀ h ∈ m.hvacs, h.index ≠ some j) → st'[j]? = st[j]?) ∧
    (∀ h ∈ m.hvacs, ∀ i, h.index = some i → target h = none → st'[i]? = st[i]?) ∧
    (∀ h ∈ m.hvacs, ∀ i s t, h.index = some i → target h = some s → tempOf m s st = .ok t →
      st'[i]? = match Spec.demand t h with
        | some v => some v
        | none => st[i]?) := by
  suffices H : ∀ (l : List (Hvac F)) (st : List F), (∀ h ∈ l, h ∈ m.hvacs) →
      l.Pairwise (fun a b => ∀ i, a.index = some i → b.index ≠ some i) → controlLoop m l st = .ok st' →
      st'.length = st.length ∧
      (∀ j, (∀ h ∈ l, h.index ≠ some j) → st'[j]? = st[j]?) ∧
      (∀ h ∈ l, ∀ i, h.index = some i → target h = none → st'[i]? = st[i]?) ∧
      (∀ h ∈ l, ∀ i s t, h.index = some i → target h = some s → tempOf m s st = .ok t →
        st'[i]? = match Spec.demand t h with
          | some v => some v
          | none => st[i]?) from H m.hvacs st (fun _ h => h) hdist hok
  intro l
  induction l with
  | nil =>
    intro st _ _ h
    obtain rfl := Outcome.ok.inj h
    exact ⟨rfl, fun _ _ => rfl, by simp, by simp⟩
  | cons a l ih =>
    intro st hmem hpw h
    rw [controlLoop] at h
    obtain ⟨s1, h1, h2⟩ := bind_eq_ok h
    obtain ⟨c1, c2, c3, c4⟩ := controlOne_spec m a st s1 h1
    rw [List.pairwise_cons] at hpw
    obtain ⟨i1, i2, i3, i4⟩ := ih s1 (fun x hx => hmem x (List.mem_cons_of_mem _ hx)) hpw.2 h2
    have htemps : ∀ s, tempOf m s s1 = tempOf m s st := by
      intro s
      apply tempOf_congr
      intro x hx i hi
      apply c2
      intro hai
      exact htemp a (hmem a (by simp)) x hx i hai hi
    refine ⟨i1.trans c1, ?_, ?_, ?_⟩
    · intro j hj
      rw [i2 j (fun x hx => hj x (List.mem_cons_of_mem _ hx)), c2 j (hj a (by simp))]
    · intro x hx i hi ht
      rcases List.mem_cons.1 hx with rfl | hx
      · rw [i2 i (fun y hy => hpw.1 y hy i hi), c3 i hi ht]
      · rw [i3 x hx i hi ht, c2]
        intro hai
        exact hpw.1 x hx i hai hi
    · intro x hx i s t hi hs ht
      rcases List.mem_cons.1 hx with rfl | hx
      · rw [i2 i (fun y hy => hpw.1 y hy i hi)]
        obtain ⟨d1, d2, -⟩ := c4 i s hi hs
        cases hd : Spec.demand t x with
        | some v => exact d1 t v ht hd
        | none => exact d2 t ht hd
      · rw [i4 x hx i s t hi hs (by rw [htemps]; exact ht)]
        cases hd : Spec.demand t x with
        | some v => rfl
        | none =>
          simp only
          rw [c2]
          intro hai
          exact hpw.1 x hx i hai hi

/-- **C23** (no error).  The control does not fail when every target space is in the model and has a
temperature in the state, and every system has a position in the state. -/
theorem C23_no_error (m : Model P F) (st : List F)
    (htarget : ∀ h ∈ m.hvacs, ∀ s, target h = some s →
      ∃ x i, m.getSpace s = .ok x ∧ x.dryBulbIndex = some i ∧ i < st.length)
    (hindex : ∀ h ∈ m.hvacs, ∃ i, h.index = some i ∧ i < st.length) :
    ∃ st', control m st = .ok st' := by
  suffices H : ∀ (l : List (Hvac F)) (s0 : List F), (∀ h ∈ l, h ∈ m.hvacs) → s0.length = st.length →
      ∃ st', controlLoop m l s0 = .ok st' from H m.hvacs st (fun _ h => h) rfl
  intro l
  induction l with
  | nil => intro s0 _ _; exact ⟨s0, rfl⟩
  | cons a l ih =>
    intro s0 hmem hlen
    have set_ok : ∀ (i : Option ℕ) (v : F) (s1 : List F), s1.length = st.length → a.index = i →
        ∃ s2, setConsumption i v s1 = .ok s2 ∧ s2.length = st.length := by
      intro i v s1 h1 hi
      obtain ⟨k, hk, hkl⟩ := hindex a (hmem a (by simp))
      rw [← hi, hk]
      refine ⟨s1.set k v, ?_, by simp [h1]⟩
      simp [setConsumption, h1, hkl]
    have temp_ok : ∀ s, target a = some s → ∃ t, tempOf m s s0 = .ok t := by
      intro s hs
      obtain ⟨x, i, hx, hi, hil⟩ := htarget a (hmem a (by simp)) s hs
      refine ⟨s0[i]'(by omega), ?_⟩
      unfold tempOf
      rw [hx]
      simp only [hi]
      exact Outcome.index_of_lt (by omega)
    have one : ∃ s1, controlOne m a s0 = .ok s1 ∧ s1.length = st.length := by
      cases ha : a with
      | electricHeater n tg sp p ix =>
        unfold controlOne controlElectric
        cases tg with
        | none => exact ⟨s0, rfl, hlen⟩
        | some s =>
          cases sp with
          | none => exact ⟨s0, rfl, hlen⟩
          | some sp =>
            cases p with
            | none => exact ⟨s0, rfl, hlen⟩
            | some p =>
              obtain ⟨t, ht⟩ := temp_ok s (by rw [ha]; rfl)
              simp only [ht, Outcome.bind]
              split_ifs
              · exact set_ok ix p s0 hlen (by rw [ha]; rfl)
              · exact set_ok ix 0 s0 hlen (by rw [ha]; rfl)
      | idealHeaterCooler n tg hsp csp hp cp ix =>
        unfold controlOne
        cases tg with
        | none => exact ⟨s0, rfl, hlen⟩
        | some s =>
          obtain ⟨t, ht⟩ := temp_ok s (by rw [ha]; rfl)
          simp only [ht, Outcome.bind]
          have hheat : ∃ s1 b, heatingPart t hsp hp ix s0 = .ok (s1, b) ∧ s1.length = st.length := by
            unfold heatingPart
            cases hsp with
            | none => exact ⟨s0, false, rfl, hlen⟩
            | some x =>
              cases hp with
              | none => exact ⟨s0, false, rfl, hlen⟩
              | some y =>
                simp only
                split_ifs
                · obtain ⟨s2, e, e'⟩ := set_ok ix y s0 hlen (by rw [ha]; rfl)
                  exact ⟨s2, true, by rw [e]; rfl, e'⟩
                · obtain ⟨s2, e, e'⟩ := set_ok ix 0 s0 hlen (by rw [ha]; rfl)
                  exact ⟨s2, true, by rw [e]; rfl, e'⟩
          obtain ⟨s1, b, e1, e2⟩ := hheat
          simp only [e1]
          unfold coolingPart
          cases csp with
          | none => exact ⟨s1, rfl, e2⟩
          | some x =>
            cases cp with
            | none => exact ⟨s1, rfl, e2⟩
            | some y =>
              simp only
              split_ifs
              · exact set_ok ix _ s1 e2 (by rw [ha]; rfl)
              · exact set_ok ix 0 s1 e2 (by rw [ha]; rfl)
              · exact ⟨s1, rfl, e2⟩
    obtain ⟨s1, e1, e2⟩ := one
    obtain ⟨st', e3⟩ := ih s1 (fun x hx => hmem x (List.mem_cons_of_mem _ hx)) e2
    exact ⟨st', by rw [controlLoop, e1]; exact e3⟩

/-- **C23** (within capacity).  With non-negative powers, what a system consumes is between minus its
cooling power and its heating power; it never heats a space that is not below the heating set-point,
never cools one that is not above the cooling set-point, and is off in between. -/
theorem C23_capacity [IsOrderedAddMonoid F] (n s : String) (hsp csp hp cp t v : F) (i : ℕ)
    (h1 : 0 ≤ hp) (h2 : 0 ≤ cp)
    (hd : Spec.demand t (.idealHeaterCooler n (some s) (some hsp) (some csp) (some hp) (some cp) (some i)) = some v) :
    -cp ≤ v ∧ v ≤ hp ∧ (0 < v → t < hsp) ∧ (v < 0 → csp < t) ∧ (hsp ≤ t → t ≤ csp → v = 0) := by
  simp only [Spec.demand, Option.some.injEq] at hd
  have hcp : -cp ≤ 0 := neg_nonpos.2 h2
  split_ifs at hd with a b
  · subst hd
    exact ⟨le_refl _, hcp.trans h1, fun h => absurd h (not_lt.2 hcp), fun _ => a, fun _ hc => absurd a (not_lt.2 hc)⟩
  · subst hd
    exact ⟨hcp.trans h1, le_refl _, fun _ => b, fun h => absurd h (not_lt.2 h1), fun hc _ => absurd b (not_lt.2 hc)⟩
  · subst hd
    exact ⟨hcp, h1, fun h => absurd h (lt_irrefl _), fun h => absurd h (lt_irrefl _), fun _ _ => rfl⟩

/-- A model with an electric heater in a cold room, and an ideal one in a hot room. -/
def demoModel : Model ℚ ℚ := { (Model.empty : Model ℚ ℚ) with
  spaces := [⟨"cold", some 2⟩, ⟨"hot", some 3⟩]
  hvacs := [.electricHeater "e" (some "cold") (some 19) (some 500) (some 0),
    .idealHeaterCooler "i" (some "hot") (some 19) (some 25) (some 800) (some 700) (some 1)] }

example : control demoModel [0, 0, 10, 30] = .ok [500, -700, 10, 30] := by decide +kernel

end Simple.Control
