import Mathlib.Data.List.Infix
import Mathlib.Algebra.Order.Ring.Rat
import Verif.Building.StateModel

/-! C15 and C16: indices and layout of the simulation state. -/

namespace Simple.State

open Header

variable {F : Type*}

/-- **C16** (classification).  Every element is of exactly one class. -/
theorem C16_one_class (e : Element) :
    (e.isPersonal = true ∧ e.isOperational = false ∧ e.isPhysical = false) ∨
    (e.isPersonal = false ∧ e.isOperational = true ∧ e.isPhysical = false) ∨
    (e.isPersonal = false ∧ e.isOperational = false ∧ e.isPhysical = true) := by
  cases e <;> simp [Element.isPersonal, Element.isOperational, Element.isPhysical]

/-! ### Indices -/

theorem push_cases (h : Header F) (e : Element) (v : F) :
    (h.push e v = (.err, h)) ∨
    (∃ vs, h.defaultValues = some vs ∧ (h.push e v).1 = .ok h.elements.length ∧
      (h.push e v).2.elements = h.elements ++ [e] ∧
      (h.push e v).2.defaultValues = some (vs ++ [v])) ∨
    (h.defaultValues = none ∧ (h.push e v).1 = .err ∧
      (h.push e v).2.elements = h.elements ++ [e] ∧ (h.push e v).2.defaultValues = none) := by
  obtain ⟨no, ni, po, pp, el, dv⟩ := h
  unfold Header.push register
  rcases C16_one_class e with ⟨h1, h2, h3⟩ | ⟨h1, h2, h3⟩ | ⟨h1, h2, h3⟩ <;>
    cases po <;> cases pp <;> cases dv <;> simp [h1, h2]

/-- The elements and the values of a header are only ever extended at the end. -/
theorem apply_extends (h : Header F) (op : Op F) :
    h.elements <+: (h.apply op).elements ∧
    ((h.apply op).defaultValues = none ∨
      ∃ vs ws, h.defaultValues = some vs ∧ (h.apply op).defaultValues = some ws ∧ vs <+: ws) := by
  cases op with
  | push e v =>
    simp only [apply]
    rcases push_cases h e v with h1 | ⟨vs, h1, h2, h3, h4⟩ | ⟨h1, h2, h3, h4⟩
    · rw [h1]
      refine ⟨List.prefix_refl _, ?_⟩
      cases hd : h.defaultValues with
      | none => left; rfl
      | some vs => right; exact ⟨vs, vs, rfl, rfl, List.prefix_refl _⟩
    · rw [h3, h4]
      exact ⟨List.prefix_append _ _, .inr ⟨vs, _, h1, rfl, List.prefix_append _ _⟩⟩
    · rw [h3, h4]
      exact ⟨List.prefix_append _ _, .inl rfl⟩
  | takeValues => exact ⟨List.prefix_refl _, .inl rfl⟩

theorem applyAll_extends (h : Header F) (ops : List (Op F)) :
    h.elements <+: (h.applyAll ops).elements ∧
    ((h.applyAll ops).defaultValues = none ∨
      ∃ vs ws, h.defaultValues = some vs ∧ (h.applyAll ops).defaultValues = some ws ∧ vs <+: ws) := by
  induction ops generalizing h with
  | nil =>
    refine ⟨List.prefix_refl _, ?_⟩
    cases hd : h.defaultValues with
    | none => left; exact hd
    | some vs => right; exact ⟨vs, vs, rfl, hd, List.prefix_refl _⟩
  | cons op ops ih =>
    obtain ⟨h1, h2⟩ := apply_extends h op
    obtain ⟨h3, h4⟩ := ih (h.apply op)
    refine ⟨h1.trans h3, ?_⟩
    show ((h.apply op).applyAll ops).defaultValues = none ∨ _
    rcases h4 with h4 | ⟨vs, ws, h4, h5, h6⟩
    · exact .inl h4
    · rcases h2 with h2 | ⟨us, vs', h7, h8, h9⟩
      · rw [h2] at h4; simp at h4
      · rw [h8] at h4
        obtain rfl := Option.some.inj h4
        exact .inr ⟨us, ws, h7, h5, h9.trans h6⟩

theorem prefix_getElem? {α : Type*} {l m : List α} (h : l <+: m) {i : ℕ} (hi : i < l.length) :
    m[i]? = l[i]? := by
  obtain ⟨t, rfl⟩ := h
  rw [List.getElem?_append_left hi]

/-- As long as the values are there, there is one value per element. -/
theorem aligned (ops : List (Op F)) :
    ∀ vs, ((new : Header F).applyAll ops).defaultValues = some vs →
      vs.length = ((new : Header F).applyAll ops).elements.length := by
  suffices H : ∀ (h : Header F), (∀ vs, h.defaultValues = some vs → vs.length = h.elements.length) →
      ∀ vs, (h.applyAll ops).defaultValues = some vs → vs.length = (h.applyAll ops).elements.length by
    exact H _ (by simp [new])
  induction ops with
  | nil => intro h hh vs hvs; exact hh vs hvs
  | cons op ops ih =>
    intro h hh
    refine ih (h.apply op) ?_
    intro vs hvs
    cases op with
    | push e v =>
      simp only [apply] at hvs ⊢
      rcases push_cases h e v with h1 | ⟨us, h1, h2, h3, h4⟩ | ⟨h1, h2, h3, h4⟩
      · rw [h1] at hvs ⊢; exact hh vs hvs
      · rw [h4] at hvs
        obtain rfl := Option.some.inj hvs
        rw [h3]; simp [hh us h1]
      · rw [h4] at hvs; simp at hvs
    | takeValues => simp [apply, takeValues] at hvs

/-- **C15** (stable indices).  Let a push in an arbitrary history succeed with index `i`.  Then,
whatever calls follow, position `i` of the header holds that element; and if the values have not
been taken, or are taken at that moment, position `i` of the values holds the given value. -/
theorem C15_stable (before after : List (Op F)) (e : Element) (v : F) (i : ℕ)
    (hi : (((new : Header F).applyAll before).push e v).1 = .ok i) :
    ((new : Header F).applyAll (before ++ Op.push e v :: after)).elements[i]? = some e ∧
    (∀ vs, (((new : Header F).applyAll (before ++ Op.push e v :: after)).takeValues).1 = some vs →
      vs[i]? = some v) := by
  set h := (new : Header F).applyAll before with hh
  have hall : (new : Header F).applyAll (before ++ Op.push e v :: after)
      = ((h.push e v).2).applyAll after := by
    simp [applyAll, hh, List.foldl_append, apply]
  rw [hall]
  rcases push_cases h e v with h1 | ⟨vs, h1, h2, h3, h4⟩ | ⟨h1, h2, h3, h4⟩
  · rw [h1] at hi; simp at hi
  · rw [h2] at hi
    obtain rfl := Outcome.ok.inj hi
    have hlen : vs.length = h.elements.length := by
      rw [hh] at h1 ⊢; exact aligned before vs h1
    obtain ⟨p1, p2⟩ := applyAll_extends (h.push e v).2 after
    constructor
    · rw [prefix_getElem? p1 (by rw [h3]; simp), h3]; simp
    · intro ws hws
      simp only [takeValues] at hws
      rcases p2 with p2 | ⟨us, ws', p2, p3, p4⟩
      · rw [p2] at hws; simp at hws
      · rw [p3] at hws
        obtain rfl := Option.some.inj hws
        rw [h4] at p2
        obtain rfl := Option.some.inj p2
        rw [prefix_getElem? p4 (by simp [hlen]), ← hlen]; simp
  · rw [h2] at hi; simp at hi

example : (((new : Header ℚ).applyAll [.push .clothing 1]).push (.spaceDryBulbTemperature 0) 22).1
    = .ok 1 := by decide

/-- **C15** (unique indices).  Two successful pushes of the same history never return the same
index: the later one returns a larger one. -/
theorem C15_unique (before between : List (Op F)) (e e' : Element) (v v' : F) (i j : ℕ)
    (hi : (((new : Header F).applyAll before).push e v).1 = .ok i)
    (hj : (((new : Header F).applyAll (before ++ Op.push e v :: between)).push e' v').1 = .ok j) :
    i < j := by
  have h1 := (C15_stable before between e v i hi).1
  have hlt := (List.getElem?_eq_some_iff.1 h1).1
  rcases push_cases ((new : Header F).applyAll (before ++ Op.push e v :: between)) e' v' with
    h | ⟨vs, _, h2, _, _⟩ | ⟨_, h2, _, _⟩
  · rw [h] at hj; simp at hj
  · rw [h2] at hj
    obtain rfl := Outcome.ok.inj hj
    exact hlt
  · rw [h2] at hj; simp at hj

example : (((new : Header ℚ).applyAll ([] ++ Op.push .clothing 1 :: [.push .clothing 2])).push
    (.luminairePowerConsumption 0) 0).1 = .ok 2 := by decide

/-- **C15** (values).  As long as they have not been taken, there are as many values as elements;
taking them leaves nothing to take. -/
theorem C15_values (ops : List (Op F)) :
    (∀ vs, (((new : Header F).applyAll ops).takeValues).1 = some vs →
      vs.length = ((new : Header F).applyAll ops).len) ∧
    ((((new : Header F).applyAll ops).takeValues).2.takeValues).1 = none :=
  ⟨fun vs hvs => aligned ops vs hvs, rfl⟩

/-- **C15** (rejected push).  A rejected push changes none of the positions or values already
registered. -/
theorem C15_rejected (h : Header F) (e : Element) (v : F) (hr : (h.push e v).1 = .err) :
    h.elements <+: (h.push e v).2.elements ∧ (h.push e v).2.defaultValues = h.defaultValues := by
  rcases push_cases h e v with h1 | ⟨vs, h1, h2, h3, h4⟩ | ⟨h1, h2, h3, h4⟩
  · rw [h1]; exact ⟨List.prefix_refl _, rfl⟩
  · rw [h2] at hr; simp at hr
  · rw [h3, h4, h1]; exact ⟨List.prefix_append _ _, rfl⟩

example : (((new : Header ℚ).applyAll [.push (.spaceDryBulbTemperature 0) 22]).push .clothing 1).1
    = .err := by decide

/-- A push which is rejected because the values were taken still registers the element: the header
gets longer than the state that was taken. -/
theorem C15_violated_push_after_take :
    let h := (new : Header ℚ).applyAll [.push (.spaceDryBulbTemperature 0) 22, .takeValues]
    (h.push (.spaceDryBulbTemperature 1) 22).1 = .err ∧
      (h.push (.spaceDryBulbTemperature 1) 22).2.len = h.len + 1 := by
  decide

/-! ### Layout -/

/-- The specification of the layout: three consecutive blocks, of the sizes the header announces. -/
structure Layout (h : Header F) (ps os phs : List Element) : Prop where
  elements : h.elements = ps ++ os ++ phs
  personal : ∀ e ∈ ps, e.isPersonal = true
  operational : ∀ e ∈ os, e.isOperational = true
  physical : ∀ e ∈ phs, e.isPhysical = true
  nIndividual : h.nIndividual = ps.length
  nOperational : h.nOperational = os.length

/-- The invariant behind it: a section is closed once an element of a later one was added. -/
structure LayoutInv (h : Header F) (ps os phs : List Element) : Prop extends Layout h ps os phs where
  closed1 : h.passedPersonal = false → os = [] ∧ phs = []
  closed2 : h.passedOperational = false → phs = []

theorem layoutInv_register {h : Header F} {ps os phs : List Element} (e : Element) (v : F)
    (hl : LayoutInv h ps os phs) : ∃ ps' os' phs', LayoutInv (h.push e v).2 ps' os' phs' := by
  obtain ⟨⟨l1, l2, l3, l4, l5, l6⟩, c1, c2⟩ := hl
  obtain ⟨no, ni, po, pp, el, dv⟩ := h
  simp only at l1 l5 l6 c1 c2
  unfold Header.push register
  rcases C16_one_class e with ⟨h1, h2, h3⟩ | ⟨h1, h2, h3⟩ | ⟨h1, h2, h3⟩
  · cases pp with
    | true => simp only [h1, if_true]; exact ⟨ps, os, phs, ⟨l1, l2, l3, l4, l5, l6⟩, c1, c2⟩
    | false =>
      obtain ⟨rfl, rfl⟩ := c1 rfl
      refine ⟨ps ++ [e], [], [], ⟨?_, ?_, l3, l4, ?_, ?_⟩, ?_, ?_⟩ <;>
        cases dv <;> simp [h1, l1, l5, l6] <;>
        (intro a ha; rcases ha with ha | rfl; exacts [l2 a ha, h1])
  · cases po with
    | true => simp only [h1, h2, if_true]; exact ⟨ps, os, phs, ⟨l1, l2, l3, l4, l5, l6⟩, c1, c2⟩
    | false =>
      obtain rfl := c2 rfl
      refine ⟨ps, os ++ [e], [], ⟨?_, l2, ?_, l4, ?_, ?_⟩, ?_, ?_⟩ <;>
        cases dv <;> simp [h1, h2, l1, l5, l6] <;>
        (intro a ha; rcases ha with ha | rfl; exacts [l3 a ha, h2])
  · refine ⟨ps, os, phs ++ [e], ⟨?_, l2, l3, ?_, ?_, ?_⟩, ?_, ?_⟩ <;>
      cases dv <;> simp [h1, h2, l1, l5, l6] <;>
        (intro a ha; rcases ha with ha | rfl; exacts [l4 a ha, h3])

theorem layoutInv_applyAll (ops : List (Op F)) :
    ∃ ps os phs, LayoutInv ((new : Header F).applyAll ops) ps os phs := by
  suffices H : ∀ (h : Header F) ps os phs, LayoutInv h ps os phs →
      ∃ ps os phs, LayoutInv (h.applyAll ops) ps os phs by
    exact H _ [] [] [] ⟨⟨rfl, by simp, by simp, by simp, rfl, rfl⟩, by simp, by simp⟩
  induction ops with
  | nil => intro h ps os phs hl; exact ⟨ps, os, phs, hl⟩
  | cons op ops ih =>
    intro h ps os phs hl
    cases op with
    | push e v =>
      obtain ⟨ps', os', phs', hl'⟩ := layoutInv_register e v hl
      exact ih _ _ _ _ hl'
    | takeValues =>
      refine ih (h.apply .takeValues) ps os phs ?_
      obtain ⟨⟨l1, l2, l3, l4, l5, l6⟩, c1, c2⟩ := hl
      exact ⟨⟨l1, l2, l3, l4, l5, l6⟩, c1, c2⟩

/-- **C16** (layout).  After any history of calls, the personal elements come first, then the
operational ones, then the physical ones; and the counters are the sizes of the sections. -/
theorem C16_layout (ops : List (Op F)) :
    ∃ ps os phs, Layout ((new : Header F).applyAll ops) ps os phs := by
  obtain ⟨ps, os, phs, h⟩ := layoutInv_applyAll ops
  exact ⟨ps, os, phs, h.toLayout⟩

/-- **C16** (counters).  After any history of calls, the counters equal the number of elements of
each class in the header. -/
theorem C16_counters (ops : List (Op F)) :
    let h := (new : Header F).applyAll ops
    h.nIndividual = h.elements.countP Element.isPersonal ∧
    h.nOperational = h.elements.countP Element.isOperational ∧
    h.len = h.nIndividual + h.nOperational + h.elements.countP Element.isPhysical := by
  intro h
  obtain ⟨ps, os, phs, hl⟩ := C16_layout ops
  change Layout h ps os phs at hl
  have z : ∀ (l : List Element) (p q : Element → Bool), (∀ e, p e = true → q e = false) →
      (∀ e ∈ l, p e = true) → l.countP q = 0 := by
    intro l p q hpq hl
    rw [List.countP_eq_zero]; intro a ha; simp [hpq a (hl a ha)]
  have f : ∀ (l : List Element) (p : Element → Bool), (∀ e ∈ l, p e = true) → l.countP p = l.length :=
    fun l p hl => List.countP_eq_length.2 hl
  have d1 : ∀ e : Element, e.isPersonal = true → e.isOperational = false := by
    intro e; rcases C16_one_class e with h | h | h <;> simp [h]
  have d2 : ∀ e : Element, e.isPersonal = true → e.isPhysical = false := by
    intro e; rcases C16_one_class e with h | h | h <;> simp [h]
  have d3 : ∀ e : Element, e.isOperational = true → e.isPersonal = false := by
    intro e; rcases C16_one_class e with h | h | h <;> simp [h]
  have d4 : ∀ e : Element, e.isOperational = true → e.isPhysical = false := by
    intro e; rcases C16_one_class e with h | h | h <;> simp [h]
  have d5 : ∀ e : Element, e.isPhysical = true → e.isPersonal = false := by
    intro e; rcases C16_one_class e with h | h | h <;> simp [h]
  have d6 : ∀ e : Element, e.isPhysical = true → e.isOperational = false := by
    intro e; rcases C16_one_class e with h | h | h <;> simp [h]
  simp only [len, hl.elements, hl.nIndividual, hl.nOperational, List.countP_append,
    List.length_append, f _ _ hl.personal, f _ _ hl.operational, f _ _ hl.physical,
    z _ _ _ d1 hl.personal, z _ _ _ d2 hl.personal, z _ _ _ d3 hl.operational,
    z _ _ _ d4 hl.operational, z _ _ _ d5 hl.physical, z _ _ _ d6 hl.physical]
  omega

/-- The specification of a partial copy: exactly the positions whose element is of the given kind
are overwritten by the value at the same position in the origin. -/
def Spec.merge (kind : Element → Bool) : List Element → List F → List F → List F
  | e :: es, o :: os, d :: ds => (if kind e then o else d) :: merge kind es os ds
  | _, _, _ => []

theorem merge_append (kind : Element → Bool) (es es' : List Element) (o o' d d' : List F)
    (h1 : o.length = es.length) (h2 : d.length = es.length) :
    Spec.merge kind (es ++ es') (o ++ o') (d ++ d')
      = Spec.merge kind es o d ++ Spec.merge kind es' o' d' := by
  induction es generalizing o d with
  | nil =>
    simp only [List.length_nil, List.length_eq_zero_iff] at h1 h2
    subst h1 h2; simp [Spec.merge]
  | cons e es ih =>
    cases o with
    | nil => simp at h1
    | cons a o =>
      cases d with
      | nil => simp at h2
      | cons b d =>
        simp only [List.length_cons, Nat.add_right_cancel_iff] at h1 h2
        simp [Spec.merge, ih o d h1 h2]

theorem merge_all (kind : Element → Bool) (es : List Element) (o d : List F)
    (h1 : o.length = es.length) (h2 : d.length = es.length) (h : ∀ e ∈ es, kind e = true) :
    Spec.merge kind es o d = o := by
  induction es generalizing o d with
  | nil => simp only [List.length_nil, List.length_eq_zero_iff] at h1; subst h1; simp [Spec.merge]
  | cons e es ih =>
    cases o with
    | nil => simp at h1
    | cons a o =>
      cases d with
      | nil => simp at h2
      | cons b d =>
        simp only [List.length_cons, Nat.add_right_cancel_iff] at h1 h2
        simp [Spec.merge, ih o d h1 h2 (fun x hx => h x (List.mem_cons_of_mem _ hx)), h e]

theorem merge_none (kind : Element → Bool) (es : List Element) (o d : List F)
    (h1 : o.length = es.length) (h2 : d.length = es.length) (h : ∀ e ∈ es, kind e = false) :
    Spec.merge kind es o d = d := by
  induction es generalizing o d with
  | nil => simp only [List.length_nil, List.length_eq_zero_iff] at h2; subst h2; simp [Spec.merge]
  | cons e es ih =>
    cases o with
    | nil => simp at h1
    | cons a o =>
      cases d with
      | nil => simp at h2
      | cons b d =>
        simp only [List.length_cons, Nat.add_right_cancel_iff] at h1 h2
        simp [Spec.merge, ih o d h1 h2 (fun x hx => h x (List.mem_cons_of_mem _ hx)), h e]

theorem split3 {α : Type*} (l : List α) (a b c : ℕ) (h : l.length = a + b + c) :
    ∃ x y z, l = x ++ y ++ z ∧ x.length = a ∧ y.length = b ∧ z.length = c := by
  refine ⟨l.take a, (l.drop a).take b, l.drop (a + b), ?_, ?_, ?_, ?_⟩
  · rw [List.append_assoc, show l.drop (a + b) = (l.drop a).drop b by rw [List.drop_drop],
      List.take_append_drop, List.take_append_drop]
  · simp; omega
  · simp; omega
  · simp; omega

theorem copySection_block (debug : Bool) (h : Header F) (kind : Element → Bool)
    (pre mid post : List Element) (o d : List F) (hel : h.elements = pre ++ mid ++ post)
    (hpre : ∀ e ∈ pre, kind e = false) (hmid : ∀ e ∈ mid, kind e = true)
    (hpost : ∀ e ∈ post, kind e = false) (ho : o.length = h.len) (hd : d.length = h.len) :
    copySection debug h kind pre.length (pre.length + mid.length) o d
      = (.ok (), Spec.merge kind h.elements o d) := by
  have hlen : h.len = pre.length + mid.length + post.length := by
    unfold len; rw [hel]; simp; omega
  obtain ⟨o1, o2, o3, rfl, a1, a2, a3⟩ := split3 o _ _ _ (ho.trans hlen)
  obtain ⟨d1, d2, d3, rfl, b1, b2, b3⟩ := split3 d _ _ _ (hd.trans hlen)
  unfold copySection
  rw [if_neg (by rw [ho, hd]; simp), if_neg]
  · unfold copyRange
    rw [if_pos ⟨by omega, by rw [ho, hlen]; omega, by rw [hd, hlen]; omega⟩]
    rw [hel, merge_append _ _ _ _ _ _ _ (by simp [a1, a2]) (by simp [b1, b2]),
      merge_append _ _ _ _ _ _ _ a1 b1, merge_none _ _ _ _ a1 b1 hpre, merge_all _ _ _ _ a2 b2 hmid,
      merge_none _ _ _ _ a3 b3 hpost]
    congr 1
    have e1 : (d1 ++ d2 ++ d3).take pre.length = d1 := by
      rw [← b1, List.append_assoc, List.take_left]
    have e2 : ((o1 ++ o2 ++ o3).drop pre.length).take (pre.length + mid.length - pre.length) = o2 := by
      rw [← a1, List.append_assoc, List.drop_left, Nat.add_sub_cancel_left, ← a2, List.take_left]
    have e3 : (d1 ++ d2 ++ d3).drop (pre.length + mid.length) = d3 := by
      rw [← b1, ← b2, ← List.length_append, List.drop_left]
    rw [e1, e2, e3]
  · rintro ⟨-, hall⟩
    apply hall
    rw [hel, List.append_assoc, List.drop_left, Nat.add_sub_cancel_left, List.take_left,
      List.all_eq_true]
    exact hmid

/-- **C16** (copies of a section).  In any reachable header, and with or without debug assertions, the
three partial copies never panic on states of the header's length, and overwrite exactly the entries
of their class. -/
theorem C16_section_copies (ops : List (Op F)) (debug : Bool) (o d : List F)
    (ho : o.length = ((new : Header F).applyAll ops).len)
    (hd : d.length = ((new : Header F).applyAll ops).len) :
    let h := (new : Header F).applyAll ops
    h.copyPhysicalState debug o d = (.ok (), Spec.merge Element.isPhysical h.elements o d) ∧
    h.copyOperationalState debug o d = (.ok (), Spec.merge Element.isOperational h.elements o d) ∧
    h.copyIndividualState debug o d = (.ok (), Spec.merge Element.isPersonal h.elements o d) := by
  intro h
  obtain ⟨ps, os, phs, hl⟩ := C16_layout ops
  change Layout h ps os phs at hl
  have c := C16_one_class
  have x1 : ∀ e : Element, e.isPersonal = true → e.isOperational = false ∧ e.isPhysical = false := by
    intro e; rcases c e with h | h | h <;> simp [h]
  have x2 : ∀ e : Element, e.isOperational = true → e.isPersonal = false ∧ e.isPhysical = false := by
    intro e; rcases c e with h | h | h <;> simp [h]
  have x3 : ∀ e : Element, e.isPhysical = true → e.isPersonal = false ∧ e.isOperational = false := by
    intro e; rcases c e with h | h | h <;> simp [h]
  refine ⟨?_, ?_, ?_⟩
  · have := copySection_block debug h Element.isPhysical (ps ++ os) phs [] o d
      (by rw [hl.elements]; simp)
      (by intro e he
          rcases List.mem_append.1 he with he | he
          · exact (x1 e (hl.personal e he)).2
          · exact (x2 e (hl.operational e he)).2)
      hl.physical (by simp) ho hd
    have hlen : h.len = (ps ++ os).length + phs.length := by
      unfold len; rw [hl.elements, List.length_append]
    unfold copyPhysicalState
    rw [hl.nIndividual, hl.nOperational, ← List.length_append, hlen]
    exact this
  · have := copySection_block debug h Element.isOperational ps os phs o d hl.elements
      (fun e he => (x1 e (hl.personal e he)).1) hl.operational
      (fun e he => (x3 e (hl.physical e he)).2) ho hd
    unfold copyOperationalState
    rw [hl.nIndividual, hl.nOperational]
    exact this
  · have := copySection_block debug h Element.isPersonal [] ps (os ++ phs) o d
      (by rw [hl.elements]; simp) (by simp) hl.personal
      (by intro e he
          rcases List.mem_append.1 he with he | he
          · exact (x2 e (hl.operational e he)).1
          · exact (x3 e (hl.physical e he)).1) ho hd
    unfold copyIndividualState
    rw [hl.nIndividual]
    simpa using this

example :
    let h := (new : Header ℚ).applyAll
      [.push .clothing 0, .push (.luminairePowerConsumption 1) 2, .push .clothing 7,
        .push (.spaceDryBulbTemperature 1) 4, .takeValues]
    h.len = 3 ∧ h.copyOperationalState true [1, 2, 3] [-1, -1, -1] = (.ok (), [-1, 2, -1]) := by
  decide +kernel

end Simple.State
