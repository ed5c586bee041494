import Mathlib.Tactic.NormNum
import Mathlib.Tactic.Linarith
import Mathlib.Tactic.Ring
import Verif.Weather.EpwModel
import Verif.Weather.LineProps

/-! # C35: reading EPW files -/

namespace Simple.Weather.Epw

open Calendar Calendar.Spec

namespace Spec

/-- Are we within quotation marks after those bytes? -/
def quoted (l : List UInt8) : Bool := l.count quote % 2 = 1

/-- An element without the carriage return at its end. -/
def withoutCarriage (l : List UInt8) : List UInt8 := if l.getLast? = some carriage then l.dropLast else l

/-- `raw` is the element that follows the bytes `before`, and `after` is what follows it: it has no newline,
its commas are within quotation marks, and it ends with the text, with a newline or with a comma that is not
within quotation marks. -/
structure Element (before raw after : List UInt8) : Prop where
  oneLine : newline ∉ raw
  commas : ∀ pre post, raw = pre ++ comma :: post → quoted (before ++ pre) = true
  ends : after = [] ∨ after.head? = some newline ∨
    after.head? = some comma ∧ quoted (before ++ raw) = false

/-- A scanner that has read the bytes `before`, with what ended their last element. -/
structure HasRead (before : List UInt8) (s : Scanner) : Prop where
  separator : before = [] ∨ before.getLast? = some comma ∨ before.getLast? = some newline
  current : s.current = before.length
  start : s.start = before.length
  line : s.line = 1 + before.count newline
  inString : s.inString = quoted before

end Spec

/-! ## Elements -/

private theorem quoted_append (a b : List UInt8) : Spec.quoted (a ++ b) = xor (Spec.quoted a) (Spec.quoted b) := by
  unfold Spec.quoted
  rw [List.count_append]
  by_cases h1 : a.count quote % 2 = 1 <;> by_cases h2 : b.count quote % 2 = 1
  · have : ¬ (a.count quote + b.count quote) % 2 = 1 := by omega
    simp [h1, h2, this]
  · have : (a.count quote + b.count quote) % 2 = 1 := by omega
    simp [h1, h2, this]
  · have : (a.count quote + b.count quote) % 2 = 1 := by omega
    simp [h1, h2, this]
  · have : ¬ (a.count quote + b.count quote) % 2 = 1 := by omega
    simp [h1, h2, this]

private theorem scanLoop_spec (src : List UInt8) : ∀ (n : ℕ) (s : Scanner) (before rest : List UInt8),
    rest.length = n → src = before ++ rest → s.current = before.length → s.inString = Spec.quoted before →
    ∃ raw after, rest = raw ++ after ∧ Spec.Element before raw after ∧
      (scanLoop src s).current = before.length + raw.length ∧ (scanLoop src s).start = s.start ∧
      (scanLoop src s).inString = Spec.quoted (before ++ raw) ∧
      (scanLoop src s).line = s.line + if after.head? = some newline then 1 else 0 := by
  intro n
  induction n with
  | zero =>
    intro s before rest hn hsrc hc hi
    obtain rfl : rest = [] := List.length_eq_zero_iff.1 hn
    rw [scanLoop, dif_neg (by rw [hsrc, hc]; simp)]
    exact ⟨[], [], rfl, ⟨by simp, by simp, Or.inl rfl⟩, by simp [hc], rfl, by simpa using hi, by simp⟩
  | succ n ih =>
    intro s before rest hn hsrc hc hi
    obtain ⟨b, rest, rfl⟩ : ∃ b r, rest = b :: r := by
      cases rest with
      | nil => simp at hn
      | cons b r => exact ⟨b, r, rfl⟩
    have hlt : s.current < src.length := by rw [hsrc, hc]; simp
    have hget : src[s.current] = b := by
      simp only [hsrc, hc, List.getElem_append_right (le_refl _), Nat.sub_self, List.getElem_cons_zero]
    have hn' : rest.length = n := by simpa using hn
    have hsrc' : src = (before ++ [b]) ++ rest := by rw [hsrc]; simp
    have hcons : ∀ (s1 : Scanner), s1.current = s.current + 1 → s1.start = s.start → s1.line = s.line →
        s1.inString = Spec.quoted (before ++ [b]) → (¬ (s.inString = false ∧ b = comma)) → b ≠ newline →
        ∃ raw after, b :: rest = raw ++ after ∧ Spec.Element before raw after ∧
          (scanLoop src s1).current = before.length + raw.length ∧ (scanLoop src s1).start = s.start ∧
          (scanLoop src s1).inString = Spec.quoted (before ++ raw) ∧
          (scanLoop src s1).line = s.line + if after.head? = some newline then 1 else 0 := by
      intro s1 e1 e2 e3 e4 hnc hnn
      obtain ⟨raw, after, h1, h2, h3, h4, h5, h6⟩ := ih s1 (before ++ [b]) rest hn' hsrc' (by rw [e1, hc]; simp) e4
      refine ⟨b :: raw, after, by rw [h1]; rfl, ⟨?_, ?_, ?_⟩, ?_, by rw [h4, e2], ?_, by rw [h6, e3]⟩
      · simp only [List.mem_cons, not_or]
        exact ⟨fun h => hnn h.symm, h2.oneLine⟩
      · intro pre post hp
        cases pre with
        | nil =>
          obtain ⟨rfl, -⟩ := List.cons.inj hp
          rw [List.append_nil, ← hi]
          by_contra hcon
          exact hnc ⟨by simpa using hcon, rfl⟩
        | cons p pre =>
          obtain ⟨rfl, hp'⟩ := List.cons.inj hp
          have := h2.commas pre post hp'
          simpa using this
      · simpa using h2.ends
      · rw [h3]; simp; omega
      · rw [h5]; simp
    rw [scanLoop, dif_pos hlt]
    simp only [hget]
    by_cases hcm : s.inString = false ∧ b = comma
    · rw [if_pos (by simp [hcm.1, hcm.2])]
      refine ⟨[], b :: rest, rfl, ⟨by simp, by simp, Or.inr (Or.inr ⟨by simp [hcm.2], ?_⟩)⟩, by simp [hc], rfl,
        by simpa using hi, ?_⟩
      · rw [List.append_nil, ← hi, hcm.1]
      · rw [if_neg (by simp [hcm.2, comma, newline])]; rfl
    · rw [if_neg (by simpa [Bool.and_eq_true, beq_iff_eq] using hcm)]
      by_cases hnl : b = newline
      · rw [if_pos hnl]
        exact ⟨[], b :: rest, rfl, ⟨by simp, by simp, Or.inr (Or.inl (by simp [hnl]))⟩, by simp [hc], rfl,
          by simpa using hi, by rw [if_pos (by simp [hnl])]⟩
      · rw [if_neg hnl]
        have hq : Spec.quoted (before ++ [b]) = if b = quote then !s.inString else s.inString := by
          rw [quoted_append, ← hi]
          unfold Spec.quoted
          by_cases hb : b = quote
          · simp [hb]
          · rw [List.count_singleton]; simp [hb]
        by_cases hqb : b = quote
        · rw [if_pos hqb]
          exact hcons { s with inString := !s.inString, current := s.current + 1 } rfl rfl rfl
            (by rw [hq, if_pos hqb]) hcm hnl
        · rw [if_neg hqb]
          exact hcons { s with current := s.current + 1 } rfl rfl rfl (by rw [hq, if_neg hqb]) hcm hnl

/-- C35: each call reads exactly one element — from where the last one ended to the next comma out of
quotation marks, newline or end of the text — without its carriage return; skips what ends it; and the line
counter is one more than the newlines read.  The exception is a text that begins with a separator. -/
theorem C35_element (src before rest : List UInt8) (s : Scanner) (hsrc : src = before ++ rest)
    (hs : Spec.HasRead before s) (hrest : rest ≠ []) :
    ∃ raw after, rest = raw ++ after ∧ Spec.Element before raw after ∧
      (before ++ raw = [] → scanElement src s = .panic) ∧
      (before ++ raw ≠ [] →
        ∃ s', scanElement src s = .ok (some (Spec.withoutCarriage raw), s') ∧
        (∀ b post, after = b :: post → Spec.HasRead (before ++ raw ++ [b]) s') ∧
        (after = [] → isFinished src s' = true)) := by
  obtain ⟨raw, after, h1, h2, h3, h4, h5, h6⟩ := scanLoop_spec src rest.length s before rest rfl hsrc hs.current
    hs.inString
  refine ⟨raw, after, h1, h2, ?_, ?_⟩
  · intro he
    obtain ⟨rfl, rfl⟩ := List.append_eq_nil_iff.1 he
    unfold scanElement
    rw [if_neg (by
      simp only [isFinished, hs.current, hsrc]
      cases rest with
      | nil => exact absurd rfl hrest
      | cons => simp)]
    simp only [h3, List.length_nil, Nat.add_zero, if_true]
  · intro hne
    have hcr : before = [] ∨ before.getLast? ≠ some carriage := by
      rcases hs.separator with h | h | h
      · exact Or.inl h
      · right; rw [h]; decide
      · right; rw [h]; decide
    have hnf : ¬ isFinished src s = true := by
      simp only [isFinished, hs.current, hsrc]
      cases rest with
      | nil => exact absurd rfl hrest
      | cons => simp
    have hlen : src = (before ++ raw) ++ after := by rw [hsrc, h1]; simp
    have hpos : before.length + raw.length ≠ 0 := by
      intro h
      apply hne
      exact List.length_eq_zero_iff.1 (by simpa using h)
    unfold scanElement
    rw [if_neg hnf]
    simp only [h3, if_neg hpos, h4, hs.start]
    -- the character before the end
    have hlast : src[before.length + raw.length - 1]? = (before ++ raw).getLast? := by
      rw [hlen, List.getElem?_append_left (by simp; omega), List.getLast?_eq_getElem?]
      simp
    have hslice : ∀ k, k ≤ raw.length → (src.drop before.length).take (before.length + k - before.length) = raw.take k := by
      intro k hk
      rw [hlen, List.append_assoc, List.drop_left', List.take_append_of_le_length (by omega)]
      · congr 1; omega
      · rfl
    have hcr' : (src[before.length + raw.length - 1]? = some carriage) ↔ raw.getLast? = some carriage := by
      rw [hlast]
      cases hraw : raw with
      | nil =>
        subst hraw
        simp only [List.append_nil, List.getLast?_nil]
        constructor
        · intro h
          rcases hcr with h' | h'
          · rw [h'] at h; simp at h
          · exact absurd h h'
        · intro h; cases h
      | cons c cs => rw [List.getLast?_append_of_ne_nil _ (by simp)]
    refine ⟨_, by
      rw [Outcome.ok.injEq, Prod.mk.injEq]
      refine ⟨?_, rfl⟩
      unfold Spec.withoutCarriage
      by_cases hc : raw.getLast? = some carriage
      · have hr0 : 0 < raw.length := by
          cases raw with
          | nil => cases hc
          | cons => simp
        rw [if_pos (hcr'.2 hc), if_pos hc, if_pos ⟨by omega, by rw [hlen]; simp; omega⟩,
          show before.length + raw.length - 1 = before.length + (raw.length - 1) by omega, hslice _ (by omega),
          List.dropLast_eq_take]
      · rw [if_neg (fun h => hc (hcr'.1 h)), if_neg hc, if_pos ⟨by omega, by rw [hlen]; simp⟩, hslice _ (le_refl _),
          List.take_length], ?_, ?_⟩
    · intro b post hb
      have hsep : b = newline ∨ b = comma := by
        have := h2.ends
        rw [hb] at this
        simp only [List.cons_ne_nil, List.head?_cons, Option.some.injEq, false_or] at this
        rcases this with h | h
        · exact Or.inl h
        · exact Or.inr h.1
      have hbq : b ≠ quote := by
        rcases hsep with rfl | rfl <;> decide
      · refine ⟨?_, by simp; omega, by simp; omega, ?_, ?_⟩
        · rcases hsep with rfl | rfl
          · right; right; simp
          · right; left; simp
        · simp only [h6, hs.line, hb, List.head?_cons, Option.some.injEq, List.count_append]
          have : raw.count newline = 0 := List.count_eq_zero.2 h2.oneLine
          rw [this, List.count_singleton]
          by_cases hbn : b = newline <;> simp [hbn] <;> omega
        · simp only [h5]
          rw [quoted_append (before ++ raw) [b]]
          have : Spec.quoted [b] = false := by
            unfold Spec.quoted
            rw [List.count_singleton]
            simp [hbq]
          rw [this, Bool.xor_false]
    · intro ha
      subst ha
      simp only [isFinished, hlen]
      simp

/-! ## Lines -/

namespace Spec

/-- The text of a field: nothing in it separates elements.  Its quotation marks come in pairs, and its commas, if
it has any, are between the two of a pair: an odd number of marks is before them. -/
def Clean (f : List UInt8) : Prop :=
  newline ∉ f ∧ carriage ∉ f ∧ f.count quote % 2 = 0 ∧
    ∀ i < f.length, f[i]? = some comma → (f.take i).count quote % 2 = 1

/-- Fields with commas between them, and the end of the line. -/
def rowText : List (List UInt8) → List UInt8 → List UInt8
  | [], eol => eol
  | [f], eol => f ++ eol
  | f :: fs, eol => f ++ comma :: rowText fs eol

/-- The end of a line, and what follows it. -/
inductive LineEnd : List UInt8 → List UInt8 → Prop
  | newline {rest} : LineEnd (newline :: rest) rest
  | crlf {rest} : LineEnd (carriage :: newline :: rest) rest
  | eof : LineEnd [] []

/-- Those are the lines of the text, with their fields. -/
inductive Lines : List (List (List UInt8)) → List UInt8 → Prop
  | nil : Lines [] []
  | cons {row rows tail rest} : LineEnd tail rest → Lines rows rest → Lines (row :: rows) (rowText row tail)

/-- The record of a line that has the numbers `v 0`, `v 1`…, and a string in place of `v 5`. The wind direction
is not the one in the line: see `C35_violated_wind_direction`. -/
def line (v : ℕ → ℚ) : Line where
  year := ⌊v 0⌋.toNat
  month := min 255 ⌊v 1⌋.toNat
  day := min 255 ⌊v 2⌋.toNat
  hour := v 3
  minute := min 255 ⌊v 4⌋.toNat
  uncertaintyFlags := true
  dryBulb := v 6
  dewPoint := v 7
  relativeHumidity := v 8
  pressure := v 9
  extraterrestrialHorizontal := v 10
  extraterrestrialDirectNormal := v 11
  infrared := v 12
  globalHorizontal := v 13
  directNormal := v 14
  diffuseHorizontal := v 15
  globalHorizontalIlluminance := v 16
  directNormalIlluminance := v 17
  diffuseHorizontalIlluminance := v 18
  zenithLuminance := v 19
  windDirection := max (v 20) 360
  windSpeed := v 21
  totalSkyCover := v 22
  opaqueSkyCover := v 23
  visibility := v 24
  ceilingHeight := v 25
  presentWeatherObservation := v 26
  presentWeatherCodes := v 27
  precipitableWater := v 28
  aerosolOpticalDepth := v 29
  snowDepth := v 30
  lastDaySinceLastSnowfall := ⌊v 31⌋.toNat
  albedo := v 32
  liquidPrecipitationDepth := v 33
  liquidPrecipitationQuantity := v 34

/-- The bytes that are left to a scanner that is at the beginning of an element. -/
structure Left (src : List UInt8) (s : Scanner) (rest : List UInt8) : Prop where
  start : s.start = s.current
  inString : s.inString = false
  rest : src.drop s.current = rest
  before : src[s.current - 1]? ≠ some carriage ∨ s.current = 0

end Spec

/-- What may follow a field: a comma or the end of a line. -/
inductive Tail : List UInt8 → List UInt8 → Prop
  | comma {rest} : Tail (comma :: rest) rest
  | line {tail rest} : Spec.LineEnd tail rest → Tail tail rest

private theorem scanLoop_clean (src : List UInt8) : ∀ (f : List UInt8) (s : Scanner) (tail : List UInt8),
    newline ∉ f → (f.count quote + s.inString.toNat) % 2 = 0 →
    (∀ i < f.length, f[i]? = some comma → ((f.take i).count quote + s.inString.toNat) % 2 = 1) →
    src.drop s.current = f ++ tail →
    (tail = [] ∨ tail.head? = some comma ∨ tail.head? = some newline) →
    (scanLoop src s).current = s.current + f.length ∧ (scanLoop src s).start = s.start ∧
    (scanLoop src s).inString = false := by
  intro f
  induction f with
  | nil =>
    intro s tail _ hq _ hd ht
    have hi : s.inString = false := by
      cases h : s.inString
      · rfl
      · rw [h] at hq; simp at hq
    rw [List.nil_append] at hd
    rw [scanLoop]
    by_cases hlt : s.current < src.length
    · rw [dif_pos hlt]
      have hg : src.drop s.current = src[s.current] :: src.drop (s.current + 1) := List.drop_eq_getElem_cons hlt
      rw [hg] at hd
      rcases ht with rfl | ht | ht
      · cases hd
      · rw [← hd] at ht
        simp only [List.head?_cons, Option.some.injEq] at ht
        simp only [hi, ht]
        simp [hi]
      · rw [← hd] at ht
        simp only [List.head?_cons, Option.some.injEq] at ht
        simp only [hi, ht]
        rw [if_neg (by decide), if_pos trivial]
        exact ⟨rfl, rfl, rfl⟩
    · rw [dif_neg hlt]
      exact ⟨rfl, rfl, hi⟩
  | cons b f ih =>
    intro s tail hn hq hcm hd ht
    have hlt : s.current < src.length := by
      by_contra hc
      rw [List.drop_eq_nil_of_le (by omega)] at hd
      cases hd
    have hg : src.drop s.current = src[s.current] :: src.drop (s.current + 1) := List.drop_eq_getElem_cons hlt
    rw [hg, List.cons_append] at hd
    obtain ⟨hb, hd'⟩ := List.cons.inj hd
    simp only [List.mem_cons, not_or] at hn
    have hc0 : ¬ (!s.inString && b == comma) = true := by
      intro h
      rw [Bool.and_eq_true, Bool.not_eq_true', beq_iff_eq] at h
      have := hcm 0 (by simp) (by simp [h.2])
      rw [h.1] at this
      simp at this
    have hcm' : ∀ i < f.length, f[i]? = some comma → ((b :: f.take i).count quote + s.inString.toNat) % 2 = 1 := by
      intro i hi h
      have := hcm (i + 1) (by simp; omega) (by simpa using h)
      simpa using this
    rw [scanLoop, dif_pos hlt]
    simp only [hb]
    rw [if_neg hc0, if_neg (Ne.symm hn.1)]
    by_cases hbq : b = quote
    · rw [if_pos hbq]
      obtain ⟨a1, a2, a3⟩ := ih { s with inString := !s.inString, current := s.current + 1 } tail hn.2
        (by rw [hbq, List.count_cons_self] at hq; cases h : s.inString <;> rw [h] at hq <;> simp at hq ⊢ <;> omega)
        (by
          intro i hi h
          have := hcm' i hi h
          rw [hbq, List.count_cons_self] at this
          cases h : s.inString <;> rw [h] at this <;> simp at this ⊢ <;> omega) hd' ht
      exact ⟨by rw [a1]; simp; omega, a2, a3⟩
    · rw [if_neg hbq]
      obtain ⟨a1, a2, a3⟩ := ih { s with current := s.current + 1 } tail hn.2
        (by rwa [List.count_cons_of_ne hbq] at hq)
        (by
          intro i hi h
          have := hcm' i hi h
          rwa [List.count_cons_of_ne hbq] at this) hd' ht
      exact ⟨by rw [a1]; simp; omega, a2, a3⟩

/-- Reading a field. -/
private theorem scan_ok {src : List UInt8} {s : Scanner} {f tail rest : List UInt8}
    (h : Spec.Left src s (f ++ tail)) (hc : Spec.Clean f) (ht : Tail tail rest) (hne : f ++ tail ≠ [])
    (h0 : 0 < s.current ∨ f ≠ []) :
    ∃ s', scanElement src s = .ok (some f, s') ∧ Spec.Left src s' rest ∧ 0 < s'.current := by
  obtain ⟨c2, c3, c4, c1⟩ := hc
  have hfin : ¬ isFinished src s = true := by
    simp only [isFinished, decide_eq_true_eq, not_le]
    by_contra hcon
    have := h.rest
    rw [List.drop_eq_nil_of_le (by omega)] at this
    exact hne this.symm
  -- the raw element
  obtain ⟨raw, tl, hraw, hrc, htl, hstrip, hrest⟩ : ∃ raw tl, f ++ tail = raw ++ tl ∧
      (newline ∉ raw ∧ raw.count quote % 2 = 0 ∧
        ∀ i < raw.length, raw[i]? = some comma → (raw.take i).count quote % 2 = 1) ∧
      (tl = [] ∨ tl.head? = some comma ∨ tl.head? = some newline) ∧
      (raw = f ∨ raw = f ++ [carriage]) ∧ tl.drop 1 = rest := by
    cases ht with
    | comma => exact ⟨f, _, rfl, ⟨c2, c4, c1⟩, Or.inr (Or.inl rfl), Or.inl rfl, rfl⟩
    | line ht =>
    cases ht with
    | newline => exact ⟨f, _, rfl, ⟨c2, c4, c1⟩, Or.inr (Or.inr rfl), Or.inl rfl, rfl⟩
    | crlf =>
      refine ⟨f ++ [carriage], newline :: rest, by simp, ⟨?_, ?_, ?_⟩, Or.inr (Or.inr rfl), Or.inr rfl, rfl⟩
      · rw [List.mem_append]
        simp only [List.mem_singleton, not_or]
        exact ⟨c2, by decide⟩
      · rw [List.count_append, show List.count quote [carriage] = 0 by decide]
        exact c4
      · intro i hi hx
        by_cases hif : i < f.length
        · rw [List.getElem?_append_left hif] at hx
          rw [List.take_append_of_le_length (by omega)]
          exact c1 i hif hx
        · rw [List.getElem?_append_right (by omega), show i - f.length = 0 by simp at hi; omega] at hx
          cases hx
    | eof => exact ⟨f, [], rfl, ⟨c2, c4, c1⟩, Or.inl rfl, Or.inl rfl, rfl⟩
  have hd : src.drop s.current = raw ++ tl := by rw [h.rest, hraw]
  obtain ⟨a1, a2, a3⟩ := scanLoop_clean src raw s tl hrc.1 (by rw [h.inString]; exact hrc.2.1)
    (by rw [h.inString]; exact hrc.2.2) hd htl
  have hcur : s.current ≤ src.length := by
    simp only [isFinished, decide_eq_true_eq, not_le] at hfin; omega
  have hlen : src.length = s.current + raw.length + tl.length := by
    have := congrArg List.length hd
    simp only [List.length_drop, List.length_append] at this
    omega
  have hpos : s.current + raw.length ≠ 0 := by
    rcases h0 with h0 | h0
    · omega
    · have : 0 < f.length := List.length_pos_of_ne_nil h0
      rcases hstrip with rfl | rfl
      · omega
      · simp
  unfold scanElement
  rw [if_neg hfin]
  simp only [a1, if_neg hpos, a2, h.start]
  have hget : ∀ i, i < raw.length → src[s.current + i]? = raw[i]? := by
    intro i hi
    rw [← List.getElem?_drop, hd, List.getElem?_append_left hi]
  refine ⟨⟨s.current + raw.length + 1, s.current + raw.length + 1, (scanLoop src s).line,
    (scanLoop src s).inString⟩, by
    rw [Outcome.ok.injEq, Prod.mk.injEq]
    refine ⟨?_, rfl⟩
    rcases hstrip with rfl | rfl
    · have hncr : ¬ src[s.current + raw.length - 1]? = some carriage := by
        intro hx
        by_cases hr : raw.length = 0
        · -- the character before an empty element
          rw [hr, Nat.add_zero] at hx
          rcases h.before with h1 | h1
          · exact h1 hx
          · omega
        · rw [show s.current + raw.length - 1 = s.current + (raw.length - 1) by omega, hget _ (by omega)] at hx
          exact c3 (List.mem_of_getElem? hx)
      rw [if_neg hncr, if_pos ⟨by omega, by omega⟩, hd, Nat.add_sub_cancel_left, List.take_left']
      rfl
    · have hcr : src[s.current + (f ++ [carriage]).length - 1]? = some carriage := by
        rw [show s.current + (f ++ [carriage]).length - 1 = s.current + f.length by simp, hget _ (by simp)]
        simp
      rw [if_pos hcr, if_pos ⟨by simp, by simp at hlen ⊢; omega⟩, hd,
        show s.current + (f ++ [carriage]).length - 1 - s.current = f.length by simp, List.append_assoc,
        List.take_left']
      rfl, ⟨rfl, a3, ?_, ?_⟩, by simp⟩
  · simp only
    rw [← hrest, ← List.drop_drop, ← List.drop_drop, hd, List.drop_left']
    rfl
  · left
    simp only [Nat.add_sub_cancel]
    rw [Nat.add_comm, Nat.add_comm, ← List.getElem?_drop, hd, List.getElem?_append_right (le_refl _), Nat.sub_self,
      ← List.head?_eq_getElem?]
    rcases htl with rfl | ht | ht
    · simp
    · rw [ht]; decide
    · rw [ht]; decide

private theorem bind_run {α β : Type} {p : Parser α} {f : α → Parser β} {s s' : Scanner} {a : α}
    (h : p s = .ok (a, s')) : (p >>= f) s = f a s' := by
  change Outcome.bind (p s) _ = _
  rw [h]
  rfl

private theorem number_ok {t : Text} {src : List UInt8} {s : Scanner} {f tail rest : List UInt8} {x : ℚ}
    (h : Spec.Left src s (f ++ tail)) (hc : Spec.Clean f) (ht : Tail tail rest) (hne : f ++ tail ≠ [])
    (h0 : 0 < s.current ∨ f ≠ []) (hu : t.utf8 f = true) (hx : t.parse f = some x) :
    ∃ s', number t src s = .ok (x, s') ∧ Spec.Left src s' rest ∧ 0 < s'.current := by
  obtain ⟨s', e, l, p⟩ := scan_ok h hc ht hne h0
  refine ⟨s', ?_, l, p⟩
  unfold number
  rw [e]
  simp only [Outcome.bind, scanNumber, scanString, hu, if_true, hx]

private theorem string_ok {t : Text} {src : List UInt8} {s : Scanner} {f tail rest : List UInt8}
    (h : Spec.Left src s (f ++ tail)) (hc : Spec.Clean f) (ht : Tail tail rest) (hne : f ++ tail ≠ [])
    (h0 : 0 < s.current ∨ f ≠ []) (hu : t.utf8 f = true) :
    ∃ s', string t src s = .ok (f, s') ∧ Spec.Left src s' rest ∧ 0 < s'.current := by
  obtain ⟨s', e, l, p⟩ := scan_ok h hc ht hne h0
  refine ⟨s', ?_, l, p⟩
  unfold string
  rw [e]
  simp only [Outcome.bind, scanString, hu, if_true]

private theorem skip_ok {src : List UInt8} {s : Scanner} {f tail rest : List UInt8}
    (h : Spec.Left src s (f ++ tail)) (hc : Spec.Clean f) (ht : Tail tail rest) (hne : f ++ tail ≠ [])
    (h0 : 0 < s.current ∨ f ≠ []) :
    ∃ s', skip src s = .ok (true, s') ∧ Spec.Left src s' rest ∧ 0 < s'.current := by
  obtain ⟨s', e, l, p⟩ := scan_ok h hc ht hne h0
  refine ⟨s', ?_, l, p⟩
  unfold skip
  rw [e]
  rfl

/-- What is left at field `i` of a row. -/
private def leftAt (row : List (List UInt8)) (tail rest : List UInt8) (i : ℕ) : List UInt8 :=
  if i < row.length then Spec.rowText (row.drop i) tail else rest

private theorem rowText_at {row : List (List UInt8)} {tail rest : List UInt8} {i : ℕ} (hi : i < row.length)
    (hend : Spec.LineEnd tail rest) :
    ∃ tl, leftAt row tail rest i = row[i] ++ tl ∧ Tail tl (leftAt row tail rest (i + 1)) ∧
      (i + 1 < row.length → tl ≠ []) := by
  unfold leftAt
  rw [if_pos hi, List.drop_eq_getElem_cons hi]
  by_cases h1 : i + 1 < row.length
  · rw [if_pos h1, List.drop_eq_getElem_cons h1]
    exact ⟨_, rfl, Tail.comma, fun _ => by simp⟩
  · rw [if_neg h1, List.drop_eq_nil_of_le (by omega)]
    exact ⟨_, rfl, Tail.line hend, fun h => absurd h h1⟩

section Steps

variable {t : Text} {src : List UInt8} {row : List (List UInt8)} {tail rest : List UInt8} {s : Scanner}

private theorem number_at {l : List UInt8} (h : Spec.Left src s l) (p : 0 < s.current) (i : ℕ)
    (hl : l = leftAt row tail rest i) (hi : i < row.length) (hc : ∀ f ∈ row, Spec.Clean f)
    (hend : Spec.LineEnd tail rest) (hne : row[i] ≠ [] ∨ i + 1 < row.length) {x : ℚ}
    (hu : t.utf8 row[i] = true) (hx : t.parse row[i] = some x) :
    ∃ s', number t src s = .ok (x, s') ∧ Spec.Left src s' (leftAt row tail rest (i + 1)) ∧ 0 < s'.current := by
  obtain ⟨tl, e, ht, hn⟩ := rowText_at hi hend
  rw [hl, e] at h
  refine number_ok h (hc _ (List.getElem_mem hi)) ht ?_ (Or.inl p) hu hx
  intro hcon
  obtain ⟨h1, h2⟩ := List.append_eq_nil_iff.1 hcon
  rcases hne with hne | hne
  · exact hne h1
  · exact hn hne h2

private theorem string_at {l : List UInt8} (h : Spec.Left src s l) (p : 0 < s.current) (i : ℕ)
    (hl : l = leftAt row tail rest i) (hi : i < row.length) (hc : ∀ f ∈ row, Spec.Clean f)
    (hend : Spec.LineEnd tail rest) (hne : row[i] ≠ [] ∨ i + 1 < row.length)
    (hu : t.utf8 row[i] = true) :
    ∃ s', string t src s = .ok (row[i], s') ∧ Spec.Left src s' (leftAt row tail rest (i + 1)) ∧ 0 < s'.current := by
  obtain ⟨tl, e, ht, hn⟩ := rowText_at hi hend
  rw [hl, e] at h
  refine string_ok h (hc _ (List.getElem_mem hi)) ht ?_ (Or.inl p) hu
  intro hcon
  obtain ⟨h1, h2⟩ := List.append_eq_nil_iff.1 hcon
  rcases hne with hne | hne
  · exact hne h1
  · exact hn hne h2

private theorem skip_at {l : List UInt8} (h : Spec.Left src s l) (p : 0 < s.current) (i : ℕ)
    (hl : l = leftAt row tail rest i) (hi : i < row.length) (hc : ∀ f ∈ row, Spec.Clean f)
    (hend : Spec.LineEnd tail rest) (hne : row[i] ≠ [] ∨ i + 1 < row.length) :
    ∃ s', skip src s = .ok (true, s') ∧ Spec.Left src s' (leftAt row tail rest (i + 1)) ∧ 0 < s'.current := by
  obtain ⟨tl, e, ht, hn⟩ := rowText_at hi hend
  rw [hl, e] at h
  refine skip_ok h (hc _ (List.getElem_mem hi)) ht ?_ (Or.inl p)
  intro hcon
  obtain ⟨h1, h2⟩ := List.append_eq_nil_iff.1 hcon
  rcases hne with hne | hne
  · exact hne h1
  · exact hn hne h2

end Steps

namespace Spec

/-- A row of a data period: 35 fields that are texts and, but for the sixth, numbers; those are `v`. -/
structure DataRow (t : Text) (row : List (List UInt8)) (v : ℕ → ℚ) : Prop where
  length : row.length = 35
  clean : ∀ f ∈ row, Clean f
  utf8 : ∀ f ∈ row, t.utf8 f = true
  number : ∀ (i : ℕ) (h : i < row.length), i ≠ 5 → t.parse row[i] = some (v i)
  last : ∀ h : 34 < row.length, row[34] ≠ []

end Spec

set_option maxHeartbeats 2000000 in
private theorem parseLine_ok {t : Text} {src : List UInt8} {row : List (List UInt8)} {tail rest : List UInt8}
    {s : Scanner} {v : ℕ → ℚ} (hr : Spec.DataRow t row v) (hend : Spec.LineEnd tail rest)
    (h0 : Spec.Left src s (Spec.rowText row tail)) (p0 : 0 < s.current) :
    ∃ s', parseLine t src s = .ok (Spec.line v, s') ∧ Spec.Left src s' rest ∧ 0 < s'.current := by
  obtain ⟨hlen, hc, hu, hv, hlast⟩ := hr
  have hne : ∀ (i : ℕ) (h : i < row.length), row[i] ≠ [] ∨ i + 1 < row.length := by
    intro i h
    by_cases h34 : i = 34
    · subst h34; exact Or.inl (hlast h)
    · right; omega
  have e0 : Spec.rowText row tail = leftAt row tail rest 0 := by
    unfold leftAt; rw [if_pos (by omega), List.drop_zero]
  rw [e0] at h0
  obtain ⟨s1, e0, h1, p1⟩ := number_at (row := row) h0 p0 0 rfl (by omega) hc hend (hne 0 (by omega))
    (hu _ (List.getElem_mem (by omega))) (hv 0 (by omega) (by omega))
  obtain ⟨s2, e1, h2, p2⟩ := number_at (row := row) h1 p1 1 rfl (by omega) hc hend (hne 1 (by omega))
    (hu _ (List.getElem_mem (by omega))) (hv 1 (by omega) (by omega))
  obtain ⟨s3, e2, h3, p3⟩ := number_at (row := row) h2 p2 2 rfl (by omega) hc hend (hne 2 (by omega))
    (hu _ (List.getElem_mem (by omega))) (hv 2 (by omega) (by omega))
  obtain ⟨s4, e3, h4, p4⟩ := number_at (row := row) h3 p3 3 rfl (by omega) hc hend (hne 3 (by omega))
    (hu _ (List.getElem_mem (by omega))) (hv 3 (by omega) (by omega))
  obtain ⟨s5, e4, h5, p5⟩ := number_at (row := row) h4 p4 4 rfl (by omega) hc hend (hne 4 (by omega))
    (hu _ (List.getElem_mem (by omega))) (hv 4 (by omega) (by omega))
  obtain ⟨s6, e5, h6, p6⟩ := skip_at (row := row) h5 p5 5 rfl (by omega) hc hend (hne 5 (by omega))
  obtain ⟨s7, e6, h7, p7⟩ := number_at (row := row) h6 p6 6 rfl (by omega) hc hend (hne 6 (by omega))
    (hu _ (List.getElem_mem (by omega))) (hv 6 (by omega) (by omega))
  obtain ⟨s8, e7, h8, p8⟩ := number_at (row := row) h7 p7 7 rfl (by omega) hc hend (hne 7 (by omega))
    (hu _ (List.getElem_mem (by omega))) (hv 7 (by omega) (by omega))
  obtain ⟨s9, e8, h9, p9⟩ := number_at (row := row) h8 p8 8 rfl (by omega) hc hend (hne 8 (by omega))
    (hu _ (List.getElem_mem (by omega))) (hv 8 (by omega) (by omega))
  obtain ⟨s10, e9, h10, p10⟩ := number_at (row := row) h9 p9 9 rfl (by omega) hc hend (hne 9 (by omega))
    (hu _ (List.getElem_mem (by omega))) (hv 9 (by omega) (by omega))
  obtain ⟨s11, e10, h11, p11⟩ := number_at (row := row) h10 p10 10 rfl (by omega) hc hend (hne 10 (by omega))
    (hu _ (List.getElem_mem (by omega))) (hv 10 (by omega) (by omega))
  obtain ⟨s12, e11, h12, p12⟩ := number_at (row := row) h11 p11 11 rfl (by omega) hc hend (hne 11 (by omega))
    (hu _ (List.getElem_mem (by omega))) (hv 11 (by omega) (by omega))
  obtain ⟨s13, e12, h13, p13⟩ := number_at (row := row) h12 p12 12 rfl (by omega) hc hend (hne 12 (by omega))
    (hu _ (List.getElem_mem (by omega))) (hv 12 (by omega) (by omega))
  obtain ⟨s14, e13, h14, p14⟩ := number_at (row := row) h13 p13 13 rfl (by omega) hc hend (hne 13 (by omega))
    (hu _ (List.getElem_mem (by omega))) (hv 13 (by omega) (by omega))
  obtain ⟨s15, e14, h15, p15⟩ := number_at (row := row) h14 p14 14 rfl (by omega) hc hend (hne 14 (by omega))
    (hu _ (List.getElem_mem (by omega))) (hv 14 (by omega) (by omega))
  obtain ⟨s16, e15, h16, p16⟩ := number_at (row := row) h15 p15 15 rfl (by omega) hc hend (hne 15 (by omega))
    (hu _ (List.getElem_mem (by omega))) (hv 15 (by omega) (by omega))
  obtain ⟨s17, e16, h17, p17⟩ := number_at (row := row) h16 p16 16 rfl (by omega) hc hend (hne 16 (by omega))
    (hu _ (List.getElem_mem (by omega))) (hv 16 (by omega) (by omega))
  obtain ⟨s18, e17, h18, p18⟩ := number_at (row := row) h17 p17 17 rfl (by omega) hc hend (hne 17 (by omega))
    (hu _ (List.getElem_mem (by omega))) (hv 17 (by omega) (by omega))
  obtain ⟨s19, e18, h19, p19⟩ := number_at (row := row) h18 p18 18 rfl (by omega) hc hend (hne 18 (by omega))
    (hu _ (List.getElem_mem (by omega))) (hv 18 (by omega) (by omega))
  obtain ⟨s20, e19, h20, p20⟩ := number_at (row := row) h19 p19 19 rfl (by omega) hc hend (hne 19 (by omega))
    (hu _ (List.getElem_mem (by omega))) (hv 19 (by omega) (by omega))
  obtain ⟨s21, e20, h21, p21⟩ := number_at (row := row) h20 p20 20 rfl (by omega) hc hend (hne 20 (by omega))
    (hu _ (List.getElem_mem (by omega))) (hv 20 (by omega) (by omega))
  obtain ⟨s22, e21, h22, p22⟩ := number_at (row := row) h21 p21 21 rfl (by omega) hc hend (hne 21 (by omega))
    (hu _ (List.getElem_mem (by omega))) (hv 21 (by omega) (by omega))
  obtain ⟨s23, e22, h23, p23⟩ := number_at (row := row) h22 p22 22 rfl (by omega) hc hend (hne 22 (by omega))
    (hu _ (List.getElem_mem (by omega))) (hv 22 (by omega) (by omega))
  obtain ⟨s24, e23, h24, p24⟩ := number_at (row := row) h23 p23 23 rfl (by omega) hc hend (hne 23 (by omega))
    (hu _ (List.getElem_mem (by omega))) (hv 23 (by omega) (by omega))
  obtain ⟨s25, e24, h25, p25⟩ := number_at (row := row) h24 p24 24 rfl (by omega) hc hend (hne 24 (by omega))
    (hu _ (List.getElem_mem (by omega))) (hv 24 (by omega) (by omega))
  obtain ⟨s26, e25, h26, p26⟩ := number_at (row := row) h25 p25 25 rfl (by omega) hc hend (hne 25 (by omega))
    (hu _ (List.getElem_mem (by omega))) (hv 25 (by omega) (by omega))
  obtain ⟨s27, e26, h27, p27⟩ := number_at (row := row) h26 p26 26 rfl (by omega) hc hend (hne 26 (by omega))
    (hu _ (List.getElem_mem (by omega))) (hv 26 (by omega) (by omega))
  obtain ⟨s28, e27, h28, p28⟩ := number_at (row := row) h27 p27 27 rfl (by omega) hc hend (hne 27 (by omega))
    (hu _ (List.getElem_mem (by omega))) (hv 27 (by omega) (by omega))
  obtain ⟨s29, e28, h29, p29⟩ := number_at (row := row) h28 p28 28 rfl (by omega) hc hend (hne 28 (by omega))
    (hu _ (List.getElem_mem (by omega))) (hv 28 (by omega) (by omega))
  obtain ⟨s30, e29, h30, p30⟩ := number_at (row := row) h29 p29 29 rfl (by omega) hc hend (hne 29 (by omega))
    (hu _ (List.getElem_mem (by omega))) (hv 29 (by omega) (by omega))
  obtain ⟨s31, e30, h31, p31⟩ := number_at (row := row) h30 p30 30 rfl (by omega) hc hend (hne 30 (by omega))
    (hu _ (List.getElem_mem (by omega))) (hv 30 (by omega) (by omega))
  obtain ⟨s32, e31, h32, p32⟩ := number_at (row := row) h31 p31 31 rfl (by omega) hc hend (hne 31 (by omega))
    (hu _ (List.getElem_mem (by omega))) (hv 31 (by omega) (by omega))
  obtain ⟨s33, e32, h33, p33⟩ := number_at (row := row) h32 p32 32 rfl (by omega) hc hend (hne 32 (by omega))
    (hu _ (List.getElem_mem (by omega))) (hv 32 (by omega) (by omega))
  obtain ⟨s34, e33, h34, p34⟩ := number_at (row := row) h33 p33 33 rfl (by omega) hc hend (hne 33 (by omega))
    (hu _ (List.getElem_mem (by omega))) (hv 33 (by omega) (by omega))
  obtain ⟨s35, e34, h35, p35⟩ := number_at (row := row) h34 p34 34 rfl (by omega) hc hend (hne 34 (by omega))
    (hu _ (List.getElem_mem (by omega))) (hv 34 (by omega) (by omega))
  refine ⟨s35, ?_, ?_, p35⟩
  · unfold parseLine
    rw [bind_run e0,
    bind_run e1,
    bind_run e2,
    bind_run e3,
    bind_run e4,
    bind_run e5,
    bind_run e6,
    bind_run e7,
    bind_run e8,
    bind_run e9,
    bind_run e10,
    bind_run e11,
    bind_run e12,
    bind_run e13,
    bind_run e14,
    bind_run e15,
    bind_run e16,
    bind_run e17,
    bind_run e18,
    bind_run e19,
    bind_run e20,
    bind_run e21,
    bind_run e22,
    bind_run e23,
    bind_run e24,
    bind_run e25,
    bind_run e26,
    bind_run e27,
    bind_run e28,
    bind_run e29,
    bind_run e30,
    bind_run e31,
    bind_run e32,
    bind_run e33,
    bind_run e34]
    rfl
  · have : leftAt row tail rest (34 + 1) = rest := by unfold leftAt; rw [if_neg (by omega)]
    rwa [this] at h35

private theorem left_finished {src : List UInt8} {s : Scanner} {rest : List UInt8} (h : Spec.Left src s rest) :
    isFinished src s = true ↔ rest = [] := by
  rw [← h.rest, List.drop_eq_nil_iff]
  simp [isFinished]

private theorem rowText_ne_nil {row : List (List UInt8)} {tail : List UInt8} (h : 1 < row.length) :
    Spec.rowText row tail ≠ [] := by
  match row, h with
  | a :: b :: l, _ => simp [Spec.rowText]

private theorem rowText_length {row : List (List UInt8)} {tail rest : List UInt8} (hend : Spec.LineEnd tail rest)
    (h : 1 < row.length) : rest.length < (Spec.rowText row tail).length := by
  have key : ∀ row : List (List UInt8), tail.length ≤ (Spec.rowText row tail).length := by
    intro row
    induction row with
    | nil => simp [Spec.rowText]
    | cons a l ih =>
      cases l with
      | nil => simp [Spec.rowText]
      | cons b l => simp only [Spec.rowText, List.length_append, List.length_cons]; omega
  have h1 : rest.length ≤ tail.length := by cases hend <;> simp <;> omega
  match row, h with
  | a :: b :: l, _ =>
    have := key (b :: l)
    simp only [Spec.rowText, List.length_append, List.length_cons]
    omega

private theorem parseLines_ok {t : Text} {src : List UInt8} {rows : List (List (List UInt8))} {text : List UInt8}
    (hl : Spec.Lines rows text) : ∀ {s : Scanner} {vs : List (ℕ → ℚ)} {data : List Line} {fuel : ℕ},
    List.Forall₂ (Spec.DataRow t) rows vs → Spec.Left src s text → 0 < s.current → text.length < fuel →
    ∃ s', parseLines t src fuel data s = .ok (data ++ vs.map Spec.line, s') ∧ isFinished src s' = true := by
  induction hl with
  | nil =>
    intro s vs data fuel hr h p hf
    cases hr
    have hfin := (left_finished h).2 rfl
    obtain ⟨fuel, rfl⟩ : ∃ k, fuel = k + 1 := ⟨fuel - 1, by omega⟩
    refine ⟨s, ?_, hfin⟩
    unfold parseLines
    simp [hfin]
  | @cons row rows tail rest hend hl ih =>
    intro s vs data fuel hr h p hf
    cases hr with
    | cons hd hr =>
      rename_i v vs
      obtain ⟨fuel, rfl⟩ : ∃ k, fuel = k + 1 := ⟨fuel - 1, by omega⟩
      have hlen : 1 < row.length := by rw [hd.length]; omega
      have hfin : ¬ isFinished src s = true := by
        rw [left_finished h]; exact rowText_ne_nil hlen
      obtain ⟨s1, e1, l1, p1⟩ := parseLine_ok hd hend h p
      have := rowText_length hend hlen
      obtain ⟨s2, e2, f2⟩ := ih (data := data ++ [Spec.line v]) (fuel := fuel) hr l1 p1 (by omega)
      refine ⟨s2, ?_, f2⟩
      unfold parseLines
      rw [if_neg hfin, bind_run e1, e2]
      simp

/-- C35: from the header of a data period on, every line of the text gives one record, with each field in its
place.  (The wind direction is not that of the file: see `C35_violated_wind_direction`; that is what is missing.) -/
theorem C35_data_period_partial (t : Text) (src : List UInt8) (s : Scanner) (data : List Line)
    (row : List (List UInt8)) (tail rest : List UInt8) (rows : List (List (List UInt8))) (vs : List (ℕ → ℚ))
    (h0 : Spec.Left src s (Spec.rowText row tail)) (p0 : 0 < s.current) (hend : Spec.LineEnd tail rest)
    (hlen : row.length = 6) (hc : ∀ f ∈ row, Spec.Clean f) (hu : ∀ f ∈ row, t.utf8 f = true)
    (hv : ∀ (i : ℕ) (h : i < row.length), i < 2 → t.parse row[i] = some 1)
    (hlast : ∀ h : 5 < row.length, row[5] ≠ [])
    (hl : Spec.Lines rows rest) (hrows : List.Forall₂ (Spec.DataRow t) rows vs) :
    ∃ s', parseDataPeriods t src data s = .ok (data ++ vs.map Spec.line, s') ∧ isFinished src s' = true := by
  have hne : ∀ (i : ℕ) (h : i < row.length), row[i] ≠ [] ∨ i + 1 < row.length := by
    intro i h
    by_cases h5 : i = 5
    · subst h5; exact Or.inl (hlast h)
    · right; omega
  have e : Spec.rowText row tail = leftAt row tail rest 0 := by
    unfold leftAt; rw [if_pos (by omega), List.drop_zero]
  have hlt : (Spec.rowText row tail).length ≤ src.length := by
    rw [← h0.rest]; simp
  have hrl := rowText_length (row := row) hend (by omega)
  rw [e] at h0
  obtain ⟨s1, e0, h1, p1⟩ := number_at (row := row) h0 p0 0 rfl (by omega) hc hend (hne 0 (by omega))
    (hu _ (List.getElem_mem (by omega))) (hv 0 (by omega) (by omega))
  obtain ⟨s2, e1, h2, p2⟩ := number_at (row := row) h1 p1 1 rfl (by omega) hc hend (hne 1 (by omega))
    (hu _ (List.getElem_mem (by omega))) (hv 1 (by omega) (by omega))
  obtain ⟨s3, e2, h3, p3⟩ := string_at (row := row) h2 p2 2 rfl (by omega) hc hend (hne 2 (by omega))
    (hu _ (List.getElem_mem (by omega)))
  obtain ⟨s4, e3, h4, p4⟩ := string_at (row := row) h3 p3 3 rfl (by omega) hc hend (hne 3 (by omega))
    (hu _ (List.getElem_mem (by omega)))
  obtain ⟨s5, e4, h5, p5⟩ := string_at (row := row) h4 p4 4 rfl (by omega) hc hend (hne 4 (by omega))
    (hu _ (List.getElem_mem (by omega)))
  obtain ⟨s6, e5, h6, p6⟩ := string_at (row := row) h5 p5 5 rfl (by omega) hc hend (hne 5 (by omega))
    (hu _ (List.getElem_mem (by omega)))
  have hleft : leftAt row tail rest (5 + 1) = rest := by unfold leftAt; rw [if_neg (by omega)]
  rw [hleft] at h6
  obtain ⟨s7, e7, f7⟩ := parseLines_ok (t := t) (data := data) (fuel := src.length + 1) hl hrows h6 p6 (by omega)
  refine ⟨s7, ?_, f7⟩
  unfold parseDataPeriods
  have one : asUsize 1 = 1 := by unfold asUsize; norm_num
  simp only [one, ne_eq, not_true_eq_false, if_false]
  rw [bind_run e0]
  simp only [one, not_true_eq_false, if_false]
  rw [bind_run e1]
  simp only [one, not_true_eq_false, if_false]
  rw [bind_run e2, bind_run e3, bind_run e4, bind_run e5, e7]

/-- C35: the location is the nine fields after its keyword, in their place. -/
theorem C35_location (t : Text) (src : List UInt8) (s : Scanner) (row : List (List UInt8)) (tail rest : List UInt8)
    (v : ℕ → ℚ) (h0 : Spec.Left src s (Spec.rowText row tail)) (p0 : 0 < s.current) (hend : Spec.LineEnd tail rest)
    (hlen : row.length = 9) (hc : ∀ f ∈ row, Spec.Clean f) (hu : ∀ f ∈ row, t.utf8 f = true)
    (hv : ∀ (i : ℕ) (h : i < row.length), 5 ≤ i → t.parse row[i] = some (v i))
    (hlast : ∀ h : 8 < row.length, row[8] ≠ []) :
    ∃ s', parseLocation t src s = .ok ({
        city := row[0], state := row[1], country := row[2], source := row[3], wmo := row[4],
        latitude := v 5, longitude := v 6, timezone := asI8 (v 7), elevation := v 8 }, s') ∧
      Spec.Left src s' rest ∧ 0 < s'.current := by
  have hne : ∀ (i : ℕ) (h : i < row.length), row[i] ≠ [] ∨ i + 1 < row.length := by
    intro i h
    by_cases h8 : i = 8
    · subst h8; exact Or.inl (hlast h)
    · right; omega
  have e : Spec.rowText row tail = leftAt row tail rest 0 := by
    unfold leftAt; rw [if_pos (by omega), List.drop_zero]
  rw [e] at h0
  obtain ⟨s1, e0, h1, p1⟩ := string_at (row := row) h0 p0 0 rfl (by omega) hc hend (hne 0 (by omega))
    (hu _ (List.getElem_mem (by omega)))
  obtain ⟨s2, e1, h2, p2⟩ := string_at (row := row) h1 p1 1 rfl (by omega) hc hend (hne 1 (by omega))
    (hu _ (List.getElem_mem (by omega)))
  obtain ⟨s3, e2, h3, p3⟩ := string_at (row := row) h2 p2 2 rfl (by omega) hc hend (hne 2 (by omega))
    (hu _ (List.getElem_mem (by omega)))
  obtain ⟨s4, e3, h4, p4⟩ := string_at (row := row) h3 p3 3 rfl (by omega) hc hend (hne 3 (by omega))
    (hu _ (List.getElem_mem (by omega)))
  obtain ⟨s5, e4, h5, p5⟩ := string_at (row := row) h4 p4 4 rfl (by omega) hc hend (hne 4 (by omega))
    (hu _ (List.getElem_mem (by omega)))
  obtain ⟨s6, e5, h6, p6⟩ := number_at (row := row) h5 p5 5 rfl (by omega) hc hend (hne 5 (by omega))
    (hu _ (List.getElem_mem (by omega))) (hv 5 (by omega) (by omega))
  obtain ⟨s7, e6, h7, p7⟩ := number_at (row := row) h6 p6 6 rfl (by omega) hc hend (hne 6 (by omega))
    (hu _ (List.getElem_mem (by omega))) (hv 6 (by omega) (by omega))
  obtain ⟨s8, e7, h8, p8⟩ := number_at (row := row) h7 p7 7 rfl (by omega) hc hend (hne 7 (by omega))
    (hu _ (List.getElem_mem (by omega))) (hv 7 (by omega) (by omega))
  obtain ⟨s9, e8, h9, p9⟩ := number_at (row := row) h8 p8 8 rfl (by omega) hc hend (hne 8 (by omega))
    (hu _ (List.getElem_mem (by omega))) (hv 8 (by omega) (by omega))
  have hleft : leftAt row tail rest (8 + 1) = rest := by unfold leftAt; rw [if_neg (by omega)]
  rw [hleft] at h9
  refine ⟨s9, ?_, h9, p9⟩
  unfold parseLocation
  rw [bind_run e0, bind_run e1, bind_run e2, bind_run e3, bind_run e4, bind_run e5, bind_run e6, bind_run e7,
    bind_run e8]
  rfl

/-! ## Ground temperatures -/

namespace Spec

/-- A field that may be empty, when it has no value. -/
def Optional (t : Text) (f : List UInt8) (x : Option ℚ) : Prop := (f = [] ∧ x = none) ∨ (f ≠ [] ∧ ∃ y, t.parse f = some y ∧ x = some y)

/-- The sixteen fields of the ground temperatures at one depth: the depth, three properties of the soil that may be left empty, and a
temperature for each month. -/
structure GroundFields (t : Text) (f : List (List UInt8)) (g : Ground) : Prop where
  length : f.length = 16
  clean : ∀ x ∈ f, Clean x
  utf8 : ∀ x ∈ f, t.utf8 x = true
  depth : t.parse (f[0]'(by omega)) = some g.depth
  conductivity : Optional t (f[1]'(by omega)) g.conductivity
  density : Optional t (f[2]'(by omega)) g.density
  specificHeat : Optional t (f[3]'(by omega)) g.specificHeat
  months : g.temperatures.length = 12
  temperatures : ∀ (i : ℕ) (h : i < g.temperatures.length), t.parse (f[4 + i]'(by omega)) = some g.temperatures[i]
  last : f[15]'(by omega) ≠ []

end Spec

private theorem optional_at {t : Text} {src : List UInt8} {row : List (List UInt8)} {tail rest : List UInt8} {s : Scanner} {l : List UInt8}
    (h : Spec.Left src s l) (p : 0 < s.current) (i : ℕ) (hl : l = leftAt row tail rest i) (hi : i + 1 < row.length)
    (hc : ∀ f ∈ row, Spec.Clean f) (hend : Spec.LineEnd tail rest) (hu : t.utf8 (row[i]'(by omega)) = true) {x : Option ℚ}
    (hx : Spec.Optional t (row[i]'(by omega)) x) :
    ∃ s', optionalNumber t src s = .ok (x, s') ∧ Spec.Left src s' (leftAt row tail rest (i + 1)) ∧ 0 < s'.current := by
  have hi' : i < row.length := by omega
  obtain ⟨tl, e, ht, hn⟩ := rowText_at hi' hend
  have htl := hn hi
  have hcl := hc _ (List.getElem_mem hi')
  rw [hl, e] at h
  have hget : src[s.current]? = (row[i] ++ tl).head? := by
    rw [← h.rest, List.head?_drop]
  unfold optionalNumber
  rcases hx with ⟨h1, rfl⟩ | ⟨h1, y, hy, rfl⟩
  · have hcomma : ∃ r, tl = comma :: r := by
      have e' := e
      unfold leftAt at e'
      rw [if_pos hi', List.drop_eq_getElem_cons hi', List.drop_eq_getElem_cons hi] at e'
      have e'' : row[i] ++ comma :: Spec.rowText (row[i + 1] :: row.drop (i + 1 + 1)) tail = row[i] ++ tl := e'
      exact ⟨_, (List.append_cancel_left e'').symm⟩
    obtain ⟨r, rfl⟩ := hcomma
    have hemp : nextIsEmpty src s = true := by
      unfold nextIsEmpty
      rw [hget, h1]
      rfl
    rw [if_pos hemp]
    obtain ⟨s', e1, l1, p1⟩ := scan_ok h hcl ht (by simp) (Or.inl p)
    exact ⟨s', by rw [e1]; rfl, l1, p1⟩
  · have hemp : nextIsEmpty src s = false := by
      unfold nextIsEmpty
      rw [hget]
      cases hr : row[i] with
      | nil => exact absurd hr h1
      | cons b r =>
        rw [hr] at hcl
        obtain ⟨c2, _, _, c1⟩ := hcl
        rw [List.mem_cons, not_or] at c2
        have hb : b ≠ comma := fun hb => by simpa using c1 0 (by simp) (by simp [hb])
        simp only [List.cons_append, List.head?_cons]
        rw [if_neg hb, if_neg (Ne.symm c2.1)]
    rw [if_neg (by rw [hemp]; simp)]
    obtain ⟨s', e1, l1, p1⟩ := number_ok h hcl ht (by simp [h1]) (Or.inl p) hu hy
    exact ⟨s', by rw [e1]; rfl, l1, p1⟩

private theorem numbers_at {t : Text} {src : List UInt8} {row : List (List UInt8)} {tail rest : List UInt8}
    (hc : ∀ f ∈ row, Spec.Clean f) (hend : Spec.LineEnd tail rest) : ∀ (xs : List ℚ) (i : ℕ) (s : Scanner),
    Spec.Left src s (leftAt row tail rest i) → 0 < s.current → (hlen : i + xs.length ≤ row.length) →
    (∀ j (h : j < xs.length), (t.utf8 (row[i + j]'(by omega)) = true ∧ t.parse (row[i + j]'(by omega)) = some xs[j]) ∧
      (row[i + j]'(by omega) ≠ [] ∨ i + j + 1 < row.length)) →
    ∃ s', numbers t src xs.length s = .ok (xs, s') ∧ Spec.Left src s' (leftAt row tail rest (i + xs.length)) ∧ 0 < s'.current
  | [], i, s, h, p, _, _ => ⟨s, rfl, h, p⟩
  | x :: xs, i, s, h, p, hlen, hx => by
    have hlen' : i + (xs.length + 1) ≤ row.length := hlen
    obtain ⟨⟨a1, a2⟩, a3⟩ := hx 0 (by simp)
    obtain ⟨s1, e1, l1, p1⟩ := number_at (row := row) h p i rfl (by omega) hc hend a3 a1 a2
    obtain ⟨s2, e2, l2, p2⟩ := numbers_at hc hend xs (i + 1) s1 l1 p1 (by omega) (by
      intro j hj
      have := hx (j + 1) (by simpa using hj)
      simp only [List.getElem_cons_succ, show i + (j + 1) = i + 1 + j by omega] at this
      exact this)
    refine ⟨s2, ?_, by rw [List.length_cons, show i + (xs.length + 1) = i + 1 + xs.length by omega]; exact l2, p2⟩
    rw [List.length_cons, numbers, bind_run e1, bind_run e2]
    rfl

private theorem ground_at {t : Text} {src : List UInt8} {f more : List (List UInt8)} {tail rest : List UInt8} {g : Ground} {s : Scanner} {n : ℕ}
    {acc : List Ground} (hg : Spec.GroundFields t f g) (hm : ∀ x ∈ more, Spec.Clean x) (hend : Spec.LineEnd tail rest)
    (h : Spec.Left src s (leftAt (f ++ more) tail rest 0)) (p : 0 < s.current) :
    ∃ s', grounds t src (n + 1) acc s = grounds t src n (acc ++ [g]) s' ∧ Spec.Left src s' (leftAt more tail rest 0) ∧ 0 < s'.current := by
  have hl := hg.length
  have hlen : (f ++ more).length = 16 + more.length := by simp [hl]
  have hc : ∀ x ∈ f ++ more, Spec.Clean x := by
    intro x hx
    rcases List.mem_append.1 hx with hx | hx
    exacts [hg.clean x hx, hm x hx]
  have hat : ∀ (i : ℕ) (hi : i < 16), (f ++ more)[i]'(by omega) = f[i]'(by omega) := fun i hi => List.getElem_append_left (by omega)
  have hu : ∀ (i : ℕ) (hi : i < 16), t.utf8 ((f ++ more)[i]'(by omega)) = true := by
    intro i hi
    rw [hat i hi]
    exact hg.utf8 _ (List.getElem_mem _)
  obtain ⟨s1, e1, l1, p1⟩ := number_at (row := f ++ more) (x := g.depth) h p 0 rfl (by omega) hc hend (Or.inr (by omega)) (hu 0 (by omega))
    (by rw [hat 0 (by omega)]; exact hg.depth)
  obtain ⟨s2, e2, l2, p2⟩ := optional_at (row := f ++ more) (x := g.conductivity) l1 p1 1 rfl (by omega) hc hend (hu 1 (by omega))
    (by rw [hat 1 (by omega)]; exact hg.conductivity)
  obtain ⟨s3, e3, l3, p3⟩ := optional_at (row := f ++ more) (x := g.density) l2 p2 2 rfl (by omega) hc hend (hu 2 (by omega))
    (by rw [hat 2 (by omega)]; exact hg.density)
  obtain ⟨s4, e4, l4, p4⟩ := optional_at (row := f ++ more) (x := g.specificHeat) l3 p3 3 rfl (by omega) hc hend (hu 3 (by omega))
    (by rw [hat 3 (by omega)]; exact hg.specificHeat)
  have hmo := hg.months
  obtain ⟨s5, e5, l5, p5⟩ := numbers_at (t := t) (src := src) (row := f ++ more) hc hend g.temperatures 4 s4 l4 p4 (by omega) (by
    intro j hj
    refine ⟨⟨hu (4 + j) (by omega), by rw [hat (4 + j) (by omega)]; exact hg.temperatures j hj⟩, ?_⟩
    by_cases h11 : j = 11
    · subst h11
      left
      rw [hat (4 + 11) (by omega)]
      exact hg.last
    · right; omega)
  have hleft : leftAt (f ++ more) tail rest (4 + g.temperatures.length) = leftAt more tail rest 0 := by
    unfold leftAt
    rw [hmo, hlen]
    by_cases hm0 : 0 < more.length
    · rw [if_pos (by omega), if_pos hm0, List.drop_append, List.drop_eq_nil_of_le (by omega), List.nil_append, hl]
    · rw [if_neg (by omega), if_neg hm0]
  rw [hleft] at l5
  refine ⟨s5, ?_, l5, p5⟩
  rw [grounds, bind_run e1, bind_run e2, bind_run e3, bind_run e4]
  rw [hmo] at e5
  rw [bind_run e5]

private theorem groups_clean {t : Text} {groups : List (List (List UInt8))} {gs : List Ground}
    (h : List.Forall₂ (Spec.GroundFields t) groups gs) : ∀ l ∈ groups, ∀ x ∈ l, Spec.Clean x := by
  induction h with
  | nil => simp
  | cons a _ ih =>
    intro l hl x hx
    rcases List.mem_cons.1 hl with rfl | hl
    · exact a.clean x hx
    · exact ih l hl x hx

private theorem grounds_ok {t : Text} {src : List UInt8} {tail rest : List UInt8} (hend : Spec.LineEnd tail rest) :
    ∀ (groups : List (List (List UInt8))) (gs acc : List Ground) (s : Scanner), List.Forall₂ (Spec.GroundFields t) groups gs →
    Spec.Left src s (leftAt groups.flatten tail rest 0) → 0 < s.current →
    ∃ s', grounds t src groups.length acc s = .ok (acc ++ gs, s') ∧ Spec.Left src s' rest ∧ 0 < s'.current
  | [], _, acc, s, .nil, h, p => ⟨s, by rw [List.append_nil]; rfl, by simpa [leftAt] using h, p⟩
  | f :: groups, g :: gs, acc, s, .cons h1 h2, h, p => by
    rw [List.flatten_cons] at h
    have hm : ∀ x ∈ groups.flatten, Spec.Clean x := by
      intro x hx
      obtain ⟨l, hl, hx⟩ := List.mem_flatten.1 hx
      exact groups_clean h2 l hl x hx
    obtain ⟨s1, e1, l1, p1⟩ := ground_at (n := groups.length) (acc := acc) h1 hm hend h p
    obtain ⟨s2, e2, l2, p2⟩ := grounds_ok hend groups gs (acc ++ [g]) s1 h2 l1 p1
    refine ⟨s2, ?_, l2, p2⟩
    rw [List.length_cons, e1, e2]
    simp

/-- C35: the ground temperatures of a line are those of each depth in it, in their order, after those there were. -/
theorem C35_ground (t : Text) (src : List UInt8) (s : Scanner) (count : List UInt8) (groups : List (List (List UInt8))) (gs : List Ground)
    (file : File) (tail rest : List UInt8) (h0 : Spec.Left src s (Spec.rowText (count :: groups.flatten) tail)) (p0 : 0 < s.current)
    (hend : Spec.LineEnd tail rest) (hc : Spec.Clean count) (hc0 : count ≠ []) (hu : t.utf8 count = true)
    (hcount : t.parse count = some (groups.length : ℚ)) (hgs : List.Forall₂ (Spec.GroundFields t) groups gs) :
    ∃ s', parseKeyword t src kwGround file s = .ok ({ file with ground := file.ground ++ gs }, s') ∧
      Spec.Left src s' rest ∧ 0 < s'.current := by
  have hm : ∀ x ∈ count :: groups.flatten, Spec.Clean x := by
    intro x hx
    rcases List.mem_cons.1 hx with rfl | hx
    · exact hc
    · obtain ⟨l, hl, hx⟩ := List.mem_flatten.1 hx
      exact groups_clean hgs l hl x hx
  have e : Spec.rowText (count :: groups.flatten) tail = leftAt (count :: groups.flatten) tail rest 0 := by
    unfold leftAt; rw [if_pos (by simp), List.drop_zero]
  rw [e] at h0
  obtain ⟨s1, e1, l1, p1⟩ := number_at (row := count :: groups.flatten) h0 p0 0 rfl (by simp) hm hend (Or.inl (by simpa using hc0))
    (by simpa using hu) (by simpa using hcount)
  have hleft : leftAt (count :: groups.flatten) tail rest (0 + 1) = leftAt groups.flatten tail rest 0 := by
    unfold leftAt
    simp
  rw [hleft] at l1
  obtain ⟨s2, e2, l2, p2⟩ := grounds_ok hend groups gs file.ground s1 hgs l1 p1
  refine ⟨s2, ?_, l2, p2⟩
  unfold parseKeyword
  rw [if_pos rfl, bind_run e1]
  have : asUsize (groups.length : ℚ) = groups.length := by simp [asUsize]
  rw [this, bind_run e2]
  rfl

/-! ## The whole file -/

namespace Spec

/-- The text before the end `fin` of it is lines of ground temperatures, which are `gs`, and elements that the reader does not know. -/
inductive Middle (t : Text) : (text fin : List UInt8) → (gs : List Ground) → Prop
  | nil {rest} : Middle t rest rest []
  | cons {f tail rest fin gs} : Clean f → t.utf8 f = true → f ≠ kwGround → f ≠ kwLocation → f ≠ kwData →
      f ++ tail ≠ [] → Tail tail rest → Middle t rest fin gs → Middle t (f ++ tail) fin gs
  | ground {count groups gs tail rest fin gs'} : Clean count → count ≠ [] → t.utf8 count = true →
      t.parse count = some (groups.length : ℚ) → List.Forall₂ (GroundFields t) groups gs → LineEnd tail rest →
      Middle t rest fin gs' → Middle t (rowText (kwGround :: count :: groups.flatten) tail) fin (gs ++ gs')

end Spec

private theorem tail_length {f tail rest : List UInt8} (ht : Tail tail rest) (hne : f ++ tail ≠ []) :
    rest.length < (f ++ tail).length := by
  rw [List.length_append]
  cases ht with
  | comma => simp; omega
  | line h =>
    cases h with
    | newline => simp; omega
    | crlf => simp; omega
    | eof =>
      rw [List.append_nil] at hne
      have := List.length_pos_of_ne_nil hne
      simpa using this

private theorem parseFile_step {t : Text} {src : List UInt8} {s s1 : Scanner} {k : List UInt8} {fuel : ℕ} {file : File}
    (e : scanElement src s = .ok (some k, s1)) (hu : t.utf8 k = true) :
    parseFile t src (fuel + 1) file s =
      (do let f ← parseKeyword t src k file; parseFile t src fuel f : Parser File) s1 := by
  conv_lhs => unfold parseFile
  rw [e]
  simp only [Outcome.bind, Option.isNone_some, Bool.false_eq_true, if_false, scanString, hu, if_true]

private theorem parseFile_middle {t : Text} {src text fin : List UInt8} {gs : List Ground} (hkw : t.utf8 kwGround = true)
    (hi : Spec.Middle t text fin gs) :
    ∀ {s : Scanner} {fuel : ℕ} {file : File}, Spec.Left src s text → 0 < s.current → text.length < fuel →
    ∃ s' fuel', Spec.Left src s' fin ∧ 0 < s'.current ∧ fin.length < fuel' ∧
      parseFile t src fuel file s = parseFile t src fuel' { file with ground := file.ground ++ gs } s' := by
  induction hi with
  | nil => intro s fuel file h p hf; exact ⟨s, fuel, h, p, hf, by rw [List.append_nil]⟩
  | @cons f tail rest fin gs hc hu hg hl hd hne ht _ ih =>
    intro s fuel file h p hf
    obtain ⟨s1, e1, h1, p1⟩ := scan_ok h hc ht hne (Or.inl p)
    have hlen := tail_length ht hne
    obtain ⟨fuel, rfl⟩ : ∃ k, fuel = k + 1 := ⟨fuel - 1, by omega⟩
    obtain ⟨s2, fuel2, h2, p2, f2, e2⟩ := ih (file := file) h1 p1 (by omega : rest.length < fuel)
    refine ⟨s2, fuel2, h2, p2, f2, ?_⟩
    rw [parseFile_step e1 hu, ← e2]
    unfold parseKeyword
    rw [if_neg hg, if_neg hl, if_neg hd, bind_run (p := pure file) (s := s1) rfl]
  | @ground count groups gs tail rest fin gs' hc hc0 hu hcount hgs hend _ ih =>
    intro s fuel file h p hf
    have ht : Spec.rowText (kwGround :: count :: groups.flatten) tail = kwGround ++ comma :: Spec.rowText (count :: groups.flatten) tail := rfl
    rw [ht] at h hf
    obtain ⟨s1, e1, l1, p1⟩ := scan_ok h (by unfold Spec.Clean; decide) Tail.comma (by simp) (Or.inl p)
    obtain ⟨s2, e2, l2, p2⟩ := C35_ground t src s1 count groups gs file tail rest l1 p1 hend hc hc0 hu hcount hgs
    have hlen : rest.length ≤ (Spec.rowText (count :: groups.flatten) tail).length := by
      have h1 : ∀ (row : List (List UInt8)), tail.length ≤ (Spec.rowText row tail).length := by
        intro row
        induction row with
        | nil => exact le_rfl
        | cons a l ihl =>
          cases l with
          | nil => simp [Spec.rowText]
          | cons b l =>
            have : Spec.rowText (a :: b :: l) tail = a ++ comma :: Spec.rowText (b :: l) tail := rfl
            rw [this, List.length_append, List.length_cons]
            omega
      have h2 : rest.length ≤ tail.length := by
        cases hend with
        | newline => simp
        | crlf => simp; omega
        | eof => exact le_rfl
      exact h2.trans (h1 _)
    rw [List.length_append, List.length_cons] at hf
    obtain ⟨fuel, rfl⟩ : ∃ k, fuel = k + 1 := ⟨fuel - 1, by omega⟩
    obtain ⟨s3, fuel3, l3, p3, f3, e3⟩ := ih (file := { file with ground := file.ground ++ gs }) l2 p2 (by omega : rest.length < fuel)
    refine ⟨s3, fuel3, l3, p3, f3, ?_⟩
    rw [parseFile_step e1 hkw, bind_run e2, e3, List.append_assoc]

/-- C35: reading a file with a line of location, lines of ground temperatures among anything that is not known, and one data period that
runs to the end of it, gives that location, those temperatures and the records of its lines, in order.

Missing: the wind direction (`C35_violated_wind_direction`). -/
theorem C35_file_partial (t : Text) (src mid text rest tail1 tail2 : List UInt8)
    (location header : List (List UInt8)) (loc : ℕ → ℚ) (rows : List (List (List UInt8))) (vs : List (ℕ → ℚ))
    (hsrc : src = Spec.rowText (kwLocation :: location) tail1) (h1 : Spec.LineEnd tail1 mid)
    (gs : List Ground) (hmid : Spec.Middle t mid text gs)
    (htext : text = Spec.rowText (kwData :: header) tail2) (h2 : Spec.LineEnd tail2 rest)
    (hloc : location.length = 9) (hclean : ∀ f ∈ location ++ header, Spec.Clean f)
    (hutf : ∀ f ∈ location ++ header, t.utf8 f = true) (hkw : t.utf8 kwLocation = true ∧ t.utf8 kwData = true ∧ t.utf8 kwGround = true)
    (hnum : ∀ (i : ℕ) (h : i < location.length), 5 ≤ i → t.parse location[i] = some (loc i))
    (hlast1 : ∀ h : 8 < location.length, location[8] ≠ [])
    (hhead : header.length = 6) (hone : ∀ (i : ℕ) (h : i < header.length), i < 2 → t.parse header[i] = some 1)
    (hlast2 : ∀ h : 5 < header.length, header[5] ≠ [])
    (hl : Spec.Lines rows rest) (hrows : List.Forall₂ (Spec.DataRow t) rows vs) :
    buildWeatherFile t src = .ok {
      location := {
        city := location[0], state := location[1], country := location[2], source := location[3],
        wmo := location[4], latitude := loc 5, longitude := loc 6, timezone := asI8 (loc 7), elevation := loc 8 }
      ground := gs
      data := vs.map Spec.line } := by
  have cons_text : ∀ (k : List UInt8) (row : List (List UInt8)) (tail : List UInt8), row ≠ [] →
      Spec.rowText (k :: row) tail = k ++ comma :: Spec.rowText row tail := by
    intro k row tail h
    cases row with
    | nil => exact absurd rfl h
    | cons a l => rfl
  have hl0 : location ≠ [] := by intro h; rw [h] at hloc; simp at hloc
  have hh0 : header ≠ [] := by intro h; rw [h] at hhead; simp at hhead
  rw [cons_text _ _ _ hl0] at hsrc
  rw [cons_text _ _ _ hh0] at htext
  -- the location
  have cl : Spec.Clean kwLocation := by unfold Spec.Clean; decide
  have cd : Spec.Clean kwData := by unfold Spec.Clean; decide
  have start : Spec.Left src Scanner.new (kwLocation ++ comma :: Spec.rowText location tail1) :=
    ⟨rfl, rfl, by rw [← hsrc]; rfl, Or.inr rfl⟩
  obtain ⟨s1, e1, l1, p1⟩ := scan_ok start cl Tail.comma (by simp) (Or.inr (by decide))
  obtain ⟨s2, e2, l2, p2⟩ := C35_location t src s1 location tail1 mid loc l1 p1 h1 hloc
    (fun f hf => hclean f (List.mem_append_left _ hf)) (fun f hf => hutf f (List.mem_append_left _ hf)) hnum hlast1
  have hrl := rowText_length (row := location) h1 (by omega)
  have hsl : src.length = kwLocation.length + 1 + (Spec.rowText location tail1).length := by
    rw [hsrc]; simp; omega
  unfold buildWeatherFile
  rw [parseFile_step e1 hkw.1]
  unfold parseKeyword
  rw [if_neg (by decide), if_pos rfl]
  rw [bind_run (p := do let l ← parseLocation t src; return _) (by rw [bind_run e2]; rfl)]
  -- what is not known
  obtain ⟨s3, fuel, l3, p3, f3, e3⟩ := parseFile_middle hkw.2.2 hmid (src := src) (fuel := src.length) l2 p2 (by omega)
  rw [e3]
  rw [htext] at l3 f3
  -- the data
  obtain ⟨s4, e4, l4, p4⟩ := scan_ok l3 cd Tail.comma (by simp) (Or.inl p3)
  obtain ⟨s5, e5, f5⟩ := C35_data_period_partial t src s4 [] header tail2 rest rows vs l4 p4 h2 hhead
    (fun f hf => hclean f (List.mem_append_right _ hf)) (fun f hf => hutf f (List.mem_append_right _ hf)) hone hlast2
    hl hrows
  have hkl : (kwData ++ comma :: Spec.rowText header tail2).length = 13 + (Spec.rowText header tail2).length := by
    simp [kwData]; omega
  obtain ⟨fuel, rfl⟩ : ∃ k, fuel = k + 2 := ⟨fuel - 2, by omega⟩
  rw [parseFile_step e4 hkw.2.1]
  unfold parseKeyword
  rw [if_neg (by decide), if_neg (by decide), if_pos rfl]
  rw [bind_run (p := do let d ← parseDataPeriods t src _; return _) (by rw [bind_run e5]; rfl)]
  unfold parseFile
  have : scanElement src s5 = .ok (none, s5) := by unfold scanElement; rw [if_pos f5]
  rw [this]
  simp [Outcome.bind, Outcome.map]

/-! ## What is read wrong -/

/-- C35 is violated: the wind direction of a line between 0 and 360 degrees is read as 360, whatever it is. -/
theorem C35_violated_wind_direction (t : Text) (src : List UInt8) (s : Scanner) (row : List (List UInt8))
    (tail rest : List UInt8) (v : ℕ → ℚ) (hrow : Spec.DataRow t row v) (hend : Spec.LineEnd tail rest)
    (h : Spec.Left src s (Spec.rowText row tail)) (p : 0 < s.current) (hdir : v 20 ≤ 360) :
    ∃ l s', parseLine t src s = .ok (l, s') ∧ l.windDirection = 360 := by
  obtain ⟨s', e, -, -⟩ := parseLine_ok hrow hend h p
  exact ⟨_, s', e, max_eq_right hdir⟩

/-- C35 is violated: a file that begins with an empty line panics. -/
theorem C35_violated_empty_first_line (t : Text) (rest : List UInt8) :
    buildWeatherFile t (newline :: rest) = .panic := by
  have e : scanElement (newline :: rest) Scanner.new = .panic := by
    obtain ⟨raw, after, h1, h2, h3, -⟩ := C35_element (newline :: rest) [] (newline :: rest) Scanner.new rfl
      ⟨Or.inl rfl, rfl, rfl, rfl, rfl⟩ (by simp)
    apply h3
    cases raw with
    | nil => rfl
    | cons b raw =>
      obtain ⟨rfl, -⟩ := List.cons.inj h1
      exact absurd List.mem_cons_self h2.oneLine
  unfold buildWeatherFile parseFile
  rw [e]
  rfl

/-! ## Records -/

/-- C35: an hour of 1 to 24 is the end of that hour, in the same day, and the rest of the record has its
units changed. -/
theorem C35_record (toRadians : ℚ → ℚ) (l : Line) (hm : 1 ≤ l.month ∧ l.month ≤ 12)
    (hd : 1 ≤ l.day ∧ l.day ≤ daysIn l.month) (hh : 1 ≤ l.hour ∧ l.hour ≤ 24) :
    Valid (toCurrentWeather toRadians l).date ∧
    (toCurrentWeather toRadians l).date.month = l.month ∧ (toCurrentWeather toRadians l).date.day = l.day ∧
    l.hour - 1 < (toCurrentWeather toRadians l).date.hour ∧ (toCurrentWeather toRadians l).date.hour < l.hour ∧
    (toCurrentWeather toRadians l).dryBulb = l.dryBulb ∧ (toCurrentWeather toRadians l).dewPoint = l.dewPoint ∧
    (toCurrentWeather toRadians l).directNormal = l.directNormal ∧
    (toCurrentWeather toRadians l).diffuseHorizontal = l.diffuseHorizontal ∧
    (toCurrentWeather toRadians l).globalHorizontal = l.globalHorizontal ∧
    (toCurrentWeather toRadians l).windSpeed = l.windSpeed ∧
    (toCurrentWeather toRadians l).windDirection = toRadians l.windDirection ∧
    (toCurrentWeather toRadians l).infrared = some l.infrared ∧
    (toCurrentWeather toRadians l).opaqueSkyCover * 10 = l.opaqueSkyCover ∧
    (toCurrentWeather toRadians l).relativeHumidity * 100 = l.relativeHumidity ∧
    (toCurrentWeather toRadians l).pressure = l.pressure := by
  refine ⟨?_, rfl, rfl, ?_, ?_, rfl, rfl, rfl, rfl, rfl, rfl, rfl, rfl, ?_, ?_, rfl⟩
  · obtain ⟨h1, h2⟩ := hh
    refine ⟨hm.1, hm.2, hd.1, hd.2, ?_, ?_⟩ <;> simp only [toCurrentWeather] <;> linarith
  · simp only [toCurrentWeather]; linarith
  · simp only [toCurrentWeather]; linarith
  · simp only [toCurrentWeather]; ring
  · simp only [toCurrentWeather]; ring

/-! ## The hypotheses can be met -/

/-- Digits alone are the only numbers. -/
private def digits : Text where
  utf8 := fun _ => true
  parse := fun l => match l with
    | [b] => if 48 ≤ b ∧ b ≤ 57 then some (b.toNat - 48 : ℕ) else none
    | _ => none

private def ones (n : ℕ) : List (List UInt8) := List.replicate n [49]

private theorem clean_ones (n : ℕ) : ∀ f ∈ ones n, Spec.Clean f := by
  intro f hf
  rw [List.eq_of_mem_replicate hf]
  unfold Spec.Clean; decide

private theorem parse_ones (n i : ℕ) (h : i < (ones n).length) : digits.parse (ones n)[i] = some 1 := by
  rw [show (ones n)[i] = [49] by simp [ones]]
  rfl

private theorem row_ones : Spec.DataRow digits (ones 35) (fun _ => 1) where
  length := by simp [ones]
  clean := clean_ones 35
  utf8 := fun _ _ => rfl
  number := fun i h _ => parse_ones 35 i h
  last := fun h => by simp [ones]

/-- A depth of 1, soil whose properties are not given but for the density, and every month at 1. -/
private def soil : List (List UInt8) := [[49], [], [49], []] ++ ones 12

private theorem soil_fields : Spec.GroundFields digits soil ⟨1, none, some 1, none, List.replicate 12 1⟩ where
  length := rfl
  clean := by
    intro f hf
    rcases List.mem_append.1 hf with h | h
    · simp only [List.mem_cons, List.not_mem_nil, or_false] at h
      rcases h with rfl | rfl | rfl | rfl <;> (unfold Spec.Clean; decide)
    · exact clean_ones 12 f h
  utf8 := fun _ _ => rfl
  depth := rfl
  conductivity := .inl ⟨rfl, rfl⟩
  density := .inr ⟨by decide, 1, rfl, rfl⟩
  specificHeat := .inl ⟨rfl, rfl⟩
  months := rfl
  temperatures := by
    intro i h
    have h' : i < 12 := h
    have : soil[4 + i]'(by simp [soil, ones]; omega) = [49] := by
      simp only [soil]
      rw [List.getElem_append_right (by simp)]
      exact List.eq_of_mem_replicate (List.getElem_mem _)
    rw [this]
    simp only [List.getElem_replicate]
    rfl
  last := by decide

/-- A file with a location, an element `"1,1"` that is not known, ground temperatures, a header and two lines. -/
example : buildWeatherFile digits (Spec.rowText (kwLocation :: ones 9) (newline :: ([34, 49, 44, 49, 34] ++ newline ::
      Spec.rowText (kwGround :: [49] :: [soil].flatten) (newline ::
      Spec.rowText (kwData :: ones 6) (carriage :: newline :: Spec.rowText (ones 35) (newline ::
        Spec.rowText (ones 35) [])))))) =
    .ok ⟨⟨[49], [49], [49], [49], [49], 1, 1, 1, 1⟩, [⟨1, none, some 1, none, List.replicate 12 1⟩],
      [Spec.line fun _ => 1, Spec.line fun _ => 1]⟩ := by
  have h := C35_file_partial digits _ _ _ _ _ _ (ones 9) (ones 6) (fun _ => 1) [ones 35, ones 35]
    [fun _ => 1, fun _ => 1] rfl Spec.LineEnd.newline _
    (Spec.Middle.cons (f := [34, 49, 44, 49, 34]) (by unfold Spec.Clean; decide) rfl (by decide) (by decide) (by decide) (by simp)
      (Tail.line Spec.LineEnd.newline)
      (Spec.Middle.ground (count := [49]) (groups := [soil]) (by unfold Spec.Clean; decide) (by decide) rfl rfl
        (.cons soil_fields .nil) Spec.LineEnd.newline Spec.Middle.nil)) rfl Spec.LineEnd.crlf (by simp [ones])
    (by intro f hf; rcases List.mem_append.1 hf with h | h; exacts [clean_ones 9 f h, clean_ones 6 f h])
    (fun _ _ => rfl) ⟨rfl, rfl, rfl⟩ (fun i h _ => parse_ones 9 i h) (fun h => by simp [ones]) (by simp [ones])
    (fun i h _ => parse_ones 6 i h) (fun h => by simp [ones])
    (Spec.Lines.cons Spec.LineEnd.newline (Spec.Lines.cons Spec.LineEnd.eof Spec.Lines.nil))
    (List.Forall₂.cons row_ones (List.Forall₂.cons row_ones List.Forall₂.nil))
  rw [h]
  rfl

end Simple.Weather.Epw
