import Verif.Calendar.ShowModel
import Verif.Calendar.Props
import Mathlib.Tactic.Ring
import Mathlib.Tactic.Linarith
import Mathlib.Tactic.IntervalCases

/-! # How dates are written (C106) and converted from and to date-times (C107) -/

namespace Simple.Calendar

open Spec

/-! ## Specification: reading a label -/

namespace Spec

/-- The number that a text of digits stands for. -/
def value (t : List Char) : ℕ := t.foldl (fun n c => 10 * n + (c.toNat - '0'.toNat)) 0

/-- The text is made of digits and stands for `n`. -/
structure Number (t : List Char) (n : ℕ) : Prop where
  some : t ≠ []
  digits : ∀ c ∈ t, c.isDigit = true
  value : value t = n

/-- The text reads `month/day - hour:minute`. -/
def Reads (t : List Char) (month day hour minute : ℕ) : Prop :=
  ∃ m d h n : List Char, t = m ++ '/' :: (d ++ ' ' :: '-' :: ' ' :: (h ++ ':' :: n)) ∧
    Number m month ∧ Number d day ∧ Number h hour ∧ Number n minute

end Spec

theorem padded_number (n : ℕ) (h : n < 100) : Number (padded n) n := by
  have : ∀ n < 100, padded n ≠ [] ∧ (∀ c ∈ padded n, c.isDigit = true) ∧ value (padded n) = n := by decide +kernel
  obtain ⟨a, b, c⟩ := this n h
  exact ⟨a, b, c⟩

theorem plain_number (n : ℕ) (h : n < 100) : Number (plain n) n := by
  have : ∀ n < 100, plain n ≠ [] ∧ (∀ c ∈ plain n, c.isDigit = true) ∧ value (plain n) = n := by decide +kernel
  obtain ⟨a, b, c⟩ := this n h
  exact ⟨a, b, c⟩

theorem split_unique (x y : Char) (hx : x.isDigit = false) (hy : y.isDigit = false) :
    ∀ a b r s : List Char, (∀ c ∈ a, c.isDigit = true) → (∀ c ∈ b, c.isDigit = true) →
      a ++ x :: r = b ++ y :: s → a = b ∧ r = s := by
  intro a
  induction a with
  | nil =>
    intro b r s _ hb h
    cases b with
    | nil => simp only [List.nil_append, List.cons.injEq] at h; exact ⟨rfl, h.2⟩
    | cons c b =>
      simp only [List.nil_append, List.cons_append, List.cons.injEq] at h
      have := hb c List.mem_cons_self
      rw [← h.1, hx] at this; cases this
  | cons c a ih =>
    intro b r s ha hb h
    cases b with
    | nil =>
      simp only [List.nil_append, List.cons_append, List.cons.injEq] at h
      have := ha c List.mem_cons_self
      rw [h.1, hy] at this; cases this
    | cons e b =>
      simp only [List.cons_append, List.cons.injEq] at h
      obtain ⟨p, q⟩ := ih b r s (fun c hc => ha c (List.mem_cons_of_mem _ hc))
        (fun c hc => hb c (List.mem_cons_of_mem _ hc)) h.2
      exact ⟨by rw [h.1, p], q⟩

/-- A label can be read in one way only. -/
theorem C106_unambiguous (t : List Char) (m d h n m' d' h' n' : ℕ) (a : Reads t m d h n) (b : Reads t m' d' h' n') :
    m = m' ∧ d = d' ∧ h = h' ∧ n = n' := by
  obtain ⟨tm, td, th, tn, e, nm, nd, nh, nn⟩ := a
  obtain ⟨tm', td', th', tn', e', nm', nd', nh', nn'⟩ := b
  rw [e] at e'
  obtain ⟨q1, e'⟩ := split_unique _ _ (by decide) (by decide) _ _ _ _ nm.digits nm'.digits e'
  obtain ⟨q2, e'⟩ := split_unique _ _ (by decide) (by decide) _ _ _ _ nd.digits nd'.digits e'
  simp only [List.cons.injEq, true_and] at e'
  obtain ⟨q3, q4⟩ := split_unique _ _ (by decide) (by decide) _ _ _ _ nh.digits nh'.digits e'
  exact ⟨by rw [← nm.value, ← nm'.value, q1], by rw [← nd.value, ← nd'.value, q2],
    by rw [← nh.value, ← nh'.value, q3], by rw [← nn.value, ← nn'.value, q4]⟩

/-! ## The clock -/

theorem roundAway_nonneg (x : ℚ) (h : 0 ≤ x) : roundAway x = ⌊x + 1 / 2⌋ := by
  unfold roundAway; rw [if_pos h]

/-- Hour and minute written, as minutes: the nearest whole number of minutes of the day. -/
theorem clock_minutes (h : ℚ) (h0 : 0 ≤ h) : 60 * (clock h).1 + (clock h).2 = ⌊h * 60 + 1 / 2⌋ := by
  have f0 : (0 : ℚ) ≤ (h - ⌊h⌋) * 60 := by
    have := Int.floor_le h
    nlinarith
  have e : ⌊h * 60 + 1 / 2⌋ = 60 * ⌊h⌋ + roundAway ((h - ⌊h⌋) * 60) := by
    rw [roundAway_nonneg _ f0, show h * 60 + 1 / 2 = ((60 * ⌊h⌋ : ℤ) : ℚ) + ((h - ⌊h⌋) * 60 + 1 / 2) by
      push_cast; ring, Int.floor_intCast_add]
  rw [e]
  unfold clock
  simp only
  by_cases c : roundAway ((h - ⌊h⌋) * 60) = 60
  · rw [if_pos c, c]; simp only; ring
  · rw [if_neg c]

theorem clock_bounds (h : ℚ) (h0 : 0 ≤ h) (h1 : h < 24) :
    0 ≤ (clock h).1 ∧ (clock h).1 ≤ 24 ∧ 0 ≤ (clock h).2 ∧ (clock h).2 < 60 := by
  have f0 : (0 : ℚ) ≤ (h - ⌊h⌋) * 60 := by
    have := Int.floor_le h
    nlinarith
  have f1 : (h - ⌊h⌋) * 60 < 60 := by
    have := Int.lt_floor_add_one h
    nlinarith
  have r0 : 0 ≤ roundAway ((h - ⌊h⌋) * 60) := by
    rw [roundAway_nonneg _ f0]; exact Int.floor_nonneg.2 (by linarith)
  have r1 : roundAway ((h - ⌊h⌋) * 60) ≤ 60 := by
    rw [roundAway_nonneg _ f0]
    exact Int.lt_add_one_iff.1 (Int.floor_lt.2 (by push_cast; linarith))
  have g0 : 0 ≤ ⌊h⌋ := Int.floor_nonneg.2 h0
  have g1 : ⌊h⌋ < 24 := Int.floor_lt.2 (by exact_mod_cast h1)
  unfold clock
  simp only
  by_cases c : roundAway ((h - ⌊h⌋) * 60) = 60
  · rw [if_pos c]; simp only; omega
  · rw [if_neg c]; simp only; omega

theorem daysIn_le (m : ℕ) : daysIn m ≤ 31 := by
  unfold daysIn; split <;> omega

theorem text_reads (d : Date) (v : Valid d) :
    Reads d.text d.month d.day (clock d.hour).1.toNat (clock d.hour).2.toNat := by
  obtain ⟨a, b, c, e⟩ := clock_bounds d.hour v.hour_nonneg v.hour_lt
  have := v.month_le
  have := v.day_le
  have := daysIn_le d.month
  exact ⟨_, _, _, _, rfl, padded_number _ (by omega), padded_number _ (by omega), plain_number _ (by omega),
    padded_number _ (by omega)⟩

/-- The label of a date reads its month, its day, and the minute of the day that is nearest to its hour (the later one
when it is half way).  Until half a minute before midnight, hour and minute are those of a clock.  Partial: from then
on the label reads 24:00 of that day, instead of 0:00 of the next. -/
theorem C106_label_partial (d : Date) (v : Valid d) : ∃ hour minute : ℕ,
    Reads d.text d.month d.day hour minute ∧ minute < 60 ∧
      (60 * hour + minute : ℚ) - 1 / 2 ≤ d.hour * 60 ∧ d.hour * 60 < (60 * hour + minute : ℚ) + 1 / 2 ∧
      (d.hour < 24 - 1 / 120 → hour < 24) ∧ (24 - 1 / 120 ≤ d.hour → hour = 24 ∧ minute = 0) := by
  obtain ⟨a, b, c, e⟩ := clock_bounds d.hour v.hour_nonneg v.hour_lt
  have m := clock_minutes d.hour v.hour_nonneg
  obtain ⟨hour, eh⟩ := Int.eq_ofNat_of_zero_le a
  obtain ⟨minute, em⟩ := Int.eq_ofNat_of_zero_le c
  have r := text_reads d v
  rw [eh, em] at r m
  simp only [Int.toNat_natCast] at r
  have l0 : (60 * hour + minute : ℚ) ≤ d.hour * 60 + 1 / 2 := by
    have := Int.floor_le (d.hour * 60 + 1 / 2)
    rw [← m] at this; push_cast at this; exact this
  have l1 : d.hour * 60 + 1 / 2 < (60 * hour + minute : ℚ) + 1 := by
    have := Int.lt_floor_add_one (d.hour * 60 + 1 / 2)
    rw [← m] at this; push_cast at this; exact this
  refine ⟨hour, minute, r, by omega, by linarith, by linarith, fun h => ?_, fun h => ?_⟩
  · by_contra n
    have n' : (24 : ℚ) ≤ hour := by exact_mod_cast not_lt.1 n
    have : (0 : ℚ) ≤ minute := by positivity
    linarith
  · have h2 : 24 * 60 < 60 * hour + minute + 1 := by
      have : (24 * 60 : ℚ) < 60 * hour + minute + 1 := by linarith
      exact_mod_cast this
    have h3 : 60 * hour + minute < 24 * 60 + 1 := by
      have := v.hour_lt
      have : (60 * hour + minute : ℚ) < 24 * 60 + 1 := by linarith
      exact_mod_cast this
    omega

/-- Labels follow the clock: of two dates, the later never has a label that reads an earlier day or minute. -/
theorem C106_order (a b : Date) (va : Valid a) (vb : Valid b) (le : pos a ≤ pos b) (ha na hb nb : ℕ)
    (ra : Reads a.text a.month a.day ha na) (rb : Reads b.text b.month b.day hb nb) :
    (daysBefore a.month + a.day : ℕ) < daysBefore b.month + b.day ∨
      (a.month = b.month ∧ a.day = b.day ∧ 60 * ha + na ≤ 60 * hb + nb) := by
  have key : ∀ d : Date, Valid d → ∀ h n, Reads d.text d.month d.day h n →
      ((60 * h + n : ℕ) : ℤ) = ⌊d.hour * 60 + 1 / 2⌋ := by
    intro d v h n r
    obtain ⟨p, _, q, _⟩ := clock_bounds d.hour v.hour_nonneg v.hour_lt
    obtain ⟨_, _, e1, e2⟩ := C106_unambiguous _ _ _ _ _ _ _ _ _ r (text_reads d v)
    rw [← clock_minutes d.hour v.hour_nonneg, e1, e2]
    push_cast
    rw [Int.toNat_of_nonneg p, Int.toNat_of_nonneg q]
  rcases lt_or_ge (daysBefore a.month + a.day) (daysBefore b.month + b.day) with l | l
  · exact Or.inl l
  · right
    have same : a.month = b.month ∧ a.day = b.day ∧ a.hour ≤ b.hour := by
      rcases lex_trichotomy a b with x | x | x
      · unfold LexLt at x
        rcases x with x | ⟨x, y⟩
        · exfalso
          have := daysBefore_mono va.month_pos x
          have := va.day_le
          have := vb.day_pos
          omega
        · rcases y with y | ⟨y, z⟩
          · exfalso; rw [x] at l; omega
          · exact ⟨x, y, z.le⟩
      · rw [x]; exact ⟨rfl, rfl, le_refl _⟩
      · exact absurd (pos_lt_of_lex vb va x) (not_lt.2 le)
    refine ⟨same.1, same.2.1, ?_⟩
    have k1 := key a va ha na ra
    have k2 := key b vb hb nb rb
    have : ⌊a.hour * 60 + 1 / 2⌋ ≤ ⌊b.hour * 60 + 1 / 2⌋ := Int.floor_le_floor (by linarith [same.2.2])
    omega

/-- Dates that are at least one minute apart have different labels. -/
theorem C106_distinct (a b : Date) (va : Valid a) (vb : Valid b) (apart : 1 / 1440 ≤ |pos a - pos b|) :
    a.text ≠ b.text := by
  intro same
  have ra := text_reads a va
  have rb := text_reads b vb
  rw [← same] at rb
  obtain ⟨em, ed, eh, en⟩ := C106_unambiguous _ _ _ _ _ _ _ _ _ ra rb
  obtain ⟨p, _, q, _⟩ := clock_bounds a.hour va.hour_nonneg va.hour_lt
  obtain ⟨p', _, q', _⟩ := clock_bounds b.hour vb.hour_nonneg vb.hour_lt
  have m : ⌊a.hour * 60 + 1 / 2⌋ = ⌊b.hour * 60 + 1 / 2⌋ := by
    rw [← clock_minutes _ va.hour_nonneg, ← clock_minutes _ vb.hour_nonneg]
    omega
  have near := Int.abs_sub_lt_one_of_floor_eq_floor m
  have : pos a - pos b = (a.hour - b.hour) / 24 := by
    unfold pos; rw [em, ed]; ring
  rw [this] at apart
  rw [show a.hour * 60 + 1 / 2 - (b.hour * 60 + 1 / 2) = (a.hour - b.hour) / 24 * 1440 by ring, abs_mul,
    abs_of_pos (show (0 : ℚ) < 1440 by norm_num)] at near
  linarith

/-- The dates of a period with time steps of at least a minute, as those of a simulation are, have different labels.
Partial, as `C04_nth_call_partial`: a period through the new year has one time step or more after it. -/
theorem C106_rows_partial (s e : Date) (dt : ℚ) (hs : Valid s) (he : Valid e) (hdt0 : 60 ≤ dt)
    (hdt1 : dt < 224 * 86400) (hny : pos e < pos s → dt / 86400 ≤ pos e ∧ pos e + dt / 86400 < 365)
    (p : Period) (hp : Period.new s e dt = some p) (i j : ℕ) (a b : Date) (ne : i ≠ j)
    (ha : p.nthCall i = some (some a)) (hb : p.nthCall j = some (some b)) : a.text ≠ b.text := by
  wlog lt : i < j generalizing i j a b
  · exact (this j i b a ne.symm hb ha (by omega)).symm
  obtain ⟨p', hp', call⟩ := C04_nth_call_partial s e dt hs he (by linarith) hdt1 hny
  obtain rfl : p = p' := by rw [hp] at hp'; exact Option.some.inj hp'
  obtain ⟨la, va, pa⟩ : ((i + 1) * (dt / 86400) ≤ forward (pos s) (pos e)) ∧ Valid a ∧
      pos a = wrap (pos s + (i + 1) * (dt / 86400)) := by
    rcases call i with ⟨l, d, h, v, q, _⟩ | ⟨_, h⟩
    · rw [ha] at h; obtain rfl := Option.some.inj (Option.some.inj h); exact ⟨l, v, q⟩
    · rw [ha] at h; cases h
  obtain ⟨lb, vb, pb⟩ : ((j + 1) * (dt / 86400) ≤ forward (pos s) (pos e)) ∧ Valid b ∧
      pos b = wrap (pos s + (j + 1) * (dt / 86400)) := by
    rcases call j with ⟨l, d, h, v, q, _⟩ | ⟨_, h⟩
    · rw [hb] at h; obtain rfl := Option.some.inj (Option.some.inj h); exact ⟨l, v, q⟩
    · rw [hb] at h; cases h
  have f1 : forward (pos s) (pos e) < 365 := wrap_lt _
  have s0 := pos_nonneg hs
  have s1 := pos_lt_year hs
  have step : 1 / 1440 ≤ dt / 86400 := by rw [div_le_div_iff₀ (by norm_num) (by norm_num)]; linarith
  have ij : (i : ℚ) + 1 ≤ j := by exact_mod_cast lt
  have d0 : 1 / 1440 ≤ ((j : ℚ) - i) * (dt / 86400) := by nlinarith
  have i0 : (0 : ℚ) ≤ (i + 1) * (dt / 86400) := by positivity
  -- both before the new year, both after, or one on each side
  have wr : ∀ x : ℚ, 0 ≤ x → x < 365 → wrap (pos s + x) = pos s + x ∨ wrap (pos s + x) = pos s + x - 365 := by
    intro x x0 x1
    rcases lt_or_ge (pos s + x) 365 with h | h
    · exact Or.inl (wrap_self (by linarith) h)
    · exact Or.inr (wrap_eq 1 (by push_cast; ring) (by linarith) (by linarith))
  apply C106_distinct a b va vb
  have jx : ((j : ℚ) + 1) * (dt / 86400) = (i + 1) * (dt / 86400) + (j - i) * (dt / 86400) := by ring
  have wa := wr _ i0 (by linarith)
  have wb := wr ((j + 1) * (dt / 86400)) (by linarith) (by linarith)
  rw [← pa] at wa
  rw [← pb] at wb
  rcases wa with wa | wa <;> rcases wb with wb | wb
  · rw [abs_sub_comm, le_abs]; left; rw [wa, wb]; linarith
  · rw [le_abs]; left; rw [wa, wb]
    have e1 : pos b + dt / 86400 < 365 ∧ pos b ≤ pos e ∧ pos e < pos s := by
      have hlt : pos e < pos s := by
        by_contra n
        rw [forward_of_le s0 (pos_lt_year he) (not_lt.1 n)] at lb
        have := pos_nonneg vb
        have := pos_lt_year he
        linarith
      rw [forward_of_lt s1 (pos_nonneg he) hlt] at lb
      refine ⟨?_, by linarith, hlt⟩
      have := (hny hlt).2
      linarith
    have i1 : dt / 86400 ≤ (i + 1) * (dt / 86400) := by
      have : (0 : ℚ) ≤ i * (dt / 86400) := by positivity
      linarith
    linarith
  · exfalso
    have := pos_lt_year vb
    have := pos_nonneg va
    linarith
  · rw [abs_sub_comm, le_abs]; left; rw [wa, wb]; linarith

/-! ## Where it fails -/

/-- Half a minute before midnight, the label reads 24:00 of the day that ends. -/
theorem C106_violated_midnight : ∃ d : Date, Valid d ∧ d.text = "12/31 - 24:00".toList :=
  ⟨⟨12, 31, 24 - 1 / 1000⟩, ⟨by norm_num, by norm_num, by norm_num, by decide, by norm_num, by norm_num⟩,
    by decide +kernel⟩

set_option maxRecDepth 100000 in
/-- It happens at the first midnight of a simulation with three time steps per hour, because of rounding: the row that is
24 hours after the start of the first of January reads 24:00 of the same day, and the next, 0:20 of the second. -/
theorem C106_violated_run :
    (Bits.after ((F64.lit 3600).div (F64.lit 3)) 72 ⟨1, 1, F64.lit 0⟩).map Bits.text = some "01/01 - 24:00".toList ∧
    (Bits.after ((F64.lit 3600).div (F64.lit 3)) 73 ⟨1, 1, F64.lit 0⟩).map Bits.text = some "01/02 - 0:20".toList := by
  decide +kernel

/-- Examples of the hypotheses, and of a label. -/
example : Valid ⟨7, 4, 9 + 1 / 3⟩ ∧ (⟨7, 4, 9 + 1 / 3⟩ : Date).text = "07/04 - 9:20".toList ∧
    Valid ⟨7, 4, 9 + 1 / 3 + 1 / 60⟩ ∧
      1 / 1440 ≤ |pos ⟨7, 4, 9 + 1 / 3⟩ - pos ⟨7, 4, 9 + 1 / 3 + 1 / 60⟩| := by
  refine ⟨⟨by norm_num, by norm_num, by norm_num, by decide, by norm_num, by norm_num⟩, by decide +kernel,
    ⟨by norm_num, by norm_num, by norm_num, by decide, by norm_num, by norm_num⟩, ?_⟩
  unfold pos
  norm_num [abs_of_neg]

/-- The hypotheses of `C106_rows_partial`: a day of July in steps of twenty minutes. -/
example : Valid ⟨7, 4, 0⟩ ∧ Valid ⟨7, 5, 0⟩ ∧ ¬ pos ⟨7, 5, 0⟩ < pos ⟨7, 4, 0⟩ ∧
    (Period.new ⟨7, 4, 0⟩ ⟨7, 5, 0⟩ 1200).isSome = true := by
  refine ⟨⟨by norm_num, by norm_num, by norm_num, by decide, by norm_num, by norm_num⟩,
    ⟨by norm_num, by norm_num, by norm_num, by decide, by norm_num, by norm_num⟩, ?_, by decide +kernel⟩
  unfold pos
  norm_num

/-! ## Date-times -/

/-- What a date and time of the day comes back as, after it is made into a `Date` and back. -/
theorem back (t : DateTime) (hh : t.hour < 24) (hm : t.minute < 60) (hs : t.second < 60) :
    (Date.ofDateTime t).toDateTime = some
      (if 30 ≤ t.second then
        if t.minute = 59 then { t with minute := 59, second := 59 }
        else { t with minute := t.minute + 1, second := 60 - t.second }
      else { t with second := (60 - t.second) % 60 }) := by
  obtain ⟨month, day, hour, minute, second⟩ := t
  simp only at hh hm hs
  have hm' : (minute : ℚ) ≤ 59 := by exact_mod_cast Nat.le_of_lt_succ hm
  have hs' : (second : ℚ) ≤ 59 := by exact_mod_cast Nat.le_of_lt_succ hs
  have m0 : (0 : ℚ) ≤ minute := by positivity
  have s0 : (0 : ℚ) ≤ second := by positivity
  have fl : ⌊(hour : ℚ) + minute / 60 + second / 3600⌋ = (hour : ℤ) := by
    rw [Int.floor_eq_iff]; push_cast
    constructor <;> linarith
  have rm : ((hour : ℚ) + minute / 60 + second / 3600 - ((hour : ℤ) : ℚ)) * 60 = minute + second / 60 := by
    push_cast; ring
  have r1 : roundAway ((minute : ℚ) + second / 60) = if 30 ≤ second then (minute : ℤ) + 1 else minute := by
    rw [roundAway_nonneg _ (by linarith), Int.floor_eq_iff]
    split_ifs with c
    · have : (30 : ℚ) ≤ second := by exact_mod_cast c
      push_cast; constructor <;> linarith
    · have : (second : ℚ) ≤ 29 := by exact_mod_cast (by omega : second ≤ 29)
      push_cast; constructor <;> linarith
  have r2 : roundAway ((60 - ((minute : ℚ) + second / 60)) * 60) = (60 - minute : ℤ) * 60 - second := by
    rw [roundAway_nonneg _ (by linarith), Int.floor_eq_iff]
    push_cast; constructor <;> linarith
  unfold Date.toDateTime Date.ofDateTime
  simp only [fl, rm, r1, r2]
  by_cases c : 30 ≤ second
  · simp only [if_pos c]
    by_cases c' : minute = 59
    · subst c'
      simp [hh]
    · have e1 : ((minute : ℤ) + 1).toNat = minute + 1 := by omega
      have e2 : ¬ minute + 1 = 60 := by omega
      simp only [e1, if_neg e2, if_neg c', Int.toNat_natCast]
      rw [if_pos ⟨by omega, by omega⟩]
      congr 2
      omega
  · simp only [if_neg c]
    have e1 : ((minute : ℤ)).toNat = minute := by omega
    have e2 : ¬ minute = 60 := by omega
    simp only [e1, if_neg e2, Int.toNat_natCast]
    rw [if_pos ⟨by omega, by omega⟩]
    congr 2
    omega

/-- A `Date` made from a date-time is at its time of the day, to the second. -/
theorem C107_from (t : DateTime) : (Date.ofDateTime t).month = t.month ∧ (Date.ofDateTime t).day = t.day ∧
    (Date.ofDateTime t).hour * 3600 = t.hour * 3600 + t.minute * 60 + t.second := by
  refine ⟨rfl, rfl, ?_⟩
  unfold Date.ofDateTime
  simp only
  ring

/-- A date-time made into a `Date` and back is the same exactly when its seconds are zero, or it is the last second of
an hour.  Partial: with other seconds it is not. -/
theorem C107_round_trip_partial (t : DateTime) (hh : t.hour < 24) (hm : t.minute < 60) (hs : t.second < 60) :
    (Date.ofDateTime t).toDateTime = some t ↔ t.second = 0 ∨ (t.minute = 59 ∧ t.second = 59) := by
  rw [back t hh hm hs, Option.some.injEq]
  obtain ⟨month, day, hour, minute, second⟩ := t
  simp only at hh hm hs ⊢
  by_cases c : 30 ≤ second
  · rw [if_pos c]
    by_cases c' : minute = 59
    · rw [if_pos c']
      simp only [DateTime.mk.injEq, true_and]
      omega
    · rw [if_neg c']
      simp only [DateTime.mk.injEq, true_and]
      omega
  · rw [if_neg c]
    simp only [DateTime.mk.injEq, true_and]
    omega

/-- A quarter past noon comes back as it was, and fifteen seconds past noon comes back as forty-five; half a minute
past noon comes back as a minute and a half. -/
theorem C107_violated_seconds :
    (Date.ofDateTime ⟨6, 21, 12, 15, 0⟩).toDateTime = some ⟨6, 21, 12, 15, 0⟩ ∧
    (Date.ofDateTime ⟨6, 21, 12, 0, 15⟩).toDateTime = some ⟨6, 21, 12, 0, 45⟩ ∧
    (Date.ofDateTime ⟨6, 21, 12, 0, 30⟩).toDateTime = some ⟨6, 21, 12, 1, 30⟩ := by
  decide +kernel

end Simple.Calendar
