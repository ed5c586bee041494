import Verif.Calendar.Spec
import Mathlib.Tactic.Linarith
import Mathlib.Tactic.NormNum
import Mathlib.Tactic.IntervalCases
import Mathlib.Tactic.Ring
import Mathlib.Tactic.FieldSimp
import Mathlib.Tactic.Positivity

/-! # Auxiliary lemmas for the calendar properties -/

namespace Simple.Calendar
open Spec

theorem dayOfYear_eq {d : Date} (h : Valid d) : d.dayOfYear = some (pos d) := by
  obtain ⟨m, dd, hh⟩ := d
  have h1 := h.month_pos; have h2 := h.month_le
  simp only at h1 h2
  unfold Date.dayOfYear pos
  interval_cases m <;>
    simp [cumulatedDaysBeforeMonth, daysBefore, daysIn] <;> ring

theorem pos_nonneg {d : Date} (h : Valid d) : 0 ≤ pos d := by
  have h1 : (1:ℚ) ≤ d.day := by exact_mod_cast h.day_pos
  have h2 := h.hour_nonneg
  unfold pos
  have : 0 ≤ (daysBefore d.month : ℚ) := by positivity
  have : 0 ≤ d.hour / 24 := by positivity
  linarith

theorem daysBefore_add {m : ℕ} (h1 : 1 ≤ m) (h2 : m ≤ 12) :
    daysBefore m + daysIn m ≤ 365 := by
  interval_cases m <;> decide

theorem daysBefore_succ {m : ℕ} (h1 : 1 ≤ m) :
    daysBefore (m + 1) = daysBefore m + daysIn m := by
  obtain ⟨k, rfl⟩ : ∃ k, m = k + 1 := ⟨m - 1, by omega⟩
  rfl

theorem daysBefore_mono {m k : ℕ} (h1 : 1 ≤ m) (h : m < k) :
    daysBefore m + daysIn m ≤ daysBefore k := by
  induction k with
  | zero => omega
  | succ k ih =>
    rw [daysBefore_succ (by omega)]
    rcases Nat.lt_or_ge m k with h' | h'
    · have := ih h'; omega
    · have : m = k := by omega
      subst this; omega

theorem pos_lt_month_end {d : Date} (h : Valid d) :
    pos d < daysBefore d.month + daysIn d.month := by
  have h1 : (d.day:ℚ) ≤ daysIn d.month := by exact_mod_cast h.day_le
  have h2 := h.hour_lt
  unfold pos
  have : d.hour / 24 < 1 := by linarith
  linarith

theorem pos_ge_month {d : Date} (h : Valid d) : (daysBefore d.month : ℚ) ≤ pos d := by
  have h1 : (1:ℚ) ≤ d.day := by exact_mod_cast h.day_pos
  have h2 := h.hour_nonneg
  unfold pos
  have : 0 ≤ d.hour / 24 := by positivity
  linarith

theorem pos_lt_year {d : Date} (h : Valid d) : pos d < 365 := by
  have h1 := pos_lt_month_end h
  have h2 : ((daysBefore d.month + daysIn d.month : ℕ) : ℚ) ≤ (365 : ℕ) := by
    exact_mod_cast daysBefore_add h.month_pos h.month_le
  push_cast at h2
  linarith

/-- Lexicographic order of dates, as a proposition. -/
def LexLt (a b : Date) : Prop :=
  a.month < b.month ∨ (a.month = b.month ∧ (a.day < b.day ∨ (a.day = b.day ∧ a.hour < b.hour)))

theorem cmp_lt_iff (a b : Date) : a.cmp b = .lt ↔ LexLt a b := by
  unfold Date.cmp LexLt
  rcases Nat.lt_trichotomy a.month b.month with h | h | h
  · simp [Nat.compare_eq_lt.mpr h, h]
  · rw [h]
    have : compare b.month b.month = .eq := Nat.compare_eq_eq.mpr rfl
    rw [this]
    rcases Nat.lt_trichotomy a.day b.day with h' | h' | h'
    · simp [Nat.compare_eq_lt.mpr h', h']
    · rw [h']
      have : compare b.day b.day = .eq := Nat.compare_eq_eq.mpr rfl
      rw [this]
      rcases lt_trichotomy a.hour b.hour with h'' | h'' | h''
      · simp [h'']
      · simp [h'']
      · simp [h'', not_lt.mpr h''.le]
    · simp [Nat.compare_eq_gt.mpr h']; omega
  · simp [Nat.compare_eq_gt.mpr h]; omega

theorem cmp_gt_iff (a b : Date) : a.cmp b = .gt ↔ LexLt b a := by
  unfold Date.cmp LexLt
  rcases Nat.lt_trichotomy a.month b.month with h | h | h
  · simp [Nat.compare_eq_lt.mpr h]; omega
  · rw [h]
    have : compare b.month b.month = .eq := Nat.compare_eq_eq.mpr rfl
    rw [this]
    rcases Nat.lt_trichotomy a.day b.day with h' | h' | h'
    · simp [Nat.compare_eq_lt.mpr h']; omega
    · rw [h']
      have : compare b.day b.day = .eq := Nat.compare_eq_eq.mpr rfl
      rw [this]
      rcases lt_trichotomy a.hour b.hour with h'' | h'' | h''
      · simp [h'', not_lt.mpr h''.le]
      · simp [h'']
      · simp [h'', not_lt.mpr h''.le]
    · simp [Nat.compare_eq_gt.mpr h', h']
  · simp [Nat.compare_eq_gt.mpr h, h]

theorem cmp_eq_iff (a b : Date) : a.cmp b = .eq ↔ a = b := by
  unfold Date.cmp
  obtain ⟨m, d, h⟩ := a; obtain ⟨m', d', h'⟩ := b
  simp only [Date.mk.injEq]
  rcases Nat.lt_trichotomy m m' with e | e | e
  · simp [Nat.compare_eq_lt.mpr e]; omega
  · subst e
    have : compare m m = .eq := Nat.compare_eq_eq.mpr rfl
    rw [this]
    rcases Nat.lt_trichotomy d d' with e | e | e
    · simp [Nat.compare_eq_lt.mpr e]; omega
    · subst e
      have : compare d d = .eq := Nat.compare_eq_eq.mpr rfl
      rw [this]
      rcases lt_trichotomy h h' with e | e | e
      · simp [e, e.ne]
      · simp [e]
      · simp [e, e.ne', not_lt.mpr e.le]
    · simp [Nat.compare_eq_gt.mpr e]; omega
  · simp [Nat.compare_eq_gt.mpr e]; omega

theorem pos_lt_of_lex {a b : Date} (ha : Valid a) (hb : Valid b) (h : LexLt a b) :
    pos a < pos b := by
  rcases h with h | ⟨hm, h | ⟨hd, hh⟩⟩
  · have h1 := pos_lt_month_end ha
    have h2 := pos_ge_month hb
    have h3 : ((daysBefore a.month + daysIn a.month : ℕ) : ℚ) ≤ (daysBefore b.month : ℕ) := by
      exact_mod_cast daysBefore_mono ha.month_pos h
    push_cast at h3
    linarith
  · unfold pos
    rw [hm]
    have h1 : (a.day : ℚ) + 1 ≤ b.day := by exact_mod_cast h
    have h2 := ha.hour_lt
    have h3 := hb.hour_nonneg
    linarith
  · unfold pos
    rw [hm, hd]
    linarith

theorem lex_trichotomy (a b : Date) : LexLt a b ∨ a = b ∨ LexLt b a := by
  cases h : a.cmp b
  · exact Or.inl ((cmp_lt_iff a b).1 h)
  · exact Or.inr (Or.inl ((cmp_eq_iff a b).1 h))
  · exact Or.inr (Or.inr ((cmp_gt_iff a b).1 h))

theorem lex_iff_pos {a b : Date} (ha : Valid a) (hb : Valid b) : LexLt a b ↔ pos a < pos b := by
  constructor
  · exact pos_lt_of_lex ha hb
  · intro h
    rcases lex_trichotomy a b with h' | h' | h'
    · exact h'
    · subst h'; exact absurd h (lt_irrefl _)
    · exact absurd (pos_lt_of_lex hb ha h') (not_lt.mpr h.le)

theorem pos_inj {a b : Date} (ha : Valid a) (hb : Valid b) (h : pos a = pos b) : a = b := by
  rcases lex_trichotomy a b with h' | h' | h'
  · exact absurd (pos_lt_of_lex ha hb h') (by rw [h]; exact lt_irrefl _)
  · exact h'
  · exact absurd (pos_lt_of_lex hb ha h') (by rw [h]; exact lt_irrefl _)

theorem lt_iff_pos {a b : Date} (ha : Valid a) (hb : Valid b) :
    a.lt b = true ↔ pos a < pos b := by
  unfold Date.lt
  rw [beq_iff_eq, cmp_lt_iff, lex_iff_pos ha hb]

theorem le_iff_pos {a b : Date} (ha : Valid a) (hb : Valid b) :
    a.le b = true ↔ pos a ≤ pos b := by
  unfold Date.le
  rw [bne_iff_ne, ne_eq, cmp_gt_iff, lex_iff_pos hb ha, not_lt]

theorem findMonth_table {n : ℚ} (h0 : 0 ≤ n) :
    (∃ m, 1 ≤ m ∧ m ≤ 11 ∧
      findMonth n 0 0 cumulatedDaysBeforeMonth = some (m, (daysBefore m : ℚ)) ∧
      (daysBefore m : ℚ) ≤ n ∧ n < daysBefore m + daysIn m) ∨
    (findMonth n 0 0 cumulatedDaysBeforeMonth = none ∧ 334 ≤ n) := by
  rcases lt_or_ge n 31 with c | c1
  · refine Or.inl ⟨1, by norm_num, by norm_num, ?_, by norm_num [daysBefore, daysIn]; linarith,
      by norm_num [daysBefore, daysIn]; linarith⟩
    simp only [cumulatedDaysBeforeMonth, findMonth]
    repeat rw [if_neg (by linarith)]
    rw [if_pos c]
    norm_num [daysBefore, daysIn]
  rcases lt_or_ge n 59 with c | c2
  · refine Or.inl ⟨2, by norm_num, by norm_num, ?_, by norm_num [daysBefore, daysIn]; linarith,
      by norm_num [daysBefore, daysIn]; linarith⟩
    simp only [cumulatedDaysBeforeMonth, findMonth]
    repeat rw [if_neg (by linarith)]
    rw [if_pos c]
    norm_num [daysBefore, daysIn]
  rcases lt_or_ge n 90 with c | c3
  · refine Or.inl ⟨3, by norm_num, by norm_num, ?_, by norm_num [daysBefore, daysIn]; linarith,
      by norm_num [daysBefore, daysIn]; linarith⟩
    simp only [cumulatedDaysBeforeMonth, findMonth]
    repeat rw [if_neg (by linarith)]
    rw [if_pos c]
    norm_num [daysBefore, daysIn]
  rcases lt_or_ge n 120 with c | c4
  · refine Or.inl ⟨4, by norm_num, by norm_num, ?_, by norm_num [daysBefore, daysIn]; linarith,
      by norm_num [daysBefore, daysIn]; linarith⟩
    simp only [cumulatedDaysBeforeMonth, findMonth]
    repeat rw [if_neg (by linarith)]
    rw [if_pos c]
    norm_num [daysBefore, daysIn]
  rcases lt_or_ge n 151 with c | c5
  · refine Or.inl ⟨5, by norm_num, by norm_num, ?_, by norm_num [daysBefore, daysIn]; linarith,
      by norm_num [daysBefore, daysIn]; linarith⟩
    simp only [cumulatedDaysBeforeMonth, findMonth]
    repeat rw [if_neg (by linarith)]
    rw [if_pos c]
    norm_num [daysBefore, daysIn]
  rcases lt_or_ge n 181 with c | c6
  · refine Or.inl ⟨6, by norm_num, by norm_num, ?_, by norm_num [daysBefore, daysIn]; linarith,
      by norm_num [daysBefore, daysIn]; linarith⟩
    simp only [cumulatedDaysBeforeMonth, findMonth]
    repeat rw [if_neg (by linarith)]
    rw [if_pos c]
    norm_num [daysBefore, daysIn]
  rcases lt_or_ge n 212 with c | c7
  · refine Or.inl ⟨7, by norm_num, by norm_num, ?_, by norm_num [daysBefore, daysIn]; linarith,
      by norm_num [daysBefore, daysIn]; linarith⟩
    simp only [cumulatedDaysBeforeMonth, findMonth]
    repeat rw [if_neg (by linarith)]
    rw [if_pos c]
    norm_num [daysBefore, daysIn]
  rcases lt_or_ge n 243 with c | c8
  · refine Or.inl ⟨8, by norm_num, by norm_num, ?_, by norm_num [daysBefore, daysIn]; linarith,
      by norm_num [daysBefore, daysIn]; linarith⟩
    simp only [cumulatedDaysBeforeMonth, findMonth]
    repeat rw [if_neg (by linarith)]
    rw [if_pos c]
    norm_num [daysBefore, daysIn]
  rcases lt_or_ge n 273 with c | c9
  · refine Or.inl ⟨9, by norm_num, by norm_num, ?_, by norm_num [daysBefore, daysIn]; linarith,
      by norm_num [daysBefore, daysIn]; linarith⟩
    simp only [cumulatedDaysBeforeMonth, findMonth]
    repeat rw [if_neg (by linarith)]
    rw [if_pos c]
    norm_num [daysBefore, daysIn]
  rcases lt_or_ge n 304 with c | c10
  · refine Or.inl ⟨10, by norm_num, by norm_num, ?_, by norm_num [daysBefore, daysIn]; linarith,
      by norm_num [daysBefore, daysIn]; linarith⟩
    simp only [cumulatedDaysBeforeMonth, findMonth]
    repeat rw [if_neg (by linarith)]
    rw [if_pos c]
    norm_num [daysBefore, daysIn]
  rcases lt_or_ge n 334 with c | c11
  · refine Or.inl ⟨11, by norm_num, by norm_num, ?_, by norm_num [daysBefore, daysIn]; linarith,
      by norm_num [daysBefore, daysIn]; linarith⟩
    simp only [cumulatedDaysBeforeMonth, findMonth]
    repeat rw [if_neg (by linarith)]
    rw [if_pos c]
    norm_num [daysBefore, daysIn]
  · refine Or.inr ⟨?_, c11⟩
    simp only [cumulatedDaysBeforeMonth, findMonth]
    repeat rw [if_neg (by linarith)]

/-- Shape of a valid date built from its month, day offset and hour. -/
theorem fromDayOfYear_spec {n : ℚ} (h0 : 0 ≤ n) (h1 : n < 365) :
    ∃ d, Date.fromDayOfYear n = some d ∧ Valid d ∧ pos d = n := by
  have key : ∀ (m : ℕ), 1 ≤ m → m ≤ 12 → (daysBefore m : ℚ) ≤ n → n < daysBefore m + daysIn m →
      Valid ⟨m, 1 + ⌊n - daysBefore m⌋.toNat, (n - daysBefore m - ⌊n - (daysBefore m : ℚ)⌋) * 24⟩ ∧
      pos ⟨m, 1 + ⌊n - daysBefore m⌋.toNat, (n - daysBefore m - ⌊n - (daysBefore m : ℚ)⌋) * 24⟩ = n := by
    intro m hm1 hm2 hn1 hn2
    have hfl : 0 ≤ ⌊n - (daysBefore m : ℚ)⌋ := Int.floor_nonneg.mpr (by linarith)
    have hlt : ⌊n - (daysBefore m : ℚ)⌋ < (daysIn m : ℤ) := by
      rw [Int.floor_lt]; push_cast; linarith
    have hcast : ((⌊n - (daysBefore m : ℚ)⌋.toNat : ℕ) : ℚ) = (⌊n - (daysBefore m : ℚ)⌋ : ℚ) := by
      have : ((⌊n - (daysBefore m : ℚ)⌋.toNat : ℕ) : ℤ) = ⌊n - (daysBefore m : ℚ)⌋ :=
        Int.toNat_of_nonneg hfl
      exact_mod_cast this
    have hf1 := Int.floor_le (n - (daysBefore m : ℚ))
    have hf2 := Int.lt_floor_add_one (n - (daysBefore m : ℚ))
    refine ⟨⟨hm1, hm2, by simp, ?_, ?_, ?_⟩, ?_⟩
    · simp only; omega
    · simp only; linarith
    · simp only; linarith
    · unfold pos
      simp only
      push_cast
      rw [hcast]
      ring
  unfold Date.fromDayOfYear
  rw [if_pos ⟨h0, h1⟩]
  rcases findMonth_table h0 with ⟨m, hm1, hm2, hf, hb1, hb2⟩ | ⟨hf, hb⟩
  · rw [hf]
    exact ⟨_, rfl, key m hm1 (by omega) hb1 hb2⟩
  · rw [hf]
    have := key 12 (by norm_num) (by norm_num) (by simpa [daysBefore, daysIn] using hb)
      (by norm_num [daysBefore, daysIn]; linarith)
    have e : ((daysBefore 12 : ℕ) : ℚ) = 334 := by norm_num [daysBefore, daysIn]
    rw [e] at this
    exact ⟨_, rfl, this⟩

end Simple.Calendar
