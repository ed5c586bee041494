import Verif.Calendar.Lemmas

/-! # Lemmas about advancing dates -/

namespace Simple.Calendar
open Spec

/-- Whole days elapsed since the beginning of the year. -/
def dayIndex (d : Date) : ℕ := daysBefore d.month + d.day - 1

theorem pos_eq_dayIndex {d : Date} (h : Valid d) : pos d = dayIndex d + d.hour / 24 := by
  unfold pos dayIndex
  have h1 := h.day_pos
  have : ((daysBefore d.month + d.day - 1 : ℕ) : ℚ) = daysBefore d.month + d.day - 1 := by
    rw [Nat.cast_sub (by omega)]; push_cast; ring
  rw [this]; ring

theorem wrap_eq {t x : ℚ} (k : ℤ) (h : t = x + 365 * k) (h0 : 0 ≤ x) (h1 : x < 365) :
    wrap t = x := by
  unfold wrap
  have : ⌊t / 365⌋ = k := by
    rw [Int.floor_eq_iff]
    constructor
    · rw [h]; linarith
    · rw [h]; linarith
  rw [this, h]; ring

theorem wrap_nonneg (t : ℚ) : 0 ≤ wrap t := by
  unfold wrap
  have := Int.floor_le (t / 365)
  linarith

theorem wrap_lt (t : ℚ) : wrap t < 365 := by
  unfold wrap
  have := Int.lt_floor_add_one (t / 365)
  linarith

theorem wrap_spec (t : ℚ) : ∃ k : ℤ, t = wrap t + 365 * k := ⟨⌊t / 365⌋, by unfold wrap; ring⟩

theorem wrap_self {x : ℚ} (h0 : 0 ≤ x) (h1 : x < 365) : wrap x = x :=
  wrap_eq 0 (by push_cast; ring) h0 h1

theorem nDaysPerMonth_get {m : ℕ} (h1 : 1 ≤ m) (h2 : m ≤ 12) :
    nDaysPerMonth[m - 1]? = some (daysIn m) := by
  interval_cases m <;> rfl

theorem daysIn_bounds (m : ℕ) : 28 ≤ daysIn m ∧ daysIn m ≤ 31 := by
  unfold daysIn; split <;> omega

/-- One unfolding of `addDays` on a valid date. -/
theorem addDays_unfold {d : Date} (h : Valid d) (n : ℕ) :
    d.addDays n =
      if n % 365 > 0 then
        if (d.day + n % 365) % 256 > daysIn d.month then
          Date.addDays ⟨if d.month + 1 = 13 then 1 else d.month + 1, 1, d.hour⟩
            (d.day + n % 365 - daysIn d.month - 1)
        else if d.day + n % 365 % 256 < 256 then
          some ⟨d.month, d.day + n % 365 % 256, d.hour⟩
        else none
      else some d := by
  rw [Date.addDays]
  have h0 : d.month ≠ 0 := by have := h.month_pos; omega
  have hg := nDaysPerMonth_get h.month_pos h.month_le
  simp only [h0, if_false]
  split
  · split
    · rename_i heq; rw [hg] at heq; cases heq
    · rename_i heq; rw [hg] at heq; cases heq; rfl
  · rfl

theorem next_month_valid {d : Date} (h : Valid d) :
    Valid ⟨if d.month + 1 = 13 then 1 else d.month + 1, 1, d.hour⟩ := by
  have h1 := h.month_pos; have h2 := h.month_le
  have h3 := daysIn_bounds (if d.month + 1 = 13 then 1 else d.month + 1)
  refine ⟨?_, ?_, by simp, by simp only; omega, h.hour_nonneg, h.hour_lt⟩
  · simp only; split <;> omega
  · simp only; split <;> omega

theorem next_month_index {d : Date} (h : Valid d) :
    (dayIndex ⟨if d.month + 1 = 13 then 1 else d.month + 1, 1, d.hour⟩) % 365 =
      (daysBefore d.month + daysIn d.month) % 365 := by
  have h1 := h.month_pos; have h2 := h.month_le
  unfold dayIndex
  simp only
  by_cases hm : d.month + 1 = 13
  · have : d.month = 12 := by omega
    rw [if_pos hm, this]; rfl
  · rw [if_neg hm, daysBefore_succ h1]; simp

theorem addDays_ok (n : ℕ) (d : Date) (h : Valid d) (hn : d.day + n % 365 < 256) :
    ∃ d', d.addDays n = some d' ∧ Valid d' ∧ d'.hour = d.hour ∧
      dayIndex d' = (dayIndex d + n) % 365 := by
  induction hk : d.day + n % 365 using Nat.strong_induction_on generalizing d n with
  | _ k ih =>
  have h1 := h.day_pos; have h2 := h.day_le
  have hb := daysIn_bounds d.month
  have hdi : dayIndex d < 365 := by
    have := daysBefore_add h.month_pos h.month_le
    unfold dayIndex; omega
  rw [addDays_unfold h]
  by_cases hpos : n % 365 > 0
  · rw [if_pos hpos]
    have hmod : (d.day + n % 365) % 256 = d.day + n % 365 := Nat.mod_eq_of_lt hn
    rw [hmod]
    by_cases hov : d.day + n % 365 > daysIn d.month
    · rw [if_pos hov]
      have hlt : d.day + n % 365 - daysIn d.month - 1 < 365 := by omega
      obtain ⟨d', e1, e2, e3, e4⟩ := ih (1 + (d.day + n % 365 - daysIn d.month - 1) % 365)
        (by rw [Nat.mod_eq_of_lt hlt]; omega)
        (d.day + n % 365 - daysIn d.month - 1)
        ⟨if d.month + 1 = 13 then 1 else d.month + 1, 1, d.hour⟩ (next_month_valid h)
        (by rw [Nat.mod_eq_of_lt hlt]; simp only; omega) rfl
      refine ⟨d', e1, e2, e3, ?_⟩
      rw [e4]
      have hni := next_month_index h
      unfold dayIndex at hni ⊢
      omega
    · rw [if_neg hov]
      have : n % 365 % 256 = n % 365 := Nat.mod_eq_of_lt (by omega)
      rw [this, if_pos hn]
      refine ⟨_, rfl, ⟨h.month_pos, h.month_le, by simp only; omega, by simp only; omega,
        h.hour_nonneg, h.hour_lt⟩, rfl, ?_⟩
      have := daysBefore_add h.month_pos h.month_le
      unfold dayIndex at hdi ⊢
      simp only
      omega
  · rw [if_neg hpos]
    exact ⟨d, rfl, h, rfl, by omega⟩

theorem addDays_bad (n : ℕ) (d : Date) (h : Valid d) (hn : 256 ≤ d.day + n % 365) :
    d.addDays n = none ∨
    ∃ d', d.addDays n = some d' ∧ Valid d' ∧ d'.hour = d.hour ∧
      (dayIndex d' + 256) % 365 = (dayIndex d + n) % 365 := by
  induction hk : d.day + n % 365 using Nat.strong_induction_on generalizing d n with
  | _ k ih =>
  have h1 := h.day_pos; have h2 := h.day_le
  have hb := daysIn_bounds d.month
  have hdi : dayIndex d < 365 := by
    have := daysBefore_add h.month_pos h.month_le
    unfold dayIndex; omega
  have hml : n % 365 < 365 := Nat.mod_lt _ (by norm_num)
  rw [addDays_unfold h]
  have hpos : n % 365 > 0 := by omega
  rw [if_pos hpos]
  have hmod : (d.day + n % 365) % 256 = d.day + n % 365 - 256 := by omega
  rw [hmod]
  by_cases hov : d.day + n % 365 - 256 > daysIn d.month
  · rw [if_pos hov]
    have hlt : d.day + n % 365 - daysIn d.month - 1 < 365 := by omega
    rcases ih (1 + (d.day + n % 365 - daysIn d.month - 1) % 365)
      (by rw [Nat.mod_eq_of_lt hlt]; omega)
      (d.day + n % 365 - daysIn d.month - 1)
      ⟨if d.month + 1 = 13 then 1 else d.month + 1, 1, d.hour⟩ (next_month_valid h)
      (by rw [Nat.mod_eq_of_lt hlt]; simp only; omega) rfl with e | ⟨d', e1, e2, e3, e4⟩
    · exact Or.inl e
    · refine Or.inr ⟨d', e1, e2, e3, ?_⟩
      rw [e4]
      have hni := next_month_index h
      unfold dayIndex at hni ⊢
      omega
  · rw [if_neg hov]
    by_cases hp : d.day + n % 365 % 256 < 256
    · rw [if_pos hp]
      right
      refine ⟨_, rfl, ⟨h.month_pos, h.month_le, by simp only; omega, by simp only; omega,
        h.hour_nonneg, h.hour_lt⟩, rfl, ?_⟩
      have := daysBefore_add h.month_pos h.month_le
      unfold dayIndex at hdi ⊢
      simp only
      omega
    · rw [if_neg hp]; exact Or.inl rfl

theorem pos_addDays {d d' : Date} {n : ℕ} (h : Valid d) (h' : Valid d') (hh : d'.hour = d.hour)
    (e : dayIndex d' = (dayIndex d + n) % 365) : pos d' = wrap (pos d + n) := by
  symm
  obtain ⟨q, hq⟩ : ∃ q : ℕ, dayIndex d + n = (dayIndex d + n) % 365 + 365 * q :=
    ⟨_, (Nat.mod_add_div (dayIndex d + n) 365).symm⟩
  apply wrap_eq (q : ℤ) _ (pos_nonneg h') (pos_lt_year h')
  rw [pos_eq_dayIndex h, pos_eq_dayIndex h', hh, e]
  have : ((dayIndex d + n : ℕ) : ℚ) = ((dayIndex d + n) % 365 : ℕ) + 365 * (q : ℕ) := by
    exact_mod_cast hq
  push_cast at this ⊢
  linarith

theorem addHours_ok {d : Date} (hd : Valid d) {h : ℚ} (h0 : 0 ≤ h)
    (hn : d.day + ⌊h / 24⌋.toNat % 365 < 256) :
    ∃ d', d.addHours h = some d' ∧ Valid d' ∧ pos d' = wrap (pos d + h / 24) := by
  obtain ⟨d1, e1, v1, hh1, i1⟩ := addDays_ok ⌊h / 24⌋.toNat d hd hn
  have hfl : 0 ≤ ⌊h / 24⌋ := Int.floor_nonneg.mpr (by positivity)
  have hcast : ((⌊h / 24⌋.toNat : ℕ) : ℚ) = (⌊h / 24⌋ : ℚ) := by
    have : ((⌊h / 24⌋.toNat : ℕ) : ℤ) = ⌊h / 24⌋ := Int.toNat_of_nonneg hfl
    exact_mod_cast this
  have hp1 := pos_addDays hd v1 hh1 i1
  rw [hcast] at hp1
  obtain ⟨k1, hk1⟩ := wrap_spec (pos d + (⌊h / 24⌋ : ℚ))
  rw [← hp1] at hk1
  have hf1 := Int.floor_le (h / 24)
  have hf2 := Int.lt_floor_add_one (h / 24)
  unfold Date.addHours
  simp only [e1, Option.bind_eq_bind, Option.bind_some]
  by_cases hov : d1.hour + (h - 24 * (⌊h / 24⌋ : ℚ)) ≥ 24
  · rw [if_pos hov]
    have hlt48 : d1.hour + (h - 24 * (⌊h / 24⌋ : ℚ)) < 48 := by
      have := v1.hour_lt; linarith
    -- the intermediate date has an hour ≥ 24, so use a valid proxy with hour 0
    have vz : Valid ⟨d1.month, d1.day, 0⟩ :=
      ⟨v1.month_pos, v1.month_le, v1.day_pos, v1.day_le, le_refl _, by norm_num⟩
    have hday : d1.day + 1 % 365 < 256 := by
      have := v1.day_le; have := daysIn_bounds d1.month; omega
    have hres : ∃ m' dd', (∀ hr : ℚ, Date.addDays ⟨d1.month, d1.day, hr⟩ 1 = some ⟨m', dd', hr⟩) ∧
        Valid ⟨m', dd', 0⟩ ∧ dayIndex ⟨m', dd', 0⟩ = (dayIndex d1 + 1) % 365 := by
      have hg := nDaysPerMonth_get v1.month_pos v1.month_le
      have h0m : d1.month ≠ 0 := by have := v1.month_pos; omega
      have hdl := v1.day_le
      have hb := daysIn_bounds d1.month
      obtain ⟨d2, e2, v2, hh2, i2⟩ := addDays_ok 1 ⟨d1.month, d1.day, 0⟩ vz hday
      obtain ⟨m', dd', hr'⟩ := d2
      simp only at hh2
      subst hh2
      refine ⟨m', dd', ?_, v2, i2⟩
      intro hr
      -- the control flow of `addDays` does not look at the hour
      rw [addDays_unfold vz] at e2
      rw [Date.addDays]
      simp only [h0m, if_false]
      split
      · split
        · rename_i heq; rw [hg] at heq; cases heq
        · rename_i heq; rw [hg] at heq; cases heq
          simp only [show (1 % 365 > 0) from by norm_num, if_true] at e2
          by_cases c : (d1.day + 1 % 365) % 256 > daysIn d1.month
          · rw [if_pos c] at e2 ⊢
            have hz : d1.day + 1 % 365 - daysIn d1.month - 1 = 0 := by omega
            rw [hz] at e2 ⊢
            rw [Date.addDays] at e2 ⊢
            simp at e2 ⊢
            exact e2
          · rw [if_neg c] at e2 ⊢
            by_cases c2 : d1.day + 1 % 365 % 256 < 256
            · rw [if_pos c2] at e2
              simp at e2 ⊢
              exact e2
            · rw [if_neg c2] at e2; cases e2
      · rename_i hc; norm_num at hc
    obtain ⟨m', dd', e2, v2, i2⟩ := hres
    rw [e2]
    have hfm : fmod (d1.hour + (h - 24 * (⌊h / 24⌋ : ℚ))) 24 =
        d1.hour + (h - 24 * (⌊h / 24⌋ : ℚ)) - 24 := by
      unfold fmod
      have : ⌊(d1.hour + (h - 24 * (⌊h / 24⌋ : ℚ))) / 24⌋ = 1 := by
        rw [Int.floor_eq_iff]; constructor <;> push_cast <;> linarith
      rw [if_pos (by linarith), this]; push_cast; ring
    simp only [Option.bind_some]
    rw [hfm]
    refine ⟨_, rfl, ⟨v2.month_pos, v2.month_le, v2.day_pos, v2.day_le, by simp only; linarith,
      by simp only; linarith⟩, ?_⟩
    have v3 : Valid ⟨m', dd', d1.hour + (h - 24 * (⌊h / 24⌋ : ℚ)) - 24⟩ :=
      ⟨v2.month_pos, v2.month_le, v2.day_pos, v2.day_le, by simp only; linarith,
      by simp only; linarith⟩
    symm
    obtain ⟨q, hq⟩ : ∃ q : ℕ, dayIndex d1 + 1 = (dayIndex d1 + 1) % 365 + 365 * q :=
      ⟨_, (Nat.mod_add_div (dayIndex d1 + 1) 365).symm⟩
    apply wrap_eq (k1 + (q : ℤ)) _ (pos_nonneg v3) (pos_lt_year v3)
    rw [pos_eq_dayIndex v3]
    have i3 : dayIndex ⟨m', dd', d1.hour + (h - 24 * (⌊h / 24⌋ : ℚ)) - 24⟩ = (dayIndex d1 + 1) % 365 := i2
    rw [i3]
    rw [pos_eq_dayIndex v1] at hk1
    have : ((dayIndex d1 + 1 : ℕ) : ℚ) = ((dayIndex d1 + 1) % 365 : ℕ) + 365 * (q : ℕ) := by
      exact_mod_cast hq
    push_cast at this ⊢
    linarith
  · rw [if_neg hov]
    push Not at hov
    have v3 : Valid ⟨d1.month, d1.day, d1.hour + (h - 24 * (⌊h / 24⌋ : ℚ))⟩ :=
      ⟨v1.month_pos, v1.month_le, v1.day_pos, v1.day_le,
        by have := v1.hour_nonneg; simp only; linarith, hov⟩
    refine ⟨_, rfl, v3, ?_⟩
    symm
    apply wrap_eq k1 _ (pos_nonneg v3) (pos_lt_year v3)
    rw [pos_eq_dayIndex v3]
    rw [pos_eq_dayIndex v1] at hk1
    have i3 : dayIndex ⟨d1.month, d1.day, d1.hour + (h - 24 * (⌊h / 24⌋ : ℚ))⟩ = dayIndex d1 := rfl
    rw [i3]
    linarith

end Simple.Calendar
