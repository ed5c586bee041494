import Verif.Calendar.PeriodLemmas

/-!
# Calendar properties C01 – C06

`Valid`, `pos`, `wrap`, `forward` come from `Verif.Calendar.Spec`, which does not use the
tables or functions of the model.
-/

namespace Simple.Calendar
open Spec

/-! ## C01: day-of-year round trip -/

/-- The day of the year of a valid date is the time elapsed since the start of the year. -/
theorem C01_dayOfYear (d : Date) (h : Valid d) : d.dayOfYear = some (pos d) := dayOfYear_eq h

/-- date → day of year → date is the identity. -/
theorem C01_roundtrip_date (d : Date) (h : Valid d) :
    d.dayOfYear.bind Date.fromDayOfYear = some d := by
  rw [dayOfYear_eq h]
  obtain ⟨d', e, v, hp⟩ := fromDayOfYear_spec (pos_nonneg h) (pos_lt_year h)
  simp only [Option.bind_some, e]
  rw [pos_inj v h hp]

/-- day of year → date → day of year is the identity on `[0,365)`, and the date is valid. -/
theorem C01_roundtrip_day (n : ℚ) (h0 : 0 ≤ n) (h1 : n < 365) :
    ∃ d, Date.fromDayOfYear n = some d ∧ Valid d ∧ d.dayOfYear = some n := by
  obtain ⟨d, e, v, hp⟩ := fromDayOfYear_spec h0 h1
  exact ⟨d, e, v, by rw [dayOfYear_eq v, hp]⟩

/-- Anything outside `[0,365)` is rejected (panic). -/
theorem C01_rejects (n : ℚ) (h : n < 0 ∨ 365 ≤ n) : Date.fromDayOfYear n = none := by
  unfold Date.fromDayOfYear
  rw [if_neg]
  rintro ⟨h0, h1⟩
  rcases h with h | h <;> linarith

example : Valid ⟨12, 31, 47 / 2⟩ := ⟨by norm_num, by norm_num, by norm_num, by decide, by norm_num, by norm_num⟩
example : pos ⟨3, 1, 12⟩ = 59.5 := by norm_num [pos, daysBefore, daysIn]

/-! ## C02: chronological order -/

/-- `<` and `<=` on dates agree with the position in the year, `==` with equality. -/
theorem C02_order (a b : Date) (ha : Valid a) (hb : Valid b) :
    (a.cmp b = .lt ↔ pos a < pos b) ∧ (a.cmp b = .gt ↔ pos b < pos a) ∧
    (a.cmp b = .eq ↔ pos a = pos b) ∧ (a.cmp b = .eq ↔ a = b) := by
  refine ⟨by rw [cmp_lt_iff, lex_iff_pos ha hb], by rw [cmp_gt_iff, lex_iff_pos hb ha], ?_,
    cmp_eq_iff a b⟩
  rw [cmp_eq_iff]
  exact ⟨fun h => by rw [h], pos_inj ha hb⟩

/-- The comparison is a total order on all dates, valid or not: antisymmetric orientation,
transitivity, totality. -/
theorem C02_total_order (a b c : Date) :
    (a.cmp b = .lt ↔ b.cmp a = .gt) ∧
    (a.le b = true → b.le c = true → a.le c = true) ∧
    (a.le b = true → b.le a = true → a = b) ∧
    (a.le b = true ∨ b.le a = true) := by
  have hirr : ∀ x y, LexLt x y → ¬ LexLt y x := by
    intro x y h h'
    unfold LexLt at *
    rcases h with h | ⟨h, h1 | ⟨h1, h2⟩⟩ <;> rcases h' with g | ⟨g, g1 | ⟨g1, g2⟩⟩ <;>
      first | omega | linarith
  have htr : ∀ x y z, LexLt x y → LexLt y z → LexLt x z := by
    intro x y z h h'
    unfold LexLt at *
    rcases h with h | ⟨h, h1 | ⟨h1, h2⟩⟩ <;> rcases h' with g | ⟨g, g1 | ⟨g1, g2⟩⟩
    · left; omega
    · left; omega
    · left; omega
    · left; omega
    · right; exact ⟨by omega, Or.inl (by omega)⟩
    · right; exact ⟨by omega, Or.inl (by omega)⟩
    · left; omega
    · right; exact ⟨by omega, Or.inl (by omega)⟩
    · right; exact ⟨by omega, Or.inr ⟨by omega, by linarith⟩⟩
  have hle : ∀ x y : Date, x.le y = true ↔ ¬ LexLt y x := by
    intro x y; unfold Date.le; rw [bne_iff_ne, ne_eq, cmp_gt_iff]
  refine ⟨by rw [cmp_lt_iff, cmp_gt_iff], ?_, ?_, ?_⟩
  · rw [hle, hle, hle]
    intro h1 h2 h3
    rcases lex_trichotomy a b with h | h | h
    · exact h2 (htr _ _ _ h3 h)
    · subst h; exact h2 h3
    · exact h1 h
  · rw [hle, hle]
    intro h1 h2
    rcases lex_trichotomy a b with h | h | h
    · exact absurd h h2
    · exact h
    · exact absurd h h1
  · rw [hle, hle]
    by_cases h : LexLt b a
    · exact Or.inr (hirr _ _ h)
    · exact Or.inl h

/-- Subtraction is the difference of positions, hence positive exactly for later dates. -/
theorem C02_sub (a b : Date) (ha : Valid a) (hb : Valid b) :
    a.sub b = some (pos a - pos b) ∧ (0 < pos a - pos b ↔ b.lt a = true) := by
  constructor
  · simp [Date.sub, dayOfYear_eq ha, dayOfYear_eq hb]
  · rw [lt_iff_pos hb ha, sub_pos]

/-- `is_earlier` is strict precedence; `same_day` is equality of month and day. -/
theorem C02_is_earlier (a b : Date) (ha : Valid a) (hb : Valid b) :
    (a.isEarlier b = true ↔ pos a < pos b) ∧
    (a.sameDay b = true ↔ ⌊pos a⌋ = ⌊pos b⌋) := by
  constructor
  · unfold Date.isEarlier
    split
    · rename_i h; subst h; simp
    · rename_i h
      rw [le_iff_pos ha hb, lt_iff_le_and_ne]
      exact ⟨fun h' => ⟨h', fun e => h (pos_inj ha hb e)⟩, fun h' => h'.1⟩
  · have hfl : ∀ d : Date, Valid d → ⌊pos d⌋ = (dayIndex d : ℤ) := by
      intro d hd
      rw [Int.floor_eq_iff, pos_eq_dayIndex hd]
      have := hd.hour_nonneg; have := hd.hour_lt
      constructor
      · push_cast; have : 0 ≤ d.hour / 24 := by positivity
        linarith
      · push_cast; linarith
    rw [hfl a ha, hfl b hb]
    unfold Date.sameDay
    rw [Bool.and_eq_true, beq_iff_eq, beq_iff_eq]
    constructor
    · rintro ⟨h1, h2⟩; unfold dayIndex; rw [h1, h2]
    · intro h
      have h' : dayIndex a = dayIndex b := by exact_mod_cast h
      have a0 : Valid ⟨a.month, a.day, 0⟩ :=
        ⟨ha.month_pos, ha.month_le, ha.day_pos, ha.day_le, le_refl _, by norm_num⟩
      have b0 : Valid ⟨b.month, b.day, 0⟩ :=
        ⟨hb.month_pos, hb.month_le, hb.day_pos, hb.day_le, le_refl _, by norm_num⟩
      have : (⟨a.month, a.day, 0⟩ : Date) = ⟨b.month, b.day, 0⟩ := by
        apply pos_inj a0 b0
        rw [pos_eq_dayIndex a0, pos_eq_dayIndex b0]
        have : dayIndex ⟨a.month, a.day, 0⟩ = dayIndex ⟨b.month, b.day, 0⟩ := h'
        rw [this]
      injection this with e1 e2
      exact ⟨e1, e2⟩

example : (⟨2, 28, 23⟩ : Date).cmp ⟨3, 1, 0⟩ = .lt := by decide

/-! ## C03: advancing a date -/

/-- `add_days` moves the date by exactly `n` days (modulo the year) if *and only if*
`day + n % 365` fits in a `u8`.  (Full statement of C03 would have no side condition.) -/
theorem C03_addDays_exact_iff (d : Date) (h : Valid d) (n : ℕ) :
    (∃ d', d.addDays n = some d' ∧ Valid d' ∧ d'.hour = d.hour ∧ pos d' = wrap (pos d + n)) ↔
      d.day + n % 365 < 256 := by
  constructor
  · rintro ⟨d', e, v, hh, hp⟩
    by_contra hn
    push Not at hn
    rcases addDays_bad n d h hn with e' | ⟨d2, e2, v2, hh2, i2⟩
    · rw [e] at e'; cases e'
    · rw [e] at e2; cases e2
      -- positions differ by 256 days
      obtain ⟨k, hk⟩ := wrap_spec (pos d + n)
      rw [← hp, pos_eq_dayIndex h, pos_eq_dayIndex v, hh] at hk
      have hk' : ((dayIndex d : ℤ) : ℚ) + ((n : ℤ) : ℚ) = ((dayIndex d' : ℤ) : ℚ) + 365 * (k : ℚ) := by
        push_cast; linarith
      have hk'' : (dayIndex d : ℤ) + n = dayIndex d' + 365 * k := by exact_mod_cast hk'
      omega
  · intro hn
    obtain ⟨d', e, v, hh, i⟩ := addDays_ok n d h hn
    exact ⟨d', e, v, hh, pos_addDays h v hh i⟩

/-- What happens otherwise: either an overflow panic, or a valid date exactly 256 days too early. -/
theorem C03_addDays_wrong (d : Date) (h : Valid d) (n : ℕ) (hn : 256 ≤ d.day + n % 365) :
    d.addDays n = none ∨
    ∃ d', d.addDays n = some d' ∧ Valid d' ∧ pos d' = wrap (pos d + n - 256) := by
  rcases addDays_bad n d h hn with e | ⟨d', e, v, hh, i⟩
  · exact Or.inl e
  · refine Or.inr ⟨d', e, v, ?_⟩
    symm
    obtain ⟨q, hq⟩ : ∃ q : ℤ, (dayIndex d : ℤ) + n - 256 = dayIndex d' + 365 * q := by
      refine ⟨((dayIndex d : ℤ) + n - 256 - dayIndex d') / 365, ?_⟩
      omega
    refine wrap_eq q ?_ (pos_nonneg v) (pos_lt_year v)
    rw [pos_eq_dayIndex h, pos_eq_dayIndex v, hh]
    have : ((dayIndex d : ℤ) : ℚ) + n - 256 = ((dayIndex d' : ℤ) : ℚ) + 365 * q := by exact_mod_cast hq
    push_cast at this
    linarith

/-- Counterexample to the unrestricted property: Jan 1 + 300 days is reported as Feb 14. -/
theorem C03_violated :
    Date.addDays ⟨1, 1, 0⟩ 300 = some ⟨2, 14, 0⟩ ∧ wrap (pos ⟨1, 1, 0⟩ + 300) = pos ⟨10, 28, 0⟩ := by
  constructor
  · rw [addDays_unfold ⟨by norm_num, by norm_num, by norm_num, by decide, by norm_num, by norm_num⟩]
    norm_num [daysIn]
    rw [addDays_unfold ⟨by norm_num, by norm_num, by norm_num, by decide, by norm_num, by norm_num⟩]
    norm_num [daysIn]
  · refine wrap_eq 0 ?_ ?_ ?_ <;> norm_num [pos, daysBefore, daysIn]

/-- `add_hours` for non-negative amounts whose whole days keep `day + days` below 256
(always the case below 225 days). -/
theorem C03_addHours_partial (d : Date) (hd : Valid d) (h : ℚ) (h0 : 0 ≤ h)
    (hn : d.day + ⌊h / 24⌋.toNat % 365 < 256) :
    ∃ d', d.addHours h = some d' ∧ Valid d' ∧ pos d' = wrap (pos d + h / 24) :=
  addHours_ok hd h0 hn

/-- `add_seconds` and `add_minutes` below 224 days. -/
theorem C03_addSeconds_partial (d : Date) (hd : Valid d) (dt : ℚ) (h0 : 0 ≤ dt)
    (h1 : dt < 224 * 86400) :
    (∃ d', d.addSeconds dt = some d' ∧ Valid d' ∧ pos d' = wrap (pos d + dt / 86400)) ∧
    (∃ d', d.addMinutes (dt / 60) = some d' ∧ Valid d' ∧ pos d' = wrap (pos d + dt / 86400)) := by
  refine ⟨addSeconds_ok hd h0 h1, ?_⟩
  obtain ⟨d', e, r⟩ := addSeconds_ok hd h0 h1
  refine ⟨d', ?_, r⟩
  unfold Date.addMinutes
  unfold Date.addSeconds at e
  rw [← e]; congr 1; rw [div_div]; norm_num

example : ∃ d', Date.addHours ⟨12, 31, 23⟩ (3 / 2) = some d' ∧ Valid d' ∧ pos d' = 1 / 48 := by
  obtain ⟨d', a, b, c⟩ := C03_addHours_partial ⟨12, 31, 23⟩
    ⟨by norm_num, by norm_num, by norm_num, by decide, by norm_num, by norm_num⟩ (3 / 2) (by norm_num)
    (by norm_num)
  refine ⟨d', a, b, ?_⟩
  rw [c]
  refine wrap_eq 1 ?_ ?_ ?_ <;> norm_num [pos, daysBefore, daysIn]

/-- C03 for negative amounts, in hours: the whole days are left out, so the date moves *forwards*, by what is left of the amount after taking
away its whole days, rounded down. -/
theorem C03_negative (d : Date) (hd : Valid d) (h : ℚ) (h0 : h < 0) :
    ∃ d', d.addHours h = some d' ∧ Valid d' ∧ pos d' = wrap (pos d + (h / 24 - ⌊h / 24⌋)) := by
  have hf : ⌊(h - 24 * ⌊h / 24⌋) / 24⌋ = 0 := by
    have : (h - 24 * ⌊h / 24⌋) / 24 = h / 24 - ⌊h / 24⌋ := by ring
    rw [this, Int.floor_sub_intCast, sub_self]
  have hneg : ⌊h / 24⌋.toNat = 0 := by
    rw [Int.toNat_eq_zero]
    have : ⌊h / 24⌋ < 0 := Int.floor_lt.2 (by push_cast; linarith)
    omega
  have e : d.addHours h = d.addHours (h - 24 * ⌊h / 24⌋) := by
    unfold Date.addHours
    dsimp only
    rw [hf, hneg]
    simp
  have hge : 0 ≤ h - 24 * ⌊h / 24⌋ := by
    have := Int.floor_le (h / 24)
    linarith
  obtain ⟨d', a, b, c⟩ := C03_addHours_partial d hd (h - 24 * ⌊h / 24⌋) hge (by
    rw [hf]
    have h1 := hd.day_le
    have h2 : daysIn d.month ≤ 31 := (daysIn_bounds _).2
    simp only [Int.toNat_zero, Nat.zero_mod, Nat.add_zero]
    omega)
  refine ⟨d', e.trans a, b, ?_⟩
  rw [c]
  congr 1
  ring

/-- Counterexample to the property for negative amounts: taking one hour from noon gives eleven in the morning of the next day. -/
theorem C03_violated_negative :
    Date.addHours ⟨6, 1, 12⟩ (-1) = some ⟨6, 2, 11⟩ := by
  decide +kernel

/-! ## C04: iterating a period -/

/-- The `k`-th call (from 0) to `next` on a fresh period returns a date located exactly
`(k+1)·dt` after the start while that does not go past the end of the period, and `None` from then
on.  Partial: for a period through the new year it needs the part after the new year to be at
least one timestep long, and in general timesteps below 224 days. -/
theorem C04_nth_call_partial (s e : Date) (dt : ℚ) (hs : Valid s) (he : Valid e)
    (hdt0 : 0 < dt) (hdt1 : dt < 224 * 86400)
    (hny : pos e < pos s → dt / 86400 ≤ pos e ∧ pos e + dt / 86400 < 365) :
    ∃ p, Period.new s e dt = some p ∧ ∀ k : ℕ,
      ((k + 1) * (dt / 86400) ≤ forward (pos s) (pos e) ∧
        ∃ d, p.nthCall k = some (some d) ∧ Valid d ∧
          pos d = wrap (pos s + (k + 1) * (dt / 86400)) ∧ p.contains d = true) ∨
      (forward (pos s) (pos e) < (k + 1) * (dt / 86400) ∧ p.nthCall k = some none) := by
  refine ⟨⟨e, s, s, dt, e.lt s⟩, ?_, ?_⟩
  · unfold Period.new
    rw [if_neg (not_le.mpr hs.hour_lt), if_neg (not_le.mpr he.hour_lt)]
  · intro k
    have s0 := pos_nonneg hs; have s1 := pos_lt_year hs
    have e0 := pos_nonneg he; have e1 := pos_lt_year he
    have hgl : e.lt s = decide (pos e < pos s) := by
      rw [Bool.eq_iff_iff, lt_iff_pos he hs, decide_eq_true_iff]
    have hfw : 0 ≤ forward (pos s) (pos e) := wrap_nonneg _
    have hδ : 0 < dt / 86400 := by positivity
    rcases nthCall_spec k ⟨e, s, s, dt, e.lt s⟩ hs he hs hdt0 hdt1 hgl hny (le_refl 0) hfw
      (by rw [add_zero]; exact (wrap_self s0 s1).symm) with ⟨a, d, b, c, f⟩ | ⟨a, b⟩
    · left
      rw [zero_add] at a f
      refine ⟨a, d, b, c, f, ?_⟩
      have hpk : 0 ≤ ((k:ℚ) + 1) * (dt / 86400) := by positivity
      have d0 := pos_nonneg c
      unfold Period.contains
      simp only [hgl]
      by_cases hreg : pos e < pos s
      · simp only [hreg, decide_true, Bool.not_true, Bool.false_eq_true, if_false]
        rw [Bool.or_eq_true, le_iff_pos c he, le_iff_pos hs c, f]
        rw [forward_of_lt s1 e0 hreg] at a
        rcases lt_or_ge (pos s + (k + 1) * (dt / 86400)) 365 with h | h
        · right; rw [wrap_self (by linarith) h]; linarith
        · left; rw [wrap_eq (x := pos s + (k + 1) * (dt / 86400) - 365) 1 (by push_cast; ring)
            (by linarith) (by linarith)]; linarith
      · simp only [hreg, decide_false, Bool.not_false, if_true]
        rw [Bool.and_eq_true, le_iff_pos c he, le_iff_pos hs c, f]
        rw [forward_of_le s0 e1 (not_lt.mp hreg)] at a
        rw [wrap_self (by linarith) (by linarith)]
        constructor <;> linarith
    · right
      rw [zero_add] at a
      exact ⟨a, b⟩

/-- Consequence: the iteration stops, and the number of yielded dates is
`⌊length / dt⌋`; the first `None` comes right after. -/
theorem C04_terminates_partial (s e : Date) (dt : ℚ) (hs : Valid s) (he : Valid e)
    (hdt0 : 0 < dt) (hdt1 : dt < 224 * 86400)
    (hny : pos e < pos s → dt / 86400 ≤ pos e ∧ pos e + dt / 86400 < 365) :
    ∃ p, Period.new s e dt = some p ∧
      ∃ N : ℕ, (N : ℤ) = ⌊forward (pos s) (pos e) / (dt / 86400)⌋ ∧
        (∀ k < N, ∃ d, p.nthCall k = some (some d)) ∧ (∀ k ≥ N, p.nthCall k = some none) := by
  obtain ⟨p, hp, hk⟩ := C04_nth_call_partial s e dt hs he hdt0 hdt1 hny
  have hδ : 0 < dt / 86400 := by positivity
  have hfw : 0 ≤ forward (pos s) (pos e) := wrap_nonneg _
  have hN : 0 ≤ ⌊forward (pos s) (pos e) / (dt / 86400)⌋ := Int.floor_nonneg.mpr (by positivity)
  refine ⟨p, hp, ⌊forward (pos s) (pos e) / (dt / 86400)⌋.toNat, Int.toNat_of_nonneg hN, ?_, ?_⟩
  · intro k hk1
    rcases hk k with ⟨_, d, h, _⟩ | ⟨h, _⟩
    · exact ⟨d, h⟩
    · exfalso
      have h1 : ((k + 1 : ℕ) : ℤ) ≤ ⌊forward (pos s) (pos e) / (dt / 86400)⌋ := by omega
      rw [Int.le_floor, le_div_iff₀ hδ] at h1
      push_cast at h1; linarith
  · intro k hk1
    rcases hk k with ⟨h, _⟩ | ⟨_, h⟩
    · exfalso
      rw [← le_div_iff₀ hδ] at h
      have h1 : ((k + 1 : ℕ) : ℤ) ≤ ⌊forward (pos s) (pos e) / (dt / 86400)⌋ := by
        rw [Int.le_floor]; push_cast; exact h
      omega
    · exact h

/-- Counterexample to the unrestricted property: with a 5 hour timestep the period from
Dec 31 23:00 to Jan 1 01:00 never ends, and each date it yields is outside of the period or at its start. -/
theorem C04_violated_never_ends :
    ∃ p, Period.new ⟨12, 31, 23⟩ ⟨1, 1, 1⟩ 18000 = some p ∧
      ∀ k : ℕ, ∃ d, p.nthCall k = some (some d) ∧ Valid d ∧ pos ⟨1, 1, 1⟩ < pos d := by
  have vs : Valid ⟨12, 31, 23⟩ :=
    ⟨by norm_num, by norm_num, by norm_num, by decide, by norm_num, by norm_num⟩
  have ve : Valid ⟨1, 1, 1⟩ :=
    ⟨by norm_num, by norm_num, by norm_num, by decide, by norm_num, by norm_num⟩
  have hgl : (⟨1, 1, 1⟩ : Date).lt ⟨12, 31, 23⟩ = true := by decide
  have pe : pos ⟨1, 1, 1⟩ = 1 / 24 := by norm_num [pos, daysBefore]
  refine ⟨⟨⟨1, 1, 1⟩, ⟨12, 31, 23⟩, ⟨12, 31, 23⟩, 18000, true⟩, ?_, ?_⟩
  · unfold Period.new
    rw [hgl]; norm_num
  · -- invariant: the current hour of the year is 4 modulo 5
    have step : ∀ (c : Date) (n : ℕ), Valid c → pos c = (5 * n + 4) / 24 →
        ∃ d m, (⟨⟨1, 1, 1⟩, ⟨12, 31, 23⟩, c, 18000, true⟩ : Period).next =
          some (some d, ⟨⟨1, 1, 1⟩, ⟨12, 31, 23⟩, d, 18000, true⟩) ∧ Valid d ∧
          pos d = (5 * (m : ℕ) + 4) / 24 := by
      intro c n hc hp
      obtain ⟨d, e1, v, hd⟩ := addSeconds_ok hc (dt := 18000) (by norm_num) (by norm_num)
      have c1 := pos_lt_year hc
      have hcle : c.le ⟨1, 1, 1⟩ = false := by
        rw [Bool.eq_false_iff, ne_eq, le_iff_pos hc ve, pe, hp]
        have : (0:ℚ) ≤ n := by positivity
        intro h; linarith
      have hm : ∃ m : ℕ, pos d = (5 * (m : ℕ) + 4) / 24 := by
        rcases lt_or_ge (pos c + 18000 / 86400) 365 with h | h
        · refine ⟨n + 1, ?_⟩
          rw [hd, wrap_self (by have := pos_nonneg hc; linarith) h, hp]; push_cast; ring
        · have hn : 1751 ≤ n := by
            rw [hp] at h
            by_contra hc'
            have : n ≤ 1750 := by omega
            have : (n:ℚ) ≤ 1750 := by exact_mod_cast this
            linarith
          refine ⟨n - 1751, ?_⟩
          rw [hd, wrap_eq (x := pos c + 18000 / 86400 - 365) 1 (by push_cast; ring)
            (by linarith) (by linarith), hp, Nat.cast_sub hn]
          push_cast; ring
      obtain ⟨m, hm⟩ := hm
      have hdle : d.le ⟨1, 1, 1⟩ = false := by
        rw [Bool.eq_false_iff, ne_eq, le_iff_pos v ve, pe, hm]
        have : (0:ℚ) ≤ m := by positivity
        intro h; linarith
      refine ⟨d, m, ?_, v, hm⟩
      unfold Period.next
      simp only [e1, Option.bind_eq_bind, Option.bind_some, hcle, hdle]
      simp
    have main : ∀ (k : ℕ) (c : Date) (n : ℕ), Valid c → pos c = (5 * n + 4) / 24 →
        ∃ d, (⟨⟨1, 1, 1⟩, ⟨12, 31, 23⟩, c, 18000, true⟩ : Period).nthCall k = some (some d) ∧
          Valid d ∧ pos ⟨1, 1, 1⟩ < pos d := by
      intro k
      induction k with
      | zero =>
        intro c n hc hp
        obtain ⟨d, m, h1, h2, h3⟩ := step c n hc hp
        refine ⟨d, by simp [Period.nthCall, h1], h2, ?_⟩
        rw [pe, h3]
        have : (0:ℚ) ≤ m := by positivity
        linarith
      | succ k ih =>
        intro c n hc hp
        obtain ⟨d, m, h1, h2, h3⟩ := step c n hc hp
        obtain ⟨d', h4, h5⟩ := ih d m h2 h3
        exact ⟨d', by simp [Period.nthCall, h1, h4], h5⟩
    intro k
    exact main k _ 1751 vs (by norm_num [pos, daysBefore, daysIn])

/-- Hypotheses are met by a one-year hourly simulation and by a new-year warm-up period. -/
example : Valid ⟨1, 1, 0⟩ ∧ Valid ⟨12, 31, 23⟩ ∧ ¬ pos ⟨12, 31, 23⟩ < pos ⟨1, 1, 0⟩ := by
  refine ⟨⟨by norm_num, by norm_num, by norm_num, by decide, by norm_num, by norm_num⟩,
    ⟨by norm_num, by norm_num, by norm_num, by decide, by norm_num, by norm_num⟩, ?_⟩
  norm_num [pos, daysBefore, daysIn]
example : pos ⟨1, 1, 1⟩ < pos ⟨12, 25, 1⟩ ∧ (3600:ℚ) / 86400 ≤ pos ⟨1, 1, 1⟩ ∧
    pos ⟨1, 1, 1⟩ + 3600 / 86400 < 365 := by
  norm_num [pos, daysBefore, daysIn]

/-! ## C05: membership in a period -/

/-- `contains` is membership in the cyclic interval from the start to the end. -/
theorem C05_contains (s e d : Date) (dt : ℚ) (hs : Valid s) (he : Valid e) (hd : Valid d) :
    ∃ p, Period.new s e dt = some p ∧
      (p.contains d = true ↔ forward (pos s) (pos d) ≤ forward (pos s) (pos e)) := by
  refine ⟨⟨e, s, s, dt, e.lt s⟩, ?_, ?_⟩
  · unfold Period.new
    rw [if_neg (not_le.mpr hs.hour_lt), if_neg (not_le.mpr he.hour_lt)]
  · have s0 := pos_nonneg hs; have s1 := pos_lt_year hs
    have e0 := pos_nonneg he; have e1 := pos_lt_year he
    have d0 := pos_nonneg hd; have d1 := pos_lt_year hd
    have hgl : e.lt s = decide (pos e < pos s) := by
      rw [Bool.eq_iff_iff, lt_iff_pos he hs, decide_eq_true_iff]
    unfold Period.contains
    simp only [hgl]
    by_cases hreg : pos e < pos s
    · simp only [hreg, decide_true, Bool.not_true, Bool.false_eq_true, if_false]
      rw [Bool.or_eq_true, le_iff_pos hd he, le_iff_pos hs hd, forward_of_lt s1 e0 hreg]
      by_cases hsd : pos d < pos s
      · rw [forward_of_lt s1 d0 hsd]
        constructor
        · rintro (h | h) <;> linarith
        · intro h; left; linarith
      · rw [forward_of_le s0 d1 (not_lt.mp hsd)]
        constructor
        · intro _; linarith
        · intro _; right; exact not_lt.mp hsd
    · simp only [hreg, decide_false, Bool.not_false, if_true]
      rw [Bool.and_eq_true, le_iff_pos hd he, le_iff_pos hs hd, forward_of_le s0 e1 (not_lt.mp hreg)]
      by_cases hsd : pos d < pos s
      · rw [forward_of_lt s1 d0 hsd]
        constructor
        · rintro ⟨_, h⟩; linarith
        · intro h; exfalso; linarith
      · rw [forward_of_le s0 d1 (not_lt.mp hsd)]
        constructor
        · rintro ⟨h, _⟩; linarith
        · intro h; exact ⟨by linarith, not_lt.mp hsd⟩

/-- Invalid hours (≥ 24) are rejected by the constructor. -/
theorem C05_new_rejects (s e : Date) (dt : ℚ) (h : 24 ≤ s.hour ∨ 24 ≤ e.hour) :
    Period.new s e dt = none := by
  unfold Period.new
  split
  · rfl
  · split
    · rfl
    · rcases h with h | h <;> contradiction

/-! ## C06: interpolation -/

/-- The interpolated date lies at fraction `x` of the forward path. -/
theorem C06_interpolate (a b : Date) (x : ℚ) (ha : Valid a) (hb : Valid b)
    (hx0 : 0 ≤ x) (hx1 : x ≤ 1) :
    ∃ d, a.interpolate b x = some d ∧ Valid d ∧
      pos d = wrap (pos a + x * forward (pos a) (pos b)) ∧
      forward (pos a) (pos d) = x * forward (pos a) (pos b) := by
  have a0 := pos_nonneg ha; have a1 := pos_lt_year ha
  have b0 := pos_nonneg hb; have b1 := pos_lt_year hb
  have hfull : (if pos b < pos a then pos b + 365 else pos b) - pos a = forward (pos a) (pos b) := by
    split
    · rename_i h; rw [forward_of_lt a1 b0 h]; ring
    · rename_i h; rw [forward_of_le a0 b1 (not_lt.mp h)]
  have f0 : 0 ≤ forward (pos a) (pos b) := wrap_nonneg _
  have f1 : forward (pos a) (pos b) < 365 := wrap_lt _
  have m0 : 0 ≤ x * forward (pos a) (pos b) := mul_nonneg hx0 f0
  have m1 : x * forward (pos a) (pos b) ≤ forward (pos a) (pos b) := by nlinarith
  have hmod : fmod (pos a + x * forward (pos a) (pos b)) 365 =
      wrap (pos a + x * forward (pos a) (pos b)) := by
    unfold fmod wrap
    rw [if_pos (by linarith)]
  obtain ⟨d, e, v, hp⟩ := fromDayOfYear_spec (wrap_nonneg (pos a + x * forward (pos a) (pos b)))
    (wrap_lt _)
  refine ⟨d, ?_, v, hp, ?_⟩
  · unfold Date.interpolate
    simp only [dayOfYear_eq ha, dayOfYear_eq hb, Option.bind_eq_bind, Option.bind_some]
    rw [hfull, hmod]; exact e
  · unfold forward at *
    rw [hp]
    obtain ⟨k, hk⟩ := wrap_spec (pos a + x * wrap (pos b - pos a))
    refine wrap_eq (-k) ?_ m0 (by linarith)
    push_cast; linarith

/-- At the ends the interpolation gives the two dates. -/
theorem C06_endpoints (a b : Date) (ha : Valid a) (hb : Valid b) :
    a.interpolate b 0 = some a ∧ a.interpolate b 1 = some b := by
  obtain ⟨d, e, v, hp, _⟩ := C06_interpolate a b 0 ha hb (le_refl _) (by norm_num)
  obtain ⟨d', e', v', hp', _⟩ := C06_interpolate a b 1 ha hb (by norm_num) (le_refl _)
  constructor
  · rw [e, pos_inj v ha]
    rw [hp, zero_mul, add_zero, wrap_self (pos_nonneg ha) (pos_lt_year ha)]
  · rw [e', pos_inj v' hb]
    rw [hp', one_mul]
    unfold forward
    obtain ⟨k, hk⟩ := wrap_spec (pos b - pos a)
    exact wrap_eq (-k) (by push_cast; linarith) (pos_nonneg hb) (pos_lt_year hb)

/-- Monotone along the forward path. -/
theorem C06_monotone (a b : Date) (x y : ℚ) (ha : Valid a) (hb : Valid b)
    (hx0 : 0 ≤ x) (hxy : x ≤ y) (hy1 : y ≤ 1) :
    ∃ d d', a.interpolate b x = some d ∧ a.interpolate b y = some d' ∧
      forward (pos a) (pos d) ≤ forward (pos a) (pos d') := by
  obtain ⟨d, e, _, _, h⟩ := C06_interpolate a b x ha hb hx0 (hxy.trans hy1)
  obtain ⟨d', e', _, _, h'⟩ := C06_interpolate a b y ha hb (hx0.trans hxy) hy1
  refine ⟨d, d', e, e', ?_⟩
  rw [h, h']
  exact mul_le_mul_of_nonneg_right hxy (wrap_nonneg _)

example : ∃ d, Date.interpolate ⟨12, 31, 12⟩ ⟨1, 1, 12⟩ (3/4) = some d ∧ pos d = 1/4 := by
  obtain ⟨d, e, _, hp, _⟩ := C06_interpolate ⟨12, 31, 12⟩ ⟨1, 1, 12⟩ (3/4)
    ⟨by norm_num, by norm_num, by norm_num, by decide, by norm_num, by norm_num⟩
    ⟨by norm_num, by norm_num, by norm_num, by decide, by norm_num, by norm_num⟩ (by norm_num) (by norm_num)
  refine ⟨d, e, ?_⟩
  rw [hp, forward_of_lt (by norm_num [pos, daysBefore, daysIn]) (by norm_num [pos, daysBefore, daysIn])
    (by norm_num [pos, daysBefore, daysIn])]
  exact wrap_eq 1 (by norm_num [pos, daysBefore, daysIn]) (by norm_num) (by norm_num)

end Simple.Calendar
