import Verif.Calendar.Model

/-! # Specification of the 365-day calendar, independent of the code's tables -/

namespace Simple.Calendar.Spec

/-- Number of days of each month of a non-leap year. -/
def daysIn : ℕ → ℕ
  | 2 => 28
  | 4 => 30
  | 6 => 30
  | 9 => 30
  | 11 => 30
  | _ => 31

/-- Number of days of the year before month `m` begins. -/
def daysBefore : ℕ → ℕ
  | 0 => 0
  | 1 => 0
  | m + 2 => daysBefore (m + 1) + daysIn (m + 1)

/-- A date of a 365-day year. -/
structure Valid (d : Date) : Prop where
  month_pos : 1 ≤ d.month
  month_le : d.month ≤ 12
  day_pos : 1 ≤ d.day
  day_le : d.day ≤ daysIn d.month
  hour_nonneg : 0 ≤ d.hour
  hour_lt : d.hour < 24

/-- Time elapsed since the beginning of the year, in days. -/
def pos (d : Date) : ℚ := (daysBefore d.month + (d.day - 1) : ℚ) + d.hour / 24

/-- Reduction of a time (in days) into the 365-day year. -/
def wrap (t : ℚ) : ℚ := t - 365 * ⌊t / 365⌋

/-- Time needed to travel forward from position `a` to position `b`, possibly through
the new year. -/
def forward (a b : ℚ) : ℚ := wrap (b - a)

end Simple.Calendar.Spec
