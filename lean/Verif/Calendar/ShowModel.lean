import Verif.Calendar.Model
import Verif.Float.F64Model

/-! Model of how a date is written, and of its conversions from and to the date-times of `chrono`,
`/repo/calendar/src/date.rs`.  Hours are rational numbers; at the end, the same with 64-bit floats, bit by bit.

Simplification: hours are not negative (a negative zero would be written `-0`). -/

namespace Simple.Calendar

/-- `f64::round`: to the nearest integer, away from zero when half way. -/
def roundAway (x : ℚ) : ℤ := if 0 ≤ x then ⌊x + 1 / 2⌋ else ⌈x - 1 / 2⌉

/-- `date.rs:70-78`: the hour and the minute that are written. -/
def clock (h : ℚ) : ℤ × ℤ :=
  let hour := ⌊h⌋
  let remainder := h - hour
  let minute := roundAway (remainder * 60)
  if minute = 60 then (hour + 1, 0) else (hour, minute)

/-- The format `{}` of a whole number. -/
def plain (n : ℕ) : List Char := Nat.toDigits 10 n

/-- The format `{:02}` of a whole number. -/
def padded (n : ℕ) : List Char := if (plain n).length < 2 then '0' :: plain n else plain n

/-- `date.rs:82-86`: the format `{:02}/{:02} - {}:{:02}`. -/
def label (month day hour minute : ℕ) : List Char :=
  padded month ++ '/' :: (padded day ++ ' ' :: '-' :: ' ' :: (plain hour ++ ':' :: padded minute))

/-- `date.rs:67-87`, `Display` for `Date`. -/
def Date.text (d : Date) : List Char := label d.month d.day (clock d.hour).1.toNat (clock d.hour).2.toNat

/-- A date and time of `chrono`, without the year. -/
structure DateTime where
  month : ℕ
  day : ℕ
  hour : ℕ
  minute : ℕ
  second : ℕ
deriving DecidableEq, Repr

/-- `date.rs:54-64`, `From<NaiveDateTime>`. -/
def Date.ofDateTime (t : DateTime) : Date := ⟨t.month, t.day, t.hour + t.minute / 60 + t.second / 3600⟩

/-- `date.rs:137-160`, `into_naive_datetime`, for a year that has this month and this day.  `chrono` refuses
hours over 23 and minutes over 59; the seconds are always below 60. -/
def Date.toDateTime (d : Date) : Option DateTime :=
  let hour := ⌊d.hour⌋
  let remainder := d.hour - hour
  let min := remainder * 60
  let sec := (60 - min) * 60
  let min := (roundAway min).toNat
  let sec := (roundAway sec).toNat
  let (min, sec) := if min = 60 then (59, 59) else (min, sec)
  let sec := sec % 60
  let hour := hour.toNat
  if hour < 24 ∧ min < 60 then some ⟨d.month, d.day, hour, min, sec⟩ else none

namespace Bits

/-- `f64::floor`. -/
def floor (a : F64) : F64 := F64.round a.neg ⌊a.val⌋

/-- `f64::round`. -/
def round (a : F64) : F64 := F64.round a.neg (roundAway a.val)

/-- The remainder `%` of floats that are not negative, which is exact. -/
def rem (a b : F64) : F64 := F64.round a.neg (fmod a.val b.val)

/-- `Date` as it is, with its hour in 64 bits. -/
structure FDate where
  month : ℕ
  day : ℕ
  hour : F64
deriving DecidableEq

/-- `date.rs:269-307`, `add_days`, of one day. -/
def nextDay (d : FDate) : Option FDate :=
  (Date.addDays ⟨d.month, d.day, 0⟩ 1).map fun e => ⟨e.month, e.day, d.hour⟩

/-- `date.rs:251-266`, `add_hours`, of less than a day. -/
def addHours (d : FDate) (nHours : F64) : Option FDate :=
  let nDays := floor (nHours.div (F64.lit 24))
  let remaining := nHours.sub ((F64.lit 24).mul nDays)
  let hour := d.hour.add remaining
  if (F64.lit 24).le hour then nextDay ⟨d.month, d.day, rem hour (F64.lit 24)⟩ else some ⟨d.month, d.day, hour⟩

/-- `date.rs:311-313`, `add_seconds`. -/
def addSeconds (d : FDate) (dt : F64) : Option FDate := addHours d (dt.div (F64.lit 3600))

/-- The date after so many time steps, `/repo/calendar/src/period.rs:123-145`. -/
def after (dt : F64) : ℕ → FDate → Option FDate
  | 0, d => some d
  | k + 1, d => (addSeconds d dt).bind (after dt k)

/-- `date.rs:70-78`, bit by bit. -/
def clock (h : F64) : ℤ × ℤ :=
  let hour := floor h
  let remainder := h.sub hour
  let minute := round (remainder.mul (F64.lit 60))
  if minute.val = 60 then (⌊(hour.add (F64.lit 1)).val⌋, 0) else (⌊hour.val⌋, ⌊minute.val⌋)

/-- `date.rs:67-87`, bit by bit. -/
def text (d : FDate) : List Char := label d.month d.day (clock d.hour).1.toNat (clock d.hour).2.toNat

end Bits

end Simple.Calendar
