import Mathlib.Data.Rat.Floor

/-!
# Model of `calendar/src/date.rs` and `calendar/src/period.rs`

`Float` is modelled by `ℚ` (exact arithmetic).  A Rust panic is `none`.
Integer overflow of `u8` is a panic, as in a build with overflow checks
(a release build would wrap instead).
-/

namespace Simple.Calendar

/-- `calendar/src/date.rs:37-47`, `struct Date`.  `month` and `day` are `u8`. -/
structure Date where
  month : ℕ
  day : ℕ
  hour : ℚ
deriving DecidableEq, Repr

/-- `date.rs:183-196` and `date.rs:231-244`, the constant table
`CUMULATED_DAYS_BEFORE_MONTH`. -/
def cumulatedDaysBeforeMonth : List ℚ :=
  [0, 31, 59, 90, 120, 151, 181, 212, 243, 273, 304, 334]

/-- `date.rs:270-283`, the constant table `N_DAYS_PER_MONTH`. -/
def nDaysPerMonth : List ℕ :=
  [31, 28, 31, 30, 31, 30, 31, 31, 30, 31, 30, 31]

/-- `date.rs:230-248`, `Date::day_of_year`.  `month as usize - 1` underflows for
month 0 and the table access panics for months above 12. -/
def Date.dayOfYear (d : Date) : Option ℚ :=
  if d.month = 0 then none
  else (cumulatedDaysBeforeMonth[d.month - 1]?).map fun c => c + d.day + d.hour / 24 - 1

/-- The body of the `for` loop in `date.rs:198-212`: the first `i` (counted from the
position of the head of the list) whose entry exceeds `n`, together with the previous entry. -/
def findMonth (n : ℚ) (prev : ℚ) (i : ℕ) : List ℚ → Option (ℕ × ℚ)
  | [] => none
  | c :: cs => if c > n then some (i, prev) else findMonth n c (i + 1) cs

/-- `date.rs:178-226`, `Date::from_day_of_year`. The table's first entry is 0, so `i - 1`
in the loop is never taken at `i = 0` once the range check has passed. -/
def Date.fromDayOfYear (n : ℚ) : Option Date :=
  if 0 ≤ n ∧ n < 365 then
    match findMonth n 0 0 cumulatedDaysBeforeMonth with
    | some (i, c) =>
      let dayHour := n - c
      let day := ⌊dayHour⌋
      some ⟨i, 1 + day.toNat, (dayHour - day) * 24⟩
    | none =>
      let dayHour := n - 334
      let day := ⌊dayHour⌋
      some ⟨12, 1 + day.toNat, (dayHour - day) * 24⟩
  else none

/-- Floating point remainder `x % m` for `m > 0` (truncated towards zero). -/
def fmod (x m : ℚ) : ℚ := if 0 ≤ x then x - m * ⌊x / m⌋ else x - m * ⌈x / m⌉

/-- `date.rs:163-175`, `Date::interpolate`. -/
def Date.interpolate (a b : Date) (x : ℚ) : Option Date := do
  let nSelf ← a.dayOfYear
  let nOther ← b.dayOfYear
  let nOther := if nOther < nSelf then nOther + 365 else nOther
  let full := nSelf + x * (nOther - nSelf)
  Date.fromDayOfYear (fmod full 365)

/-- `date.rs:269-307`, `Date::add_days`.  `would_be_day as u8` keeps the value modulo 256;
`self.day += n_days as u8` panics when it overflows `u8`;
`N_DAYS_PER_MONTH[self.month as usize - 1]` panics for an invalid month. -/
def Date.addDays (d : Date) (n : ℕ) : Option Date :=
  let n' := n % 365
  if n' > 0 then
    let wouldBe := d.day + n'
    if d.month = 0 then none else
    match hdim : nDaysPerMonth[d.month - 1]? with
    | none => none
    | some dim =>
      if wouldBe % 256 > dim then
        let m := if d.month + 1 = 13 then 1 else d.month + 1
        Date.addDays ⟨m, 1, d.hour⟩ (wouldBe - dim - 1)
      else if d.day + n' % 256 < 256 then
        some ⟨d.month, d.day + n' % 256, d.hour⟩
      else none
  else some d
termination_by d.day + n % 365
decreasing_by
  have h1 : (d.day + n % 365 - dim - 1) % 365 ≤ d.day + n % 365 - dim - 1 := Nat.mod_le _ _
  have h2 : (d.day + n % 365) % 256 ≤ d.day + n % 365 := Nat.mod_le _ _
  have h3 : 1 ≤ dim := by
    have := List.mem_of_getElem? hdim
    simp [nDaysPerMonth] at this
    omega
  show 1 + (d.day + n % 365 - dim - 1) % 365 < d.day + n % 365
  omega

/-- `date.rs:251-266`, `Date::add_hours`. `n_days as usize` saturates at 0 for negatives. -/
def Date.addHours (d : Date) (h : ℚ) : Option Date := do
  let nDays := ⌊h / 24⌋
  let d ← d.addDays nDays.toNat
  let remaining := h - 24 * nDays
  let hour := d.hour + remaining
  if hour ≥ 24 then
    let d ← Date.addDays ⟨d.month, d.day, hour⟩ 1
    some ⟨d.month, d.day, fmod d.hour 24⟩
  else
    some ⟨d.month, d.day, hour⟩

/-- `date.rs:311-313`, `Date::add_seconds`. -/
def Date.addSeconds (d : Date) (dt : ℚ) : Option Date := d.addHours (dt / 3600)

/-- `date.rs:316-318`, `Date::add_minutes`. -/
def Date.addMinutes (d : Date) (m : ℚ) : Option Date := d.addHours (m / 60)

/-- `date.rs:106-130`, `impl Ord for Date`. -/
def Date.cmp (a b : Date) : Ordering :=
  match compare a.month b.month with
  | .lt => .lt
  | .gt => .gt
  | .eq =>
    match compare a.day b.day with
    | .lt => .lt
    | .gt => .gt
    | .eq => if a.hour < b.hour then .lt else if a.hour > b.hour then .gt else .eq

/-- `a < b` as derived by Rust from `partial_cmp` (`date.rs:100-104`). -/
def Date.lt (a b : Date) : Bool := a.cmp b == .lt
/-- `a <= b` as derived by Rust from `partial_cmp` (`date.rs:100-104`). -/
def Date.le (a b : Date) : Bool := a.cmp b != .gt

/-- `date.rs:90-96`, `impl Sub for Date`. -/
def Date.sub (a b : Date) : Option ℚ := do
  let x ← a.dayOfYear
  let y ← b.dayOfYear
  some (x - y)

/-- `date.rs:321-323`, `Date::same_day`. -/
def Date.sameDay (a b : Date) : Bool := a.month == b.month && a.day == b.day

/-- `date.rs:328-333`, `Date::is_earlier`. `*self == other` is the derived `PartialEq`. -/
def Date.isEarlier (a b : Date) : Bool := if a = b then false else a.le b

/-- `calendar/src/period.rs:29-45`, `struct Period`. -/
structure Period where
  finish : Date
  start : Date
  current : Date
  dt : ℚ
  goesThroughNewYear : Bool
deriving Repr

/-- `period.rs:50-72`, `Period::new`. -/
def Period.new (start finish : Date) (dt : ℚ) : Option Period :=
  if start.hour ≥ 24 then none
  else if finish.hour ≥ 24 then none
  else some ⟨finish, start, start, dt, finish.lt start⟩

/-- `period.rs:109-117`, `Period::contains`. -/
def Period.contains (p : Period) (d : Date) : Bool :=
  if !p.goesThroughNewYear then d.le p.finish && p.start.le d
  else d.le p.finish || p.start.le d

/-- `period.rs:123-144`, `Iterator::next`.  The outer `Option` is a panic (inside
`add_seconds`); the inner `Option` is the value returned by `next`. -/
def Period.next (p : Period) : Option (Option Date × Period) := do
  let old := p.current
  let before := old.le p.finish
  let new ← old.addSeconds p.dt
  let after := new.le p.finish
  let crossedEnd := before != after
  let crossedNy := new.lt old
  if (crossedNy || crossedEnd) && (!crossedNy || !p.goesThroughNewYear) then
    some (none, p)
  else
    some (some new, { p with current := new })

end Simple.Calendar
