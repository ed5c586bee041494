import Mathlib.Data.Rat.Floor
import Mathlib.Algebra.Order.Round
import Mathlib.Algebra.Order.Ring.Rat
import Mathlib.Logic.Function.Basic

/-! Model of `/repo/utils/src/progress_bar.rs`, with `tic` split in its atomic steps.

The atomics use `Ordering::Relaxed`.  The two read-modify-write operations (`fetch_add`) are atomic
and always see the latest value; a plain relaxed load may see any value that the variable has held
so far, so `load` takes any value of the history of `last_progress`.  The `f32` arithmetic of the
percentage is exact. -/

namespace Simple.Progress

/-- `progress_bar.rs:6`. -/
def barLength : ℕ := 50

/-- `progress_bar.rs:34-42`: the percentage that a call which obtained count `c` wants to show.
`f32::round` rounds half-way cases away from zero, i.e. upwards here. -/
def progressOf (total c : ℕ) : ℕ :=
  if c ≥ total then 100
  else (⌊(100 * (c : ℚ) / (total : ℚ)) + 1 / 2⌋).toNat

/-- `progress_bar.rs:48`. -/
def delta (progress lp : ℕ) : ℕ := if progress > lp then progress - lp else 0

/-- Where a thread is within `tic`. -/
inductive Pc where
  /-- not inside `tic` -/
  | idle
  /-- after `counter.fetch_add(1)` returned `c` (`progress_bar.rs:31-33`) -/
  | counted (c : ℕ)
  /-- after `last_progress.load()` returned `lp` (`progress_bar.rs:44-46`) -/
  | loaded (progress lp : ℕ)
deriving DecidableEq

/-- The shared variables, the position of each thread, and the output written so far.
`history` has all the values that `last_progress` has held (latest first), `shown` the percentages
printed (latest first), `tickets` the values returned by `counter.fetch_add` (latest first). -/
structure State where
  counter : ℕ
  last : ℕ
  history : List ℕ
  shown : List ℕ
  tickets : List ℕ
  pc : ℕ → Pc

/-- `progress_bar.rs:18-29`, `new`: both counters are zero, and 0% is printed. -/
def State.new : State := ⟨0, 0, [0], [0], [], fun _ => .idle⟩

/-- One atomic step of thread `t`. -/
inductive Event where
  /-- enter `tic` and do the `fetch_add` -/
  | call (t : ℕ)
  /-- do the load, which returns `v` -/
  | load (t v : ℕ)
  /-- compare, possibly do the second `fetch_add` and print, and return -/
  | finish (t : ℕ)

/-- `progress_bar.rs:30-54`, one atomic step; `none` if thread `t` is not at that point, or if `v`
is not a value that `last_progress` has held. -/
def step (total : ℕ) (s : State) : Event → Option State
  | .call t =>
    match s.pc t with
    | .idle => some { s with
        counter := s.counter + 1
        tickets := s.counter :: s.tickets
        pc := Function.update s.pc t (.counted s.counter) }
    | _ => none
  | .load t v =>
    match s.pc t with
    | .counted c =>
      if v ∈ s.history then
        some { s with pc := Function.update s.pc t (.loaded (progressOf total c) v) }
      else none
    | _ => none
  | .finish t =>
    match s.pc t with
    | .loaded progress lp =>
      if delta progress lp ≥ 100 / barLength then
        some { s with
          last := s.last + delta progress lp
          history := (s.last + delta progress lp) :: s.history
          shown := progress :: s.shown
          pc := Function.update s.pc t .idle }
      else some { s with pc := Function.update s.pc t .idle }
    | _ => none

/-- An execution: a list of atomic steps by any threads, in any order. -/
def run (total : ℕ) (s : State) : List Event → Option State
  | [] => some s
  | e :: es => (step total s e).bind fun s' => run total s' es

/-- A call to `tic` by thread `t` which no other call overlaps, from a state where the latest value
of `last_progress` is `v`. -/
def ticEvents (t v : ℕ) : List Event := [.call t, .load t v, .finish t]

/-- `n` calls to `tic`, the `i`-th one by thread `ts i`, none of them overlapping. -/
def runSequential (total : ℕ) (ts : ℕ → ℕ) : ℕ → Option State
  | 0 => some State.new
  | n + 1 => (runSequential total ts n).bind fun s => run total s (ticEvents (ts n) s.last)

/-- `progress_bar.rs:56-70`, `show_progress`: the number of `=` and of blanks printed. -/
def bar (progress : ℕ) : ℕ × ℕ :=
  let filled := (⌊(barLength : ℚ) * ((progress : ℚ) / 100) + 1 / 2⌋).toNat
  (filled, if barLength ≥ filled then barLength - filled else 0)

end Simple.Progress
