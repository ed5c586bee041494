import Verif.Calendar.Model
import Verif.Prelude

/-! Model of how a simulation runs through time, `/repo/src/run_simulation.rs` (`pre_process`, `run` and
`run_rhai`, whose loops are the same), `/repo/src/multiphysics_model.rs` and the time steps of
`/repo/heat/src/heat_model.rs`.

Times are rational numbers.  The controller and the physics are any functions of the state `S`; what is written
of a row is C22. -/

namespace Simple.Sim

open Simple.Calendar

/-- `run_simulation.rs:94-102`: time steps per hour. -/
def stepsPerHour (n : ℕ) : Outcome ℕ :=
  if n > 60 then .ok 60 else if n = 0 then .err else .ok n

/-- `run_simulation.rs:94-130`, `pre_process`: the period of the simulation, from the dates of the weather in the
order of the file. -/
def simPeriod (n : ℕ) (dates : List Date) : Outcome Period :=
  (stepsPerHour n).bind fun n =>
    match dates.head?, dates.getLast? with
    | some start, some last =>
      match Period.new start { last with hour := last.hour - 1 / 10 } (60 * 60 / n) with
      | some p => .ok p
      | none => .panic
    | _, _ => .panic

/-- How a run ends; `running` if it has not, in the steps it was given. -/
inductive Ending
  | finished
  | running
  | err
  | panic
deriving DecidableEq

/-- What was written: date and state of every row. -/
structure Report (S : Type*) where
  rows : List (Date × S)
  ending : Ending

/-- The loop of `run_simulation.rs:230-268`, for at most so many turns. -/
def runLoop {S : Type*} (control : S → Outcome S) (march : Date → S → Outcome S) : ℕ → Period → S → Report S
  | 0, _, _ => ⟨[], .running⟩
  | turns + 1, p, s =>
    match p.next with
    | none => ⟨[], .panic⟩
    | some (none, _) => ⟨[], .finished⟩
    | some (some date, p) =>
      match (control s).bind (march date) with
      | .err => ⟨[], .err⟩
      | .panic => ⟨[], .panic⟩
      | .ok s =>
        let rest := runLoop control march turns p s
        ⟨(date, s) :: rest.rows, rest.ending⟩

/-- `/repo/src/multiphysics_model.rs:150-174`, `march`. -/
def marchAll {S : Type*} (solar air heat : Date → S → Outcome S) (date : Date) (s : S) : Outcome S :=
  (solar date s).bind fun s => (air date s).bind fun s => heat date s

/-- `/repo/heat/src/heat_model.rs:289`, `309-311`, `352-354` and `375`: the number of parts of a time step, from
those that each surface and fenestration needs. -/
def subdivisions (needed : List ℕ) : ℕ :=
  2 * needed.foldl (fun most d => if d > most then d else most) 1

/-- `heat_model.rs:376`: seconds of each part. -/
def partSeconds (n : ℕ) (needed : List ℕ) : ℚ := 60 * 60 / (n * subdivisions needed)

/-- `heat_model.rs:415-418`: the dates for which a step of the heat model asks for the weather. -/
def heatDates (dt : ℚ) : ℕ → Date → Option (List Date)
  | 0, _ => some []
  | k + 1, date => do
    let date ← date.addSeconds dt
    let rest ← heatDates dt k date
    return date :: rest

end Simple.Sim
