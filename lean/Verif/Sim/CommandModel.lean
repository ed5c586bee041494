import Verif.Calendar.ShowModel
import Verif.Sim.CsvModel
import Verif.Sim.RunModel

/-! Model of how the results of a simulation reach their destination, `/repo/src/run_simulation.rs` (`run` and
`run_rhai`, whose writing is the same), and of the command `simple`, `/repo/bin/simple.rs`.

Reading and printing of models, weather, occupants and scripts, and the physics, are any functions.  Messages to the
user (`stderr`) and the parsing of the arguments (`clap`) are left out. -/

namespace Simple.Command

open Simple.Csv Simple.Sim Simple.Calendar

/-! ## Writing -/

/-- A `std::io::Write`: how many characters of a text the call with this number takes, none if it fails. -/
abbrev Writer := ℕ → Text → Option ℕ

/-- A sequence of calls `out.write(..).expect(..)`, as in all of `run_simulation.rs:204-264`: the number of characters
taken is ignored and a failure is a panic.  What was written, and whether there was no panic. -/
def send (w : Writer) : ℕ → List Text → Text × Bool
  | _, [] => ([], true)
  | i, c :: cs =>
    match w i c with
    | none => ([], false)
    | some k => let r := send w (i + 1) cs; (c.take k ++ r.1, r.2)

/-- The calls of the loops of `run_simulation.rs:207-219` and `254-263`. -/
def fieldCalls (reportLen : ℕ) : (index : ℕ) → List Text → List Text
  | _, [] => []
  | index, f :: fs => (if index < reportLen - 1 then f ++ [','] else f) :: fieldCalls reportLen (index + 1) fs

/-- The calls of `run_simulation.rs:204-222`. -/
def headerCalls (fullHeader outputs : List Text) : List Text :=
  "Date,".toList :: (fieldCalls (reportLen fullHeader outputs) 0
    ((reportIndexes fullHeader outputs).map (at' fullHeader)) ++ [['\n']])

/-- The calls of `run_simulation.rs:248-266` for a row. -/
def rowCalls (fullHeader outputs : List Text) (date : Text) (values : List Text) : List Text :=
  (date ++ [',']) :: (fieldCalls (reportLen fullHeader outputs) 0
    ((reportIndexes fullHeader outputs).map (at' values)) ++ [['\n']])

/-- `run_simulation.rs:204-268`: header and loop, for at most so many turns; `values` formats the whole state.  What was
written and how it ended.  A failed call is a panic, after which nothing else happens. -/
def runTo {S : Type*} (w : Writer) (fullHeader outputs : List Text) (values : S → List Text)
    (control : S → Outcome S) (march : Date → S → Outcome S) (turns : ℕ) (p : Period) (s : S) : Text × Ending :=
  let report := runLoop control march turns p s
  let r := send w 0 (headerCalls fullHeader outputs ++
    report.rows.flatMap fun row => rowCalls fullHeader outputs row.1.text (values row.2))
  (r.1, if r.2 then report.ending else .panic)

/-! ## The command -/

/-- The files, by path. -/
abbrev Files := Text → Option Text

/-- `str::ends_with`. -/
def endsWith (path suffix : Text) : Bool := suffix.isSuffixOf path

/-- The formats of models. -/
inductive Format
  | simple
  | json
deriving DecidableEq

/-- `bin/simple.rs:113-133` and `136-150`, by the end of the path. -/
def format (path : Text) : Option Format :=
  if endsWith path ".spl".toList then some .simple
  else if endsWith path ".json".toList then some .json
  else none

/-- `run_simulation.rs:37-78`, the options. -/
structure Options where
  check : Bool
  translate : Option Text
  input : Text
  weather : Option Text
  control : Option Text
  output : Option Text
  research : Bool
  n : ℕ

/-- The controllers, with the text of the script. -/
inductive Controller
  | void
  | people
  | script (text : Option Text)
deriving DecidableEq

/-- What the command calls. -/
structure Tools (M W : Type) where
  /-- `Model::from_bytes`, `Model::from_json`. -/
  load : Format → Text → Outcome M
  /-- `Model::to_string`, `serde_json::to_string`. -/
  print : Format → M → Outcome Text
  /-- `EPWWeather`, or the JSON of a `.sw` file. -/
  epw : Text → Outcome W
  sw : Text → Outcome W
  /-- `OccupantBehaviour::new`. -/
  people : M → Outcome Unit
  /-- The simulation after `pre_process`: what is written and how it ends. -/
  simulate : Controller → M → W → (n : ℕ) → (research : Bool) → Text × Ending
  /-- The paths that can be created. -/
  writable : Text → Bool

/-- What remains after the command: the files, what was written to `stdout`, and the exit code (101 for a panic; none
if it is still running). -/
structure After where
  files : Files
  out : Text
  code : Option ℕ

/-- `File::create`. -/
def create {M W : Type} (t : Tools M W) (files : Files) (path : Text) : Option Files :=
  if t.writable path then some fun p => if p = path then some [] else files p else none

/-- The file with a text. -/
def fill (files : Files) (path text : Text) : Files := fun p => if p = path then some text else files p

/-- The exit code for the end of a simulation, `bin/simple.rs:160-164`. -/
def codeOf : Ending → Option ℕ
  | .finished => some 0
  | .running => none
  | .err => some 1
  | .panic => some 101

/-- `run_simulation.rs:94-123`, `pre_process`: time steps and weather. -/
def prepare {M W : Type} (t : Tools M W) (o : Options) (files : Files) : Outcome (W × ℕ) :=
  (stepsPerHour o.n).bind fun n =>
    match o.weather with
    | none => .err
    | some path =>
      if endsWith path ".epw".toList then
        match files path with
        | none => .err
        | some text => (t.epw text).map fun w => (w, n)
      else if endsWith path ".sw".toList then
        match files path with
        | none => .err
        | some text => (t.sw text).map fun w => (w, n)
      else .err

/-- `run` and `run_rhai`: what is written and how it ends.  The script is read in between,
`/repo/src/rhai_script_controller.rs:39-51`. -/
def simulation {M W : Type} (t : Tools M W) (o : Options) (files : Files) (c : Controller) (m : M) : Text × Ending :=
  match prepare t o files with
  | .err => ([], .err)
  | .panic => ([], .panic)
  | .ok (w, n) => if c = .script none then ([], .err) else t.simulate c m w n o.research

/-- `bin/simple.rs:37-49` and `69-81`: to the output or to `stdout`.  The file is created before anything else. -/
def deliver {M W : Type} (t : Tools M W) (o : Options) (files : Files) (c : Files → Controller) (m : M) : After :=
  match o.output with
  | none => let r := simulation t o files (c files) m; ⟨files, r.1, codeOf r.2⟩
  | some path =>
    match create t files path with
    | none => ⟨files, [], some 1⟩
    | some files => let r := simulation t o files (c files) m; ⟨fill files path r.1, [], codeOf r.2⟩

/-- `bin/simple.rs:52-88`, `choose_controller`. -/
def choose {M W : Type} (t : Tools M W) (o : Options) (files : Files) (m : M) : After :=
  match o.control with
  | none => deliver t o files (fun _ => .void) m
  | some v =>
    if v = "people".toList then
      match t.people m with
      | .err => ⟨files, [], some 1⟩
      | .panic => ⟨files, [], some 101⟩
      | .ok _ => deliver t o files (fun _ => .people) m
    else deliver t o files (fun files => .script (files v)) m

/-- `bin/simple.rs:136-152` and `/repo/model/src/model.rs:329-347`: the file is created first. -/
def translate {M W : Type} (t : Tools M W) (files : Files) (m : M) (path : Text) : After :=
  match (if endsWith path ".json".toList then some Format.json
    else if endsWith path ".spl".toList then some .simple else none) with
  | none => ⟨files, [], some 1⟩
  | some f =>
    match create t files path with
    | none => ⟨files, [], some 1⟩
    | some files =>
      match t.print f m with
      | .err => ⟨files, [], some 1⟩
      | .panic => ⟨files, [], some 101⟩
      | .ok text => ⟨fill files path (if f = .json then text ++ ['\n'] else text), [], some 0⟩

/-- `bin/simple.rs:135-165`, the rest of `main` once the model is read. -/
def proceed {M W : Type} (t : Tools M W) (o : Options) (files : Files) (m : M) : After :=
  match o.translate with
  | some path => translate t files m path
  | none => if o.check then ⟨files, [], some 0⟩ else choose t o files m

/-- `bin/simple.rs:95-165`, `main`, and `/repo/model/src/model.rs:436-444`, `489-497`. -/
def main {M W : Type} (t : Tools M W) (o : Options) (files : Files) : After :=
  match format o.input with
  | none => ⟨files, [], some 1⟩
  | some f =>
    match files o.input with
    | none => ⟨files, [], some 1⟩
    | some text =>
      match t.load f text with
      | .err => ⟨files, [], some 1⟩
      | .panic => ⟨files, [], some 101⟩
      | .ok m => proceed t o files m

end Simple.Command
