import Mathlib.Data.List.Basic

/-! Model of the report that a simulation writes, `/repo/src/run_simulation.rs` (`run` and
`run_rhai`, which have the same code for this).

Texts are lists of characters.  The names of the elements (`stringify`), the JSON of the requested
outputs, the date and the formatted values (`{:.3}`) are inputs. -/

namespace Simple.Csv

/-- Texts. -/
abbrev Text := List Char

/-- `run_simulation.rs:145-166`: the position in the full header of every requested output which is
there; when none is, all of them. -/
def reportIndexes (fullHeader outputs : List Text) : List ℕ :=
  let found := outputs.filterMap fun item => fullHeader.findIdx? fun x => x == item
  if found = [] then List.range fullHeader.length else found

/-- `run_simulation.rs:197-201`. -/
def reportLen (fullHeader outputs : List Text) : ℕ :=
  if outputs = [] then fullHeader.length else outputs.length

/-- The loops of `run_simulation.rs:209-222` and `254-264`: each field, followed by a comma unless
it is in the last place.  `index < report_len - 1` is only evaluated when there are fields, and then
`report_len > 0`. -/
def writeFields (reportLen : ℕ) : (index : ℕ) → List Text → Text
  | _, [] => []
  | index, f :: fs =>
    (if index < reportLen - 1 then f ++ [','] else f) ++ writeFields reportLen (index + 1) fs

/-- Indexing of a vector of texts; `run` only uses positions of the header (see
`reportIndexes_lt`). -/
def at' (l : List Text) (i : ℕ) : Text := l.getD i []

/-- The first line, `run_simulation.rs:205-222`, without the end of line. -/
def headerLine (fullHeader outputs : List Text) : Text :=
  "Date".toList ++ [','] ++ writeFields (reportLen fullHeader outputs) 0
    ((reportIndexes fullHeader outputs).map (at' fullHeader))

/-- A row, `run_simulation.rs:248-264`, without the end of line; `values` are the formatted values of
the whole state. -/
def rowLine (fullHeader outputs : List Text) (date : Text) (values : List Text) : Text :=
  date ++ [','] ++ writeFields (reportLen fullHeader outputs) 0
    ((reportIndexes fullHeader outputs).map (at' values))

end Simple.Csv
