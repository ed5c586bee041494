import Verif.Sim.CommandModel
import Verif.Sim.CsvProps

/-! # How results reach their destination (C108) and what the command does (C109) -/

namespace Simple.Command

open Simple.Csv Simple.Sim Simple.Calendar

/-! ## Specification -/

namespace Spec

/-- The whole report: the line of the header, and then one line per row. -/
def report (header : Text) (rows : List Text) : Text :=
  header ++ ['\n'] ++ (rows.map fun r => r ++ ['\n']).flatten

/-- The lines of a text in which every line is ended. -/
def lines : Text → List Text
  | [] => []
  | c :: cs =>
    if c = '\n' then [] :: lines cs
    else match lines cs with
      | [] => [[c]]
      | l :: ls => (c :: l) :: ls

/-- A writer never takes more than it is given. -/
def Honest (w : Writer) : Prop := ∀ i t k, w i t = some k → k ≤ t.length

/-- A writer that takes all of a text, or fails. -/
def AllOrNothing (w : Writer) : Prop := ∀ i t, w i t = some t.length ∨ w i t = none

/-- A writer that never fails. -/
def Sound (w : Writer) : Prop := ∀ i t, w i t ≠ none

end Spec

open Spec

/-! ## The calls -/

theorem fieldCalls_flatten (r : ℕ) : ∀ (fs : List Text) (i : ℕ), (fieldCalls r i fs).flatten = writeFields r i fs := by
  intro fs
  induction fs with
  | nil => intro i; rfl
  | cons f fs ih => intro i; rw [fieldCalls, List.flatten_cons, ih, writeFields]

theorem headerCalls_flatten (hd outs : List Text) : (headerCalls hd outs).flatten = headerLine hd outs ++ ['\n'] := by
  unfold headerCalls headerLine
  rw [List.flatten_cons, List.flatten_append, fieldCalls_flatten]
  simp

theorem rowCalls_flatten (hd outs : List Text) (date : Text) (values : List Text) :
    (rowCalls hd outs date values).flatten = rowLine hd outs date values ++ ['\n'] := by
  unfold rowCalls rowLine
  rw [List.flatten_cons, List.flatten_append, fieldCalls_flatten]
  simp

theorem calls_flatten {R : Type*} (hd outs : List Text) (rows : List R) (date : R → Text) (values : R → List Text) :
    (headerCalls hd outs ++ rows.flatMap fun r => rowCalls hd outs (date r) (values r)).flatten =
      report (headerLine hd outs) (rows.map fun r => rowLine hd outs (date r) (values r)) := by
  unfold report
  rw [List.flatten_append, headerCalls_flatten]
  congr 1
  induction rows with
  | nil => rfl
  | cons r rows ih =>
    rw [List.flatMap_cons, List.flatten_append, rowCalls_flatten, ih, List.map_cons, List.map_cons, List.flatten_cons]

theorem send_whole (w : Writer) (h : ∀ i t, w i t = some t.length) : ∀ (cs : List Text) (i : ℕ),
    send w i cs = (cs.flatten, true) := by
  intro cs
  induction cs with
  | nil => intro i; rfl
  | cons c cs ih => intro i; rw [send, h]; simp only [ih, List.take_length, List.flatten_cons]

theorem send_stops (w : Writer) (h : AllOrNothing w) : ∀ (cs : List Text) (i : ℕ),
    (send w i cs = (cs.flatten, true)) ∨
      (∃ k < cs.length, w (i + k) (cs[k]?.getD []) = none ∧ send w i cs = ((cs.take k).flatten, false)) := by
  intro cs
  induction cs with
  | nil => intro i; exact Or.inl rfl
  | cons c cs ih =>
    intro i
    rcases h i c with e | e
    · rcases ih (i + 1) with r | ⟨k, lt, f, r⟩
      · left; rw [send, e]; simp only [r, List.take_length, List.flatten_cons]
      · right
        refine ⟨k + 1, by simpa using lt, ?_, ?_⟩
        · rw [show i + (k + 1) = i + 1 + k by omega]; simpa using f
        · rw [send, e]; simp only [r, List.take_length, List.take_succ_cons, List.flatten_cons]
    · right
      exact ⟨0, by simp, by simpa using e, by rw [send, e]; simp⟩

theorem send_sublist (w : Writer) : ∀ (cs : List Text) (i : ℕ), (send w i cs).1.Sublist cs.flatten := by
  intro cs
  induction cs with
  | nil => intro i; exact List.Sublist.slnil
  | cons c cs ih =>
    intro i
    rw [send]
    cases e : w i c with
    | none => exact List.nil_sublist _
    | some k =>
      simp only [List.flatten_cons]
      exact (List.take_sublist k c).append (ih (i + 1))

theorem send_sound (w : Writer) (h : Sound w) : ∀ (cs : List Text) (i : ℕ), (send w i cs).2 = true := by
  intro cs
  induction cs with
  | nil => intro i; rfl
  | cons c cs ih =>
    intro i
    rw [send]
    cases e : w i c with
    | none => exact absurd e (h i c)
    | some k => exact ih (i + 1)

theorem send_failed (w : Writer) (cs : List Text) (i : ℕ) (h : (send w i cs).2 = false) : ∃ j t, w j t = none := by
  by_contra n
  push Not at n
  rw [send_sound w n] at h
  cases h

/-! ## C108 -/

variable {S : Type*} (hd outs : List Text) (values : S → List Text) (control : S → Outcome S)
  (march : Date → S → Outcome S) (turns : ℕ) (p : Period) (s : S)

/-- The lines that a simulation reports: one per row. -/
def linesOf (rows : List (Date × S)) : List Text := rows.map fun r => rowLine hd outs r.1.text (values r.2)

/-- **C108** A writer that takes everything gets the whole report of the rows that were simulated, whether the simulation
ends well or in an error: no line is missing, cut or repeated, and the end of the simulation is that of its steps. -/
theorem C108_whole_partial (w : Writer) (h : ∀ i t, w i t = some t.length) :
    runTo w hd outs values control march turns p s =
      (report (headerLine hd outs) (linesOf hd outs values (runLoop control march turns p s).rows),
        (runLoop control march turns p s).ending) := by
  unfold runTo linesOf
  simp only [send_whole w h, calls_flatten hd outs _ (fun r : Date × S => r.1.text) (fun r => values r.2), if_true]

/-- **C108** A writer that takes everything until it fails, wherever that is, has got a beginning of the report, and the
run does not end as if nothing had happened: it panics. -/
theorem C108_crash (w : Writer) (h : AllOrNothing w) :
    (runTo w hd outs values control march turns p s).1 <+:
      report (headerLine hd outs) (linesOf hd outs values (runLoop control march turns p s).rows) ∧
    ((runTo w hd outs values control march turns p s).2 ≠ .panic →
      (runTo w hd outs values control march turns p s).1 =
        report (headerLine hd outs) (linesOf hd outs values (runLoop control march turns p s).rows)) := by
  unfold runTo linesOf
  simp only
  rw [← calls_flatten hd outs _ (fun r : Date × S => r.1.text) (fun r => values r.2)]
  rcases send_stops w h (headerCalls hd outs ++ (runLoop control march turns p s).rows.flatMap fun row =>
    rowCalls hd outs row.1.text (values row.2)) 0 with e | ⟨k, _, _, e⟩
  · rw [e]; exact ⟨List.prefix_refl _, fun _ => rfl⟩
  · rw [e]
    refine ⟨?_, fun n => absurd rfl n⟩
    conv => rhs; rw [← List.take_append_drop k (headerCalls hd outs ++ _), List.flatten_append]
    exact List.prefix_append _ _

/-- **C108** Whatever the writer, nothing is written that is not in the report, nor in another order. -/
theorem C108_nothing_else (w : Writer) : (runTo w hd outs values control march turns p s).1.Sublist
    (report (headerLine hd outs) (linesOf hd outs values (runLoop control march turns p s).rows)) := by
  unfold runTo linesOf
  simp only
  rw [← calls_flatten hd outs _ (fun r : Date × S => r.1.text) (fun r => values r.2)]
  exact send_sublist w _ 0

theorem lines_append (l : Text) (h : '\n' ∉ l) (rest : Text) : lines (l ++ '\n' :: rest) = l :: lines rest := by
  induction l with
  | nil => rw [List.nil_append, lines, if_pos rfl]
  | cons c l ih =>
    simp only [List.mem_cons, not_or] at h
    rw [List.cons_append, lines, if_neg (Ne.symm h.1), ih h.2]

/-- **C108** The report has one line for the header and one line for each row, in their order, if no name and no value
has an end of line in it. -/
theorem C108_lines (header : Text) (rows : List Text) (h0 : '\n' ∉ header) (h : ∀ r ∈ rows, '\n' ∉ r) :
    lines (report header rows) = header :: rows := by
  unfold report
  rw [List.append_assoc, List.singleton_append, lines_append _ h0]
  congr 1
  induction rows with
  | nil => rfl
  | cons r rows ih =>
    rw [List.map_cons, List.flatten_cons, List.append_assoc, List.singleton_append,
      lines_append _ (h r List.mem_cons_self), ih fun r m => h r (List.mem_cons_of_mem _ m)]

/-- **C108 fails** for writers that take a part of what they are given, as `std::io::Write` allows: with one that takes
a character at a time, every simulation ends as it would, and the report is never complete. -/
theorem C108_violated_short_writes : ∃ w : Writer, Honest w ∧ Sound w ∧
    ∀ (S : Type) (hd outs : List Text) (values : S → List Text) (control : S → Outcome S)
      (march : Date → S → Outcome S) (turns : ℕ) (p : Period) (s : S),
      (runTo w hd outs values control march turns p s).2 = (runLoop control march turns p s).ending ∧
      (runTo w hd outs values control march turns p s).1 ≠
        report (headerLine hd outs) (linesOf hd outs values (runLoop control march turns p s).rows) := by
  refine ⟨fun _ t => some (min 1 t.length), fun i t k h => ?_, fun i t => by simp, ?_⟩
  · simp only [Option.some.injEq] at h; omega
  · intro S hd outs values control march turns p s
    have sound : Sound fun _ t => some (min 1 t.length) := fun i t => by simp
    refine ⟨?_, fun e => ?_⟩
    · unfold runTo; simp only [send_sound _ sound, if_true]
    · unfold runTo linesOf at e
      simp only at e
      rw [← calls_flatten hd outs _ (fun r : Date × S => r.1.text) (fun r => values r.2)] at e
      unfold headerCalls at e
      rw [List.cons_append, send, List.flatten_cons] at e
      have l := congrArg List.length e
      have sub := (send_sublist (fun _ t => some (min 1 t.length)) (fieldCalls (reportLen hd outs) 0
        ((reportIndexes hd outs).map (at' hd)) ++ [['\n']] ++
          (runLoop control march turns p s).rows.flatMap fun r => rowCalls hd outs r.1.text (values r.2)) (0 + 1)).length_le
      simp only [List.length_append, List.length_take] at l
      have five : "Date,".toList.length = 5 := by decide
      rw [five] at l
      omega

/-- A row of values, written as the code does, by a writer that takes everything and by one that takes a character. -/
example :
    send (fun _ t => some t.length) 0 (headerCalls ["a".toList, "b".toList] [] ++
      rowCalls ["a".toList, "b".toList] [] "01/01 - 1:00".toList ["1.000".toList, "2.000".toList]) =
        ("Date,a,b\n01/01 - 1:00,1.000,2.000\n".toList, true) ∧
    send (fun _ t => some (min 1 t.length)) 0 (headerCalls ["a".toList, "b".toList] [] ++
      rowCalls ["a".toList, "b".toList] [] "01/01 - 1:00".toList ["1.000".toList, "2.000".toList]) =
        ("Dab\n012\n".toList, true) := by
  decide +kernel

/-! ## C109 -/

variable {M W : Type} (t : Tools M W) (o : Options) (files : Files)

theorem format_eq (path : Text) :
    (if endsWith path ".json".toList then some Format.json
      else if endsWith path ".spl".toList then some .simple else none) = format path := by
  unfold format endsWith
  by_cases a : (".json".toList).isSuffixOf path = true
  · by_cases b : (".spl".toList).isSuffixOf path = true
    · exfalso
      rw [List.isSuffixOf_iff_suffix] at a b
      rcases List.suffix_or_suffix_of_suffix a b with c | c
      · exact absurd c.length_le (by decide)
      · rw [← List.isSuffixOf_iff_suffix] at c
        exact absurd c (by decide)
    · simp only [a, b, if_true]
      rfl
  · simp only [a]
    rfl

/-- The input was read: it is in a known format, it is there, and it is a model. -/
def Spec.Loaded (m : M) : Prop := ∃ f text, format o.input = some f ∧ files o.input = some text ∧ t.load f text = .ok m

/-- **C109** An input that is not in a known format, is not there, or is not a model: nothing is touched and the exit
code is not zero, whatever the other options. -/
theorem C109_bad_input (h : ∀ m, ¬ Loaded t o files m) :
    (main t o files).files = files ∧ (main t o files).out = [] ∧
      ((main t o files).code = some 1 ∨ (main t o files).code = some 101) := by
  unfold main
  cases e1 : format o.input with
  | none => exact ⟨rfl, rfl, Or.inl rfl⟩
  | some f =>
    cases e2 : files o.input with
    | none => exact ⟨rfl, rfl, Or.inl rfl⟩
    | some text =>
      simp only
      cases e3 : t.load f text with
      | err => exact ⟨rfl, rfl, Or.inl rfl⟩
      | panic => exact ⟨rfl, rfl, Or.inr rfl⟩
      | ok m => exact absurd ⟨f, text, e1, e2, e3⟩ (h m)

theorem main_loaded (m : M) (h : Loaded t o files m) : main t o files = proceed t o files m := by
  obtain ⟨f, text, a, b, c⟩ := h
  unfold main
  simp only [a, b, c]

/-- **C109** Translation: only the file asked for changes and nothing is simulated.  The exit code is zero exactly if the
file is in a known format, can be created and the model can be printed; then the file is the model printed in the format
of its name. -/
theorem C109_translate (m : M) (h : Loaded t o files m) (path : Text) (ht : o.translate = some path) :
    (∀ q, q ≠ path → (main t o files).files q = files q) ∧ (main t o files).out = [] ∧
    ((main t o files).code = some 0 ↔
      ∃ f text, format path = some f ∧ t.writable path = true ∧ t.print f m = .ok text ∧
        (main t o files).files path = some (if f = .json then text ++ ['\n'] else text)) := by
  rw [main_loaded t o files m h, proceed, ht]
  simp only
  unfold translate
  rw [format_eq]
  cases e1 : format path with
  | none => exact ⟨fun _ _ => rfl, rfl, by simp⟩
  | some f =>
    unfold create
    simp only
    by_cases wr : t.writable path = true
    · simp only [if_pos wr]
      cases e2 : t.print f m with
      | err => exact ⟨fun q n => by simp [n], rfl, by simp [e2]⟩
      | panic => exact ⟨fun q n => by simp [n], rfl, by simp [e2]⟩
      | ok text =>
        refine ⟨fun q n => by simp [fill, n], rfl, ?_⟩
        simp only [true_iff]
        exact ⟨f, text, rfl, wr, e2, by simp [fill]⟩
    · simp only [if_neg wr]
      exact ⟨fun _ _ => trivial, trivial, by simp [wr]⟩

/-- **C109** Checking a model: the exit code is zero, nothing changes and nothing is written. -/
theorem C109_check (m : M) (h : Loaded t o files m) (ht : o.translate = none) (hc : o.check = true) :
    main t o files = ⟨files, [], some 0⟩ := by
  rw [main_loaded t o files m h, proceed, ht]
  simp only [hc, if_true]

namespace Spec

/-- The controller of the options: none, the occupants if it is called `people`, or else the script of that file. -/
def controller (o : Options) (files : Files) : Controller :=
  match o.control with
  | none => .void
  | some v => if v = "people".toList then .people else .script (files v)

/-- The weather of the options: a file that is there, in one of the two formats. -/
def HasWeather (t : Tools M W) (o : Options) (files : Files) (w : W) : Prop :=
  ∃ path text, o.weather = some path ∧ files path = some text ∧
    ((endsWith path ".epw".toList = true ∧ t.epw text = .ok w) ∨ (endsWith path ".sw".toList = true ∧ t.sw text = .ok w))

end Spec

theorem prepare_ok (w : W) (h : HasWeather t o files w) (hn : o.n ≠ 0) : prepare t o files = .ok (w, min o.n 60) := by
  obtain ⟨path, text, a, b, c⟩ := h
  unfold prepare stepsPerHour
  have e : (if o.n > 60 then Outcome.ok 60 else if o.n = 0 then .err else .ok o.n) = .ok (min o.n 60) := by
    by_cases k : o.n > 60
    · rw [if_pos k]; congr 1; omega
    · rw [if_neg k, if_neg hn]; congr 1; omega
  rw [e]
  change (match o.weather with
    | none => Outcome.err
    | some path => _) = _
  rw [a]
  simp only
  rcases c with ⟨c, d⟩ | ⟨c, d⟩
  · rw [if_pos c, b]; simp only [d]; rfl
  · have nc : ¬ endsWith path ".epw".toList = true := by
      intro x
      unfold endsWith at x c
      rw [List.isSuffixOf_iff_suffix] at x c
      rcases List.suffix_or_suffix_of_suffix x c with y | y
      · exact absurd y.length_le (by decide)
      · rw [← List.isSuffixOf_iff_suffix] at y
        exact absurd y (by decide)
    rw [if_neg nc, if_pos c, b]; simp only [d]; rfl

/-- **C109** A simulation that can be started (its model and weather are there, its time steps are not zero, its occupants
can be made or its script is there, and its output can be created and is none of the files it reads) is run with the
controller that was asked for and at most sixty time steps per hour.  What it writes goes to the output alone, in place
of what was there; or to `stdout`, with no file touched.  The exit code is zero exactly if it finishes. -/
theorem C109_simulates_partial (m : M) (h : Loaded t o files m) (ht : o.translate = none) (hc : o.check = false)
    (w : W) (hw : HasWeather t o files w) (hn : o.n ≠ 0)
    (hp : o.control = some "people".toList → t.people m = .ok ())
    (hs : controller o files ≠ .script none)
    (ho : ∀ path, o.output = some path → t.writable path = true ∧ o.weather ≠ some path ∧ o.control ≠ some path) :
    (main t o files).code = codeOf (t.simulate (controller o files) m w (min o.n 60) o.research).2 ∧
    (o.output = none → (main t o files).files = files ∧
      (main t o files).out = (t.simulate (controller o files) m w (min o.n 60) o.research).1) ∧
    (∀ path, o.output = some path → (main t o files).out = [] ∧ (∀ q, q ≠ path → (main t o files).files q = files q) ∧
      (main t o files).files path = some (t.simulate (controller o files) m w (min o.n 60) o.research).1) := by
  -- any controller that is the right one both before and after the output is created
  have key : ∀ c : Files → Controller, (∀ g : Files, (∀ q, o.output ≠ some q → g q = files q) → c g = controller o files) →
      (deliver t o files c m).code = codeOf (t.simulate (controller o files) m w (min o.n 60) o.research).2 ∧
      (o.output = none → (deliver t o files c m).files = files ∧
        (deliver t o files c m).out = (t.simulate (controller o files) m w (min o.n 60) o.research).1) ∧
      (∀ path, o.output = some path → (deliver t o files c m).out = [] ∧
        (∀ q, q ≠ path → (deliver t o files c m).files q = files q) ∧
        (deliver t o files c m).files path = some (t.simulate (controller o files) m w (min o.n 60) o.research).1) := by
    intro c same
    unfold deliver
    cases e : o.output with
    | none =>
      simp only
      have sim : simulation t o files (c files) m = t.simulate (controller o files) m w (min o.n 60) o.research := by
        unfold simulation
        rw [prepare_ok t o files w hw hn, same files fun _ _ => rfl]
        simp only [if_neg hs]
      rw [sim]
      exact ⟨rfl, fun _ => ⟨trivial, rfl⟩, fun path n => by cases n⟩
    | some path =>
      obtain ⟨wr, ne, nc⟩ := ho path e
      unfold create
      simp only [if_pos wr]
      have hw' : HasWeather t o (fun q => if q = path then some [] else files q) w := by
        obtain ⟨pw, text, a, b, d⟩ := hw
        have : pw ≠ path := by rintro rfl; exact ne a
        exact ⟨pw, text, a, by simp only [if_neg this, b], d⟩
      have sim : simulation t o (fun q => if q = path then some [] else files q)
          (c fun q => if q = path then some [] else files q) m =
            t.simulate (controller o files) m w (min o.n 60) o.research := by
        unfold simulation
        rw [prepare_ok t o _ w hw' hn, same _ fun q n => ?_]
        · simp only [if_neg hs]
        · have : q ≠ path := by rintro rfl; exact n e
          simp only [if_neg this]
      rw [sim]
      refine ⟨rfl, (by intro n; cases n), fun q eq => ?_⟩
      obtain rfl : path = q := Option.some.inj eq
      exact ⟨trivial, fun r n => by simp [fill, n], by simp [fill]⟩
  rw [main_loaded t o files m h, proceed, ht]
  simp only [hc, Bool.false_eq_true, if_false]
  unfold choose
  cases e : o.control with
  | none =>
    simp only
    exact key _ fun g _ => by unfold controller; rw [e]
  | some v =>
    simp only
    by_cases hv : v = "people".toList
    · rw [if_pos hv]
      have := hp (by rw [e, hv])
      simp only [this]
      exact key _ fun g _ => by unfold controller; rw [e]; simp only [if_pos hv]
    · rw [if_neg hv]
      refine key _ fun g same => ?_
      unfold controller; rw [e]; simp only [if_neg hv]
      rw [same v fun n => (ho v n).2.2 e]

/-- **C109 fails** (results lost): a simulation that cannot be started, for want of a weather file or of time steps, still
destroys the results that were in the output. -/
theorem C109_violated_results_lost (m : M) (h : Loaded t o files m) (ht : o.translate = none) (hc : o.check = false)
    (bad : o.weather = none ∨ o.n = 0) (hv : o.control ≠ some "people".toList) (path : Text)
    (ho : o.output = some path) (wr : t.writable path = true) :
    (main t o files).code = some 1 ∧ (main t o files).files path = some [] := by
  rw [main_loaded t o files m h, proceed, ht]
  simp only [hc, Bool.false_eq_true, if_false]
  have none : ∀ g, prepare t o g = .err := by
    intro g
    unfold prepare stepsPerHour
    rcases bad with b | b
    · rw [b]
      by_cases k : o.n > 60
      · rw [if_pos k]; rfl
      · rw [if_neg k]
        by_cases k' : o.n = 0
        · rw [if_pos k']; rfl
        · rw [if_neg k']; rfl
    · rw [b]; rfl
  have key : ∀ c : Files → Controller, (deliver t o files c m).code = some 1 ∧
      (deliver t o files c m).files path = some [] := by
    intro c
    unfold deliver create simulation
    rw [ho]
    simp only [if_pos wr, none]
    exact ⟨rfl, by simp [fill]⟩
  unfold choose
  cases e : o.control with
  | none => exact key _
  | some v =>
    simp only
    rw [if_neg (fun x => hv (by rw [e, x]))]
    exact key _

/-- A world with a model, its weather and old results. -/
def sampleTools : Tools Unit Unit :=
  ⟨fun _ _ => .ok (), fun _ _ => .ok "model".toList, fun _ => .ok (), fun _ => .ok (), fun _ => .ok (),
    fun _ _ _ _ _ => ("results".toList, .finished), fun _ => true⟩

/-- Its files. -/
def sampleFiles : Files := fun p =>
  if p = "a.spl".toList then some "building".toList
  else if p = "w.epw".toList then some "weather".toList
  else if p = "r.csv".toList then some "old".toList else none

/-- Examples of the hypotheses: the command that works replaces the results, and the one without weather empties them. -/
example :
    (main sampleTools ⟨false, none, "a.spl".toList, some "w.epw".toList, none, some "r.csv".toList, false, 1⟩
      sampleFiles).files "r.csv".toList = some "results".toList ∧
    (main sampleTools ⟨false, none, "a.spl".toList, some "w.epw".toList, none, some "r.csv".toList, false, 1⟩
      sampleFiles).code = some 0 ∧
    (main sampleTools ⟨false, none, "a.spl".toList, none, none, some "r.csv".toList, false, 1⟩
      sampleFiles).files "r.csv".toList = some [] ∧
    (main sampleTools ⟨false, some "b.json".toList, "a.spl".toList, none, none, none, false, 1⟩
      sampleFiles).files "b.json".toList = some "model\n".toList := by
  decide +kernel

example : Loaded sampleTools ⟨false, none, "a.spl".toList, some "w.epw".toList, none, some "r.csv".toList, false, 1⟩
    sampleFiles () ∧
    HasWeather sampleTools ⟨false, none, "a.spl".toList, some "w.epw".toList, none, some "r.csv".toList, false, 1⟩
      sampleFiles () :=
  ⟨⟨.simple, "building".toList, by decide +kernel, by decide +kernel, rfl⟩,
    ⟨"w.epw".toList, "weather".toList, rfl, by decide +kernel, Or.inl ⟨by decide +kernel, rfl⟩⟩⟩

end Simple.Command
