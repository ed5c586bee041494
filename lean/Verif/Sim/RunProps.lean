import Mathlib.Tactic.NormNum
import Mathlib.Tactic.Linarith
import Mathlib.Tactic.FieldSimp
import Verif.Calendar.Props
import Verif.Sim.RunModel

/-! # C89: a simulation steps through the weather -/

namespace Simple.Sim

open Simple.Calendar Simple.Calendar.Spec

/-! ## The loop -/

/-- A run of `j` turns that go well, and then others. -/
theorem runLoop_prefix {S : Type*} (control : S → Outcome S) (march : Date → S → Outcome S) (date : ℕ → Date)
    (states : ℕ → S) : ∀ (j : ℕ) (p : Period) (i : ℕ), (∀ k, k < j → p.nthCall k = some (some (date (i + k)))) →
    (∀ k, k < j → (control (states (i + k))).bind (march (date (i + k))) = .ok (states (i + k + 1))) →
    ∃ q : Period, (∀ k, q.nthCall k = p.nthCall (j + k)) ∧ ∀ turns,
      runLoop control march (j + turns) p (states i) =
        ⟨(List.range j).map (fun k => (date (i + k), states (i + k + 1)))
            ++ (runLoop control march turns q (states (i + j))).rows,
          (runLoop control march turns q (states (i + j))).ending⟩
  | 0, p, i, _, _ => ⟨p, fun k => by rw [Nat.zero_add], fun turns => by simp⟩
  | j + 1, p, i, hd, hs => by
    have h0 := hd 0 (by omega)
    cases hn : p.next with
    | none => rw [Period.nthCall, hn] at h0; cases h0
    | some r =>
      obtain ⟨d, p'⟩ := r
      have hp : ∀ k, p'.nthCall k = p.nthCall (k + 1) := by
        intro k
        rw [show p.nthCall (k + 1) = p.next.bind fun r => r.2.nthCall k from rfl, hn]
        rfl
      rw [Period.nthCall, hn] at h0
      simp only [Option.map_some, Option.some.injEq, Nat.add_zero] at h0
      subst h0
      obtain ⟨q, q1, q2⟩ := runLoop_prefix control march date states j p' (i + 1)
        (fun k hk => by rw [hp, hd (k + 1) (by omega)]; congr 3; omega)
        (fun k hk => by
          have := hs (k + 1) (by omega)
          rwa [show i + (k + 1) = i + 1 + k by omega] at this)
      refine ⟨q, fun k => by rw [q1, hp]; congr 1; omega, fun turns => ?_⟩
      have hs0 := hs 0 (by omega)
      simp only [Nat.add_zero] at hs0
      rw [show j + 1 + turns = (j + turns) + 1 by omega, runLoop, hn]
      simp only [hs0]
      rw [q2 turns, List.range_succ_eq_map, List.map_cons, List.map_map, show i + (j + 1) = i + 1 + j by omega]
      simp only [Nat.add_zero, List.cons_append, Report.mk.injEq, List.cons.injEq, true_and, and_true]
      congr 2
      funext k
      simp only [Function.comp_apply, Nat.succ_eq_add_one]
      rw [show i + (k + 1) = i + 1 + k by omega]

theorem next_of_nthCall {p : Period} {d : Option Date} (h : p.nthCall 0 = some d) : ∃ q, p.next = some (d, q) := by
  cases hn : p.next with
  | none => rw [Period.nthCall, hn] at h; cases h
  | some r =>
    rw [Period.nthCall, hn] at h
    simp only [Option.map_some, Option.some.injEq] at h
    exact ⟨r.2, by rw [← h]⟩

namespace Spec

/-- The reports of a run whose turn `k` is for `date k`, `N` turns in all: a row after each, with the state that
control and then physics leave; the turn that fails ends the run, and writes no row. -/
structure Reports {S : Type*} (run : (S → Outcome S) → (Date → S → Outcome S) → ℕ → S → Report S)
    (date : ℕ → Date) (N : ℕ) : Prop where
  complete : ∀ control march (states : ℕ → S),
    (∀ k, k < N → (control (states k)).bind (march (date k)) = .ok (states (k + 1))) →
    ∀ turns, N < turns → run control march turns (states 0) =
      ⟨(List.range N).map fun k => (date k, states (k + 1)), .finished⟩
  error : ∀ control march (states : ℕ → S) (j : ℕ), j < N →
    (∀ k, k < j → (control (states k)).bind (march (date k)) = .ok (states (k + 1))) →
    (control (states j)).bind (march (date j)) = .err →
    ∀ turns, j < turns → run control march turns (states 0) =
      ⟨(List.range j).map fun k => (date k, states (k + 1)), .err⟩
  panic : ∀ control march (states : ℕ → S) (j : ℕ), j < N →
    (∀ k, k < j → (control (states k)).bind (march (date k)) = .ok (states (k + 1))) →
    (control (states j)).bind (march (date j)) = .panic →
    ∀ turns, j < turns → run control march turns (states 0) =
      ⟨(List.range j).map fun k => (date k, states (k + 1)), .panic⟩

/-- Days of a time step. -/
def stepDays (n : ℕ) : ℚ := 1 / (24 * (min n 60 : ℕ))

end Spec

open Spec

theorem reports_of_calls (S : Type*) (p : Period) (date : ℕ → Date) (N : ℕ)
    (h1 : ∀ k, k < N → p.nthCall k = some (some (date k))) (h2 : p.nthCall N = some none) :
    Reports (fun control march turns (s : S) => runLoop control march turns p s) date N := by
  have pre : ∀ (control : S → Outcome S) (march : Date → S → Outcome S) (states : ℕ → S) (j : ℕ), j ≤ N →
      (∀ k, k < j → (control (states k)).bind (march (date k)) = .ok (states (k + 1))) →
      ∃ q : Period, q.nthCall 0 = p.nthCall j ∧ ∀ turns, runLoop control march (j + turns) p (states 0) =
        ⟨(List.range j).map (fun k => (date k, states (k + 1))) ++ (runLoop control march turns q (states j)).rows,
          (runLoop control march turns q (states j)).ending⟩ := by
    intro control march states j hj hs
    obtain ⟨q, q1, q2⟩ := runLoop_prefix control march date states j p 0
      (fun k hk => by rw [Nat.zero_add]; exact h1 k (by omega)) (fun k hk => by rw [Nat.zero_add]; exact hs k hk)
    refine ⟨q, q1 0, fun turns => ?_⟩
    rw [q2 turns]
    simp only [Nat.zero_add]
  refine ⟨?_, ?_, ?_⟩
  · intro control march states hs turns ht
    obtain ⟨q, q1, q2⟩ := pre control march states N le_rfl hs
    obtain ⟨q', hq⟩ := next_of_nthCall (q1.trans h2)
    obtain ⟨t, rfl⟩ : ∃ t, turns = N + (t + 1) := ⟨turns - N - 1, by omega⟩
    rw [q2 (t + 1), runLoop, hq]
    simp
  · intro control march states j hj hs he turns ht
    obtain ⟨q, q1, q2⟩ := pre control march states j hj.le hs
    obtain ⟨q', hq⟩ := next_of_nthCall (q1.trans (h1 j hj))
    obtain ⟨t, rfl⟩ : ∃ t, turns = j + (t + 1) := ⟨turns - j - 1, by omega⟩
    rw [q2 (t + 1), runLoop, hq]
    simp [he]
  · intro control march states j hj hs he turns ht
    obtain ⟨q, q1, q2⟩ := pre control march states j hj.le hs
    obtain ⟨q', hq⟩ := next_of_nthCall (q1.trans (h1 j hj))
    obtain ⟨t, rfl⟩ : ∃ t, turns = j + (t + 1) := ⟨turns - j - 1, by omega⟩
    rw [q2 (t + 1), runLoop, hq]
    simp [he]

theorem stepsPerHour_ok (n : ℕ) (h : n ≠ 0) : stepsPerHour n = .ok (min n 60) := by
  unfold stepsPerHour
  by_cases h1 : n > 60
  · rw [if_pos h1, min_eq_right (by omega)]
  · rw [if_neg h1, if_neg h, min_eq_left (by omega)]

/-- C89: no time step is an error, and a weather without records a panic. -/
theorem C89_refused (n : ℕ) (dates : List Date) :
    simPeriod 0 dates = .err ∧ (n ≠ 0 → simPeriod n [] = .panic) := by
  refine ⟨rfl, fun h => ?_⟩
  unfold simPeriod
  rw [stepsPerHour_ok n h]
  rfl

/-- C89: a simulation has a row for each time step from one after the first record to a tenth of an hour before the
last one (through the new year if need be), at the right dates; each shows the state that control and physics leave,
one after the other; a failure ends it, with the rows up to there.  More than 60 steps per hour are taken as 60.

Partial: the last record is at least a tenth of an hour after midnight; the step after the first record is not
part of the simulation (`C89_violated_ends`); and periods through the new year as in C04. -/
theorem C89_rows_partial (S : Type*) (n : ℕ) (hn : n ≠ 0) (dates : List Date) (first last : Date)
    (h1 : dates.head? = some first) (h2 : dates.getLast? = some last) (v1 : Valid first) (v2 : Valid last)
    (hh : 1 / 10 ≤ last.hour)
    (hny : pos last - 1 / 240 < pos first →
      stepDays n ≤ pos last - 1 / 240 ∧ pos last - 1 / 240 + stepDays n < 365) :
    ∃ (p : Period) (date : ℕ → Date) (N : ℕ), simPeriod n dates = .ok p ∧
      (N : ℤ) = ⌊forward (pos first) (pos last - 1 / 240) / stepDays n⌋ ∧
      (∀ k, k < N → Valid (date k) ∧ pos (date k) = wrap (pos first + (k + 1) * stepDays n)) ∧
      Reports (fun control march turns (s : S) => runLoop control march turns p s) date N := by
  have hm : 1 ≤ min n 60 := by omega
  have hm' : (1 : ℚ) ≤ (min n 60 : ℕ) := by exact_mod_cast hm
  have ve : Valid { last with hour := last.hour - 1 / 10 } :=
    ⟨v2.month_pos, v2.month_le, v2.day_pos, v2.day_le, by simp only; linarith, by
      have := v2.hour_lt
      simp only
      linarith⟩
  have pe : pos { last with hour := last.hour - 1 / 10 } = pos last - 1 / 240 := by
    unfold pos
    ring
  have hdt : (60 * 60 / ((min n 60 : ℕ) : ℚ)) / 86400 = stepDays n := by
    unfold stepDays
    field_simp
    norm_num
  have hdt0 : (0 : ℚ) < 60 * 60 / ((min n 60 : ℕ) : ℚ) := by positivity
  have hdt1 : 60 * 60 / ((min n 60 : ℕ) : ℚ) < 224 * 86400 := by
    rw [div_lt_iff₀ (by linarith)]
    nlinarith
  obtain ⟨p, hp, hk⟩ := C04_nth_call_partial first { last with hour := last.hour - 1 / 10 } _ v1 ve hdt0 hdt1
    (by rw [pe, hdt]; exact hny)
  obtain ⟨p', hp', N, hN, c1, c2⟩ := C04_terminates_partial first { last with hour := last.hour - 1 / 10 } _ v1 ve hdt0 hdt1
    (by rw [pe, hdt]; exact hny)
  rw [hp] at hp'
  cases hp'
  rw [pe, hdt] at hN
  rw [pe, hdt] at hk
  have hdate : ∀ k, ∃ d, k < N → p.nthCall k = some (some d) := by
    intro k
    by_cases hkN : k < N
    · obtain ⟨d, hd⟩ := c1 k hkN
      exact ⟨d, fun _ => hd⟩
    · exact ⟨first, fun h => absurd h hkN⟩
  choose date hdate using hdate
  refine ⟨p, date, N, ?_, hN, ?_, reports_of_calls S p date N hdate (c2 N le_rfl)⟩
  · unfold simPeriod
    rw [stepsPerHour_ok n hn, h1, h2]
    simp only [Outcome.bind]
    rw [hp]
  · intro k hkN
    rcases hk k with ⟨-, d, d1, d2, d3, -⟩ | ⟨-, h⟩
    · rw [hdate k hkN] at d1
      cases d1
      exact ⟨d2, d3⟩
    · rw [hdate k hkN] at h
      cases h

/-- C89 fails: of `m + 2` hourly records, the first and the last have no row, with one step per hour: there are `m`
rows. -/
theorem C89_violated_ends (S : Type*) (m : ℕ) (dates : List Date) (first last : Date)
    (h1 : dates.head? = some first) (h2 : dates.getLast? = some last) (v1 : Valid first) (v2 : Valid last)
    (hh : 1 / 10 ≤ last.hour) (hl : pos last = pos first + (m + 1) / 24) :
    ∃ (p : Period) (date : ℕ → Date), simPeriod 1 dates = .ok p ∧
      (∀ k, k < m → pos (date k) = pos first + (k + 1) / 24) ∧
      Reports (fun control march turns (s : S) => runLoop control march turns p s) date m := by
  have l1 := pos_lt_year v2
  have f0 := pos_nonneg v1
  have f1 := pos_lt_year v1
  have hm0 : (0 : ℚ) ≤ m := by positivity
  have hs : stepDays 1 = 1 / 24 := by norm_num [stepDays]
  obtain ⟨p, date, N, hp, hN, hd, hr⟩ := C89_rows_partial S 1 one_ne_zero dates first last h1 h2 v1 v2 hh
    (fun h => by rw [hl] at h; exfalso; linarith)
  have hf : forward (pos first) (pos last - 1 / 240) = (m + 1) / 24 - 1 / 240 := by
    rw [forward_of_le f0 (by linarith) (by linarith), hl]
    ring
  have hNm : N = m := by
    have : ⌊((m : ℚ) + 1) / 24 / (1 / 24) - 1 / 240 / (1 / 24)⌋ = (m : ℤ) := by
      rw [Int.floor_eq_iff]
      constructor <;> push_cast <;> linarith
    rw [hf, hs, sub_div, this] at hN
    exact_mod_cast hN
  subst hNm
  refine ⟨p, date, hp, fun k hk => ?_, hr⟩
  have hk' : (k : ℚ) + 1 ≤ N := by exact_mod_cast hk
  have hk0 : (0 : ℚ) ≤ k := by positivity
  rw [(hd k hk).2, hs, wrap_self (by linarith) (by linarith)]
  ring

/-- C89 fails: with a single record, not close to the new year, a whole year is simulated. -/
theorem C89_violated_single (S : Type*) (d : Date) (v : Valid d) (h0 : 1 / 10 ≤ d.hour) (h1 : 1 ≤ pos d)
    (h2 : pos d < 364) :
    ∃ (p : Period) (date : ℕ → Date), simPeriod 1 [d] = .ok p ∧
      Reports (fun control march turns (s : S) => runLoop control march turns p s) date 8759 := by
  have hs : stepDays 1 = 1 / 24 := by norm_num [stepDays]
  obtain ⟨p, date, N, hp, hN, -, hr⟩ := C89_rows_partial S 1 one_ne_zero [d] d d rfl rfl v v h0
    (fun _ => by rw [hs]; constructor <;> linarith)
  have hf : forward (pos d) (pos d - 1 / 240) = 365 - 1 / 240 := by
    rw [forward_of_lt (pos_lt_year v) (by linarith) (by linarith)]
    ring
  have : N = 8759 := by
    have e : ⌊((365 : ℚ) - 1 / 240) / (1 / 24)⌋ = 8759 := by
      rw [Int.floor_eq_iff]
      constructor <;> norm_num
    rw [hf, hs, e] at hN
    exact_mod_cast hN
  subst this
  exact ⟨p, date, hp, hr⟩

/-! ## The order of the modules, and the steps of the heat model -/

/-- C89: air sees what solar radiation left, and heat what both left; a module that fails ends the step. -/
theorem C89_modules {S : Type*} (solar air heat : Date → S → Outcome S) (date : Date) (s s' : S) :
    marchAll solar air heat date s = .ok s' ↔
      ∃ s1 s2, solar date s = .ok s1 ∧ air date s1 = .ok s2 ∧ heat date s2 = .ok s' := by
  unfold marchAll
  constructor
  · intro h
    cases h1 : solar date s with
    | err => rw [h1] at h; cases h
    | panic => rw [h1] at h; cases h
    | ok s1 =>
      rw [h1] at h
      simp only [Outcome.bind] at h
      cases h2 : air date s1 with
      | err => rw [h2] at h; cases h
      | panic => rw [h2] at h; cases h
      | ok s2 =>
        rw [h2] at h
        exact ⟨s1, s2, rfl, h2, h⟩
  · rintro ⟨s1, s2, h1, h2, h3⟩
    rw [h1]
    simp only [Outcome.bind]
    rw [h2]
    exact h3

theorem foldl_max (l : List ℕ) : ∀ a : ℕ,
    a ≤ l.foldl (fun most d => if d > most then d else most) a ∧
    (∀ d ∈ l, d ≤ l.foldl (fun most d => if d > most then d else most) a) ∧
    (l.foldl (fun most d => if d > most then d else most) a = a ∨
      l.foldl (fun most d => if d > most then d else most) a ∈ l) := by
  induction l with
  | nil => intro a; simp
  | cons x l ih =>
    intro a
    rw [List.foldl_cons]
    obtain ⟨h1, h2, h3⟩ := ih (if x > a then x else a)
    have hx : a ≤ (if x > a then x else a) ∧ x ≤ (if x > a then x else a) := by split_ifs <;> omega
    refine ⟨by omega, ?_, ?_⟩
    · intro d hd
      rcases List.mem_cons.1 hd with rfl | hd
      · omega
      · exact h2 d hd
    · rcases h3 with h3 | h3
      · rw [h3]
        split_ifs
        · right; simp
        · left; rfl
      · right; simp [h3]

/-- C89: the parts of a time step add up to it, are equal, at most half as long as each surface needs, and not
shorter than what some surface needs (or a step without division). -/
theorem C89_parts (n : ℕ) (hn : n ≠ 0) (needed : List ℕ) :
    subdivisions needed * partSeconds n needed = 3600 / n ∧
    (∀ d ∈ needed, 0 < d → partSeconds n needed ≤ 3600 / n / d / 2) ∧
    (partSeconds n needed = 3600 / n / 2 ∨ ∃ d ∈ needed, partSeconds n needed = 3600 / n / d / 2) := by
  obtain ⟨h1, h2, h3⟩ := foldl_max needed 1
  unfold partSeconds subdivisions
  set m := needed.foldl (fun most d => if d > most then d else most) 1 with hm
  have hn' : (0 : ℚ) < n := by exact_mod_cast Nat.pos_of_ne_zero hn
  have hm' : (0 : ℚ) < m := by exact_mod_cast (by omega : 0 < m)
  refine ⟨?_, ?_, ?_⟩
  · push_cast
    field_simp
    norm_num
  · intro d hd h0
    have hd' : (0 : ℚ) < d := by exact_mod_cast h0
    have hle : (d : ℚ) ≤ m := by exact_mod_cast h2 d hd
    push_cast
    rw [show (3600 : ℚ) / n / d / 2 = 60 * 60 / (n * (2 * d)) by field_simp; norm_num]
    apply div_le_div_of_nonneg_left (by norm_num) (by positivity)
    nlinarith
  · rcases h3 with h | h
    · left
      rw [h]
      push_cast
      field_simp
      norm_num
    · right
      refine ⟨m, h, ?_⟩
      push_cast
      field_simp
      norm_num

/-- C89: part `i` of the step of a date takes the weather `i + 1` parts after it: the row of a date shows the state at
the end of the step that begins then. -/
theorem C89_weather_dates (dt : ℚ) (h0 : 0 ≤ dt) (h1 : dt < 224 * 86400) : ∀ (parts : ℕ) (d : Date), Valid d →
    ∃ l, heatDates dt parts d = some l ∧ l.length = parts ∧ ∀ (i : ℕ) (d' : Date), l[i]? = some d' →
      Valid d' ∧ pos d' = wrap (pos d + (i + 1) * (dt / 86400))
  | 0, d, _ => ⟨[], rfl, rfl, by simp⟩
  | parts + 1, d, v => by
    obtain ⟨⟨d1, e1, v1, p1⟩, -⟩ := C03_addSeconds_partial d v dt h0 h1
    obtain ⟨l, l1, l2, l3⟩ := C89_weather_dates dt h0 h1 parts d1 v1
    refine ⟨d1 :: l, ?_, by simp [l2], ?_⟩
    · rw [heatDates, e1]
      simp [l1]
    · intro i d' hi
      cases i with
      | zero =>
        simp only [List.getElem?_cons_zero, Option.some.injEq] at hi
        subst hi
        refine ⟨v1, ?_⟩
        rw [p1]
        congr 1
        push_cast
        ring
      | succ i =>
        rw [List.getElem?_cons_succ] at hi
        obtain ⟨v2, p2⟩ := l3 i d' hi
        refine ⟨v2, ?_⟩
        rw [p2, p1]
        obtain ⟨k, hk⟩ := wrap_spec (pos d + dt / 86400)
        obtain ⟨k', hk'⟩ := wrap_spec (wrap (pos d + dt / 86400) + (i + 1) * (dt / 86400))
        refine (wrap_eq (k' + k) ?_ (wrap_nonneg _) (wrap_lt _)).symm
        push_cast
        linarith

/-! ## Examples -/

example : Valid ⟨1, 1, 1⟩ ∧ Valid ⟨12, 31, 23⟩ ∧ pos ⟨12, 31, 23⟩ = pos ⟨1, 1, 1⟩ + ((8757 : ℕ) + 1) / 24 := by
  refine ⟨⟨by norm_num, by norm_num, by norm_num, by decide, by norm_num, by norm_num⟩,
    ⟨by norm_num, by norm_num, by norm_num, by decide, by norm_num, by norm_num⟩, ?_⟩
  norm_num [pos, daysBefore, daysIn]

example : subdivisions [3, 7, 2] = 14 := by decide

end Simple.Sim
