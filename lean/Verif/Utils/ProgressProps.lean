import Mathlib.Tactic.Linarith
import Mathlib.Tactic.NormNum
import Mathlib.Tactic.FieldSimp
import Mathlib.Tactic.Positivity
import Mathlib.Data.List.Range
import Verif.Utils.ProgressModel

/-! C14: the progress bar counts every tick and never goes backwards. -/

namespace Simple.Progress

/-- The calls to `tic` in an execution. -/
def isCall : Event → Bool
  | .call _ => true
  | _ => false

theorem progressOf_le (total c : ℕ) : progressOf total c ≤ 100 := by
  unfold progressOf
  rcases Nat.lt_or_ge c total with h | h
  · rw [if_neg (by omega)]
    have hq : (c : ℚ) + 1 ≤ total := by exact_mod_cast h
    have h0 : (0 : ℚ) < total := by have : (0:ℚ) ≤ c := Nat.cast_nonneg c; linarith
    have : 100 * (c : ℚ) / total < 100 := by
      rw [div_lt_iff₀ h0]; linarith
    have h2 : ⌊100 * (c : ℚ) / total + 1 / 2⌋ < 101 := by
      rw [Int.floor_lt]; push_cast; linarith
    omega
  · rw [if_pos h]

/-- The rounded percentage is within half a point of the true one. -/
theorem progressOf_near (total c : ℕ) (h : c < total) :
    |(progressOf total c : ℚ) - 100 * c / total| ≤ 1 / 2 := by
  unfold progressOf
  rw [if_neg (by omega)]
  have h0 : (0 : ℚ) ≤ 100 * (c : ℚ) / total := by positivity
  have hnn : 0 ≤ ⌊100 * (c : ℚ) / total + 1 / 2⌋ := Int.floor_nonneg.2 (by linarith)
  have hcast : ((⌊100 * (c : ℚ) / total + 1 / 2⌋.toNat : ℕ) : ℚ)
      = (⌊100 * (c : ℚ) / total + 1 / 2⌋ : ℚ) := by
    exact_mod_cast congrArg (Int.cast : ℤ → ℚ) (Int.toNat_of_nonneg hnn)
  rw [hcast, abs_le]
  have h1 := Int.floor_le (100 * (c : ℚ) / total + 1 / 2)
  have h2 := Int.lt_floor_add_one (100 * (c : ℚ) / total + 1 / 2)
  constructor <;> linarith

theorem progressOf_mono (total : ℕ) {a b : ℕ} (h : a ≤ b) :
    progressOf total a ≤ progressOf total b := by
  by_cases hb : b ≥ total
  · have : progressOf total b = 100 := by unfold progressOf; rw [if_pos hb]
    rw [this]; exact progressOf_le _ _
  · unfold progressOf
    rw [if_neg (by omega), if_neg hb]
    apply Int.toNat_le_toNat
    apply Int.floor_le_floor
    have : (a : ℚ) ≤ b := by exact_mod_cast h
    gcongr

/-- What every reachable state satisfies: number of calls so far is the counter, tickets are
`counter-1, ..., 0`, all values printed are at most 100, and so are the ones about to be. -/
structure Inv (n : ℕ) (s : State) : Prop where
  counter : s.counter = n
  tickets : s.tickets = (List.range n).reverse
  shown : ∀ p ∈ s.shown, p ≤ 100
  pending : ∀ t p lp, s.pc t = .loaded p lp → p ≤ 100

theorem inv_new : Inv 0 State.new := by
  refine ⟨rfl, rfl, by simp [State.new], by simp [State.new]⟩

theorem inv_step {total n : ℕ} {s s' : State} {e : Event} (h : Inv n s)
    (hs : step total s e = some s') : Inv (n + if isCall e then 1 else 0) s' ∧ s.last ≤ s'.last := by
  obtain ⟨h1, h2, h3, h4⟩ := h
  cases e with
  | call t =>
    unfold step at hs
    simp only at hs
    split at hs
    · obtain rfl := Option.some.inj hs
      refine ⟨⟨?_, ?_, h3, ?_⟩, le_refl _⟩
      · simp [isCall, h1]
      · simp [isCall, h1, h2, List.range_succ]
      · intro t' p lp hp
        by_cases htt : t' = t
        · subst htt; simp at hp
        · simp only [Function.update_of_ne htt] at hp
          exact h4 _ _ _ hp
    · simp at hs
  | load t v =>
    unfold step at hs
    simp only at hs
    split at hs
    · split_ifs at hs
      obtain rfl := Option.some.inj hs
      refine ⟨⟨by simpa [isCall] using h1, by simpa [isCall] using h2, h3, ?_⟩, le_refl _⟩
      intro t' p lp hp
      by_cases htt : t' = t
      · subst htt
        simp at hp
        rw [← hp.1]; exact progressOf_le _ _
      · simp only [Function.update_of_ne htt] at hp
        exact h4 _ _ _ hp
    · simp at hs
  | finish t =>
    unfold step at hs
    simp only at hs
    split at hs
    · rename_i progress lp hpc
      have hpend : ∀ (m : ℕ → Pc), m = Function.update s.pc t .idle →
          ∀ t' p lp, m t' = .loaded p lp → p ≤ 100 := by
        rintro m rfl t' p lp hp
        by_cases htt : t' = t
        · subst htt; simp at hp
        · simp only [Function.update_of_ne htt] at hp
          exact h4 _ _ _ hp
      split_ifs at hs
      · obtain rfl := Option.some.inj hs
        refine ⟨⟨by simpa [isCall] using h1, by simpa [isCall] using h2, ?_, hpend _ rfl⟩, ?_⟩
        · intro p hp
          rcases List.mem_cons.1 hp with rfl | hp
          · exact h4 _ _ _ hpc
          · exact h3 _ hp
        · simp
      · obtain rfl := Option.some.inj hs
        exact ⟨⟨by simpa [isCall] using h1, by simpa [isCall] using h2, h3, hpend _ rfl⟩, le_refl _⟩
    · simp at hs

theorem inv_run {total n : ℕ} {s s' : State} (es : List Event) (h : Inv n s)
    (hs : run total s es = some s') :
    Inv (n + es.countP isCall) s' ∧ s.last ≤ s'.last := by
  induction es generalizing n s with
  | nil => obtain rfl := Option.some.inj hs; exact ⟨h, le_refl _⟩
  | cons e es ih =>
    unfold run at hs
    cases hst : step total s e with
    | none => simp [hst] at hs
    | some s1 =>
      simp only [hst, Option.bind_some] at hs
      obtain ⟨ha, hb⟩ := inv_step h hst
      obtain ⟨hc, hd⟩ := ih ha hs
      refine ⟨?_, hb.trans hd⟩
      rw [List.countP_cons]
      have : n + (List.countP isCall es + if isCall e = true then 1 else 0)
        = n + (if isCall e = true then 1 else 0) + List.countP isCall es := by omega
      rwa [this]

/-- **C14** (counting).  In every interleaving of the atomic steps of any number of threads, the
counter equals the number of calls made so far, and these calls obtained the counts `0, 1, 2, ...`,
each exactly once. -/
theorem C14_counts (total : ℕ) (es : List Event) (s : State)
    (h : run total State.new es = some s) :
    s.counter = es.countP isCall ∧ s.tickets.reverse = List.range (es.countP isCall) := by
  have := (inv_run es inv_new h).1
  rw [Nat.zero_add] at this
  exact ⟨this.counter, by rw [this.tickets, List.reverse_reverse]⟩

/-- **C14** (monotone).  In every interleaving, the recorded progress never decreases: it is at
least what it was after any prefix of the execution. -/
theorem C14_monotone (total : ℕ) (es fs : List Event) (s s' : State)
    (h : run total State.new es = some s) (h' : run total s fs = some s') :
    s.last ≤ s'.last :=
  (inv_run fs (inv_run es inv_new h).1 h').2

/-- **C14** (what is printed).  In every interleaving, the percentages printed are at most 100. -/
theorem C14_printed_le (total : ℕ) (es : List Event) (s : State)
    (h : run total State.new es = some s) : ∀ p ∈ s.shown, p ≤ 100 :=
  (inv_run es inv_new h).1.shown

/-- Two threads whose ticks overlap. -/
example : (run 10 State.new
    [.call 0, .call 1, .load 1 0, .load 0 0, .finish 0, .finish 1]).map
      (fun s => (s.counter, s.last)) = some (2, 10) := by decide +kernel

/-- **C14** (the bar).  For a percentage of at most 100 the bar has always 50 characters. -/
theorem C14_bar_width (p : ℕ) (hp : p ≤ 100) : (bar p).1 + (bar p).2 = 50 ∧ (bar p).1 ≤ 50 := by
  have hq : (p : ℚ) ≤ 100 := by exact_mod_cast hp
  have h2 : ⌊(barLength : ℚ) * ((p : ℚ) / 100) + 1 / 2⌋ < 51 := by
    rw [Int.floor_lt]; simp only [barLength]; push_cast; linarith
  have h3 : (bar p).1 ≤ 50 := by
    unfold bar; simp only; omega
  have h4 : (bar p).2 = 50 - (bar p).1 := by
    have : barLength ≥ (bar p).1 := h3
    show (if barLength ≥ (bar p).1 then barLength - (bar p).1 else 0) = _
    rw [if_pos this]; rfl
  omega

example : bar 30 = (15, 35) := by decide +kernel

/-! ### Calls which do not overlap -/

/-- What holds after `n` calls without overlap. -/
structure SeqInv (total n : ℕ) (s : State) : Prop where
  counter : s.counter = n
  idle : ∀ t, s.pc t = .idle
  mem : s.last ∈ s.history
  le : n = 0 → s.last = 0
  upper : ∀ k, n = k + 1 → s.last ≤ progressOf total k
  lower : ∀ k, n = k + 1 → progressOf total k < s.last + 2

theorem seq_step {total n : ℕ} {s : State} (t : ℕ) (h : SeqInv total n s) :
    ∃ s', run total s (ticEvents t s.last) = some s' ∧ SeqInv total (n + 1) s' := by
  obtain ⟨h1, h2, h3, h4, h5, h6⟩ := h
  have hupd : ∀ x, Function.update (Function.update (Function.update s.pc t x) t (.loaded (progressOf total s.counter) s.last)) t Pc.idle = s.pc := by
    intro x; funext t'
    by_cases htt : t' = t
    · subst htt; simp [h2]
    · simp [Function.update_of_ne htt]
  have hle : s.last ≤ progressOf total s.counter := by
    cases n with
    | zero => rw [h4 rfl]; exact Nat.zero_le _
    | succ k => rw [h1]; exact (h5 k rfl).trans (progressOf_mono total (by omega))
  have hd : delta (progressOf total s.counter) s.last = progressOf total s.counter - s.last := by
    unfold delta; split_ifs <;> omega
  by_cases hge : delta (progressOf total s.counter) s.last ≥ 100 / barLength
  · refine ⟨⟨s.counter + 1, s.last + delta (progressOf total s.counter) s.last,
      (s.last + delta (progressOf total s.counter) s.last) :: s.history,
      progressOf total s.counter :: s.shown, s.counter :: s.tickets, Function.update (Function.update (Function.update s.pc t (.counted s.counter)) t (.loaded (progressOf total s.counter) s.last)) t Pc.idle⟩, ?_, ?_⟩
    · simp only [ticEvents, run, step, h2 t, Option.bind_some, Function.update_self, h3, if_true]
      rw [if_pos hge]
      simp only [Option.bind_some]
    · have hnew : s.last + delta (progressOf total s.counter) s.last = progressOf total s.counter := by
        rw [hd]; omega
      refine ⟨by simp [h1], ?_, by simp, by omega, ?_, ?_⟩
      · intro t'; simp only; rw [hupd]; exact h2 t'
      · intro k hk; simp only; rw [hnew, show k = s.counter by omega]
      · intro k hk; simp only; rw [hnew, show k = s.counter by omega]; omega
  · refine ⟨⟨s.counter + 1, s.last, s.history, s.shown, s.counter :: s.tickets, Function.update (Function.update (Function.update s.pc t (.counted s.counter)) t (.loaded (progressOf total s.counter) s.last)) t Pc.idle⟩, ?_, ?_⟩
    · simp only [ticEvents, run, step, h2 t, Option.bind_some, Function.update_self, h3, if_true]
      rw [if_neg hge]
      simp only [Option.bind_some]
    · simp only [barLength] at hge
      refine ⟨by simp [h1], ?_, h3, by omega, ?_, ?_⟩
      · intro t'; simp only; rw [hupd]; exact h2 t'
      · intro k hk; rw [show k = s.counter by omega]; exact hle
      · intro k hk; rw [show k = s.counter by omega]; simp only; omega

theorem seq_inv (total : ℕ) (ts : ℕ → ℕ) (n : ℕ) :
    ∃ s, runSequential total ts n = some s ∧ SeqInv total n s := by
  induction n with
  | zero => exact ⟨_, rfl, rfl, fun _ => rfl, by simp [State.new], fun _ => rfl, by omega, by omega⟩
  | succ n ih =>
    obtain ⟨s, hs, hi⟩ := ih
    obtain ⟨s', hs', hi'⟩ := seq_step (ts n) hi
    refine ⟨s', ?_, hi'⟩
    simp [runSequential, hs, hs']

/-- **C14** (calls without overlap).  After `k + 1` calls by any threads, none of which overlap, the
recorded progress is at most 100, and within two points of the percentage of the `k` steps that had
been completed when the last call was made (`100` if `k` is beyond the total).
The property asks for the percentage of `k + 1` steps: see `C14_violated_lag`. -/
theorem C14_sequential_partial (total : ℕ) (ts : ℕ → ℕ) (k : ℕ) :
    ∃ s, runSequential total ts (k + 1) = some s ∧ s.counter = k + 1 ∧ s.last ≤ 100 ∧
      (k < total → |(s.last : ℚ) - 100 * k / total| < 2) ∧
      (total ≤ k → 99 ≤ s.last) := by
  obtain ⟨s, hs, h⟩ := seq_inv total ts (k + 1)
  have h5 := h.upper k rfl
  have h6 := h.lower k rfl
  refine ⟨s, hs, h.counter, h5.trans (progressOf_le _ _), ?_, ?_⟩
  · intro hk
    have hn := abs_le.1 (progressOf_near total k hk)
    have h5' : (s.last : ℚ) ≤ progressOf total k := by exact_mod_cast h5
    have h6' : (progressOf total k : ℚ) ≤ s.last + 1 := by
      have : progressOf total k ≤ s.last + 1 := by omega
      exact_mod_cast this
    rw [abs_lt]
    constructor <;> linarith [hn.1, hn.2]
  · intro hk
    have : progressOf total k = 100 := by unfold progressOf; rw [if_pos hk]
    omega

example : (runSequential 7 id 5).map (fun s => (s.counter, s.last, s.shown)) =
    some (5, 57, [57, 43, 29, 14, 0]) := by decide +kernel

/-- **C14** is violated for the strict reading: each call reports the count *before* it, so after all
`total` steps are done the recorded progress is not near 100 when `total` is small: with four steps,
it is 75. -/
theorem C14_violated_lag :
    (runSequential 4 id 4).map (fun s => (s.counter, s.last)) = some (4, 75) := by decide +kernel

/-- **C14** does not extend to overlapping calls: with four ticks of a bar of four steps, the recorded
progress reaches 150, because each thread adds its own difference from the same old value. -/
theorem C14_violated_overlap_exceeds_100 :
    (run 4 State.new [.call 0, .call 1, .call 2, .call 3, .load 0 0, .load 1 0, .load 2 0, .load 3 0,
      .finish 0, .finish 1, .finish 2, .finish 3]).map (fun s => (s.counter, s.last))
      = some (4, 150) := by decide +kernel

end Simple.Progress
