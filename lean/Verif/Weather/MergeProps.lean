import Verif.Weather.LineProps
import Verif.Weather.MergeModel

/-! # C114: weather that is put together from parts -/

namespace Simple.Weather

open Calendar Calendar.Spec

namespace Merge.Spec

/-- The records that a history adds. -/
def added {L : Type} : List (WeatherOp L) → List CurrentWeather
  | [] => []
  | .add w :: ops => w.data ++ added ops
  | .sort :: ops => added ops

/-- Every part is of this place. -/
def Here {L : Type} (place : L) (ops : List (WeatherOp L)) : Prop := ∀ w, WeatherOp.add w ∈ ops → w.location = place

/-- Going from `a` to `b` the shorter way around a circle of this length, `r` is passed. -/
def OnShortArc (turn a b r : ℚ) : Prop :=
  ∃ j k : ℤ, |b + j * turn - a| ≤ turn / 2 ∧ (min a (b + j * turn) ≤ r + k * turn ∧ r + k * turn ≤ max a (b + j * turn))

/-- The schedules of a synthetic weather, the magnitudes that they are of, and what those are where nothing is said. -/
def schedules : List ((SyntheticWeather → Date → Option ℚ) × (CurrentWeather → ℚ) × ℚ) :=
  [((·.dryBulb), (·.dryBulb), 0), ((·.dewPoint), (·.dewPoint), 0), ((·.globalHorizontal), (·.globalHorizontal), 0),
    ((·.directNormal), (·.directNormal), 0), ((·.diffuseHorizontal), (·.diffuseHorizontal), 0), ((·.windSpeed), (·.windSpeed), 0),
    ((·.windDirection), (·.windDirection), 0), ((·.opaqueSkyCover), (·.opaqueSkyCover), 0), ((·.relativeHumidity), (·.relativeHumidity), 1 / 2),
    ((·.pressure), (·.pressure), 101300)]

end Merge.Spec

open Merge.Spec

/-- C114: nothing is lost, repeated or changed.  After any history of parts of the same place and sortings the records are those at the
beginning and those of all the parts, and the place is the same; with a part of another place it panics. -/
theorem C114_history {L : Type} [DecidableEq L] (w : Weather L) (ops : List (WeatherOp L)) :
    (Here w.location ops → ∃ w', w.run ops = .ok w' ∧ w'.location = w.location ∧ w'.data.Perm (w.data ++ added ops)) ∧
      (¬ Here w.location ops → w.run ops = .panic) := by
  induction ops generalizing w with
  | nil => exact ⟨fun _ => ⟨w, rfl, rfl, by simp [added]⟩, fun h => absurd (fun _ h => by cases h) h⟩
  | cons op ops ih =>
    cases op with
    | sort =>
      have hiff : Here w.location (WeatherOp.sort :: ops) ↔ Here w.sort.location ops := by
        constructor
        · intro h x hx; exact h x (List.mem_cons_of_mem _ hx)
        · intro h x hx
          rcases List.mem_cons.1 hx with h' | h'
          · cases h'
          · exact h x h'
      obtain ⟨h1, h2⟩ := ih w.sort
      refine ⟨fun h => ?_, fun h => h2 fun h' => h (hiff.2 h')⟩
      obtain ⟨w', e, el, ep⟩ := h1 (hiff.1 h)
      exact ⟨w', e, el, ep.trans (List.Perm.append_right _ (List.mergeSort_perm _ _))⟩
    | add x =>
      by_cases hx : w.location = x.location
      · have hs : w.step (.add x) = .ok { w with data := w.data ++ x.data } := by
          simp only [Weather.step, Weather.addAssign]
          rw [if_pos hx]
        obtain ⟨h1, h2⟩ := ih { w with data := w.data ++ x.data }
        have hiff : Here w.location (WeatherOp.add x :: ops) ↔ Here w.location ops := by
          constructor
          · intro h y hy; exact h y (List.mem_cons_of_mem _ hy)
          · intro h y hy
            rcases List.mem_cons.1 hy with h' | h'
            · cases h'; exact hx.symm
            · exact h y h'
        simp only [Weather.run, hs, Outcome.bind]
        refine ⟨fun h => ?_, fun h => h2 fun h' => h (hiff.2 h')⟩
        obtain ⟨w', e, el, ep⟩ := h1 (hiff.1 h)
        refine ⟨w', e, el, ?_⟩
        simpa [added, List.append_assoc] using ep
      · refine ⟨fun h => absurd (h x (List.mem_cons_self ..)).symm hx, fun _ => ?_⟩
        simp only [Weather.run, Weather.step, Weather.addAssign]
        rw [if_neg hx]
        rfl

private theorem run_append {L : Type} [DecidableEq L] (w : Weather L) (ops ops' : List (WeatherOp L)) :
    w.run (ops ++ ops') = (w.run ops).bind fun w' => w'.run ops' := by
  induction ops generalizing w with
  | nil => rfl
  | cons op ops ih =>
    simp only [List.cons_append, Weather.run]
    cases h : w.step op with
    | ok w' => exact ih w'
    | err => rfl
    | panic => rfl

/-- C114, `_partial`: when the last thing done is to sort, the weather at the moment of any record is that of a record of the same moment, and the weather
between two of them is that of the closest records before and after it, whatever part they came in, in proportion to the time.

Missing: histories that do not end with sorting (`C114_violated_unsorted`). -/
theorem C114_sorted_partial {L : Type} [DecidableEq L] (w : Weather L) (ops : List (WeatherOp L)) (hh : Here w.location ops)
    (hv : ∀ r ∈ w.data ++ added ops, Valid r.date) :
    ∃ w', w.run (ops ++ [.sort]) = .ok w' ∧
      (∀ r ∈ w.data ++ added ops, ∃ r' ∈ w.data ++ added ops, w'.getWeatherData r.date = .ok r' ∧ r'.date = r.date ∧
        (((w.data ++ added ops).map (·.date)).Nodup → r' = r)) ∧
      ∀ d, Valid d → (∀ r ∈ w.data ++ added ops, r.date ≠ d) → (∃ r ∈ w.data ++ added ops, pos r.date < pos d) →
        (∃ r ∈ w.data ++ added ops, pos d < pos r.date) →
        ∃ a ∈ w.data ++ added ops, ∃ b ∈ w.data ++ added ops, ∃ r, w'.getWeatherData d = .ok r ∧ r.date = d ∧
          pos a.date < pos d ∧ pos d < pos b.date ∧
          (∀ q ∈ w.data ++ added ops, pos q.date ≤ pos a.date ∨ pos b.date ≤ pos q.date) ∧
          Spec.IsMix a b r ((pos d - pos a.date) / (pos b.date - pos a.date)) := by
  obtain ⟨w1, e1, -, hp1⟩ := (C114_history w ops).1 hh
  have hrun : w.run (ops ++ [.sort]) = .ok w1.sort := by rw [run_append, e1]; rfl
  obtain ⟨hp2, hs⟩ := C34_sort w1.data fun r hr => hv r (hp1.mem_iff.1 hr)
  have hperm : w1.sort.data.Perm (w.data ++ added ops) := hp2.trans hp1
  have hs' : Spec.Sorted w1.sort.data := hs
  refine ⟨_, hrun, fun r hr => ?_, fun d hd hne hb ha => ?_⟩
  · obtain ⟨r', hr', e, ed, hn⟩ := C34_at_record w1.sort.data hs' r (hperm.mem_iff.2 hr)
    exact ⟨r', hperm.mem_iff.1 hr', e, ed, fun h => hn ((hperm.map _).nodup_iff.2 h)⟩
  · obtain ⟨b0, hb0, hb1⟩ := hb
    obtain ⟨a0, ha0, ha1⟩ := ha
    obtain ⟨i, hi, r, e, h1, h2, h3, h4⟩ := C34_between_partial w1.sort.data hs' d hd (fun x hx => hne x (hperm.mem_iff.1 hx))
      ⟨b0, hperm.mem_iff.2 hb0, hb1⟩ ⟨a0, hperm.mem_iff.2 ha0, ha1⟩
    refine ⟨_, hperm.mem_iff.1 (List.getElem_mem (Nat.lt_of_succ_lt hi)), _, hperm.mem_iff.1 (List.getElem_mem hi), r, e, h3, h1, h2, fun q hq => ?_, h4⟩
    obtain ⟨k, hk, rfl⟩ := List.getElem_of_mem (hperm.mem_iff.2 hq)
    rcases Nat.lt_or_ge i k with h | h
    · right
      rcases Nat.lt_or_ge (i + 1) k with h' | h'
      · exact List.pairwise_iff_getElem.1 hs'.sorted _ _ hi hk h'
      · have : k = i + 1 := by omega
        subst this; exact le_refl _
    · left
      rcases Nat.lt_or_ge k i with h' | h'
      · exact List.pairwise_iff_getElem.1 hs'.sorted _ _ hk (Nat.lt_of_succ_lt hi) h'
      · have : k = i := by omega
        subst this; exact le_refl _

/-- The hypotheses are met by a year in two halves, the second first: the first of April is between them. -/
example : ∃ w' r, (⟨[⟨⟨7, 1, 0⟩, 20, 0, 0, 0, 0, 0, 0, none, 0, 0, 0⟩], 0⟩ : Weather ℕ).run
    ([.add ⟨[⟨⟨1, 1, 0⟩, 10, 0, 0, 0, 0, 0, 0, none, 0, 0, 0⟩], 0⟩] ++ [.sort]) = .ok w' ∧ w'.getWeatherData ⟨4, 1, 0⟩ = .ok r ∧ r.date = ⟨4, 1, 0⟩ := by
  have hv : ∀ m : ℕ, 1 ≤ m → m ≤ 12 → Valid ⟨m, 1, 0⟩ := fun m h1 h2 =>
    ⟨h1, h2, by norm_num, by have := daysIn_bounds m; simp only; omega, by norm_num, by norm_num⟩
  obtain ⟨w', e, -, h⟩ := C114_sorted_partial (⟨[⟨⟨7, 1, 0⟩, 20, 0, 0, 0, 0, 0, 0, none, 0, 0, 0⟩], 0⟩ : Weather ℕ)
    [.add ⟨[⟨⟨1, 1, 0⟩, 10, 0, 0, 0, 0, 0, 0, none, 0, 0, 0⟩], 0⟩] (by intro w hw; simp at hw; rw [hw])
    (by
      intro r hr
      simp only [added, List.append_nil, List.mem_append, List.mem_singleton] at hr
      rcases hr with rfl | rfl
      · exact hv 7 (by norm_num) (by norm_num)
      · exact hv 1 (by norm_num) (by norm_num))
  obtain ⟨_, _, _, _, r, e1, e2, _⟩ := h ⟨4, 1, 0⟩ (hv 4 (by norm_num) (by norm_num)) (by decide +kernel)
    ⟨⟨⟨1, 1, 0⟩, 10, 0, 0, 0, 0, 0, 0, none, 0, 0, 0⟩, by simp [added], by norm_num [pos, daysBefore, daysIn]⟩
    ⟨⟨⟨7, 1, 0⟩, 20, 0, 0, 0, 0, 0, 0, none, 0, 0, 0⟩, by simp [added], by norm_num [pos, daysBefore, daysIn]⟩
  exact ⟨w', r, e, e1, e2⟩

/-- C114: the order in which the parts are put together does not matter, if no two records are of the same moment: with the same records in
any order, and sorted at the end, the weather is the same at all moments. -/
theorem C114_order {L : Type} [DecidableEq L] (w v : Weather L) (ops ops' : List (WeatherOp L)) (hh : Here w.location ops) (hh' : Here v.location ops')
    (hv : ∀ r ∈ w.data ++ added ops, Valid r.date) (hn : ((w.data ++ added ops).map (·.date)).Nodup)
    (hsame : (w.data ++ added ops).Perm (v.data ++ added ops')) :
    ∃ w' v', w.run (ops ++ [.sort]) = .ok w' ∧ v.run (ops' ++ [.sort]) = .ok v' ∧ ∀ d, w'.getWeatherData d = v'.getWeatherData d := by
  obtain ⟨w1, e1, -, hp1⟩ := (C114_history w ops).1 hh
  obtain ⟨v1, e2, -, hp2⟩ := (C114_history v ops').1 hh'
  refine ⟨w1.sort, v1.sort, by rw [run_append, e1]; rfl, by rw [run_append, e2]; rfl, fun d => ?_⟩
  obtain ⟨q1, s1⟩ := C34_sort w1.data fun r hr => hv r (hp1.mem_iff.1 hr)
  obtain ⟨q2, s2⟩ := C34_sort v1.data fun r hr => hv r (hsame.mem_iff.2 (hp2.mem_iff.1 hr))
  have hall : (sortData w1.data).Perm (sortData v1.data) := q1.trans (hp1.trans (hsame.trans (hp2.symm.trans q2.symm)))
  have hnod : ((sortData w1.data).map (·.date)).Nodup := ((q1.trans hp1).map _).nodup_iff.2 hn
  have strict : ∀ data : List CurrentWeather, Spec.Sorted data → (data.map (·.date)).Nodup → data.Pairwise fun a b => pos a.date < pos b.date := by
    intro data hs hnd
    have hnd' : data.Pairwise fun a b => a.date ≠ b.date := List.pairwise_map.1 hnd
    refine List.Pairwise.imp_of_mem ?_ (List.pairwise_and_iff.2 ⟨hs.sorted, hnd'⟩)
    intro a b ha hb h
    rcases h.1.lt_or_eq with h' | h'
    · exact h'
    · exact absurd (pos_inj (hs.valid a ha) (hs.valid b hb) h') h.2
  have : sortData w1.data = sortData v1.data := by
    refine hall.eq_of_pairwise (le := fun a b : CurrentWeather => pos a.date < pos b.date) ?_ (strict _ s1 hnod) (strict _ s2 ((hall.map _).nodup_iff.1 hnod))
    intro a b _ _ h h'
    exact absurd h (lt_asymm h')
  unfold Weather.getWeatherData Weather.sort
  rw [this]

/-- C114 is violated without sorting: adding the first day of the year to weather of two later days and asking for the moment of the last of them, of
thirty degrees, gives about twenty, and nothing is refused. -/
theorem C114_violated_unsorted : ∃ (w x : Weather ℕ) (r : CurrentWeather) (w' : Weather ℕ) (q : CurrentWeather),
    r ∈ w.data ∧ w.run [.add x] = .ok w' ∧ (∀ y ∈ w'.data, y.date = r.date → y = r) ∧ w'.getWeatherData r.date = .ok q ∧ r.dryBulb = 30 ∧
      q.dryBulb = 10 + 10 * (374 / 372) := by
  refine ⟨⟨[⟨⟨1, 8, 0⟩, 20, 0, 0, 0, 0, 0, 0, none, 0, 0, 0⟩, ⟨⟨1, 10, 0⟩, 30, 0, 0, 0, 0, 0, 0, none, 0, 0, 0⟩], 0⟩,
    ⟨[⟨⟨1, 1, 0⟩, 10, 0, 0, 0, 0, 0, 0, none, 0, 0, 0⟩], 0⟩, ⟨⟨1, 10, 0⟩, 30, 0, 0, 0, 0, 0, 0, none, 0, 0, 0⟩,
    ⟨[⟨⟨1, 8, 0⟩, 20, 0, 0, 0, 0, 0, 0, none, 0, 0, 0⟩, ⟨⟨1, 10, 0⟩, 30, 0, 0, 0, 0, 0, 0, none, 0, 0, 0⟩,
      ⟨⟨1, 1, 0⟩, 10, 0, 0, 0, 0, 0, 0, none, 0, 0, 0⟩], 0⟩,
    ⟨⟨1, 8, 28 / 31⟩, 10 + 10 * (374 / 372), 0, 0, 0, 0, 0, 0, none, 0, 0, 0⟩, by decide +kernel, rfl, by decide +kernel, ?_, rfl, rfl⟩
  decide +kernel

/-- C114, directions of the wind: between two records whose directions are at most half a turn apart, the direction told is passed
when turning the shorter way from one to the other.

Missing: directions at both sides of north (`C114_violated_wind`). -/
theorem C114_wind_partial (turn : ℚ) (a b r : CurrentWeather) (x : ℚ) (hx0 : 0 ≤ x) (hx1 : x ≤ 1) (h : Spec.IsMix a b r x)
    (hclose : |b.windDirection - a.windDirection| ≤ turn / 2) : OnShortArc turn a.windDirection b.windDirection r.windDirection := by
  have h1 := (C34_interpolate a b r x hx0 hx1 h).1 (·.windDirection) (by simp [Spec.magnitudes])
  refine ⟨0, 0, ?_, ?_, ?_⟩
  · simpa using hclose
  · simpa using h1.1
  · simpa using h1.2

/-- C114 is violated for directions at both sides of north: half way between ten degrees before north and ten degrees after it, the wind comes from
the south. -/
theorem C114_violated_wind (turn : ℚ) (ht : 0 < turn) (a b r : CurrentWeather) (h : Spec.IsMix a b r (1 / 2)) (ha : a.windDirection = turn * (35 / 36))
    (hb : b.windDirection = turn * (1 / 36)) :
    r.windDirection = turn / 2 ∧ ¬ OnShortArc turn a.windDirection b.windDirection r.windDirection := by
  have h1 := h.mix (·.windDirection) (by simp [Spec.magnitudes])
  rw [ha, hb] at h1
  have hr : r.windDirection = turn / 2 := by rw [h1]; ring
  refine ⟨hr, ?_⟩
  rintro ⟨j, k, h2, h3, h4⟩
  rw [ha, hb] at h2 h3 h4
  rw [hr] at h3 h4
  have hj : j = 1 := by
    rw [abs_le] at h2
    obtain ⟨h5, h6⟩ := h2
    have h7 : (j : ℚ) < 2 := by
      by_contra hc
      have : turn * 2 ≤ j * turn := by nlinarith [not_lt.1 hc]
      linarith
    have h8 : (0 : ℚ) < j := by
      by_contra hc
      have : j * turn ≤ 0 := by nlinarith [not_lt.1 hc]
      linarith
    have h7' : j < 2 := by exact_mod_cast h7
    have h8' : 0 < j := by exact_mod_cast h8
    omega
  subst hj
  have hm : min (turn * (35 / 36)) (turn * (1 / 36) + ((1 : ℤ) : ℚ) * turn) = turn * (35 / 36) := by
    apply min_eq_left; push_cast; linarith
  have hM : max (turn * (35 / 36)) (turn * (1 / 36) + ((1 : ℤ) : ℚ) * turn) = turn * (37 / 36) := by
    rw [max_eq_right]
    · push_cast; ring
    · push_cast; linarith
  rw [hm] at h3
  rw [hM] at h4
  have h7 : (k : ℚ) < 1 := by
    by_contra hc
    have : turn ≤ k * turn := by nlinarith [not_lt.1 hc]
    linarith
  have h8 : (0 : ℚ) < k := by
    by_contra hc
    have : k * turn ≤ 0 := by nlinarith [not_lt.1 hc]
    linarith
  have h7' : k < 1 := by exact_mod_cast h7
  have h8' : 0 < k := by exact_mod_cast h8
  omega

/-- C114, weather made of schedules: each magnitude is what its own schedule says at that moment, and where it says nothing it is zero, half of the
humidity that the air can take, the pressure at sea level, or unknown infrared radiation. -/
theorem C114_schedules (s : SyntheticWeather) (d : Date) :
    (s.getWeatherData d).date = d ∧ (s.getWeatherData d).infrared = s.infrared d ∧
      ∀ t ∈ Merge.Spec.schedules, (∀ v, t.1 s d = some v → t.2.1 (s.getWeatherData d) = v) ∧ (t.1 s d = none → t.2.1 (s.getWeatherData d) = t.2.2) := by
  refine ⟨rfl, rfl, fun t ht => ?_⟩
  simp only [Merge.Spec.schedules, List.mem_cons, List.not_mem_nil, or_false] at ht
  rcases ht with rfl | rfl | rfl | rfl | rfl | rfl | rfl | rfl | rfl | rfl <;>
    (refine ⟨fun v hv => ?_, fun hv => ?_⟩ <;> dsimp only at hv <;>
      simp only [SyntheticWeather.getWeatherData, hv, Option.getD_some, Option.getD_none])

end Simple.Weather
