import Mathlib.Tactic.NormNum
import Mathlib.Tactic.Linarith
import Mathlib.Tactic.FieldSimp
import Verif.Calendar.Props
import Verif.Weather.LineModel

/-! # C34: the weather at any moment -/

namespace Simple.Weather

open Calendar Calendar.Spec

namespace Spec

/-- The numeric magnitudes of a record. -/
def magnitudes : List (CurrentWeather → ℚ) :=
  [(·.dryBulb), (·.dewPoint), (·.globalHorizontal), (·.directNormal), (·.diffuseHorizontal), (·.windSpeed),
    (·.windDirection), (·.opaqueSkyCover), (·.relativeHumidity), (·.pressure)]

/-- `r` is at fraction `x` from `a` to `b` in every magnitude; the infrared radiation is known if it is in
both. -/
structure IsMix (a b r : CurrentWeather) (x : ℚ) : Prop where
  mix : ∀ m ∈ magnitudes, m r = (1 - x) * m a + x * m b
  infrared : r.infrared = a.infrared.bind fun p => b.infrared.map fun q => (1 - x) * p + x * q

/-- The dates of all the records are valid, and are in order. -/
structure Sorted (data : List CurrentWeather) : Prop where
  valid : ∀ w ∈ data, Valid w.date
  sorted : data.Pairwise fun a b => pos a.date ≤ pos b.date

end Spec

/-! ## Interpolation -/

private theorem interpolate_mix {a b : CurrentWeather} {x : ℚ} {d : Date}
    (h : a.date.interpolate b.date x = some d) :
    ∃ r, a.interpolate b x = .ok r ∧ r.date = d ∧ Spec.IsMix a b r x := by
  unfold CurrentWeather.interpolate
  rw [h]
  refine ⟨_, rfl, rfl, ?_, ?_⟩
  · intro m hm
    simp only [Spec.magnitudes, List.mem_cons, List.not_mem_nil, or_false] at hm
    rcases hm with rfl | rfl | rfl | rfl | rfl | rfl | rfl | rfl | rfl | rfl <;> (simp only; ring)
  · simp only
    cases a.infrared <;> cases b.infrared <;> simp only [Option.bind_none, Option.bind_some, Option.map_none,
      Option.map_some]
    congr 1; ring

/-- C34: a mix of two records is between them in every magnitude; with weight zero it is the first and with
weight one the second. -/
theorem C34_interpolate (a b r : CurrentWeather) (x : ℚ) (hx0 : 0 ≤ x) (hx1 : x ≤ 1)
    (h : Spec.IsMix a b r x) :
    (∀ m ∈ Spec.magnitudes, min (m a) (m b) ≤ m r ∧ m r ≤ max (m a) (m b)) ∧
    (∀ p q s, a.infrared = some p → b.infrared = some q → r.infrared = some s →
      min p q ≤ s ∧ s ≤ max p q) ∧
    (x = 0 → ∀ m ∈ Spec.magnitudes, m r = m a) ∧ (x = 1 → ∀ m ∈ Spec.magnitudes, m r = m b) := by
  have key : ∀ p q : ℚ, min p q ≤ (1 - x) * p + x * q ∧ (1 - x) * p + x * q ≤ max p q := by
    intro p q
    rcases le_total p q with h | h
    · rw [min_eq_left h, max_eq_right h]; constructor <;> nlinarith
    · rw [min_eq_right h, max_eq_left h]; constructor <;> nlinarith
  refine ⟨fun m hm => ?_, ?_, ?_, ?_⟩
  · rw [h.mix m hm]; exact key _ _
  · intro p q s hp hq hs
    have := h.infrared
    rw [hp, hq, hs] at this
    obtain rfl := Option.some.inj this
    exact key _ _
  · rintro rfl m hm; rw [h.mix m hm]; ring
  · rintro rfl m hm; rw [h.mix m hm]; ring

/-! ## The search -/

private theorem searchLoop_spec (f : ℕ → Ordering) (n : ℕ)
    (hmono : ∀ i j, i ≤ j → j < n → f i = .gt → f j = .gt) :
    ∀ size base, 1 ≤ size → base + size ≤ n → (∀ j, base + size ≤ j → j < n → f j = .gt) →
    (base = 0 ∨ f base ≠ .gt) →
    searchLoop f base size < n ∧ (∀ j, searchLoop f base size < j → j < n → f j = .gt) ∧
    (searchLoop f base size = 0 ∨ f (searchLoop f base size) ≠ .gt) := by
  intro size
  induction size using Nat.strong_induction_on with
  | _ size ih =>
    intro base h1 h2 h3 h4
    rw [searchLoop]
    by_cases hs : 1 < size
    · rw [dif_pos hs]
      simp only
      by_cases hg : f (base + size / 2) = .gt
      · rw [if_pos hg]
        apply ih (size - size / 2) (by omega) base (by omega) (by omega) _ h4
        intro j hj hjn
        exact hmono (base + size / 2) j (by omega) hjn hg
      · rw [if_neg hg]
        apply ih (size - size / 2) (by omega) _ (by omega) (by omega) _ (Or.inr hg)
        intro j hj hjn
        exact h3 j (by omega) hjn
    · rw [dif_neg hs]
      obtain rfl : size = 1 := by omega
      exact ⟨by omega, fun j hj hjn => h3 j (by omega) hjn, h4⟩

private theorem binarySearch_spec (f : ℕ → Ordering) (n : ℕ)
    (hmono : ∀ i j, i ≤ j → j < n → f i = .gt → f j = .gt)
    (hmono' : ∀ i j, i ≤ j → j < n → f j = .lt → f i = .lt) :
    match binarySearch f n with
    | .at i => i < n ∧ f i = .eq
    | .missing i => i ≤ n ∧ (∀ j, j < i → f j = .lt) ∧ ∀ j, i ≤ j → j < n → f j = .gt := by
  unfold binarySearch
  by_cases hn : n = 0
  · rw [if_pos hn]; simp only; subst hn; exact ⟨le_rfl, by omega, by omega⟩
  · rw [if_neg hn]
    obtain ⟨a1, a2, a3⟩ := searchLoop_spec f n hmono n 0 (by omega) (by omega) (by omega) (Or.inl rfl)
    simp only
    set b := searchLoop f 0 n
    cases hb : f b with
    | eq => exact ⟨a1, hb⟩
    | lt =>
      refine ⟨by omega, fun j hj => ?_, fun j hj hjn => a2 j (by omega) hjn⟩
      exact hmono' j b (by omega) a1 hb
    | gt =>
      obtain hb0 : b = 0 := by
        rcases a3 with h | h
        · exact h
        · exact absurd hb h
      refine ⟨by omega, fun j hj => by omega, fun j hj hjn => ?_⟩
      exact hmono b j (by omega) hjn hb

private theorem compareAt_spec {data : List CurrentWeather} (hs : Spec.Sorted data) {d : Date} (hd : Valid d)
    {i : ℕ} (hi : i < data.length) :
    (compareAt data d i = .lt ↔ pos data[i].date < pos d) ∧
    (compareAt data d i = .gt ↔ pos d < pos data[i].date) ∧
    (compareAt data d i = .eq ↔ data[i].date = d) := by
  have hv := hs.valid data[i] (List.getElem_mem hi)
  unfold compareAt
  rw [List.getElem?_eq_getElem hi]
  simp only
  exact ⟨by rw [cmp_lt_iff, lex_iff_pos hv hd], by rw [cmp_gt_iff, lex_iff_pos hd hv], cmp_eq_iff _ _⟩

private theorem search_data {data : List CurrentWeather} (hs : Spec.Sorted data) {d : Date} (hd : Valid d) :
    match binarySearch (compareAt data d) data.length with
    | .at i => ∃ h : i < data.length, data[i].date = d
    | .missing i => i ≤ data.length ∧ (∀ j (h : j < data.length), j < i → pos data[j].date < pos d) ∧
        ∀ j (h : j < data.length), i ≤ j → pos d < pos data[j].date := by
  have hle : ∀ i j (hi : i < data.length) (hj : j < data.length), i ≤ j →
      pos data[i].date ≤ pos data[j].date := by
    intro i j hi hj hij
    rcases Nat.lt_or_eq_of_le hij with h | h
    · exact List.pairwise_iff_getElem.1 hs.sorted i j hi hj h
    · subst h; exact le_rfl
  have hspec := binarySearch_spec (compareAt data d) data.length
    (fun i j hij hj h => by
      have hi : i < data.length := by omega
      rw [(compareAt_spec hs hd hj).2.1]
      have := (compareAt_spec hs hd hi).2.1.1 h
      have := hle i j hi hj hij
      linarith)
    (fun i j hij hj h => by
      have hi : i < data.length := by omega
      rw [(compareAt_spec hs hd hi).1]
      have := (compareAt_spec hs hd hj).1.1 h
      have := hle i j hi hj hij
      linarith)
  cases hb : binarySearch (compareAt data d) data.length with
  | «at» i =>
    rw [hb] at hspec
    exact ⟨hspec.1, (compareAt_spec hs hd hspec.1).2.2.1 hspec.2⟩
  | missing i =>
    rw [hb] at hspec
    obtain ⟨h1, h2, h3⟩ := hspec
    exact ⟨h1, fun j hj hji => (compareAt_spec hs hd hj).1.1 (h2 j hji),
      fun j hj hji => (compareAt_spec hs hd hj).2.1.1 (h3 j hji hj)⟩

/-! ## The weather of a date -/

/-- C34: at the date of a record, the weather is a record of that date; if the dates of the records are
all different, it is that record. -/
theorem C34_at_record (data : List CurrentWeather) (hs : Spec.Sorted data) (w : CurrentWeather)
    (hw : w ∈ data) :
    ∃ r ∈ data, findWeatherLine data w.date = .ok r ∧ r.date = w.date ∧
      ((data.map (·.date)).Nodup → r = w) := by
  have hd := hs.valid w hw
  have := search_data hs hd
  obtain ⟨k, hk, hkw⟩ := List.getElem_of_mem hw
  unfold findWeatherLine
  cases hb : binarySearch (compareAt data w.date) data.length with
  | «at» i =>
    rw [hb] at this
    obtain ⟨hi, he⟩ := this
    refine ⟨data[i], List.getElem_mem hi, Outcome.index_of_lt hi, he, fun hn => ?_⟩
    have h1 : (data.map (·.date))[i]'(by simpa using hi) = (data.map (·.date))[k]'(by simpa using hk) := by
      simp only [List.getElem_map]
      rw [he, hkw]
    have h2 := (List.Nodup.getElem_inj_iff hn).1 h1
    subst h2
    exact hkw
  | missing i =>
    rw [hb] at this
    obtain ⟨-, h2, h3⟩ := this
    rcases Nat.lt_or_ge k i with h | h
    · have := h2 k hk h
      rw [hkw] at this
      exact absurd this (lt_irrefl _)
    · have := h3 k hk h
      rw [hkw] at this
      exact absurd this (lt_irrefl _)

/-- C34: between the first and the last records, the weather is the mix of the two consecutive records
around the date, in proportion to the time passed, and it has the date asked for. -/
theorem C34_between_partial (data : List CurrentWeather) (hs : Spec.Sorted data) (d : Date) (hd : Valid d)
    (hn : ∀ w ∈ data, w.date ≠ d) (h0 : ∃ w ∈ data, pos w.date < pos d) (h1 : ∃ w ∈ data, pos d < pos w.date) :
    ∃ i, ∃ h : i + 1 < data.length, ∃ r, findWeatherLine data d = .ok r ∧
      pos data[i].date < pos d ∧ pos d < pos data[i + 1].date ∧ r.date = d ∧
      Spec.IsMix data[i] data[i + 1] r
        ((pos d - pos data[i].date) / (pos data[i + 1].date - pos data[i].date)) := by
  have := search_data hs hd
  obtain ⟨w0, hw0, hp0⟩ := h0
  obtain ⟨w1, hw1, hp1⟩ := h1
  obtain ⟨k0, hk0, rfl⟩ := List.getElem_of_mem hw0
  obtain ⟨k1, hk1, rfl⟩ := List.getElem_of_mem hw1
  unfold findWeatherLine
  cases hb : binarySearch (compareAt data d) data.length with
  | «at» i =>
    rw [hb] at this
    obtain ⟨hi, he⟩ := this
    exact absurd he (hn _ (List.getElem_mem hi))
  | missing i =>
    rw [hb] at this
    obtain ⟨h1, h2, h3⟩ := this
    have hi0 : i ≠ 0 := by
      rintro rfl
      have := h3 k0 hk0 (by omega)
      linarith
    have hin : i ≠ data.length := by
      rintro rfl
      have := h2 k1 hk1 hk1
      linarith
    obtain ⟨i, rfl⟩ : ∃ j, i = j + 1 := ⟨i - 1, by omega⟩
    have hlt : i + 1 < data.length := by omega
    have hb1 := h2 i (by omega) (by omega)
    have hb2 := h3 (i + 1) hlt le_rfl
    have hva := hs.valid _ (List.getElem_mem (l := data) (n := i) (by omega))
    have hvb := hs.valid _ (List.getElem_mem hlt)
    simp only
    rw [if_neg (by omega), Nat.add_sub_cancel, Outcome.index_of_lt (by omega : i < data.length),
      Outcome.index_of_lt hlt, dayOfYear_eq hd]
    simp only [Outcome.bind, dayOfYear_eq hva, dayOfYear_eq hvb, ofCalendar]
    set p := pos data[i].date
    set q := pos data[i + 1].date
    have hpq : 0 < q - p := by linarith
    obtain ⟨d', e, v, hp, -⟩ := C06_interpolate data[i].date data[i + 1].date
      ((pos d - p) / (q - p)) hva hvb (div_nonneg (by linarith) hpq.le)
      ((div_le_one hpq).2 (by linarith))
    obtain ⟨r, hr, hrd, hmix⟩ := interpolate_mix e
    refine ⟨i, hlt, r, hr, hb1, hb2, ?_, hmix⟩
    rw [hrd]
    apply pos_inj v hd
    rw [hp, forward_of_le (pos_nonneg hva) (pos_lt_year hvb) (by linarith)]
    change wrap (p + (pos d - p) / (q - p) * (q - p)) = pos d
    rw [div_mul_cancel₀ _ hpq.ne']
    rw [show p + (pos d - p) = pos d by ring]
    exact wrap_self (pos_nonneg hd) (pos_lt_year hd)

/-- C34: before the first record, the weather is the mix of the last record, of the previous year, and of
the first, in proportion to the time passed. -/
theorem C34_before_first_partial (data : List CurrentWeather) (hs : Spec.Sorted data) (d : Date)
    (hd : Valid d) (hne : data ≠ []) (hn : ∀ w ∈ data, pos d < pos w.date)
    (hlf : pos (data.head hne).date < pos (data.getLast hne).date) :
    ∃ r, findWeatherLine data d = .ok r ∧ r.date = d ∧
      Spec.IsMix (data.getLast hne) (data.head hne) r
        (forward (pos (data.getLast hne).date) (pos d)
          / forward (pos (data.getLast hne).date) (pos (data.head hne).date)) := by
  have := search_data hs hd
  have hlen : 0 < data.length := List.length_pos_of_ne_nil hne
  have hhead : data.head hne = data[0] := List.head_eq_getElem hne
  have hlast : data.getLast hne = data[data.length - 1] := List.getLast_eq_getElem hne
  unfold findWeatherLine
  cases hb : binarySearch (compareAt data d) data.length with
  | «at» i =>
    rw [hb] at this
    obtain ⟨hi, he⟩ := this
    have := hn _ (List.getElem_mem hi)
    rw [he] at this
    exact absurd this (lt_irrefl _)
  | missing i =>
    rw [hb] at this
    obtain ⟨h1, h2, h3⟩ := this
    have hi0 : i = 0 := by
      by_contra hc
      have h4 := h2 0 hlen (by omega)
      have h5 := hn _ (List.getElem_mem hlen)
      linarith
    have hva := hs.valid _ (List.getLast_mem hne)
    have hvb := hs.valid _ (List.head_mem hne)
    have hdh := hn _ (List.head_mem hne)
    simp only
    rw [if_pos (Or.inl hi0), if_neg (by omega), Outcome.index_of_lt (by omega : data.length - 1 < data.length),
      Outcome.index_of_lt hlen, ← hhead, ← hlast, dayOfYear_eq hd]
    simp only [Outcome.bind, dayOfYear_eq hva, dayOfYear_eq hvb, ofCalendar]
    set p := pos (data.getLast hne).date with hpdef
    set q := pos (data.head hne).date with hqdef
    have hp1 := pos_lt_year hva
    have hq0 := pos_nonneg hvb
    have hd0 := pos_nonneg hd
    have f1 : forward p (pos d) = pos d - p + 365 := forward_of_lt hp1 hd0 (by linarith)
    have f2 : forward p q = q - p + 365 := forward_of_lt hp1 hq0 hlf
    have hgap : 0 < q - p + 365 := by linarith
    have hx : (pos d + 365 - p) / (q + 365 - p) = forward p (pos d) / forward p q := by
      rw [f1, f2]; congr 1 <;> ring
    rw [hx]
    obtain ⟨d', e, v, hpd, -⟩ := C06_interpolate (data.getLast hne).date (data.head hne).date
      (forward p (pos d) / forward p q) hva hvb
      (by rw [f1, f2]; exact div_nonneg (by linarith) hgap.le)
      (by rw [f1, f2]; exact (div_le_one hgap).2 (by linarith))
    obtain ⟨r, hr, hrd, hmix⟩ := interpolate_mix e
    refine ⟨r, hr, ?_, hmix⟩
    rw [hrd]
    apply pos_inj v hd
    rw [hpd]
    change wrap (p + forward p (pos d) / forward p q * forward p q) = pos d
    rw [div_mul_cancel₀ _ (by rw [f2]; exact hgap.ne'), f1]
    exact wrap_eq 1 (by push_cast; ring) hd0 (pos_lt_year hd)

/-- After the last record the code counts one year too many: the weight of the first record is always above
one, by 365 days over the time between both. -/
theorem C34_after_last (data : List CurrentWeather) (hs : Spec.Sorted data) (d : Date)
    (hd : Valid d) (hne : data ≠ []) (hn : ∀ w ∈ data, pos w.date < pos d)
    (hlf : pos (data.head hne).date < pos (data.getLast hne).date) :
    ∃ r x, findWeatherLine data d = .ok r ∧ Spec.IsMix (data.getLast hne) (data.head hne) r x ∧
      x = (forward (pos (data.getLast hne).date) (pos d) + 365)
          / forward (pos (data.getLast hne).date) (pos (data.head hne).date) ∧ 1 < x := by
  have := search_data hs hd
  have hlen : 0 < data.length := List.length_pos_of_ne_nil hne
  have hhead : data.head hne = data[0] := List.head_eq_getElem hne
  have hlast : data.getLast hne = data[data.length - 1] := List.getLast_eq_getElem hne
  unfold findWeatherLine
  cases hb : binarySearch (compareAt data d) data.length with
  | «at» i =>
    rw [hb] at this
    obtain ⟨hi, he⟩ := this
    have := hn _ (List.getElem_mem hi)
    rw [he] at this
    exact absurd this (lt_irrefl _)
  | missing i =>
    rw [hb] at this
    obtain ⟨h1, h2, h3⟩ := this
    have hi0 : i = data.length := by
      by_contra hc
      have h4 := h3 i (by omega) le_rfl
      have h5 := hn _ (List.getElem_mem (l := data) (n := i) (by omega))
      linarith
    have hva := hs.valid _ (List.getLast_mem hne)
    have hvb := hs.valid _ (List.head_mem hne)
    have hdh := hn _ (List.getLast_mem hne)
    simp only
    rw [if_pos (Or.inr hi0), if_neg (by omega), Outcome.index_of_lt (by omega : data.length - 1 < data.length),
      Outcome.index_of_lt hlen, ← hhead, ← hlast, dayOfYear_eq hd]
    simp only [Outcome.bind, dayOfYear_eq hva, dayOfYear_eq hvb, ofCalendar]
    set p := pos (data.getLast hne).date with hpdef
    set q := pos (data.head hne).date with hqdef
    have hp1 := pos_lt_year hva
    have hp0 := pos_nonneg hva
    have hq0 := pos_nonneg hvb
    have hd0 := pos_nonneg hd
    have f1 : forward p (pos d) = pos d - p := forward_of_le hp0 (pos_lt_year hd) hdh.le
    have f2 : forward p q = q - p + 365 := forward_of_lt hp1 hq0 hlf
    have hgap : 0 < q - p + 365 := by linarith
    have hx : (pos d + 365 - p) / (q + 365 - p) = (forward p (pos d) + 365) / forward p q := by
      rw [f1, f2]; congr 1 <;> ring
    rw [hx]
    have hx1 : 1 < (forward p (pos d) + 365) / forward p q := by
      rw [f1, f2, lt_div_iff₀ hgap]; linarith
    -- the date is taken modulo the year
    obtain ⟨d', e⟩ : ∃ d', (data.getLast hne).date.interpolate (data.head hne).date
        ((forward p (pos d) + 365) / forward p q) = some d' := by
      unfold Date.interpolate
      simp only [dayOfYear_eq hva, dayOfYear_eq hvb, Option.bind_eq_bind, Option.bind_some]
      rw [if_pos hlf]
      have hm : fmod (p + (forward p (pos d) + 365) / forward p q * (q + 365 - p)) 365
          = wrap (p + (forward p (pos d) + 365) / forward p q * (q + 365 - p)) := by
        unfold fmod wrap
        rw [if_pos]
        have : 0 ≤ (forward p (pos d) + 365) / forward p q * (q + 365 - p) :=
          mul_nonneg (by linarith) (by linarith)
        linarith
      rw [hm]
      obtain ⟨d', e, -⟩ := fromDayOfYear_spec
        (wrap_nonneg (p + (forward p (pos d) + 365) / forward p q * (q + 365 - p))) (wrap_lt _)
      exact ⟨d', e⟩
    obtain ⟨r, hr, -, hmix⟩ := interpolate_mix e
    exact ⟨r, _, hr, hmix, rfl, hx1⟩

/-- C34: without records, the search panics. -/
theorem C34_no_data (d : Date) : findWeatherLine [] d = .panic := rfl

/-- A year of records: the 31st of December at 23:00 it is 10 °C; at 1:00 of the 1st of January, 0 °C. -/
def Spec.winter : List CurrentWeather :=
  [⟨⟨1, 1, 1⟩, 0, 0, 0, 0, 0, 0, 0, none, 0, 0, 0⟩, ⟨⟨12, 31, 23⟩, 10, 0, 0, 0, 0, 0, 0, none, 0, 0, 0⟩]

/-- A quarter of the way from the last record to the first the temperature should be 7.5 °C; it is below
-40000 °C. -/
theorem C34_violated_after_last : Spec.Sorted Spec.winter ∧ Valid ⟨12, 31, 47 / 2⟩ ∧
    forward (pos ⟨12, 31, 23⟩) (pos ⟨12, 31, 47 / 2⟩) / forward (pos ⟨12, 31, 23⟩) (pos ⟨1, 1, 1⟩) = 1 / 4 ∧
    ∃ r, findWeatherLine Spec.winter ⟨12, 31, 47 / 2⟩ = .ok r ∧ r.dryBulb < -40000 := by
  have hs : Spec.Sorted Spec.winter := by
    constructor
    · intro w hw
      simp only [Spec.winter, List.mem_cons, List.not_mem_nil, or_false] at hw
      rcases hw with rfl | rfl
      · exact ⟨by norm_num, by norm_num, by norm_num, by decide, by norm_num, by norm_num⟩
      · exact ⟨by norm_num, by norm_num, by norm_num, by decide, by norm_num, by norm_num⟩
    · simp only [Spec.winter, List.pairwise_cons, List.mem_cons, List.not_mem_nil, or_false, forall_eq,
        false_imp_iff, implies_true, List.Pairwise.nil, and_true]
      norm_num [pos, daysBefore, daysIn]
  have hv : Valid ⟨12, 31, 47 / 2⟩ := ⟨by norm_num, by norm_num, by norm_num, by decide, by norm_num, by norm_num⟩
  have f1 : forward (pos ⟨12, 31, 23⟩) (pos ⟨12, 31, 47 / 2⟩) = 1 / 48 := by
    rw [forward_of_le (by norm_num [pos, daysBefore, daysIn]) (by norm_num [pos, daysBefore, daysIn])
      (by norm_num [pos, daysBefore, daysIn])]
    norm_num [pos, daysBefore, daysIn]
  have f2 : forward (pos ⟨12, 31, 23⟩) (pos ⟨1, 1, 1⟩) = 1 / 12 := by
    rw [forward_of_lt (by norm_num [pos, daysBefore, daysIn]) (by norm_num [pos, daysBefore, daysIn])
      (by norm_num [pos, daysBefore, daysIn])]
    norm_num [pos, daysBefore, daysIn]
  refine ⟨hs, hv, by rw [f1, f2]; norm_num, ?_⟩
  obtain ⟨r, x, hr, hmix, hx, -⟩ := C34_after_last Spec.winter hs ⟨12, 31, 47 / 2⟩ hv (by simp [Spec.winter])
    (by
      intro w hw
      simp only [Spec.winter, List.mem_cons, List.not_mem_nil, or_false] at hw
      rcases hw with rfl | rfl <;> norm_num [pos, daysBefore, daysIn])
    (by simp only [Spec.winter, List.head_cons, List.getLast_cons_cons, List.getLast_singleton]
        norm_num [pos, daysBefore, daysIn])
  refine ⟨r, hr, ?_⟩
  have h := hmix.mix (·.dryBulb) (by simp [Spec.magnitudes])
  simp only [Spec.winter, List.head_cons, List.getLast_cons_cons, List.getLast_singleton] at h hx
  rw [f1, f2] at hx
  rw [h, hx]
  norm_num

/-! ## Sorting -/

/-- C34: sorting gives the same records, in order of date. -/
theorem C34_sort (data : List CurrentWeather) (hv : ∀ w ∈ data, Valid w.date) :
    (sortData data).Perm data ∧ Spec.Sorted (sortData data) := by
  have hperm : (sortData data).Perm data := List.mergeSort_perm _ _
  have hle : ∀ a b : CurrentWeather, Valid a.date → Valid b.date →
      ((a.date.cmp b.date != .gt) = true ↔ pos a.date ≤ pos b.date) := fun a b ha hb =>
    le_iff_pos ha hb
  refine ⟨hperm, fun w hw => hv w (hperm.mem_iff.1 hw), ?_⟩
  have hsorted : (sortData data).Pairwise fun a b => (a.date.cmp b.date != .gt) = true := by
    apply List.pairwise_mergeSort
    · intro a b c hab hbc
      exact (C02_total_order a.date b.date c.date).2.1 hab hbc
    · intro a b
      have := (C02_total_order a.date b.date a.date).2.2.2
      unfold Date.le at this
      simpa [Bool.or_eq_true] using this
  refine List.Pairwise.imp_of_mem ?_ hsorted
  intro a b ha hb h
  exact (hle a b (hv a (hperm.mem_iff.1 ha)) (hv b (hperm.mem_iff.1 hb))).1 h

/-- C34 is not vacuous: noon of the 1st of January, between two records. -/
example : ∃ r, findWeatherLine
    [⟨⟨1, 1, 10⟩, 10, 0, 0, 0, 0, 0, 0, some 300, 0, 0, 0⟩, ⟨⟨1, 1, 14⟩, 20, 0, 0, 0, 0, 0, 0, some 310, 0, 0, 0⟩]
    ⟨1, 1, 12⟩ = .ok r ∧ r.dryBulb = 15 ∧ r.infrared = some 305 := by
  refine ⟨⟨⟨1, 1, 12⟩, 15, 0, 0, 0, 0, 0, 0, some 305, 0, 0, 0⟩, by decide +kernel, rfl, rfl⟩

end Simple.Weather
