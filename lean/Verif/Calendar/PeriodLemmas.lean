import Verif.Calendar.AddLemmas

/-! # Lemmas about iterating periods -/

namespace Simple.Calendar
open Spec

theorem forward_of_le {a b : ℚ} (ha0 : 0 ≤ a) (hb1 : b < 365) (h : a ≤ b) :
    forward a b = b - a := by
  unfold forward
  exact wrap_self (by linarith) (by linarith)

theorem forward_of_lt {a b : ℚ} (ha1 : a < 365) (hb0 : 0 ≤ b) (h : b < a) :
    forward a b = b - a + 365 := by
  unfold forward
  exact wrap_eq (-1) (by push_cast; ring) (by linarith) (by linarith)

theorem addSeconds_ok {d : Date} (hd : Valid d) {dt : ℚ} (h0 : 0 ≤ dt) (h1 : dt < 224 * 86400) :
    ∃ d', d.addSeconds dt = some d' ∧ Valid d' ∧ pos d' = wrap (pos d + dt / 86400) := by
  have hb := daysIn_bounds d.month
  have hdl := hd.day_le
  have hfl : ⌊dt / 3600 / 24⌋.toNat ≤ 223 := by
    have : ⌊dt / 3600 / 24⌋ < 224 := by
      rw [Int.floor_lt]; push_cast; rw [div_div, div_lt_iff₀ (by norm_num)]; linarith
    omega
  obtain ⟨d', e, v, hp⟩ := addHours_ok hd (h := dt / 3600) (by positivity)
    (by
      have : ⌊dt / 3600 / 24⌋.toNat % 365 ≤ ⌊dt / 3600 / 24⌋.toNat := Nat.mod_le _ _
      omega)
  refine ⟨d', e, v, ?_⟩
  rw [hp]
  congr 2
  rw [div_div]; norm_num

/-- Effect of a call to `next`, at offset `o` (in days) from the start of the period. -/
theorem next_spec (p : Period) {s : Date} {o : ℚ}
    (hs : Valid s) (he : Valid p.finish) (hc : Valid p.current)
    (hdt0 : 0 < p.dt) (hdt1 : p.dt < 224 * 86400)
    (hg : p.goesThroughNewYear = decide (pos p.finish < pos s))
    (hny : pos p.finish < pos s →
      p.dt / 86400 ≤ pos p.finish ∧ pos p.finish + p.dt / 86400 < 365)
    (ho0 : 0 ≤ o) (ho1 : o ≤ forward (pos s) (pos p.finish))
    (hpos : pos p.current = wrap (pos s + o)) :
    (o + p.dt / 86400 ≤ forward (pos s) (pos p.finish) ∧
      ∃ d, p.next = some (some d, { p with current := d }) ∧ Valid d ∧
        pos d = wrap (pos s + (o + p.dt / 86400))) ∨
    (forward (pos s) (pos p.finish) < o + p.dt / 86400 ∧ p.next = some (none, p)) := by
  obtain ⟨d, e1, v, hp⟩ := addSeconds_ok hc hdt0.le hdt1
  have hδ0 : 0 < p.dt / 86400 := by positivity
  have hδ1 : p.dt / 86400 < 224 := by rw [div_lt_iff₀ (by norm_num)]; linarith
  generalize hδ : p.dt / 86400 = δ at *
  have s0 := pos_nonneg hs; have s1 := pos_lt_year hs
  have f0 := pos_nonneg he; have f1 := pos_lt_year he
  have c0 := pos_nonneg hc; have c1 := pos_lt_year hc
  have hbf : (p.current.le p.finish = true ↔ pos p.current ≤ pos p.finish) := le_iff_pos hc he
  have haf : (d.le p.finish = true ↔ pos d ≤ pos p.finish) := le_iff_pos v he
  have hlt : (d.lt p.current = true ↔ pos d < pos p.current) := lt_iff_pos v hc
  obtain ⟨k, hk⟩ := wrap_spec (pos s + o)
  rw [← hpos] at hk
  have hnew : pos d = wrap (pos s + (o + δ)) := by
    rw [hp]
    have : pos s + (o + δ) = (pos p.current + δ) + 365 * k := by linarith
    rw [this]
    obtain ⟨j, hj⟩ := wrap_spec (pos p.current + δ)
    symm
    exact wrap_eq (j + k) (by push_cast; linarith) (wrap_nonneg _) (wrap_lt _)
  have hnext : p.next =
      if (d.lt p.current || (p.current.le p.finish != d.le p.finish)) &&
          (!(d.lt p.current) || !p.goesThroughNewYear) then some (none, p)
      else some (some d, { p with current := d }) := by
    unfold Period.next
    simp only [e1, Option.bind_eq_bind, Option.bind_some]
  rw [hnext, hg]
  -- where does the new date land?
  have hcases : (pos p.current + δ < 365 ∧ pos d = pos p.current + δ) ∨
      (365 ≤ pos p.current + δ ∧ pos d = pos p.current + δ - 365) := by
    rcases lt_or_ge (pos p.current + δ) 365 with h | h
    · left; exact ⟨h, by rw [hp]; exact wrap_self (by linarith) h⟩
    · right; exact ⟨h, by
        rw [hp]; exact wrap_eq 1 (by push_cast; ring) (by linarith) (by linarith)⟩
  by_cases hreg : pos p.finish < pos s
  · -- through the new year
    obtain ⟨hn1, hn2⟩ := hny hreg
    rw [forward_of_lt s1 f0 hreg] at *
    have hdec : decide (pos p.finish < pos s) = true := by simpa using hreg
    rw [hdec]
    -- phase: before or after new year
    have hphase : (pos s + o < 365 ∧ pos p.current = pos s + o) ∨
        (365 ≤ pos s + o ∧ pos p.current = pos s + o - 365) := by
      rcases lt_or_ge (pos s + o) 365 with h | h
      · left; exact ⟨h, by rw [hpos]; exact wrap_self (by linarith) h⟩
      · right; exact ⟨h, by
          rw [hpos]; exact wrap_eq 1 (by push_cast; ring) (by linarith) (by linarith)⟩
    rcases hphase with ⟨hph, hcur⟩ | ⟨hph, hcur⟩
    · -- before new year: never stops
      have hb : p.current.le p.finish = false := by
        rw [Bool.eq_false_iff, ne_eq, hbf]; linarith
      rcases hcases with ⟨hc1, hc2⟩ | ⟨hc1, hc2⟩
      · have ha : d.le p.finish = false := by rw [Bool.eq_false_iff, ne_eq, haf]; linarith
        have hl : d.lt p.current = false := by rw [Bool.eq_false_iff, ne_eq, hlt]; linarith
        left
        exact ⟨by linarith, d, by simp [hb, ha, hl], v, hnew⟩
      · have hl : d.lt p.current = true := by rw [hlt]; linarith
        left
        exact ⟨by linarith, d, by simp [hl], v, hnew⟩
    · have hb : p.current.le p.finish = true := by rw [hbf]; linarith
      rcases hcases with ⟨hc1, hc2⟩ | ⟨hc1, hc2⟩
      · have hl : d.lt p.current = false := by rw [Bool.eq_false_iff, ne_eq, hlt]; linarith
        by_cases hle : pos d ≤ pos p.finish
        · have ha : d.le p.finish = true := haf.2 hle
          left
          exact ⟨by linarith, d, by simp [hb, ha, hl], v, hnew⟩
        · have ha : d.le p.finish = false := by rw [Bool.eq_false_iff, ne_eq, haf]; exact hle
          right
          exact ⟨by linarith, by simp [hb, ha, hl]⟩
      · exfalso; linarith
  · -- within the year
    have hreg' : pos s ≤ pos p.finish := not_lt.mp hreg
    rw [forward_of_le s0 f1 hreg'] at *
    have hdec : decide (pos p.finish < pos s) = false := by simpa using hreg'
    rw [hdec]
    have hcur : pos p.current = pos s + o := by
      rw [hpos]; exact wrap_self (by linarith) (by linarith)
    have hb : p.current.le p.finish = true := by rw [hbf]; linarith
    rcases hcases with ⟨hc1, hc2⟩ | ⟨hc1, hc2⟩
    · have hl : d.lt p.current = false := by rw [Bool.eq_false_iff, ne_eq, hlt]; linarith
      by_cases hle : pos d ≤ pos p.finish
      · have ha : d.le p.finish = true := haf.2 hle
        left
        exact ⟨by linarith, d, by simp [hb, ha, hl], v, hnew⟩
      · have ha : d.le p.finish = false := by rw [Bool.eq_false_iff, ne_eq, haf]; exact hle
        right
        exact ⟨by linarith, by simp [hb, ha, hl]⟩
    · have hl : d.lt p.current = true := by rw [hlt]; linarith
      right
      exact ⟨by linarith, by simp [hl]⟩

/-- Value returned by the `k`-th call (from 0) to `next`; the outer `Option` is a panic. -/
def Period.nthCall (p : Period) : ℕ → Option (Option Date)
  | 0 => p.next.map Prod.fst
  | k + 1 => p.next.bind fun r => r.2.nthCall k

theorem nthCall_none {p : Period} (h : p.next = some (none, p)) (k : ℕ) :
    p.nthCall k = some none := by
  induction k with
  | zero => simp [Period.nthCall, h]
  | succ k ih => simp [Period.nthCall, h, ih]

theorem nthCall_spec (k : ℕ) (p : Period) {s : Date} {o : ℚ}
    (hs : Valid s) (he : Valid p.finish) (hc : Valid p.current)
    (hdt0 : 0 < p.dt) (hdt1 : p.dt < 224 * 86400)
    (hg : p.goesThroughNewYear = decide (pos p.finish < pos s))
    (hny : pos p.finish < pos s →
      p.dt / 86400 ≤ pos p.finish ∧ pos p.finish + p.dt / 86400 < 365)
    (ho0 : 0 ≤ o) (ho1 : o ≤ forward (pos s) (pos p.finish))
    (hpos : pos p.current = wrap (pos s + o)) :
    (o + (k + 1) * (p.dt / 86400) ≤ forward (pos s) (pos p.finish) ∧
      ∃ d, p.nthCall k = some (some d) ∧ Valid d ∧
        pos d = wrap (pos s + (o + (k + 1) * (p.dt / 86400)))) ∨
    (forward (pos s) (pos p.finish) < o + (k + 1) * (p.dt / 86400) ∧ p.nthCall k = some none) := by
  have hδ0 : 0 < p.dt / 86400 := by positivity
  induction k generalizing p o with
  | zero =>
    rcases next_spec p hs he hc hdt0 hdt1 hg hny ho0 ho1 hpos with ⟨h1, d, h2, h3, h4⟩ | ⟨h1, h2⟩
    · left
      refine ⟨by push_cast; linarith, d, by simp [Period.nthCall, h2], h3, ?_⟩
      rw [h4]; congr 2; push_cast; ring
    · right
      exact ⟨by push_cast; linarith, by simp [Period.nthCall, h2]⟩
  | succ k ih =>
    rcases next_spec p hs he hc hdt0 hdt1 hg hny ho0 ho1 hpos with ⟨h1, d, h2, h3, h4⟩ | ⟨h1, h2⟩
    · have hcall : p.nthCall (k + 1) = ({ p with current := d } : Period).nthCall k := by
        simp [Period.nthCall, h2]
      rw [hcall]
      have hpos' : pos d = wrap (pos s + (o + p.dt / 86400)) := h4
      rcases ih { p with current := d } (o := o + p.dt / 86400) he h3 hdt0 hdt1 hg hny
        (by linarith) h1 hpos' hδ0 with ⟨a1, d', a2, a3, a4⟩ | ⟨a1, a2⟩
      · left
        refine ⟨?_, d', a2, a3, ?_⟩
        · simp only at a1; push_cast; linarith
        · rw [a4]; congr 2; push_cast; ring
      · right
        refine ⟨?_, a2⟩
        simp only at a1; push_cast; linarith
    · right
      refine ⟨?_, nthCall_none h2 _⟩
      have : 0 ≤ ((k : ℚ) + 1) * (p.dt / 86400) := by positivity
      push_cast
      linarith

end Simple.Calendar
