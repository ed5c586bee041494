import Verif.Float.F64Props
import Verif.Geometry.ApproxModel

/-! C69: the operations on intervals of `f64` give intervals which contain the results. -/

namespace Simple.Geometry

open F64 F64.Spec

namespace Spec

/-- The real number is between the ends of the interval, which are not NaN. -/
def Contains (a : Approx) (x : ℝ) : Prop := Below a.low x ∧ Above a.high x

/-- Both ends are finite. -/
def Finite (a : Approx) : Prop := a.low.isFinite = true ∧ a.high.isFinite = true

end Spec

open Spec

/-! ### The neighbours of a number -/

private theorem inf_lt : infMag < 2 ^ 63 := by unfold infMag; norm_num

private theorem zero_not_nan : (zero false).isNan = false := by decide

private theorem ext_zero (s : Bool) : ext (zero s) = 0 := by
  unfold ext zero isInf val
  rw [mval_zero]
  cases s <;> simp [infMag]

private theorem mk_not_nan {s : Bool} {m : ℕ} (h : m ≤ infMag) : (⟨s, m⟩ : F64).isNan = false := by
  simpa [isNan] using h

private theorem ext_pos_mk {m : ℕ} (h : m ≤ infMag) (h0 : m ≠ 0) : 0 < ext ⟨false, m⟩ := by
  unfold ext isInf val
  simp only [decide_eq_true_eq, Bool.false_eq_true, if_false]
  split_ifs
  · exact EReal.zero_lt_top
  · have : mval 0 < mval m := mval_strictMono (Nat.pos_of_ne_zero h0)
    rw [mval_zero] at this
    exact_mod_cast this

private theorem ext_neg_mk {m : ℕ} : ext ⟨true, m⟩ ≤ 0 := by
  unfold ext isInf val
  simp only [decide_eq_true_eq, if_true]
  split_ifs
  · exact bot_le
  · have := mval_nonneg m
    have : ((-mval m : ℚ) : ℝ) ≤ 0 := by exact_mod_cast neg_nonpos.2 this
    exact_mod_cast this

private theorem pos_lt {m : ℕ} (h : m ≤ infMag) (h0 : m ≠ 0) : F64.lt (zero false) ⟨false, m⟩ = true := by
  rw [lt_iff zero_not_nan (mk_not_nan h), ext_zero]
  exact ext_pos_mk h h0

private theorem neg_not_lt {m : ℕ} (h : m ≤ infMag) : F64.lt (zero false) ⟨true, m⟩ = false := by
  rw [not_lt_iff zero_not_nan (mk_not_nan h), ext_zero]
  exact ext_neg_mk

private theorem pos_not_gt {m : ℕ} (h : m ≤ infMag) : F64.lt ⟨false, m⟩ (zero false) = false := by
  rw [not_lt_iff (mk_not_nan h) zero_not_nan, ext_zero]
  by_cases h0 : m = 0
  · subst h0; exact (ext_zero false).ge
  · exact (ext_pos_mk h h0).le

private theorem neg_gt {m : ℕ} (h : m ≤ infMag) (h0 : m ≠ 0) : F64.lt ⟨true, m⟩ (zero false) = true := by
  rw [lt_iff (mk_not_nan h) zero_not_nan, ext_zero]
  unfold ext isInf val
  simp only [decide_eq_true_eq, if_true]
  split_ifs
  · exact EReal.bot_lt_zero
  · have : mval 0 < mval m := mval_strictMono (Nat.pos_of_ne_zero h0)
    rw [mval_zero] at this
    have : ((-mval m : ℚ) : ℝ) < 0 := by exact_mod_cast neg_neg_iff_pos.2 this
    exact_mod_cast this

private theorem ofBits_pos {m : ℕ} (h : m < 2 ^ 63) : ofBits m = ⟨false, m⟩ := by
  unfold ofBits
  rw [Nat.mod_eq_of_lt h, decide_eq_false (by omega)]

private theorem ofBits_neg {m : ℕ} (h : m < 2 ^ 63) : ofBits (2 ^ 63 + m) = ⟨true, m⟩ := by
  unfold ofBits
  rw [Nat.add_mod_left, Nat.mod_eq_of_lt h, decide_eq_true (by omega)]

private theorem down_pos {m : ℕ} (h : m + 1 ≤ infMag) : nextDown ⟨false, m + 1⟩ = ⟨false, m⟩ := by
  have hi := inf_lt
  unfold nextDown toBits
  rw [pos_not_gt h, pos_lt h (by omega)]
  simp only [Bool.and_false, Bool.false_eq_true, if_false, zero_add, if_true, Nat.succ_ne_zero]
  exact ofBits_pos (by omega)

private theorem down_zero : nextDown ⟨false, 0⟩ = ⟨false, 0⟩ := by decide

private theorem down_neg {m : ℕ} (h : m < infMag) : nextDown ⟨true, m⟩ = ⟨true, m + 1⟩ := by
  have hi := inf_lt
  unfold nextDown toBits isInf
  have h1 : ¬ m = infMag := by omega
  rw [neg_not_lt h.le]
  simp only [h1, decide_false, Bool.false_and, Bool.false_eq_true, if_false, if_true]
  rw [if_neg (by omega), add_assoc]
  exact ofBits_neg (by omega)

private theorem down_inf : nextDown ⟨true, infMag⟩ = ⟨true, infMag⟩ := by decide

private theorem up_pos {m : ℕ} (h : m < infMag) : nextUp ⟨false, m⟩ = ⟨false, m + 1⟩ := by
  have hi := inf_lt
  unfold nextUp toBits isInf F64.le
  have h1 : ¬ m = infMag := by omega
  rw [pos_not_gt h.le, mk_not_nan h.le, zero_not_nan]
  simp only [h1, decide_false, Bool.false_and, Bool.false_eq_true, if_false, zero_add, Bool.not_false, Bool.and_self, if_true]
  rw [if_neg (by omega)]
  exact ofBits_pos (by omega)

private theorem up_inf : nextUp ⟨false, infMag⟩ = ⟨false, infMag⟩ := by decide

private theorem up_zero : nextUp ⟨true, 0⟩ = ⟨false, 0⟩ := by decide

private theorem up_neg {m : ℕ} (h : m + 1 ≤ infMag) : nextUp ⟨true, m + 1⟩ = ⟨true, m⟩ := by
  have hi := inf_lt
  unfold nextUp toBits F64.le
  rw [neg_not_lt h, neg_gt h (by omega)]
  simp only [Bool.and_false, Bool.false_eq_true, if_false, if_true, Bool.not_true]
  rw [if_neg (by omega)]
  rw [show 2 ^ 63 + (m + 1) - 1 = 2 ^ 63 + m by omega]
  exact ofBits_neg (by omega)

private theorem ext_mono_pos {m k : ℕ} (h : m ≤ k) (hk : k ≤ infMag) : ext ⟨false, m⟩ ≤ ext ⟨false, k⟩ := by
  unfold ext isInf val
  simp only [decide_eq_true_eq, Bool.false_eq_true, if_false]
  by_cases hk' : k = infMag
  · rw [if_pos hk']; exact le_top
  · rw [if_neg hk', if_neg (by omega)]
    have : mval m ≤ mval k := mval_strictMono.monotone h
    exact_mod_cast this

private theorem ext_mono_neg {m k : ℕ} (h : m ≤ k) (hk : k ≤ infMag) : ext ⟨true, k⟩ ≤ ext ⟨true, m⟩ := by
  unfold ext isInf val
  simp only [decide_eq_true_eq, if_true]
  by_cases hk' : k = infMag
  · rw [if_pos hk']; exact bot_le
  · rw [if_neg hk', if_neg (by omega)]
    have : mval m ≤ mval k := mval_strictMono.monotone h
    have : ((-mval k : ℚ) : ℝ) ≤ ((-mval m : ℚ) : ℝ) := by exact_mod_cast neg_le_neg this
    exact_mod_cast this

private theorem mag_le {f : F64} (h : f.isNan = false) : f.mag ≤ infMag := by simpa [isNan] using h

theorem nextDown_le (f : F64) (h : f.isNan = false) : (nextDown f).isNan = false ∧ ext (nextDown f) ≤ ext f := by
  have hm := mag_le h
  obtain ⟨s, m⟩ := f
  dsimp only at hm
  cases s with
  | false =>
    cases m with
    | zero => rw [down_zero]; exact ⟨h, le_rfl⟩
    | succ m => rw [down_pos hm]; exact ⟨mk_not_nan (by omega), ext_mono_pos (by omega) hm⟩
  | true =>
    rcases Nat.lt_or_ge m infMag with h' | h'
    · rw [down_neg h']; exact ⟨mk_not_nan h', ext_mono_neg (by omega) h'⟩
    · obtain rfl : m = infMag := by omega
      rw [down_inf]; exact ⟨h, le_rfl⟩

theorem le_nextUp (f : F64) (h : f.isNan = false) : (nextUp f).isNan = false ∧ ext f ≤ ext (nextUp f) := by
  have hm := mag_le h
  obtain ⟨s, m⟩ := f
  dsimp only at hm
  cases s with
  | true =>
    cases m with
    | zero => rw [up_zero]; exact ⟨by decide, (ext_zero true).le.trans (ext_zero false).ge⟩
    | succ m => rw [up_neg hm]; exact ⟨mk_not_nan (by omega), ext_mono_neg (by omega) hm⟩
  | false =>
    rcases Nat.lt_or_ge m infMag with h' | h'
    · rw [up_pos h']; exact ⟨mk_not_nan h', ext_mono_pos (by omega) h'⟩
    · obtain rfl : m = infMag := by omega
      rw [up_inf]; exact ⟨h, le_rfl⟩

theorem below_down {f : F64} {x : ℝ} (h : Below f x) : Below (nextDown f) x :=
  ⟨(nextDown_le f h.1).1, (nextDown_le f h.1).2.trans h.2⟩

theorem above_up {f : F64} {x : ℝ} (h : Above f x) : Above (nextUp f) x :=
  ⟨(le_nextUp f h.1).1, h.2.trans (le_nextUp f h.1).2⟩

theorem below_mono {f : F64} {x y : ℝ} (h : Below f x) (hxy : x ≤ y) : Below f y :=
  ⟨h.1, h.2.trans (by exact_mod_cast hxy)⟩

theorem above_mono {f : F64} {x y : ℝ} (h : Above f x) (hxy : y ≤ x) : Above f y :=
  ⟨h.1, le_trans (by exact_mod_cast hxy) h.2⟩

private theorem below_pos_mk {m : ℕ} (h : m < infMag) {x : ℝ} (hx : (mval m : ℝ) ≤ x) : Below ⟨false, m⟩ x :=
  (below_iff _ _).2 (.inr ⟨by simpa [isFinite] using h, by simpa [val] using hx⟩)

private theorem below_neg_mk {m : ℕ} (h : m ≤ infMag) {x : ℝ} (hx : -(mval m : ℝ) ≤ x) : Below ⟨true, m⟩ x := by
  rw [below_iff]
  rcases Nat.lt_or_ge m infMag with h' | h'
  · exact .inr ⟨by simpa [isFinite] using h', by simpa [val] using hx⟩
  · exact .inl ⟨by simpa [isInf] using le_antisymm h h', rfl⟩

private theorem above_neg_mk {m : ℕ} (h : m < infMag) {x : ℝ} (hx : x ≤ -(mval m : ℝ)) : Above ⟨true, m⟩ x :=
  (above_iff _ _).2 (.inr ⟨by simpa [isFinite] using h, by simpa [val] using hx⟩)

private theorem above_pos_mk {m : ℕ} (h : m ≤ infMag) {x : ℝ} (hx : x ≤ (mval m : ℝ)) : Above ⟨false, m⟩ x := by
  rw [above_iff]
  rcases Nat.lt_or_ge m infMag with h' | h'
  · exact .inr ⟨by simpa [isFinite] using h', by simpa [val] using hx⟩
  · exact .inl ⟨by simpa [isInf] using le_antisymm h h', rfl⟩

private theorem mval_zero' : ((mval 0 : ℚ) : ℝ) = 0 := by rw [mval_zero]; simp

/-- What was rounded is not below the number before the result. -/
theorem rounds_below {f : F64} {x : ℝ} (h : Rounds f x) : Below (nextDown f) x := by
  obtain ⟨s, m⟩ := f
  have h0 : 0 < infMag := by unfold infMag; norm_num
  cases h with
  | zero h hm =>
    dsimp only at hm
    subst hm
    have hp : (0 : ℝ) ≤ mval 1 := by exact_mod_cast mval_nonneg 1
    cases s with
    | false => rw [down_zero]; exact below_pos_mk h0 (by rw [mval_zero', h])
    | true => rw [down_neg h0]; exact below_neg_mk (by omega) (by rw [h, zero_add]; linarith)
  | pos h hn hm =>
    dsimp only at hn hm
    subst hn
    cases m with
    | zero => rw [down_zero]; exact below_pos_mk h0 (by rw [mval_zero']; exact h.le)
    | succ m =>
      rw [down_pos hm.le_inf]
      exact below_pos_mk (by have := hm.le_inf; omega) (by simpa using hm.lower (by omega))
  | neg h hn hm =>
    dsimp only at hn hm
    subst hn
    rcases Nat.lt_or_ge m infMag with h' | h'
    · rw [down_neg h']
      have := hm.upper h'
      exact below_neg_mk h' (by linarith)
    · obtain rfl : m = infMag := le_antisymm hm.le_inf h'
      rw [down_inf]
      exact (below_iff _ _).2 (.inl ⟨by decide, rfl⟩)

/-- What was rounded is not above the number after the result. -/
theorem rounds_above {f : F64} {x : ℝ} (h : Rounds f x) : Above (nextUp f) x := by
  obtain ⟨s, m⟩ := f
  have h0 : 0 < infMag := by unfold infMag; norm_num
  cases h with
  | zero h hm =>
    dsimp only at hm
    subst hm
    have hp : (0 : ℝ) ≤ mval 1 := by exact_mod_cast mval_nonneg 1
    cases s with
    | true => rw [up_zero]; exact above_pos_mk h0.le (by rw [mval_zero', h])
    | false => rw [up_pos h0]; exact above_pos_mk (by omega) (by rw [h, zero_add]; linarith)
  | neg h hn hm =>
    dsimp only at hn hm
    subst hn
    cases m with
    | zero => rw [up_zero]; exact above_pos_mk h0.le (by rw [mval_zero']; exact h.le)
    | succ m =>
      rw [up_neg hm.le_inf]
      have := hm.lower (by omega)
      rw [Nat.add_sub_cancel] at this
      exact above_neg_mk (by have := hm.le_inf; omega) (by linarith)
  | pos h hn hm =>
    dsimp only at hn hm
    subst hn
    rcases Nat.lt_or_ge m infMag with h' | h'
    · rw [up_pos h']
      exact above_pos_mk h' (hm.upper h')
    · obtain rfl : m = infMag := le_antisymm hm.le_inf h'
      rw [up_inf]
      exact (above_iff _ _).2 (.inl ⟨by decide, rfl⟩)

/-! ### The least and the greatest of four numbers -/

private def step (s : F64 × F64) (v : F64) : F64 × F64 := (if F64.lt s.1 v then v else s.1, if F64.lt v s.2 then v else s.2)

private theorem step_spec (s : F64 × F64) (v : F64) (h1 : s.1.isNan = false) (h2 : s.2.isNan = false) (hv : v.isNan = false) :
    (step s v).1.isNan = false ∧ (step s v).2.isNan = false ∧ ext s.1 ≤ ext (step s v).1 ∧ ext v ≤ ext (step s v).1 ∧
      ext (step s v).2 ≤ ext s.2 ∧ ext (step s v).2 ≤ ext v ∧ ((step s v).1 = s.1 ∨ (step s v).1 = v) ∧
      ((step s v).2 = s.2 ∨ (step s v).2 = v) := by
  have a := lt_iff h1 hv
  have b := lt_iff hv h2
  unfold step
  dsimp only
  split_ifs with p q q
  · exact ⟨hv, hv, (a.1 p).le, le_rfl, (b.1 q).le, le_rfl, .inr rfl, .inr rfl⟩
  · exact ⟨hv, h2, (a.1 p).le, le_rfl, le_rfl, not_lt.1 fun h => q (b.2 h), .inr rfl, .inl rfl⟩
  · exact ⟨h1, hv, le_rfl, not_lt.1 fun h => p (a.2 h), (b.1 q).le, le_rfl, .inl rfl, .inr rfl⟩
  · exact ⟨h1, h2, le_rfl, not_lt.1 fun h => p (a.2 h), le_rfl, not_lt.1 fun h => q (b.2 h), .inl rfl, .inl rfl⟩

/-- `max_min` gives the greatest and the least. -/
theorem maxMin_spec (x y z w : F64) (hx : x.isNan = false) (hy : y.isNan = false) (hz : z.isNan = false) (hw : w.isNan = false) :
    (Approx.maxMin x y z w).1.isNan = false ∧ (Approx.maxMin x y z w).2.isNan = false ∧
      (∀ v ∈ [x, y, z, w], ext v ≤ ext (Approx.maxMin x y z w).1 ∧ ext (Approx.maxMin x y z w).2 ≤ ext v) ∧
      (Approx.maxMin x y z w).1 ∈ [x, y, z, w] ∧ (Approx.maxMin x y z w).2 ∈ [x, y, z, w] := by
  have e : Approx.maxMin x y z w = step (step (step (x, x) y) z) w := rfl
  rw [e]
  obtain ⟨a1, a2, a3, a4, a5, a6, a7, a8⟩ := step_spec (x, x) y hx hx hy
  obtain ⟨b1, b2, b3, b4, b5, b6, b7, b8⟩ := step_spec _ z a1 a2 hz
  obtain ⟨c1, c2, c3, c4, c5, c6, c7, c8⟩ := step_spec _ w b1 b2 hw
  refine ⟨c1, c2, ?_, ?_, ?_⟩
  · intro v hv
    simp only [List.mem_cons, List.not_mem_nil, or_false] at hv
    rcases hv with rfl | rfl | rfl | rfl
    · exact ⟨(a3.trans b3).trans c3, (c5.trans b5).trans a5⟩
    · exact ⟨(a4.trans b3).trans c3, (c5.trans b5).trans a6⟩
    · exact ⟨b4.trans c3, c5.trans b6⟩
    · exact ⟨c4, c6⟩
  · simp only [List.mem_cons, List.not_mem_nil, or_false]
    rcases c7 with h | h
    · rw [h]
      rcases b7 with h | h
      · rw [h]
        rcases a7 with h | h <;> rw [h] <;> simp
      · rw [h]; simp
    · rw [h]; simp
  · simp only [List.mem_cons, List.not_mem_nil, or_false]
    rcases c8 with h | h
    · rw [h]
      rcases b8 with h | h
      · rw [h]
        rcases a8 with h | h <;> rw [h] <;> simp
      · rw [h]; simp
    · rw [h]; simp

/-! ### Real numbers -/

private theorem corner_le {al ah bl bh x y : ℝ} (h1 : al ≤ x) (h2 : x ≤ ah) (h3 : bl ≤ y) (h4 : y ≤ bh) :
    al * bl ≤ x * y ∨ ah * bl ≤ x * y ∨ al * bh ≤ x * y ∨ ah * bh ≤ x * y := by
  rcases le_total 0 x with hx | hx
  · -- `x * bl ≤ x * y`
    have h : x * bl ≤ x * y := mul_le_mul_of_nonneg_left h3 hx
    rcases le_total 0 bl with hb | hb
    · exact .inl ((mul_le_mul_of_nonneg_right h1 hb).trans h)
    · exact .inr (.inl ((mul_le_mul_of_nonpos_right h2 hb).trans h))
  · have h : x * bh ≤ x * y := mul_le_mul_of_nonpos_left h4 hx
    rcases le_total 0 bh with hb | hb
    · exact .inr (.inr (.inl ((mul_le_mul_of_nonneg_right h1 hb).trans h)))
    · exact .inr (.inr (.inr ((mul_le_mul_of_nonpos_right h2 hb).trans h)))

private theorem le_corner {al ah bl bh x y : ℝ} (h1 : al ≤ x) (h2 : x ≤ ah) (h3 : bl ≤ y) (h4 : y ≤ bh) :
    x * y ≤ al * bl ∨ x * y ≤ ah * bl ∨ x * y ≤ al * bh ∨ x * y ≤ ah * bh := by
  rcases le_total 0 x with hx | hx
  · have h : x * y ≤ x * bh := mul_le_mul_of_nonneg_left h4 hx
    rcases le_total 0 bh with hb | hb
    · exact .inr (.inr (.inr (h.trans (mul_le_mul_of_nonneg_right h2 hb))))
    · exact .inr (.inr (.inl (h.trans (mul_le_mul_of_nonpos_right h1 hb))))
  · have h : x * y ≤ x * bl := mul_le_mul_of_nonpos_left h3 hx
    rcases le_total 0 bl with hb | hb
    · exact .inr (.inl (h.trans (mul_le_mul_of_nonneg_right h2 hb)))
    · exact .inl (h.trans (mul_le_mul_of_nonpos_right h1 hb))

private theorem bounds {a : Approx} (ha : Finite a) {x : ℝ} (h : Contains a x) : (a.low.val : ℝ) ≤ x ∧ x ≤ a.high.val := by
  have h1 := (below_iff _ _).1 h.1
  have h2 := (above_iff _ _).1 h.2
  rw [not_inf_of_finite ha.1] at h1
  rw [not_inf_of_finite ha.2] at h2
  simp only [Bool.false_eq_true, false_and, false_or] at h1 h2
  exact ⟨h1.2, h2.2⟩

/-- A number below the result of rounding is not above what was rounded. -/
theorem rounds_faithful_below {f : F64} {x : ℝ} (h : Rounds f x) {g : F64} (hg : g.isNan = false) (hlt : ext g < ext f) :
    Below g x := by
  have hm' := mag_le hg
  obtain ⟨s, m⟩ := f
  obtain ⟨t, k⟩ := g
  dsimp only at hm'
  have hk : (0 : ℝ) ≤ mval k := by exact_mod_cast mval_nonneg k
  cases h with
  | zero h hm =>
    dsimp only at hm
    subst hm
    cases t with
    | false =>
      have : ext ⟨s, 0⟩ = 0 := ext_zero s
      rw [this] at hlt
      by_cases h0 : k = 0
      · subst h0
        have : ext ⟨false, 0⟩ = 0 := ext_zero false
        exact absurd hlt (by rw [this]; exact lt_irrefl _)
      · exact absurd hlt (not_lt.2 (ext_pos_mk hm' h0).le)
    | true => exact below_neg_mk hm' (by linarith)
  | pos h hn hm =>
    dsimp only at hn hm
    subst hn
    cases t with
    | true => exact below_neg_mk hm' (by linarith)
    | false =>
      have hkm : k < m := by
        by_contra hc
        exact absurd hlt (not_lt.2 (ext_mono_pos (not_lt.1 hc) hm'))
      have := hm.lower (by omega)
      have h' : (mval k : ℝ) ≤ mval (m - 1) := by exact_mod_cast mval_strictMono.monotone (by omega)
      exact below_pos_mk (lt_of_lt_of_le hkm hm.le_inf) (h'.trans this)
  | neg h hn hm =>
    dsimp only at hn hm
    subst hn
    cases t with
    | false =>
      refine absurd hlt (not_lt.2 (ext_neg_mk.trans ?_))
      by_cases h0 : k = 0
      · subst h0; exact (ext_zero false).ge
      · exact (ext_pos_mk hm' h0).le
    | true =>
      have hkm : m < k := by
        by_contra hc
        exact absurd hlt (not_lt.2 (ext_mono_neg (not_lt.1 hc) hm.le_inf))
      have := hm.upper (by omega)
      have h' : (mval (m + 1) : ℝ) ≤ mval k := by exact_mod_cast mval_strictMono.monotone (by omega)
      exact below_neg_mk hm' (by linarith)

/-- A number above the result of rounding is not below what was rounded. -/
theorem rounds_faithful_above {f : F64} {x : ℝ} (h : Rounds f x) {g : F64} (hg : g.isNan = false) (hlt : ext f < ext g) :
    Above g x := by
  have hm' := mag_le hg
  obtain ⟨s, m⟩ := f
  obtain ⟨t, k⟩ := g
  dsimp only at hm'
  have hk : (0 : ℝ) ≤ mval k := by exact_mod_cast mval_nonneg k
  cases h with
  | zero h hm =>
    dsimp only at hm
    subst hm
    cases t with
    | false => exact above_pos_mk hm' (by linarith)
    | true =>
      have : ext ⟨s, 0⟩ = 0 := ext_zero s
      rw [this] at hlt
      exact absurd hlt (not_lt.2 ext_neg_mk)
  | neg h hn hm =>
    dsimp only at hn hm
    subst hn
    cases t with
    | false => exact above_pos_mk hm' (by linarith)
    | true =>
      have hkm : k < m := by
        by_contra hc
        exact absurd hlt (not_lt.2 (ext_mono_neg (not_lt.1 hc) hm'))
      have := hm.lower (by omega)
      have h' : (mval k : ℝ) ≤ mval (m - 1) := by exact_mod_cast mval_strictMono.monotone (by omega)
      exact above_neg_mk (lt_of_lt_of_le hkm hm.le_inf) (by linarith)
  | pos h hn hm =>
    dsimp only at hn hm
    subst hn
    cases t with
    | true =>
      refine absurd hlt (not_lt.2 (ext_neg_mk.trans ?_))
      by_cases h0 : m = 0
      · subst h0; exact (ext_zero false).ge
      · exact (ext_pos_mk hm.le_inf h0).le
    | false =>
      have hkm : m < k := by
        by_contra hc
        exact absurd hlt (not_lt.2 (ext_mono_pos (not_lt.1 hc) hm.le_inf))
      have := hm.upper (by omega)
      have h' : (mval (m + 1) : ℝ) ≤ mval k := by exact_mod_cast mval_strictMono.monotone (by omega)
      exact above_pos_mk hm' (by linarith)

private theorem below_of_ext {f g : F64} {x : ℝ} (hg : g.isNan = false) (h : Below f x) (hle : ext g ≤ ext f) : Below g x :=
  ⟨hg, hle.trans h.2⟩

private theorem above_of_ext {f g : F64} {x : ℝ} (hg : g.isNan = false) (h : Above f x) (hle : ext f ≤ ext g) : Above g x :=
  ⟨hg, h.2.trans hle⟩

/-- Rounding the four corners and then once more outwards. -/
private theorem corners {fs : F64 × F64 × F64 × F64} {cs : ℝ × ℝ × ℝ × ℝ} (h1 : Rounds fs.1 cs.1) (h2 : Rounds fs.2.1 cs.2.1)
    (h3 : Rounds fs.2.2.1 cs.2.2.1) (h4 : Rounds fs.2.2.2 cs.2.2.2) {r : ℝ}
    (hlo : cs.1 ≤ r ∨ cs.2.1 ≤ r ∨ cs.2.2.1 ≤ r ∨ cs.2.2.2 ≤ r) (hhi : r ≤ cs.1 ∨ r ≤ cs.2.1 ∨ r ≤ cs.2.2.1 ∨ r ≤ cs.2.2.2) :
    Contains ⟨nextDown (Approx.maxMin (nextDown fs.1) (nextDown fs.2.1) (nextDown fs.2.2.1) (nextDown fs.2.2.2)).2,
      nextUp (Approx.maxMin (nextUp fs.1) (nextUp fs.2.1) (nextUp fs.2.2.1) (nextUp fs.2.2.2)).1⟩ r := by
  obtain ⟨-, a, b, -, -⟩ := maxMin_spec _ _ _ _ (nextDown_le _ h1.not_nan).1 (nextDown_le _ h2.not_nan).1 (nextDown_le _ h3.not_nan).1
    (nextDown_le _ h4.not_nan).1
  obtain ⟨c, -, d, -, -⟩ := maxMin_spec _ _ _ _ (le_nextUp _ h1.not_nan).1 (le_nextUp _ h2.not_nan).1 (le_nextUp _ h3.not_nan).1
    (le_nextUp _ h4.not_nan).1
  constructor
  · apply below_down
    rcases hlo with h | h | h | h
    · exact below_of_ext a (below_mono (rounds_below h1) h) (b _ (by simp)).2
    · exact below_of_ext a (below_mono (rounds_below h2) h) (b _ (by simp)).2
    · exact below_of_ext a (below_mono (rounds_below h3) h) (b _ (by simp)).2
    · exact below_of_ext a (below_mono (rounds_below h4) h) (b _ (by simp)).2
  · apply above_up
    rcases hhi with h | h | h | h
    · exact above_of_ext c (above_mono (rounds_above h1) h) (d _ (by simp)).1
    · exact above_of_ext c (above_mono (rounds_above h2) h) (d _ (by simp)).1
    · exact above_of_ext c (above_mono (rounds_above h3) h) (d _ (by simp)).1
    · exact above_of_ext c (above_mono (rounds_above h4) h) (d _ (by simp)).1

/-- No underflow: what is not zero is not rounded to zero. -/
private theorem mag_ne_zero {f : F64} {x : ℝ} (h : Rounds f x) (hx : x = 0 ∨ 1 / 2 ^ 1074 ≤ |x|) (hm : f.mag = 0) : x = 0 := by
  rcases hx with hx | hx
  · exact hx
  exfalso
  have e1 : ((mval 1 : ℚ) : ℝ) = 1 / 2 ^ 1074 := by unfold mval scaled; norm_num
  have hp : (0 : ℝ) < 1 / 2 ^ 1074 := one_div_pos.2 (pow_pos (by norm_num) _)
  have hi : (1 : ℕ) < infMag := by unfold infMag; norm_num
  cases h with
  | zero h _ => rw [h, abs_zero] at hx; linarith
  | pos h _ hn =>
    rw [hm] at hn
    have := hn.nearest (by omega) 1 hi
    rw [mval_zero', e1] at this
    rw [abs_of_pos h] at hx
    rw [abs_of_neg (by linarith), abs_of_nonpos (by linarith)] at this
    linarith
  | neg h _ hn =>
    rw [hm] at hn
    have := hn.nearest (by omega) 1 hi
    rw [mval_zero', e1] at this
    rw [abs_of_neg h] at hx
    rw [abs_of_neg (by linarith), abs_of_nonpos (by linarith)] at this
    linarith

private theorem ext_inj {f g : F64} (hf : f.isNan = false) (hg : g.isNan = false) (h : ext f = ext g) :
    f = g ∨ (f.mag = 0 ∧ g.mag = 0) := by
  have hm := mag_le hf
  have hm' := mag_le hg
  obtain ⟨s, m⟩ := f
  obtain ⟨t, k⟩ := g
  dsimp only at hm hm' ⊢
  have inj : ∀ i j : ℕ, i ≤ infMag → j ≤ infMag → ext ⟨false, i⟩ = ext ⟨false, j⟩ → i = j := by
    intro i j hi hj hij
    unfold ext isInf val at hij
    simp only [decide_eq_true_eq, Bool.false_eq_true, if_false] at hij
    split_ifs at hij with p q q
    · omega
    · exact absurd hij.symm (EReal.coe_ne_top _)
    · exact absurd hij (EReal.coe_ne_top _)
    · exact mval_strictMono.injective (by exact_mod_cast hij)
  have inj' : ∀ i j : ℕ, i ≤ infMag → j ≤ infMag → ext ⟨true, i⟩ = ext ⟨true, j⟩ → i = j := by
    intro i j hi hj hij
    unfold ext isInf val at hij
    simp only [decide_eq_true_eq, if_true] at hij
    split_ifs at hij with p q q
    · omega
    · exact absurd hij.symm (EReal.coe_ne_bot _)
    · exact absurd hij (EReal.coe_ne_bot _)
    · exact mval_strictMono.injective (by
        have : (-mval i : ℚ) = -mval j := by exact_mod_cast hij
        linarith)
  have mixed : ∀ i j : ℕ, i ≤ infMag → j ≤ infMag → ext ⟨false, i⟩ = ext ⟨true, j⟩ → i = 0 ∧ j = 0 := by
    intro i j hi hj hij
    have hi0 : i = 0 := by
      by_contra h0
      have := ext_pos_mk hi h0
      rw [hij] at this
      exact absurd this (not_lt.2 ext_neg_mk)
    subst hi0
    have e : ext ⟨false, 0⟩ = 0 := ext_zero false
    have e' : ext ⟨true, 0⟩ = 0 := ext_zero true
    refine ⟨rfl, (inj' j 0 hj (Nat.zero_le _) ?_)⟩
    rw [← hij, e, e']
  cases s <;> cases t
  · exact .inl (by rw [inj m k hm hm' h])
  · exact .inr (mixed m k hm hm' h)
  · obtain ⟨a, b⟩ := mixed k m hm' hm h.symm
    exact .inr ⟨b, a⟩
  · exact .inl (by rw [inj' m k hm hm' h])

private theorem down_of_zero {f : F64} (h : f.mag = 0) : Below (nextDown f) 0 := rounds_below (.zero rfl h)

private theorem up_of_zero {f : F64} (h : f.mag = 0) : Above (nextUp f) 0 := rounds_above (.zero rfl h)

/-- Stepping down from a number which is not above the result of rounding. -/
private theorem down_le {f g : F64} {x : ℝ} (h : Rounds f x) (hx : x = 0 ∨ 1 / 2 ^ 1074 ≤ |x|) (hg : g.isNan = false)
    (hle : ext g ≤ ext f) : Below (nextDown g) x := by
  rcases hle.lt_or_eq with h' | h'
  · exact below_down (rounds_faithful_below h hg h')
  · rcases ext_inj hg h.not_nan h' with e | ⟨e1, e2⟩
    · rw [e]; exact rounds_below h
    · rw [mag_ne_zero h hx e2]; exact down_of_zero e1

private theorem up_ge {f g : F64} {x : ℝ} (h : Rounds f x) (hx : x = 0 ∨ 1 / 2 ^ 1074 ≤ |x|) (hg : g.isNan = false)
    (hle : ext f ≤ ext g) : Above (nextUp g) x := by
  rcases hle.lt_or_eq with h' | h'
  · exact above_up (rounds_faithful_above h hg h')
  · rcases ext_inj h.not_nan hg h' with e | ⟨e1, e2⟩
    · rw [← e]; exact rounds_above h
    · rw [mag_ne_zero h hx e1]; exact up_of_zero e2

/-- Rounding the four corners once. -/
private theorem corners' {fs : F64 × F64 × F64 × F64} {cs : ℝ × ℝ × ℝ × ℝ} (h1 : Rounds fs.1 cs.1) (h2 : Rounds fs.2.1 cs.2.1)
    (h3 : Rounds fs.2.2.1 cs.2.2.1) (h4 : Rounds fs.2.2.2 cs.2.2.2)
    (hu : ∀ c ∈ [cs.1, cs.2.1, cs.2.2.1, cs.2.2.2], c = 0 ∨ 1 / 2 ^ 1074 ≤ |c|) {r : ℝ}
    (hlo : cs.1 ≤ r ∨ cs.2.1 ≤ r ∨ cs.2.2.1 ≤ r ∨ cs.2.2.2 ≤ r) (hhi : r ≤ cs.1 ∨ r ≤ cs.2.1 ∨ r ≤ cs.2.2.1 ∨ r ≤ cs.2.2.2) :
    Contains ⟨nextDown (Approx.maxMin fs.1 fs.2.1 fs.2.2.1 fs.2.2.2).2, nextUp (Approx.maxMin fs.1 fs.2.1 fs.2.2.1 fs.2.2.2).1⟩ r := by
  obtain ⟨c, a, b, -, -⟩ := maxMin_spec _ _ _ _ h1.not_nan h2.not_nan h3.not_nan h4.not_nan
  constructor
  · rcases hlo with h | h | h | h
    · exact below_mono (down_le h1 (hu _ (by simp)) a (b _ (by simp)).2) h
    · exact below_mono (down_le h2 (hu _ (by simp)) a (b _ (by simp)).2) h
    · exact below_mono (down_le h3 (hu _ (by simp)) a (b _ (by simp)).2) h
    · exact below_mono (down_le h4 (hu _ (by simp)) a (b _ (by simp)).2) h
  · rcases hhi with h | h | h | h
    · exact above_mono (up_ge h1 (hu _ (by simp)) c (b _ (by simp)).1) h
    · exact above_mono (up_ge h2 (hu _ (by simp)) c (b _ (by simp)).1) h
    · exact above_mono (up_ge h3 (hu _ (by simp)) c (b _ (by simp)).1) h
    · exact above_mono (up_ge h4 (hu _ (by simp)) c (b _ (by simp)).1) h

/-! ### The properties -/

/-- The next number up is the least that is larger, except for minus zero. -/
theorem C69_next_up (v : F64) (hv : v.isFinite = true) (h0 : v ≠ zero true) :
    (nextUp v).isNan = false ∧ ext v < ext (nextUp v) ∧ ∀ g : F64, g.isNan = false → ext v < ext g → ext (nextUp v) ≤ ext g := by
  have hm : v.mag < infMag := by simpa [isFinite] using hv
  have hn := not_nan_of_finite hv
  obtain ⟨s, m⟩ := v
  dsimp only at hm
  refine ⟨(le_nextUp _ hn).1, lt_of_le_of_ne (le_nextUp _ hn).2 fun h => ?_, fun g hg hlt => ?_⟩
  · rcases ext_inj hn (le_nextUp _ hn).1 h with e | ⟨e1, e2⟩
    · cases s with
      | false => rw [up_pos hm] at e; injection e; omega
      | true =>
        cases m with
        | zero => exact h0 rfl
        | succ m => rw [up_neg hm.le] at e; injection e; omega
    · dsimp only at e1
      subst e1
      cases s with
      | false => rw [up_pos hm] at e2; simp at e2
      | true => exact h0 rfl
  · have hk := mag_le hg
    obtain ⟨t, k⟩ := g
    dsimp only at hk
    cases s with
    | false =>
      rw [up_pos hm]
      cases t with
      | false =>
        refine ext_mono_pos ?_ hk
        by_contra hc
        exact absurd hlt (not_lt.2 (ext_mono_pos (by omega) hm.le))
      | true =>
        refine absurd hlt (not_lt.2 (ext_neg_mk.trans ?_))
        by_cases h0 : m = 0
        · subst h0; exact (ext_zero false).ge
        · exact (ext_pos_mk hm.le h0).le
    | true =>
      cases m with
      | zero => exact absurd rfl h0
      | succ m =>
        rw [up_neg hm.le]
        cases t with
        | false =>
          refine ext_neg_mk.trans ?_
          by_cases h0 : k = 0
          · subst h0; exact (ext_zero false).ge
          · exact (ext_pos_mk hk h0).le
        | true =>
          refine ext_mono_neg ?_ (by omega)
          by_contra hc
          exact absurd hlt (not_lt.2 (ext_mono_neg (by omega) hk))

/-- The next number down is the greatest that is smaller, except for zero. -/
theorem C69_next_down (v : F64) (hv : v.isFinite = true) (h0 : v ≠ zero false) :
    (nextDown v).isNan = false ∧ ext (nextDown v) < ext v ∧ ∀ g : F64, g.isNan = false → ext g < ext v → ext g ≤ ext (nextDown v) := by
  have hm : v.mag < infMag := by simpa [isFinite] using hv
  have hn := not_nan_of_finite hv
  obtain ⟨s, m⟩ := v
  dsimp only at hm
  refine ⟨(nextDown_le _ hn).1, lt_of_le_of_ne (nextDown_le _ hn).2 fun h => ?_, fun g hg hlt => ?_⟩
  · rcases ext_inj (nextDown_le _ hn).1 hn h with e | ⟨e1, e2⟩
    · cases s with
      | true => rw [down_neg hm] at e; injection e; omega
      | false =>
        cases m with
        | zero => exact h0 rfl
        | succ m => rw [down_pos hm.le] at e; injection e; omega
    · dsimp only at e2
      subst e2
      cases s with
      | true => rw [down_neg hm] at e1; simp at e1
      | false => exact h0 rfl
  · have hk := mag_le hg
    obtain ⟨t, k⟩ := g
    dsimp only at hk
    cases s with
    | true =>
      rw [down_neg hm]
      cases t with
      | true =>
        refine ext_mono_neg ?_ hk
        by_contra hc
        exact absurd hlt (not_lt.2 (ext_mono_neg (by omega) hm.le))
      | false =>
        refine absurd hlt (not_lt.2 (ext_neg_mk.trans ?_))
        by_cases h0 : k = 0
        · subst h0; exact (ext_zero false).ge
        · exact (ext_pos_mk hk h0).le
    | false =>
      cases m with
      | zero => exact absurd rfl h0
      | succ m =>
        rw [down_pos hm.le]
        cases t with
        | true =>
          refine ext_neg_mk.trans ?_
          by_cases h0 : m = 0
          · subst h0; exact (ext_zero false).ge
          · exact (ext_pos_mk (by omega) h0).le
        | false =>
          refine ext_mono_pos ?_ (by omega)
          by_contra hc
          exact absurd hlt (not_lt.2 (ext_mono_pos (by omega) hk))

/-- A number makes an interval with this number only. -/
theorem C69_from (v : F64) (hv : v.isFinite = true) : Finite (.ofFloat v) ∧ ∀ x : ℝ, Contains (.ofFloat v) x ↔ x = v.val := by
  have h0 : (zero false).isFinite = true := by decide
  have hz : (zero false).val = 0 := by simp [zero, val, mval_zero]
  have a := (sub_rounds hv h0).exact v hv (by rw [hz]; simp)
  have b := (add_rounds hv h0).exact v hv (by rw [hz]; simp)
  rw [hz] at a b
  simp only [Rat.cast_zero, sub_zero, add_zero] at a b
  refine ⟨⟨a.1, b.1⟩, fun x => ⟨fun h => ?_, ?_⟩⟩
  · obtain ⟨h1, h2⟩ := bounds ⟨a.1, b.1⟩ h
    have e1 : ((Approx.ofFloat v).low.val : ℝ) = v.val := a.2
    have e2 : ((Approx.ofFloat v).high.val : ℝ) = v.val := b.2
    rw [e1] at h1
    rw [e2] at h2
    exact le_antisymm h2 h1
  · rintro rfl
    exact ⟨(below_iff _ _).2 (.inr ⟨a.1, a.2.le⟩), (above_iff _ _).2 (.inr ⟨b.1, b.2.ge⟩)⟩

/-- The sum. -/
theorem C69_add (a b : Approx) (ha : Finite a) (hb : Finite b) (x y : ℝ) (hx : Contains a x) (hy : Contains b y) :
    Contains (a.add b) (x + y) := by
  obtain ⟨x1, x2⟩ := bounds ha hx
  obtain ⟨y1, y2⟩ := bounds hb hy
  exact ⟨below_mono (rounds_below (add_rounds ha.1 hb.1)) (add_le_add x1 y1),
    above_mono (rounds_above (add_rounds ha.2 hb.2)) (add_le_add x2 y2)⟩

/-- The difference, if what is taken away is a single number.  Not so otherwise: `C69_violated_sub`. -/
theorem C69_sub_partial (a b : Approx) (ha : Finite a) (hb : Finite b) (hp : b.low.val = b.high.val) (x y : ℝ) (hx : Contains a x)
    (hy : Contains b y) : Contains (a.sub b) (x - y) := by
  obtain ⟨x1, x2⟩ := bounds ha hx
  obtain ⟨y1, y2⟩ := bounds hb hy
  rw [hp] at y1
  have e := le_antisymm y2 y1
  refine ⟨below_mono (rounds_below (sub_rounds ha.1 hb.1)) ?_, above_mono (rounds_above (sub_rounds ha.2 hb.2)) ?_⟩
  · rw [hp, ← e]; linarith
  · rw [← e]; linarith

/-- The opposite, of a single number.  Not so otherwise: `C69_violated_neg`. -/
theorem C69_neg_partial (a : Approx) (ha : Finite a) (hp : a.low.val = a.high.val) (x : ℝ) (hx : Contains a x) :
    Contains a.minus (-x) := by
  obtain ⟨x1, x2⟩ := bounds ha hx
  rw [hp] at x1
  have e := le_antisymm x2 x1
  refine ⟨(below_iff _ _).2 (.inr ⟨minus_finite ha.1, ?_⟩), (above_iff _ _).2 (.inr ⟨minus_finite ha.2, ?_⟩)⟩
  · have : a.minus.low.val = -a.low.val := val_minus _
    rw [this, hp, e]; push_cast; exact le_rfl
  · have : a.minus.high.val = -a.high.val := val_minus _
    rw [this, e]; push_cast; exact le_rfl

/-- The square root. -/
theorem C69_sqrt (a : Approx) (ha : Finite a) (h0 : 0 ≤ a.low.val) (x : ℝ) (hx : Contains a x) : Contains a.sqrt (Real.sqrt x) := by
  obtain ⟨x1, x2⟩ := bounds ha hx
  have h1 : (0 : ℝ) ≤ a.high.val := (show (0 : ℝ) ≤ a.low.val by exact_mod_cast h0).trans (x1.trans x2)
  exact ⟨below_mono (rounds_below (sqrt_rounds ha.1 h0)) (Real.sqrt_le_sqrt x1),
    above_mono (rounds_above (sqrt_rounds ha.2 (by exact_mod_cast h1))) (Real.sqrt_le_sqrt x2)⟩

/-- The product. -/
theorem C69_mul (a b : Approx) (ha : Finite a) (hb : Finite b) (x y : ℝ) (hx : Contains a x) (hy : Contains b y) :
    Contains (a.mul b) (x * y) := by
  obtain ⟨x1, x2⟩ := bounds ha hx
  obtain ⟨y1, y2⟩ := bounds hb hy
  exact corners (fs := (_, _, _, _)) (cs := (_, _, _, _)) (mul_rounds ha.1 hb.1) (mul_rounds ha.2 hb.1) (mul_rounds ha.1 hb.2)
    (mul_rounds ha.2 hb.2) (corner_le x1 x2 y1 y2) (le_corner x1 x2 y1 y2)

/-- The product with a number which is not negative, or of a single number.  Not so otherwise: `C69_violated_scale`. -/
theorem C69_scale_partial (a : Approx) (b : F64) (ha : Finite a) (hb : b.isFinite = true) (hp : 0 ≤ b.val ∨ a.low.val = a.high.val)
    (x : ℝ) (hx : Contains a x) : Contains (a.scale b) (x * b.val) := by
  obtain ⟨x1, x2⟩ := bounds ha hx
  have h1 : (a.low.val * b.val : ℝ) ≤ x * b.val ∧ x * b.val ≤ (a.high.val * b.val : ℝ) := by
    rcases hp with h | h
    · have h : (0 : ℝ) ≤ b.val := by exact_mod_cast h
      exact ⟨mul_le_mul_of_nonneg_right x1 h, mul_le_mul_of_nonneg_right x2 h⟩
    · rw [h] at x1 ⊢
      have e := le_antisymm x2 x1
      rw [e]
      exact ⟨le_rfl, le_rfl⟩
  have hlo := below_mono (rounds_below (mul_rounds ha.1 hb)) h1.1
  have hhi := above_mono (rounds_above (mul_rounds ha.2 hb)) h1.2
  unfold Approx.scale
  have : F64.lt (nextUp (a.high.mul b)) (nextDown (a.low.mul b)) = false := by
    rw [not_lt_iff hhi.1 hlo.1]
    exact hlo.2.trans hhi.2
  dsimp only
  rw [this]
  exact ⟨below_down hlo, above_up hhi⟩

private theorem inv_between {bl bh y : ℝ} (h1 : bl ≤ y) (h2 : y ≤ bh) (h0 : 0 < bl ∨ bh < 0) : bh⁻¹ ≤ y⁻¹ ∧ y⁻¹ ≤ bl⁻¹ := by
  rcases h0 with h | h
  · exact ⟨inv_anti₀ (by linarith) h2, inv_anti₀ h h1⟩
  · have a : (-bh)⁻¹ ≤ (-y)⁻¹ ↔ _ := Iff.rfl
    have b1 : (-y)⁻¹ ≤ (-bh)⁻¹ := inv_anti₀ (by linarith) (by linarith)
    have b2 : (-bl)⁻¹ ≤ (-y)⁻¹ := inv_anti₀ (by linarith) (by linarith)
    rw [inv_neg, inv_neg] at b1 b2
    exact ⟨by linarith, by linarith⟩

private theorem div_corner_le {al ah bl bh x y : ℝ} (h1 : al ≤ x) (h2 : x ≤ ah) (h3 : bl ≤ y) (h4 : y ≤ bh) (h0 : 0 < bl ∨ bh < 0) :
    al / bl ≤ x / y ∨ ah / bl ≤ x / y ∨ al / bh ≤ x / y ∨ ah / bh ≤ x / y := by
  obtain ⟨i1, i2⟩ := inv_between h3 h4 h0
  simp only [div_eq_mul_inv]
  have := corner_le h1 h2 i1 i2
  tauto

private theorem le_div_corner {al ah bl bh x y : ℝ} (h1 : al ≤ x) (h2 : x ≤ ah) (h3 : bl ≤ y) (h4 : y ≤ bh) (h0 : 0 < bl ∨ bh < 0) :
    x / y ≤ al / bl ∨ x / y ≤ ah / bl ∨ x / y ≤ al / bh ∨ x / y ≤ ah / bh := by
  obtain ⟨i1, i2⟩ := inv_between h3 h4 h0
  simp only [div_eq_mul_inv]
  have := le_corner h1 h2 i1 i2
  tauto

private theorem ne_zero_of {b : Approx} (hb : Finite b) {y : ℝ} (hy : Contains b y) (h0 : 0 < b.low.val ∨ b.high.val < 0) :
    b.low.val ≠ 0 ∧ b.high.val ≠ 0 := by
  obtain ⟨y1, y2⟩ := bounds hb hy
  have h : b.low.val ≤ b.high.val := by exact_mod_cast y1.trans y2
  rcases h0 with h0 | h0
  · exact ⟨h0.ne', (h0.trans_le h).ne'⟩
  · exact ⟨(h.trans_lt h0).ne, h0.ne⟩

/-- The quotient, if zero is not among the divisors.  Not so otherwise: `C69_violated_div`. -/
theorem C69_div_partial (a b : Approx) (ha : Finite a) (hb : Finite b) (h0 : 0 < b.low.val ∨ b.high.val < 0) (x y : ℝ)
    (hx : Contains a x) (hy : Contains b y) : Contains (a.div b) (x / y) := by
  obtain ⟨x1, x2⟩ := bounds ha hx
  obtain ⟨y1, y2⟩ := bounds hb hy
  obtain ⟨n1, n2⟩ := ne_zero_of hb hy h0
  have h0' : (0 : ℝ) < b.low.val ∨ (b.high.val : ℝ) < 0 := by exact_mod_cast h0
  exact corners (fs := (_, _, _, _)) (cs := (_, _, _, _)) (div_rounds ha.1 hb.1 n1) (div_rounds ha.2 hb.1 n1) (div_rounds ha.1 hb.2 n2)
    (div_rounds ha.2 hb.2 n2) (div_corner_le x1 x2 y1 y2 h0') (le_div_corner x1 x2 y1 y2 h0')

/-- `*=`, if none of the products of the ends is so small that it may be rounded to zero.  Not so otherwise:
`C69_violated_mul_assign`. -/
theorem C69_mul_assign_partial (a b : Approx) (ha : Finite a) (hb : Finite b)
    (hu : ∀ u ∈ [a.low.val, a.high.val], ∀ v ∈ [b.low.val, b.high.val], u * v = 0 ∨ 1 / 2 ^ 1074 ≤ |u * v|) (x y : ℝ)
    (hx : Contains a x) (hy : Contains b y) : Contains (a.mulAssign b) (x * y) := by
  obtain ⟨x1, x2⟩ := bounds ha hx
  obtain ⟨y1, y2⟩ := bounds hb hy
  have hu' : ∀ u ∈ [a.low.val, a.high.val], ∀ v ∈ [b.low.val, b.high.val],
      (u * v : ℝ) = 0 ∨ 1 / 2 ^ 1074 ≤ |(u * v : ℝ)| := fun u h v h' => by
    rcases hu u h v h' with h | h
    · exact .inl (by exact_mod_cast h)
    · refine .inr ?_
      have : ((1 / 2 ^ 1074 : ℚ) : ℝ) ≤ ((|u * v| : ℚ) : ℝ) := by exact_mod_cast h
      push_cast at this
      exact this
  refine corners' (fs := (_, _, _, _)) (cs := (_, _, _, _)) (mul_rounds ha.1 hb.1) (mul_rounds ha.2 hb.1) (mul_rounds ha.1 hb.2)
    (mul_rounds ha.2 hb.2) ?_ (corner_le x1 x2 y1 y2) (le_corner x1 x2 y1 y2)
  intro c hc
  simp only [List.mem_cons, List.not_mem_nil, or_false] at hc
  rcases hc with rfl | rfl | rfl | rfl <;> exact hu' _ (by simp) _ (by simp)

/-- `/=`, likewise. -/
theorem C69_div_assign_partial (a b : Approx) (ha : Finite a) (hb : Finite b) (h0 : 0 < b.low.val ∨ b.high.val < 0)
    (hu : ∀ u ∈ [a.low.val, a.high.val], ∀ v ∈ [b.low.val, b.high.val], u / v = 0 ∨ 1 / 2 ^ 1074 ≤ |u / v|) (x y : ℝ)
    (hx : Contains a x) (hy : Contains b y) : Contains (a.divAssign b) (x / y) := by
  obtain ⟨x1, x2⟩ := bounds ha hx
  obtain ⟨y1, y2⟩ := bounds hb hy
  obtain ⟨n1, n2⟩ := ne_zero_of hb hy h0
  have h0' : (0 : ℝ) < b.low.val ∨ (b.high.val : ℝ) < 0 := by exact_mod_cast h0
  have hu' : ∀ u ∈ [a.low.val, a.high.val], ∀ v ∈ [b.low.val, b.high.val],
      (u / v : ℝ) = 0 ∨ 1 / 2 ^ 1074 ≤ |(u / v : ℝ)| := fun u h v h' => by
    rcases hu u h v h' with h | h
    · exact .inl (by exact_mod_cast h)
    · refine .inr ?_
      have : ((1 / 2 ^ 1074 : ℚ) : ℝ) ≤ ((|u / v| : ℚ) : ℝ) := by exact_mod_cast h
      push_cast at this
      exact this
  refine corners' (fs := (_, _, _, _)) (cs := (_, _, _, _)) (div_rounds ha.1 hb.1 n1) (div_rounds ha.2 hb.1 n1) (div_rounds ha.1 hb.2 n2)
    (div_rounds ha.2 hb.2 n2) ?_ (div_corner_le x1 x2 y1 y2 h0') (le_div_corner x1 x2 y1 y2 h0')
  intro c hc
  simp only [List.mem_cons, List.not_mem_nil, or_false] at hc
  rcases hc with rfl | rfl | rfl | rfl <;> exact hu' _ (by simp) _ (by simp)

/-! ### What the code does not do -/

/-- Whether an interval with finite ends contains a rational number. -/
private def holds (a : Approx) (x : ℚ) : Bool :=
  a.low.isFinite && a.high.isFinite && decide (a.low.val ≤ x) && decide (x ≤ a.high.val)

private theorem of_holds {a : Approx} {x : ℚ} (h : holds a x = true) : Finite a ∧ Contains a (x : ℝ) := by
  unfold holds at h
  simp only [Bool.and_eq_true, decide_eq_true_eq] at h
  obtain ⟨⟨⟨h1, h2⟩, h3⟩, h4⟩ := h
  exact ⟨⟨h1, h2⟩, (below_iff _ _).2 (.inr ⟨h1, by exact_mod_cast h3⟩), (above_iff _ _).2 (.inr ⟨h2, by exact_mod_cast h4⟩)⟩

private theorem of_not_holds {a : Approx} {x : ℚ} (hf : (a.low.isFinite && a.high.isFinite) = true) (h : holds a x = false) :
    ¬ Contains a (x : ℝ) := by
  intro hc
  rw [Bool.and_eq_true] at hf
  obtain ⟨h1, h2⟩ := bounds hf hc
  unfold holds at h
  rw [hf.1, hf.2, decide_eq_true (show a.low.val ≤ x by exact_mod_cast h1), decide_eq_true (show x ≤ a.high.val by exact_mod_cast h2)] at h
  cases h

/-- The opposite of an interval: `low` and `high` are not exchanged, so that the opposite of the interval from 1 to 2 is
empty. -/
theorem C69_violated_neg : ∃ a : Approx, Finite a ∧ Contains a 1 ∧ ∀ x, ¬ Contains a.minus x := by
  obtain ⟨h1, h2⟩ := of_holds (a := ⟨.lit 1, .lit 2⟩) (x := 1) (by decide +kernel)
  refine ⟨⟨.lit 1, .lit 2⟩, h1, by exact_mod_cast h2, fun x hx => ?_⟩
  have hf : Finite (Approx.minus ⟨.lit 1, .lit 2⟩) := ⟨by decide +kernel, by decide +kernel⟩
  obtain ⟨a, b⟩ := bounds hf hx
  have h : (Approx.minus ⟨.lit 1, .lit 2⟩).low.val ≤ (Approx.minus ⟨.lit 1, .lit 2⟩).high.val := by exact_mod_cast a.trans b
  revert h
  decide +kernel

/-- The difference of two intervals: `low` is subtracted from `low`. -/
theorem C69_violated_sub : ∃ a b : Approx, Finite a ∧ Finite b ∧ Contains a 1 ∧ Contains b 0 ∧ ¬ Contains (a.sub b) (1 - 0) := by
  obtain ⟨h1, h2⟩ := of_holds (a := ⟨.lit 0, .lit 1⟩) (x := 1) (by decide +kernel)
  obtain ⟨-, h3⟩ := of_holds (a := ⟨.lit 0, .lit 1⟩) (x := 0) (by decide +kernel)
  refine ⟨⟨.lit 0, .lit 1⟩, ⟨.lit 0, .lit 1⟩, h1, h1, by exact_mod_cast h2, by exact_mod_cast h3, ?_⟩
  have := of_not_holds (a := Approx.sub ⟨.lit 0, .lit 1⟩ ⟨.lit 0, .lit 1⟩) (x := 1 - 0) (by decide +kernel) (by decide +kernel)
  exact_mod_cast this

/-- The product with a negative number: the ends are rounded before they are exchanged. -/
theorem C69_violated_scale :
    ∃ (a : Approx) (b : F64) (x : ℚ), Finite a ∧ b.isFinite = true ∧ Contains a x ∧ ¬ Contains (a.scale b) (x * b.val) := by
  obtain ⟨h1, h2⟩ := of_holds (a := ⟨.lit 1, .lit 5⟩) (x := 5) (by decide +kernel)
  refine ⟨⟨.lit 1, .lit 5⟩, .lit (-1 / 10), 5, h1, by decide +kernel, h2, ?_⟩
  have := of_not_holds (a := Approx.scale ⟨.lit 1, .lit 5⟩ (.lit (-1 / 10))) (x := 5 * (F64.lit (-1 / 10)).val) (by decide +kernel)
    (by decide +kernel)
  exact_mod_cast this

/-- The quotient when zero is among the divisors: the interval should not be bounded. -/
theorem C69_violated_div : ∃ (a b : Approx) (x y : ℚ), Finite a ∧ Finite b ∧ Contains a x ∧ Contains b y ∧ y ≠ 0 ∧
    ¬ Contains (a.div b) (x / y) := by
  obtain ⟨h1, h2⟩ := of_holds (a := .ofFloat (.lit 1)) (x := 1) (by decide +kernel)
  obtain ⟨h3, h4⟩ := of_holds (a := ⟨.lit (-1), .lit 1⟩) (x := 1 / 2) (by decide +kernel)
  refine ⟨.ofFloat (.lit 1), ⟨.lit (-1), .lit 1⟩, 1, 1 / 2, h1, h3, h2, h4, by norm_num, ?_⟩
  have := of_not_holds (a := Approx.div (.ofFloat (.lit 1)) ⟨.lit (-1), .lit 1⟩) (x := 1 / (1 / 2)) (by decide +kernel) (by decide +kernel)
  exact_mod_cast this

/-- `*=` with products so small that they are rounded to zeros of both signs: the step down from the wrong zero stays
there. -/
theorem C69_violated_mul_assign : ∃ (a : Approx) (x y : ℚ), Finite a ∧ Contains a x ∧ Contains a y ∧ ¬ Contains (a.mulAssign a) (x * y) := by
  obtain ⟨h1, h2⟩ := of_holds (a := ⟨.lit (-1 / 2 ^ 600), .lit (1 / 2 ^ 600)⟩) (x := -1 / 2 ^ 600) (by decide +kernel)
  obtain ⟨-, h3⟩ := of_holds (a := ⟨.lit (-1 / 2 ^ 600), .lit (1 / 2 ^ 600)⟩) (x := 1 / 2 ^ 600) (by decide +kernel)
  refine ⟨⟨.lit (-1 / 2 ^ 600), .lit (1 / 2 ^ 600)⟩, -1 / 2 ^ 600, 1 / 2 ^ 600, h1, h2, h3, ?_⟩
  have := of_not_holds (a := Approx.mulAssign ⟨.lit (-1 / 2 ^ 600), .lit (1 / 2 ^ 600)⟩ ⟨.lit (-1 / 2 ^ 600), .lit (1 / 2 ^ 600)⟩)
    (x := -1 / 2 ^ 600 * (1 / 2 ^ 600)) (by decide +kernel) (by decide +kernel)
  exact_mod_cast this

/-- A value with an error: the ends are rounded to the nearest number, possibly inwards. -/
theorem C69_violated_error : ∃ (v e : F64) (x : ℚ), v.isFinite = true ∧ e.isFinite = true ∧ |x - v.val| ≤ e.val ∧
    ¬ Contains (.ofError v e) (x : ℝ) := by
  refine ⟨.lit 1, .lit (1 / 2 ^ 60), 1 + 1 / 2 ^ 60, by decide +kernel, by decide +kernel, by decide +kernel, ?_⟩
  exact of_not_holds (by decide +kernel) (by decide +kernel)

/-- The roots: of `x² - 3x = 0`, when the second coefficient is only known to be between -3 and -2, 3 is in none of the
intervals. -/
theorem C69_violated_quadratic : ∃ (a b c x1 x2 : Approx), Finite a ∧ Finite b ∧ Finite c ∧ Contains a 1 ∧ Contains b (-3) ∧ Contains c 0 ∧
    Approx.solveQuadratic a b c = some (x1, x2) ∧ (1 : ℝ) * 3 ^ 2 + -3 * 3 + 0 = 0 ∧ ¬ Contains x1 3 ∧ ¬ Contains x2 3 := by
  obtain ⟨h1, h2⟩ := of_holds (a := .ofFloat (.lit 1)) (x := 1) (by decide +kernel)
  obtain ⟨h3, h4⟩ := of_holds (a := ⟨.lit (-3), .lit (-2)⟩) (x := -3) (by decide +kernel)
  obtain ⟨h5, h6⟩ := of_holds (a := .ofFloat (.lit 0)) (x := 0) (by decide +kernel)
  have hs : (Approx.solveQuadratic (.ofFloat (.lit 1)) ⟨.lit (-3), .lit (-2)⟩ (.ofFloat (.lit 0))).isSome = true ∧
      ∀ p ∈ Approx.solveQuadratic (.ofFloat (.lit 1)) ⟨.lit (-3), .lit (-2)⟩ (.ofFloat (.lit 0)),
        ((p.1.low.isFinite && p.1.high.isFinite) = true ∧ holds p.1 3 = false) ∧
        (p.2.low.isFinite && p.2.high.isFinite) = true ∧ holds p.2 3 = false := by decide +kernel
  obtain ⟨p, hp⟩ := Option.isSome_iff_exists.1 hs.1
  obtain ⟨⟨a1, a2⟩, b1, b2⟩ := hs.2 p hp
  refine ⟨_, _, _, p.1, p.2, h1, h3, h5, by exact_mod_cast h2, by exact_mod_cast h4, by exact_mod_cast h6, hp, by norm_num, ?_, ?_⟩
  · exact_mod_cast of_not_holds a1 a2
  · exact_mod_cast of_not_holds b1 b2

/-! ### The hypotheses can be met -/

example : Finite ⟨.lit (1 / 10), .lit 5⟩ ∧ Contains ⟨.lit (1 / 10), .lit 5⟩ ((1 / 2 : ℚ) : ℝ) ∧ 0 ≤ (F64.lit (1 / 10)).val ∧
    (0 < (F64.lit (1 / 10)).val ∨ (F64.lit 5).val < 0) :=
  ⟨(of_holds (x := 1 / 2) (by decide +kernel)).1, (of_holds (x := 1 / 2) (by decide +kernel)).2, by decide +kernel, by decide +kernel⟩

-- the product of intervals of both signs
example : Contains (Approx.mul ⟨.lit (-1), .lit 2⟩ ⟨.lit (-3), .lit 4⟩) ((-1 : ℚ) * (4 : ℚ) : ℝ) :=
  C69_mul _ _ (of_holds (x := -1) (by decide +kernel)).1 (of_holds (x := 4) (by decide +kernel)).1 _ _
    (of_holds (x := -1) (by decide +kernel)).2 (of_holds (x := 4) (by decide +kernel)).2

example : (F64.lit (1 / 10)).isFinite = true ∧ F64.lit (1 / 10) ≠ zero true ∧ F64.lit (1 / 10) ≠ zero false := by decide +kernel

example : ∀ u ∈ [(F64.lit (1 / 10)).val, (F64.lit 5).val], ∀ v ∈ [(F64.lit 0).val, (F64.lit 7).val], u * v = 0 ∨ 1 / 2 ^ 1074 ≤ |u * v| := by
  decide +kernel

end Simple.Geometry
