import Mathlib.Data.EReal.Basic
import Mathlib.Data.Real.Sqrt
import Mathlib.Tactic.Linarith
import Mathlib.Tactic.Positivity
import Mathlib.Tactic.FieldSimp
import Mathlib.Tactic.Ring
import Mathlib.Tactic.NormNum
import Mathlib.Tactic.IntervalCases
import Verif.Float.F64Model

/-! Properties of the model of `f64`: what is rounded is a nearest number, and what is between it and its neighbours. -/

namespace Simple.F64

namespace Spec

/-- The extended real number that an `f64` other than NaN stands for. -/
noncomputable def ext (f : F64) : EReal := if f.isInf then (if f.neg then ⊥ else ⊤) else ((f.val : ℝ) : EReal)

/-- An `f64`, not NaN, which is at most `x`. -/
def Below (f : F64) (x : ℝ) : Prop := f.isNan = false ∧ ext f ≤ (x : EReal)

/-- An `f64`, not NaN, which is at least `x`. -/
def Above (f : F64) (x : ℝ) : Prop := f.isNan = false ∧ (x : EReal) ≤ ext f

end Spec

open Spec

/-! ### The numbers are in the order of their bits -/

private theorem scaled_aux (P m : ℕ) (hP : 1 < P) :
    (if m / P = 0 then m % P else (P + m % P) * 2 ^ (m / P - 1)) <
      if (m + 1) / P = 0 then (m + 1) % P else (P + (m + 1) % P) * 2 ^ ((m + 1) / P - 1) := by
  obtain ⟨e, f, hf, rfl⟩ : ∃ e f, f < P ∧ m = e * P + f :=
    ⟨m / P, m % P, Nat.mod_lt _ (by omega), (Nat.div_add_mod' m _).symm⟩
  have hd : ∀ e f, f < P → (e * P + f) / P = e ∧ (e * P + f) % P = f := fun e f h =>
    ⟨by rw [mul_comm, Nat.mul_add_div (by omega), Nat.div_eq_of_lt h, add_zero], by
      rw [mul_comm, Nat.mul_add_mod, Nat.mod_eq_of_lt h]⟩
  obtain ⟨d1, r1⟩ := hd e f hf
  rw [d1, r1]
  by_cases h : f + 1 = P
  · obtain ⟨d2, r2⟩ := hd (e + 1) 0 (by omega)
    rw [show e * P + f + 1 = (e + 1) * P + 0 by rw [add_mul]; omega, d2, r2, if_neg (Nat.succ_ne_zero e)]
    cases e with
    | zero => rw [if_pos rfl]; simp; omega
    | succ k =>
      rw [if_neg (Nat.succ_ne_zero k), show k + 1 + 1 - 1 = k + 1 from rfl, show k + 1 - 1 = k from rfl, pow_succ]
      have hp : 0 < 2 ^ k := by positivity
      nlinarith
  · obtain ⟨d2, r2⟩ := hd e (f + 1) (by omega)
    rw [add_assoc, d2, r2]
    split_ifs with h0
    · omega
    · have hp : 0 < 2 ^ (e - 1) := by positivity
      nlinarith

theorem scaled_lt_succ (m : ℕ) : scaled m < scaled (m + 1) := scaled_aux (2 ^ 52) m (by norm_num)

theorem scaled_strictMono : StrictMono scaled := strictMono_nat_of_lt_succ scaled_lt_succ

private theorem two_pow_pos : (0 : ℚ) < 2 ^ 1074 := pow_pos (by norm_num) _

theorem mval_strictMono : StrictMono mval := fun a b h => by
  unfold mval
  exact (div_lt_div_iff_of_pos_right two_pow_pos).2 (by exact_mod_cast scaled_strictMono h)

theorem mval_zero : mval 0 = 0 := by simp [mval, scaled]

theorem mval_nonneg (m : ℕ) : 0 ≤ mval m := by
  rw [← mval_zero]; exact mval_strictMono.monotone (Nat.zero_le m)

/-! ### Rounding -/

theorem largest_spec (p : ℕ → Bool) (hp : ∀ i j, i ≤ j → p j = true → p i = true) :
    ∀ k m, p m = true → p (m + 2 ^ k) = false →
      p (largest p k m) = true ∧ p (largest p k m + 1) = false
  | 0, m, h, h' => ⟨h, by unfold largest; simpa using h'⟩
  | k + 1, m, h, h' => by
    unfold largest
    split_ifs with hm
    · exact largest_spec p hp k _ hm (by rw [add_assoc, ← two_mul, ← pow_succ']; exact h')
    · exact largest_spec p hp k m h (by simpa using hm)

/-- What holds of the bits of the number nearest to `x`. -/
structure Near (m : ℕ) (x : ℝ) : Prop where
  le_inf : m ≤ infMag
  lower : 1 ≤ m → (mval (m - 1) : ℝ) ≤ x
  upper : m < infMag → x ≤ (mval (m + 1) : ℝ)
  nearest : m < infMag → ∀ k < infMag, |(mval m : ℝ) - x| ≤ |(mval k : ℝ) - x|
  exact' : ∀ k < infMag, (mval k : ℝ) = x → m = k

theorem nearest_near (cmp : ℚ → Ordering) (x : ℝ) (hx : 0 ≤ x) (h1 : ∀ v : ℚ, 0 ≤ v → (cmp v = .gt ↔ x < v))
    (h2 : ∀ v : ℚ, 0 ≤ v → (cmp v = .lt ↔ (v : ℝ) < x)) : Near (nearest cmp) x := by
  have hmono : ∀ i j, i ≤ j → ((mval i : ℚ) : ℝ) ≤ mval j := fun i j h => by
    exact_mod_cast mval_strictMono.monotone h
  have hmonos : ∀ i j, i < j → ((mval i : ℚ) : ℝ) < mval j := fun i j h => by
    exact_mod_cast mval_strictMono h
  have hp : ∀ i, (decide (i < infMag) && cmp (mval i) != .gt) = true ↔ i < infMag ∧ ((mval i : ℚ) : ℝ) ≤ x := by
    intro i
    rw [Bool.and_eq_true, decide_eq_true_eq, bne_iff_ne, Ne, h1 _ (mval_nonneg i), not_lt]
  obtain ⟨a, b⟩ := largest_spec (fun m => decide (m < infMag) && cmp (mval m) != .gt)
    (fun i j hij hj => by
      rw [hp] at hj ⊢
      exact ⟨by omega, (hmono i j hij).trans hj.2⟩) 63 0
    (by rw [hp]; exact ⟨by unfold infMag; norm_num, by rw [mval_zero]; exact_mod_cast hx⟩)
    (by
      rw [Bool.eq_false_iff, Ne, hp]
      rintro ⟨h, -⟩
      unfold infMag at h
      norm_num at h)
  unfold nearest
  generalize largest (fun m => decide (m < infMag) && cmp (mval m) != .gt) 63 0 = m at a b ⊢
  rw [hp] at a
  rw [Bool.eq_false_iff, Ne, hp] at b
  obtain ⟨a1, a2⟩ := a
  have b' : m + 1 < infMag → x < mval (m + 1) := fun h => not_le.1 fun h' => b ⟨h, h'⟩
  have hmid : (0 : ℚ) ≤ (mval m + mval (m + 1)) / 2 := by
    have := mval_nonneg m
    have := mval_nonneg (m + 1)
    positivity
  have hm1 := hmonos m (m + 1) (by omega)
  -- rounding down
  have down : x ≤ (mval m + mval (m + 1)) / 2 → Near m x := by
    intro h
    have hlt : x < mval (m + 1) := by linarith
    refine ⟨a1.le, fun _ => (hmono _ _ (Nat.sub_le _ _)).trans a2, fun _ => hlt.le, fun _ k hk => ?_, fun k hk hkx => ?_⟩
    · rcases Nat.lt_or_ge m k with hkm | hkm
      · have := hmono (m + 1) k hkm
        rw [abs_of_nonpos (by linarith), abs_of_nonneg (by linarith)]
        linarith
      · have := hmono k m hkm
        rw [abs_of_nonpos (by linarith), abs_of_nonpos (by linarith)]
        linarith
    · rcases Nat.lt_trichotomy m k with hkm | hkm | hkm
      · have := hmono (m + 1) k hkm
        linarith
      · exact hkm
      · have := hmonos k m hkm
        linarith
  -- rounding up
  have up : ((mval m : ℚ) + (mval (m + 1) : ℚ) : ℝ) / 2 ≤ x → Near (m + 1) x := by
    intro h
    refine ⟨a1, fun _ => a2, fun h' => (b' h').le.trans (hmono _ _ (by omega)), fun h' k hk => ?_, fun k hk hkx => ?_⟩
    · have := b' h'
      rcases Nat.lt_or_ge m k with hkm | hkm
      · have := hmono (m + 1) k hkm
        rw [abs_of_nonneg (by linarith), abs_of_nonneg (by linarith)]
        linarith
      · have := hmono k m hkm
        rw [abs_of_nonneg (by linarith), abs_of_nonpos (by linarith)]
        linarith
    · rcases Nat.lt_trichotomy (m + 1) k with hkm | hkm | hkm
      · have := hmonos (m + 1) k hkm
        have := b' (by omega)
        linarith
      · exact hkm
      · have := hmono k m (by omega)
        linarith
  have c1 := h1 _ hmid
  have c2 := h2 _ hmid
  push_cast at c1 c2
  dsimp only
  split
  · next h => exact down (c1.1 h).le
  · next h => exact up (c2.1 h).le
  · next h =>
    have e1 : ¬ x < ((mval m : ℚ) + (mval (m + 1) : ℚ) : ℝ) / 2 := fun h' => by rw [c1.2 h'] at h; cases h
    have e2 : ¬ ((mval m : ℚ) + (mval (m + 1) : ℚ) : ℝ) / 2 < x := fun h' => by rw [c2.2 h'] at h; cases h
    split_ifs
    · exact down (not_lt.1 e2)
    · exact up (not_lt.1 e1)

/-- An `f64` which is the result of rounding `x`. -/
inductive Rounds (f : F64) (x : ℝ) : Prop
  | zero (h : x = 0) (hm : f.mag = 0)
  | pos (h : 0 < x) (hn : f.neg = false) (hm : Near f.mag x)
  | neg (h : x < 0) (hn : f.neg = true) (hm : Near f.mag (-x))

theorem round_rounds (s : Bool) (x : ℚ) : Rounds (round s x) x := by
  have key : Near (F64.nearest fun v => compare v |x|) (|x| : ℚ) := by
    apply nearest_near
    · exact_mod_cast abs_nonneg x
    · intro v _
      rw [compare_gt_iff_gt]
      exact_mod_cast Iff.rfl
    · intro v _
      rw [compare_lt_iff_lt]
      exact_mod_cast Iff.rfl
  unfold round
  split_ifs with h
  · exact .zero (by exact_mod_cast h) rfl
  · rcases lt_or_gt_of_ne h with h' | h'
    · refine .neg (by exact_mod_cast h') (by simpa using h') ?_
      rw [abs_of_neg h'] at key ⊢
      exact_mod_cast key
    · refine .pos (by exact_mod_cast h') (by simpa using h'.le) ?_
      rw [abs_of_pos h'] at key ⊢
      exact_mod_cast key

theorem not_nan_of_finite {f : F64} (h : f.isFinite = true) : f.isNan = false := by
  unfold isFinite isNan at *
  simp only [decide_eq_true_eq, decide_eq_false_iff_not] at *
  omega

theorem not_inf_of_finite {f : F64} (h : f.isFinite = true) : f.isInf = false := by
  unfold isFinite isInf at *
  simp only [decide_eq_true_eq, decide_eq_false_iff_not] at *
  omega

theorem minus_finite {f : F64} (h : f.isFinite = true) : f.minus.isFinite = true := h

theorem val_minus (f : F64) : f.minus.val = -f.val := by
  unfold minus val
  cases f.neg <;> simp

theorem add_rounds {a b : F64} (ha : a.isFinite = true) (hb : b.isFinite = true) : Rounds (a.add b) (a.val + b.val) := by
  unfold add
  rw [not_nan_of_finite ha, not_nan_of_finite hb, not_inf_of_finite ha, not_inf_of_finite hb]
  have := round_rounds (a.neg && b.neg) (a.val + b.val)
  push_cast at this
  simpa using this

theorem sub_rounds {a b : F64} (ha : a.isFinite = true) (hb : b.isFinite = true) : Rounds (a.sub b) (a.val - b.val) := by
  have := add_rounds ha (minus_finite hb)
  rw [val_minus] at this
  push_cast at this
  rwa [sub_eq_add_neg]

theorem mul_rounds {a b : F64} (ha : a.isFinite = true) (hb : b.isFinite = true) : Rounds (a.mul b) (a.val * b.val) := by
  unfold mul
  rw [not_nan_of_finite ha, not_nan_of_finite hb, not_inf_of_finite ha, not_inf_of_finite hb]
  have := round_rounds (a.neg != b.neg) (a.val * b.val)
  push_cast at this
  simpa using this

theorem mag_zero_iff (f : F64) : f.val = 0 ↔ f.mag = 0 := by
  unfold val
  have : mval f.mag = 0 ↔ f.mag = 0 := by
    rw [← mval_zero]; exact mval_strictMono.injective.eq_iff
  split_ifs
  · rw [neg_eq_zero, this]
  · exact this

theorem div_rounds {a b : F64} (ha : a.isFinite = true) (hb : b.isFinite = true) (h0 : b.val ≠ 0) :
    Rounds (a.div b) (a.val / b.val) := by
  unfold div
  rw [not_nan_of_finite ha, not_nan_of_finite hb, not_inf_of_finite ha, not_inf_of_finite hb]
  have := round_rounds (a.neg != b.neg) (a.val / b.val)
  push_cast at this
  have h0' : b.mag ≠ 0 := fun h => h0 ((mag_zero_iff b).2 h)
  simpa [h0'] using this

theorem sqrt_rounds {a : F64} (ha : a.isFinite = true) (h0 : 0 ≤ a.val) : Rounds a.sqrt (Real.sqrt a.val) := by
  unfold sqrt
  rw [not_nan_of_finite ha, not_inf_of_finite ha]
  by_cases hz : a.mag = 0
  · simp only [Bool.false_eq_true, if_false, hz, if_true]
    have : a.val = 0 := (mag_zero_iff a).2 hz
    exact .zero (by rw [this]; simp) hz
  · have hv : a.val ≠ 0 := fun h => hz ((mag_zero_iff a).1 h)
    have hpos : 0 < a.val := lt_of_le_of_ne h0 (Ne.symm hv)
    have hn : a.neg = false := by
      by_contra h
      unfold val at hpos
      rw [Bool.not_eq_false] at h
      rw [h, if_pos rfl] at hpos
      have := mval_nonneg a.mag
      linarith
    have hposR : (0 : ℝ) < a.val := by exact_mod_cast hpos
    rw [if_neg (by simp), if_neg hz, hn, if_neg (by simp), if_neg (by simp)]
    refine .pos (Real.sqrt_pos.2 hposR) rfl ?_
    refine nearest_near (fun v => compare (v * v) a.val) (Real.sqrt a.val) (Real.sqrt_nonneg _) (fun v hv => ?_) fun v hv => ?_
    · rw [compare_gt_iff_gt, ← not_le, ← not_le, Real.le_sqrt (by exact_mod_cast hv) hposR.le, pow_two]
      exact_mod_cast Iff.rfl
    · rw [compare_lt_iff_lt, Real.lt_sqrt (by exact_mod_cast hv), pow_two]
      exact_mod_cast Iff.rfl

/-! ### Comparisons -/

theorem finite_or_inf {f : F64} (h : f.isNan = false) : f.isFinite = true ∨ f.isInf = true := by
  unfold isFinite isInf isNan at *
  simp only [decide_eq_true_eq, decide_eq_false_iff_not] at *
  omega

theorem below_iff (f : F64) (x : ℝ) :
    Below f x ↔ (f.isInf = true ∧ f.neg = true) ∨ (f.isFinite = true ∧ (f.val : ℝ) ≤ x) := by
  unfold Below ext
  constructor
  · rintro ⟨h, h'⟩
    rcases finite_or_inf h with hf | hf
    · rw [not_inf_of_finite hf, if_neg (by simp)] at h'
      exact .inr ⟨hf, by exact_mod_cast h'⟩
    · rw [hf, if_pos rfl] at h'
      cases hn : f.neg with
      | true => exact .inl ⟨hf, rfl⟩
      | false =>
        rw [hn, if_neg (by simp), top_le_iff] at h'
        exact absurd h' (EReal.coe_ne_top x)
  · rintro (⟨h, h'⟩ | ⟨h, h'⟩)
    · rw [h, if_pos rfl, h', if_pos rfl]
      refine ⟨?_, bot_le⟩
      unfold isInf isNan at *
      simp only [decide_eq_true_eq, decide_eq_false_iff_not] at *
      omega
    · rw [not_inf_of_finite h, if_neg (by simp)]
      exact ⟨not_nan_of_finite h, by exact_mod_cast h'⟩

theorem above_iff (f : F64) (x : ℝ) :
    Above f x ↔ (f.isInf = true ∧ f.neg = false) ∨ (f.isFinite = true ∧ x ≤ (f.val : ℝ)) := by
  unfold Above ext
  constructor
  · rintro ⟨h, h'⟩
    rcases finite_or_inf h with hf | hf
    · rw [not_inf_of_finite hf, if_neg (by simp)] at h'
      exact .inr ⟨hf, by exact_mod_cast h'⟩
    · rw [hf, if_pos rfl] at h'
      cases hn : f.neg with
      | false => exact .inl ⟨hf, rfl⟩
      | true =>
        rw [hn, if_pos rfl, le_bot_iff] at h'
        exact absurd h' (EReal.coe_ne_bot x)
  · rintro (⟨h, h'⟩ | ⟨h, h'⟩)
    · rw [h, if_pos rfl, h', if_neg (by simp)]
      refine ⟨?_, le_top⟩
      unfold isInf isNan at *
      simp only [decide_eq_true_eq, decide_eq_false_iff_not] at *
      omega
    · rw [not_inf_of_finite h, if_neg (by simp)]
      exact ⟨not_nan_of_finite h, by exact_mod_cast h'⟩

/-- `<` is the order of the extended real numbers. -/
theorem lt_iff {a b : F64} (ha : a.isNan = false) (hb : b.isNan = false) : a.lt b = true ↔ ext a < ext b := by
  unfold lt ext
  rw [ha, hb]
  rcases finite_or_inf ha with ha' | ha' <;> rcases finite_or_inf hb with hb' | hb'
  · rw [not_inf_of_finite ha', not_inf_of_finite hb']
    simp only [Bool.or_self, Bool.false_eq_true, if_false, decide_eq_true_eq, EReal.coe_lt_coe_iff]
    exact_mod_cast Iff.rfl
  · rw [not_inf_of_finite ha', hb']
    cases b.neg <;> simp [EReal.coe_lt_top]
  · rw [not_inf_of_finite hb', ha']
    cases a.neg <;> simp [EReal.bot_lt_coe]
  · rw [ha', hb']
    cases a.neg <;> cases b.neg <;> simp

theorem not_lt_iff {a b : F64} (ha : a.isNan = false) (hb : b.isNan = false) : a.lt b = false ↔ ext b ≤ ext a := by
  rw [← not_lt, ← lt_iff ha hb, Bool.not_eq_true]

theorem ext_le_iff {a b : F64} (ha : a.isFinite = true) (hb : b.isFinite = true) : ext a ≤ ext b ↔ a.val ≤ b.val := by
  unfold ext
  rw [not_inf_of_finite ha, not_inf_of_finite hb]
  simp only [Bool.false_eq_true, if_false, EReal.coe_le_coe_iff]
  exact_mod_cast Iff.rfl

theorem Rounds.not_nan {f : F64} {x : ℝ} (h : Rounds f x) : f.isNan = false := by
  unfold isNan
  rw [decide_eq_false_iff_not, not_lt]
  cases h with
  | zero _ hm => rw [hm]; exact Nat.zero_le _
  | pos _ _ hm => exact hm.le_inf
  | neg _ _ hm => exact hm.le_inf

/-- A result that is finite is a nearest number. -/
theorem Rounds.nearest {f : F64} {x : ℝ} (h : Rounds f x) (hf : f.isFinite = true) (g : F64) (hg : g.isFinite = true) :
    |(f.val : ℝ) - x| ≤ |(g.val : ℝ) - x| := by
  have hf' : f.mag < infMag := by simpa [isFinite] using hf
  have hg' : g.mag < infMag := by simpa [isFinite] using hg
  have hgp : (0 : ℝ) ≤ mval g.mag := by exact_mod_cast mval_nonneg g.mag
  cases h with
  | zero h hm =>
    rw [(mag_zero_iff f).2 hm, h]
    simp
  | pos h hn hm =>
    have := hm.nearest hf' _ hg'
    unfold val
    rw [hn, if_neg (by simp)]
    refine this.trans ?_
    split_ifs with hs
    · push_cast
      rw [show -(mval g.mag : ℝ) - x = -(mval g.mag + x) by ring, abs_neg, abs_of_pos (show (0 : ℝ) < mval g.mag + x by linarith), abs_le]
      constructor <;> linarith
    · exact le_rfl
  | neg h hn hm =>
    have := hm.nearest hf' _ hg'
    unfold val
    rw [hn, if_pos rfl]
    push_cast
    rw [show -(mval f.mag : ℝ) - x = -(mval f.mag - -x) by ring, abs_neg]
    refine this.trans ?_
    split_ifs with hs
    · push_cast
      rw [show -(mval g.mag : ℝ) - x = -(mval g.mag - -x) by ring, abs_neg]
    · rw [abs_of_pos (show (0 : ℝ) < mval g.mag - x by linarith), abs_le]
      constructor <;> linarith

/-- A number that there is is the result of rounding itself. -/
theorem Rounds.exact {f : F64} {x : ℝ} (h : Rounds f x) (g : F64) (hg : g.isFinite = true) (hx : (g.val : ℝ) = x) :
    f.isFinite = true ∧ (f.val : ℝ) = x := by
  have hg' : g.mag < infMag := by simpa [isFinite] using hg
  have hgp : (0 : ℝ) ≤ mval g.mag := by exact_mod_cast mval_nonneg g.mag
  unfold isFinite
  rw [decide_eq_true_eq]
  cases h with
  | zero h hm =>
    rw [(mag_zero_iff f).2 hm, hm, h]
    exact ⟨by unfold infMag; norm_num, by simp⟩
  | pos h hn hm =>
    have hs : g.neg = false := by
      by_contra hs
      rw [Bool.not_eq_false] at hs
      unfold val at hx
      rw [hs, if_pos rfl] at hx
      push_cast at hx
      linarith
    unfold val at hx
    rw [hs, if_neg (by simp)] at hx
    have := hm.exact' _ hg' hx
    rw [this]
    refine ⟨hg', ?_⟩
    unfold val
    rw [hn, if_neg (by simp), this, hx]
  | neg h hn hm =>
    have hs : g.neg = true := by
      by_contra hs
      rw [Bool.not_eq_true] at hs
      unfold val at hx
      rw [hs, if_neg (by simp)] at hx
      linarith
    unfold val at hx
    rw [hs, if_pos rfl] at hx
    push_cast at hx
    have := hm.exact' _ hg' (by linarith)
    rw [this]
    refine ⟨hg', ?_⟩
    unfold val
    rw [hn, if_pos rfl, this]
    push_cast
    exact hx

-- the same bits as those of other implementations
example : (lit (1 / 10)).toBits = 4591870180066957722 ∧ (lit 2).sqrt.toBits = 4609047870845172685 ∧
    ((lit (1 / 10)).mul (lit 3)).toBits = 4599075939470750516 ∧
    (((lit (1 / 10)).div (lit (10 ^ 300))).div (lit (10 ^ 18))).toBits = 20240 := by decide +kernel

end Simple.F64
