import Mathlib.Analysis.SpecialFunctions.Trigonometric.Bounds
import Mathlib.Analysis.Real.Pi.Bounds
import Mathlib.Tactic.Linarith
import Mathlib.Tactic.NormNum
import Verif.Building.OrientationModel

/-! C21: the orientation of a normal. -/

namespace Simple.Building

open Real

/-- The opposite compass direction. -/
def Orientation.opposite : Orientation → Orientation
  | .north => .south
  | .south => .north
  | .east => .west
  | .west => .east
  | .northEast => .southWest
  | .southWest => .northEast
  | .northWest => .southEast
  | .southEast => .northWest
  | .horizontal => .horizontal

theorem compass_no_panic (x y : ℝ) : ∃ o, compass x y = .ok o := by
  unfold compass
  simp only
  by_cases h1 : y > cos225
  · exact ⟨_, if_pos h1⟩
  rw [if_neg h1]
  split_ifs with h2 h3 h4 h5 h6 h7 h8
  all_goals first | exact ⟨_, rfl⟩ | (exfalso; tauto)

/-- The literal of the code is `cos (π/8)` to fifteen digits. -/
theorem cos225_close : |cos225 - Real.cos (π / 8)| < 1e-15 := by
  rw [Real.cos_pi_div_eight]
  unfold cos225
  have h2 : √2 = √2 := rfl
  have a1 : (1.41421356237309504 : ℝ) < √2 := by
    apply Real.lt_sqrt_of_sq_lt; norm_num
  have a2 : √2 < (1.41421356237309505 : ℝ) := by
    rw [Real.sqrt_lt' (by norm_num)]; norm_num
  have b1 : (1.8477590650225735 : ℝ) < √(2 + √2) := by
    apply Real.lt_sqrt_of_sq_lt
    have : (1.8477590650225735 : ℝ) ^ 2 < 2 + 1.41421356237309504 := by norm_num
    linarith
  have b2 : √(2 + √2) < (1.8477590650225736 : ℝ) := by
    rw [Real.sqrt_lt' (by norm_num)]
    have : (2 : ℝ) + 1.41421356237309505 < 1.8477590650225736 ^ 2 := by norm_num
    linarith
  rw [abs_lt]
  constructor <;> norm_num at * <;> linarith

/-- The tolerance of the borders between sectors, in radians. -/
noncomputable def Spec.tol : ℝ := 1e-10

/-- `cos` decreases by more than 1e-15 over the tolerance around π/8. -/
theorem cos_gap (a : ℝ) (ha : π / 16 ≤ a) (ha' : a ≤ π / 4) :
    Real.cos (a + Spec.tol) + 1e-15 < Real.cos a := by
  have hp3 := Real.pi_gt_three
  have hp4 := Real.pi_lt_four
  have htol : Spec.tol = 1e-10 := rfl
  have e := Real.cos_sub_cos a (a + Spec.tol)
  rw [show (a + (a + Spec.tol)) / 2 = a + Spec.tol / 2 by ring,
    show (a - (a + Spec.tol)) / 2 = -(Spec.tol / 2) by ring, Real.sin_neg] at e
  have h1 : 2 / π * (a + Spec.tol / 2) ≤ Real.sin (a + Spec.tol / 2) :=
    Real.mul_le_sin (by rw [htol]; linarith) (by rw [htol]; norm_num; linarith)
  have h2 : 2 / π * (Spec.tol / 2) ≤ Real.sin (Spec.tol / 2) :=
    Real.mul_le_sin (by rw [htol]; norm_num) (by rw [htol]; norm_num; linarith)
  have h3 : (1 / 8 : ℝ) ≤ 2 / π * (a + Spec.tol / 2) := by
    rw [div_mul_eq_mul_div, le_div_iff₀ (by linarith), htol]
    norm_num
    linarith
  have h4 : (1e-11 : ℝ) ≤ 2 / π * (Spec.tol / 2) := by
    rw [div_mul_eq_mul_div, le_div_iff₀ (by linarith), htol]
    norm_num
    linarith
  have h5 : (1 / 8 : ℝ) * 1e-11 ≤ Real.sin (a + Spec.tol / 2) * Real.sin (Spec.tol / 2) :=
    mul_le_mul (h3.trans h1) (h4.trans h2) (by norm_num) (by linarith)
  have h6 : (1e-15 : ℝ) < 2 * (1 / 8 * 1e-11) := by norm_num
  have h7 : Real.cos a - Real.cos (a + Spec.tol) = 2 * (Real.sin (a + Spec.tol / 2) * Real.sin (Spec.tol / 2)) := by
    rw [e]; ring
  linarith

/-- Angles within 22.5° of zero (up to the tolerance) have a large cosine. -/
theorem cos_large {u : ℝ} (h : |u| ≤ π / 8 - Spec.tol) : cos225 < Real.cos u := by
  have hp3 := Real.pi_gt_three
  have htol : Spec.tol = 1e-10 := rfl
  have hpos : (0 : ℝ) < Spec.tol := by rw [htol]; norm_num
  have h16 : Spec.tol ≤ π / 16 := by rw [htol]; norm_num; linarith
  have g := cos_gap (π / 8 - Spec.tol) (by linarith) (by linarith)
  rw [sub_add_cancel] at g
  have hc := (abs_lt.1 cos225_close).2
  have hm : Real.cos (π / 8 - Spec.tol) ≤ Real.cos |u| :=
    Real.cos_le_cos_of_nonneg_of_le_pi (abs_nonneg u) (by linarith) h
  rw [Real.cos_abs] at hm
  linarith

/-- Angles at more than 22.5° from zero (up to the tolerance) do not. -/
theorem cos_small {u : ℝ} (h : π / 8 + Spec.tol ≤ |u|) (h' : |u| ≤ π) : Real.cos u < cos225 := by
  have hp3 := Real.pi_gt_three
  have htol : Spec.tol = 1e-10 := rfl
  have hpos : (0 : ℝ) < Spec.tol := by rw [htol]; norm_num
  have g := cos_gap (π / 8) (by linarith) (by linarith)
  have hc := (abs_lt.1 cos225_close).1
  have hm : Real.cos |u| ≤ Real.cos (π / 8 + Spec.tol) :=
    Real.cos_le_cos_of_nonneg_of_le_pi (by linarith) h' h
  rw [Real.cos_abs] at hm
  linarith

theorem cos225_pos : 0 < cos225 := by unfold cos225; norm_num

section
variable {x y : ℝ}

theorem compass_north (h : cos225 < y) : compass x y = .ok .north := by
  unfold compass; simp only; rw [if_pos h]

theorem compass_south (h : y < -cos225) : compass x y = .ok .south := by
  have cp := cos225_pos
  unfold compass; simp only
  rw [if_neg (by linarith), if_neg (fun h => absurd h.1 (by linarith)),
    if_neg (fun h => absurd h.1 (by linarith)), if_pos h]

theorem compass_east (h : cos225 < x) (h1 : y ≤ cos225) (h2 : -cos225 ≤ y) : compass x y = .ok .east := by
  have cp := cos225_pos
  unfold compass; simp only
  rw [if_neg (by linarith), if_neg (fun h' => h'.2.2.2 h), if_neg (fun h => h.2.1 (by linarith)),
      if_neg (by linarith), if_neg (fun h' => h'.2.2.2 h), if_neg (fun h => h.2.1 (by linarith)),
      if_neg (by linarith), if_pos h]

theorem compass_west (h : x < -cos225) (h1 : y ≤ cos225) (h2 : -cos225 ≤ y) : compass x y = .ok .west := by
  have cp := cos225_pos
  unfold compass; simp only
  rw [if_neg (by linarith), if_neg (fun h => absurd h.2.1 (by linarith)),
      if_neg (fun h' => h'.2.2.2 h), if_neg (by linarith), if_neg (fun h => absurd h.2.1 (by linarith)),
      if_neg (fun h' => h'.2.2.2 h), if_pos h]

theorem compass_northEast (h1 : 0 < x) (h2 : x ≤ cos225) (h3 : 0 < y) (h4 : y ≤ cos225) :
    compass x y = .ok .northEast := by
  unfold compass; simp only
  rw [if_neg (by linarith), if_pos ⟨h3, h1, by linarith, by linarith⟩]

theorem compass_northWest (h1 : x < 0) (h2 : -cos225 ≤ x) (h3 : 0 < y) (h4 : y ≤ cos225) :
    compass x y = .ok .northWest := by
  unfold compass; simp only
  rw [if_neg (by linarith), if_neg (fun h => absurd h.2.1 (by linarith)),
    if_pos ⟨h3, by linarith, by linarith, by linarith⟩]

theorem compass_southEast (h1 : 0 < x) (h2 : x ≤ cos225) (h3 : y < 0) (h4 : -cos225 ≤ y) :
    compass x y = .ok .southEast := by
  have cp := cos225_pos
  unfold compass; simp only
  rw [if_neg (by linarith), if_neg (fun h => absurd h.1 (by linarith)),
    if_neg (fun h => absurd h.1 (by linarith)), if_neg (by linarith),
    if_pos ⟨by linarith, h1, by linarith, by linarith⟩]

theorem compass_southWest (h1 : x < 0) (h2 : -cos225 ≤ x) (h3 : y < 0) (h4 : -cos225 ≤ y) :
    compass x y = .ok .southWest := by
  have cp := cos225_pos
  unfold compass; simp only
  rw [if_neg (by linarith), if_neg (fun h => absurd h.1 (by linarith)),
    if_neg (fun h => absurd h.1 (by linarith)), if_neg (by linarith),
    if_neg (fun h => absurd h.2.1 (by linarith)), if_pos ⟨by linarith, by linarith, by linarith, by linarith⟩]

end

/-- The azimuth (clockwise from north, in radians) of the centre of each compass sector. -/
noncomputable def Spec.azimuth : Orientation → ℝ
  | .north => 0
  | .northEast => π / 4
  | .east => π / 2
  | .southEast => 3 * π / 4
  | .south => π
  | .southWest => -(3 * π / 4)
  | .west => -(π / 2)
  | .northWest => -(π / 4)
  | .horizontal => 0

theorem compass_sector (o : Orientation) (ho : o ≠ .horizontal) (t : ℝ) (ht : |t| ≤ π / 8 - Spec.tol) :
    compass (Real.sin (Spec.azimuth o + t)) (Real.cos (Spec.azimuth o + t)) = .ok o := by
  have hp3 := Real.pi_gt_three
  have htol : Spec.tol = 1e-10 := rfl
  have hpos : (0 : ℝ) < Spec.tol := by rw [htol]; norm_num
  have h16 : Spec.tol ≤ π / 16 := by rw [htol]; norm_num; linarith
  obtain ⟨t1, t2⟩ := abs_le.1 ht
  have cp := cos225_pos
  -- the facts about the diagonal sectors
  have d1 : Real.cos (π / 4 + t) < cos225 := by
    apply cos_small
    · rw [abs_of_nonneg (by linarith)]; linarith
    · rw [abs_of_nonneg (by linarith)]; linarith
  have d2 : Real.cos (π / 4 - t) < cos225 := by
    apply cos_small
    · rw [abs_of_nonneg (by linarith)]; linarith
    · rw [abs_of_nonneg (by linarith)]; linarith
  have d3 : 0 < Real.cos (π / 4 + t) := Real.cos_pos_of_mem_Ioo ⟨by linarith, by linarith⟩
  have d4 : 0 < Real.cos (π / 4 - t) := Real.cos_pos_of_mem_Ioo ⟨by linarith, by linarith⟩
  have c0 : cos225 < Real.cos t := cos_large ht
  -- the other coordinate of the main sectors
  have s1 : Real.sin t < cos225 := by
    rw [← Real.cos_pi_div_two_sub]
    apply cos_small
    · rw [abs_of_nonneg (by linarith)]; linarith
    · rw [abs_of_nonneg (by linarith)]; linarith
  have s2 : -cos225 < Real.sin t := by
    have : Real.cos (π / 2 + t) < cos225 := by
      apply cos_small
      · rw [abs_of_nonneg (by linarith)]; linarith
      · rw [abs_of_nonneg (by linarith)]; linarith
    rw [add_comm, Real.cos_add_pi_div_two] at this
    linarith
  cases o with
  | horizontal => exact absurd rfl ho
  | north =>
    simp only [Spec.azimuth, zero_add]
    exact compass_north c0
  | northEast =>
    simp only [Spec.azimuth]
    have e : Real.sin (π / 4 + t) = Real.cos (π / 4 - t) := by
      rw [← Real.cos_pi_div_two_sub]; congr 1; ring
    rw [e]
    exact compass_northEast d4 (by linarith) d3 (by linarith)
  | east =>
    simp only [Spec.azimuth]
    have e1 : Real.sin (π / 2 + t) = Real.cos t := by rw [add_comm, Real.sin_add_pi_div_two]
    have e2 : Real.cos (π / 2 + t) = -Real.sin t := by rw [add_comm, Real.cos_add_pi_div_two]
    rw [e1, e2]
    exact compass_east c0 (by linarith) (by linarith)
  | southEast =>
    simp only [Spec.azimuth]
    have e1 : Real.sin (3 * π / 4 + t) = Real.cos (π / 4 + t) := by
      rw [← Real.cos_sub_pi_div_two]; congr 1; ring
    have e2 : Real.cos (3 * π / 4 + t) = -Real.cos (π / 4 - t) := by
      rw [← Real.cos_pi_sub]; congr 1; ring
    rw [e1, e2]
    exact compass_southEast d3 (by linarith) (by linarith) (by linarith)
  | south =>
    simp only [Spec.azimuth]
    have e1 : Real.sin (π + t) = -Real.sin t := by rw [add_comm, Real.sin_add_pi]
    have e2 : Real.cos (π + t) = -Real.cos t := by rw [add_comm, Real.cos_add_pi]
    rw [e1, e2]
    exact compass_south (by linarith)
  | southWest =>
    simp only [Spec.azimuth]
    have e1 : Real.sin (-(3 * π / 4) + t) = -Real.cos (π / 4 - t) := by
      rw [show -(3 * π / 4) + t = -(3 * π / 4 - t) by ring, Real.sin_neg, ← Real.cos_sub_pi_div_two]
      congr 2; ring
    have e2 : Real.cos (-(3 * π / 4) + t) = -Real.cos (π / 4 + t) := by
      rw [← Real.cos_pi_sub, ← Real.cos_neg]; congr 1; ring
    rw [e1, e2]
    exact compass_southWest (by linarith) (by linarith) (by linarith) (by linarith)
  | west =>
    simp only [Spec.azimuth]
    have e1 : Real.sin (-(π / 2) + t) = -Real.cos t := by
      rw [neg_add_eq_sub, Real.sin_sub_pi_div_two]
    have e2 : Real.cos (-(π / 2) + t) = Real.sin t := by rw [neg_add_eq_sub, Real.cos_sub_pi_div_two]
    rw [e1, e2]
    exact compass_west (by linarith) (by linarith) (by linarith)
  | northWest =>
    simp only [Spec.azimuth]
    have e1 : Real.sin (-(π / 4) + t) = -Real.cos (π / 4 + t) := by
      rw [← Real.cos_pi_sub, ← Real.cos_sub_pi_div_two, ← Real.cos_neg]; congr 1; ring
    have e2 : Real.cos (-(π / 4) + t) = Real.cos (π / 4 - t) := by
      rw [← Real.cos_neg]; congr 1; ring
    rw [e1, e2]
    exact compass_northWest (by linarith) (by linarith) (by linarith) (by linarith)

/-- **C21** (sectors).  A normal whose elevation is less than 45° and whose azimuth is within 22.5° of
the centre of a compass sector (up to 1e-10 radians, because of the decimal literal in the code) has
that orientation, so each sector covers 45°. -/
theorem C21_sectors (o : Orientation) (ho : o ≠ .horizontal) (r t z : ℝ) (hr : 1e-10 < r)
    (ht : |t| ≤ π / 8 - Spec.tol) (hz : |z| < Real.cos (π / 4)) :
    getOrientation (r * Real.sin (Spec.azimuth o + t)) (r * Real.cos (Spec.azimuth o + t)) z = .ok o := by
  unfold getOrientation
  rw [if_neg (by linarith)]
  have h2 : (r * Real.sin (Spec.azimuth o + t)) ^ 2 + (r * Real.cos (Spec.azimuth o + t)) ^ 2 = r ^ 2 := by
    have := Real.sin_sq_add_cos_sq (Spec.azimuth o + t)
    rw [mul_pow, mul_pow, ← mul_add, this, mul_one]
  have hrp : 0 < r := lt_trans (by norm_num) hr
  rw [h2, if_pos, Real.sqrt_sq hrp.le]
  · have e : ∀ a : ℝ, r * a * (1 / r) = a := fun a => by field_simp
    rw [e, e]
    exact compass_sector o ho t ht
  · have : (1e-10 : ℝ) ^ 2 < r ^ 2 := pow_lt_pow_left₀ hr (by norm_num) (by norm_num)
    norm_num at this ⊢
    linarith

example : (1e-10 : ℝ) < 1 ∧ |(0 : ℝ)| ≤ π / 8 - Spec.tol ∧ |(0 : ℝ)| < Real.cos (π / 4) := by
  refine ⟨by norm_num, ?_, ?_⟩
  · have := Real.pi_gt_three; unfold Spec.tol; rw [abs_zero]; norm_num; linarith
  · rw [abs_zero]; exact Real.cos_pos_of_mem_Ioo ⟨by linarith [Real.pi_pos], by linarith [Real.pi_pos]⟩

/-- **C21** (no panic; what holds).  Every unit normal has an orientation.  Missing from the property:
normals that are not of unit length, see `C21_violated_panic`. -/
theorem C21_no_panic_partial (x y z : ℝ) (h : x ^ 2 + y ^ 2 + z ^ 2 = 1) :
    ∃ o, getOrientation x y z = .ok o := by
  unfold getOrientation
  by_cases hz : |z| ≥ Real.cos (π / 4)
  · exact ⟨_, if_pos hz⟩
  · rw [if_neg hz, if_pos]
    · exact compass_no_panic _ _
    · push Not at hz
      rw [Real.cos_pi_div_four] at hz
      have h1 : z ^ 2 < (√2 / 2) ^ 2 := by
        rw [← sq_abs z]
        exact pow_lt_pow_left₀ hz (abs_nonneg z) (by norm_num)
      rw [div_pow, Real.sq_sqrt (by norm_num)] at h1
      norm_num at h1 ⊢
      linarith

/-- **C21** (horizontal; what holds).  A unit normal with elevation `e` and azimuth `a` is horizontal
exactly when the elevation, upwards or downwards, is at least 45°.  Missing from the property:
normals that are not of unit length, see `C21_violated_horizontal`. -/
theorem C21_horizontal_partial (e a : ℝ) (h1 : -(π / 2) ≤ e) (h2 : e ≤ π / 2) :
    getOrientation (Real.cos e * Real.sin a) (Real.cos e * Real.cos a) (Real.sin e) = .ok .horizontal ↔
      π / 4 ≤ |e| := by
  have hp := Real.pi_pos
  have habs : |Real.sin e| = Real.sin |e| := by
    rcases le_total 0 e with he | he
    · rw [abs_of_nonneg he, abs_of_nonneg (Real.sin_nonneg_of_nonneg_of_le_pi he (by linarith))]
    · rw [abs_of_nonpos he, Real.sin_neg, abs_of_nonpos]
      exact Real.sin_nonpos_of_nonpos_of_neg_pi_le he (by linarith)
  have hle : |e| ≤ π / 2 := abs_le.2 ⟨h1, h2⟩
  have hiff : |Real.sin e| ≥ Real.cos (π / 4) ↔ π / 4 ≤ |e| := by
    rw [habs, Real.cos_pi_div_four, ← Real.sin_pi_div_four, ge_iff_le]
    exact Real.strictMonoOn_sin.le_iff_le ⟨by linarith, by linarith⟩
      ⟨by linarith [abs_nonneg e], hle⟩
  rw [← hiff]
  constructor
  · intro h
    by_contra hc
    unfold getOrientation at h
    rw [if_neg hc] at h
    split_ifs at h
    · unfold compass at h
      simp only at h
      split_ifs at h <;> simp at h
  · intro h
    unfold getOrientation
    rw [if_pos h]

/-- The compass direction of the opposite vector. -/
theorem compass_opposite (x y : ℝ) (h : x ^ 2 + y ^ 2 = 1) (o : Orientation) (ho : compass x y = .ok o) :
    compass (-x) (-y) = .ok o.opposite := by
  have hc2 : 1 / 2 < cos225 ^ 2 := by unfold cos225; norm_num
  have hc1 : cos225 < 1 := by unfold cos225; norm_num
  have hc := cos225_pos
  have val : ∀ o', compass x y = .ok o' → o' = o := by
    intro o' h'; rw [h'] at ho; exact Outcome.ok.inj ho
  rcases lt_or_ge cos225 y with n1 | n1
  · rw [← val _ (compass_north n1)]; exact compass_south (by linarith)
  rcases lt_or_ge y (-cos225) with n2 | n2
  · rw [← val _ (compass_south n2)]; exact compass_north (by linarith)
  rcases lt_or_ge cos225 x with n3 | n3
  · rw [← val _ (compass_east n3 n1 n2)]; exact compass_west (by linarith) (by linarith) (by linarith)
  rcases lt_or_ge x (-cos225) with n4 | n4
  · rw [← val _ (compass_west n4 n1 n2)]; exact compass_east (by linarith) (by linarith) (by linarith)
  have hc12 : cos225 ^ 2 < 1 := by unfold cos225; norm_num
  have hx : x ≠ 0 := by
    rintro rfl
    have : y ^ 2 ≤ cos225 ^ 2 := sq_le_sq' n2 n1
    linarith
  have hy : y ≠ 0 := by
    rintro rfl
    have : x ^ 2 ≤ cos225 ^ 2 := sq_le_sq' n4 n3
    linarith
  rcases lt_or_gt_of_ne hx with hx | hx <;> rcases lt_or_gt_of_ne hy with hy | hy
  · rw [← val _ (compass_southWest hx n4 hy n2)]
    exact compass_northEast (by linarith) (by linarith) (by linarith) (by linarith)
  · rw [← val _ (compass_northWest hx n4 hy n1)]
    exact compass_southEast (by linarith) (by linarith) (by linarith) (by linarith)
  · rw [← val _ (compass_southEast hx n3 hy n2)]
    exact compass_northWest (by linarith) (by linarith) (by linarith) (by linarith)
  · rw [← val _ (compass_northEast hx n3 hy n1)]
    exact compass_southWest (by linarith) (by linarith) (by linarith) (by linarith)

/-- **C21** (opposite).  Reversing a normal gives the opposite orientation. -/
theorem C21_opposite (x y z : ℝ) (o : Orientation) (ho : getOrientation x y z = .ok o) :
    getOrientation (-x) (-y) (-z) = .ok o.opposite := by
  unfold getOrientation at ho ⊢
  rw [abs_neg, neg_sq, neg_sq]
  split_ifs at ho ⊢ with h1 h2
  · rw [← Outcome.ok.inj ho]; rfl
  · rw [neg_mul, neg_mul]
    apply compass_opposite _ _ _ _ ho
    have hpos : 0 < x ^ 2 + y ^ 2 := lt_trans (by norm_num) h2
    have hs := Real.sq_sqrt hpos.le
    have hs0 : √(x ^ 2 + y ^ 2) ≠ 0 := (Real.sqrt_pos.2 hpos).ne'
    rw [mul_pow, mul_pow, ← add_mul, one_div, inv_pow, hs]
    exact mul_inv_cancel₀ hpos.ne'

/-- **C21** (outside and inside).  A surface between outdoors and a space has an outside orientation,
that of the normal that points outdoors; its inside orientation is the opposite. -/
theorem C21_outside_inside {F : Type*} (front back : Boundary F) (x y z : ℝ)
    (h : x ^ 2 + y ^ 2 + z ^ 2 = 1) :
    (∀ s, front = .outdoor → back = .space s → outsideOrientation front back x y z = some (getOrientation x y z)) ∧
    (∀ s, front = .space s → back = .outdoor →
      outsideOrientation front back x y z = some (getOrientation (-x) (-y) (-z))) ∧
    (outsideOrientation front back x y z = none ↔
      ¬ ((front = .outdoor ∧ ∃ s, back = .space s) ∨ (back = .outdoor ∧ ∃ s, front = .space s))) ∧
    (insideOrientation front back x y z = none ↔ outsideOrientation front back x y z = none) ∧
    (∀ r, outsideOrientation front back x y z = some r →
      ∃ o, r = .ok o ∧ insideOrientation front back x y z = some (.ok o.opposite)) := by
  have hm : ∀ a : ℝ, a * -1 = -a := fun a => by ring
  refine ⟨?_, ?_, ?_, ?_, ?_⟩
  · rintro s rfl rfl; rfl
  · rintro s rfl rfl; simp only [outsideOrientation, hm]
  · cases front <;> cases back <;> simp [outsideOrientation]
  · cases front <;> cases back <;> simp [outsideOrientation, insideOrientation]
  · intro r hr
    obtain ⟨o, ho⟩ := C21_no_panic_partial x y z h
    obtain ⟨o', ho'⟩ := C21_no_panic_partial (-x) (-y) (-z) (by rw [neg_sq, neg_sq, neg_sq]; exact h)
    have hopp := C21_opposite _ _ _ _ ho
    have hopp' := C21_opposite _ _ _ _ ho'
    rw [neg_neg, neg_neg, neg_neg] at hopp'
    cases front <;> cases back <;> simp only [outsideOrientation, insideOrientation, hm] at hr ⊢ <;>
      simp only [Option.some.injEq, reduceCtorEq] at hr
    · exact ⟨o, by rw [← hr, ho], by rw [hopp]⟩
    · exact ⟨o', by rw [← hr, ho'], by rw [hopp']⟩

example : getOrientation 0 1 0 = .ok .north ∧ ((0 : ℝ) ^ 2 + 1 ^ 2 + 0 ^ 2 = 1) := by
  have h := C21_sectors .north (by simp) 1 0 0 (by norm_num)
    (by have := Real.pi_gt_three; unfold Spec.tol; rw [abs_zero]; norm_num; linarith)
    (by rw [abs_zero]; exact Real.cos_pos_of_mem_Ioo ⟨by linarith [Real.pi_pos], by linarith [Real.pi_pos]⟩)
  simp only [Spec.azimuth, add_zero, Real.sin_zero, Real.cos_zero, mul_zero, mul_one] at h
  exact ⟨h, by norm_num⟩

/-- **C21** is violated by normals that are not of unit length: a vertical one of length 1/2 is not
taken as horizontal, and normalising its horizontal part panics. -/
theorem C21_violated_panic : getOrientation 0 0 (1 / 2) = .panic := by
  unfold getOrientation
  rw [if_neg, if_neg]
  · norm_num
  · rw [Real.cos_pi_div_four, not_le]
    have : (1 : ℝ) < √2 := by rw [Real.lt_sqrt] <;> norm_num
    rw [abs_of_pos (by norm_num)]
    linarith

/-- **C21** is violated by normals that are not of unit length: one that is almost parallel to the
ground (elevation below 6°) is classified as horizontal. -/
theorem C21_violated_horizontal : getOrientation 0 10 1 = .ok .horizontal := by
  unfold getOrientation
  rw [if_pos]
  rw [abs_one]
  exact Real.cos_le_one _

end Simple.Building
