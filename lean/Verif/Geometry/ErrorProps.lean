import Verif.Float.Round
import Verif.Geometry.ErrorModel
import Mathlib.Tactic.FinCases

/-! # C97: the errors reported with transformed points, vectors and rays -/

namespace Simple.Geometry.Errors

open Round

namespace Spec

/-- Each coordinate of `computed` is within `k` times the reported error of that of `exact`. -/
def Covers (k : ℚ) (error computed exact : V3 ℚ) : Prop :=
  |computed.x - exact.x| ≤ k * error.x ∧ |computed.y - exact.y| ≤ k * error.y ∧ |computed.z - exact.z| ≤ k * error.z

/-- `q` is within an error of `p`. -/
def Within {K : Type*} [Field K] [LinearOrder K] (error p q : V3 K) : Prop :=
  |q.x - p.x| ≤ error.x ∧ |q.y - p.y| ≤ error.y ∧ |q.z - p.z| ≤ error.z

/-- The last row is 0, 0, 0, 1, as in every transform that can be made. -/
def Affine {K : Type*} [Field K] (m : Matrix (Fin 4) (Fin 4) K) : Prop := m 3 0 = 0 ∧ m 3 1 = 0 ∧ m 3 2 = 0 ∧ m 3 3 = 1

/-- Each of the first three rows has a zero: scalings, turns around an axis, and these followed by translations. -/
def ZeroInRows (m : Matrix (Fin 4) (Fin 4) ℚ) : Prop :=
  ∀ i : Fin 3, ∃ j : Fin 4, m i.castSucc j = 0

/-- The origin of a ray that is at `o` with an error is moved, along its direction, to the first point that has every
point within the error behind it. -/
def Clear {K : Type*} [Field K] [LinearOrder K] (o error direction moved : V3 K) : Prop :=
  (∃ s, 0 ≤ s ∧ moved = o + direction.scale s) ∧
  (direction ≠ 0 → (∀ q, Within error o q → (q - moved).dot direction ≤ 0) ∧
    ∃ q, Within error o q ∧ (q - moved).dot direction = 0)

/-- The rounding of the error itself. -/
def own : ℚ := 1 + 1 / 2 ^ 49

end Spec

open Spec

/-! ### Rounding -/

private theorem rel (x : ℚ) : ∃ d : ℚ, |d| ≤ 1 / 2 ^ 53 ∧ round53 x = x * (1 + d) := by
  by_cases hx : x = 0
  · refine ⟨0, by norm_num, ?_⟩
    subst hx
    simp [round53]
  · refine ⟨(round53 x - x) / x, ?_, by field_simp; ring⟩
    rw [abs_div, div_le_iff₀ (abs_pos.2 hx)]
    have := round53_error x
    linarith [this]

theorem mono {x y : ℚ} (h : x ≤ y) : round53 x ≤ round53 y := by
  by_contra hc
  rw [not_le] at hc
  have h1 := round53_nearest x _ (round53_representable y)
  have h2 := round53_nearest y _ (round53_representable x)
  rcases eq_or_lt_of_le h with rfl | hlt
  · exact lt_irrefl _ hc
  rw [abs_le] at h1 h2
  rcases abs_cases (round53 y - x) with ⟨e1, _⟩ | ⟨e1, _⟩ <;> rcases abs_cases (round53 x - y) with ⟨e2, _⟩ | ⟨e2, _⟩ <;>
    rw [e1] at h1 <;> rw [e2] at h2 <;> linarith [h1.1, h1.2, h2.1, h2.2]

theorem r0 : round53 0 = 0 := by simp [round53]

private theorem twice (x : ℚ) : round53 (round53 x) = round53 x := round53_id _ (round53_representable x)

private theorem r1 : round53 1 = 1 := round53_id _ ⟨1, 0, by norm_num, by norm_num⟩

private theorem nonneg {x : ℚ} (h : 0 ≤ x) : 0 ≤ round53 x := by
  have := mono h
  rwa [r0] at this

private theorem lower {x : ℚ} (h : 0 ≤ x) : x * (1 - 1 / 2 ^ 53) ≤ round53 x := by
  have := (abs_le.1 (round53_error x)).1
  rw [abs_of_nonneg h] at this
  linarith

private theorem prod1 {d : ℚ} (h : |d| ≤ 1 / 2 ^ 53) : 1 - 1 / 2 ^ 53 ≤ 1 + d ∧ 1 + d ≤ 1 + 1 / 2 ^ 53 := by
  rw [abs_le] at h
  exact ⟨by linarith [h.1], by linarith [h.2]⟩

/-- A number between powers of the least and the largest factor of one rounding. -/
private def Fac (n : ℕ) (f : ℚ) : Prop := (1 - 1 / 2 ^ 53) ^ n ≤ f ∧ f ≤ (1 + 1 / 2 ^ 53) ^ n

private theorem Fac.mul {n k : ℕ} {f g : ℚ} (hf : Fac n f) (hg : Fac k g) : Fac (n + k) (f * g) := by
  have a : (0 : ℚ) < 1 - 1 / 2 ^ 53 := by norm_num
  have b : (0 : ℚ) < 1 + 1 / 2 ^ 53 := by norm_num
  refine ⟨?_, ?_⟩
  · rw [pow_add]
    exact mul_le_mul hf.1 hg.1 (pow_pos a _).le ((pow_pos a _).le.trans hf.1)
  · rw [pow_add]
    exact mul_le_mul hf.2 hg.2 ((pow_pos a _).le.trans hg.1) (pow_pos b _).le

private theorem Fac.zero : Fac 0 1 := by constructor <;> simp

private theorem Fac.weaken {n k : ℕ} {f : ℚ} (h : Fac n f) (hk : n ≤ k) : Fac k f := by
  refine ⟨le_trans ?_ h.1, h.2.trans ?_⟩
  · exact pow_le_pow_of_le_one (by norm_num) (by norm_num) hk
  · exact pow_le_pow_right₀ (by norm_num) hk

private theorem relFac (x : ℚ) : ∃ f : ℚ, Fac 1 f ∧ round53 x = x * f := by
  obtain ⟨d, hd, e⟩ := rel x
  exact ⟨1 + d, by simpa [Fac] using prod1 hd, e⟩

private theorem Fac.pos {n : ℕ} {f : ℚ} (h : Fac n f) : 0 < f :=
  lt_of_lt_of_le (pow_pos (by norm_num) _) h.1

/-- The error of a term with `n` roundings. -/
private theorem Fac.near {n : ℕ} {f : ℚ} (h : Fac n f) : |f - 1| ≤ (1 + 1 / 2 ^ 53) ^ n - 1 := by
  have key : ∀ k : ℕ, 1 - (1 - 1 / 2 ^ 53 : ℚ) ^ k ≤ (1 + 1 / 2 ^ 53) ^ k - 1 := by
    intro k
    have h1 := one_add_mul_le_pow (a := (1 / 2 ^ 53 : ℚ)) (by norm_num) k
    have h2 := one_add_mul_le_pow (a := -(1 / 2 ^ 53 : ℚ)) (by norm_num) k
    rw [← sub_eq_add_neg] at h2
    linarith
  rw [abs_le]
  exact ⟨by linarith [h.1, key n], by linarith [h.2]⟩

private theorem near4 {f1 f2 f3 f4 : ℚ} {n : ℕ} (h1 : Fac n f1) (h2 : Fac n f2) (h3 : Fac n f3) (h4 : Fac n f4)
    (p q s t : ℚ) : |p * f1 + q * f2 + s * f3 + t * f4 - (p + q + s + t)| ≤
      ((1 + 1 / 2 ^ 53) ^ n - 1) * (|p| + |q| + |s| + |t|) := by
  have e : p * f1 + q * f2 + s * f3 + t * f4 - (p + q + s + t) =
      p * (f1 - 1) + q * (f2 - 1) + s * (f3 - 1) + t * (f4 - 1) := by ring
  have m : ∀ x f : ℚ, Fac n f → |x * (f - 1)| ≤ |x| * ((1 + 1 / 2 ^ 53) ^ n - 1) := fun x f hf => by
    rw [abs_mul]
    exact mul_le_mul_of_nonneg_left hf.near (abs_nonneg _)
  rw [e]
  have a1 := abs_add_le (p * (f1 - 1) + q * (f2 - 1) + s * (f3 - 1)) (t * (f4 - 1))
  have a2 := abs_add_le (p * (f1 - 1) + q * (f2 - 1)) (s * (f3 - 1))
  have a3 := abs_add_le (p * (f1 - 1)) (q * (f2 - 1))
  linarith [m p f1 h1, m q f2 h2, m s f3 h3, m t f4 h4]

private theorem sum3_fac (a b c x y z : ℚ) : ∃ f1 f2 f3 : ℚ, Fac 3 f1 ∧ Fac 3 f2 ∧ Fac 2 f3 ∧
    sum3 round53 a b c x y z = a * x * f1 + b * y * f2 + c * z * f3 := by
  obtain ⟨g1, h1, e1⟩ := relFac (a * x)
  obtain ⟨g2, h2, e2⟩ := relFac (b * y)
  obtain ⟨g3, h3, e3⟩ := relFac (c * z)
  obtain ⟨g4, h4, e4⟩ := relFac (round53 (a * x) + round53 (b * y))
  obtain ⟨g5, h5, e5⟩ := relFac (round53 (round53 (a * x) + round53 (b * y)) + round53 (c * z))
  refine ⟨g1 * g4 * g5, g2 * g4 * g5, g3 * g5, (h1.mul h4).mul h5, (h2.mul h4).mul h5, h3.mul h5, ?_⟩
  rw [sum3, e5, e4, e1, e2, e3]
  ring

private theorem sum4_near (a b c d x y z : ℚ) : |sum4 round53 a b c d x y z - (a * x + b * y + c * z + d)| ≤
    ((1 + 1 / 2 ^ 53) ^ 4 - 1) * (|a * x| + |b * y| + |c * z| + |d|) := by
  obtain ⟨f1, f2, f3, h1, h2, h3, e⟩ := sum3_fac a b c x y z
  obtain ⟨g, hg, e'⟩ := relFac (sum3 round53 a b c x y z + d)
  rw [sum4, e', e]
  have := near4 (h1.mul hg) (h2.mul hg) ((h3.mul hg).weaken (by norm_num)) (hg.weaken (by norm_num : 1 ≤ 3 + 1))
    (a * x) (b * y) (c * z) d
  convert this using 2
  ring

private theorem sum3_near (a b c x y z : ℚ) : |sum3 round53 a b c x y z - (a * x + b * y + c * z)| ≤
    ((1 + 1 / 2 ^ 53) ^ 3 - 1) * (|a * x| + |b * y| + |c * z|) := by
  obtain ⟨f1, f2, f3, h1, h2, h3, e⟩ := sum3_fac a b c x y z
  rw [e]
  have := near4 h1 h2 (h3.weaken (by norm_num)) (Fac.zero.weaken (by norm_num : 0 ≤ 3)) (a * x) (b * y) (c * z) 0
  simpa using this

/-- With a zero among the four, there is one rounding less. -/
private theorem sum4_near_zero (a b c d x y z : ℚ) (h : a = 0 ∨ b = 0 ∨ c = 0 ∨ d = 0) :
    |sum4 round53 a b c d x y z - (a * x + b * y + c * z + d)| ≤
      ((1 + 1 / 2 ^ 53) ^ 3 - 1) * (|a * x| + |b * y| + |c * z| + |d|) := by
  obtain ⟨g1, h1, e1⟩ := relFac (a * x)
  obtain ⟨g2, h2, e2⟩ := relFac (b * y)
  obtain ⟨g3, h3, e3⟩ := relFac (c * z)
  obtain ⟨g4, h4, e4⟩ := relFac (round53 (a * x) + round53 (b * y))
  obtain ⟨g5, h5, e5⟩ := relFac (round53 (round53 (a * x) + round53 (b * y)) + round53 (c * z))
  obtain ⟨g6, h6, e6⟩ := relFac (sum3 round53 a b c x y z + d)
  have one : Fac 3 1 := Fac.zero.weaken (by norm_num)
  rcases h with rfl | rfl | rfl | rfl
  · have e : sum4 round53 0 b c d x y z = 0 * 1 + b * y * (g2 * g5 * g6) + c * z * (g3 * g5 * g6) + d * g6 := by
      rw [sum4, e6, sum3, e5]
      rw [zero_mul, r0, zero_add, twice, e2, e3]
      ring
    rw [e]
    have := near4 one ((h2.mul h5).mul h6) ((h3.mul h5).mul h6) (h6.weaken (by norm_num : 1 ≤ 3)) 0 (b * y) (c * z) d
    simpa using this
  · have e : sum4 round53 a 0 c d x y z = a * x * (g1 * g5 * g6) + 0 * 1 + c * z * (g3 * g5 * g6) + d * g6 := by
      rw [sum4, e6, sum3, e5]
      rw [zero_mul, r0, add_zero, twice, e1, e3]
      ring
    rw [e]
    have := near4 ((h1.mul h5).mul h6) one ((h3.mul h5).mul h6) (h6.weaken (by norm_num : 1 ≤ 3)) (a * x) 0 (c * z) d
    simpa using this
  · have e : sum4 round53 a b 0 d x y z = a * x * (g1 * g4 * g6) + b * y * (g2 * g4 * g6) + 0 * 1 + d * g6 := by
      rw [sum4, e6, sum3]
      rw [zero_mul, r0, add_zero, twice, e4, e1, e2]
      ring
    rw [e]
    have := near4 ((h1.mul h4).mul h6) ((h2.mul h4).mul h6) one (h6.weaken (by norm_num : 1 ≤ 3)) (a * x) (b * y) 0 d
    simpa using this
  · rw [sum4, add_zero, show round53 (sum3 round53 a b c x y z) = sum3 round53 a b c x y z from twice _]
    simpa using sum3_near a b c x y z

private theorem abs_lower (p : ℚ) : |p| * (1 - 1 / 2 ^ 53) ≤ |round53 p| := by
  have h := round53_error p
  have := abs_sub_abs_le_abs_sub p (round53 p)
  rw [abs_sub_comm] at this
  linarith

private theorem sumAbs_lower (a b c d x y z : ℚ) :
    (1 - 1 / 2 ^ 53) ^ 4 * (|a * x| + |b * y| + |c * z| + |d|) ≤ sumAbs round53 a b c d x y z := by
  have p1 := abs_lower (a * x)
  have p2 := abs_lower (b * y)
  have p3 := abs_lower (c * z)
  unfold sumAbs
  generalize |round53 (a * x)| = q1 at *
  generalize |round53 (b * y)| = q2 at *
  generalize |round53 (c * z)| = q3 at *
  have n1 := abs_nonneg (a * x)
  have n2 := abs_nonneg (b * y)
  have n3 := abs_nonneg (c * z)
  have n4 := abs_nonneg d
  generalize |a * x| = s1 at *
  generalize |b * y| = s2 at *
  generalize |c * z| = s3 at *
  generalize |d| = s4 at *
  have m1 : 0 ≤ q1 := le_trans (mul_nonneg n1 (by norm_num)) p1
  have m2 : 0 ≤ q2 := le_trans (mul_nonneg n2 (by norm_num)) p2
  have m3 : 0 ≤ q3 := le_trans (mul_nonneg n3 (by norm_num)) p3
  have k1 := lower (add_nonneg m1 m2)
  have l1 := nonneg (add_nonneg m1 m2)
  generalize round53 (q1 + q2) = t1 at *
  have k2 := lower (add_nonneg l1 m3)
  have l2 := nonneg (add_nonneg l1 m3)
  generalize round53 (t1 + q3) = t2 at *
  have k3 := lower (add_nonneg l2 n4)
  generalize round53 (t2 + s4) = t3 at *
  norm_num at *
  linarith

private theorem gamma_lower : (3 : ℚ) / 2 ^ 53 ≤ gamma round53 3 := by decide +kernel

theorem one_gamma_lower : (1 : ℚ) ≤ round53 (1 + gamma round53 3) := by decide +kernel

/-- What is reported, and the sum of sizes. -/
private theorem reported (a b c d x y z : ℚ) :
    (1 - 1 / 2 ^ 53) ^ 5 * (3 / 2 ^ 53) * (|a * x| + |b * y| + |c * z| + |d|) ≤
      round53 (sumAbs round53 a b c d x y z * gamma round53 3) := by
  have h := sumAbs_lower a b c d x y z
  have hs : 0 ≤ |a * x| + |b * y| + |c * z| + |d| := by positivity
  generalize |a * x| + |b * y| + |c * z| + |d| = s at *
  have h0 : 0 ≤ sumAbs round53 a b c d x y z := le_trans (mul_nonneg (by norm_num) hs) h
  generalize sumAbs round53 a b c d x y z = t at *
  have hg := gamma_lower
  have hm : (1 - 1 / 2 ^ 53) ^ 4 * s * (3 / 2 ^ 53) ≤ t * gamma round53 3 :=
    mul_le_mul h hg (by norm_num) h0
  have hl := lower (x := t * gamma round53 3) (mul_nonneg h0 (le_trans (by norm_num) hg))
  have : (1 - 1 / 2 ^ 53 : ℚ) ^ 5 * (3 / 2 ^ 53) * s = (1 - 1 / 2 ^ 53) ^ 4 * s * (3 / 2 ^ 53) * (1 - 1 / 2 ^ 53) := by ring
  rw [this]
  exact le_trans (mul_le_mul_of_nonneg_right hm (by norm_num)) hl

private theorem reported1 (a b c d x y z : ℚ) :
    (1 - 1 / 2 ^ 53) ^ 5 * (|a * x| + |b * y| + |c * z| + |d|) ≤
      round53 (sumAbs round53 a b c d x y z * round53 (1 + gamma round53 3)) := by
  have h := sumAbs_lower a b c d x y z
  have hs : 0 ≤ |a * x| + |b * y| + |c * z| + |d| := by positivity
  generalize |a * x| + |b * y| + |c * z| + |d| = s at *
  have h0 : 0 ≤ sumAbs round53 a b c d x y z := le_trans (mul_nonneg (by norm_num) hs) h
  generalize sumAbs round53 a b c d x y z = t at *
  have hg := one_gamma_lower
  have hm : (1 - 1 / 2 ^ 53) ^ 4 * s * 1 ≤ t * round53 (1 + gamma round53 3) :=
    mul_le_mul h hg (by norm_num) h0
  have hl := lower (x := t * round53 (1 + gamma round53 3)) (mul_nonneg h0 (le_trans (by norm_num) hg))
  have : (1 - 1 / 2 ^ 53 : ℚ) ^ 5 * s = (1 - 1 / 2 ^ 53) ^ 4 * s * 1 * (1 - 1 / 2 ^ 53) := by ring
  rw [this]
  exact le_trans (mul_le_mul_of_nonneg_right hm (by norm_num)) hl

private theorem mulPoint_eq (m : Matrix (Fin 4) (Fin 4) ℚ) (h : Affine m) (p : V3 ℚ) :
    mulPoint round53 m p = ⟨sum4 round53 (m 0 0) (m 0 1) (m 0 2) (m 0 3) p.x p.y p.z,
      sum4 round53 (m 1 0) (m 1 1) (m 1 2) (m 1 3) p.x p.y p.z,
      sum4 round53 (m 2 0) (m 2 1) (m 2 2) (m 2 3) p.x p.y p.z⟩ := by
  obtain ⟨h0, h1, h2, h3⟩ := h
  have hw : sum4 round53 (m 3 0) (m 3 1) (m 3 2) (m 3 3) p.x p.y p.z = 1 := by
    rw [h0, h1, h2, h3]
    simp [sum4, sum3, r0, r1]
  have tw : ∀ a b c d x y z : ℚ, round53 (sum4 round53 a b c d x y z / 1) = sum4 round53 a b c d x y z := by
    intro a b c d x y z
    rw [div_one]
    exact twice _
  unfold mulPoint
  simp only [hw, tw]

private theorem exactPoint_eq (m : Matrix (Fin 4) (Fin 4) ℚ) (h : Affine m) (p : V3 ℚ) :
    Transform.mulPoint m p = ⟨m 0 0 * p.x + m 0 1 * p.y + m 0 2 * p.z + m 0 3,
      m 1 0 * p.x + m 1 1 * p.y + m 1 2 * p.z + m 1 3, m 2 0 * p.x + m 2 1 * p.y + m 2 2 * p.z + m 2 3⟩ := by
  obtain ⟨h0, h1, h2, h3⟩ := h
  unfold Transform.mulPoint V3.div
  simp [h0, h1, h2, h3]

private def own0 : ℚ := 1 + 1 / 2 ^ 50

private theorem row4 (a b c d x y z : ℚ) : |sum4 round53 a b c d x y z - (a * x + b * y + c * z + d)| ≤
    4 / 3 * own0 * round53 (sumAbs round53 a b c d x y z * gamma round53 3) := by
  refine (sum4_near a b c d x y z).trans ?_
  have h := reported a b c d x y z
  have hs : 0 ≤ |a * x| + |b * y| + |c * z| + |d| := by positivity
  generalize |a * x| + |b * y| + |c * z| + |d| = s at *
  unfold own0
  norm_num at *
  linarith

private theorem row3 (a b c d x y z : ℚ) (h0 : a = 0 ∨ b = 0 ∨ c = 0 ∨ d = 0) :
    |sum4 round53 a b c d x y z - (a * x + b * y + c * z + d)| ≤
      own0 * round53 (sumAbs round53 a b c d x y z * gamma round53 3) := by
  refine (sum4_near_zero a b c d x y z h0).trans ?_
  have h := reported a b c d x y z
  have hs : 0 ≤ |a * x| + |b * y| + |c * z| + |d| := by positivity
  generalize |a * x| + |b * y| + |c * z| + |d| = s at *
  unfold own0
  norm_num at *
  linarith

private theorem rowV (a b c d x y z : ℚ) : |sum3 round53 a b c x y z - (a * x + b * y + c * z)| ≤
    own0 * round53 (sumAbs round53 a b c d x y z * gamma round53 3) := by
  refine (sum3_near a b c x y z).trans ?_
  have h := reported a b c d x y z
  have hs : 0 ≤ |a * x| + |b * y| + |c * z| := by positivity
  have hd := abs_nonneg d
  generalize |a * x| + |b * y| + |c * z| = s at *
  generalize |d| = e at *
  unfold own0
  norm_num at *
  linarith

/-- The error that comes in, for one coordinate. -/
private theorem propagate {k0 k : ℚ} (hk : own0 ≤ k * (1 - 1 / 2 ^ 53)) (hk0 : k0 ≤ k * (1 - 1 / 2 ^ 53))
    {a b c d x y z ex ey ez x' y' z' v w e2 : ℚ} (hx : |x' - x| ≤ ex) (hy : |y' - y| ≤ ey) (hz : |z' - z| ≤ ez)
    (h2 : 0 ≤ e2) (hv : |v - (a * x + b * y + c * z + w)| ≤ k0 * e2) :
    |v - (a * x' + b * y' + c * z' + w)| ≤
      k * round53 (round53 (sumAbs round53 a b c d ex ey ez * round53 (1 + gamma round53 3)) + e2) := by
  have h := reported1 a b c d ex ey ez
  have ex0 := (abs_nonneg _).trans hx
  have ey0 := (abs_nonneg _).trans hy
  have ez0 := (abs_nonneg _).trans hz
  rw [abs_mul, abs_mul, abs_mul, abs_of_nonneg ex0, abs_of_nonneg ey0, abs_of_nonneg ez0] at h
  have m1 : |a * (x' - x)| ≤ |a| * ex := by rw [abs_mul]; exact mul_le_mul_of_nonneg_left hx (abs_nonneg _)
  have m2 : |b * (y' - y)| ≤ |b| * ey := by rw [abs_mul]; exact mul_le_mul_of_nonneg_left hy (abs_nonneg _)
  have m3 : |c * (z' - z)| ≤ |c| * ez := by rw [abs_mul]; exact mul_le_mul_of_nonneg_left hz (abs_nonneg _)
  have q1 : 0 ≤ |a| * ex := mul_nonneg (abs_nonneg _) ex0
  have q2 : 0 ≤ |b| * ey := mul_nonneg (abs_nonneg _) ey0
  have q3 : 0 ≤ |c| * ez := mul_nonneg (abs_nonneg _) ez0
  have q4 := abs_nonneg d
  have tri : |v - (a * x' + b * y' + c * z' + w)| ≤
      |v - (a * x + b * y + c * z + w)| + (|a| * ex + |b| * ey + |c| * ez) := by
    have e : v - (a * x' + b * y' + c * z' + w) =
        (v - (a * x + b * y + c * z + w)) + (-(a * (x' - x)) + -(b * (y' - y)) + -(c * (z' - z))) := by ring
    rw [e]
    have t1 := abs_add_le (v - (a * x + b * y + c * z + w)) (-(a * (x' - x)) + -(b * (y' - y)) + -(c * (z' - z)))
    have t2 := abs_add_le (-(a * (x' - x)) + -(b * (y' - y))) (-(c * (z' - z)))
    have t3 := abs_add_le (-(a * (x' - x))) (-(b * (y' - y)))
    rw [abs_neg] at t2 t3
    rw [abs_neg] at t3
    linarith
  generalize round53 (sumAbs round53 a b c d ex ey ez * round53 (1 + gamma round53 3)) = e1 at *
  have he1 : 0 ≤ e1 := le_trans (mul_nonneg (by norm_num) (by linarith)) h
  have hl := lower (add_nonneg he1 h2)
  have hkp : 0 ≤ k := by
    unfold own0 at hk
    norm_num at hk
    linarith
  refine tri.trans (le_trans ?_ (mul_le_mul_of_nonneg_left hl hkp))
  have s1 : |a| * ex + |b| * ey + |c| * ez ≤ own0 * e1 := by
    clear hk hk0 hv hl tri m1 m2 m3
    generalize |d| = d' at *
    generalize |a| * ex + |b| * ey + |c| * ez = s at *
    unfold own0
    norm_num at h ⊢
    linarith
  have s2 := mul_le_mul_of_nonneg_right hk he1
  have s3 := mul_le_mul_of_nonneg_right hk0 h2
  have e : k * ((e1 + e2) * (1 - 1 / 2 ^ 53)) = k * (1 - 1 / 2 ^ 53) * e1 + k * (1 - 1 / 2 ^ 53) * e2 := by ring
  rw [e]
  linarith

private theorem own0_le : own0 ≤ own := by unfold own0 own; norm_num

private theorem own0_le' : own0 ≤ own * (1 - 1 / 2 ^ 53) := by unfold own0 own; norm_num

theorem reported_nonneg (a b c d x y z : ℚ) : 0 ≤ round53 (sumAbs round53 a b c d x y z * gamma round53 3) :=
  le_trans (mul_nonneg (by norm_num) (by positivity)) (reported a b c d x y z)

/-! ### Points and vectors -/

private theorem zeroRow (m : Matrix (Fin 4) (Fin 4) ℚ) (h : ZeroInRows m) :
    (m 0 0 = 0 ∨ m 0 1 = 0 ∨ m 0 2 = 0 ∨ m 0 3 = 0) ∧ (m 1 0 = 0 ∨ m 1 1 = 0 ∨ m 1 2 = 0 ∨ m 1 3 = 0) ∧
      (m 2 0 = 0 ∨ m 2 1 = 0 ∨ m 2 2 = 0 ∨ m 2 3 = 0) := by
  have key : ∀ i : Fin 4, (∃ j : Fin 4, m i j = 0) → m i 0 = 0 ∨ m i 1 = 0 ∨ m i 2 = 0 ∨ m i 3 = 0 := by
    rintro i ⟨j, hj⟩
    fin_cases j
    · exact Or.inl hj
    · exact Or.inr (Or.inl hj)
    · exact Or.inr (Or.inr (Or.inl hj))
    · exact Or.inr (Or.inr (Or.inr hj))
  exact ⟨key 0 (h 0), key 1 (h 1), key 2 (h 2)⟩

private theorem point_covers (m : Matrix (Fin 4) (Fin 4) ℚ) (h : Affine m) (p q e : V3 ℚ) (hq : Within e p q) :
    (Covers (4 / 3 * own) (pointError round53 m p).2 (pointError round53 m p).1 (Transform.mulPoint m p) ∧
      Covers (4 / 3 * own) (pointPropagate round53 m p e).2 (pointPropagate round53 m p e).1 (Transform.mulPoint m q)) ∧
    (ZeroInRows m →
      Covers own (pointError round53 m p).2 (pointError round53 m p).1 (Transform.mulPoint m p) ∧
      Covers own (pointPropagate round53 m p e).2 (pointPropagate round53 m p e).1 (Transform.mulPoint m q)) := by
  have n := reported_nonneg
  obtain ⟨hx, hy, hz⟩ := hq
  unfold pointPropagate pointError
  rw [mulPoint_eq m h, exactPoint_eq m h, exactPoint_eq m h]
  have f1 : 4 / 3 * own0 ≤ 4 / 3 * own := by linarith [own0_le]
  have f2 : 4 / 3 * own0 ≤ 4 / 3 * own * (1 - 1 / 2 ^ 53) := by unfold own0 own; norm_num
  have f3 : own0 ≤ 4 / 3 * own * (1 - 1 / 2 ^ 53) := by unfold own0 own; norm_num
  have up : ∀ {v k k' e : ℚ}, v ≤ k * e → k ≤ k' → 0 ≤ e → v ≤ k' * e := fun a b c =>
    a.trans (mul_le_mul_of_nonneg_right b c)
  refine ⟨⟨⟨?_, ?_, ?_⟩, ?_, ?_, ?_⟩, fun hr => ?_⟩
  · exact up (row4 _ _ _ _ _ _ _) f1 (n _ _ _ _ _ _ _)
  · exact up (row4 _ _ _ _ _ _ _) f1 (n _ _ _ _ _ _ _)
  · exact up (row4 _ _ _ _ _ _ _) f1 (n _ _ _ _ _ _ _)
  · exact propagate f3 f2 hx hy hz (n _ _ _ _ _ _ _) (row4 _ _ _ _ _ _ _)
  · exact propagate f3 f2 hx hy hz (n _ _ _ _ _ _ _) (row4 _ _ _ _ _ _ _)
  · exact propagate f3 f2 hx hy hz (n _ _ _ _ _ _ _) (row4 _ _ _ _ _ _ _)
  · obtain ⟨z0, z1, z2⟩ := zeroRow m hr
    refine ⟨⟨?_, ?_, ?_⟩, ?_, ?_, ?_⟩
    · exact up (row3 _ _ _ _ _ _ _ z0) own0_le (n _ _ _ _ _ _ _)
    · exact up (row3 _ _ _ _ _ _ _ z1) own0_le (n _ _ _ _ _ _ _)
    · exact up (row3 _ _ _ _ _ _ _ z2) own0_le (n _ _ _ _ _ _ _)
    · exact propagate own0_le' own0_le' hx hy hz (n _ _ _ _ _ _ _) (row3 _ _ _ _ _ _ _ z0)
    · exact propagate own0_le' own0_le' hx hy hz (n _ _ _ _ _ _ _) (row3 _ _ _ _ _ _ _ z1)
    · exact propagate own0_le' own0_le' hx hy hz (n _ _ _ _ _ _ _) (row3 _ _ _ _ _ _ _ z2)

private theorem vec_covers (m : Matrix (Fin 4) (Fin 4) ℚ) (p q e : V3 ℚ) (hq : Within e p q) :
    Covers own (vecError round53 m p).2 (vecError round53 m p).1 (Transform.mulVec m p) ∧
      Covers own (vecPropagate round53 m p e).2 (vecPropagate round53 m p e).1 (Transform.mulVec m q) := by
  have n := reported_nonneg
  obtain ⟨hx, hy, hz⟩ := hq
  have up : ∀ {v e : ℚ}, v ≤ own0 * e → 0 ≤ e → v ≤ own * e := fun a c =>
    a.trans (mul_le_mul_of_nonneg_right own0_le c)
  have pr : ∀ a b c d : ℚ, |sum3 round53 a b c p.x p.y p.z - (a * q.x + b * q.y + c * q.z)| ≤
      own * round53 (round53 (sumAbs round53 a b c d e.x e.y e.z * round53 (1 + gamma round53 3)) +
        round53 (sumAbs round53 a b c d p.x p.y p.z * gamma round53 3)) := by
    intro a b c d
    have := propagate (a := a) (b := b) (c := c) (d := d) (w := 0) own0_le' own0_le' hx hy hz (n a b c d p.x p.y p.z)
      (v := sum3 round53 a b c p.x p.y p.z) (by rw [add_zero]; exact rowV a b c d p.x p.y p.z)
    rwa [add_zero] at this
  refine ⟨⟨?_, ?_, ?_⟩, pr _ _ _ _, pr _ _ _ _, pr _ _ _ _⟩
  · exact up (rowV _ _ _ _ _ _ _) (n _ _ _ _ _ _ _)
  · exact up (rowV _ _ _ _ _ _ _) (n _ _ _ _ _ _ _)
  · exact up (rowV _ _ _ _ _ _ _) (n _ _ _ _ _ _ _)

end Simple.Geometry.Errors

namespace Simple.Geometry

open Round Errors Errors.Spec

/-- C97, the part that holds of every transform of points: the computed point is within four thirds of the reported
error (and the rounding of the error itself) of the exact transform; and with an error that comes in, of the exact
transform of every point within it.  For transforms with a zero in each row, which are those without turns around two
axes together with a translation, it is within the reported error (and its rounding).  (That the error is not enough
for others is `C97_violated_point`.) -/
theorem C97_point_partial (t : Transform ℚ) (h : Affine t.elements) (h' : Affine t.invElements) (p q e : V3 ℚ)
    (hq : Within e p q) :
    (Covers (4 / 3 * own) (t.ptWithError round53 p).2 (t.ptWithError round53 p).1 (t.pt p) ∧
      Covers (4 / 3 * own) (t.ptPropagateError round53 p e).2 (t.ptPropagateError round53 p e).1 (t.pt q) ∧
      (ZeroInRows t.elements → Covers own (t.ptWithError round53 p).2 (t.ptWithError round53 p).1 (t.pt p) ∧
        Covers own (t.ptPropagateError round53 p e).2 (t.ptPropagateError round53 p e).1 (t.pt q))) ∧
    (Covers (4 / 3 * own) (t.invPtWithError round53 p).2 (t.invPtWithError round53 p).1 (t.invPt p) ∧
      Covers (4 / 3 * own) (t.invPtPropagateError round53 p e).2 (t.invPtPropagateError round53 p e).1 (t.invPt q) ∧
      (ZeroInRows t.invElements →
        Covers own (t.invPtWithError round53 p).2 (t.invPtWithError round53 p).1 (t.invPt p) ∧
        Covers own (t.invPtPropagateError round53 p e).2 (t.invPtPropagateError round53 p e).1 (t.invPt q))) := by
  have a := point_covers t.elements h p q e hq
  have b := point_covers t.invElements h' p q e hq
  exact ⟨⟨a.1.1, a.1.2, a.2⟩, b.1.1, b.1.2, b.2⟩

/-- C97: the computed vector is within the reported error (and the rounding of the error itself) of the exact
transform; and with an error that comes in, of the exact transform of every vector within it. -/
theorem C97_vector (t : Transform ℚ) (v w e : V3 ℚ) (hw : Within e v w) :
    (Covers own (t.vecWithError round53 v).2 (t.vecWithError round53 v).1 (t.vec v) ∧
      Covers own (t.vecPropagateError round53 v e).2 (t.vecPropagateError round53 v e).1 (t.vec w)) ∧
    (Covers own (t.invVecWithError round53 v).2 (t.invVecWithError round53 v).1 (t.invVec v) ∧
      Covers own (t.invVecPropagateError round53 v e).2 (t.invVecPropagateError round53 v e).1 (t.invVec w)) :=
  ⟨vec_covers t.elements v w e hw, vec_covers t.invElements v w e hw⟩

/-- A turn around the vertical axis with cosine 3/5, after a translation. -/
private def turned : Transform ℚ := (Transform.rotateZ (3 / 5) (4 / 5)).mulAssign (Transform.translate 1 2 3)

example : Affine turned.elements ∧ Affine turned.invElements ∧ ZeroInRows turned.elements ∧
    Within (⟨1 / 100, 0, 0⟩ : V3 ℚ) ⟨1, 1, 1⟩ ⟨1, 1, 1⟩ := by
  refine ⟨?_, ?_, ?_, ?_⟩
  · simp [Affine, turned, Transform.mulAssign, Transform.mul4x4, Transform.rotateZ, Transform.translate]
  · simp [Affine, turned, Transform.mulAssign, Transform.mul4x4, Transform.rotateZ, Transform.translate]
  · intro i
    fin_cases i
    · exact ⟨2, by simp [turned, Transform.mulAssign, Transform.mul4x4, Transform.rotateZ, Transform.translate]⟩
    · exact ⟨2, by simp [turned, Transform.mulAssign, Transform.mul4x4, Transform.rotateZ, Transform.translate]⟩
    · exact ⟨0, by simp [turned, Transform.mulAssign, Transform.mul4x4, Transform.rotateZ, Transform.translate]⟩
  · simp [Within]

/-- A translation, two turns by angles so small that their cosines are rounded to one, and a scaling, composed in
`f64`. -/
private def sheared : Transform ℚ :=
  Errors.mulAssign round53 (Errors.mulAssign round53 (Errors.mulAssign round53 (Transform.translate (1 / 2 ^ 53) 0 0)
    (Transform.rotateZ 1 (-(1 / 2 ^ 60)))) (Transform.rotateY 1 (1 / 2 ^ 60))) (Transform.scale (1 + 1 / 2 ^ 26) 1 1)

/-- C97 fails for points: for a transform with turns around two axes, a scaling and a translation, the computed point is
farther from the exact transform than the reported error, and than the reported error and its rounding. -/
theorem C97_violated_point : ∃ (t : Transform ℚ) (p : V3 ℚ), Affine t.elements ∧
    ¬ Covers 1 (t.ptWithError round53 p).2 (t.ptWithError round53 p).1 (t.pt p) ∧
    ¬ Covers own (t.ptWithError round53 p).2 (t.ptWithError round53 p).1 (t.pt p) := by
  refine ⟨sheared, ⟨1 + 1 / 2 ^ 27, 2 ^ 7, 2 ^ 7⟩, ?_, ?_, ?_⟩
  · unfold Affine; decide +kernel
  · unfold Covers; decide +kernel
  · unfold Covers; decide +kernel

/-- C97 fails for errors that come in, when there is a translation: the distance of the translation is added to the
error of points and of vectors, even if what comes in is exact. -/
theorem C97_violated_translation (x y z : ℚ) (hx : Round.Spec.Representable x) (p : V3 ℚ) :
    |x| ≤ ((Transform.translate x y z).ptPropagateError round53 p 0).2.x ∧
    |x| ≤ ((Transform.translate x y z).vecPropagateError round53 p 0).2.x := by
  have hax : Round.Spec.Representable |x| := by
    obtain ⟨m, e, hm, rfl⟩ := hx
    refine ⟨|m|, e, by rwa [abs_abs], ?_⟩
    rw [abs_mul, Int.cast_abs, abs_of_pos (zpow_pos (by norm_num : (0 : ℚ) < 2) e)]
  have key : ∀ e2 : ℚ, 0 ≤ e2 → |x| ≤ round53 (round53 (sumAbs round53 1 0 0 x 0 0 0 * round53 (1 + gamma round53 3)) + e2) := by
    intro e2 h2
    have e : sumAbs round53 1 0 0 x 0 0 0 = |x| := by
      simp only [sumAbs, mul_zero, r0, abs_zero, add_zero, zero_add]
      exact round53_id _ hax
    rw [e]
    have h1 : |x| ≤ round53 (|x| * round53 (1 + gamma round53 3)) := by
      have := mono (x := |x|) (y := |x| * round53 (1 + gamma round53 3))
        (le_mul_of_one_le_right (abs_nonneg _) one_gamma_lower)
      rwa [round53_id _ hax] at this
    have := mono (x := |x|) (y := round53 (|x| * round53 (1 + gamma round53 3)) + e2) (by linarith)
    rwa [round53_id _ hax] at this
  exact ⟨key _ (reported_nonneg _ _ _ _ _ _ _), key _ (reported_nonneg _ _ _ _ _ _ _)⟩

example : Round.Spec.Representable 10 := ⟨10, 0, by norm_num, by norm_num⟩

/-- C97 fails for rays with errors, for the same reason: a ray at the origin that is exact, translated by ten, starts
at more than twenty. -/
theorem C97_violated_ray_translation :
    20 < ((Transform.translate 10 0 0).rayPropagateError round53 0 ⟨1, 0, 0⟩ 0 0).origin.x := by
  decide +kernel

/-- C97 fails for rays after rounding: the origin is moved, but does not reach past all the points within the error.
(In exact arithmetic it does: `C97_ray_partial`.) -/
theorem C97_violated_ray : ∃ (t : Transform ℚ) (o d q : V3 ℚ), Within (t.rayWithError round53 o d).originError (t.pt o) q ∧
    t.pt o = (t.ptWithError round53 o).1 ∧ 0 < (q - (t.rayWithError round53 o d).origin).dot (t.rayWithError round53 o d).direction := by
  refine ⟨Transform.new, ⟨3 / 2, 0, 0⟩, ⟨1, 0, 0⟩, ⟨3 / 2 + 9 / 2 ^ 54, 0, 0⟩, ?_, ?_, ?_⟩
  · unfold Within; decide +kernel
  · decide +kernel
  · decide +kernel

section Ray

variable {K : Type*} [Field K] [LinearOrder K] [IsStrictOrderedRing K]

private theorem lengthSquared_pos {d : V3 K} (h : d ≠ 0) : 0 < d.x * d.x + d.y * d.y + d.z * d.z := by
  rcases lt_or_eq_of_le (show 0 ≤ d.x * d.x + d.y * d.y + d.z * d.z from
    add_nonneg (add_nonneg (mul_self_nonneg _) (mul_self_nonneg _)) (mul_self_nonneg _)) with h' | h'
  · exact h'
  · exfalso
    apply h
    have a := mul_self_nonneg d.x
    have b := mul_self_nonneg d.y
    have c := mul_self_nonneg d.z
    have hx : d.x = 0 := mul_self_eq_zero.1 (by linarith)
    have hy : d.y = 0 := mul_self_eq_zero.1 (by linarith)
    have hz : d.z = 0 := mul_self_eq_zero.1 (by linarith)
    exact V3.ext hx hy hz

private theorem moved_clear (o d e : V3 K) (hx : 0 ≤ e.x) (hy : 0 ≤ e.y) (hz : 0 ≤ e.z) :
    Clear o e d (moved id o d e) := by
  by_cases h : d = 0
  · subst h
    have : moved id o 0 e = o := by
      unfold moved sum3
      have : ¬ (0 : K) < id (id (id ((0 : V3 K).x * (0 : V3 K).x) + id ((0 : V3 K).y * (0 : V3 K).y)) + id ((0 : V3 K).z * (0 : V3 K).z)) := by
        show ¬ (0 : K) < 0 * 0 + 0 * 0 + 0 * 0
        simp
      rw [if_neg this]
    rw [this]
    refine ⟨⟨0, le_refl _, ?_⟩, fun h => absurd rfl h⟩
    apply V3.ext
    · show o.x = o.x + 0 * 0; ring
    · show o.y = o.y + 0 * 0; ring
    · show o.z = o.z + 0 * 0; ring
  have hl := lengthSquared_pos h
  have hdt : 0 ≤ (|d.x| * e.x + |d.y| * e.y + |d.z| * e.z) / (d.x * d.x + d.y * d.y + d.z * d.z) :=
    div_nonneg (by positivity) hl.le
  have hm : moved id o d e = o + d.scale ((|d.x| * e.x + |d.y| * e.y + |d.z| * e.z) / (d.x * d.x + d.y * d.y + d.z * d.z)) := by
    unfold moved sum3
    rw [if_pos (by exact hl)]
    rfl
  rw [hm]
  have hd : ∀ q : V3 K, (q - (o + d.scale ((|d.x| * e.x + |d.y| * e.y + |d.z| * e.z) / (d.x * d.x + d.y * d.y + d.z * d.z)))).dot d =
      (q.x - o.x) * d.x + (q.y - o.y) * d.y + (q.z - o.z) * d.z - (|d.x| * e.x + |d.y| * e.y + |d.z| * e.z) := by
    intro q
    show (q.x - (o.x + d.x * ((|d.x| * e.x + |d.y| * e.y + |d.z| * e.z) / (d.x * d.x + d.y * d.y + d.z * d.z)))) * d.x +
      (q.y - (o.y + d.y * ((|d.x| * e.x + |d.y| * e.y + |d.z| * e.z) / (d.x * d.x + d.y * d.y + d.z * d.z)))) * d.y +
      (q.z - (o.z + d.z * ((|d.x| * e.x + |d.y| * e.y + |d.z| * e.z) / (d.x * d.x + d.y * d.y + d.z * d.z)))) * d.z = _
    generalize |d.x| * e.x + |d.y| * e.y + |d.z| * e.z = s at *
    have hne : d.x * d.x + d.y * d.y + d.z * d.z ≠ 0 := hl.ne'
    have : s / (d.x * d.x + d.y * d.y + d.z * d.z) * (d.x * d.x + d.y * d.y + d.z * d.z) = s := div_mul_cancel₀ _ hne
    generalize s / (d.x * d.x + d.y * d.y + d.z * d.z) = k at *
    rw [← this]
    ring
  refine ⟨⟨_, hdt, rfl⟩, fun _ => ⟨fun q hq => ?_, ?_⟩⟩
  · obtain ⟨h1, h2, h3⟩ := hq
    rw [hd]
    have m : ∀ a b c : K, |a| ≤ c → a * b ≤ |b| * c := fun a b c h => by
      refine (le_abs_self _).trans ?_
      rw [abs_mul, mul_comm]
      exact mul_le_mul_of_nonneg_left h (abs_nonneg _)
    linarith [m _ d.x _ h1, m _ d.y _ h2, m _ d.z _ h3]
  · have pick : ∀ b c : K, 0 ≤ c → ∃ a, |a| ≤ c ∧ a * b = |b| * c := fun b c hc => by
      rcases le_total 0 b with hb | hb
      · exact ⟨c, by rw [abs_of_nonneg hc], by rw [abs_of_nonneg hb]; ring⟩
      · exact ⟨-c, by rw [abs_neg, abs_of_nonneg hc], by rw [abs_of_nonpos hb]; ring⟩
    obtain ⟨a1, b1, c1⟩ := pick d.x e.x hx
    obtain ⟨a2, b2, c2⟩ := pick d.y e.y hy
    obtain ⟨a3, b3, c3⟩ := pick d.z e.z hz
    refine ⟨⟨o.x + a1, o.y + a2, o.z + a3⟩, ⟨?_, ?_, ?_⟩, ?_⟩
    · simpa using b1
    · simpa using b2
    · simpa using b3
    · rw [hd]
      simp only [add_sub_cancel_left]
      rw [c1, c2, c3, sub_self]

private theorem gamma_id_pos : (0 : K) < gamma id 3 := by
  show (0 : K) < 1 / 2 ^ 53 * 3 / (1 - 1 / 2 ^ 53 * 3)
  norm_num

private theorem sumAbs_id_nonneg (a b c d x y z : K) : 0 ≤ sumAbs id a b c d x y z := by
  show 0 ≤ |a * x| + |b * y| + |c * z| + |d|
  positivity

/-- C97, the part that holds without rounding: the origin of a transformed ray is moved along its direction to the
first point that has every point within the error of the origin behind it, and not moved if the direction is zero. -/
theorem C97_ray_partial (t : Transform K) (o d eo ed : V3 K) :
    Clear (t.pt o) (t.rayWithError id o d).originError (t.vec d) (t.rayWithError id o d).origin ∧
    Clear (t.invPt o) (t.invRayWithError id o d).originError (t.invVec d) (t.invRayWithError id o d).origin ∧
    Clear (t.pt o) (t.rayPropagateError id o d eo ed).originError (t.vec d) (t.rayPropagateError id o d eo ed).origin ∧
    Clear (t.invPt o) (t.invRayPropagateError id o d eo ed).originError (t.invVec d)
      (t.invRayPropagateError id o d eo ed).origin := by
  have g := gamma_id_pos (K := K)
  have n := sumAbs_id_nonneg (K := K)
  have n1 : ∀ a b c d x y z : K, 0 ≤ id (sumAbs id a b c d x y z * gamma id 3) := fun a b c d x y z =>
    mul_nonneg (n _ _ _ _ _ _ _) g.le
  have n2 : ∀ a b c d x y z x' y' z' : K, 0 ≤ id (id (sumAbs id a b c d x y z * id (1 + gamma id 3)) +
      id (sumAbs id a b c d x' y' z' * gamma id 3)) := fun a b c d x y z x' y' z' =>
    add_nonneg (mul_nonneg (n _ _ _ _ _ _ _) (add_nonneg zero_le_one g.le)) (n1 _ _ _ _ _ _ _)
  exact ⟨moved_clear _ _ _ (n1 _ _ _ _ _ _ _) (n1 _ _ _ _ _ _ _) (n1 _ _ _ _ _ _ _),
    moved_clear _ _ _ (n1 _ _ _ _ _ _ _) (n1 _ _ _ _ _ _ _) (n1 _ _ _ _ _ _ _),
    moved_clear _ _ _ (n2 _ _ _ _ _ _ _ _ _ _) (n2 _ _ _ _ _ _ _ _ _ _) (n2 _ _ _ _ _ _ _ _ _ _),
    moved_clear _ _ _ (n2 _ _ _ _ _ _ _ _ _ _) (n2 _ _ _ _ _ _ _ _ _ _) (n2 _ _ _ _ _ _ _ _ _ _)⟩

end Ray

end Simple.Geometry
