import Mathlib.Tactic.Linarith
import Mathlib.Tactic.Positivity
import Mathlib.Tactic.FieldSimp
import Mathlib.Tactic.Ring
import Mathlib.Tactic.NormNum
import Verif.Render.ImageModel

/-! # C54 and C55: pixels and files of images -/

namespace Simple.Render.Image

open Colourmap (Rgb)

namespace Spec

/-- The greatest of the channels. -/
noncomputable def brightest (c : Rgb ℝ) : ℝ := max (max c.r c.g) c.b

/-- No channel is negative. -/
def Nonneg (c : Rgb ℝ) : Prop := 0 ≤ c.r ∧ 0 ≤ c.g ∧ 0 ≤ c.b

/-- A channel comes back as `y`: not above what it was, and below it by less than `d`. -/
def Below (d x y : ℝ) : Prop := y ≤ x ∧ x - d < y

/-- A colour comes back as `c'`. -/
def BelowAll (d : ℝ) (c c' : Rgb ℝ) : Prop := Below d c.r c'.r ∧ Below d c.g c'.g ∧ Below d c.b c'.b

end Spec

open Spec

/-! ### Pixels -/

private theorem frexp_spec (v : ℝ) (hv : 0 < v) :
    ∃ e : ℤ, (frexp v).2 = e ∧ (frexp v).1 * (256 / v) = 256 / 2 ^ e ∧ (2 : ℝ) ^ (e - 1) ≤ v ∧ v < 2 ^ e := by
  refine ⟨_, rfl, ?_⟩
  unfold frexp
  rw [if_neg hv.ne']
  simp only [if_pos hv, one_mul, abs_of_pos hv]
  have hz : ⌊Real.logb 2 v⌋ = Int.log 2 v := Real.floor_logb_natCast (b := 2) hv.le
  have h1 := Int.zpow_log_le_self (b := 2) (by norm_num) hv
  have h2 := Int.lt_zpow_succ_log_self (b := 2) (by norm_num) v
  push_cast at h1 h2
  rw [← hz] at h1 h2
  refine ⟨?_, by rw [add_sub_cancel_right]; exact h1, h2⟩
  rw [sub_sub, Real.rpow_sub (by norm_num), Real.rpow_logb (by norm_num) (by norm_num) hv]
  have : ((⌊Real.logb 2 v⌋ : ℝ) + 1) = ((⌊Real.logb 2 v⌋ + 1 : ℤ) : ℝ) := by push_cast; rfl
  rw [this, Real.rpow_intCast]
  have h3 : (2 : ℝ) ^ (⌊Real.logb 2 v⌋ + 1) ≠ 0 := zpow_ne_zero _ (by norm_num)
  field_simp

private theorem brightest_eq (c : Rgb ℝ) :
    (if (if c.r < c.g then c.g else c.r) < c.b then c.b else if c.r < c.g then c.g else c.r) = brightest c := by
  unfold brightest
  rw [max_def_lt, max_def_lt]

/-- What a colour that is not black is encoded as. -/
private theorem encode_eq (checks : Bool) (c : Rgb ℝ) (hlo : 1 / 10 ^ 19 ≤ brightest c) (hhi : brightest c < 2 ^ 127) :
    ∃ e : ℤ, -64 < e ∧ e ≤ 127 ∧ (2 : ℝ) ^ (e - 1) ≤ brightest c ∧ brightest c < 2 ^ e ∧
      encode checks c = .ok (floorU8 (c.r * (256 / 2 ^ e)), floorU8 (c.g * (256 / 2 ^ e)), floorU8 (c.b * (256 / 2 ^ e)), (e + 128).toNat) := by
  have hv : 0 < brightest c := lt_of_lt_of_le (by positivity) hlo
  obtain ⟨e, e1, e2, e3, e4⟩ := frexp_spec (brightest c) hv
  have g1 : -64 < e := by
    by_contra h
    have : (2 : ℝ) ^ e ≤ 2 ^ (-64 : ℤ) := zpow_le_zpow_right₀ (by norm_num) (by omega)
    have : (1 : ℝ) / 10 ^ 19 < 2 ^ (-64 : ℤ) := hlo.trans_lt (e4.trans_le this)
    norm_num at this
  have g2 : e ≤ 127 := by
    by_contra h
    have : (2 : ℝ) ^ (127 : ℤ) ≤ 2 ^ (e - 1) := zpow_le_zpow_right₀ (by norm_num) (by omega)
    have h' : (2 : ℝ) ^ (127 : ℤ) = 2 ^ 127 := by norm_cast
    rw [h'] at this
    linarith
  refine ⟨e, g1, g2, e3, e4, ?_⟩
  unfold encode
  dsimp only
  rw [brightest_eq, if_neg (not_lt.2 hlo), e1, e2, if_neg (by omega)]
  unfold i32AsU8
  rw [Int.emod_eq_of_lt (by omega) (by omega)]

/-- Encoding does not fail when it is not too bright. -/
theorem encode_defined (checks : Bool) (c : Rgb ℝ) (hlo : 1 / 10 ^ 19 ≤ brightest c) (hhi : brightest c < 2 ^ 127) :
    ∃ p, encode checks c = .ok p := by
  obtain ⟨e, -, -, -, -, h⟩ := encode_eq checks c hlo hhi
  exact ⟨_, h⟩

private theorem decode_eq (r g b : ℕ) (e : ℤ) (h1 : -64 < e) :
    decode (r, g, b, (e + 128).toNat) = ⟨r * (2 ^ e / 256), g * (2 ^ e / 256), b * (2 ^ e / 256)⟩ := by
  unfold decode ldexp
  rw [if_neg (show ¬ (e + 128).toNat = 0 by omega)]
  have : ((((e + 128).toNat : ℕ) : ℤ) - (128 + 8)) = e - 8 := by omega
  simp only [this, one_mul]
  have : (2 : ℝ) ^ (e - 8) = 2 ^ e / 256 := by
    rw [zpow_sub₀ (by norm_num)]; norm_num
  rw [this]

private theorem floorU8_eq (x : ℝ) (h0 : 0 ≤ x) (h1 : x < 256) : ((floorU8 x : ℕ) : ℤ) = ⌊x⌋ := by
  have a : 0 ≤ ⌊x⌋ := Int.floor_nonneg.2 h0
  have b : ⌊x⌋ < 256 := Int.floor_lt.2 (by exact_mod_cast h1)
  unfold floorU8
  omega

private theorem channel (e : ℤ) (x : ℝ) (h0 : 0 ≤ x) (h1 : x < 2 ^ e) :
    Below (2 ^ e / 256) x (floorU8 (x * (256 / 2 ^ e)) * (2 ^ e / 256)) := by
  have hp : (0 : ℝ) < 2 ^ e := zpow_pos (by norm_num) _
  obtain ⟨y, hy⟩ : ∃ y, y = x * (256 / 2 ^ e) := ⟨_, rfl⟩
  have hx : x = y * (2 ^ e / 256) := by rw [hy]; field_simp
  have hy0 : 0 ≤ y := by rw [hy]; positivity
  have hy1 : y < 256 := by rw [hy, mul_div_assoc', div_lt_iff₀ hp]; nlinarith
  rw [← hy]
  have hf : ((floorU8 y : ℕ) : ℝ) = (⌊y⌋ : ℝ) := by exact_mod_cast congrArg (Int.cast : ℤ → ℝ) (floorU8_eq y hy0 hy1)
  rw [hf, hx]
  have f1 := Int.floor_le y
  have f2 := Int.lt_floor_add_one y
  have hq : (0 : ℝ) < 2 ^ e / 256 := by positivity
  constructor
  · exact mul_le_mul_of_nonneg_right f1 hq.le
  · nlinarith

/-- C54: a colour is encoded without failure, and decodes to a colour each channel of which is not above the original one,
and below it by less than one part in 128 of the brightest channel. -/
theorem C54_decode (checks : Bool) (c : Rgb ℝ) (h : Nonneg c) (hlo : 1 / 10 ^ 19 ≤ brightest c) (hhi : brightest c < 2 ^ 127) :
    ∃ p, encode checks c = .ok p ∧ BelowAll (brightest c / 128) c (decode p) := by
  obtain ⟨e, e1, e2, e3, e4, e5⟩ := encode_eq checks c hlo hhi
  refine ⟨_, e5, ?_⟩
  rw [decode_eq _ _ _ _ e1]
  have hd : (2 : ℝ) ^ e / 256 ≤ brightest c / 128 := by
    rw [zpow_sub₀ (by norm_num), zpow_one] at e3
    linarith
  have hr : c.r ≤ brightest c := (le_max_left _ _).trans (le_max_left _ _)
  have hg : c.g ≤ brightest c := (le_max_right _ _).trans (le_max_left _ _)
  have hb : c.b ≤ brightest c := le_max_right _ _
  have weaken : ∀ {x y : ℝ}, Below (2 ^ e / 256) x y → Below (brightest c / 128) x y := fun h => ⟨h.1, by linarith [h.2]⟩
  exact ⟨weaken (channel e _ h.1 (by linarith)), weaken (channel e _ h.2.1 (by linarith)), weaken (channel e _ h.2.2 (by linarith))⟩

private theorem encode_black (checks : Bool) (c : Rgb ℝ) (h : brightest c < 1 / 10 ^ 19) : encode checks c = .ok (0, 0, 0, 0) := by
  unfold encode
  dsimp only
  rw [brightest_eq, if_pos h]

/-- C54: what is darker than 10⁻¹⁹ becomes black. -/
theorem C54_black (checks : Bool) (c : Rgb ℝ) (h : brightest c < 1 / 10 ^ 19) :
    ∃ p, encode checks c = .ok p ∧ decode p = ⟨0, 0, 0⟩ := by
  exact ⟨(0, 0, 0, 0), encode_black checks c h, rfl⟩

private theorem floorU8_floor (x : ℝ) (e : ℤ) :
    floorU8 ((floorU8 (x * (256 / 2 ^ e)) : ℝ) * (2 ^ e / 256) * (256 / 2 ^ e)) = floorU8 (x * (256 / 2 ^ e)) := by
  have hp : (0 : ℝ) < 2 ^ e := zpow_pos (by norm_num) _
  have : (floorU8 (x * (256 / 2 ^ e)) : ℝ) * (2 ^ e / 256) * (256 / 2 ^ e) = ((floorU8 (x * (256 / 2 ^ e)) : ℤ) : ℝ) := by
    push_cast; field_simp
  rw [this]
  generalize hn : floorU8 (x * (256 / 2 ^ e)) = n
  have hle : n ≤ 255 := by rw [← hn]; exact min_le_left _ _
  unfold floorU8
  rw [Int.floor_intCast]
  omega

/-- C54: a colour that was decoded is encoded to the same pixel again, unless it is about as dark as the limit of what
becomes black.  (What is missing is that exception: see `C54_violated_threshold`.) -/
theorem C54_stable_partial (checks : Bool) (c : Rgb ℝ) (h : Nonneg c) (hlo : 101 / 10 ^ 21 ≤ brightest c)
    (hhi : brightest c < 2 ^ 127) : ∃ p, encode checks c = .ok p ∧ encode checks (decode p) = .ok p := by
  have hlo' : 1 / 10 ^ 19 ≤ brightest c := le_trans (by norm_num) hlo
  obtain ⟨e, e1, e2, e3, e4, e5⟩ := encode_eq checks c hlo' hhi
  refine ⟨_, e5, ?_⟩
  rw [decode_eq _ _ _ _ e1]
  have hr : c.r ≤ brightest c := (le_max_left _ _).trans (le_max_left _ _)
  have hg : c.g ≤ brightest c := (le_max_right _ _).trans (le_max_left _ _)
  have hb : c.b ≤ brightest c := le_max_right _ _
  have cr := channel e _ h.1 (by linarith)
  have cg := channel e _ h.2.1 (by linarith)
  have cb := channel e _ h.2.2 (by linarith)
  obtain ⟨c', hc'⟩ : ∃ c' : Rgb ℝ, c' = ⟨floorU8 (c.r * (256 / 2 ^ e)) * (2 ^ e / 256), floorU8 (c.g * (256 / 2 ^ e)) * (2 ^ e / 256),
    floorU8 (c.b * (256 / 2 ^ e)) * (2 ^ e / 256)⟩ := ⟨_, rfl⟩
  have r1 : Below (2 ^ e / 256) c.r c'.r := by rw [hc']; exact cr
  have g1 : Below (2 ^ e / 256) c.g c'.g := by rw [hc']; exact cg
  have b1 : Below (2 ^ e / 256) c.b c'.b := by rw [hc']; exact cb
  have hp : (0 : ℝ) < 2 ^ e := zpow_pos (by norm_num) _
  have e3' : (2 : ℝ) ^ e / 2 ≤ brightest c := by rw [zpow_sub₀ (by norm_num), zpow_one] at e3; exact e3
  -- the brightest channel stays in the same binade
  have key : ∀ x : ℝ, 0 ≤ x → x = brightest c → (2 : ℝ) ^ e / 2 ≤ floorU8 (x * (256 / 2 ^ e)) * (2 ^ e / 256) := by
    intro x hx0 hx
    have hy0 : 0 ≤ x * (256 / 2 ^ e) := by positivity
    have hy1 : x * (256 / 2 ^ e) < 256 := by rw [mul_div_assoc', div_lt_iff₀ hp]; nlinarith
    have hy2 : 128 ≤ x * (256 / 2 ^ e) := by rw [mul_div_assoc', le_div_iff₀ hp]; nlinarith
    have hf := floorU8_eq _ hy0 hy1
    have h128 : (128 : ℤ) ≤ ⌊x * (256 / 2 ^ e)⌋ := Int.le_floor.2 (by exact_mod_cast hy2)
    have : (128 : ℝ) ≤ (floorU8 (x * (256 / 2 ^ e)) : ℝ) := by
      rw [← hf] at h128; exact_mod_cast h128
    nlinarith
  have hbr : (2 : ℝ) ^ e / 2 ≤ brightest c' ∧ brightest c - 2 ^ e / 256 < brightest c' := by
    have m1 : c'.r ≤ brightest c' := (le_max_left _ _).trans (le_max_left _ _)
    have m2 : c'.g ≤ brightest c' := (le_max_right _ _).trans (le_max_left _ _)
    have m3 : c'.b ≤ brightest c' := le_max_right _ _
    rcases max_choice (max c.r c.g) c.b with hm | hm
    · rcases max_choice c.r c.g with hm' | hm'
      · have hx : c.r = brightest c := by unfold brightest; rw [hm, hm']
        have := key _ h.1 hx
        exact ⟨by rw [hc'] at m1; rw [hc']; linarith, by linarith [r1.2]⟩
      · have hx : c.g = brightest c := by unfold brightest; rw [hm, hm']
        have := key _ h.2.1 hx
        exact ⟨by rw [hc'] at m2; rw [hc']; linarith, by linarith [g1.2]⟩
    · have hx : c.b = brightest c := by unfold brightest; rw [hm]
      have := key _ h.2.2 hx
      exact ⟨by rw [hc'] at m3; rw [hc']; linarith, by linarith [b1.2]⟩
  have hup : brightest c' ≤ brightest c :=
    max_le (max_le (r1.1.trans hr) (g1.1.trans hg)) (b1.1.trans hb)
  have hlo2 : 1 / 10 ^ 19 ≤ brightest c' := by
    have : brightest c - brightest c / 128 < brightest c' := by linarith [hbr.2]
    have : (101 : ℝ) / 10 ^ 21 * (127 / 128) < brightest c' := by linarith
    norm_num at this ⊢
    linarith
  obtain ⟨f, f1, f2, f3, f4, f5⟩ := encode_eq checks c' hlo2 (lt_of_le_of_lt hup hhi)
  have hfe : f = e := by
    have q1 : (2 : ℝ) ^ (f - 1) < 2 ^ e := by linarith
    have q2 : (2 : ℝ) ^ (e - 1) < 2 ^ f := by
      rw [zpow_sub₀ (by norm_num), zpow_one]; linarith [hbr.1]
    have := (zpow_lt_zpow_iff_right₀ (by norm_num : (1 : ℝ) < 2)).1 q1
    have := (zpow_lt_zpow_iff_right₀ (by norm_num : (1 : ℝ) < 2)).1 q2
    omega
  rw [← hc', f5, hfe, hc']
  simp only
  rw [floorU8_floor, floorU8_floor, floorU8_floor]

/-- C54 fails: a grey of 10⁻¹⁹ decodes to a grey that is encoded as black. -/
theorem C54_violated_threshold (checks : Bool) : ∃ p, encode checks ⟨1 / 10 ^ 19, 1 / 10 ^ 19, 1 / 10 ^ 19⟩ = .ok p ∧
    decode p ≠ ⟨0, 0, 0⟩ ∧ encode checks (decode p) = .ok (0, 0, 0, 0) := by
  have hb : ∀ x : ℝ, brightest ⟨x, x, x⟩ = x := fun x => by simp [brightest]
  obtain ⟨e, e1, e2, e3, e4, e5⟩ := encode_eq checks ⟨1 / 10 ^ 19, 1 / 10 ^ 19, 1 / 10 ^ 19⟩ (by rw [hb])
    (by rw [hb]; norm_num)
  rw [hb] at e3 e4
  have he : e = -63 := by
    have : e < -62 := by
      by_contra h
      have : (2 : ℝ) ^ (-63 : ℤ) ≤ 2 ^ (e - 1) := zpow_le_zpow_right₀ (by norm_num) (by omega)
      have : (2 : ℝ) ^ (-63 : ℤ) ≤ 1 / 10 ^ 19 := this.trans e3
      norm_num at this
    omega
  subst he
  refine ⟨_, e5, ?_⟩
  have hf : floorU8 ((1 : ℝ) / 10 ^ 19 * (256 / 2 ^ (-63 : ℤ))) = 236 := by
    have : ⌊(1 : ℝ) / 10 ^ 19 * (256 / 2 ^ (-63 : ℤ))⌋ = 236 := by
      rw [Int.floor_eq_iff]; norm_num
    unfold floorU8; rw [this]; rfl
  simp only [hf]
  rw [decode_eq _ _ _ _ e1]
  constructor
  · intro h
    have := congrArg Rgb.r h
    norm_num at this
  · refine encode_black checks _ ?_
    simp only [brightest, max_self]
    norm_num

/-- C54 fails for colours of 2¹²⁷ and more: with the assertions of the program the encoding panics, and without them the
exponent wraps and the colour becomes black. -/
theorem C54_violated_bright (c : Rgb ℝ) (h1 : 2 ^ 127 ≤ brightest c) (h2 : brightest c < 2 ^ 128) :
    encode true c = .panic ∧ ∃ p, encode false c = .ok p ∧ decode p = ⟨0, 0, 0⟩ := by
  have hv : 0 < brightest c := lt_of_lt_of_le (by positivity) h1
  obtain ⟨e, e1, e2, e3, e4⟩ := frexp_spec (brightest c) hv
  have he : e = 128 := by
    have q1 : (2 : ℝ) ^ (e - 1) < 2 ^ (128 : ℤ) := by
      have : (2 : ℝ) ^ (128 : ℤ) = 2 ^ 128 := by norm_cast
      rw [this]; linarith
    have q2 : (2 : ℝ) ^ (127 : ℤ) < 2 ^ e := by
      have : (2 : ℝ) ^ (127 : ℤ) = 2 ^ 127 := by norm_cast
      rw [this]; linarith
    have := (zpow_lt_zpow_iff_right₀ (by norm_num : (1 : ℝ) < 2)).1 q1
    have := (zpow_lt_zpow_iff_right₀ (by norm_num : (1 : ℝ) < 2)).1 q2
    omega
  have hlo : ¬ brightest c < 1 / 10 ^ 19 := not_lt.2 (le_trans (by norm_num) h1)
  subst he
  constructor
  · unfold encode
    dsimp only
    rw [brightest_eq, if_neg hlo, e1, if_pos ⟨rfl, by norm_num⟩]
  · unfold encode
    dsimp only
    rw [brightest_eq, if_neg hlo, e1, if_neg (by simp)]
    exact ⟨_, rfl, rfl⟩

/-- An orange. -/
example : ∃ p, encode true ⟨1, 1 / 2, 1 / 10⟩ = .ok p ∧ BelowAll (1 / 128) ⟨1, 1 / 2, 1 / 10⟩ (decode p) := by
  have hb : brightest ⟨1, 1 / 2, 1 / 10⟩ = 1 := by norm_num [brightest]
  have := C54_decode true ⟨1, 1 / 2, 1 / 10⟩ (by norm_num [Nonneg]) (by rw [hb]; norm_num) (by rw [hb]; norm_num)
  rwa [hb] at this

end Simple.Render.Image
