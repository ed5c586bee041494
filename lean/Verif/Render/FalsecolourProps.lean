import Verif.Render.FalsecolourModel
import Verif.Render.ColourmapProps

/-! C101: images in false colours. -/

namespace Simple.Render.Image

open Colourmap (Rgb)

namespace Spec

/-- The colour of a table, at a place between its first colour (0) and its last one (1). -/
def ColourAt (table : List (Rgb ℝ)) (place : ℝ) (c : Rgb ℝ) : Prop :=
  ∃ (k : ℕ) (lam : ℝ) (p q : Rgb ℝ), table[k]? = some p ∧ table[k + 1]? = some q ∧ 0 ≤ lam ∧ lam ≤ 1 ∧
    place = (k + lam) / (table.length - 1) ∧
    c = ⟨p.r + lam * (q.r - p.r), p.g + lam * (q.g - p.g), p.b + lam * (q.b - p.b)⟩

/-- The colour that a value has in a scale from `lo` to `hi`, for a measure `f` (the value itself, or its logarithm):
the first one of the table up to `lo`, the last one from `hi` on, and the one at its place between them. -/
def Shown (table : List (Rgb ℝ)) (f : ℝ → ℝ) (lo hi x : ℝ) (c : Rgb ℝ) : Prop :=
  (x ≤ lo → table[0]? = some c) ∧
  (lo < x → hi ≤ x → table[table.length - 1]? = some c) ∧
  (lo < x → x < hi → ColourAt table ((f x - f lo) / (f hi - f lo)) c)

/-- The byte of a channel that is `x` of 1: the nearest of 256 levels. -/
def Byte (x : ℝ) (b : ℕ) : Prop := b ≤ 255 ∧ (0 ≤ x → x ≤ 1 → |(b : ℝ) - min 255 (x * 256)| ≤ 1 / 2)

/-- The bytes of an image: three for each pixel, in the order of the pixels, which tell the colour of the pixel. -/
def Picture (pixels : List (Rgb ℝ)) (shown : Rgb ℝ → Rgb ℝ → Prop) (data : List ℕ) : Prop :=
  data.length = 3 * pixels.length ∧
  ∀ i p, pixels[i]? = some p → ∃ (c : Rgb ℝ) (r g b : ℕ), shown p c ∧
    data[3 * i]? = some r ∧ data[3 * i + 1]? = some g ∧ data[3 * i + 2]? = some b ∧
    Byte c.r r ∧ Byte c.g g ∧ Byte c.b b

/-- The luminance of a pixel, in cd/m²: 179 times the weighted mean of its channels. -/
noncomputable def lum (c : Rgb ℝ) : ℝ := 179 * (0.265 * c.r + 0.67 * c.g + 0.065 * c.b)

end Spec

theorem luminance_eq (c : Rgb ℝ) : luminance c = Spec.lum c := by
  unfold luminance radiance Spec.lum; ring

theorem byte_level (x : ℝ) : Spec.Byte x (level x) := by
  refine ⟨min_le_left _ _, fun h0 h1 => ?_⟩
  have hn : (0 : ℤ) ≤ ⌊x * 256 + 1 / 2⌋ := Int.floor_nonneg.2 (by linarith)
  have hc : ((⌊x * 256 + 1 / 2⌋.toNat : ℕ) : ℝ) = (⌊x * 256 + 1 / 2⌋ : ℝ) := by
    have := Int.toNat_of_nonneg hn
    exact_mod_cast this
  have e1 := Int.floor_le (x * 256 + 1 / 2)
  have e2 := Int.lt_floor_add_one (x * 256 + 1 / 2)
  unfold level
  rw [Nat.cast_min, hc]
  push_cast
  rw [abs_le]
  constructor
  · rcases min_cases (255 : ℝ) (⌊x * 256 + 1 / 2⌋ : ℝ) with h | h <;>
      rcases min_cases (255 : ℝ) (x * 256) with h' | h' <;> linarith [h.1, h.2, h'.1, h'.2]
  · rcases min_cases (255 : ℝ) (⌊x * 256 + 1 / 2⌋ : ℝ) with h | h <;>
      rcases min_cases (255 : ℝ) (x * 256) with h' | h' <;> linarith [h.1, h.2, h'.1, h'.2]

theorem pushAll_picture {α : Type*} (colour : α → Outcome (Rgb ℝ)) (val : Rgb ℝ → α) (shown : Rgb ℝ → Rgb ℝ → Prop)
    (pixels : List (Rgb ℝ)) (h : ∀ p ∈ pixels, ∃ c, colour (val p) = .ok c ∧ shown p c) :
    ∃ data, pushAll colour (pixels.map val) = .ok data ∧ Spec.Picture pixels shown data := by
  induction pixels with
  | nil => exact ⟨[], rfl, rfl, by simp⟩
  | cons p ps ih =>
    obtain ⟨c, hc, hs⟩ := h p (by simp)
    obtain ⟨data, hd, hl, hp⟩ := ih fun q hq => h q (by simp [hq])
    refine ⟨level c.r :: level c.g :: level c.b :: data, ?_, ?_, ?_⟩
    · simp only [List.map_cons, pushAll, hc, hd, Outcome.bind]
    · simp only [List.length_cons, hl]; omega
    · intro i q hq
      cases i with
      | zero =>
        simp only [List.getElem?_cons_zero, Option.some.injEq] at hq
        subst hq
        exact ⟨c, _, _, _, hs, rfl, rfl, rfl, byte_level _, byte_level _, byte_level _⟩
      | succ i =>
        simp only [List.getElem?_cons_succ] at hq
        obtain ⟨c', r, g, b, e, e1, e2, e3, e4⟩ := hp i q hq
        refine ⟨c', r, g, b, e, ?_, ?_, ?_, e4⟩
        · rw [show 3 * (i + 1) = 3 * i + 1 + 1 + 1 by ring]; simpa using e1
        · rw [show 3 * (i + 1) + 1 = 3 * i + 1 + 1 + 1 + 1 by ring]; simpa using e2
        · rw [show 3 * (i + 1) + 2 = 3 * i + 2 + 1 + 1 + 1 by ring]; simpa using e3

theorem mapLinear_shown (x lo hi : ℝ) (table : List (Rgb ℝ)) (h : 2 ≤ table.length) :
    ∃ c, Colourmap.mapLinear id x lo hi table = .ok c ∧ Spec.Shown table id lo hi x c := by
  obtain ⟨h1, h2, h3⟩ := Colourmap.C56_map_linear_partial x lo hi table h
  rcases le_or_gt x lo with hx | hx
  · obtain ⟨c, e, e'⟩ := h1 hx
    exact ⟨c, e', fun _ => e, fun h => absurd h (not_lt.2 hx), fun h => absurd h (not_lt.2 hx)⟩
  · rcases le_or_gt hi x with hy | hy
    · obtain ⟨c, e, e'⟩ := h2 hx hy
      exact ⟨c, e', fun h => absurd h (not_le.2 hx), fun _ _ => e, fun _ h => absurd h (not_lt.2 hy)⟩
    · obtain ⟨k, lam, p, q, e1, e2, e3, e4, e5, e6⟩ := h3 hx hy
      refine ⟨_, e6, fun h => absurd h (not_le.2 hx), fun _ h => absurd h (not_le.2 hy), fun _ _ =>
        ⟨k, lam, p, q, e1, e2, e3, e4, e5, ?_⟩⟩
      simp only [Colourmap.Spec.mix, Colourmap.Rgb.mk.injEq]
      refine ⟨?_, ?_, ?_⟩ <;> ring

theorem searchMax_greatest (l : List ℝ) (m : ℝ) : IsGreatest {x | x = m ∨ x ∈ l} (searchMax m l) := by
  induction l generalizing m with
  | nil => exact ⟨Or.inl rfl, by rintro x (h | h); exacts [h.le, absurd h (by simp)]⟩
  | cons a l ih =>
    unfold searchMax
    rw [List.foldl_cons]
    obtain ⟨i1, i2⟩ := ih (if m < a then a else m)
    change IsGreatest _ (searchMax (if m < a then a else m) l)
    constructor
    · rcases i1 with h | h
      · by_cases hm : m < a
        · rw [if_pos hm] at h ⊢; exact Or.inr (by rw [h]; simp)
        · rw [if_neg hm] at h ⊢; exact Or.inl h
      · exact Or.inr (by simp [h])
    · have hge : (if m < a then a else m) ≤ searchMax (if m < a then a else m) l := i2 (Or.inl rfl)
      rintro x (h | h)
      · subst h
        refine le_trans ?_ hge
        split_ifs with hm
        · exact hm.le
        · exact le_refl _
      · rcases List.mem_cons.1 h with h | h
        · subst h
          refine le_trans ?_ hge
          split_ifs with hm
          · exact le_refl _
          · exact not_lt.1 hm
        · exact i2 (Or.inr h)

/-- C101, the linear scale: whatever the image and the limits, the program does not panic, and gives the encoder three
bytes per pixel, in order.  The scale goes from the minimum that is asked for (zero, if none or a negative one is) to
the maximum that is asked for or, if none is, to the luminance of the brightest pixel. -/
theorem C101_linear (im : Buffer) (min max : Option ℝ) (table : List (Rgb ℝ)) (ht : 2 ≤ table.length) (hi : ℝ)
    (hhi : max = some hi ∨ max = none ∧ IsGreatest {x | x = 0 ∨ ∃ p ∈ im.pixels, x = Spec.lum p} hi) :
    ∃ j, falsecolour im min max table = .ok j ∧
      Spec.Picture im.pixels (fun p c => Spec.Shown table id (Max.max (min.getD 0) 0) hi (Spec.lum p) c) j.data := by
  have hlim : limits min max (im.pixels.map luminance) = (Max.max (min.getD 0) 0, hi) := by
    unfold limits
    refine Prod.ext ?_ ?_
    · cases min <;> simp
    · rcases hhi with h | ⟨h, hg⟩
      · subst h; rfl
      · subst h
        have e : searchMax 0 (im.pixels.map luminance) = hi := by
          refine (searchMax_greatest _ _).unique ?_
          have hs : {x | x = 0 ∨ x ∈ im.pixels.map luminance} = {x | x = 0 ∨ ∃ p ∈ im.pixels, x = Spec.lum p} := by
            ext x
            simp only [List.mem_map, luminance_eq, Set.mem_setOf_eq]
            exact or_congr Iff.rfl ⟨fun ⟨a, h1, h2⟩ => ⟨a, h1, h2.symm⟩, fun ⟨a, h1, h2⟩ => ⟨a, h1, h2.symm⟩⟩
          rw [hs]
          exact hg
        simp only [e]
        have h0 : 0 ≤ hi := hg.2 (Or.inl rfl)
        split_ifs with h
        · linarith
        · rfl
  obtain ⟨data, hd, hp⟩ := pushAll_picture
    (fun x => Colourmap.mapLinear id x (Max.max (min.getD 0) 0) hi table) luminance
    (fun p c => Spec.Shown table id (Max.max (min.getD 0) 0) hi (Spec.lum p) c) im.pixels
    (fun p _ => by
      rw [luminance_eq]
      exact mapLinear_shown _ _ _ table ht)
  refine ⟨⟨im.width % 2 ^ 16, im.height % 2 ^ 16, data⟩, ?_, hp⟩
  unfold falsecolour
  simp only [hlim, hd, Outcome.bind]

/-- The logarithms in base 10, found from the value. -/
theorem log10_pos {x : ℝ} (h : 0 < x) : log10 x = .fin (Real.logb 10 x) := by
  unfold log10
  rw [if_neg (not_lt.2 h.le), if_neg h.ne']

theorem mapLog_shown (x lo hi : ℝ) (table : List (Rgb ℝ)) (ht : 2 ≤ table.length) (hx : 0 ≤ x) (hlo : 0 < lo) (hhi : 0 < hi) :
    ∃ c, mapLog (log10 x) (Real.logb 10 lo) (log10 hi) table = .ok c ∧ Spec.Shown table (Real.logb 10) lo hi x c := by
  rw [log10_pos hhi]
  rcases eq_or_lt_of_le hx with h | h
  · subst h
    have hz : log10 0 = .negInf := by unfold log10; simp
    rw [hz]
    refine ⟨table[0], ?_, fun _ => List.getElem?_eq_getElem (by omega), fun h => absurd h (not_lt.2 hlo.le),
      fun h => absurd h (not_lt.2 hlo.le)⟩
    simp only [mapLog]
    exact Outcome.index_of_lt (by omega)
  · rw [log10_pos h]
    obtain ⟨c, e, s1, s2, s3⟩ := mapLinear_shown (Real.logb 10 x) (Real.logb 10 lo) (Real.logb 10 hi) table ht
    have b : (1 : ℝ) < 10 := by norm_num
    refine ⟨c, e, fun hl => s1 ((Real.logb_le_logb b h hlo).2 hl), fun h1 h2 =>
      s2 ((Real.logb_lt_logb_iff b hlo h).2 h1) ((Real.logb_le_logb b hhi h).2 h2), fun h1 h2 =>
      s3 ((Real.logb_lt_logb_iff b hlo h).2 h1) ((Real.logb_lt_logb_iff b h hhi).2 h2)⟩

theorem searchMaxLog_eq (pixels : List (Rgb ℝ)) (m : ℝ) (hp : ∀ p ∈ pixels, 0 ≤ luminance p) :
    searchMaxLog m (pixels.map fun p => log10 (luminance p)) =
      searchMax m ((pixels.filter fun p => luminance p ≠ 0).map fun p => Real.logb 10 (luminance p)) := by
  induction pixels generalizing m with
  | nil => rfl
  | cons p ps ih =>
    have h0 := hp p (by simp)
    have ih' := fun m => ih m fun q hq => hp q (by simp [hq])
    rcases eq_or_lt_of_le h0 with h | h
    · have hz : log10 (luminance p) = .negInf := by rw [← h]; unfold log10; simp
      have hf : (List.filter (fun p => decide (luminance p ≠ 0)) (p :: ps)) = ps.filter fun p => decide (luminance p ≠ 0) := by
        rw [List.filter_cons_of_neg (by simp [← h])]
      rw [hf, ← ih', List.map_cons, hz]
      rfl
    · have hf : (List.filter (fun p => decide (luminance p ≠ 0)) (p :: ps)) = p :: ps.filter fun p => decide (luminance p ≠ 0) := by
        rw [List.filter_cons_of_pos (by simp [h.ne'])]
      rw [hf, List.map_cons, List.map_cons, log10_pos h]
      exact ih' _

/-- The least maximum of the logarithmic scale that the program finds by itself: the luminance whose logarithm is
0.001. -/
noncomputable def leastMax : ℝ := 10 ^ (0.001 : ℝ)

/-- C101, the logarithmic scale, for an image without negative luminances: if a positive maximum is asked for, or none
is and the brightest pixel is brighter than `leastMax` (some 1.0023 cd/m²), the program does not panic, and gives the
encoder three bytes per pixel, in order.  The scale goes from the minimum that is asked for (0.001 cd/m², if none or a
smaller one is) to the maximum that is asked for or, if none is, to the luminance of the brightest pixel; a black pixel
has the first colour. -/
theorem C101_log_partial (im : Buffer) (min max : Option ℝ) (table : List (Rgb ℝ)) (ht : 2 ≤ table.length) (hi : ℝ)
    (hp : ∀ p ∈ im.pixels, 0 ≤ Spec.lum p)
    (hhi : max = some hi ∧ 0 < hi ∨ max = none ∧ leastMax < hi ∧ IsGreatest {x | ∃ p ∈ im.pixels, x = Spec.lum p} hi) :
    ∃ j, logFalsecolour im min max table = .ok j ∧
      Spec.Picture im.pixels (fun p c => Spec.Shown table (Real.logb 10) (Max.max (min.getD 0) 0.001) hi (Spec.lum p) c) j.data := by
  have b : (1 : ℝ) < 10 := by norm_num
  have hl0 : 0 < leastMax := Real.rpow_pos_of_pos (by norm_num) _
  have hpos : 0 < hi := by
    rcases hhi with h | h
    · exact h.2
    · linarith [h.2.1]
  have hlo : (0 : ℝ) < Max.max (min.getD 0) 0.001 := lt_max_of_lt_right (by norm_num)
  have hlim : limitsLog min max (im.pixels.map fun p => log10 (luminance p)) =
      (Real.logb 10 (Max.max (min.getD 0) 0.001), log10 hi) := by
    unfold limitsLog
    refine Prod.ext ?_ ?_
    · cases min with
      | none =>
        simp only [Option.getD_none]
        rw [max_eq_right (by norm_num)]
        norm_num
      | some v =>
        simp only [Option.getD_some]
        norm_num
    · rcases hhi with ⟨h, _⟩ | ⟨h, hm, hg⟩
      · subst h; rfl
      · subst h
        have hll : Real.logb 10 leastMax = 1 / 1000 := by
          unfold leastMax
          rw [Real.logb_rpow (by norm_num) (by norm_num)]
          norm_num
        have hbig : 1 / 1000 < Real.logb 10 hi := by
          rw [← hll]
          exact (Real.logb_lt_logb_iff b hl0 hpos).2 hm
        have e : searchMaxLog (1 / 1000) (im.pixels.map fun p => log10 (luminance p)) = Real.logb 10 hi := by
          rw [searchMaxLog_eq _ _ (fun p h => by rw [luminance_eq]; exact hp p h)]
          refine (searchMax_greatest _ _).unique ⟨Or.inr ?_, ?_⟩
          · obtain ⟨p, h1, h2⟩ := hg.1
            rw [List.mem_map]
            refine ⟨p, ?_, by rw [luminance_eq, h2]⟩
            rw [List.mem_filter]
            refine ⟨h1, ?_⟩
            rw [luminance_eq, ← h2]
            simp [hpos.ne']
          · rintro x (h | h)
            · rw [h]; exact hbig.le
            · rw [List.mem_map] at h
              obtain ⟨p, h1, h2⟩ := h
              rw [List.mem_filter, luminance_eq] at h1
              rw [← h2, luminance_eq]
              have hp0 := hp p h1.1
              have hne : Spec.lum p ≠ 0 := by simpa using h1.2
              exact (Real.logb_le_logb b (lt_of_le_of_ne hp0 (Ne.symm hne)) hpos).2 (hg.2 ⟨p, h1.1, rfl⟩)
        simp only [e]
        rw [if_neg (not_le.2 hbig), log10_pos hpos]
  obtain ⟨data, hd, hpic⟩ := pushAll_picture
    (fun x => mapLog x (Real.logb 10 (Max.max (min.getD 0) 0.001)) (log10 hi) table) (fun p => log10 (luminance p))
    (fun p c => Spec.Shown table (Real.logb 10) (Max.max (min.getD 0) 0.001) hi (Spec.lum p) c) im.pixels
    (fun p h => by
      simp only [luminance_eq]
      exact mapLog_shown _ _ _ table ht (hp p h) hlo hpos)
  refine ⟨⟨im.width % 2 ^ 16, im.height % 2 ^ 16, data⟩, ?_, hpic⟩
  unfold logFalsecolour
  simp only [hlim, hd, Outcome.bind]

theorem size_of_bind (w h : ℕ) (o : Outcome (List ℕ)) (j : Jpeg)
    (hj : (o.bind fun data => Outcome.ok (⟨w, h, data⟩ : Jpeg)) = .ok j) : j.width = w ∧ j.height = h := by
  cases o with
  | ok d =>
    simp only [Outcome.bind, Outcome.ok.injEq] at hj
    rw [← hj]
    exact ⟨rfl, rfl⟩
  | err => simp [Outcome.bind] at hj
  | panic => simp [Outcome.bind] at hj

/-- C101: the encoder is told the size of the image, if neither side has more than 65535 pixels. -/
theorem C101_size (im : Buffer) (min max : Option ℝ) (table : List (Rgb ℝ)) (j : Jpeg)
    (hj : falsecolour im min max table = .ok j ∨ logFalsecolour im min max table = .ok j)
    (hw : im.width < 65536) (hh : im.height < 65536) : j.width = im.width ∧ j.height = im.height := by
  have key : j.width = im.width % 2 ^ 16 ∧ j.height = im.height % 2 ^ 16 := by
    rcases hj with h | h
    · exact size_of_bind _ _ _ _ h
    · exact size_of_bind _ _ _ _ h
  rw [key.1, key.2]
  exact ⟨Nat.mod_eq_of_lt hw, Nat.mod_eq_of_lt hh⟩

/-- C101 fails for large images: the size is cut to 16 bits.  An image 65537 pixels wide is given to the encoder with
all its bytes, as an image one pixel wide. -/
theorem C101_violated_size (im : Buffer) (hw : im.width = 65537) (hh : im.height = 1) (hp : im.pixels.length = 65537)
    (table : List (Rgb ℝ)) (ht : 2 ≤ table.length) :
    ∃ j, falsecolour im none (some 1) table = .ok j ∧ j.width = 1 ∧ j.height = 1 ∧ j.data.length = 3 * 65537 := by
  obtain ⟨j, h, hl, -⟩ := C101_linear im none (some 1) table ht 1 (Or.inl rfl)
  obtain ⟨e1, e2⟩ := size_of_bind _ _ _ _ h
  refine ⟨j, h, ?_, ?_, by rw [hl, hp]⟩
  · rw [e1, hw]; norm_num
  · rw [e2, hh]; norm_num

/-- There are such images. -/
example (c : Rgb ℝ) : ∃ im, fromPixels 65537 1 (List.replicate 65537 c) = .ok im ∧ im.width = 65537 ∧ im.height = 1 ∧
    im.pixels.length = 65537 := by
  refine ⟨⟨65537, 1, List.replicate 65537 c⟩, ?_, rfl, rfl, List.length_replicate⟩
  unfold fromPixels
  rw [List.length_replicate, if_neg (by norm_num)]

/-- C101 fails for dim images: the search for the brightest pixel, among logarithms, starts at 0.001, as if that were a
luminance.  For every image without pixels brighter than 1 cd/m², however dim it is, the scale ends at the luminance
whose logarithm is 0.002 (some 1.0046 cd/m²). -/
theorem C101_violated_dim (im : Buffer) (min : Option ℝ) (table : List (Rgb ℝ))
    (hp : ∀ p ∈ im.pixels, 0 ≤ Spec.lum p ∧ Spec.lum p ≤ 1) :
    logFalsecolour im min none table = logFalsecolour im min (some (10 ^ (0.002 : ℝ))) table := by
  have hlim : limitsLog min none (im.pixels.map fun p => log10 (luminance p)) =
      limitsLog min (some (10 ^ (0.002 : ℝ))) (im.pixels.map fun p => log10 (luminance p)) := by
    unfold limitsLog
    refine Prod.ext rfl ?_
    have e : searchMaxLog (1 / 1000) (im.pixels.map fun p => log10 (luminance p)) = 1 / 1000 := by
      rw [searchMaxLog_eq _ _ (fun p h => by rw [luminance_eq]; exact (hp p h).1)]
      refine (searchMax_greatest _ _).unique ⟨Or.inl rfl, ?_⟩
      rintro x (h | h)
      · exact h.le
      · rw [List.mem_map] at h
        obtain ⟨p, h1, h2⟩ := h
        rw [List.mem_filter] at h1
        have := (hp p h1.1)
        rw [← h2, luminance_eq]
        have := Real.logb_nonpos (b := 10) (by norm_num) this.1 this.2
        linarith
    simp only [e]
    rw [if_pos (le_refl _), log10_pos (Real.rpow_pos_of_pos (by norm_num) _), Real.logb_rpow (by norm_num) (by norm_num)]
    norm_num
  unfold logFalsecolour
  simp only [hlim]

/-- An image of one pixel, of 0.1 cd/m², which is then the brightest: in a scale of grays it is not white. -/
theorem C101_violated_brightest :
    Spec.lum ⟨1 / 1790, 1 / 1790, 1 / 1790⟩ = 1 / 10 ∧
    logFalsecolour ⟨1, 1, [⟨1 / 1790, 1 / 1790, 1 / 1790⟩]⟩ none none [⟨0, 0, 0⟩, ⟨1, 1, 1⟩] =
      .ok ⟨1, 1, [171, 171, 171]⟩ := by
  have hl : Spec.lum ⟨1 / 1790, 1 / 1790, 1 / 1790⟩ = 1 / 10 := by unfold Spec.lum; norm_num
  refine ⟨hl, ?_⟩
  rw [C101_violated_dim]
  · have e1 : Real.logb 10 (1 / 10) = -1 := by
      rw [one_div, Real.logb_inv, Real.logb_self_eq_one (by norm_num)]
    have e2 : Real.logb 10 (1 / 1000) = -3 := by
      rw [one_div, Real.logb_inv, show (1000 : ℝ) = 10 ^ (3 : ℕ) by norm_num, Real.logb_pow, Real.logb_self_eq_one (by norm_num)]
      norm_num
    have e3 : log10 (10 ^ (0.002 : ℝ)) = .fin 0.002 := by
      rw [log10_pos (Real.rpow_pos_of_pos (by norm_num) _), Real.logb_rpow (by norm_num) (by norm_num)]
    have hlev : level (1000 / 1501) = 171 := by
      unfold level
      have : ⌊(1000 / 1501 : ℝ) * 256 + 1 / 2⌋ = 171 := by
        rw [Int.floor_eq_iff]; norm_num
      rw [this]; rfl
    unfold logFalsecolour limitsLog
    simp only [List.map_cons, List.map_nil, luminance_eq, hl, e3, e2]
    rw [log10_pos (by norm_num), e1]
    have hm : Colourmap.mapLinear id (-1 : ℝ) (-3) 0.002 [⟨0, 0, 0⟩, ⟨1, 1, 1⟩] = .ok ⟨1000 / 1501, 1000 / 1501, 1000 / 1501⟩ := by
      unfold Colourmap.mapLinear
      rw [if_neg (by norm_num), if_neg (by norm_num)]
      simp only [List.length_cons, List.length_nil, id]
      rw [show List.range' 1 (0 + 1 + 1 - 1) = [1] from rfl]
      unfold Colourmap.search
      simp only [id]
      rw [if_pos (by norm_num)]
      simp only [Outcome.index, Colourmap.blend, Outcome.bind, id]
      norm_num
    simp only [pushAll, mapLog, hm, Outcome.bind, hlev]
    rfl
  · intro p h
    rw [List.mem_singleton] at h
    rw [h, hl]; norm_num

theorem pushAll_panic {α : Type*} (colour : α → Outcome (Rgb ℝ)) (l : List α) (x : α) (hx : x ∈ l)
    (hc : colour x = .panic) : ∀ data, pushAll colour l ≠ .ok data := by
  induction l with
  | nil => simp at hx
  | cons y l ih =>
    intro data h
    unfold pushAll at h
    rcases List.mem_cons.1 hx with e | e
    · subst e
      rw [hc] at h
      simp [Outcome.bind] at h
    · have := ih e
      cases hy : colour y with
      | ok c =>
        rw [hy] at h
        simp only [Outcome.bind] at h
        cases hr : pushAll colour l with
        | ok d => exact this d hr
        | err => rw [hr] at h; simp at h
        | panic => rw [hr] at h; simp at h
      | err => rw [hy] at h; simp [Outcome.bind] at h
      | panic => rw [hy] at h; simp [Outcome.bind] at h

theorem pushAll_not_err {α : Type*} (colour : α → Outcome (Rgb ℝ)) (hc : ∀ x, colour x ≠ .err) (l : List α) :
    pushAll colour l ≠ .err := by
  induction l with
  | nil => simp [pushAll]
  | cons y l ih =>
    unfold pushAll
    cases hy : colour y with
    | ok c =>
      simp only [Outcome.bind]
      cases hr : pushAll colour l with
      | ok d => simp
      | err => exact absurd hr ih
      | panic => simp
    | err => exact absurd hy (hc y)
    | panic => simp [Outcome.bind]

theorem mapLinear_not_err (x lo hi : ℝ) (table : List (Rgb ℝ)) (ht : 2 ≤ table.length) :
    Colourmap.mapLinear id x lo hi table ≠ .err := by
  obtain ⟨c, h, -⟩ := mapLinear_shown x lo hi table ht
  rw [h]; simp

theorem mapLog_not_err (x : Lg) (lo : ℝ) (hi : Lg) (table : List (Rgb ℝ)) (ht : 2 ≤ table.length) :
    mapLog x lo hi table ≠ .err := by
  have h0 : Outcome.index table 0 ≠ .err := by
    rw [Outcome.index_of_lt (by omega : 0 < table.length)]; simp
  unfold mapLog
  cases x with
  | nan => simp
  | negInf => exact h0
  | fin x =>
    cases hi with
    | nan =>
      simp only
      split_ifs
      · exact h0
      · simp
    | negInf => exact mapLinear_not_err _ _ _ _ ht
    | fin hi => exact mapLinear_not_err _ _ _ _ ht

/-- C101 fails, in the logarithmic scale, for every image with a pixel whose luminance is negative (as in those of
skies with negative radiance: C100), whatever the limits: its logarithm is NaN, and the program panics. -/
theorem C101_violated_negative (im : Buffer) (min max : Option ℝ) (table : List (Rgb ℝ)) (ht : 2 ≤ table.length)
    (p : Rgb ℝ) (hp : p ∈ im.pixels) (hn : Spec.lum p < 0) : logFalsecolour im min max table = .panic := by
  have hx : log10 (luminance p) = .nan := by unfold log10; rw [luminance_eq, if_pos hn]
  unfold logFalsecolour
  simp only
  generalize limitsLog min max _ = lim
  have h1 := pushAll_panic (fun x => mapLog x lim.1 lim.2 table) (im.pixels.map fun p => log10 (luminance p)) .nan
    (List.mem_map.2 ⟨p, hp, hx⟩) rfl
  have h2 := pushAll_not_err (fun x => mapLog x lim.1 lim.2 table) (fun x => mapLog_not_err _ _ _ _ ht)
    (im.pixels.map fun p => log10 (luminance p))
  cases h : pushAll (fun x => mapLog x lim.1 lim.2 table) (im.pixels.map fun p => log10 (luminance p)) with
  | ok d => exact absurd h (h1 d)
  | err => exact absurd h h2
  | panic => rfl

/-- The hypotheses of the theorems: a black pixel and a bright one, and the greatest of their luminances. -/
example : ∃ hi, leastMax < hi ∧ IsGreatest {x | ∃ p ∈ [(⟨0, 0, 0⟩ : Rgb ℝ), ⟨1, 1, 1⟩], x = Spec.lum p} hi ∧
    ∀ p ∈ [(⟨0, 0, 0⟩ : Rgb ℝ), ⟨1, 1, 1⟩], 0 ≤ Spec.lum p := by
  have h0 : Spec.lum ⟨0, 0, 0⟩ = 0 := by unfold Spec.lum; norm_num
  have h1 : Spec.lum ⟨1, 1, 1⟩ = 179 := by unfold Spec.lum; norm_num
  refine ⟨179, ?_, ⟨⟨⟨1, 1, 1⟩, by simp, h1.symm⟩, ?_⟩, ?_⟩
  · unfold leastMax
    calc (10 : ℝ) ^ (0.001 : ℝ) ≤ 10 ^ (1 : ℝ) := Real.rpow_le_rpow_of_exponent_le (by norm_num) (by norm_num)
      _ < 179 := by norm_num
  · rintro x ⟨p, hp, rfl⟩
    simp only [List.mem_cons, List.not_mem_nil, or_false] at hp
    rcases hp with rfl | rfl
    · rw [h0]; norm_num
    · rw [h1]
  · intro p hp
    simp only [List.mem_cons, List.not_mem_nil, or_false] at hp
    rcases hp with rfl | rfl
    · rw [h0]
    · rw [h1]; norm_num

end Simple.Render.Image
