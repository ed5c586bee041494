import Verif.Render.ImageProps

/-! # C55: saving images and reading them back -/

namespace Simple.Render.Image

open Colourmap (Rgb)

namespace Spec

/-- `utf8` accepts all texts of ASCII characters. -/
def AcceptsAscii (utf8 : List ℕ → Bool) : Prop := ∀ l : List ℕ, (∀ c ∈ l, c < 128) → utf8 l = true

/-- There is a pixel for every place. -/
def Complete (im : Buffer) : Prop := im.pixels.length = im.width * im.height

/-- How a pixel comes back from a file: black if it is very dark, and otherwise a bit darker. -/
noncomputable def Kept (c c' : Rgb ℝ) : Prop :=
  (brightest c < 1 / 10 ^ 19 ∧ c' = ⟨0, 0, 0⟩) ∨ (1 / 10 ^ 19 ≤ brightest c ∧ BelowAll (brightest c / 128) c c')

end Spec

open Spec

/-! ### Reading what was written -/

private theorem nextLine_eq (rest : List ℕ) : ∀ line : List ℕ, (∀ c ∈ line, c ≠ 10) → nextLine (line ++ [10] ++ rest) = some (line, rest) := by
  intro line
  induction line with
  | nil => intro _; rfl
  | cons c line ih =>
    intro h
    have := ih fun x hx => h x (List.mem_cons_of_mem _ hx)
    simp only [List.cons_append, nextLine]
    rw [if_neg (h c (List.mem_cons_self ..)), this]
    rfl

private theorem splitBy_one (p : ℕ → Bool) : ∀ w : List ℕ, (∀ c ∈ w, p c = false) → splitBy p w = [w] := by
  intro w
  induction w with
  | nil => intro _; rfl
  | cons c w ih =>
    intro h
    unfold splitBy
    rw [h c (List.mem_cons_self ..), ih fun x hx => h x (List.mem_cons_of_mem _ hx)]
    rfl

private theorem splitBy_cons (p : ℕ → Bool) (c : ℕ) (rest : List ℕ) (hc : p c = true) : ∀ w : List ℕ, (∀ x ∈ w, p x = false) →
    splitBy p (w ++ c :: rest) = w :: splitBy p rest := by
  intro w
  induction w with
  | nil => intro _; simp [splitBy, hc]
  | cons x w ih =>
    intro h
    rw [List.cons_append]
    conv_lhs => unfold splitBy
    rw [h x (List.mem_cons_self ..), ih fun y hy => h y (List.mem_cons_of_mem _ hy)]
    rfl

private theorem decimal_digit (n : ℕ) : ∀ c ∈ decimal n, 48 ≤ c ∧ c ≤ 57 := by
  intro c hc
  unfold decimal at hc
  split_ifs at hc
  · rw [List.mem_singleton] at hc; omega
  · obtain ⟨d, hd, rfl⟩ := List.mem_map.1 hc
    have := Nat.digits_lt_base (by norm_num) (List.mem_reverse.1 hd)
    omega

private theorem decimal_ne (n : ℕ) : decimal n ≠ [] := by
  unfold decimal
  split_ifs with h
  · simp
  · simp [Nat.digits_ne_nil_iff_ne_zero.2 h]

private theorem decimal_value (n : ℕ) : (decimal n).foldl (fun n c => n * 10 + (c - 48)) 0 = n := by
  unfold decimal
  split_ifs with h
  · subst h; rfl
  · rw [List.foldl_map, List.foldl_reverse]
    conv_rhs => rw [← Nat.ofDigits_digits 10 n, Nat.ofDigits_eq_foldr]
    congr 1
    funext x y
    simp only [Nat.add_sub_cancel, Nat.cast_id]
    ring

private theorem parse_decimal (n : ℕ) (h : n < 2 ^ 64) : parseUsize (decimal n) = some n := by
  have hd := decimal_digit n
  have : parseUsize (decimal n) = parseDigits (decimal n) := by
    unfold parseUsize
    split
    · next rest e => have := hd 43 (by rw [e]; exact List.mem_cons_self ..); omega
    · rfl
  rw [this]
  unfold parseDigits
  rw [if_pos ⟨decimal_ne n, List.all_eq_true.2 fun c hc => by simpa using hd c hc⟩, decimal_value]
  simp only [if_pos h]

private theorem b1 : bytes "-Y " = [45, 89, 32] := rfl
private theorem b2 : bytes " +X " = [32, 43, 88, 32] := rfl

private theorem sizeLine_eq (h w : ℕ) : sizeLine h w = [45, 89] ++ 32 :: (decimal h ++ 32 :: ([43, 88] ++ 32 :: decimal w)) := by
  unfold sizeLine
  rw [b1, b2]
  simp

private theorem decimal_space (n : ℕ) : ∀ c ∈ decimal n, isSpace c = false := by
  intro c hc
  have := decimal_digit n c hc
  unfold isSpace
  simp only [Bool.or_eq_false_iff, beq_eq_false_iff_ne]
  omega

private theorem sizeLine_ascii (h w : ℕ) : ∀ c ∈ sizeLine h w, c < 128 ∧ c ≠ 10 := by
  intro c hc
  rw [sizeLine_eq] at hc
  simp only [List.mem_append, List.mem_cons, List.not_mem_nil, or_false] at hc
  rcases hc with (rfl | rfl) | rfl | hc | rfl | (rfl | rfl) | rfl | hc <;> try omega
  · have := decimal_digit h c hc; omega
  · have := decimal_digit w c hc; omega

private theorem parse_sizeLine (utf8 : List ℕ → Bool) (hu : AcceptsAscii utf8) (h w : ℕ) (hh : h < 2 ^ 64) (hw : w < 2 ^ 64) :
    parseSize utf8 (sizeLine h w) = .ok (h, w) := by
  have e : splitBy isSpace (sizeLine h w) = [[45, 89], decimal h, [43, 88], decimal w] := by
    rw [sizeLine_eq, splitBy_cons isSpace 32 _ rfl _ (by decide), splitBy_cons isSpace 32 _ rfl _ (decimal_space h),
      splitBy_cons isSpace 32 _ rfl _ (by decide), splitBy_one _ _ (decimal_space w)]
  unfold parseSize
  rw [hu _ fun c hc => (sizeLine_ascii h w c hc).1, e]
  simp only [Bool.true_eq_false, if_false]
  rw [if_neg (by simp [bytes]), parse_decimal h hh, parse_decimal w hw]

private theorem readHeader_saved (utf8 : List ℕ → Bool) (hu : AcceptsAscii utf8) (h w : ℕ) (hh : h < 2 ^ 64) (hw : w < 2 ^ 64)
    (body : List ℕ) (fuel : ℕ) (hf : 4 ≤ fuel) :
    readHeader utf8 fuel (bytes "#?RGBE" ++ [10] ++ (bytes "FORMAT=32-bit_rle_rgbe" ++ [10] ++ ([10] ++ (sizeLine h w ++ [10] ++ body)))) =
      .ok ((h, w), body) := by
  obtain ⟨fuel, rfl⟩ : ∃ f, fuel = f + 4 := ⟨fuel - 4, by omega⟩
  rw [show fuel + 4 = fuel + 1 + 1 + 1 + 1 from rfl]
  unfold readHeader
  rw [nextLine_eq _ _ (by decide)]
  simp only
  rw [if_neg (by decide), if_neg (by decide)]
  unfold readHeader
  rw [nextLine_eq _ _ (by decide)]
  simp only
  rw [if_neg (by decide), if_pos (by decide), if_pos (by decide)]
  unfold readHeader
  rw [show [10] ++ (sizeLine h w ++ [10] ++ body) = [] ++ [10] ++ (sizeLine h w ++ [10] ++ body) from rfl, nextLine_eq _ _ (by decide)]
  simp only
  rw [if_neg (by decide), if_neg (by decide)]
  unfold readHeader
  rw [nextLine_eq _ _ fun c hc => (sizeLine_ascii h w c hc).2]
  simp only
  rw [if_pos (by rw [sizeLine_eq]; exact ⟨_, rfl⟩), parse_sizeLine utf8 hu h w hh hw]
  rfl

/-- How the pixels of the image are encoded, one by one. -/
private theorem savePixels_spec (checks : Bool) : ∀ (cs : List (Rgb ℝ)) (body : List ℕ), savePixels checks cs = .ok body →
    (chunks4 body).length = cs.length ∧ ∀ (i : ℕ) (c : Rgb ℝ), cs[i]? = some c → ∃ p, (chunks4 body)[i]? = some p ∧ encode checks c = .ok p := by
  intro cs
  induction cs with
  | nil => intro body h; simp only [savePixels, Outcome.ok.injEq] at h; subst h; exact ⟨rfl, by simp⟩
  | cons c cs ih =>
    intro body h
    unfold savePixels at h
    cases e1 : encode checks c with
    | err => rw [e1] at h; simp [Outcome.bind] at h
    | panic => rw [e1] at h; simp [Outcome.bind] at h
    | ok p =>
      cases e2 : savePixels checks cs with
      | err => rw [e1, e2] at h; simp [Outcome.bind] at h
      | panic => rw [e1, e2] at h; simp [Outcome.bind] at h
      | ok rest =>
        rw [e1, e2] at h
        simp only [Outcome.bind, Outcome.ok.injEq] at h
        subst h
        obtain ⟨h1, h2⟩ := ih rest e2
        have e : chunks4 (pixelBytes p ++ rest) = p :: chunks4 rest := rfl
        rw [e]
        refine ⟨by rw [List.length_cons, List.length_cons, h1], ?_⟩
        intro i c' hc'
        cases i with
        | zero => rw [List.getElem?_cons_zero, Option.some.injEq] at hc'; subst hc'; exact ⟨p, rfl, e1⟩
        | succ i => rw [List.getElem?_cons_succ] at hc' ⊢; exact h2 i c' hc'

private theorem savePixels_ok (checks : Bool) : ∀ cs : List (Rgb ℝ), (∀ c ∈ cs, brightest c < 2 ^ 127) →
    ∃ body, savePixels checks cs = .ok body := by
  intro cs
  induction cs with
  | nil => intro _; exact ⟨[], rfl⟩
  | cons c cs ih =>
    intro h
    obtain ⟨rest, e⟩ := ih fun x hx => h x (List.mem_cons_of_mem _ hx)
    obtain ⟨p, e'⟩ : ∃ p, encode checks c = .ok p := by
      rcases lt_or_ge (brightest c) (1 / 10 ^ 19) with hlo | hlo
      · obtain ⟨p, hp, -⟩ := C54_black checks c hlo
        exact ⟨p, hp⟩
      · obtain ⟨p, hp⟩ := encode_defined checks c hlo (h c (List.mem_cons_self ..))
        exact ⟨p, hp⟩
    unfold savePixels
    rw [e', e]
    exact ⟨_, rfl⟩

/-- C55: an image whose colours are not too bright is saved without failure, and what is read back has the same size, the
same number of pixels and, at the same places, the same colours, as closely as the format allows. -/
theorem C55_round_trip (checks : Bool) (utf8 : List ℕ → Bool) (hu : AcceptsAscii utf8) (im : Buffer) (hw : im.width < 2 ^ 64)
    (hh : im.height < 2 ^ 64) (hp : ∀ c ∈ im.pixels, Nonneg c ∧ brightest c < 2 ^ 127) :
    ∃ file im', save checks im = .ok file ∧ read utf8 file = .ok im' ∧ im'.width = im.width ∧ im'.height = im.height ∧
      im'.pixels.length = im.pixels.length ∧
      ∀ (i : ℕ) (c : Rgb ℝ), im.pixels[i]? = some c → ∃ c', im'.pixels[i]? = some c' ∧ Kept c c' := by
  obtain ⟨body, e⟩ := savePixels_ok checks im.pixels fun c hc => (hp c hc).2
  obtain ⟨h1, h2⟩ := savePixels_spec checks im.pixels body e
  unfold save
  rw [e]
  refine ⟨_, ⟨im.width, im.height, (chunks4 body).map decode⟩, rfl, ?_, rfl, rfl, by rw [List.length_map, h1], ?_⟩
  · unfold read
    rw [readHeader_saved utf8 hu im.height im.width hh hw body _ (by simp [bytes])]
    rfl
  · intro i c hc
    obtain ⟨p, hp1, hp2⟩ := h2 i c hc
    refine ⟨decode p, by simp [hp1], ?_⟩
    obtain ⟨hn, hb⟩ := hp c (List.mem_of_getElem? hc)
    rcases lt_or_ge (brightest c) (1 / 10 ^ 19) with hlo | hlo
    · obtain ⟨p', hp', hd⟩ := C54_black checks c hlo
      rw [hp2] at hp'
      obtain rfl := Outcome.ok.inj hp'
      exact Or.inl ⟨hlo, hd⟩
    · obtain ⟨p', hp', hd⟩ := C54_decode checks c hn hlo hb
      rw [hp2] at hp'
      obtain rfl := Outcome.ok.inj hp'
      exact Or.inr ⟨hlo, hd⟩

/-! ### Pixels by their place -/

private theorem place_lt {w h x y : ℕ} (hx : x < w) (hy : y < h) : y * w + x < w * h := by
  have : (y + 1) * w ≤ h * w := Nat.mul_le_mul_right w hy
  rw [Nat.add_mul, one_mul] at this
  rw [mul_comm w h]
  omega

private theorem place_inj {w x y x' y' : ℕ} (hx : x < w) (hx' : x' < w) (h : y * w + x = y' * w + x') : x = x' ∧ y = y' := by
  have hy : y = y' := by
    have h1 : (y * w + x) / w = y := by rw [mul_comm, Nat.mul_add_div (by omega), Nat.div_eq_of_lt hx, add_zero]
    have h2 : (y' * w + x') / w = y' := by rw [mul_comm, Nat.mul_add_div (by omega), Nat.div_eq_of_lt hx', add_zero]
    rw [← h1, h, h2]
  subst hy
  exact ⟨by omega, rfl⟩

/-- C55: in a complete image every place has a pixel; setting the one at a place changes that one only, and keeps the
image complete. -/
theorem C55_places (im : Buffer) (h : Complete im) (x y : ℕ) (hx : x < im.width) (hy : y < im.height) (c : Rgb ℝ) :
    (∃ c0, get im x y = .ok c0) ∧ ∃ im', put im x y c = .ok im' ∧ Complete im' ∧ im'.width = im.width ∧ im'.height = im.height ∧
      get im' x y = .ok c ∧
      ∀ x' y', x' < im.width → y' < im.height → (x', y') ≠ (x, y) → get im' x' y' = get im x' y' := by
  have hl : y * im.width + x < im.pixels.length := by rw [h]; exact place_lt hx hy
  unfold get put
  rw [if_pos hl]
  refine ⟨⟨_, Outcome.index_of_lt hl⟩, _, rfl, ?_, rfl, rfl, ?_, ?_⟩
  · unfold Complete; simp only [List.length_set]; exact h
  · simp only [Outcome.index, List.getElem?_set_self hl]
  · intro x' y' hx' hy' hne
    simp only [Outcome.index]
    rw [List.getElem?_set_ne]
    intro he
    obtain ⟨rfl, rfl⟩ := place_inj hx hx' he
    exact hne rfl

/-- C55: a new image is complete, and so are those made from pixels and from two complete images of the same size. -/
theorem C55_complete (w h : ℕ) : Complete (new w h) ∧ (∀ pixels im, fromPixels w h pixels = .ok im → Complete im) ∧
    ∀ a b, Complete a → Complete b → a.width = b.width → a.height = b.height → ∃ im, diff a b = .ok im ∧ Complete im := by
  refine ⟨by simp [Complete, new], ?_, ?_⟩
  · intro pixels im e
    unfold fromPixels at e
    split_ifs at e with hc
    obtain rfl := Outcome.ok.inj e
    exact not_not.1 hc
  · intro a b ha hb hw hh
    have hl : a.pixels.length = b.pixels.length := by rw [ha, hb, hw, hh]
    unfold diff fromPixels
    rw [if_neg (by simp [hw, hh]), if_neg]
    · refine ⟨_, rfl, ?_⟩
      unfold Complete
      simp only [List.length_map, List.length_zip, ← hl, min_self]
      exact ha
    · simp only [List.length_map, List.length_zip, ← hl, min_self, not_not]
      exact ha

/-- C55: images of different sizes are not compared, also if they have as many pixels. -/
theorem C55_sizes (a b : Buffer) (h : ¬ (a.width = b.width ∧ a.height = b.height)) : diff a b = .err := by
  unfold diff
  rw [if_pos]
  intro e
  exact h (Prod.mk.inj e)

/-- A wide and a tall image of six pixels. -/
example : diff (new 3 2) (new 2 3) = .err := C55_sizes _ _ (by simp [new])

/-- C55 fails for a file that was cut short: it is read without an error, and looking at the first pixel panics. -/
theorem C55_violated_truncated (utf8 : List ℕ → Bool) (hu : AcceptsAscii utf8) :
    ∃ im, read utf8 (bytes "-Y 2 +X 2\n") = .ok im ∧ im.width = 2 ∧ im.height = 2 ∧ get im 0 0 = .panic := by
  refine ⟨⟨2, 2, []⟩, ?_, rfl, rfl, rfl⟩
  have e1 : bytes "-Y 2 +X 2\n" = sizeLine 2 2 ++ [10] ++ [] := by decide
  unfold read
  rw [e1]
  unfold readHeader
  rw [nextLine_eq _ _ fun c hc => (sizeLine_ascii 2 2 c hc).2]
  simp only
  rw [if_pos (by rw [sizeLine_eq]; exact ⟨_, rfl⟩), parse_sizeLine utf8 hu 2 2 (by norm_num) (by norm_num)]
  rfl

/-- A small image is saved and read back. -/
example : ∃ file im', save true ⟨2, 1, [⟨1, 1 / 2, 0⟩, ⟨0, 0, 0⟩]⟩ = .ok file ∧ read (fun l => l.all (· < 128)) file = .ok im' ∧
    im'.width = 2 ∧ im'.height = 1 := by
  obtain ⟨file, im', h1, h2, h3, h4, -⟩ := C55_round_trip true (fun l => l.all (· < 128)) (fun l hl => by simpa using hl)
    ⟨2, 1, [⟨1, 1 / 2, 0⟩, ⟨0, 0, 0⟩]⟩ (by norm_num) (by norm_num) (by
      intro c hc
      simp only [List.mem_cons, List.not_mem_nil, or_false] at hc
      rcases hc with rfl | rfl <;> norm_num [Nonneg, brightest])
  exact ⟨file, im', h1, h2, h3, h4⟩

end Simple.Render.Image
