import Verif.Render.CameraProps
import Verif.Render.DaylightProps
import Verif.Render.ImageFileProps
import Verif.Render.ToolsModel

/-! # C111: the commands for pictures and matrices -/

namespace Simple.Render.Tools

open Geometry Image Colourmap Image.Spec

namespace Spec

/-- The text has no blanks at its ends. -/
def Trimmed (s : Text) : Prop := (∀ c, s.head? = some c → c.isWhitespace = false) ∧ ∀ c, s.getLast? = some c → c.isWhitespace = false

/-- `s` without blanks around it is `t`. -/
def Inside (s t : Text) : Prop :=
  Trimmed t ∧ ∃ a b, s = a ++ t ++ b ∧ (∀ c ∈ a, c.isWhitespace = true) ∧ ∀ c ∈ b, c.isWhitespace = true

/-- The grey of a difference of radiance. -/
noncomputable def grey (a b : Rgb ℝ) : Rgb ℝ :=
  let d := |(a.r - b.r) * 0.265 + (a.g - b.g) * 0.67 + (a.b - b.b) * 0.065|
  ⟨d, d, d⟩

/-- The files are as before, but for this one. -/
def Elsewhere (before after : Files) (path : Text) : Prop := ∀ p, p ≠ path → after p = before p

/-- `ray` goes from the point of view through the middle of the pixel in column `i` and row `j`, of a picture that is upright, whose middle is
in the direction of the view, and which is as wide as the field of view. -/
def Aims (p : Picture) (i j : ℕ) (ray : Ray ℝ) : Prop :=
  ∃ (d u r : V3 ℝ) (f k t : ℝ), d.dot d = 1 ∧ u.dot u = 1 ∧ d.dot u = 0 ∧ r = d.cross u ∧ 0 < k ∧ d = p.viewDirection.scale k ∧ 0 < u.dot p.viewUp ∧
    f * Real.tan (p.fieldOfView * (Real.pi / 180) / 2) = 1 ∧ 0 < t ∧ ray.origin = p.viewPoint ∧ ray.direction.dot ray.direction = 1 ∧
    ray.direction.scale t = d.scale f + r.scale ((2 * i + 1) / p.x - 1) + u.scale ((p.y - (2 * j + 1)) / p.x)

/-- The file holds the image: it can be read, it has this size, and its pixels are those of `pixel`, by columns and rows, as closely as the format allows. -/
def Holds (w : World) (content : Option (List ℕ)) (width height : ℕ) (pixel : ℕ → ℕ → Rgb ℝ → Prop) : Prop :=
  ∃ bytes im, content = some bytes ∧ read w.utf8 bytes = .ok im ∧ im.width = width ∧ im.height = height ∧ im.pixels.length = width * height ∧
    ∀ i < width, ∀ j < height, ∃ c c', pixel i j c ∧ get im i j = .ok c' ∧ Kept c c'

end Spec

open Spec

/-! ### Triplets -/

private theorem split_ne (s : Text) : split s ≠ [] := by
  cases s with
  | nil => simp [split]
  | cons c cs =>
    unfold split
    by_cases h : c = ' '
    · rw [if_pos h]; simp
    · rw [if_neg h]
      cases split cs <;> simp

private theorem split_word (w : Text) (h : ' ' ∉ w) : split w = [w] := by
  induction w with
  | nil => rfl
  | cons c cs ih =>
    unfold split
    rw [if_neg (fun e => h (by rw [e]; exact List.mem_cons_self)), ih fun e => h (List.mem_cons_of_mem _ e)]

private theorem split_cons (w s : Text) (h : ' ' ∉ w) : split (w ++ ' ' :: s) = w :: split s := by
  induction w with
  | nil => simp [split]
  | cons c cs ih =>
    rw [List.cons_append, split, if_neg (fun e => h (by rw [e]; exact List.mem_cons_self)), ih fun e => h (List.mem_cons_of_mem _ e)]

private theorem split_free : ∀ (s : Text), ∀ w ∈ split s, ' ' ∉ w := by
  intro s
  induction s with
  | nil => simp [split]
  | cons c cs ih =>
    intro w hw
    unfold split at hw
    by_cases h : c = ' '
    · rw [if_pos h] at hw
      rcases List.mem_cons.1 hw with rfl | hw
      · simp
      · exact ih w hw
    · rw [if_neg h] at hw
      cases hs : split cs with
      | nil => exact absurd hs (split_ne cs)
      | cons v vs =>
        rw [hs] at hw
        rcases List.mem_cons.1 hw with rfl | hw
        · have := ih v (by rw [hs]; exact List.mem_cons_self)
          intro e
          rcases List.mem_cons.1 e with e | e
          · exact h e.symm
          · exact this e
        · exact ih w (by rw [hs]; exact List.mem_cons_of_mem _ hw)

private theorem split_join : ∀ (s w : Text) (ws : List Text), split s = w :: ws → s = w ++ ws.flatMap fun v => ' ' :: v := by
  intro s
  induction s with
  | nil =>
    intro w ws h
    simp only [split, List.cons.injEq] at h
    obtain ⟨rfl, rfl⟩ := h
    rfl
  | cons c cs ih =>
    intro w ws h
    unfold split at h
    by_cases hc : c = ' '
    · rw [if_pos hc] at h
      simp only [List.cons.injEq] at h
      obtain ⟨rfl, h⟩ := h
      cases ws with
      | nil => exact absurd h (split_ne cs)
      | cons v vs => simp [hc, ih v vs h]
    · rw [if_neg hc] at h
      cases hs : split cs with
      | nil => exact absurd hs (split_ne cs)
      | cons v vs =>
        rw [hs] at h
        simp only [List.cons.injEq] at h
        obtain ⟨rfl, rfl⟩ := h
        rw [ih v vs hs]
        rfl

private theorem head_dropWhile (p : Char → Bool) (s : Text) (c : Char) (h : (s.dropWhile p).head? = some c) : p c = false := by
  induction s with
  | nil => simp at h
  | cons a s ih =>
    rw [List.dropWhile_cons] at h
    by_cases ha : p a = true
    · rw [if_pos ha] at h
      exact ih h
    · rw [if_neg ha] at h
      simp only [List.head?_cons, Option.some.injEq] at h
      rw [← h]
      simpa using ha

private theorem dropWhile_split (p : Char → Bool) (s : Text) : ∃ a, s = a ++ s.dropWhile p ∧ ∀ c ∈ a, p c = true :=
  ⟨s.takeWhile p, List.takeWhile_append_dropWhile.symm, fun _ hc => by
    have := List.all_takeWhile (p := p) (l := s)
    rw [List.all_eq_true] at this
    exact this _ hc⟩

private theorem dropWhile_eq (p : Char → Bool) (a t : Text) (ha : ∀ c ∈ a, p c = true) (ht : ∀ c, t.head? = some c → p c = false) :
    (a ++ t).dropWhile p = t := by
  induction a with
  | nil =>
    cases t with
    | nil => rfl
    | cons c t => rw [List.nil_append, List.dropWhile_cons, if_neg (by rw [ht c rfl]; simp)]
  | cons c a ih =>
    rw [List.cons_append, List.dropWhile_cons, if_pos (ha c List.mem_cons_self)]
    exact ih fun c hc => ha c (List.mem_cons_of_mem _ hc)

private theorem trim_inside (s : Text) : Inside s (trim s) := by
  obtain ⟨a, ha, ha'⟩ := dropWhile_split Char.isWhitespace s
  obtain ⟨b, hb, hb'⟩ := dropWhile_split Char.isWhitespace (s.dropWhile Char.isWhitespace).reverse
  have e : s.dropWhile Char.isWhitespace = trim s ++ b.reverse := by
    have := congrArg List.reverse hb
    rw [List.reverse_reverse, List.reverse_append] at this
    exact this
  refine ⟨⟨fun c hc => ?_, fun c hc => ?_⟩, a, b.reverse, ?_, ha', fun c hc => hb' c (List.mem_reverse.1 hc)⟩
  · refine head_dropWhile Char.isWhitespace s c ?_
    rw [e]
    cases ht : trim s with
    | nil => rw [ht] at hc; simp at hc
    | cons x xs => rw [ht] at hc; simpa using hc
  · refine head_dropWhile Char.isWhitespace (s.dropWhile Char.isWhitespace).reverse c ?_
    rw [trim, List.getLast?_reverse] at hc
    exact hc
  · rw [List.append_assoc, ← e]
    exact ha

private theorem inside_trim (s t : Text) (h : Inside s t) : trim s = t := by
  obtain ⟨⟨h1, h2⟩, a, b, rfl, ha, hb⟩ := h
  unfold trim
  by_cases ht : t = []
  · subst ht
    have : (a ++ [] ++ b).dropWhile Char.isWhitespace = [] := by
      have := dropWhile_eq Char.isWhitespace (a ++ b) [] (fun c hc => (List.mem_append.1 hc).elim (ha c) (hb c)) (by simp)
      simpa using this
    rw [this]
    rfl
  · rw [List.append_assoc, dropWhile_eq _ a (t ++ b) ha (by
      intro c hc
      refine h1 c ?_
      cases t with
      | nil => exact absurd rfl ht
      | cons x xs => simpa using hc)]
    rw [List.reverse_append, dropWhile_eq _ b.reverse t.reverse (fun c hc => hb c (List.mem_reverse.1 hc)) (by
      intro c hc
      rw [List.head?_reverse] at hc
      exact h2 c hc), List.reverse_reverse]

/-- C111, three numbers: a triplet is read exactly from three numbers with one space between each, with any blanks around them. -/
theorem C111_triplet (parse : Text → Option ℝ) (s : Text) (v : V3 ℝ) :
    triplet parse s = some v ↔ ∃ x y z, Inside s (x ++ ' ' :: (y ++ ' ' :: z)) ∧ ' ' ∉ x ∧ ' ' ∉ y ∧ ' ' ∉ z ∧
      parse x = some v.x ∧ parse y = some v.y ∧ parse z = some v.z := by
  constructor
  · intro h
    unfold triplet at h
    cases hs : split (trim s) with
    | nil => rw [hs] at h; simp at h
    | cons x l =>
      rw [hs] at h
      match l, hs, h with
      | [], _, h => simp at h
      | [_], _, h => simp at h
      | _ :: _ :: _ :: _, _, h => simp at h
      | [y, z], hs, h =>
        simp only at h
        cases hx : parse x with
        | none => rw [hx] at h; simp at h
        | some a =>
          cases hy : parse y with
          | none => rw [hx, hy] at h; simp at h
          | some b =>
            cases hz : parse z with
            | none => rw [hx, hy, hz] at h; simp at h
            | some c =>
              rw [hx, hy, hz] at h
              simp only [Option.some.injEq] at h
              subst h
              have hfree := split_free (trim s)
              rw [hs] at hfree
              have e : trim s = x ++ ' ' :: (y ++ ' ' :: z) := by
                rw [split_join _ _ _ hs]
                simp
              refine ⟨x, y, z, ?_, hfree x (by simp), hfree y (by simp), hfree z (by simp), hx, hy, hz⟩
              rw [← e]
              exact trim_inside s
  · rintro ⟨x, y, z, hi, hx, hy, hz, px, py, pz⟩
    unfold triplet
    rw [inside_trim _ _ hi, split_cons _ _ hx, split_cons _ _ hy, split_word _ hz]
    simp only
    rw [px, py, pz]

/-- C111 fails for two spaces between numbers: three numbers are given, and they are refused. -/
theorem C111_violated_spaces (parse : Text → Option ℝ) : triplet parse "0 0  1".toList = none := by
  have : split (trim "0 0  1".toList) = [['0'], ['0'], [], ['1']] := by decide
  unfold triplet
  rw [this]

/-! ### Images -/

private theorem saveHdre_holds (w : World) (hu : AcceptsAscii w.utf8) (files : Files) (im : Buffer) (path : Text) (hc : w.creates path = true)
    (hcomplete : Complete im) (hw : im.width < 2 ^ 64) (hh : im.height < 2 ^ 64) (hp : ∀ c ∈ im.pixels, Nonneg c ∧ brightest c < 2 ^ 127) :
    (saveHdre w files im path).ending = .success ∧ Elsewhere files (saveHdre w files im path).files path ∧
      Holds w ((saveHdre w files im path).files path) im.width im.height (fun i j c => get im i j = .ok c) := by
  obtain ⟨content, im', h1, h2, h3, h4, h5, h6⟩ := C55_round_trip w.checks w.utf8 hu im hw hh hp
  have e : saveHdre w files im path = ⟨fill files path content, .success⟩ := by
    unfold saveHdre
    rw [if_pos hc, h1]
  rw [e]
  refine ⟨rfl, fun p hpn => if_neg hpn, content, im', if_pos rfl, h2, h3, h4, by rw [h5]; exact hcomplete, fun i hi j hj => ?_⟩
  have hlt : j * im.width + i < im.pixels.length := by
    rw [hcomplete]
    calc j * im.width + i < j * im.width + im.width := by omega
      _ = (j + 1) * im.width := by ring
      _ ≤ im.height * im.width := Nat.mul_le_mul_right _ hj
      _ = im.width * im.height := by ring
  obtain ⟨c', h7, h8⟩ := h6 _ _ (List.getElem?_eq_getElem hlt)
  refine ⟨_, c', ?_, ?_, h8⟩
  · unfold Image.get
    exact Outcome.index_of_lt hlt
  · unfold Image.get
    rw [h3]
    obtain ⟨hi', rfl⟩ := List.getElem?_eq_some_iff.1 h7
    exact Outcome.index_of_lt hi'

private theorem radiance_diff (a b : Rgb ℝ) : (⟨|radiance b - radiance a|, |radiance b - radiance a|, |radiance b - radiance a|⟩ : Rgb ℝ) = grey a b := by
  have : |radiance b - radiance a| = |(a.r - b.r) * 0.265 + (a.g - b.g) * 0.67 + (a.b - b.b) * 0.065| := by
    rw [abs_sub_comm]
    congr 1
    unfold radiance
    norm_num
    ring
  rw [this]
  rfl

/-- C111, comparing: for two images of the same size, the new file holds an image of that size with the difference of radiance of
each pixel; and no other file changes. -/
theorem C111_compare_partial (w : World) (hu : AcceptsAscii w.utf8) (files : Files) (input1 input2 output : Text) (a b : Buffer)
    (ha : load w files input1 = .ok a) (hb : load w files input2 = .ok b) (hca : Complete a) (hcb : Complete b)
    (hw : a.width = b.width) (hh : a.height = b.height) (hw' : a.width < 2 ^ 64) (hh' : a.height < 2 ^ 64) (hc : w.creates output = true)
    (hp : ∀ p ∈ a.pixels, ∀ q ∈ b.pixels, brightest (grey p q) < 2 ^ 127) :
    (scompare w files input1 input2 output none).ending = .success ∧ Elsewhere files (scompare w files input1 input2 output none).files output ∧
      Holds w ((scompare w files input1 input2 output none).files output) a.width a.height
        (fun i j c => ∃ p q, get a i j = .ok p ∧ get b i j = .ok q ∧ c = grey p q) := by
  obtain ⟨d, hd, hcd⟩ := (C55_complete a.width a.height).2.2 b a hcb hca hw.symm hh.symm
  have hd' := hd
  unfold diff fromPixels at hd'
  rw [if_neg (by simp [hw, hh])] at hd'
  split_ifs at hd' with hlen
  have hd'' := Outcome.ok.inj hd'
  have hdw : d.width = a.width := by rw [← hd'', hw]
  have hdh : d.height = a.height := by rw [← hd'', hh]
  have hpix : d.pixels = (b.pixels.zip a.pixels).map fun p => grey p.2 p.1 := by
    rw [← hd'']
    refine List.map_congr_left fun p _ => ?_
    exact radiance_diff p.2 p.1
  have e : scompare w files input1 input2 output none = saveHdre w files d output := by
    unfold scompare
    rw [ha, hb]
    simp only [Outcome.bind]
    rw [hd]
  rw [e]
  obtain ⟨h1, h2, h3⟩ := saveHdre_holds w hu files d output hc hcd (by rw [hdw]; exact hw') (by rw [hdh]; exact hh') (by
    intro c hcm
    rw [hpix, List.mem_map] at hcm
    obtain ⟨p, hpm, rfl⟩ := hcm
    have := List.of_mem_zip hpm
    exact ⟨⟨abs_nonneg _, abs_nonneg _, abs_nonneg _⟩, hp _ this.2 _ this.1⟩)
  refine ⟨h1, h2, ?_⟩
  rw [hdw, hdh] at h3
  obtain ⟨bytes, im, e1, e2, e3, e4, e5, e6⟩ := h3
  refine ⟨bytes, im, e1, e2, e3, e4, e5, fun i hi j hj => ?_⟩
  obtain ⟨c, c', g1, g2, g3⟩ := e6 i hi j hj
  refine ⟨c, c', ?_, g2, g3⟩
  have hla : j * a.width + i < a.pixels.length := by
    rw [hca]
    calc j * a.width + i < j * a.width + a.width := by omega
      _ = (j + 1) * a.width := by ring
      _ ≤ a.height * a.width := Nat.mul_le_mul_right _ hj
      _ = a.width * a.height := by ring
  have hlb : j * b.width + i < b.pixels.length := by
    rw [hcb, ← hw, ← hh, ← hca]
    exact hla
  refine ⟨a.pixels[j * a.width + i], b.pixels[j * b.width + i], Outcome.index_of_lt hla, Outcome.index_of_lt hlb, ?_⟩
  unfold Image.get at g1
  have hld : j * d.width + i < d.pixels.length := by
    rw [hcd, hdw, hdh, ← hca]
    exact hla
  rw [Outcome.index_of_lt hld] at g1
  rw [← Outcome.ok.inj g1]
  simp only [hpix, List.getElem_map, List.getElem_zip, hdw]
  congr 1
  simp only [hw]

/-- C111, comparing an image with itself gives a black image. -/
theorem C111_same (w : World) (hu : AcceptsAscii w.utf8) (files : Files) (input1 input2 output : Text) (a : Buffer)
    (ha : load w files input1 = .ok a) (hb : load w files input2 = .ok a) (hca : Complete a) (hw' : a.width < 2 ^ 64) (hh' : a.height < 2 ^ 64)
    (hc : w.creates output = true) (hp : ∀ p ∈ a.pixels, ∀ q ∈ a.pixels, brightest (grey p q) < 2 ^ 127) :
    ∃ bytes im, (scompare w files input1 input2 output none).files output = some bytes ∧ read w.utf8 bytes = .ok im ∧
      ∀ i < a.width, ∀ j < a.height, get im i j = .ok ⟨0, 0, 0⟩ := by
  obtain ⟨-, -, bytes, im, e1, e2, -, -, -, e6⟩ := C111_compare_partial w hu files input1 input2 output a a ha hb hca hca rfl rfl hw' hh' hc hp
  refine ⟨bytes, im, e1, e2, fun i hi j hj => ?_⟩
  obtain ⟨c, c', ⟨p, q, g1, g2, rfl⟩, g4, g5⟩ := e6 i hi j hj
  obtain rfl := Outcome.ok.inj (g1.symm.trans g2)
  have h0 : grey p p = ⟨0, 0, 0⟩ := by simp [grey]
  rw [h0] at g5
  rcases g5 with ⟨-, rfl⟩ | ⟨h, -⟩
  · exact g4
  · exfalso
    simp only [brightest, max_self] at h
    norm_num at h

/-- C111, comparing in false colours: for two images of the same size, the output is what the encoder makes of the colours, in the scale asked
for, of an image of that size with the difference of radiance of each pixel. -/
theorem C111_compare_colours (w : World) (files : Files) (input1 input2 output : Text) (a b : Buffer) (s : Scale)
    (ha : load w files input1 = .ok a) (hb : load w files input2 = .ok b) (hca : Complete a) (hcb : Complete b)
    (hw : a.width = b.width) (hh : a.height = b.height) (hc : w.creates output = true) :
    ∃ d : Buffer, d.width = a.width ∧ d.height = a.height ∧
      (∀ i < a.width, ∀ j < a.height, ∃ p q, get a i j = .ok p ∧ get b i j = .ok q ∧ get d i j = .ok (grey p q)) ∧
      ∀ image content, (if s.log then logFalsecolour d s.min s.max s.table else falsecolour d s.min s.max s.table) = .ok image →
        w.jpeg image = some content →
        (scompare w files input1 input2 output (some s)).ending = .success ∧
          (scompare w files input1 input2 output (some s)).files output = some content := by
  obtain ⟨d, hd, hcd⟩ := (C55_complete a.width a.height).2.2 b a hcb hca hw.symm hh.symm
  have hd' := hd
  unfold diff fromPixels at hd'
  rw [if_neg (by simp [hw, hh])] at hd'
  split_ifs at hd' with hlen
  have hd'' := Outcome.ok.inj hd'
  have hdw : d.width = a.width := by rw [← hd'', hw]
  have hdh : d.height = a.height := by rw [← hd'', hh]
  have hpix : d.pixels = (b.pixels.zip a.pixels).map fun p => grey p.2 p.1 := by
    rw [← hd'']
    refine List.map_congr_left fun p _ => ?_
    exact radiance_diff p.2 p.1
  refine ⟨d, hdw, hdh, fun i hi j hj => ?_, fun image content hi he => ?_⟩
  · have hla : j * a.width + i < a.pixels.length := by
      rw [hca]
      calc j * a.width + i < j * a.width + a.width := by omega
        _ = (j + 1) * a.width := by ring
        _ ≤ a.height * a.width := Nat.mul_le_mul_right _ hj
        _ = a.width * a.height := by ring
    have hlb : j * b.width + i < b.pixels.length := by
      rw [hcb, ← hw, ← hh, ← hca]
      exact hla
    have hld : j * d.width + i < d.pixels.length := by
      rw [hcd, hdw, hdh, ← hca]
      exact hla
    refine ⟨a.pixels[j * a.width + i], b.pixels[j * b.width + i], Outcome.index_of_lt hla, Outcome.index_of_lt hlb, ?_⟩
    unfold Image.get
    rw [Outcome.index_of_lt hld]
    simp only [hpix, List.getElem_map, List.getElem_zip, hdw]
    simp only [hw]
  · have e : scompare w files input1 input2 output (some s) = ⟨fill files output content, .success⟩ := by
      unfold scompare
      rw [ha, hb]
      simp only [Outcome.bind]
      rw [hd]
      simp only [inColours]
      by_cases hl : s.log = true
      · rw [if_pos hl] at hi ⊢
        unfold saveJpeg
        rw [hi]
        simp only [hc, if_true, he]
      · rw [if_neg hl] at hi ⊢
        unfold saveJpeg
        rw [hi]
        simp only [hc, if_true, he]
    rw [e]
    exact ⟨rfl, if_pos rfl⟩

/-- C111, what cannot be compared: images that are not there, that cannot be read or that differ in size give an exit code of one, and no file
changes. -/
theorem C111_refused (w : World) (files : Files) (input1 input2 output : Text) (s : Option Scale) :
    (∀ input, files input = none → load w files input = .err) ∧
    (load w files input1 = .err → scompare w files input1 input2 output s = ⟨files, .failure⟩) ∧
    (∀ a, load w files input1 = .ok a → load w files input2 = .err → scompare w files input1 input2 output s = ⟨files, .failure⟩) ∧
    (∀ a b, load w files input1 = .ok a → load w files input2 = .ok b → ¬ (a.width = b.width ∧ a.height = b.height) →
      scompare w files input1 input2 output s = ⟨files, .failure⟩) ∧
    (load w files input1 = .err → ∀ sc, sfalsecolor w files input1 output sc = ⟨files, .failure⟩) := by
  refine ⟨fun input h => ?_, fun h => ?_, fun a h1 h2 => ?_, fun a b h1 h2 h3 => ?_, fun h sc => ?_⟩
  · simp [load, h]
  · unfold scompare
    rw [h]
    rfl
  · unfold scompare
    rw [h1, h2]
    rfl
  · unfold scompare
    rw [h1, h2]
    simp only [Outcome.bind]
    rw [C55_sizes b a fun e => h3 ⟨e.1.symm, e.2.symm⟩]
  · unfold sfalsecolor
    rw [h]

/-- C111 fails for a file that was cut short: comparing it with itself panics. -/
theorem C111_violated_truncated (w : World) (hu : AcceptsAscii w.utf8) (files : Files) (input output : Text)
    (hf : files input = some (bytes "-Y 2 +X 2\n")) (s : Option Scale) : scompare w files input input output s = ⟨files, .panic⟩ := by
  obtain ⟨im, h1, h2, h3, h4⟩ := C55_violated_truncated w.utf8 hu
  have hl : load w files input = .ok im := by unfold load; rw [hf]; exact h1
  have hn : ¬ 0 < im.pixels.length := by
    intro h
    unfold Image.get at h4
    rw [Outcome.index_of_lt (by simpa using h)] at h4
    cases h4
  have hd : diff im im = .panic := by
    unfold diff fromPixels
    rw [if_neg (by simp), if_pos]
    rw [h2, h3, List.length_map, List.length_zip]
    omega
  unfold scompare
  rw [hl]
  simp only [Outcome.bind]
  rw [hd]

/-- C111, differences, false colours and pictures go to their file alone. -/
theorem C111_elsewhere {S : Type} (w : World) (files : Files) (input1 input2 output : Text) (s : Option Scale) (sc : Scale) (scenes : Scenes S) (p : Picture) :
    Elsewhere files (scompare w files input1 input2 output s).files output ∧
    Elsewhere files (sfalsecolor w files input1 output sc).files output ∧
    Elsewhere files (spict w scenes files input1 output p).files output := by
  have hfill : ∀ c, Elsewhere files (fill files output c) output := fun c q hq => if_neg hq
  have hj : ∀ j, Elsewhere files (saveJpeg w files j output).files output := by
    intro j
    unfold saveJpeg
    cases j with
    | ok j =>
      simp only
      by_cases hc : w.creates output = true
      · rw [if_pos hc]
        cases w.jpeg j <;> exact hfill _
      · rw [if_neg hc]; exact fun _ _ => rfl
    | err => exact fun _ _ => rfl
    | panic => exact fun _ _ => rfl
  have hs : ∀ im, Elsewhere files (saveHdre w files im output).files output := by
    intro im
    unfold saveHdre
    by_cases hc : w.creates output = true
    · rw [if_pos hc]
      cases save w.checks im <;> exact hfill _
    · rw [if_neg hc]; exact fun _ _ => rfl
  have hi : ∀ im sc, Elsewhere files (inColours w files im sc output).files output := by
    intro im sc
    unfold inColours
    by_cases h : sc.log = true
    · rw [if_pos h]; exact hj _
    · rw [if_neg h]; exact hj _
  refine ⟨?_, ?_, ?_⟩
  · unfold scompare
    cases (load w files input1).bind fun a => (load w files input2).bind fun b => diff b a with
    | ok d =>
      cases s with
      | some s => exact hi _ _
      | none => exact hs _
    | err => exact fun _ _ => rfl
    | panic => exact fun _ _ => rfl
  · unfold sfalsecolor
    cases load w files input1 with
    | ok im => exact hi _ _
    | err => exact fun _ _ => rfl
    | panic => exact fun _ _ => rfl
  · unfold spict
    cases (readScene scenes input1).bind (picture scenes p) with
    | ok im => exact hs _
    | err => exact fun _ _ => rfl
    | panic => exact fun _ _ => rfl

/-- C111, false colours: the output is what the encoder makes of the colours of the image, in the scale asked for. -/
theorem C111_colours (w : World) (files : Files) (input output : Text) (s : Scale) (im : Buffer) (j : Jpeg) (content : List ℕ)
    (h : load w files input = .ok im) (hj : (if s.log then logFalsecolour im s.min s.max s.table else falsecolour im s.min s.max s.table) = .ok j)
    (hc : w.creates output = true) (he : w.jpeg j = some content) :
    (sfalsecolor w files input output s).ending = .success ∧ (sfalsecolor w files input output s).files output = some content := by
  have : sfalsecolor w files input output s = ⟨fill files output content, .success⟩ := by
    unfold sfalsecolor
    rw [h]
    simp only [inColours]
    by_cases hl : s.log = true
    · rw [if_pos hl] at hj ⊢
      unfold saveJpeg
      rw [hj]
      simp only [hc, if_true, he]
    · rw [if_neg hl] at hj ⊢
      unfold saveJpeg
      rw [hj]
      simp only [hc, if_true, he]
  rw [this]
  exact ⟨rfl, if_pos rfl⟩

/-! ### Pictures -/

private theorem normalize_ok (v : V3 ℝ) (h : v.lengthSquared > 1 / 10 ^ 20) : ∃ k, 0 < k ∧ v.normalize = .ok (v.scale k) := by
  refine ⟨1 / Real.sqrt v.lengthSquared, ?_, by rw [V3.normalize, if_pos h]⟩
  have : 0 < v.lengthSquared := lt_trans (by norm_num) h
  have := Real.sqrt_pos.2 this
  positivity

private theorem scale_lengthSquared (v : V3 ℝ) (k : ℝ) : (v.scale k).lengthSquared = k ^ 2 * v.lengthSquared := by
  simp only [V3.lengthSquared, V3.scale]
  ring

/-- C111, pictures: the file that is written holds an image of the size asked for, and each pixel has what is traced, with the settings that were
given, along the ray of that pixel of the view asked for. The directions must not be too short, and not parallel. -/
theorem C111_picture {S : Type} (w : World) (hu : AcceptsAscii w.utf8) (scenes : Scenes S) (files : Files) (input output : Text) (p : Picture)
    (scene : S) (hs : readScene scenes input = .ok scene) (hc : w.creates output = true)
    (hd : p.viewDirection.lengthSquared > 1 / 10 ^ 20) (hup : p.viewUp.lengthSquared > 1 / 10 ^ 20) (camera : Camera.Pinhole)
    (hcam : (p.viewDirection.normalize.bind fun d => p.viewUp.normalize.bind fun u =>
      Camera.new ⟨p.viewPoint, d, u, p.fieldOfView⟩ p.x p.y) = .ok camera)
    (h0 : 0 < p.fieldOfView) (h180 : p.fieldOfView < 180) (hf : 1 / 10 ^ 10 < camera.filmDistance)
    (hx : p.x < 2 ^ 64) (hy : p.y < 2 ^ 64) (hsize : p.x * p.y < 2 ^ 53)
    (hcol : ∀ chunk k ray, Nonneg (scenes.trace scene p.depth p.shadow p.ambient chunk k ray) ∧
      brightest (scenes.trace scene p.depth p.shadow p.ambient chunk k ray) < 2 ^ 127) :
    (spict w scenes files input output p).ending = .success ∧
      Holds w ((spict w scenes files input output p).files output) p.x p.y
        (fun i j c => ∃ ray chunk k, Aims p i j ray ∧ c = scenes.trace scene p.depth p.shadow p.ambient chunk k ray) := by
  obtain ⟨kd, hkd, ed⟩ := normalize_ok _ hd
  obtain ⟨ku, hku, eu⟩ := normalize_ok _ hup
  rw [ed, eu] at hcam
  simp only [Outcome.bind] at hcam
  obtain ⟨hupr, hpt, hcw, hch, ⟨k, hk, hdir⟩, hupd, hright, hfov⟩ := Camera.C78_camera _ _ _ _ hcam
  simp only at hpt hdir hupd hfov
  obtain ⟨hfpos, hftan⟩ := hfov h0 h180
  obtain ⟨pixels, hr, hlen, hpix⟩ := Camera.C78_pixels camera hupr hf (by rw [hcw, hch]; exact hsize) (scenes.trace scene p.depth p.shadow p.ambient)
  have hpicture : picture scenes p scene = .ok ⟨p.x, p.y, pixels⟩ := by
    unfold picture
    rw [ed, eu]
    simp only [Outcome.bind]
    rw [hcam]
    simp only
    rw [hr]
  have e : spict w scenes files input output p = saveHdre w files ⟨p.x, p.y, pixels⟩ output := by
    unfold spict
    rw [hs]
    simp only [Outcome.bind]
    rw [hpicture]
  rw [e]
  rw [hcw, hch] at hlen
  have hcolour : ∀ c ∈ pixels, Nonneg c ∧ brightest c < 2 ^ 127 := by
    intro c hcm
    obtain ⟨n, hn, rfl⟩ := List.getElem_of_mem hcm
    have hn' := hn
    rw [hlen] at hn'
    have hx0 : 0 < p.x := Nat.pos_of_ne_zero fun h => by rw [h] at hn'; simp at hn'
    obtain ⟨ray, chunk, k', -, h2⟩ := hpix (n % p.x) (n / p.x) (by rw [hcw]; exact Nat.mod_lt _ hx0) (by
      rw [hch]
      exact Nat.div_lt_of_lt_mul hn')
    rw [hcw, Nat.div_add_mod', List.getElem?_eq_getElem hn, Option.some.injEq] at h2
    rw [h2]
    exact hcol _ _ _
  obtain ⟨h1, -, bytes, im, e1, e2, e3, e4, e5, e6⟩ := saveHdre_holds w hu files ⟨p.x, p.y, pixels⟩ output hc hlen hx hy hcolour
  refine ⟨h1, bytes, im, e1, e2, e3, e4, e5, fun i hi j hj => ?_⟩
  obtain ⟨c, c', g1, g2, g3⟩ := e6 i hi j hj
  refine ⟨c, c', ?_, g2, g3⟩
  obtain ⟨ray, chunk, k', h2, h3⟩ := hpix i j (by rw [hcw]; exact hi) (by rw [hch]; exact hj)
  obtain ⟨ray', t, r1, r2, r3, r4, r5, -, -⟩ := Camera.C78_ray camera hupr hf i j (by rw [hcw]; exact hi) (by rw [hch]; exact hj)
  obtain rfl := Outcome.ok.inj (h2.symm.trans r1)
  refine ⟨ray, chunk, k', ⟨camera.direction, camera.up, camera.right, camera.filmDistance, kd * k, t, hupr.dd, hupr.uu, hupr.du, hright,
    by positivity, ?_, ?_, hftan, r4, r2.trans hpt, r3, ?_⟩, ?_⟩
  · rw [hdir]
    ext <;> simp only [V3.scale] <;> ring
  · have : camera.up.dot (p.viewUp.scale ku) = ku * camera.up.dot p.viewUp := by
      simp only [V3.dot, V3.scale]
      ring
    rw [this] at hupd
    exact (mul_pos_iff_of_pos_left hku).1 hupd
  · rw [r5, Camera.Spec.across, Camera.Spec.above, hcw, hch]
  · rw [hcw] at h3
    obtain ⟨hlt, h3'⟩ := List.getElem?_eq_some_iff.1 h3
    have g1' : Outcome.index pixels (j * p.x + i) = .ok c := g1
    rw [Outcome.index_of_lt hlt, h3'] at g1'
    exact (Outcome.ok.inj g1').symm

/-- C111, scenes of an unknown format: the exit code is one, and no file changes. -/
theorem C111_format {S : Type} (w : World) (scenes : Scenes S) (files : Files) (input output : Text) (p : Picture)
    (h1 : ¬ ∃ name, input = name ++ ".rad".toList) (h2 : ¬ ∃ name, input = name ++ ".spl".toList) :
    spict w scenes files input output p = ⟨files, .failure⟩ := by
  have h : ∀ suffix : Text, (¬ ∃ name, input = name ++ suffix) → endsWith input suffix = false := by
    intro suffix h
    rw [Bool.eq_false_iff]
    intro e
    unfold endsWith at e
    rw [List.isSuffixOf_iff_suffix] at e
    obtain ⟨name, e⟩ := e
    exact h ⟨name, e.symm⟩
  unfold spict readScene
  rw [h _ h1, h _ h2]
  rfl

/-- C111 fails for the sensors of `sfluxmtx`: the number of sensors and the sensors given do not matter. -/
theorem C111_violated_sensors {S : Type} (w : World) (scenes : Scenes S) (input : Text) (mf depth : ℕ) (hmf : 0 < mf) (scene : S)
    (hs : readScene scenes input = .ok scene) (numbers : S → ℕ → List ((ℝ × ℝ) × Daylight.Course))
    (hn : ∀ k, ∀ u ∈ numbers scene k, u.1 ∈ Sampler.Spec.square) (nSensors : ℕ) (given : List (Ray ℝ)) :
    ∃ m, sfluxmtx w scenes input mf depth nSensors given numbers = .ok m ∧ m.nrows = 6 ∧
      ∀ n' given', sfluxmtx w scenes input mf depth n' given' numbers = .ok m := by
  obtain ⟨sky, hsky, -⟩ := (Weather.Reinhart.C36_count mf).1 hmf
  have hmem : ∀ r ∈ sensors.zipIdx.map (fun r => (r.1, numbers scene r.2)), r.1 = ⟨⟨1, 6, 1⟩, ⟨0, 0, 1⟩⟩ ∧ ∃ k, r.2 = numbers scene k := by
    intro r hr
    obtain ⟨q, hq, rfl⟩ := List.mem_map.1 hr
    have := (List.mem_zipIdx hq).2.2
    refine ⟨?_, q.2, rfl⟩
    simp only
    rw [this]
    simp only [sensors, List.getElem_replicate]
  obtain ⟨m, M, h1, h2, -⟩ := Daylight.C77_entries w.checks mf sky hsky depth (sensors.zipIdx.map fun r => (r.1, numbers scene r.2))
    (fun r hr => by rw [(hmem r hr).1]; norm_num [V3.dot])
    (fun r hr => by
      obtain ⟨k, hk⟩ := (hmem r hr).2
      rw [hk]
      exact hn k)
  have key : ∀ n' given', sfluxmtx w scenes input mf depth n' given' numbers = .ok m := by
    intro n' given'
    unfold sfluxmtx
    rw [hs]
    simp only [Outcome.bind]
    rw [hsky]
    exact h1
  exact ⟨m, key _ _, by rw [h2.nrows]; simp [sensors], key⟩

/-- Three numbers, with blanks around them. -/
example : triplet (fun s => if s = ['0'] then some 0 else if s = ['1'] then some 1 else none) " 0 1 0\n".toList = some ⟨0, 1, 0⟩ := by
  rw [C111_triplet]
  refine ⟨['0'], ['1'], ['0'], ⟨⟨?_, ?_⟩, [' '], ['\n'], by decide, by decide, by decide⟩, by decide, by decide, by decide, by simp, by simp, by simp⟩
  · intro c hc
    simp only [List.cons_append, List.nil_append, List.head?_cons, Option.some.injEq] at hc
    subst hc
    decide
  · intro c hc
    have : c = '0' := by simpa using hc.symm
    subst this
    decide

/-- A picture of a white world is written with the default view; then it is compared with itself. -/
example (w : World) (hu : AcceptsAscii w.utf8) (hw : ∀ path, w.creates path = true) (files : Files) :
    let p : Picture := ⟨2, 1, 1, 64, 48, 0, ⟨0, 1, 0⟩, ⟨0, 0, 1⟩, 60⟩
    let scenes : Scenes Unit := ⟨fun _ => .ok (), fun _ => .ok (), fun _ _ _ _ _ _ _ => ⟨1, 1, 1⟩⟩
    let after := (spict w scenes files "house.rad".toList "house.hdr".toList p).files
    (spict w scenes files "house.rad".toList "house.hdr".toList p).ending = .success ∧
      (scompare w after "house.hdr".toList "house.hdr".toList "difference.hdr".toList none).ending = .success := by
  intro p scenes after
  have hn : (⟨0, 1, 0⟩ : V3 ℝ).normalize = .ok ⟨0, 1, 0⟩ := by norm_num [V3.normalize, V3.lengthSquared, V3.scale]
  have hn' : (⟨0, 0, 1⟩ : V3 ℝ).normalize = .ok ⟨0, 0, 1⟩ := by norm_num [V3.normalize, V3.lengthSquared, V3.scale]
  have hcam : ∃ camera, Camera.new ⟨0, ⟨0, 1, 0⟩, ⟨0, 0, 1⟩, 60⟩ 64 48 = .ok camera :=
    (Camera.C78_made _ _ _).1.2 (by unfold V3.lengthSquared V3.cross; norm_num)
  obtain ⟨camera, hcam⟩ := hcam
  have hf : camera.filmDistance = Real.sqrt 3 := by
    have : Camera.new ⟨0, ⟨0, 1, 0⟩, ⟨0, 0, 1⟩, 60⟩ 64 48 = .ok ⟨0, ⟨0, 1, 0⟩, ⟨0, 0, 1⟩, ⟨1, 0, 0⟩, 1 / Real.tan (60 * (Real.pi / 180) / 2), 64, 48⟩ := by
      norm_num [Camera.new, V3.normalize, V3.lengthSquared, V3.scale, V3.cross, Outcome.bind]
    rw [this] at hcam
    rw [← Outcome.ok.inj hcam]
    rw [show (60 : ℝ) * (Real.pi / 180) / 2 = Real.pi / 6 by ring, Real.tan_pi_div_six]
    simp
  have hp := C111_picture w hu scenes files "house.rad".toList "house.hdr".toList p () (by rfl) (hw _)
    (by norm_num [p, V3.lengthSquared]) (by norm_num [p, V3.lengthSquared]) camera (by
      simp only [p]
      rw [hn, hn']
      exact hcam) (by norm_num [p]) (by norm_num [p]) (by
      rw [hf]
      have : (1 : ℝ) ≤ Real.sqrt 3 := Real.one_le_sqrt.2 (by norm_num)
      linarith) (by norm_num [p]) (by norm_num [p]) (by norm_num [p]) (by
      intro _ _ _
      simp only [scenes]
      constructor
      · norm_num [Nonneg]
      · norm_num [brightest])
  obtain ⟨h1, bytes, im, h2, h3, h4, h5, h6, h7⟩ := hp
  refine ⟨h1, ?_⟩
  have hl : load w after "house.hdr".toList = .ok im := by
    have h2' : after "house.hdr".toList = some bytes := h2
    unfold load
    rw [h2']
    exact h3
  have hc : Complete im := by rw [Complete, h6, h4, h5]
  have hpix : ∀ c ∈ im.pixels, 0 ≤ c.r ∧ c.r ≤ 1 ∧ 0 ≤ c.g ∧ c.g ≤ 1 ∧ 0 ≤ c.b ∧ c.b ≤ 1 := by
    intro c hcm
    obtain ⟨k, hk, e⟩ := List.getElem_of_mem hcm
    have hk' : k < 64 * 48 := by rw [h6] at hk; exact hk
    obtain ⟨c1, c2, ⟨_, _, _, _, hc1⟩, hg, hkept⟩ := h7 (k % 64) (Nat.mod_lt _ (by norm_num [p])) (k / 64) (by simp only [p]; omega)
    have hc1' : c1 = ⟨1, 1, 1⟩ := hc1
    have hw' : im.width = 64 := h4
    have hidx : k / 64 * im.width + k % 64 = k := by rw [hw']; omega
    unfold Image.get at hg
    rw [hidx, Outcome.index_of_lt hk, e] at hg
    rw [Outcome.ok.inj hg]
    rw [hc1'] at hkept
    have hb : brightest ⟨1, 1, 1⟩ = 1 := by norm_num [brightest]
    rcases hkept with h | ⟨_, ⟨x1, x2⟩, ⟨y1, y2⟩, z1, z2⟩
    · rw [hb] at h
      norm_num at h
    · rw [hb] at x2 y2 z2
      norm_num at x1 x2 y1 y2 z1 z2
      exact ⟨by linarith, x1, by linarith, y1, by linarith, z1⟩
  exact (C111_compare_partial w hu after _ _ _ im im hl hl hc hc rfl rfl (by rw [h4]; norm_num [p]) (by rw [h5]; norm_num [p]) (hw _) (by
    intro c hcm d hdm
    obtain ⟨a1, a2, a3, a4, a5, a6⟩ := hpix c hcm
    obtain ⟨b1, b2, b3, b4, b5, b6⟩ := hpix d hdm
    have : |(c.r - d.r) * 0.265 + (c.g - d.g) * 0.67 + (c.b - d.b) * 0.065| ≤ 1 := by
      rw [abs_le]
      constructor <;> norm_num <;> linarith
    simp only [grey, brightest, max_self]
    exact lt_of_le_of_lt this (by norm_num))).1

end Simple.Render.Tools
