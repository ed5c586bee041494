import Verif.Render.RadianceModel
import Verif.Render.StageProps

/-! # C82: reading Radiance files -/

namespace Simple.Render.Radiance

open Geometry Materials Stage Image MatrixFile Stage.Spec

namespace Spec

/-- What an entry of a file says. -/
inductive Content where
  | material (m : Material)
  | sphere (centre : V3 ℝ) (radius : ℝ)
  | source (direction : V3 ℝ) (degrees : ℝ)
  | polygon (vertices : List (V3 ℝ))

/-- An entry of a file. -/
structure Item where
  modifier : List ℕ
  name : List ℕ
  content : Content

/-- The materials: the word for the kind, and what the numbers are.  A specularity below 0.00001 is none. -/
inductive MaterialIs : String → List ℝ → Material → Prop
  | plastic (r g b s ro : ℝ) : MaterialIs "plastic" [r, g, b, s, ro]
      (if s < 1 / 10 ^ 5 then .diffuse ![r, g, b] else .plastic ![r, g, b] s ro)
  | metal (r g b s ro : ℝ) : MaterialIs "metal" [r, g, b, s, ro]
      (if s < 1 / 10 ^ 5 then .diffuse ![r, g, b] else .metal ![r, g, b] s ro)
  | light (r g b : ℝ) : MaterialIs "light" [r, g, b] (.light ![r, g, b])
  | mirror (r g b : ℝ) : MaterialIs "mirror" [r, g, b] (.mirror ![r, g, b])
  | dielectric (r g b n h : ℝ) : MaterialIs "dielectric" [r, g, b, n, h] (.dielectric ![r, g, b] n)
  | glass (r g b n : ℝ) : MaterialIs "glass" [r, g, b, n] (.glass ![r, g, b] n)
  | clear (r g b : ℝ) : MaterialIs "glass" [r, g, b] (.glass ![r, g, b] (152 / 100))

/-- The words of an entry after its first three: how many texts, integers and numbers follow (there are numbers only). -/
inductive ContentIs : String → (count : List ℕ) → List ℝ → Content → Prop
  | material {kind : String} {xs : List ℝ} {m : Material} (h : MaterialIs kind xs m) :
      ContentIs kind (decimal xs.length) xs (.material m)
  | sphere (x y z r : ℝ) : ContentIs "sphere" (decimal 4) [x, y, z, r] (.sphere ⟨x, y, z⟩ r)
  | source (x y z a : ℝ) : ContentIs "source" (decimal 4) [x, y, z, a] (.source ⟨x, y, z⟩ a)
  | polygon (count : List ℕ) (vertices : List (V3 ℝ)) (h : parseUsize count = some (3 * vertices.length)) :
      ContentIs "polygon" count (vertices.flatMap fun v => [v.x, v.y, v.z]) (.polygon vertices)

/-- Some words are the text of an entry: `modifier kind name 0 0 n x₁ … xₙ`. -/
def Written (parse : List ℕ → Option ℝ) (e : Item) (ws : List (List ℕ)) : Prop :=
  ∃ kind count xs numbers, ContentIs kind count xs e.content ∧ numbers.map parse = xs.map some ∧
    ws = [e.modifier, bytes kind, e.name, bytes "0", bytes "0", count] ++ numbers

/-- A loop with some points pushed to it. -/
noncomputable def pushAll : List (V3 ℝ) → Loop → Outcome Loop
  | [], l => .ok l
  | v :: vs, l => match l.push v with
    | (.ok (), l) => pushAll vs l
    | (.err, _) => .err
    | (.panic, _) => .panic

/-- The objects of a scene that stand for an entry. -/
noncomputable def objectsIn : Content → Outcome (List Primitive)
  | .material _ => .ok []
  | .sphere c r => (Sphere.new r c).map fun s => [.sphere s]
  | .source d a => (DistantSource.new d (a * (Real.pi / 180))).map fun s => [.source s]
  | .polygon vs => (pushAll vs Loop.new).bind fun l => (trianglesOf l).map fun ts => ts.map .triangle

/-- The entry is that of a material. -/
def Item.IsMaterial (e : Item) : Prop := ∃ m, e.content = .material m

/-- What is done for the entries of a file, one after the other: `names` are the names of the materials so far.  An object
has, on both sides, the first material that has the name of its modifier. -/
inductive Builds : (names : List (List ℕ)) → List Item → List Step → Prop
  | nil (names : List (List ℕ)) : Builds names [] []
  | material {names : List (List ℕ)} {e : Item} {m : Material} {es : List Item} {l : List Step}
      (h : e.content = .material m) (hs : Builds (names ++ [e.name]) es l) : Builds names (e :: es) (.material m :: l)
  | object {names : List (List ℕ)} {e : Item} {ps : List Primitive} {i : ℕ} {es : List Item} {l : List Step}
      (h : ¬ e.IsMaterial) (hp : objectsIn e.content = .ok ps) (hi : names[i]? = some e.modifier)
      (hf : ∀ j < i, names[j]? ≠ some e.modifier) (hs : Builds names es l) :
      Builds names (e :: es) (ps.map (fun p => .object ⟨p, i, i⟩) ++ l)

end Spec

open Spec

/-! ### Words -/

private theorem splitBy_at (p : ℕ → Bool) (a b : List ℕ) (x : ℕ) (ha : ∀ c ∈ a, p c = false) (hx : p x = true) :
    splitBy p (a ++ x :: b) = a :: splitBy p b := by
  induction a with
  | nil => simp [splitBy, hx]
  | cons c a ih =>
    rw [List.cons_append, splitBy, ih fun c hc => ha c (by simp [hc])]
    simp [ha c (by simp)]

private theorem splitBy_none (p : ℕ → Bool) (a : List ℕ) (ha : ∀ c ∈ a, p c = false) : splitBy p a = [a] := by
  induction a with
  | nil => rfl
  | cons c a ih =>
    rw [splitBy, ih fun c hc => ha c (by simp [hc])]
    simp [ha c (by simp)]

private theorem words_space {x : ℕ} (b : List ℕ) (hx : isSpace x = true) : words (x :: b) = words b := by
  unfold words
  rw [show x :: b = [] ++ x :: b from rfl, splitBy_at isSpace [] b x (by simp) hx]
  simp

private theorem words_token {w rest : List ℕ} (hw : ∀ c ∈ w, isSpace c = false) (hn : w ≠ [])
    (hr : rest = [] ∨ ∃ c t, rest = c :: t ∧ isSpace c = true) : words (w ++ rest) = w :: words rest := by
  rcases hr with rfl | ⟨c, t, rfl, hc⟩
  · unfold words
    rw [List.append_nil, splitBy_none isSpace w hw]
    simp [hn, splitBy]
  · rw [words_space t hc]
    unfold words
    rw [splitBy_at isSpace w t c hw hc]
    simp [hn]

private theorem words_nil : words [] = [] := by simp [words, splitBy]

/-! ### The reader and the words that are left -/

/-- The reader is in a state that it can be in. -/
private def Good (source : List ℕ) (r : Reader) : Prop :=
  (r.isDone = true → r.rest = []) ∧ (r.rest = [] → source = [] ∨ r.isDone = true) ∧ (source = [] → r.rest = [])

private theorem reach_spec (source : List ℕ) : ∀ (n : ℕ) (r : Reader), r.rest.length = n → Good source r →
    ∃ r', reachNextToken source r = .ok r' ∧ Good source r' ∧ r'.modifiers = r.modifiers ∧ words r'.rest = words r.rest ∧
      r'.rest.length ≤ r.rest.length ∧
      (r'.isDone = true ∧ r'.rest = [] ∨ r'.isDone = false ∧ ∃ c t, r'.rest = c :: t ∧ isSpace c = false) := by
  intro n
  induction n using Nat.strong_induction_on with
  | _ n ih =>
    intro r hn hg
    obtain ⟨g1, g2, g3⟩ := hg
    rw [reachNextToken]
    by_cases hs : source = []
    · have h0 : consumeWhitespace source r = .ok (false, { r with isDone := true }) := by
        unfold consumeWhitespace
        simp [hs]
      have hr := g3 hs
      refine ⟨{ r with isDone := true }, ?_, ⟨fun _ => hr, fun _ => .inl hs, fun _ => hr⟩, rfl, rfl, le_rfl,
        .inl ⟨rfl, hr⟩⟩
      split <;> simp_all
    · by_cases hd : r.isDone = true
      · have h0 : consumeWhitespace source r = .ok (false, r) := by
          unfold consumeWhitespace
          simp [hs, hd]
        refine ⟨r, ?_, ⟨g1, g2, g3⟩, rfl, rfl, le_rfl, .inl ⟨hd, g1 hd⟩⟩
        split <;> simp_all
      · cases hr : r.rest with
        | nil => exact absurd (g2 hr) (by simp [hs, hd])
        | cons c t =>
          by_cases hc : isSpace c = true
          · have h0 : consumeWhitespace source r =
                .ok (true, { r with rest := t, isDone := t.isEmpty, line := if c = 10 then r.line + 1 else r.line }) := by
              unfold consumeWhitespace consumeChar
              simp [hs, hd, hr, hc]
            obtain ⟨r', e1, e2, e3, e4, e5, e6⟩ := ih t.length (by rw [← hn, hr]; simp)
              { r with rest := t, isDone := t.isEmpty, line := if c = 10 then r.line + 1 else r.line } rfl
              ⟨by simp, fun h => .inr (by simpa using h), fun h => absurd h hs⟩
            refine ⟨r', ?_, e2, e3, ?_, ?_, e6⟩
            · split
              · rename_i h
                rw [h0] at h
                simp only [Outcome.ok.injEq, Prod.mk.injEq, true_and] at h
                subst h
                exact e1
              · rename_i h
                rw [h0] at h
                simp at h
              · rename_i h
                rw [h0] at h
                simp at h
              · rename_i h
                rw [h0] at h
                simp at h
            · rw [e4, words_space t hc]
            · simp only [List.length_cons]
              exact Nat.le_succ_of_le e5
          · have h0 : consumeWhitespace source r = .ok (false, r) := by
              unfold consumeWhitespace
              simp [hs, hd, hr, hc]
            refine ⟨r, ?_, ⟨g1, g2, g3⟩, rfl, by rw [hr], by rw [hr], .inr ⟨by simpa using hd, c, t, hr, by simpa using hc⟩⟩
            split <;> simp_all

private theorem end_spec (source : List ℕ) : ∀ (n : ℕ) (r : Reader), r.rest.length = n → Good source r →
    ∃ r' w, reachEnd source r = .ok r' ∧ Good source r' ∧ r'.modifiers = r.modifiers ∧ r.rest = w ++ r'.rest ∧
      (∀ c ∈ w, isSpace c = false) ∧
      (r'.isDone = true ∧ r'.rest = [] ∨ r'.isDone = false ∧ ∃ c t, r'.rest = c :: t ∧ isSpace c = true) := by
  intro n
  induction n using Nat.strong_induction_on with
  | _ n ih =>
    intro r hn hg
    obtain ⟨g1, g2, g3⟩ := hg
    rw [reachEnd]
    by_cases hs : source = []
    · have h0 : consumeNonWhite source r = .ok (false, { r with isDone := true }) := by
        unfold consumeNonWhite
        simp [hs]
      have hr := g3 hs
      refine ⟨{ r with isDone := true }, [], ?_, ⟨fun _ => hr, fun _ => .inl hs, fun _ => hr⟩, rfl, rfl, by simp,
        .inl ⟨rfl, hr⟩⟩
      split <;> simp_all
    · by_cases hd : r.isDone = true
      · have h0 : consumeNonWhite source r = .ok (false, r) := by
          unfold consumeNonWhite
          simp [hs, hd]
        refine ⟨r, [], ?_, ⟨g1, g2, g3⟩, rfl, rfl, by simp, .inl ⟨hd, g1 hd⟩⟩
        split <;> simp_all
      · cases hr : r.rest with
        | nil => exact absurd (g2 hr) (by simp [hs, hd])
        | cons c t =>
          by_cases hc : isSpace c = true
          · have h0 : consumeNonWhite source r = .ok (false, r) := by
              unfold consumeNonWhite
              simp [hs, hd, hr, hc]
            refine ⟨r, [], ?_, ⟨g1, g2, g3⟩, rfl, by rw [hr]; rfl, by simp, .inr ⟨by simpa using hd, c, t, hr, hc⟩⟩
            split <;> simp_all
          · have h0 : consumeNonWhite source r =
                .ok (true, { r with rest := t, isDone := t.isEmpty, line := if c = 10 then r.line + 1 else r.line }) := by
              unfold consumeNonWhite consumeChar
              simp [hs, hd, hr, hc]
            obtain ⟨r', w, e1, e2, e3, e4, e5, e6⟩ := ih t.length (by rw [← hn, hr]; simp)
              { r with rest := t, isDone := t.isEmpty, line := if c = 10 then r.line + 1 else r.line } rfl
              ⟨by simp, fun h => .inr (by simpa using h), fun h => absurd h hs⟩
            refine ⟨r', c :: w, ?_, e2, e3, ?_, ?_, e6⟩
            · split
              · rename_i h
                rw [h0] at h
                simp only [Outcome.ok.injEq, Prod.mk.injEq, true_and] at h
                subst h
                exact e1
              · rename_i h
                rw [h0] at h
                simp at h
              · rename_i h
                rw [h0] at h
                simp at h
              · rename_i h
                rw [h0] at h
                simp at h
            · simp only at e4
              rw [e4, List.cons_append]
            · intro x hx
              rw [List.mem_cons] at hx
              rcases hx with rfl | hx
              · simpa using hc
              · exact e5 x hx

/-- A step of the reader and the same step on the words. -/
private def Sim {α : Type} (source : List ℕ) (r : Reader) : Outcome (α × Reader) → Outcome (α × List (List ℕ)) → Prop
  | .ok (a, r'), .ok (b, ws) => a = b ∧ Good source r' ∧ words r'.rest = ws ∧ r'.modifiers = r.modifiers
  | .err, .err => True
  | .panic, .panic => True
  | _, _ => False

private theorem sim_bind {α β : Type} {source : List ℕ} {r : Reader} {o : Outcome (α × Reader)}
    {ow : Outcome (α × List (List ℕ))} {f : α × Reader → Outcome (β × Reader)}
    {g : α × List (List ℕ) → Outcome (β × List (List ℕ))} (h : Sim source r o ow)
    (hf : ∀ a r', Good source r' → r'.modifiers = r.modifiers → Sim source r' (f (a, r')) (g (a, words r'.rest))) :
    Sim source r (o.bind f) (ow.bind g) := by
  cases o with
  | ok a =>
    obtain ⟨a, r'⟩ := a
    cases ow with
    | ok b =>
      obtain ⟨b, ws⟩ := b
      obtain ⟨rfl, h2, rfl, h4⟩ := h
      have h5 := hf a r' h2 h4
      simp only [Outcome.bind]
      generalize f (a, r') = x at *
      generalize g (a, words r'.rest) = y at *
      cases x with
      | ok x =>
        cases y with
        | ok y => exact ⟨h5.1, h5.2.1, h5.2.2.1, h5.2.2.2.trans h4⟩
        | err => exact h5
        | panic => exact h5
      | err => cases y <;> exact h5
      | panic => cases y <;> exact h5
    | err => exact h.elim
    | panic => exact h.elim
  | err => cases ow <;> first | exact h.elim | trivial
  | panic => cases ow <;> first | exact h.elim | trivial

section Words

variable (utf8 : List ℕ → Bool) (parse : List ℕ → Option ℝ)

private def tokenW : List (List ℕ) → Outcome (List ℕ × List (List ℕ))
  | [] => .ok ([], [])
  | w :: ws => if utf8 w then .ok (w, ws) else .err

private def expectW (token : List ℕ) (ws : List (List ℕ)) : Outcome (Unit × List (List ℕ)) :=
  (tokenW utf8 ws).bind fun t => if t.1 = token then .ok ((), t.2) else .panic

private noncomputable def numberW (ws : List (List ℕ)) : Outcome (ℝ × List (List ℕ)) :=
  (tokenW utf8 ws).bind fun t =>
    match parse t.1 with
    | some x => .ok (x, t.2)
    | none => .err

private noncomputable def numbersW : ℕ → List (List ℕ) → Outcome (List ℝ × List (List ℕ))
  | 0, ws => .ok ([], ws)
  | n + 1, ws => (numberW utf8 parse ws).bind fun x => (numbersW n x.2).bind fun xs => .ok (x.1 :: xs.1, xs.2)

private noncomputable def verticesW : ℕ → Loop → List (List ℕ) → Outcome (Loop × List (List ℕ))
  | 0, l, ws => .ok (l, ws)
  | n + 1, l, ws =>
    (numberW utf8 parse ws).bind fun x =>
    (numberW utf8 parse x.2).bind fun y =>
    (numberW utf8 parse y.2).bind fun z =>
      match l.push ⟨x.1, y.1, z.1⟩ with
      | (.ok (), l) => verticesW n l z.2
      | (.err, _) => .err
      | (.panic, _) => .panic

variable {source : List ℕ}

private theorem token_sim {r : Reader} (hg : Good source r) :
    Sim source r (consumeToken utf8 source r) (tokenW utf8 (words r.rest)) := by
  obtain ⟨r1, e1, e2, e3, e4, -, e5⟩ := reach_spec source _ r rfl hg
  obtain ⟨r2, w, f1, f2, f3, f4, f5, f6⟩ := end_spec source _ r1 rfl e2
  unfold consumeToken
  rw [e1]
  simp only [Outcome.bind]
  rw [f1]
  simp only
  rw [← e4]
  rcases e5 with ⟨-, hr⟩ | ⟨-, c, t, hr, hc⟩
  · rw [hr] at f4 ⊢
    obtain ⟨rfl, h2⟩ := List.append_eq_nil_iff.1 f4.symm
    rw [h2, if_pos rfl, words_nil]
    exact ⟨rfl, f2, by rw [h2, words_nil], f3.trans e3⟩
  · have hw : w ≠ [] := by
      rintro rfl
      rw [List.nil_append] at f4
      rcases f6 with ⟨-, h⟩ | ⟨-, c', t', h, hc'⟩
      · rw [h, hr] at f4
        simp at f4
      · rw [h, hr] at f4
        simp only [List.cons.injEq] at f4
        rw [f4.1, hc'] at hc
        simp at hc
    have hlen : 0 < w.length := List.length_pos_iff.2 hw
    have hwords : words r1.rest = w :: words r2.rest := by
      rw [f4]
      refine words_token f5 hw ?_
      rcases f6 with ⟨-, h⟩ | ⟨-, c', t', h, hc'⟩
      · exact .inl h
      · exact .inr ⟨c', t', h, hc'⟩
    have htake : r1.rest.take (r1.rest.length - r2.rest.length) = w := by
      rw [f4, List.length_append, Nat.add_sub_cancel, List.take_left]
    rw [if_neg (by rw [f4, List.length_append]; omega), htake, hwords]
    simp only [tokenW]
    by_cases hu : utf8 w = true
    · rw [if_pos hu, if_pos hu]
      exact ⟨rfl, f2, rfl, f3.trans e3⟩
    · rw [if_neg hu, if_neg hu]
      trivial

private theorem expect_sim {r : Reader} (t : List ℕ) (hg : Good source r) :
    Sim source r ((expect utf8 source t r).map fun r' => ((), r')) (expectW utf8 t (words r.rest)) := by
  unfold expect expectW
  have h := token_sim utf8 hg
  generalize consumeToken utf8 source r = o at *
  generalize tokenW utf8 (words r.rest) = ow at *
  cases o with
  | ok o =>
    cases ow with
    | ok ow =>
      obtain ⟨h1, h2, h3, h4⟩ := h
      simp only [Outcome.bind]
      rw [h1]
      by_cases hc : ow.1 = t
      · rw [if_pos hc, if_pos hc]
        exact ⟨rfl, h2, h3, h4⟩
      · rw [if_neg hc, if_neg hc]
        trivial
    | err => exact h.elim
    | panic => exact h.elim
  | err => cases ow <;> first | exact h.elim | trivial
  | panic => cases ow <;> first | exact h.elim | trivial

private theorem number_sim {r : Reader} (hg : Good source r) :
    Sim source r (number utf8 parse source r) (numberW utf8 parse (words r.rest)) := by
  unfold number numberW
  refine sim_bind (token_sim utf8 hg) fun a r' g m => ?_
  simp only
  cases parse a with
  | some x => exact ⟨rfl, g, rfl, rfl⟩
  | none => trivial

private theorem numbers_sim : ∀ (n : ℕ) (r : Reader), Good source r →
    Sim source r (numbers utf8 parse source n r) (numbersW utf8 parse n (words r.rest))
  | 0, r, hg => ⟨rfl, hg, rfl, rfl⟩
  | n + 1, r, hg => by
    unfold numbers numbersW
    refine sim_bind (number_sim utf8 parse hg) fun a r' g m => ?_
    refine sim_bind (numbers_sim n r' g) fun b r'' g' m' => ?_
    exact ⟨rfl, g', rfl, rfl⟩

private theorem vertices_sim : ∀ (n : ℕ) (l : Loop) (r : Reader), Good source r →
    Sim source r (consumeVertices utf8 parse source n l r) (verticesW utf8 parse n l (words r.rest))
  | 0, l, r, hg => ⟨rfl, hg, rfl, rfl⟩
  | n + 1, l, r, hg => by
    unfold consumeVertices verticesW
    refine sim_bind (number_sim utf8 parse hg) fun x r1 g1 m1 => ?_
    refine sim_bind (number_sim utf8 parse g1) fun y r2 g2 m2 => ?_
    refine sim_bind (number_sim utf8 parse g2) fun z r3 g3 m3 => ?_
    simp only
    cases l.push ⟨x, y, z⟩ with
    | mk o l' =>
      cases o with
      | ok u => exact vertices_sim n l' r3 g3
      | err => trivial
      | panic => trivial

/-- `expect` inside of a longer computation. -/
private theorem sim_expect {β : Type} {r : Reader} {t : List ℕ} (hg : Good source r) {f : Reader → Outcome (β × Reader)}
    {g : List (List ℕ) → Outcome (β × List (List ℕ))}
    (hf : ∀ r', Good source r' → r'.modifiers = r.modifiers → Sim source r' (f r') (g (words r'.rest))) :
    Sim source r ((expect utf8 source t r).bind f) ((expectW utf8 t (words r.rest)).bind fun x => g x.2) := by
  have h := sim_bind (f := fun x => f x.2) (g := fun x => g x.2) (expect_sim utf8 t hg) fun _ r' g m => hf r' g m
  refine cast ?_ h
  congr 1
  cases expect utf8 source t r <;> rfl

private noncomputable def argumentsW (n : ℕ) (ws : List (List ℕ)) : Outcome (List ℝ × List (List ℕ)) :=
  (expectW utf8 (bytes "0") ws).bind fun x =>
  (expectW utf8 (bytes "0") x.2).bind fun x =>
  (expectW utf8 (decimal n) x.2).bind fun x =>
  numbersW utf8 parse n x.2

private theorem arguments_sim (n : ℕ) {r : Reader} (hg : Good source r) :
    Sim source r (arguments utf8 parse source n r) (argumentsW utf8 parse n (words r.rest)) := by
  unfold arguments argumentsW
  refine sim_expect utf8 hg (g := fun ws => (expectW utf8 (bytes "0") ws).bind fun x =>
    (expectW utf8 (decimal n) x.2).bind fun x => numbersW utf8 parse n x.2) fun r1 g1 m1 => ?_
  refine sim_expect utf8 g1 (g := fun ws => (expectW utf8 (decimal n) ws).bind fun x => numbersW utf8 parse n x.2)
    fun r2 g2 m2 => ?_
  exact sim_expect utf8 g2 fun r3 g3 m3 => numbers_sim utf8 parse n r3 g3

/-! ### The objects -/

/-- A step of the reader that changes the scene and the same step on the words. -/
private def SimS (source : List ℕ) : Outcome (Reader × Stage) → Outcome ((List (List ℕ) × Stage) × List (List ℕ)) → Prop
  | .ok (r, s), .ok ((ms, s'), ws) => s = s' ∧ Good source r ∧ words r.rest = ws ∧ r.modifiers = ms
  | .err, .err => True
  | .panic, .panic => True
  | _, _ => False

private theorem sims_bind {α : Type} {source : List ℕ} {r : Reader} {o : Outcome (α × Reader)}
    {ow : Outcome (α × List (List ℕ))} {f : α × Reader → Outcome (Reader × Stage)}
    {g : α × List (List ℕ) → Outcome ((List (List ℕ) × Stage) × List (List ℕ))} (h : Sim source r o ow)
    (hf : ∀ a r', Good source r' → r'.modifiers = r.modifiers → SimS source (f (a, r')) (g (a, words r'.rest))) :
    SimS source (o.bind f) (ow.bind g) := by
  cases o with
  | ok a =>
    obtain ⟨a, r'⟩ := a
    cases ow with
    | ok b =>
      obtain ⟨b, ws⟩ := b
      obtain ⟨rfl, h2, rfl, h4⟩ := h
      exact hf a r' h2 h4
    | err => exact h.elim
    | panic => exact h.elim
  | err => cases ow <;> first | exact h.elim | trivial
  | panic => cases ow <;> first | exact h.elim | trivial

private theorem sims_expect {r : Reader} {t : List ℕ} (hg : Good source r) {f : Reader → Outcome (Reader × Stage)}
    {g : List (List ℕ) → Outcome ((List (List ℕ) × Stage) × List (List ℕ))}
    (hf : ∀ r', Good source r' → r'.modifiers = r.modifiers → SimS source (f r') (g (words r'.rest))) :
    SimS source ((expect utf8 source t r).bind f) ((expectW utf8 t (words r.rest)).bind fun x => g x.2) := by
  have h := sims_bind (f := fun x => f x.2) (g := fun x => g x.2) (expect_sim utf8 t hg) fun _ r' g m => hf r' g m
  refine cast ?_ h
  congr 1
  cases expect utf8 source t r <;> rfl

private def addW (name : List ℕ) (m : Material) (ms : List (List ℕ)) (s : Stage) (ws : List (List ℕ)) :
    Outcome ((List (List ℕ) × Stage) × List (List ℕ)) :=
  .ok ((ms ++ [name], (s.pushMaterial m).2), ws)

private theorem add_sim (name : List ℕ) (m : Material) {r : Reader} (s : Stage) (hg : Good source r) {ms : List (List ℕ)}
    (hm : r.modifiers = ms) : SimS source (addMaterial name m r s) (addW name m ms s (words r.rest)) := by
  subst hm
  exact ⟨rfl, hg, rfl, rfl⟩

private def indexW (ms : List (List ℕ)) (name : List ℕ) : Outcome ℕ :=
  match ms.findIdx? (· == name) with
  | some i => .ok i
  | none => .panic

private noncomputable def objectW (i : ℕ) (p : Primitive) (ms : List (List ℕ)) (s : Stage) (ws : List (List ℕ)) :
    Outcome ((List (List ℕ) × Stage) × List (List ℕ)) :=
  (s.pushObject i i p).bind fun s => .ok ((ms, s), ws)

private theorem object_sim (i : ℕ) (p : Primitive) {r : Reader} (s : Stage) (hg : Good source r) {ms : List (List ℕ)}
    (hm : r.modifiers = ms) : SimS source (addObject i p r s) (objectW i p ms s (words r.rest)) := by
  subst hm
  unfold addObject objectW
  cases s.pushObject i i p with
  | ok s' => exact ⟨rfl, hg, rfl, rfl⟩
  | err => trivial
  | panic => trivial

private def zerosW (ws : List (List ℕ)) (k : List (List ℕ) → Outcome ((List (List ℕ) × Stage) × List (List ℕ))) :
    Outcome ((List (List ℕ) × Stage) × List (List ℕ)) :=
  (expectW utf8 (bytes "0") ws).bind fun x => (expectW utf8 (bytes "0") x.2).bind fun x => k x.2

private theorem sims_zeros {r : Reader} (hg : Good source r) {f : Reader → Outcome (Reader × Stage)}
    {g : List (List ℕ) → Outcome ((List (List ℕ) × Stage) × List (List ℕ))}
    (hf : ∀ r', Good source r' → r'.modifiers = r.modifiers → SimS source (f r') (g (words r'.rest))) :
    SimS source ((expect utf8 source (bytes "0") r).bind fun r => (expect utf8 source (bytes "0") r).bind f)
      (zerosW utf8 (words r.rest) g) := by
  unfold zerosW
  refine sims_expect utf8 hg (g := fun ws => (expectW utf8 (bytes "0") ws).bind fun x => g x.2) fun r1 g1 m1 => ?_
  exact sims_expect utf8 g1 fun r2 g2 m2 => hf r2 g2 (m2.trans m1)

/-- What follows the first three words. -/
private noncomputable def contentW (kind modifier name : List ℕ) (ms : List (List ℕ)) (s : Stage) (ws : List (List ℕ)) :
    Outcome ((List (List ℕ) × Stage) × List (List ℕ)) :=
  if kind = bytes "plastic" then
    (argumentsW utf8 parse 5 ws).bind fun a => match a.1 with
      | [red, green, blue, specularity, roughness] =>
        addW name (if specularity < 1 / 10 ^ 5 then .diffuse ![red, green, blue]
          else .plastic ![red, green, blue] specularity roughness) ms s a.2
      | _ => .panic
  else if kind = bytes "metal" then
    (argumentsW utf8 parse 5 ws).bind fun a => match a.1 with
      | [red, green, blue, specularity, roughness] =>
        addW name (if specularity < 1 / 10 ^ 5 then .diffuse ![red, green, blue]
          else .metal ![red, green, blue] specularity roughness) ms s a.2
      | _ => .panic
  else if kind = bytes "light" then
    (argumentsW utf8 parse 3 ws).bind fun a => match a.1 with
      | [red, green, blue] => addW name (.light ![red, green, blue]) ms s a.2
      | _ => .panic
  else if kind = bytes "mirror" then
    (argumentsW utf8 parse 3 ws).bind fun a => match a.1 with
      | [red, green, blue] => addW name (.mirror ![red, green, blue]) ms s a.2
      | _ => .panic
  else if kind = bytes "dielectric" then
    (argumentsW utf8 parse 5 ws).bind fun a => match a.1 with
      | [red, green, blue, n, _] => addW name (.dielectric ![red, green, blue] n) ms s a.2
      | _ => .panic
  else if kind = bytes "glass" then
    zerosW utf8 (ws := ws) fun ws => (tokenW utf8 ws).bind fun t =>
      if t.1 = bytes "4" then
        (numbersW utf8 parse 4 t.2).bind fun a => match a.1 with
          | [red, green, blue, n] => addW name (.glass ![red, green, blue] n) ms s a.2
          | _ => .panic
      else if t.1 = bytes "3" then
        (numbersW utf8 parse 3 t.2).bind fun a => match a.1 with
          | [red, green, blue] => addW name (.glass ![red, green, blue] (152 / 100)) ms s a.2
          | _ => .panic
      else .panic
  else if kind = bytes "sphere" then
    (argumentsW utf8 parse 4 ws).bind fun a => match a.1 with
      | [x, y, z, radius] =>
        (Sphere.new radius ⟨x, y, z⟩).bind fun sphere =>
        (indexW ms modifier).bind fun i => objectW i (.sphere sphere) ms s a.2
      | _ => .panic
  else if kind = bytes "source" then
    (argumentsW utf8 parse 4 ws).bind fun a => match a.1 with
      | [x, y, z, angle] =>
        (DistantSource.new ⟨x, y, z⟩ (angle * (Real.pi / 180))).bind fun distant =>
        (indexW ms modifier).bind fun i => objectW i (.source distant) ms s a.2
      | _ => .panic
  else if kind = bytes "polygon" then
    zerosW utf8 (ws := ws) fun ws => (tokenW utf8 ws).bind fun t =>
      match parseUsize t.1 with
      | none => .err
      | some n =>
        if n % 3 ≠ 0 then .panic
        else
          (verticesW utf8 parse (n / 3) Loop.new t.2).bind fun l =>
          (indexW ms modifier).bind fun i =>
          (trianglesOf l.1).bind fun ts =>
          (addTriangles i ts s).bind fun s => .ok ((ms, s), l.2)
  else .panic

/-- The same of the reader. -/
private noncomputable def contentR (source kind modifier name : List ℕ) (r : Reader) (s : Stage) :
    Outcome (Reader × Stage) :=
  if kind = bytes "plastic" then consumePlastic utf8 parse source name r s
  else if kind = bytes "metal" then consumeMetal utf8 parse source name r s
  else if kind = bytes "light" then consumeLight utf8 parse source name r s
  else if kind = bytes "mirror" then consumeMirror utf8 parse source name r s
  else if kind = bytes "dielectric" then consumeDielectric utf8 parse source name r s
  else if kind = bytes "glass" then consumeGlass utf8 parse source name r s
  else if kind = bytes "sphere" then consumeSphere utf8 parse source modifier r s
  else if kind = bytes "source" then consumeSource utf8 parse source modifier r s
  else if kind = bytes "polygon" then consumePolygon utf8 parse source modifier r s
  else .panic

private theorem index_eq {r : Reader} {ms : List (List ℕ)} (hm : r.modifiers = ms) (name : List ℕ) :
    modifierIndex r name = indexW ms name := by
  subst hm
  rfl

private theorem sims_pure {α : Type} {o : Outcome α} {f : α → Outcome (Reader × Stage)}
    {g : α → Outcome ((List (List ℕ) × Stage) × List (List ℕ))} (h : ∀ a, SimS source (f a) (g a)) :
    SimS source (o.bind f) (o.bind g) := by
  cases o with
  | ok a => exact h a
  | err => trivial
  | panic => trivial

private theorem content_sim (kind modifier name : List ℕ) {r : Reader} (s : Stage) (hg : Good source r) :
    SimS source (contentR utf8 parse source kind modifier name r s)
      (contentW utf8 parse kind modifier name r.modifiers s (words r.rest)) := by
  unfold contentR contentW
  by_cases h1 : kind = bytes "plastic"
  · rw [if_pos h1, if_pos h1]
    refine sims_bind (arguments_sim utf8 parse 5 hg) fun a r' g m => ?_
    simp only
    split
    · exact add_sim _ _ s g m
    · rename_i hne; split <;> first | trivial | exact (hne _ _ _ rfl).elim | exact (hne _ _ _ _ rfl).elim | exact (hne _ _ _ _ _ rfl).elim
  rw [if_neg h1, if_neg h1]
  by_cases h2 : kind = bytes "metal"
  · rw [if_pos h2, if_pos h2]
    refine sims_bind (arguments_sim utf8 parse 5 hg) fun a r' g m => ?_
    simp only
    split
    · exact add_sim _ _ s g m
    · rename_i hne; split <;> first | trivial | exact (hne _ _ _ rfl).elim | exact (hne _ _ _ _ rfl).elim | exact (hne _ _ _ _ _ rfl).elim
  rw [if_neg h2, if_neg h2]
  by_cases h3 : kind = bytes "light"
  · rw [if_pos h3, if_pos h3]
    refine sims_bind (arguments_sim utf8 parse 3 hg) fun a r' g m => ?_
    simp only
    split
    · exact add_sim _ _ s g m
    · rename_i hne; split <;> first | trivial | exact (hne _ _ _ rfl).elim | exact (hne _ _ _ _ rfl).elim | exact (hne _ _ _ _ _ rfl).elim
  rw [if_neg h3, if_neg h3]
  by_cases h4 : kind = bytes "mirror"
  · rw [if_pos h4, if_pos h4]
    refine sims_bind (arguments_sim utf8 parse 3 hg) fun a r' g m => ?_
    simp only
    split
    · exact add_sim _ _ s g m
    · rename_i hne; split <;> first | trivial | exact (hne _ _ _ rfl).elim | exact (hne _ _ _ _ rfl).elim | exact (hne _ _ _ _ _ rfl).elim
  rw [if_neg h4, if_neg h4]
  by_cases h5 : kind = bytes "dielectric"
  · rw [if_pos h5, if_pos h5]
    refine sims_bind (arguments_sim utf8 parse 5 hg) fun a r' g m => ?_
    simp only
    split
    · exact add_sim _ _ s g m
    · rename_i hne; split <;> first | trivial | exact (hne _ _ _ rfl).elim | exact (hne _ _ _ _ rfl).elim | exact (hne _ _ _ _ _ rfl).elim
  rw [if_neg h5, if_neg h5]
  by_cases h6 : kind = bytes "glass"
  · rw [if_pos h6, if_pos h6]
    refine sims_zeros utf8 hg fun r2 g2 m2 => ?_
    refine sims_bind (token_sim utf8 g2) fun t r3 g3 m3 => ?_
    simp only
    by_cases c4 : t = bytes "4"
    · rw [if_pos c4, if_pos c4]
      refine sims_bind (numbers_sim utf8 parse 4 r3 g3) fun a r' g m => ?_
      simp only
      split
      · exact add_sim _ _ s g (m.trans (m3.trans m2))
      · rename_i hne; split <;> first | trivial | exact (hne _ _ _ rfl).elim | exact (hne _ _ _ _ rfl).elim | exact (hne _ _ _ _ _ rfl).elim
    · rw [if_neg c4, if_neg c4]
      by_cases c3 : t = bytes "3"
      · rw [if_pos c3, if_pos c3]
        refine sims_bind (numbers_sim utf8 parse 3 r3 g3) fun a r' g m => ?_
        simp only
        split
        · exact add_sim _ _ s g (m.trans (m3.trans m2))
        · rename_i hne; split <;> first | trivial | exact (hne _ _ _ rfl).elim | exact (hne _ _ _ _ rfl).elim | exact (hne _ _ _ _ _ rfl).elim
      · rw [if_neg c3, if_neg c3]
        trivial
  rw [if_neg h6, if_neg h6]
  by_cases h7 : kind = bytes "sphere"
  · rw [if_pos h7, if_pos h7]
    refine sims_bind (arguments_sim utf8 parse 4 hg) fun a r' g m => ?_
    simp only
    split
    · refine sims_pure fun sphere => ?_
      rw [index_eq m]
      exact sims_pure fun i => object_sim i _ s g m
    · rename_i hne; split <;> first | trivial | exact (hne _ _ _ rfl).elim | exact (hne _ _ _ _ rfl).elim | exact (hne _ _ _ _ _ rfl).elim
  rw [if_neg h7, if_neg h7]
  by_cases h8 : kind = bytes "source"
  · rw [if_pos h8, if_pos h8]
    refine sims_bind (arguments_sim utf8 parse 4 hg) fun a r' g m => ?_
    simp only
    split
    · refine sims_pure fun sphere => ?_
      rw [index_eq m]
      exact sims_pure fun i => object_sim i _ s g m
    · rename_i hne; split <;> first | trivial | exact (hne _ _ _ rfl).elim | exact (hne _ _ _ _ rfl).elim | exact (hne _ _ _ _ _ rfl).elim
  rw [if_neg h8, if_neg h8]
  by_cases h9 : kind = bytes "polygon"
  · rw [if_pos h9, if_pos h9]
    refine sims_zeros utf8 hg fun r2 g2 m2 => ?_
    refine sims_bind (token_sim utf8 g2) fun t r3 g3 m3 => ?_
    simp only
    cases parseUsize t with
    | none => trivial
    | some n =>
      simp only
      by_cases hn : n % 3 ≠ 0
      · rw [if_pos hn, if_pos hn]
        trivial
      · rw [if_neg hn, if_neg hn]
        refine sims_bind (vertices_sim utf8 parse (n / 3) Loop.new r3 g3) fun l r4 g4 m4 => ?_
        have hm := m4.trans (m3.trans m2)
        rw [index_eq hm]
        refine sims_pure fun i => sims_pure fun ts => sims_pure fun s' => ?_
        exact ⟨rfl, g4, rfl, hm⟩
  rw [if_neg h9, if_neg h9]
  trivial

/-- An entry. -/
private noncomputable def entryW (ms : List (List ℕ)) (s : Stage) (ws : List (List ℕ)) :
    Outcome ((List (List ℕ) × Stage) × List (List ℕ)) :=
  (tokenW utf8 ws).bind fun modifier =>
  (tokenW utf8 modifier.2).bind fun kind =>
  (tokenW utf8 kind.2).bind fun name =>
  contentW utf8 parse kind.1 modifier.1 name.1 ms s name.2

private theorem expect_nil (t : List ℕ) (ht : t ≠ []) : expectW utf8 t [] = .panic := by
  unfold expectW tokenW
  simp only [Outcome.bind]
  rw [if_neg (Ne.symm ht)]

private theorem content_nil (kind modifier name : List ℕ) (ms : List (List ℕ)) (s : Stage) :
    contentW utf8 parse kind modifier name ms s [] = .panic := by
  have h0 : expectW utf8 (bytes "0") [] = .panic := expect_nil utf8 _ (by decide)
  unfold contentW argumentsW zerosW
  rw [h0]
  simp [Outcome.bind]

private theorem content_none (modifier name : List ℕ) (ms : List (List ℕ)) (s : Stage) (ws : List (List ℕ)) :
    contentW utf8 parse [] modifier name ms s ws = .panic := by
  unfold contentW
  repeat rw [if_neg (by decide)]

private theorem entry_sim {r : Reader} (s : Stage) (hg : Good source r) (hw : words r.rest ≠ []) :
    SimS source (consumeObject utf8 parse source r s) (entryW utf8 parse r.modifiers s (words r.rest)) := by
  obtain ⟨r0, e1, e2, e3, e4, -, e5⟩ := reach_spec source _ r rfl hg
  unfold consumeObject
  rw [e1]
  simp only [Outcome.bind]
  rcases e5 with ⟨-, hr⟩ | ⟨hd, c, t, hr, hc⟩
  · rw [← e4, hr] at hw
    exact absurd words_nil hw
  rw [hd, if_neg (by simp), ← e4]
  refine sims_bind (token_sim utf8 e2) fun modifier r1 g1 m1 => ?_
  simp only
  by_cases d1 : r1.isDone = true
  · rw [if_pos d1, g1.1 d1, words_nil]
    simp only [tokenW, Outcome.bind]
    rw [content_nil]
    trivial
  rw [if_neg d1]
  refine sims_bind (token_sim utf8 g1) fun kind r2 g2 m2 => ?_
  simp only
  by_cases d2 : r2.isDone = true
  · rw [if_pos d2, g2.1 d2, words_nil]
    simp only [tokenW, Outcome.bind]
    rw [content_nil]
    trivial
  rw [if_neg d2]
  refine sims_bind (token_sim utf8 g2) fun name r3 g3 m3 => ?_
  simp only
  by_cases d3 : r3.isDone = true
  · rw [if_pos d3, g3.1 d3, words_nil, content_nil]
    trivial
  rw [if_neg d3]
  have h := content_sim utf8 parse kind modifier name s g3
  rw [m3.trans (m2.trans (m1.trans e3))] at h
  exact h

/-! ### The words of an entry -/

private theorem bind_ok {α β : Type} {o : Outcome α} {f : α → Outcome β} {b : β} :
    o.bind f = .ok b ↔ ∃ a, o = .ok a ∧ f a = .ok b := by
  cases o <;> simp [Outcome.bind]

private theorem map_ok {α β : Type} {o : Outcome α} {f : α → β} {b : β} :
    o.map f = .ok b ↔ ∃ a, o = .ok a ∧ f a = b := by
  cases o <;> simp [Outcome.map]

private theorem token_ok {ws ws' : List (List ℕ)} {w : List ℕ} :
    tokenW utf8 ws = .ok (w, ws') ↔ ws = [] ∧ w = [] ∧ ws' = [] ∨ ws = w :: ws' ∧ utf8 w = true := by
  cases ws with
  | nil =>
    simp only [tokenW, Outcome.ok.injEq, Prod.mk.injEq]
    constructor
    · rintro ⟨rfl, rfl⟩
      simp
    · rintro (⟨-, rfl, rfl⟩ | ⟨h, -⟩)
      · simp
      · simp at h
  | cons v vs =>
    simp only [tokenW]
    by_cases h : utf8 v = true
    · rw [if_pos h]
      constructor
      · intro h'
        simp only [Outcome.ok.injEq, Prod.mk.injEq] at h'
        obtain ⟨rfl, rfl⟩ := h'
        exact .inr ⟨rfl, h⟩
      · rintro (⟨h', -⟩ | ⟨h', -⟩)
        · simp at h'
        · simp only [List.cons.injEq] at h'
          obtain ⟨rfl, rfl⟩ := h'
          rfl
    · rw [if_neg h]
      simp only [reduceCtorEq, false_and, false_or, false_iff, not_and, List.cons.injEq]
      rintro ⟨rfl, -⟩
      exact h

private theorem expect_ok {t : List ℕ} (ht : t ≠ []) {ws : List (List ℕ)} {x : Unit × List (List ℕ)} :
    expectW utf8 t ws = .ok x ↔ ws = t :: x.2 ∧ utf8 t = true := by
  obtain ⟨⟨⟩, ws'⟩ := x
  unfold expectW
  rw [bind_ok]
  constructor
  · rintro ⟨⟨w, vs⟩, h1, h2⟩
    by_cases hw : w = t
    · rw [if_pos hw] at h2
      simp only [Outcome.ok.injEq, Prod.mk.injEq, true_and] at h2
      subst hw h2
      rcases (token_ok utf8).1 h1 with ⟨-, h, -⟩ | h
      · exact absurd h ht
      · exact h
    · rw [if_neg hw] at h2
      simp at h2
  · rintro ⟨h1, h2⟩
    refine ⟨(t, ws'), (token_ok utf8).2 (.inr ⟨h1, h2⟩), ?_⟩
    simp

variable (hparse : parse [] = none)
include hparse

private theorem number_ok {ws ws' : List (List ℕ)} {x : ℝ} :
    numberW utf8 parse ws = .ok (x, ws') ↔ ∃ w, ws = w :: ws' ∧ utf8 w = true ∧ parse w = some x := by
  unfold numberW
  rw [bind_ok]
  constructor
  · rintro ⟨⟨w, vs⟩, h1, h2⟩
    simp only at h2
    cases hp : parse w with
    | none => rw [hp] at h2; simp at h2
    | some y =>
      rw [hp] at h2
      simp only [Outcome.ok.injEq, Prod.mk.injEq] at h2
      obtain ⟨rfl, rfl⟩ := h2
      rcases (token_ok utf8).1 h1 with ⟨-, h, -⟩ | ⟨h, hu⟩
      · rw [h, hparse] at hp
        simp at hp
      · exact ⟨w, h, hu, hp⟩
  · rintro ⟨w, h1, h2, h3⟩
    refine ⟨(w, ws'), (token_ok utf8).2 (.inr ⟨h1, h2⟩), ?_⟩
    simp only [h3]

private theorem numbers_ok : ∀ {n : ℕ} {ws ws' : List (List ℕ)} {xs : List ℝ},
    numbersW utf8 parse n ws = .ok (xs, ws') ↔ ∃ nums, ws = nums ++ ws' ∧ (∀ w ∈ nums, utf8 w = true) ∧
      nums.map parse = xs.map some ∧ xs.length = n
  | 0, ws, ws', xs => by
    simp only [numbersW, Outcome.ok.injEq, Prod.mk.injEq]
    constructor
    · rintro ⟨rfl, rfl⟩
      exact ⟨[], rfl, by simp, rfl, rfl⟩
    · rintro ⟨nums, h1, -, h3, h4⟩
      obtain rfl := List.length_eq_zero_iff.1 h4
      simp only [List.map_nil, List.map_eq_nil_iff] at h3
      subst h3
      exact ⟨rfl, h1⟩
  | n + 1, ws, ws', xs => by
    simp only [numbersW]
    rw [bind_ok]
    constructor
    · rintro ⟨⟨x, vs⟩, h1, h2⟩
      rw [bind_ok] at h2
      obtain ⟨⟨ys, us⟩, h3, h4⟩ := h2
      simp only [Outcome.ok.injEq, Prod.mk.injEq] at h4
      obtain ⟨rfl, rfl⟩ := h4
      obtain ⟨w, rfl, hu, hw⟩ := (number_ok utf8 parse hparse).1 h1
      obtain ⟨nums, rfl, k1, k2, k3⟩ := numbers_ok.1 h3
      refine ⟨w :: nums, rfl, ?_, ?_, by simp [k3]⟩
      · intro v hv
        rw [List.mem_cons] at hv
        rcases hv with rfl | hv
        · exact hu
        · exact k1 v hv
      · simp [hw, k2]
    · rintro ⟨nums, rfl, h2, h3, h4⟩
      cases xs with
      | nil => simp at h4
      | cons x xs =>
        cases nums with
        | nil => simp at h3
        | cons w nums =>
          simp only [List.map_cons, List.cons.injEq] at h3
          refine ⟨(x, nums ++ ws'), (number_ok utf8 parse hparse).2 ⟨w, rfl, h2 w (by simp), h3.1⟩, ?_⟩
          rw [bind_ok]
          exact ⟨(xs, ws'), numbers_ok.2 ⟨nums, rfl, fun v hv => h2 v (by simp [hv]), h3.2, by simpa using h4⟩, rfl⟩

private theorem vertices_ok : ∀ {n : ℕ} {l l' : Loop} {ws ws' : List (List ℕ)},
    verticesW utf8 parse n l ws = .ok (l', ws') ↔ ∃ (nums : List (List ℕ)) (vs : List (V3 ℝ)), ws = nums ++ ws' ∧
      (∀ w ∈ nums, utf8 w = true) ∧ nums.map parse = (vs.flatMap fun v => [v.x, v.y, v.z]).map some ∧ vs.length = n ∧
      pushAll vs l = .ok l'
  | 0, l, l', ws, ws' => by
    simp only [verticesW, Outcome.ok.injEq, Prod.mk.injEq]
    constructor
    · rintro ⟨rfl, rfl⟩
      exact ⟨[], [], rfl, by simp, rfl, rfl, rfl⟩
    · rintro ⟨nums, vs, h1, -, h3, h4, h5⟩
      obtain rfl := List.length_eq_zero_iff.1 h4
      simp only [List.flatMap_nil, List.map_nil, List.map_eq_nil_iff] at h3
      subst h3
      simp only [pushAll, Outcome.ok.injEq] at h5
      exact ⟨h5, h1⟩
  | n + 1, l, l', ws, ws' => by
    simp only [verticesW]
    rw [bind_ok]
    constructor
    · rintro ⟨⟨x, vs1⟩, h1, h2⟩
      rw [bind_ok] at h2
      obtain ⟨⟨y, vs2⟩, h2, h3⟩ := h2
      rw [bind_ok] at h3
      obtain ⟨⟨z, vs3⟩, h3, h4⟩ := h3
      simp only at h2 h3 h4
      obtain ⟨w1, rfl, u1, p1⟩ := (number_ok utf8 parse hparse).1 h1
      obtain ⟨w2, rfl, u2, p2⟩ := (number_ok utf8 parse hparse).1 h2
      obtain ⟨w3, rfl, u3, p3⟩ := (number_ok utf8 parse hparse).1 h3
      cases hp : l.push ⟨x, y, z⟩ with
      | mk o l1 =>
        rw [hp] at h4
        cases o with
        | err => simp at h4
        | panic => simp at h4
        | ok u =>
          simp only at h4
          obtain ⟨nums, vs, rfl, k1, k2, k3, k4⟩ := vertices_ok.1 h4
          refine ⟨w1 :: w2 :: w3 :: nums, ⟨x, y, z⟩ :: vs, rfl, ?_, by simp [p1, p2, p3, k2], by simp [k3], ?_⟩
          · intro v hv
            simp only [List.mem_cons] at hv
            rcases hv with rfl | rfl | rfl | hv
            · exact u1
            · exact u2
            · exact u3
            · exact k1 v hv
          · simp only [pushAll, hp]
            exact k4
    · rintro ⟨nums, vs, rfl, h2, h3, h4, h5⟩
      cases vs with
      | nil => simp at h4
      | cons v vs =>
        match nums, h2, h3 with
        | [], _, h3 => simp at h3
        | [_], _, h3 => simp at h3
        | [_, _], _, h3 => simp at h3
        | w1 :: w2 :: w3 :: nums, h2, h3 =>
          simp only [List.flatMap_cons, List.cons_append, List.nil_append, List.map_cons, List.cons.injEq] at h3
          obtain ⟨p1, p2, p3, h3⟩ := h3
          refine ⟨(v.x, w2 :: w3 :: nums ++ ws'), (number_ok utf8 parse hparse).2 ⟨w1, rfl, h2 w1 (by simp), p1⟩, ?_⟩
          rw [bind_ok]
          refine ⟨(v.y, w3 :: nums ++ ws'), (number_ok utf8 parse hparse).2 ⟨w2, rfl, h2 w2 (by simp), p2⟩, ?_⟩
          rw [bind_ok]
          refine ⟨(v.z, nums ++ ws'), (number_ok utf8 parse hparse).2 ⟨w3, rfl, h2 w3 (by simp), p3⟩, ?_⟩
          simp only [pushAll] at h5
          simp only
          cases hp : l.push v with
          | mk o l1 =>
            rw [hp] at h5
            cases o with
            | err => simp at h5
            | panic => simp at h5
            | ok u =>
              simp only at h5
              exact vertices_ok.2 ⟨nums, vs, rfl, fun w hw => h2 w (by simp [hw]), h3, by simpa using h4, h5⟩

private theorem arguments_ok {n : ℕ} {ws ws' : List (List ℕ)} {xs : List ℝ} (hn : decimal n ≠ []) :
    argumentsW utf8 parse n ws = .ok (xs, ws') ↔ ∃ nums, ws = [bytes "0", bytes "0", decimal n] ++ nums ++ ws' ∧
      (∀ w ∈ [bytes "0", bytes "0", decimal n] ++ nums, utf8 w = true) ∧
      nums.map parse = xs.map some ∧ xs.length = n := by
  have h0 : bytes "0" ≠ [] := by decide
  unfold argumentsW
  simp only [bind_ok, expect_ok utf8 h0, expect_ok utf8 hn, numbers_ok utf8 parse hparse]
  constructor
  · rintro ⟨⟨-, x⟩, ⟨rfl, h1⟩, ⟨-, y⟩, ⟨rfl, h2⟩, ⟨-, z⟩, ⟨rfl, h3⟩, nums, rfl, h4, h5, h6⟩
    refine ⟨nums, rfl, ?_, h5, h6⟩
    intro w hw
    simp only [List.cons_append, List.nil_append, List.mem_cons] at hw
    rcases hw with rfl | rfl | rfl | hw
    · exact h1
    · exact h1
    · exact h3
    · exact h4 w hw
  · rintro ⟨nums, rfl, h2, h3, h4⟩
    have hu := h2 (bytes "0") (by simp)
    exact ⟨((), _), ⟨rfl, hu⟩, ((), _), ⟨rfl, hu⟩, ((), nums ++ ws'), ⟨rfl, h2 (decimal n) (by simp)⟩, nums, rfl,
      fun w hw => h2 w (by simp [hw]), h3, h4⟩

/-- What is done for an entry. -/
private def Acts (modifier name : List ℕ) (c : Content) (ms : List (List ℕ)) (s : Stage) (ms' : List (List ℕ)) (s' : Stage) :
    Prop :=
  match c with
  | .material m => ms' = ms ++ [name] ∧ s' = (s.pushMaterial m).2
  | c => ms' = ms ∧ ∃ i ps, indexW ms modifier = .ok i ∧ objectsIn c = .ok ps ∧
      run (ps.map fun p => .object ⟨p, i, i⟩) s = .ok s'

omit hparse in
private theorem dec3 : decimal 3 = bytes "3" := by norm_num [decimal, bytes]; decide
omit hparse in
private theorem dec4 : decimal 4 = bytes "4" := by norm_num [decimal, bytes]; decide
omit hparse in
private theorem dec_ne (n : ℕ) : decimal n ≠ [] := by
  unfold decimal
  by_cases h : n = 0
  · rw [if_pos h]
    simp
  · rw [if_neg h]
    simpa using Nat.digits_ne_nil_iff_ne_zero.2 h

omit hparse in
private theorem add_triangles (i : ℕ) : ∀ (ts : List (Triangle ℝ)) (s : Stage),
    addTriangles i ts s = run ((ts.map Primitive.triangle).map fun p => .object ⟨p, i, i⟩) s
  | [], s => rfl
  | t :: ts, s => by
    simp only [addTriangles, List.map_cons, run]
    congr 1
    funext s'
    exact add_triangles i ts s'

omit hparse in
private theorem run_one (i : ℕ) (p : Primitive) (s s' : Stage) :
    run ([p].map fun p => .object ⟨p, i, i⟩) s = .ok s' ↔ s.pushObject i i p = .ok s' := by
  simp only [List.map_cons, List.map_nil, run, bind_ok, Outcome.ok.injEq, exists_eq_right]

omit hparse in
private theorem zeros_ok {ws ws' : List (List ℕ)} {x : List (List ℕ) × Stage}
    {k : List (List ℕ) → Outcome ((List (List ℕ) × Stage) × List (List ℕ))} :
    zerosW utf8 ws k = .ok (x, ws') ↔ utf8 (bytes "0") = true ∧ ∃ vs, ws = bytes "0" :: bytes "0" :: vs ∧ k vs = .ok (x, ws') := by
  have h0 : bytes "0" ≠ [] := by decide
  unfold zerosW
  simp only [bind_ok, expect_ok utf8 h0]
  constructor
  · rintro ⟨⟨_, y⟩, ⟨rfl, h1⟩, ⟨_, z⟩, ⟨rfl, _⟩, h⟩
    exact ⟨h1, z, rfl, h⟩
  · rintro ⟨h1, vs, rfl, h⟩
    exact ⟨((), _), ⟨rfl, h1⟩, ((), vs), ⟨rfl, h1⟩, h⟩

/-- A material with a fixed number of arguments. -/
private theorem fixed_ok {n : ℕ} {ws ws' : List (List ℕ)} {x : List (List ℕ) × Stage}
    {k : List ℝ × List (List ℕ) → Outcome ((List (List ℕ) × Stage) × List (List ℕ))} :
    (argumentsW utf8 parse n ws).bind k = .ok (x, ws') ↔ ∃ xs nums vs, ws = [bytes "0", bytes "0", decimal n] ++ nums ++ vs ∧
      (∀ w ∈ [bytes "0", bytes "0", decimal n] ++ nums, utf8 w = true) ∧ nums.map parse = xs.map some ∧ xs.length = n ∧
      k (xs, vs) = .ok (x, ws') := by
  rw [bind_ok]
  constructor
  · rintro ⟨⟨xs, vs⟩, h1, h2⟩
    obtain ⟨nums, h3, h4, h5, h6⟩ := (arguments_ok utf8 parse hparse (dec_ne n)).1 h1
    exact ⟨xs, nums, vs, h3, h4, h5, h6, h2⟩
  · rintro ⟨xs, nums, vs, h3, h4, h5, h6, h2⟩
    exact ⟨(xs, vs), (arguments_ok utf8 parse hparse (dec_ne n)).2 ⟨nums, h3, h4, h5, h6⟩, h2⟩

private theorem content_ok {kind modifier name : List ℕ} {ms ms' : List (List ℕ)} {s s' : Stage}
    {ws ws' : List (List ℕ)} :
    contentW utf8 parse kind modifier name ms s ws = .ok ((ms', s'), ws') ↔
      ∃ (k : String) (count : List ℕ) (xs : List ℝ) (nums : List (List ℕ)) (c : Content), kind = bytes k ∧
        ContentIs k count xs c ∧ nums.map parse = xs.map some ∧ ws = [bytes "0", bytes "0", count] ++ nums ++ ws' ∧
        (∀ w ∈ [bytes "0", bytes "0", count] ++ nums, utf8 w = true) ∧ Acts modifier name c ms s ms' s' := by
  constructor
  · intro h
    unfold contentW at h
    by_cases h1 : kind = bytes "plastic"
    · rw [if_pos h1, fixed_ok utf8 parse hparse] at h
      obtain ⟨xs, nums, vs, a1, a2, a3, a4, a5⟩ := h
      match xs, a3, a4, a5 with
      | [r, g, b, sp, ro], a3, _, a5 =>
        simp only [addW, Outcome.ok.injEq, Prod.mk.injEq] at a5
        obtain ⟨⟨rfl, rfl⟩, rfl⟩ := a5
        exact ⟨_, _, _, nums, _, h1, .material (.plastic r g b sp ro), a3, a1, a2, rfl, rfl⟩
    rw [if_neg h1] at h
    by_cases h2 : kind = bytes "metal"
    · rw [if_pos h2, fixed_ok utf8 parse hparse] at h
      obtain ⟨xs, nums, vs, a1, a2, a3, a4, a5⟩ := h
      match xs, a3, a4, a5 with
      | [r, g, b, sp, ro], a3, _, a5 =>
        simp only [addW, Outcome.ok.injEq, Prod.mk.injEq] at a5
        obtain ⟨⟨rfl, rfl⟩, rfl⟩ := a5
        exact ⟨_, _, _, nums, _, h2, .material (.metal r g b sp ro), a3, a1, a2, rfl, rfl⟩
    rw [if_neg h2] at h
    by_cases h3 : kind = bytes "light"
    · rw [if_pos h3, fixed_ok utf8 parse hparse] at h
      obtain ⟨xs, nums, vs, a1, a2, a3, a4, a5⟩ := h
      match xs, a3, a4, a5 with
      | [r, g, b], a3, _, a5 =>
        simp only [addW, Outcome.ok.injEq, Prod.mk.injEq] at a5
        obtain ⟨⟨rfl, rfl⟩, rfl⟩ := a5
        exact ⟨_, _, _, nums, _, h3, .material (.light r g b), a3, a1, a2, rfl, rfl⟩
    rw [if_neg h3] at h
    by_cases h4 : kind = bytes "mirror"
    · rw [if_pos h4, fixed_ok utf8 parse hparse] at h
      obtain ⟨xs, nums, vs, a1, a2, a3, a4, a5⟩ := h
      match xs, a3, a4, a5 with
      | [r, g, b], a3, _, a5 =>
        simp only [addW, Outcome.ok.injEq, Prod.mk.injEq] at a5
        obtain ⟨⟨rfl, rfl⟩, rfl⟩ := a5
        exact ⟨_, _, _, nums, _, h4, .material (.mirror r g b), a3, a1, a2, rfl, rfl⟩
    rw [if_neg h4] at h
    by_cases h5 : kind = bytes "dielectric"
    · rw [if_pos h5, fixed_ok utf8 parse hparse] at h
      obtain ⟨xs, nums, vs, a1, a2, a3, a4, a5⟩ := h
      match xs, a3, a4, a5 with
      | [r, g, b, n, hh], a3, _, a5 =>
        simp only [addW, Outcome.ok.injEq, Prod.mk.injEq] at a5
        obtain ⟨⟨rfl, rfl⟩, rfl⟩ := a5
        exact ⟨_, _, _, nums, _, h5, .material (.dielectric r g b n hh), a3, a1, a2, rfl, rfl⟩
    rw [if_neg h5] at h
    by_cases h6 : kind = bytes "glass"
    · rw [if_pos h6, zeros_ok] at h
      obtain ⟨u0, vs, rfl, h⟩ := h
      rw [bind_ok] at h
      obtain ⟨⟨t, us⟩, b1, b2⟩ := h
      simp only at b2
      by_cases c4 : t = bytes "4"
      · rw [if_pos c4, bind_ok] at b2
        obtain ⟨⟨xs, us'⟩, d1, d2⟩ := b2
        obtain ⟨nums, rfl, k1, k2, k3⟩ := (numbers_ok utf8 parse hparse).1 d1
        rcases (token_ok utf8).1 b1 with ⟨-, h, -⟩ | ⟨rfl, ut⟩
        · rw [h] at c4
          simp [bytes] at c4
        · match xs, k2, k3, d2 with
          | [r, g, b, n], k2, _, d2 =>
            simp only [addW, Outcome.ok.injEq, Prod.mk.injEq] at d2
            obtain ⟨⟨rfl, rfl⟩, rfl⟩ := d2
            refine ⟨_, _, _, nums, _, h6, .material (.glass r g b n), k2, ?_, ?_, rfl, rfl⟩
            · rw [c4, ← dec4]
              rfl
            · intro w hw
              simp only [List.length_cons, List.length_nil, zero_add, Nat.reduceAdd, List.cons_append, List.nil_append,
                List.mem_cons] at hw
              rcases hw with rfl | rfl | rfl | hw
              · exact u0
              · exact u0
              · rw [dec4, ← c4]
                exact ut
              · exact k1 w hw
      · rw [if_neg c4] at b2
        by_cases c3 : t = bytes "3"
        · rw [if_pos c3, bind_ok] at b2
          obtain ⟨⟨xs, us'⟩, d1, d2⟩ := b2
          obtain ⟨nums, rfl, k1, k2, k3⟩ := (numbers_ok utf8 parse hparse).1 d1
          rcases (token_ok utf8).1 b1 with ⟨-, h, -⟩ | ⟨rfl, ut⟩
          · rw [h] at c3
            simp [bytes] at c3
          · match xs, k2, k3, d2 with
            | [r, g, b], k2, _, d2 =>
              simp only [addW, Outcome.ok.injEq, Prod.mk.injEq] at d2
              obtain ⟨⟨rfl, rfl⟩, rfl⟩ := d2
              refine ⟨_, _, _, nums, _, h6, .material (.clear r g b), k2, ?_, ?_, rfl, rfl⟩
              · rw [c3, ← dec3]
                rfl
              · intro w hw
                simp only [List.length_cons, List.length_nil, zero_add, Nat.reduceAdd, List.cons_append, List.nil_append,
                  List.mem_cons] at hw
                rcases hw with rfl | rfl | rfl | hw
                · exact u0
                · exact u0
                · rw [dec3, ← c3]
                  exact ut
                · exact k1 w hw
        · rw [if_neg c3] at b2
          simp at b2
    rw [if_neg h6] at h
    by_cases h7 : kind = bytes "sphere"
    · rw [if_pos h7, fixed_ok utf8 parse hparse] at h
      obtain ⟨xs, nums, vs, a1, a2, a3, a4, a5⟩ := h
      match xs, a3, a4, a5 with
      | [x, y, z, r], a3, _, a5 =>
        simp only [bind_ok, objectW, Outcome.ok.injEq, Prod.mk.injEq] at a5
        obtain ⟨sp, b1, i, b2, s1, b3, ⟨rfl, rfl⟩, rfl⟩ := a5
        refine ⟨_, _, _, nums, _, h7, .sphere x y z r, a3, a1, a2, rfl, i, [.sphere sp], b2, ?_, (run_one i _ s s1).2 b3⟩
        simp only [objectsIn, b1, Outcome.map]
    rw [if_neg h7] at h
    by_cases h8 : kind = bytes "source"
    · rw [if_pos h8, fixed_ok utf8 parse hparse] at h
      obtain ⟨xs, nums, vs, a1, a2, a3, a4, a5⟩ := h
      match xs, a3, a4, a5 with
      | [x, y, z, r], a3, _, a5 =>
        simp only [bind_ok, objectW, Outcome.ok.injEq, Prod.mk.injEq] at a5
        obtain ⟨sp, b1, i, b2, s1, b3, ⟨rfl, rfl⟩, rfl⟩ := a5
        refine ⟨_, _, _, nums, _, h8, .source x y z r, a3, a1, a2, rfl, i, [.source sp], b2, ?_, (run_one i _ s s1).2 b3⟩
        simp only [objectsIn, b1, Outcome.map]
    rw [if_neg h8] at h
    by_cases h9 : kind = bytes "polygon"
    · rw [if_pos h9, zeros_ok] at h
      obtain ⟨u0, vs, rfl, h⟩ := h
      rw [bind_ok] at h
      obtain ⟨⟨t, us⟩, b1, b2⟩ := h
      simp only at b2
      cases hp : parseUsize t with
      | none => rw [hp] at b2; simp at b2
      | some n =>
        rw [hp] at b2
        simp only at b2
        by_cases hn : n % 3 ≠ 0
        · rw [if_pos hn] at b2
          simp at b2
        · rw [if_neg hn] at b2
          simp only [bind_ok, Outcome.ok.injEq, Prod.mk.injEq] at b2
          obtain ⟨⟨l, us'⟩, d1, i, d2, ts, d3, s1, d4, ⟨rfl, rfl⟩, d5⟩ := b2
          simp only at d5
          subst d5
          obtain ⟨nums, pts, rfl, k1, k2, k3, k4⟩ := (vertices_ok utf8 parse hparse).1 d1
          rcases (token_ok utf8).1 b1 with ⟨_, ht, _⟩ | ⟨rfl, ut⟩
          · rw [ht] at hp
            simp [parseUsize, parseDigits] at hp
          · refine ⟨_, _, _, nums, _, h9, .polygon t pts (by rw [hp, k3]; congr 1; omega), k2, rfl, ?_, rfl, i, _, d2, ?_,
              by rw [← add_triangles]; exact d4⟩
            · intro w hw
              simp only [List.cons_append, List.nil_append, List.mem_cons] at hw
              rcases hw with rfl | rfl | rfl | hw
              · exact u0
              · exact u0
              · exact ut
              · exact k1 w hw
            · simp only [objectsIn, k4, Outcome.bind, d3, Outcome.map]
    rw [if_neg h9] at h
    simp at h
  · rintro ⟨k, count, xs, nums, c, rfl, hc, hx, rfl, hu, ha⟩
    have u0 : utf8 (bytes "0") = true := hu _ (by simp)
    have uc : utf8 count = true := hu _ (by simp)
    have un : ∀ w ∈ nums, utf8 w = true := fun w hw => hu w (by simp [hw])
    unfold contentW
    cases hc with
    | material hm =>
      obtain ⟨rfl, rfl⟩ := ha
      cases hm with
      | plastic r g b sp ro =>
        rw [if_pos rfl, fixed_ok utf8 parse hparse]
        exact ⟨_, nums, ws', rfl, hu, hx, rfl, rfl⟩
      | metal r g b sp ro =>
        rw [if_neg (by decide), if_pos rfl, fixed_ok utf8 parse hparse]
        exact ⟨_, nums, ws', rfl, hu, hx, rfl, rfl⟩
      | light r g b =>
        rw [if_neg (by decide), if_neg (by decide), if_pos rfl, fixed_ok utf8 parse hparse]
        exact ⟨_, nums, ws', rfl, hu, hx, rfl, rfl⟩
      | mirror r g b =>
        rw [if_neg (by decide), if_neg (by decide), if_neg (by decide), if_pos rfl, fixed_ok utf8 parse hparse]
        exact ⟨_, nums, ws', rfl, hu, hx, rfl, rfl⟩
      | dielectric r g b n hh =>
        rw [if_neg (by decide), if_neg (by decide), if_neg (by decide), if_neg (by decide), if_pos rfl,
          fixed_ok utf8 parse hparse]
        exact ⟨_, nums, ws', rfl, hu, hx, rfl, rfl⟩
      | glass r g b n =>
        rw [if_neg (by decide), if_neg (by decide), if_neg (by decide), if_neg (by decide), if_neg (by decide), if_pos rfl,
          zeros_ok]
        refine ⟨u0, decimal 4 :: (nums ++ ws'), rfl, ?_⟩
        rw [bind_ok]
        refine ⟨(decimal 4, nums ++ ws'), (token_ok utf8).2 (.inr ⟨rfl, uc⟩), ?_⟩
        simp only
        rw [if_pos dec4, bind_ok]
        exact ⟨([r, g, b, n], ws'), (numbers_ok utf8 parse hparse).2 ⟨nums, rfl, un, hx, rfl⟩, rfl⟩
      | clear r g b =>
        rw [if_neg (by decide), if_neg (by decide), if_neg (by decide), if_neg (by decide), if_neg (by decide), if_pos rfl,
          zeros_ok]
        refine ⟨u0, decimal 3 :: (nums ++ ws'), rfl, ?_⟩
        rw [bind_ok]
        refine ⟨(decimal 3, nums ++ ws'), (token_ok utf8).2 (.inr ⟨rfl, uc⟩), ?_⟩
        simp only
        rw [if_neg (by rw [dec3]; decide), if_pos dec3, bind_ok]
        exact ⟨([r, g, b], ws'), (numbers_ok utf8 parse hparse).2 ⟨nums, rfl, un, hx, rfl⟩, rfl⟩
    | sphere x y z r =>
      obtain ⟨rfl, i, ps, a1, a2, a3⟩ := ha
      simp only [objectsIn, map_ok] at a2
      obtain ⟨sp, b1, rfl⟩ := a2
      rw [if_neg (by decide), if_neg (by decide), if_neg (by decide), if_neg (by decide), if_neg (by decide),
        if_neg (by decide), if_pos rfl, fixed_ok utf8 parse hparse]
      refine ⟨_, nums, ws', rfl, hu, hx, rfl, ?_⟩
      simp only [bind_ok, objectW]
      exact ⟨sp, b1, i, a1, s', (run_one i _ s s').1 a3, rfl⟩
    | source x y z r =>
      obtain ⟨rfl, i, ps, a1, a2, a3⟩ := ha
      simp only [objectsIn, map_ok] at a2
      obtain ⟨sp, b1, rfl⟩ := a2
      rw [if_neg (by decide), if_neg (by decide), if_neg (by decide), if_neg (by decide), if_neg (by decide),
        if_neg (by decide), if_neg (by decide), if_pos rfl, fixed_ok utf8 parse hparse]
      refine ⟨_, nums, ws', rfl, hu, hx, rfl, ?_⟩
      simp only [bind_ok, objectW]
      exact ⟨sp, b1, i, a1, s', (run_one i _ s s').1 a3, rfl⟩
    | polygon count vertices hcount =>
      obtain ⟨rfl, i, ps, a1, a2, a3⟩ := ha
      simp only [objectsIn, bind_ok, map_ok] at a2
      obtain ⟨l, b1, ts, b2, rfl⟩ := a2
      rw [if_neg (by decide), if_neg (by decide), if_neg (by decide), if_neg (by decide), if_neg (by decide),
        if_neg (by decide), if_neg (by decide), if_neg (by decide), if_pos rfl, zeros_ok]
      refine ⟨u0, count :: (nums ++ ws'), rfl, ?_⟩
      rw [bind_ok]
      refine ⟨(count, nums ++ ws'), (token_ok utf8).2 (.inr ⟨rfl, uc⟩), ?_⟩
      simp only [hcount]
      rw [if_neg (by omega)]
      simp only [bind_ok]
      refine ⟨(l, ws'), (vertices_ok utf8 parse hparse).2 ⟨nums, vertices, rfl, un, hx, by omega, b1⟩, i, a1, ts, b2, s', ?_,
        rfl⟩
      rw [add_triangles]
      exact a3

private theorem entry_ok {ms ms' : List (List ℕ)} {s s' : Stage} {ws ws' : List (List ℕ)} (hw : ws ≠ []) :
    entryW utf8 parse ms s ws = .ok ((ms', s'), ws') ↔ ∃ e text, Written parse e text ∧ ws = text ++ ws' ∧
      (∀ w ∈ text, utf8 w = true) ∧ Acts e.modifier e.name e.content ms s ms' s' := by
  unfold entryW
  simp only [bind_ok]
  constructor
  · rintro ⟨⟨m, v1⟩, h1, ⟨k, v2⟩, h2, ⟨n, v3⟩, h3, h4⟩
    simp only at h2 h3 h4
    obtain ⟨ks, count, xs, nums, c, rfl, hc, hx, rfl, hu, ha⟩ := (content_ok utf8 parse hparse).1 h4
    rcases (token_ok utf8).1 h3 with ⟨-, -, h⟩ | ⟨rfl, u3⟩
    · simp at h
    rcases (token_ok utf8).1 h2 with ⟨-, -, h⟩ | ⟨rfl, u2⟩
    · simp at h
    rcases (token_ok utf8).1 h1 with ⟨-, -, h⟩ | ⟨rfl, u1⟩
    · simp at h
    refine ⟨⟨m, n, c⟩, _, ⟨ks, count, xs, nums, hc, hx, rfl⟩, rfl, ?_, ha⟩
    intro w hw
    simp only [List.cons_append, List.nil_append, List.mem_cons] at hw hu
    rcases hw with rfl | rfl | rfl | hw
    · exact u1
    · exact u2
    · exact u3
    · exact hu w hw
  · rintro ⟨e, text, ⟨ks, count, xs, nums, hc, hx, rfl⟩, rfl, hu, ha⟩
    refine ⟨(e.modifier, _), (token_ok utf8).2 (.inr ⟨rfl, hu _ (by simp)⟩), (bytes ks, _),
      (token_ok utf8).2 (.inr ⟨rfl, hu _ (by simp)⟩), (e.name, _), (token_ok utf8).2 (.inr ⟨rfl, hu _ (by simp)⟩), ?_⟩
    refine (content_ok utf8 parse hparse).2 ⟨ks, count, xs, nums, e.content, rfl, hc, hx, rfl, ?_, ha⟩
    intro w hw
    refine hu w ?_
    simp only [List.cons_append, List.nil_append, List.mem_cons] at hw ⊢
    exact .inr (.inr (.inr hw))

/-! ### The whole file -/

omit hparse in
private theorem index_ok {ms : List (List ℕ)} {name : List ℕ} {i : ℕ} :
    indexW ms name = .ok i ↔ ms[i]? = some name ∧ ∀ j < i, ms[j]? ≠ some name := by
  unfold indexW
  cases h : ms.findIdx? (· == name) with
  | none =>
    simp only [reduceCtorEq, false_iff, not_and]
    intro h1 _
    rw [List.findIdx?_eq_none_iff] at h
    simpa using h name (List.mem_of_getElem? h1)
  | some k =>
    simp only [Outcome.ok.injEq]
    rw [List.findIdx?_eq_some_iff_getElem] at h
    obtain ⟨h1, h2, h3⟩ := h
    have hk : ms[k]? = some name := by
      rw [List.getElem?_eq_getElem h1]
      congr 1
      simpa using h2
    have hl : ∀ j < k, ms[j]? ≠ some name := by
      intro j hj h'
      have hlt : j < ms.length := by omega
      rw [List.getElem?_eq_getElem hlt, Option.some.injEq] at h'
      have := h3 j hj
      simp [h'] at this
    constructor
    · rintro rfl
      exact ⟨hk, hl⟩
    · rintro ⟨g1, g2⟩
      rcases Nat.lt_trichotomy k i with h | h | h
      · exact absurd hk (g2 k h)
      · exact h
      · exact absurd g1 (hl i h)

omit hparse in
private theorem run_append : ∀ (a b : List Step) (s : Stage), run (a ++ b) s = (run a s).bind (run b)
  | [], b, s => rfl
  | .material m :: a, b, s => by
    simp only [List.cons_append, run]
    exact run_append a b _
  | .object o :: a, b, s => by
    simp only [List.cons_append, run]
    cases s.pushObject o.front o.back o.primitive with
    | ok s' => exact run_append a b s'
    | err => rfl
    | panic => rfl

omit hparse in
private theorem tokenW_length {ws ws' : List (List ℕ)} {w : List ℕ} (h : tokenW utf8 ws = .ok (w, ws')) :
    ws'.length ≤ ws.length := by
  rcases (token_ok utf8).1 h with ⟨rfl, -, rfl⟩ | ⟨rfl, -⟩ <;> simp

/-- All entries. -/
private noncomputable def allW : ℕ → List (List ℕ) → Stage → List (List ℕ) → Outcome Stage
  | 0, _, s, _ => .ok s
  | n + 1, ms, s, ws =>
    if ws = [] then .ok s
    else (entryW utf8 parse ms s ws).bind fun x => allW n x.1.1 x.1.2 x.2

private theorem entry_shorter {ms ms' : List (List ℕ)} {s s' : Stage} {ws ws' : List (List ℕ)} (hw : ws ≠ [])
    (h : entryW utf8 parse ms s ws = .ok ((ms', s'), ws')) : ws'.length < ws.length := by
  obtain ⟨e, text, ⟨k, c, xs, nums, -, -, rfl⟩, rfl, -⟩ := (entry_ok utf8 parse hparse hw).1 h
  simp
  omega

omit hparse in
private theorem done_or {r : Reader} (hg : Good source r) (hw : words r.rest = []) (s : Stage) (n : ℕ) :
    consumeAll utf8 parse source (n + 2) r s = some (.ok s) := by
  unfold consumeAll
  by_cases hd : r.isDone = true
  · rw [if_pos hd]
  · rw [if_neg hd]
    obtain ⟨r', e1, e2, e3, e4, -, e5⟩ := reach_spec source _ r rfl hg
    have hd' : r'.isDone = true := by
      rcases e5 with h | ⟨-, c, t, hr, hc⟩
      · exact h.1
      · exfalso
        obtain ⟨r2, w, f1, f2, f3, f4, f5, f6⟩ := end_spec source _ r' rfl e2
        have h := token_sim utf8 e2
        have hne : words r'.rest ≠ [] := by
          have hwn : w ≠ [] := by
            rintro rfl
            rw [List.nil_append] at f4
            rcases f6 with ⟨-, h⟩ | ⟨-, c', t', h, hc'⟩
            · rw [h, hr] at f4
              simp at f4
            · rw [h, hr] at f4
              simp only [List.cons.injEq] at f4
              rw [f4.1, hc'] at hc
              simp at hc
          have hs : words r'.rest = w :: words r2.rest := by
            rw [f4]
            refine words_token f5 hwn ?_
            rcases f6 with ⟨-, h⟩ | ⟨-, c', t', h, hc'⟩
            · exact .inl h
            · exact .inr ⟨c', t', h, hc'⟩
          rw [hs]
          simp
        exact hne (e4.trans hw)
    have : consumeObject utf8 parse source r s = .ok (r', s) := by
      unfold consumeObject
      rw [e1]
      simp only [Outcome.bind]
      rw [if_pos hd']
    rw [this]
    simp only
    unfold consumeAll
    rw [if_pos hd']

private theorem all_sim : ∀ (n : ℕ) (r : Reader) (s : Stage), Good source r → (words r.rest).length ≤ n →
    consumeAll utf8 parse source (n + 2) r s = some (allW utf8 parse n r.modifiers s (words r.rest))
  | 0, r, s, hg, hn => by
    have hw : words r.rest = [] := List.length_eq_zero_iff.1 (by omega)
    rw [done_or utf8 parse hg hw]
    rfl
  | n + 1, r, s, hg, hn => by
    by_cases hw : words r.rest = []
    · rw [done_or utf8 parse hg hw]
      unfold allW
      rw [if_pos hw]
    · unfold consumeAll allW
      have hd : r.isDone ≠ true := fun h => hw (by rw [hg.1 h, words_nil])
      rw [if_neg hd, if_neg hw]
      have h := entry_sim utf8 parse s hg hw
      cases hc : consumeObject utf8 parse source r s with
      | ok x =>
        obtain ⟨r', s'⟩ := x
        rw [hc] at h
        cases he : entryW utf8 parse r.modifiers s (words r.rest) with
        | ok y =>
          obtain ⟨⟨ms, s''⟩, ws⟩ := y
          rw [he] at h
          obtain ⟨rfl, g, rfl, rfl⟩ := h
          have := entry_shorter utf8 parse hparse hw he
          simp only [Outcome.bind]
          exact all_sim n r' s' g (by omega)
        | err => rw [he] at h; exact h.elim
        | panic => rw [he] at h; exact h.elim
      | err =>
        rw [hc] at h
        cases he : entryW utf8 parse r.modifiers s (words r.rest) with
        | ok y => rw [he] at h; exact h.elim
        | err => rfl
        | panic => rw [he] at h; exact h.elim
      | panic =>
        rw [hc] at h
        cases he : entryW utf8 parse r.modifiers s (words r.rest) with
        | ok y => rw [he] at h; exact h.elim
        | err => rw [he] at h; exact h.elim
        | panic => rfl

private theorem all_ok : ∀ (n : ℕ) (ms : List (List ℕ)) (s s' : Stage) (ws : List (List ℕ)), ws.length ≤ n →
    (allW utf8 parse n ms s ws = .ok s' ↔ (∀ w ∈ ws, utf8 w = true) ∧ ∃ es texts l, ws = texts.flatten ∧
      List.Forall₂ (Written parse) es texts ∧ Builds ms es l ∧ run l s = .ok s')
  | 0, ms, s, s', ws, hn => by
    obtain rfl := List.length_eq_zero_iff.1 (Nat.le_zero.1 hn)
    simp only [allW, Outcome.ok.injEq]
    constructor
    · rintro rfl
      exact ⟨by simp, [], [], [], rfl, .nil, .nil ms, rfl⟩
    · rintro ⟨-, es, texts, l, h1, h2, h3, h4⟩
      cases h2 with
      | nil =>
        cases h3
        simpa [run] using h4
      | cons a b =>
        obtain ⟨k, c, xs, nums, -, -, rfl⟩ := a
        simp at h1
  | n + 1, ms, s, s', ws, hn => by
    unfold allW
    by_cases hw : ws = []
    · subst hw
      rw [if_pos rfl]
      simp only [Outcome.ok.injEq]
      constructor
      · rintro rfl
        exact ⟨by simp, [], [], [], rfl, .nil, .nil ms, rfl⟩
      · rintro ⟨-, es, texts, l, h1, h2, h3, h4⟩
        cases h2 with
        | nil =>
          cases h3
          simpa [run] using h4
        | cons a b =>
          obtain ⟨k, c, xs, nums, -, -, rfl⟩ := a
          simp at h1
    · rw [if_neg hw, bind_ok]
      constructor
      · rintro ⟨⟨⟨ms1, s1⟩, ws1⟩, h1, h2⟩
        have hlt := entry_shorter utf8 parse hparse hw h1
        obtain ⟨e, text, he, rfl, hu, ha⟩ := (entry_ok utf8 parse hparse hw).1 h1
        obtain ⟨hu', es, texts, l, rfl, k1, k2, k3⟩ := (all_ok n ms1 s1 s' ws1 (by omega)).1 h2
        refine ⟨?_, ?_⟩
        · intro w hw
          rcases List.mem_append.1 hw with h | h
          · exact hu w h
          · exact hu' w h
        · unfold Acts at ha
          by_cases hm : e.IsMaterial
          · obtain ⟨m, hm⟩ := hm
            rw [hm] at ha
            obtain ⟨rfl, rfl⟩ := ha
            exact ⟨e :: es, text :: texts, _, rfl, .cons he k1, .material hm k2, k3⟩
          · have ha' : ms1 = ms ∧ ∃ i ps, indexW ms e.modifier = .ok i ∧ objectsIn e.content = .ok ps ∧
                run (ps.map fun p => .object ⟨p, i, i⟩) s = .ok s1 := by
              cases hc : e.content with
              | material m => exact absurd ⟨m, hc⟩ hm
              | sphere c r => rw [hc] at ha; exact ha
              | source c r => rw [hc] at ha; exact ha
              | polygon c => rw [hc] at ha; exact ha
            obtain ⟨rfl, i, ps, a1, a2, a3⟩ := ha'
            obtain ⟨b1, b2⟩ := index_ok.1 a1
            refine ⟨e :: es, text :: texts, _, rfl, .cons he k1, .object hm a2 b1 b2 k2, ?_⟩
            rw [run_append, a3]
            exact k3
      · rintro ⟨hu, es, texts, l, rfl, h2, h3, h4⟩
        cases h2 with
        | nil => exact absurd rfl hw
        | @cons e text es texts he hes =>
          rw [List.flatten_cons] at hu hn ⊢
          have hlen : 0 < text.length := by
            obtain ⟨k, c, xs, nums, -, -, rfl⟩ := he
            simp
          have hn' : texts.flatten.length ≤ n := by
            rw [List.length_append] at hn
            omega
          have hw' : text ++ texts.flatten ≠ [] := by simpa using hw
          have hu1 : ∀ w ∈ text, utf8 w = true := fun w h => hu w (List.mem_append_left _ h)
          have hu2 : ∀ w ∈ texts.flatten, utf8 w = true := fun w h => hu w (List.mem_append_right _ h)
          cases h3 with
          | material hm hs =>
            simp only [run] at h4
            refine ⟨((_, _), texts.flatten), (entry_ok utf8 parse hparse hw').2 ⟨e, text, he, rfl, hu1, ?_⟩,
              (all_ok n _ _ s' _ hn').2 ⟨hu2, es, texts, _, rfl, hes, hs, h4⟩⟩
            unfold Acts
            rw [hm]
            exact ⟨rfl, rfl⟩
          | @object _ _ ps i _ l' hm hp hi hf hs =>
            rw [run_append, bind_ok] at h4
            obtain ⟨s1, g1, g2⟩ := h4
            refine ⟨((ms, s1), texts.flatten), (entry_ok utf8 parse hparse hw').2 ⟨e, text, he, rfl, hu1, ?_⟩,
              (all_ok n _ _ s' _ hn').2 ⟨hu2, es, texts, _, rfl, hes, hs, g2⟩⟩
            unfold Acts
            have key : ms = ms ∧ ∃ i ps, indexW ms e.modifier = .ok i ∧ objectsIn e.content = .ok ps ∧
                run (ps.map fun p => .object ⟨p, i, i⟩) s = .ok s1 := ⟨rfl, i, ps, index_ok.2 ⟨hi, hf⟩, hp, g1⟩
            cases hc : e.content with
            | material m => exact absurd ⟨m, hc⟩ hm
            | sphere c r => rw [hc] at key; exact key
            | source c r => rw [hc] at key; exact key
            | polygon c => rw [hc] at key; exact key

omit hparse in
private theorem words_length : ∀ l : List ℕ, (words l).length ≤ l.length := by
  have key : ∀ l : List ℕ, (splitBy isSpace l).length ≤ l.length + 1 ∧
      ((words l).length ≤ l.length) ∧ (∀ w ws, splitBy isSpace l = w :: ws →
        ((ws.filter (· ≠ [])).length + (if w = [] then 0 else 1) ≤ l.length)) := by
    intro l
    induction l with
    | nil => simp [splitBy, words]
    | cons c l ih =>
      obtain ⟨i1, i2, i3⟩ := ih
      by_cases hc : isSpace c = true
      · refine ⟨by simp [splitBy, hc]; exact i1, by rw [words_space l hc]; simp; omega, ?_⟩
        intro w ws h
        simp only [splitBy, hc, if_true, List.cons.injEq] at h
        obtain ⟨rfl, rfl⟩ := h
        have : ((splitBy isSpace l).filter (· ≠ [])).length ≤ l.length := i2
        simp only [if_true, List.length_cons]
        omega
      · cases hs : splitBy isSpace l with
        | nil =>
          refine ⟨by simp [splitBy, hc, hs], by simp [words, splitBy, hc, hs], ?_⟩
          intro w ws h
          simp [splitBy, hc, hs] at h
          obtain ⟨rfl, rfl⟩ := h
          simp
        | cons v vs =>
          have h3 := i3 v vs hs
          have h1 := i1
          rw [hs] at h1
          have hle : (vs.filter (· ≠ [])).length ≤ l.length := by omega
          refine ⟨by simp [splitBy, hc, hs] at h1 ⊢; omega, ?_, ?_⟩
          · simp only [words, splitBy, hc, hs, Bool.false_eq_true, if_false, List.length_cons]
            rw [List.filter_cons_of_pos (by simp), List.length_cons]
            omega
          · intro w ws h
            simp only [splitBy, hc, hs, Bool.false_eq_true, if_false, List.cons.injEq] at h
            obtain ⟨rfl, rfl⟩ := h
            simp only [reduceCtorEq, if_false, List.length_cons]
            omega
  exact fun l => (key l).2.1

private theorem from_source (source : List ℕ) :
    fromSource utf8 parse source = some (allW utf8 parse source.length [] Stage.new (words source)) := by
  unfold fromSource
  exact all_sim utf8 parse hparse source.length ⟨source, false, [], 0⟩ Stage.new
    ⟨by simp, fun h => .inl h, fun h => h⟩ (words_length source)

/-- C82: reading ends, whatever the file is. -/
theorem C82_terminates (source : List ℕ) : (fromSource utf8 parse source).isSome := by
  rw [from_source utf8 parse hparse]
  rfl

/-- C82: the scene that is read.  A file gives a scene exactly if its words, all of them UTF-8, are the texts of some
entries, one after the other, and the scene is what comes out when, for each entry in order, its material is added, or its
objects are added with the first material that has the name of the modifier.

Missing: files with comments, which are refused, and names that are defined again (`C82_violated_comment`, `C82_violated_redefined`). -/
theorem C82_read_partial (source : List ℕ) (s : Stage) :
    fromSource utf8 parse source = some (.ok s) ↔ (∀ w ∈ words source, utf8 w = true) ∧
      ∃ es texts l, words source = texts.flatten ∧ List.Forall₂ (Written parse) es texts ∧ Builds [] es l ∧
        run l Stage.new = .ok s := by
  rw [from_source utf8 parse hparse, Option.some.injEq]
  exact all_ok utf8 parse hparse _ [] Stage.new s _ (words_length source)

private theorem all_fuel : ∀ (n k : ℕ) (ms : List (List ℕ)) (s : Stage) (ws : List (List ℕ)), ws.length ≤ n → ws.length ≤ k →
    allW utf8 parse n ms s ws = allW utf8 parse k ms s ws
  | 0, 0, _, _, _, _, _ => rfl
  | 0, k + 1, ms, s, ws, hn, _ => by
    obtain rfl := List.length_eq_zero_iff.1 (Nat.le_zero.1 hn)
    simp [allW]
  | n + 1, 0, ms, s, ws, _, hk => by
    obtain rfl := List.length_eq_zero_iff.1 (Nat.le_zero.1 hk)
    simp [allW]
  | n + 1, k + 1, ms, s, ws, hn, hk => by
    unfold allW
    by_cases hw : ws = []
    · rw [if_pos hw, if_pos hw]
    · rw [if_neg hw, if_neg hw]
      cases he : entryW utf8 parse ms s ws with
      | ok x =>
        obtain ⟨⟨ms', s'⟩, ws'⟩ := x
        have := entry_shorter utf8 parse hparse hw he
        exact all_fuel n k ms' s' ws' (by omega) (by omega)
      | err => rfl
      | panic => rfl

/-- C82: files with the same words give the same: how they are spaced and broken into lines does not matter. -/
theorem C82_spacing (a b : List ℕ) (h : words a = words b) : fromSource utf8 parse a = fromSource utf8 parse b := by
  rw [from_source utf8 parse hparse, from_source utf8 parse hparse, ← h]
  congr 1
  exact all_fuel utf8 parse hparse _ _ _ _ _ (words_length a) (by rw [h]; exact words_length b)

/-- C82, violated: a comment, which Radiance allows, is not skipped.  No file that begins with a line `# word …` is read,
unless the first word of the comment is the name of a kind of entry. -/
theorem C82_violated_comment (source w : List ℕ) (ws : List (List ℕ)) (h : words source = bytes "#" :: w :: ws)
    (hw : w ∉ ["plastic", "metal", "light", "mirror", "dielectric", "glass", "sphere", "source", "polygon"].map bytes)
    (s : Stage) : fromSource utf8 parse source ≠ some (.ok s) := by
  intro hr
  obtain ⟨-, es, texts, l, h1, h2, -⟩ := (C82_read_partial utf8 parse hparse source s).1 hr
  rw [h] at h1
  cases h2 with
  | nil => simp at h1
  | @cons e text es texts he _ =>
    obtain ⟨k, c, xs, nums, hc, -, rfl⟩ := he
    generalize e.content = d at hc
    simp only [List.flatten_cons, List.cons_append, List.cons.injEq] at h1
    apply hw
    rw [h1.2.1]
    apply List.mem_map_of_mem
    cases hc with
    | material hm => cases hm <;> simp
    | sphere => simp
    | source => simp
    | polygon => simp

end Words

/-- A comment. -/
example : words (bytes "# a scene") = [bytes "#", bytes "a", bytes "scene"] := by decide

/-! ### The materials of the objects -/

namespace Spec

/-- The materials in a file, with their names. -/
def named : List Item → List (List ℕ × Material)
  | [] => []
  | e :: es => match e.content with
    | .material m => (e.name, m) :: named es
    | _ => named es

end Spec

private theorem named_object {e : Item} (h : ¬ e.IsMaterial) (es : List Item) : named (e :: es) = named es := by
  unfold named
  cases hc : e.content with
  | material m => exact absurd ⟨m, hc⟩ h
  | sphere c r => simp only [hc]; cases es <;> rfl
  | source c r => simp only [hc]; cases es <;> rfl
  | polygon c => simp only [hc]; cases es <;> rfl

private theorem materials_append (ps : List Primitive) (i : ℕ) (l : List Step) :
    materialsOf (ps.map (fun p => .object ⟨p, i, i⟩) ++ l) = materialsOf l ∧
      objectsOf (ps.map (fun p => .object ⟨p, i, i⟩) ++ l) = ps.map (fun p => ⟨p, i, i⟩) ++ objectsOf l := by
  induction ps with
  | nil => exact ⟨rfl, rfl⟩
  | cons p ps ih =>
    simp only [List.map_cons, List.cons_append, materialsOf, objectsOf]
    exact ⟨ih.1, by rw [ih.2]⟩

private theorem builds_spec {names : List (List ℕ)} {es : List Item} {l : List Step} (h : Builds names es l) :
    materialsOf l = (named es).map Prod.snd ∧
      ∀ o ∈ objectsOf l, o.back = o.front ∧ ∃ e ∈ es, ∃ ps, ¬ e.IsMaterial ∧ objectsIn e.content = .ok ps ∧
        o.primitive ∈ ps ∧ (names ++ (named es).map Prod.fst)[o.front]? = some e.modifier := by
  induction h with
  | nil names => exact ⟨rfl, by simp [objectsOf]⟩
  | @material names e m es l hm hs ih =>
    have hn : named (e :: es) = (e.name, m) :: named es := by simp [named, hm]
    rw [hn]
    refine ⟨by rw [materialsOf, ih.1]; rfl, ?_⟩
    intro o ho
    rw [objectsOf] at ho
    obtain ⟨h1, e', he', ps, h2, h3, h4, h5⟩ := ih.2 o ho
    refine ⟨h1, e', by simp [he'], ps, h2, h3, h4, ?_⟩
    rw [List.append_assoc] at h5
    exact h5
  | @object names e ps i es l hm hp hi hf hs ih =>
    rw [named_object hm]
    obtain ⟨q1, q2⟩ := materials_append ps i l
    refine ⟨by rw [q1, ih.1], ?_⟩
    intro o ho
    rw [q2, List.mem_append, List.mem_map] at ho
    rcases ho with ⟨p, hp', rfl⟩ | ho
    · refine ⟨rfl, e, by simp, ps, hm, hp, hp', ?_⟩
      rw [List.getElem?_append_left (List.getElem?_eq_some_iff.1 hi).1]
      exact hi
    · obtain ⟨h1, e', he', ps', h2, h3, h4, h5⟩ := ih.2 o ho
      exact ⟨h1, e', by simp [he'], ps', h2, h3, h4, h5⟩

/-- C82: the materials are those of the file, in order; and every object stands for an entry of the file, and has on both
sides a material that has, in the file, the name of the modifier of the entry. -/
theorem C82_materials (es : List Item) (l : List Step) (h : Builds [] es l) :
    materialsOf l = (named es).map Prod.snd ∧
      ∀ o ∈ objectsOf l, o.back = o.front ∧ ∃ e ∈ es, ∃ ps m, objectsIn e.content = .ok ps ∧ o.primitive ∈ ps ∧
        (materialsOf l)[o.front]? = some m ∧ (e.modifier, m) ∈ named es := by
  obtain ⟨h1, h2⟩ := builds_spec h
  refine ⟨h1, fun o ho => ?_⟩
  obtain ⟨g1, e, he, ps, -, g3, g4, g5⟩ := h2 o ho
  rw [List.nil_append, List.getElem?_map, Option.map_eq_some_iff] at g5
  obtain ⟨⟨n, m⟩, g6, rfl⟩ := g5
  refine ⟨g1, e, he, ps, m, g3, g4, ?_, List.mem_of_getElem? g6⟩
  rw [h1, List.getElem?_map, g6]
  rfl

private theorem sphere_new (c : V3 ℝ) (r : ℝ) (hr : 0 ≤ r) : ∃ q, Sphere.new r c = .ok q ∧ q.radius = r := by
  unfold Sphere.new Sphere.newPartial Sphere.newPartialTransformed checkPhi
  simp only
  rw [if_neg (by linarith), if_neg (by linarith), if_pos ⟨by unfold eps; norm_num, by unfold eps; norm_num⟩]
  exact ⟨_, rfl, rfl⟩

open Classical in
/-- C82, violated: in Radiance a modifier is the last definition of the name before the object.  Here it is the first: of
two materials with the same name, whatever they are, a sphere after them has the first. -/
theorem C82_violated_redefined (utf8 : List ℕ → Bool) (parse : List ℕ → Option ℝ) (hparse : parse [] = none)
    (source : List ℕ) (hu : ∀ w ∈ words source, utf8 w = true) (name v1 v2 n3 : List ℕ) (m1 m2 : Material) (c : V3 ℝ) (r : ℝ)
    (hr : 1 / 10 ^ 9 ≤ r) (texts : List (List (List ℕ))) (hw : words source = texts.flatten)
    (ht : List.Forall₂ (Written parse) [⟨v1, name, .material m1⟩, ⟨v2, name, .material m2⟩, ⟨name, n3, .sphere c r⟩] texts) :
    ∃ s, fromSource utf8 parse source = some (.ok s) ∧ s.materials = [m1, m2] ∧ s.triangles ≠ [] ∧
      ∀ e ∈ entries s, s.materials[e.2.2.1]? = some m1 ∧ s.materials[e.2.2.2]? = some m1 := by
  obtain ⟨q, hq, hqr⟩ := sphere_new c r (by linarith [show (0 : ℝ) < 1 / 10 ^ 9 by norm_num])
  have hb : Builds [] [⟨v1, name, .material m1⟩, ⟨v2, name, .material m2⟩, ⟨name, n3, .sphere c r⟩]
      [.material m1, .material m2, .object ⟨.sphere q, 0, 0⟩] := by
    refine .material rfl (.material rfl ?_)
    refine Builds.object (ps := [.sphere q]) (i := 0) (l := []) ?_ ?_ ?_ ?_ (.nil _)
    · rintro ⟨m, h⟩
      simp at h
    · simp only [objectsIn, hq, Outcome.map]
    · simp
    · simp
  obtain ⟨s, hs⟩ := C81_taken ⟨[], [], [], [], [m1, m2], [], []⟩ ⟨.sphere q, 0, 0⟩ (by simp) (by simp)
    (.inr (.inl ⟨q, rfl, by rw [hqr]; exact hr⟩))
  have hrun : run [.material m1, .material m2, .object ⟨.sphere q, 0, 0⟩] Stage.new = .ok s := by
    simp only [run, Stage.pushMaterial, Stage.new, List.nil_append, List.cons_append]
    simp only at hs
    rw [hs]
    rfl
  obtain ⟨h1, h2, h3, -, -, -⟩ := C81_history _ s hrun
  refine ⟨s, (C82_read_partial utf8 parse hparse source s).2 ⟨hu, _, texts, _, hw, ht, hb, hrun⟩, h1, ?_, ?_⟩
  · intro h0
    have : entries s = [] := by simp [entries, h0]
    rw [this] at h3
    obtain ⟨ts, ns, g1, g2, g3, -⟩ := Meshing.C80_sphere_partial q (by rw [hqr]; exact hr)
    simp only [objectsOf, List.flatMap_cons, List.flatMap_nil, List.append_nil, entriesOf, pieces, g1] at h3
    have hlen := congrArg List.length h3
    rw [List.length_map, List.length_zip, g3, g2] at hlen
    simp at hlen
  · intro e he
    rw [h3] at he
    simp only [objectsOf, List.flatMap_cons, List.flatMap_nil, List.append_nil, entriesOf, List.mem_map] at he
    obtain ⟨x, -, rfl⟩ := he
    rw [h1]
    simp [materialsOf]

/-- A file with two lights of the same name and a sphere. -/
example : ∃ s, fromSource (fun _ => true) (fun w => (parseUsize w).map fun n => (n : ℝ))
    (bytes "void light a 0 0 3 1 1 1\nvoid light a 0 0 3 2 2 2\n\na sphere b 0 0 4 0 0 0 1\n") = some (.ok s) := by
  have p0 : parseUsize (bytes "0") = some 0 := by decide
  have p1 : parseUsize (bytes "1") = some 1 := by decide
  have p2 : parseUsize (bytes "2") = some 2 := by decide
  obtain ⟨s, h, -⟩ := C82_violated_redefined (fun _ => true) (fun w => (parseUsize w).map fun n => (n : ℝ)) (by decide)
    (bytes "void light a 0 0 3 1 1 1\nvoid light a 0 0 3 2 2 2\n\na sphere b 0 0 4 0 0 0 1\n") (by simp)
    (bytes "a") (bytes "void") (bytes "void") (bytes "b") (.light ![1, 1, 1]) (.light ![2, 2, 2]) ⟨0, 0, 0⟩ 1 (by norm_num)
    [["void", "light", "a", "0", "0", "3", "1", "1", "1"].map bytes, ["void", "light", "a", "0", "0", "3", "2", "2", "2"].map bytes,
      ["a", "sphere", "b", "0", "0", "4", "0", "0", "0", "1"].map bytes] (by decide)
    (.cons ⟨"light", decimal 3, [1, 1, 1], ["1", "1", "1"].map bytes, .material (.light 1 1 1), by simp [p1],
        by rw [dec3]; rfl⟩
      (.cons ⟨"light", decimal 3, [2, 2, 2], ["2", "2", "2"].map bytes, .material (.light 2 2 2), by simp [p2],
        by rw [dec3]; rfl⟩
      (.cons ⟨"sphere", decimal 4, [0, 0, 0, 1], ["0", "0", "0", "1"].map bytes, .sphere 0 0 0 1, by simp [p0, p1],
        by rw [dec4]; rfl⟩ .nil)))
  exact ⟨s, h⟩

end Simple.Render.Radiance
