import Verif.Building.ScannerModel

/-! # C19: scanning a SIMPLE file finds exactly the objects written in it -/

namespace Simple.Scan

/-! ## Specification: well-formed files -/

namespace Spec

/-- The characters of names: ASCII letters and digits, and the underscore. -/
def NameChar (c : Char) : Prop := c.isAlphanum ∨ c = '_'

instance (c : Char) : Decidable (NameChar c) := inferInstanceAs (Decidable (_ ∨ _))

/-- Texts made of white space and closed comments. -/
inductive Blank : List Char → Prop
  | nil : Blank []
  | space (c : Char) (hc : c = ' ' ∨ c = '\r' ∨ c = '\t' ∨ c = '\n') (l : List Char) :
      Blank l → Blank (c :: l)
  | line (t l : List Char) (ht : '\n' ∉ t) : Blank l → Blank ('/' :: '/' :: t ++ '\n' :: l)
  | block (t l : List Char) (ht : ¬ ['*', '/'] <:+: t ++ ['*']) :
      Blank l → Blank ('/' :: '*' :: t ++ '*' :: '/' :: l)

/-- Texts in which the two brackets are balanced. -/
inductive Bal (o c : Char) : List Char → Prop
  | nil : Bal o c []
  | char (x : Char) (ho : x ≠ o) (hc : x ≠ c) (l : List Char) : Bal o c l → Bal o c (x :: l)
  | nest (a b : List Char) : Bal o c a → Bal o c b → Bal o c (o :: a ++ c :: b)

/-- The two kinds of object: `{ ... }`, and `::Variant( ... )`. -/
inductive Body : List Char → Prop
  | brace (inner : List Char) : Bal '{' '}' inner → Body ('{' :: inner ++ ['}'])
  | enum (tag inner : List Char) (ht : ∀ x ∈ tag, NameChar x) : Bal '(' ')' inner →
      Body (':' :: ':' :: tag ++ '(' :: inner ++ [')'])

/-- An item of a file: its name, what separates the name from the object, the object, and what
follows it. -/
structure Item where
  name : List Char
  gap : List Char
  body : List Char
  after : List Char

structure Item.WF (i : Item) : Prop where
  name_ne : i.name ≠ []
  name_ident : ∀ x ∈ i.name, NameChar x
  gap : Blank i.gap
  body : Body i.body
  after : Blank i.after

/-- How an item is written. -/
def Item.text (i : Item) : List Char := i.name ++ (i.gap ++ (i.body ++ i.after))

/-- A file: blanks, then the items. -/
def file (head : List Char) (items : List Item) : List Char :=
  head ++ (items.map Item.text).flatten

end Spec

open Spec

/-! ## Lemmas -/

theorem isIdent_iff (c : Char) : isIdent c ↔ NameChar c := by
  simp only [isIdent, NameChar, Char.isAlphanum, Char.isAlpha, Char.isUpper, Char.isLower,
    Char.isDigit, Char.le_def, Bool.or_eq_true, decide_eq_true_eq, Bool.and_eq_true]
  tauto

/-- What `skip_white_space` stops at. -/
def Stop : List Char → Prop
  | [] => True
  | c :: _ => c ≠ ' ' ∧ c ≠ '\r' ∧ c ≠ '\t' ∧ c ≠ '\n' ∧ c ≠ '/'

theorem skip_normal_cons (c : Char) (r : List Char) : skip .normal (c :: r) =
    if c = ' ' ∨ c = '\r' ∨ c = '\t' ∨ c = '\n' then skip .normal r
    else if c = '/' then
      match r with
      | [] => ['/']
      | d :: r' =>
        if d = '/' then skip .line r' else if d = '*' then skip .block r' else '/' :: d :: r'
    else c :: r := by
  cases r <;> rfl

theorem skip_line_cons (c : Char) (r : List Char) :
    skip .line (c :: r) = if c = '\n' then skip .normal r else skip .line r := by
  cases r <;> rfl

theorem skip_block_cons (c d : Char) (r : List Char) :
    skip .block (c :: d :: r) = if c = '*' ∧ d = '/' then skip .normal r else skip .block (d :: r) :=
  rfl

theorem skip_stop (l : List Char) (h : Stop l) : skip .normal l = l := by
  cases l with
  | nil => rfl
  | cons c r =>
    obtain ⟨h1, h2, h3, h4, h5⟩ := h
    rw [skip_normal_cons, if_neg (by simp [h1, h2, h3, h4]), if_neg h5]

theorem skip_line (t l : List Char) (ht : '\n' ∉ t) :
    skip .line (t ++ '\n' :: l) = skip .normal l := by
  induction t with
  | nil => rw [List.nil_append, skip_line_cons, if_pos rfl]
  | cons x t ih =>
    have hx : x ≠ '\n' := fun h => ht (by simp [h])
    rw [List.cons_append, skip_line_cons, if_neg hx, ih (fun h => ht (List.mem_cons_of_mem _ h))]

theorem skip_block (t l : List Char) (ht : ¬ ['*', '/'] <:+: t ++ ['*']) :
    skip .block (t ++ '*' :: '/' :: l) = skip .normal l := by
  induction t with
  | nil => rw [List.nil_append, skip_block_cons]; exact if_pos ⟨rfl, rfl⟩
  | cons x t ih =>
    have ht' : ¬ ['*', '/'] <:+: t ++ ['*'] := fun h => ht (h.trans (List.suffix_cons _ _).isInfix)
    rw [List.cons_append]
    cases t with
    | nil =>
      rw [List.nil_append, skip_block_cons, if_neg (fun h => absurd h.2 (by decide))]
      exact ih ht'
    | cons y t =>
      rw [List.cons_append, skip_block_cons, if_neg ?_]
      · exact ih ht'
      · rintro ⟨rfl, rfl⟩
        exact ht ⟨[], t ++ ['*'], by simp⟩

theorem skip_blank (b l : List Char) (hb : Blank b) (hl : Stop l) :
    skip .normal (b ++ l) = l := by
  induction hb with
  | nil => exact skip_stop l hl
  | space c hc b _ ih =>
    rw [List.cons_append, skip_normal_cons, if_pos hc, ih]
  | line t b ht _ ih =>
    have : '/' :: '/' :: t ++ '\n' :: b ++ l = '/' :: '/' :: (t ++ '\n' :: (b ++ l)) := by simp
    rw [this, skip_normal_cons, if_neg (by decide), if_pos rfl]
    dsimp only
    rw [if_pos rfl, skip_line t _ ht, ih]
  | block t b ht _ ih =>
    have : '/' :: '*' :: t ++ '*' :: '/' :: b ++ l
        = '/' :: '*' :: (t ++ '*' :: '/' :: (b ++ l)) := by simp
    rw [this, skip_normal_cons, if_neg (by decide), if_pos rfl]
    dsimp only
    rw [if_neg (by decide), if_pos rfl, skip_block t _ ht, ih]

theorem identifier_append (n l : List Char) (hn : ∀ x ∈ n, isIdent x)
    (hl : ∀ c r, l = c :: r → isIdent c = false) : identifier (n ++ l) = (n, l) := by
  induction n with
  | nil =>
    cases l with
    | nil => rfl
    | cons c r => simp [identifier, hl c r rfl]
  | cons x n ih =>
    have h1 := hn x (by simp)
    rw [List.cons_append, identifier, if_pos h1, ih (fun y hy => hn y (by simp [hy]))]

/-- Adds a prefix to what was consumed. -/
def Res.pre (a : List Char) : Res (List Char × List Char) → Res (List Char × List Char)
  | .ok (x, y) => .ok (a ++ x, y)
  | .err => .err
  | .hang => .hang

theorem Res.pre_pre (a b : List Char) (r : Res (List Char × List Char)) :
    (r.pre b).pre a = r.pre (a ++ b) := by
  cases r <;> simp [Res.pre]

/-- One step of the loop after the object has started. -/
theorem objectLoop_step (n : ℤ) (hn : n > 0) (o c x : Char) (r : List Char) :
    objectLoop n true o c (x :: r)
      = (objectLoop (n + (if x = o then 1 else 0) - (if x = c then 1 else 0)) true o c r).pre [x] := by
  rw [objectLoop]
  rw [if_pos (Or.inl hn)]
  simp only [Bool.not_true, Bool.false_eq_true, false_and, if_false, Bool.true_or]
  split <;> simp_all [Res.pre]

theorem objectLoop_bal (o c : Char) (hoc : o ≠ c) (a : List Char) (ha : Bal o c a) :
    ∀ (n : ℤ) (_ : n > 0) (r : List Char),
      objectLoop n true o c (a ++ r) = (objectLoop n true o c r).pre a := by
  induction ha with
  | nil => intro n _ r; simp only [List.nil_append]; cases objectLoop n true o c r <;> simp [Res.pre]
  | char x ho hc l _ ih =>
    intro n hn r
    rw [List.cons_append, objectLoop_step n hn, if_neg ho, if_neg hc]
    simp only [add_zero, sub_zero]
    rw [ih n hn r, Res.pre_pre]
    rfl
  | nest a b _ _ iha ihb =>
    intro n hn r
    have e : o :: a ++ c :: b ++ r = o :: (a ++ c :: (b ++ r)) := by simp
    rw [e, objectLoop_step n hn, if_pos rfl, if_neg hoc]
    rw [sub_zero, iha (n + 1) (by omega), objectLoop_step (n + 1) (by omega), if_pos rfl,
      if_neg (Ne.symm hoc)]
    rw [show n + 1 + 0 - 1 = n by omega, ihb n hn, Res.pre_pre, Res.pre_pre, Res.pre_pre]
    congr 1
    simp

/-- The loop ends right after the bracket that closes the object. -/
theorem objectLoop_close (o c : Char) (hoc : o ≠ c) (r : List Char) :
    objectLoop 1 true o c (c :: r) = .ok ([c], r) := by
  rw [objectLoop_step 1 (by omega), if_neg (Ne.symm hoc), if_pos rfl]
  cases r <;> simp [objectLoop, Res.pre]

/-- One step before the object starts, at a character without a meaning. -/
theorem objectLoop_tag (x : Char) (r : List Char)
    (hx : x ≠ ',' ∧ x ≠ '(' ∧ x ≠ '{' ∧ x ≠ '}') :
    objectLoop 0 false '{' '}' (x :: r) = (objectLoop 0 false '{' '}' r).pre [x] := by
  obtain ⟨h1, h2, h3, h4⟩ := hx
  have hb : (x == '{') = false := by simpa using h3
  rw [objectLoop]
  simp only [h1, h2, Bool.not_false, or_true, if_true, and_false, if_false, h3, h4, hb, Bool.or_false,
    add_zero, sub_zero]
  cases objectLoop 0 false '{' '}' r <;> simp [Res.pre]

theorem objectLoop_tags (t r : List Char)
    (ht : ∀ x ∈ t, x ≠ ',' ∧ x ≠ '(' ∧ x ≠ '{' ∧ x ≠ '}') :
    objectLoop 0 false '{' '}' (t ++ r) = (objectLoop 0 false '{' '}' r).pre t := by
  induction t with
  | nil => simp only [List.nil_append]; cases objectLoop 0 false '{' '}' r <;> simp [Res.pre]
  | cons x t ih =>
    rw [List.cons_append, objectLoop_tag x _ (ht x (by simp)),
      ih (fun y hy => ht y (by simp [hy])), Res.pre_pre]
    rfl

theorem isIdent_plain (x : Char) (h : isIdent x) : x ≠ ',' ∧ x ≠ '(' ∧ x ≠ '{' ∧ x ≠ '}' := by
  refine ⟨?_, ?_, ?_, ?_⟩ <;> (rintro rfl; revert h; decide)

theorem isIdent_stop (x : Char) (h : isIdent x) :
    x ≠ ' ' ∧ x ≠ '\r' ∧ x ≠ '\t' ∧ x ≠ '\n' ∧ x ≠ '/' := by
  refine ⟨?_, ?_, ?_, ?_, ?_⟩ <;> (rintro rfl; revert h; decide)

theorem objectLoop_open_brace (r : List Char) :
    objectLoop 0 false '{' '}' ('{' :: r) = (objectLoop 1 true '{' '}' r).pre ['{'] := by
  have : objectLoop 0 false '{' '}' ('{' :: r) = match objectLoop 1 true '{' '}' r with
      | .ok (a, b) => .ok ('{' :: a, b)
      | .err => .err
      | .hang => .hang := rfl
  rw [this]
  cases objectLoop 1 true '{' '}' r <;> rfl

theorem objectLoop_open_paren (r : List Char) :
    objectLoop 0 false '{' '}' ('(' :: r) = (objectLoop 1 true '(' ')' r).pre ['('] := by
  have : objectLoop 0 false '{' '}' ('(' :: r) = match objectLoop 1 true '(' ')' r with
      | .ok (a, b) => .ok ('(' :: a, b)
      | .err => .err
      | .hang => .hang := rfl
  rw [this]
  cases objectLoop 1 true '(' ')' r <;> rfl

theorem object_body (b r : List Char) (hb : Body b) : object (b ++ r) = .ok (b, r) := by
  cases hb with
  | brace inner hi =>
    have e : '{' :: inner ++ ['}'] ++ r = '{' :: (inner ++ '}' :: r) := by simp
    rw [e, object, if_neg (by simp), objectLoop_open_brace,
      objectLoop_bal '{' '}' (by decide) inner hi 1 (by omega), objectLoop_close _ _ (by decide)]
    simp [Res.pre]
  | enum tag inner ht hi =>
    have e : ':' :: ':' :: tag ++ '(' :: inner ++ [')'] ++ r
        = (':' :: ':' :: tag) ++ ('(' :: (inner ++ ')' :: r)) := by simp
    rw [e, object, if_neg (by simp), objectLoop_tags, objectLoop_open_paren,
      objectLoop_bal '(' ')' (by decide) inner hi 1 (by omega), objectLoop_close _ _ (by decide)]
    · simp [Res.pre]
    · intro x hx
      rcases List.mem_cons.1 hx with rfl | hx
      · decide
      rcases List.mem_cons.1 hx with rfl | hx
      · decide
      exact isIdent_plain x ((isIdent_iff x).2 (ht x hx))

theorem body_head (b : List Char) (hb : Body b) : ∃ c r, b = c :: r ∧ (c = '{' ∨ c = ':') := by
  cases hb with
  | brace inner _ => exact ⟨'{', inner ++ ['}'], by simp, Or.inl rfl⟩
  | enum tag inner _ _ => exact ⟨':', ':' :: tag ++ '(' :: inner ++ [')'], by simp, Or.inr rfl⟩

theorem blank_head (b : List Char) (hb : Blank b) (c : Char) (r : List Char) (h : b = c :: r) :
    isIdent c = false := by
  cases hb with
  | nil => simp at h
  | space x hx l _ =>
    obtain ⟨rfl, _⟩ := List.cons.inj h
    rcases hx with rfl | rfl | rfl | rfl <;> decide
  | line t l _ _ =>
    simp only [List.cons_append, List.cons.injEq] at h
    rw [← h.1]; decide
  | block t l _ _ =>
    simp only [List.cons_append, List.cons.injEq] at h
    rw [← h.1]; decide

/-- `scanItems` in one equation. -/
theorem scanItems_eq (l : List Char) : scanItems l =
    if skip .normal l = [] then .ok []
    else match object (skip .normal (identifier (skip .normal l)).2) with
      | .ok (body, l4) =>
        match scanItems l4 with
        | .ok items => .ok (((identifier (skip .normal l)).1, body) :: items)
        | .err => .err
        | .hang => .hang
      | .err => .err
      | .hang => .hang := by
  conv_lhs => rw [scanItems]
  split_ifs
  · rfl
  · split
    · rename_i heq
      simp only [heq]
      rfl
    · rename_i heq; simp only [heq]
    · rename_i heq; simp only [heq]

theorem scan_item (head : List Char) (hh : Blank head) (i : Item) (hi : i.WF) (rest : List Char) :
    scanItems (head ++ (i.text ++ rest)) =
      match scanItems (i.after ++ rest) with
      | .ok items => .ok ((i.name, i.body) :: items)
      | .err => .err
      | .hang => .hang := by
  obtain ⟨c, n, hn⟩ := List.exists_cons_of_ne_nil hi.name_ne
  obtain ⟨bc, br, hb, hbc⟩ := body_head _ hi.body
  have h1 : skip .normal (head ++ (i.text ++ rest)) = i.text ++ rest := by
    apply skip_blank _ _ hh
    rw [Item.text, hn]
    exact isIdent_stop c ((isIdent_iff c).2 (hi.name_ident c (by simp [hn])))
  have hne : i.text ++ rest ≠ [] := by simp [Item.text, hn]
  have h2 : identifier (i.text ++ rest) = (i.name, i.gap ++ (i.body ++ (i.after ++ rest))) := by
    have : i.text ++ rest = i.name ++ (i.gap ++ (i.body ++ (i.after ++ rest))) := by
      simp [Item.text]
    rw [this]
    apply identifier_append _ _ (fun x hx => (isIdent_iff x).2 (hi.name_ident x hx))
    intro x r hx
    cases hg : i.gap with
    | nil =>
      rw [hg, hb] at hx
      simp only [List.nil_append, List.cons_append, List.cons.injEq] at hx
      rw [← hx.1]
      rcases hbc with rfl | rfl <;> decide
    | cons y g =>
      rw [hg] at hx
      simp only [List.cons_append, List.cons.injEq] at hx
      rw [← hx.1]
      exact blank_head i.gap hi.gap y g hg
  have h3 : skip .normal (i.gap ++ (i.body ++ (i.after ++ rest))) = i.body ++ (i.after ++ rest) := by
    apply skip_blank _ _ hi.gap
    rw [hb]
    rcases hbc with rfl | rfl <;> (simp only [List.cons_append, Stop]; decide)
  rw [scanItems_eq, h1, if_neg hne, h2]
  dsimp only
  rw [h3, object_body _ _ hi.body]

/-! ## The properties -/

/-- Scanning a well-formed file yields exactly the names and objects written in it, in order,
whatever the blanks and the comments are and whatever the nesting of the objects is. -/
theorem C19_scan (head : List Char) (hh : Blank head) (items : List Item)
    (h : ∀ i ∈ items, i.WF) :
    scanItems (file head items) = .ok (items.map fun i => (i.name, i.body)) := by
  induction items generalizing head with
  | nil =>
    have : skip .normal (head ++ []) = [] := skip_blank head [] hh trivial
    simp only [file, List.map_nil, List.flatten_nil]
    rw [scanItems_eq, this, if_pos rfl]
  | cons i items ih =>
    have hi := h i (by simp)
    have e : file head (i :: items) = head ++ (i.text ++ (items.map Item.text).flatten) := by
      simp [file]
    rw [e, scan_item head hh i hi, show i.after ++ (items.map Item.text).flatten
      = file i.after items from rfl, ih i.after hi.after (fun j hj => h j (by simp [hj]))]
    rfl

theorem collect_eq (items : List (List Char × List Char)) (data : List Char → List (List Char))
    (k : List Char) :
    collect items data k = data k ++ (items.filter (fun i => i.1 = k)).map Prod.snd := by
  induction items generalizing data with
  | nil => simp [collect]
  | cons i items ih =>
    obtain ⟨n, b⟩ := i
    rw [collect, ih]
    by_cases hk : n = k
    · subst hk; simp
    · rw [Function.update_of_ne (Ne.symm hk)]
      simp [hk]

/-- The order in which items of different kinds are written does not matter: if two files have the
same objects of each kind in the same order, the same additions are made to the model in the same
order — so a `Surface` may come before the `Construction` it uses. -/
theorem C19_kinds (i1 i2 : List (List Char × List Char))
    (h : ∀ k ∈ readOrder, i1.filter (fun i => i.1 = k) = i2.filter (fun i => i.1 = k)) :
    additions i1 = additions i2 := by
  unfold additions
  apply List.flatMap_congr
  intro k hk
  rw [collect_eq, collect_eq, h k hk]

/-- The additions made of one kind are all the objects of that kind, in the order written. -/
theorem C19_additions (items : List (List Char × List Char)) (k : List Char) (hk : k ∈ readOrder) :
    (additions items).filter (fun i => i.1 = k) = items.filter (fun i => i.1 = k) := by
  have key : ∀ (order : List (List Char)), order.Nodup → k ∈ order →
      (order.flatMap fun ident => (collect items (fun _ => []) ident).map fun body =>
        (ident, body)).filter (fun i => i.1 = k) = items.filter (fun i => i.1 = k) := by
    have self : ((collect items (fun _ => []) k).map fun body => (k, body))
        = items.filter (fun i => i.1 = k) := by
      rw [collect_eq]
      simp only [List.nil_append, List.map_map]
      conv_rhs => rw [← List.map_id (items.filter _)]
      apply List.map_congr_left
      intro i hi
      have : i.1 = k := by simpa using (List.mem_filter.1 hi).2
      simp [← this]
    have none : ∀ j, j ≠ k → (((collect items (fun _ => []) j).map fun body => (j, body)).filter
        (fun i => i.1 = k)) = [] := by
      intro j hj
      rw [List.filter_eq_nil_iff]
      intro i hi
      obtain ⟨b, _, rfl⟩ := List.mem_map.1 hi
      simp [hj]
    have all : (((collect items (fun _ => []) k).map fun body => (k, body)).filter
        (fun i => i.1 = k)) = items.filter (fun i => i.1 = k) := by
      rw [self, List.filter_filter]
      simp
    have miss : ∀ (order : List (List Char)), k ∉ order →
      (order.flatMap fun ident => (collect items (fun _ => []) ident).map fun body =>
        (ident, body)).filter (fun i => i.1 = k) = [] := by
      intro order
      induction order with
      | nil => simp
      | cons j order ih =>
        intro hj
        rw [List.flatMap_cons, List.filter_append, none j (fun e => hj (by simp [e])),
          ih (fun e => hj (by simp [e]))]
        rfl
    intro order
    induction order with
    | nil => simp
    | cons j order ih =>
      intro hnd hmem
      rw [List.flatMap_cons, List.filter_append]
      by_cases hj : j = k
      · subst hj
        rw [all, miss order (List.nodup_cons.1 hnd).1, List.append_nil]
      · rw [none j hj, List.nil_append]
        exact ih (List.nodup_cons.1 hnd).2 ((List.mem_cons.1 hmem).resolve_left (Ne.symm hj))
  exact key readOrder (by decide +kernel) hk

/-- Objects are added kind by kind: substances before the materials that use them, materials before
constructions, and so on. -/
theorem C19_dependencies (items : List (List Char × List Char)) :
    (additions items).Pairwise fun a b => readOrder.idxOf a.1 ≤ readOrder.idxOf b.1 := by
  have key : ∀ (order : List (List Char)),
      order.Pairwise (fun a b => readOrder.idxOf a ≤ readOrder.idxOf b) →
      (order.flatMap fun ident => (collect items (fun _ => []) ident).map fun body =>
        (ident, body)).Pairwise fun a b => readOrder.idxOf a.1 ≤ readOrder.idxOf b.1 := by
    intro order
    induction order with
    | nil => simp
    | cons j order ih =>
      intro h
      rw [List.flatMap_cons, List.pairwise_append]
      obtain ⟨h1, h2⟩ := List.pairwise_cons.1 h
      refine ⟨?_, ih h2, ?_⟩
      · rw [List.pairwise_map]
        exact List.pairwise_of_forall (fun _ _ => le_refl _)
      · intro a ha b hb
        obtain ⟨x, _, rfl⟩ := List.mem_map.1 ha
        obtain ⟨k, hk, hb⟩ := List.mem_flatMap.1 hb
        obtain ⟨y, _, rfl⟩ := List.mem_map.1 hb
        exact h1 k hk
  exact key readOrder (by decide +kernel)

theorem skip_suffix (m : Mode) (l : List Char) : skip m l <:+ l := by
  fun_induction skip m l
  all_goals
    first
      | exact List.suffix_refl _
      | exact List.nil_suffix
      | exact List.IsSuffix.trans (by assumption) (List.suffix_cons _ _)
      | exact List.IsSuffix.trans (by assumption)
          ((List.suffix_cons _ _).trans (List.suffix_cons _ _))

theorem skip_idem (m : Mode) (l : List Char) : skip .normal (skip m l) = skip m l := by
  fun_induction skip m l
  case case6 d r h1 h2 h3 =>
    rw [skip_normal_cons, if_neg h3, if_pos rfl]
    dsimp only
    rw [if_neg h1, if_neg h2]
  case case7 c r h1 h2 => rw [skip_normal_cons, if_neg h1, if_neg h2]
  all_goals first | rfl | assumption

theorem identifier_append_eq (l : List Char) : (identifier l).1 ++ (identifier l).2 = l := by
  induction l with
  | nil => rfl
  | cons c r ih => unfold identifier; split_ifs <;> simp [ih]

theorem identifier_mem (l : List Char) : ∀ x ∈ (identifier l).1, isIdent x := by
  induction l with
  | nil => simp [identifier]
  | cons c r ih =>
    unfold identifier
    split_ifs with hc
    · intro x hx
      rcases List.mem_cons.1 hx with rfl | hx
      · exact hc
      · exact ih x hx
    · simp

theorem objectLoop_no_hang (n : ℤ) (s : Bool) (o c : Char) (l : List Char) :
    objectLoop n s o c l ≠ .hang := by
  induction l generalizing n s o c with
  | nil => simp [objectLoop]
  | cons x r ih =>
    intro h
    rw [objectLoop] at h
    by_cases hc : n > 0 ∨ (!s) = true
    · rw [if_pos hc] at h
      by_cases hk : (!s) = true ∧ x = ','
      · rw [if_pos hk] at h; simp at h
      · rw [if_neg hk] at h
        dsimp only at h
        split at h
        · simp at h
        · simp at h
        · rename_i heq
          exact ih _ _ _ _ heq
    · rw [if_neg hc] at h
      simp at h

/-- Scanning comes back for every text, well-formed or not, unless the text ends with an identifier
followed by nothing but white space and comments (the full claim has no exception, and it is false:
see `C19_violated_termination`). -/
theorem C19_terminates_partial (l : List Char)
    (h : ¬ ∃ name gap, name ++ gap <:+ l ∧ name ≠ [] ∧ (∀ x ∈ name, NameChar x)
      ∧ skip .normal gap = []) :
    scanItems l ≠ .hang := by
  induction hn : l.length using Nat.strong_induction_on generalizing l with
  | _ n ih =>
    subst hn
    intro hh
    rw [scanItems_eq] at hh
    split_ifs at hh with h1
    have s1 := skip_suffix .normal l
    have s2 : (identifier (skip .normal l)).2 <:+ skip .normal l :=
      ⟨(identifier (skip .normal l)).1, identifier_append_eq _⟩
    have s3 := skip_suffix .normal (identifier (skip .normal l)).2
    split at hh
    · rename_i body l4 heq
      have hlen := object_shorter _ _ _ heq
      have s4 : l4 <:+ skip .normal (identifier (skip .normal l)).2 := by
        unfold object at heq
        split_ifs at heq
        exact ⟨body, objectLoop_length _ _ _ _ _ _ _ heq⟩
      have s5 : l4 <:+ l := s4.trans (s3.trans (s2.trans s1))
      split at hh
      · simp at hh
      · simp at hh
      · rename_i heq2
        refine ih l4.length ?_ l4 ?_ rfl heq2
        · exact lt_of_lt_of_le hlen (s3.trans (s2.trans s1)).length_le
        · rintro ⟨name, gap, hs, hrest⟩
          exact h ⟨name, gap, hs.trans s5, hrest⟩
    · simp at hh
    · rename_i heq
      unfold object at heq
      split_ifs at heq with he
      · apply h
        refine ⟨(identifier (skip .normal l)).1, (identifier (skip .normal l)).2, ?_, ?_,
          fun x hx => (isIdent_iff x).1 (identifier_mem _ x hx), he⟩
        · rw [identifier_append_eq]; exact s1
        · intro hnil
          have e := identifier_append_eq (skip .normal l)
          rw [hnil, List.nil_append] at e
          rw [e] at he
          cases hs : skip .normal l with
          | nil => exact h1 hs
          | cons c r =>
            -- nothing was skipped, so what is left starts with a character that is no blank
            rw [hs] at he e
            have hstop : skip .normal (skip .normal l) = [] := by rw [hs]; exact he
            rw [skip_idem] at hstop
            exact h1 hstop
      · exact objectLoop_no_hang _ _ _ _ _ heq

/-- The full claim is false: the scanner never comes back from a file that ends after a name. -/
theorem C19_violated_termination : scanItems "Surface".toList = .hang := by
  rw [scanItems_eq]
  decide +kernel

/-- A bracket within a string is counted as one, so a valid JSON5 object may be cut short. -/
theorem C19_violated_string :
    object "{name: \"}\"}".toList = .ok ("{name: \"}".toList, "\"}".toList) := by
  decide +kernel

/-! ## Non-vacuity -/

/-- Text without brackets does not change whether a text is balanced. -/
theorem Spec.Bal.prepend (o c : Char) (p l : List Char) (hp : ∀ x ∈ p, x ≠ o ∧ x ≠ c)
    (hl : Bal o c l) : Bal o c (p ++ l) := by
  induction p with
  | nil => exact hl
  | cons x p ih =>
    exact Bal.char x (hp x (by simp)).1 (hp x (by simp)).2 _ (ih (fun y hy => hp y (by simp [hy])))

/-- `// a⏎Ab {c:{d}}⏎/* * / */Cd::E(f())`: comments, a nested object and an enumeration. -/
example : scanItems (file ['/', '/', ' ', 'a', '\n']
    [⟨['A', 'b'], [' '], ['{', 'c', ':', '{', 'd', '}', '}'],
        ['\n', '/', '*', ' ', '*', ' ', '/', ' ', '*', '/']⟩,
     ⟨['C', 'd'], [], [':', ':', 'E', '(', 'f', '(', ')', ')'], []⟩])
    = .ok [(['A', 'b'], ['{', 'c', ':', '{', 'd', '}', '}']),
      (['C', 'd'], [':', ':', 'E', '(', 'f', '(', ')', ')'])] := by
  have hb : Blank ['/', '/', ' ', 'a', '\n'] := Blank.line [' ', 'a'] [] (by decide) Blank.nil
  refine C19_scan _ hb _ ?_
  intro i hi
  simp only [List.mem_cons, List.not_mem_nil, or_false] at hi
  rcases hi with rfl | rfl
  · refine ⟨by simp, by decide, Blank.space ' ' (by simp) _ Blank.nil, ?_, ?_⟩
    · refine Body.brace ['c', ':', '{', 'd', '}'] ?_
      refine Spec.Bal.prepend _ _ ['c', ':'] ['{', 'd', '}'] (by decide) ?_
      exact Bal.nest ['d'] [] (Bal.char _ (by decide) (by decide) _ Bal.nil) Bal.nil
    · refine Blank.space '\n' (by simp) _ (Blank.block [' ', '*', ' ', '/', ' '] [] ?_ Blank.nil)
      simp only [List.cons_append, List.nil_append, List.infix_cons_iff, List.infix_nil,
        List.cons_prefix_cons]
      decide
  · refine ⟨by simp, by decide, Blank.nil, ?_, Blank.nil⟩
    refine Body.enum ['E'] ['f', '(', ')'] (by decide) ?_
    exact Bal.char _ (by decide) (by decide) _ (Bal.nest [] [] Bal.nil Bal.nil)

/-- A text that meets the hypothesis of `C19_terminates_partial`, though it is not well-formed. -/
example : scanItems ['{'] ≠ .hang := by
  apply C19_terminates_partial
  rintro ⟨name, gap, hs, hne, hid, hg⟩
  have h1 : name ++ gap = [] ∨ name ++ gap = ['{'] := by
    rcases List.suffix_cons_iff.1 hs with h | h
    · exact Or.inr h
    · exact Or.inl (List.suffix_nil.1 h)
  rcases h1 with h1 | h1
  · exact hne (List.append_eq_nil_iff.1 h1).1
  · cases name with
    | nil => exact hne rfl
    | cons x n =>
      simp only [List.cons_append, List.cons.injEq] at h1
      have := hid x (by simp)
      rw [h1.1] at this
      revert this
      decide

end Simple.Scan
