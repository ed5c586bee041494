import Verif.Matrix.Props
import Verif.Render.MatrixFileModel

/-! # C79: matrix files -/

namespace Simple.Render.MatrixFile

open Image Matrix Matrix.Spec

namespace Spec

/-- Numbers are printed without spaces, and reading what is printed gives `back`. -/
structure Reads {F : Type} (t : Text F) (back : F → F) : Prop where
  printed : ∀ x, t.print x ≠ []
  solid : ∀ x, ∀ c ∈ t.print x, isSpace c = false
  parse : ∀ x, t.parse (t.print x) = some (back x)

end Spec

open Spec

/-! ### Texts -/

private theorem splitBy_at (p : ℕ → Bool) (a b : List ℕ) (x : ℕ) (ha : ∀ c ∈ a, p c = false) (hx : p x = true) :
    splitBy p (a ++ x :: b) = a :: splitBy p b := by
  induction a with
  | nil => simp [splitBy, hx]
  | cons y a ih =>
    rw [List.cons_append]
    conv_lhs => unfold splitBy
    rw [ha y List.mem_cons_self, ih fun c hc => ha c (List.mem_cons_of_mem _ hc)]
    rfl

private theorem splitBy_none (p : ℕ → Bool) (a : List ℕ) (ha : ∀ c ∈ a, p c = false) : splitBy p a = [a] := by
  induction a with
  | nil => rfl
  | cons y a ih =>
    unfold splitBy
    rw [ha y List.mem_cons_self, ih fun c hc => ha c (List.mem_cons_of_mem _ hc)]
    rfl

private theorem decimal_digit (n : ℕ) : ∀ c ∈ decimal n, 48 ≤ c ∧ c ≤ 57 := by
  intro c hc
  unfold decimal at hc
  split_ifs at hc
  · rw [List.mem_singleton] at hc; omega
  · obtain ⟨d, hd, rfl⟩ := List.mem_map.1 hc
    have := Nat.digits_lt_base (by norm_num) (List.mem_reverse.1 hd)
    omega

private theorem decimal_ne (n : ℕ) : decimal n ≠ [] := by
  unfold decimal
  split_ifs with h
  · simp
  · simp [Nat.digits_ne_nil_iff_ne_zero.2 h]

private theorem decimal_value (n : ℕ) : (decimal n).foldl (fun n c => n * 10 + (c - 48)) 0 = n := by
  unfold decimal
  split_ifs with h
  · subst h; rfl
  · rw [List.foldl_map, List.foldl_reverse]
    conv_rhs => rw [← Nat.ofDigits_digits 10 n, Nat.ofDigits_eq_foldr]
    congr 1
    funext x y
    simp only [Nat.add_sub_cancel, Nat.cast_id]
    ring

private theorem parse_decimal (n : ℕ) (h : n < 2 ^ 64) : parseUsize (decimal n) = some n := by
  have hd := decimal_digit n
  have : parseUsize (decimal n) = parseDigits (decimal n) := by
    unfold parseUsize
    split
    · next rest e => have := hd 43 (by rw [e]; exact List.mem_cons_self ..); omega
    · rfl
  rw [this]
  unfold parseDigits
  rw [if_pos ⟨decimal_ne n, List.all_eq_true.2 fun c hc => by simpa using hd c hc⟩, decimal_value]
  simp only [if_pos h]

private theorem words_cons (a b : List ℕ) (x : ℕ) (ha : ∀ c ∈ a, isSpace c = false) (hn : a ≠ []) (hx : isSpace x = true) :
    words (a ++ x :: b) = a :: words b := by
  unfold words
  rw [splitBy_at _ _ _ _ ha hx, List.filter_cons, if_pos (by simpa using hn)]

private theorem words_space (b : List ℕ) (x : ℕ) (hx : isSpace x = true) : words (x :: b) = words b := by
  unfold words
  have := splitBy_at isSpace [] b x (by simp) hx
  rw [List.nil_append] at this
  rw [this, List.filter_cons, if_neg (by simp)]

private theorem words_entry (ps : List (List ℕ)) (hs : ∀ p ∈ ps, p ≠ [] ∧ ∀ c ∈ p, isSpace c = false) (rest : List ℕ) :
    words ([32].intercalate ps ++ 9 :: rest) = ps ++ words rest := by
  induction ps with
  | nil => exact words_space rest 9 rfl
  | cons p ps ih =>
    have hp := hs p List.mem_cons_self
    cases ps with
    | nil =>
      simp only [List.intercalate, List.intersperse, List.flatten_cons, List.flatten_nil, List.append_nil]
      rw [words_cons _ _ _ hp.2 hp.1 rfl]
      rfl
    | cons q ps =>
      have e : [32].intercalate (p :: q :: ps) = p ++ 32 :: [32].intercalate (q :: ps) := by
        simp [List.intercalate, List.intersperse]
      rw [e, List.append_assoc, List.cons_append, words_cons _ _ _ hp.2 hp.1 rfl, ih fun x hx => hs x (List.mem_cons_of_mem _ hx)]
      rfl

private theorem lines_go (l : List ℕ) : ∀ current rest, (∀ c ∈ l, c ≠ 10) →
    lines current (l ++ rest) = lines (l.reverse ++ current) rest := by
  induction l with
  | nil => intro current rest _; simp
  | cons b l ih =>
    intro current rest h
    rw [List.cons_append]
    conv_lhs => unfold lines
    rw [if_neg (h b List.mem_cons_self), ih _ _ fun c hc => h c (List.mem_cons_of_mem _ hc)]
    simp

private theorem lines_cons (l rest : List ℕ) (h : ∀ c ∈ l, c ≠ 10 ∧ c ≠ 13) : lines [] (l ++ 10 :: rest) = l :: lines [] rest := by
  rw [lines_go _ _ _ fun c hc => (h c hc).1]
  conv_lhs => unfold lines
  rw [if_pos rfl, List.append_nil]
  congr 1
  split
  · next m e => exact absurd rfl (h 13 (List.mem_reverse.1 (by rw [e]; exact List.mem_cons_self))).2
  · exact List.reverse_reverse l

/-! ### The header -/

private theorem bRows : bytes "NROWS=" = bytes "NROWS" ++ 61 :: [] := rfl
private theorem bCols : bytes "NCOLS=" = bytes "NCOLS" ++ 61 :: [] := rfl
private theorem bComp : bytes "NCOMP=" = bytes "NCOMP" ++ 61 :: [] := rfl

private theorem field_of (name : List ℕ) (hn : ∀ c ∈ name, (c == 61) = false) (n : ℕ) (h : n < 2 ^ 64) :
    field (name ++ 61 :: [] ++ decimal n) = .ok n := by
  unfold field
  have e : name ++ 61 :: [] ++ decimal n = name ++ 61 :: decimal n := by simp
  have hd : ∀ c ∈ decimal n, (c == 61) = false := by
    intro c hc
    have := decimal_digit n c hc
    rw [beq_eq_false_iff_ne]
    omega
  rw [e, splitBy_at (· == 61) name (decimal n) 61 hn (by rfl), splitBy_none _ _ hd]
  simp only [parse_decimal n h]

private theorem clean_line (name : List ℕ) (hn : ∀ c ∈ name, c ≠ 10 ∧ c ≠ 13) (n : ℕ) : ∀ c ∈ name ++ decimal n, c ≠ 10 ∧ c ≠ 13 := by
  intro c hc
  rcases List.mem_append.1 hc with h | h
  · exact hn c h
  · have := decimal_digit n c h; omega

private theorem header_ok (nrows ncols c want : ℕ) (hr : nrows < 2 ^ 64) (hc : ncols < 2 ^ 64) (h3 : c < 2 ^ 64) (body : List ℕ) :
    ∃ ls, lines [] (saveHeader nrows ncols c ++ body) = ls ++ lines [] body ∧ ls.length = 6 ∧
      header want (lines [] (saveHeader nrows ncols c ++ body)) 0 none none =
        if c = want then .ok (6, some nrows, some ncols) else .err := by
  have hl : lines [] (saveHeader nrows ncols c ++ body) =
      [bytes "#?SIMPLE", bytes "NROWS=" ++ decimal nrows, bytes "NCOLS=" ++ decimal ncols, bytes "NCOMP=" ++ decimal c,
        bytes "FORMAT=ascii", []] ++ lines [] body := by
    unfold saveHeader
    simp only [List.append_assoc, List.cons_append, List.nil_append]
    rw [lines_cons _ _ (by decide), ← List.append_assoc, lines_cons _ _ (clean_line _ (by decide) _),
      ← List.append_assoc, lines_cons _ _ (clean_line _ (by decide) _), ← List.append_assoc, lines_cons _ _ (clean_line _ (by decide) _),
      lines_cons _ _ (by decide)]
    have := lines_cons [] body (by simp)
    rw [List.nil_append] at this
    rw [this]
  refine ⟨_, hl, rfl, ?_⟩
  rw [hl]
  simp only [List.cons_append, List.nil_append]
  have n1 : ∀ x, ¬ bytes "NROWS" <+: bytes "NCOLS=" ++ x := by
    intro x h; simp [bytes] at h
  have n2 : ∀ x, ¬ bytes "NROWS" <+: bytes "NCOMP=" ++ x := by
    intro x h; simp [bytes] at h
  have n3 : ∀ x, ¬ bytes "NCOLS" <+: bytes "NCOMP=" ++ x := by
    intro x h; simp [bytes] at h
  have y1 : ∀ x, bytes "NROWS" <+: bytes "NROWS=" ++ x := fun x => ⟨61 :: x, rfl⟩
  have y2 : ∀ x, bytes "NCOLS" <+: bytes "NCOLS=" ++ x := fun x => ⟨61 :: x, rfl⟩
  have y3 : ∀ x, bytes "NCOMP" <+: bytes "NCOMP=" ++ x := fun x => ⟨61 :: x, rfl⟩
  have s1 : ∀ x, ¬ (Option.all isSpace (bytes "NROWS=" ++ x).head? = true) := fun x => by simp [bytes, isSpace]
  have s2 : ∀ x, ¬ (Option.all isSpace (bytes "NCOLS=" ++ x).head? = true) := fun x => by simp [bytes, isSpace]
  have s3 : ∀ x, ¬ (Option.all isSpace (bytes "NCOMP=" ++ x).head? = true) := fun x => by simp [bytes, isSpace]
  unfold header
  rw [if_neg (by decide), if_neg (by decide), if_neg (by decide), if_neg (by decide)]
  unfold header
  rw [if_neg (s1 _), if_pos (y1 _), bRows, field_of _ (by decide) _ hr]
  simp only [Outcome.bind]
  unfold header
  rw [if_neg (s2 _), if_neg (n1 _), if_pos (y2 _), bCols, field_of _ (by decide) _ hc]
  simp only [Outcome.bind]
  unfold header
  rw [if_neg (s3 _), if_neg (n2 _), if_neg (n3 _), if_pos (y3 _), bComp, field_of _ (by decide) _ h3]
  simp only [Outcome.bind]
  by_cases hw : c = want
  · rw [if_neg (by simpa using hw), if_pos hw]
    unfold header
    rw [if_neg (by decide), if_neg (by decide), if_neg (by decide), if_neg (by decide)]
    unfold header
    rw [if_pos (by decide)]
  · rw [if_pos (by simpa using hw), if_neg hw]

/-! ### The body -/

section Body

variable {F : Type} {c : ℕ}

private theorem entry_clean (t : Text F) (back : F → F) (ht : Reads t back) (v : Fin c → F) : ∀ b ∈ printEntry t v, b ≠ 10 ∧ b ≠ 13 := by
  have key : ∀ ps : List (List ℕ), (∀ p ∈ ps, ∀ b ∈ p, isSpace b = false) → ∀ b ∈ [32].intercalate ps, isSpace b = false ∨ b = 32 := by
    intro ps
    induction ps with
    | nil => intro _ b hb; simp [List.intercalate] at hb
    | cons p ps ih =>
      intro h b hb
      cases ps with
      | nil =>
        simp only [List.intercalate, List.intersperse, List.flatten_cons, List.flatten_nil, List.append_nil] at hb
        exact Or.inl (h p List.mem_cons_self b hb)
      | cons q ps =>
        have e : [32].intercalate (p :: q :: ps) = p ++ 32 :: [32].intercalate (q :: ps) := by
          simp [List.intercalate, List.intersperse]
        rw [e, List.mem_append, List.mem_cons] at hb
        rcases hb with hb | hb | hb
        · exact Or.inl (h p List.mem_cons_self b hb)
        · exact Or.inr hb
        · exact ih (fun x hx => h x (List.mem_cons_of_mem _ hx)) b hb
  intro b hb
  unfold printEntry at hb
  rcases key _ (by
    intro p hp
    obtain ⟨i, rfl⟩ := List.mem_ofFn.1 hp
    exact ht.solid _) b hb with h | h
  · unfold isSpace at h
    simp only [Bool.or_eq_false_iff, beq_eq_false_iff_ne] at h
    omega
  · omega

/-- The text of a line, without its end. -/
private def rowText (t : Text F) (g : ℕ → Fin c → F) (cols : List ℕ) : List ℕ := cols.flatMap fun j => printEntry t (g j) ++ [9]

private theorem rowText_clean (t : Text F) (back : F → F) (ht : Reads t back) (g : ℕ → Fin c → F) (cols : List ℕ) :
    ∀ b ∈ rowText t g cols, b ≠ 10 ∧ b ≠ 13 := by
  intro b hb
  obtain ⟨j, -, hj⟩ := List.mem_flatMap.1 hb
  rcases List.mem_append.1 hj with h | h
  · exact entry_clean t back ht _ b h
  · rw [List.mem_singleton] at h; omega

private theorem rowText_words (t : Text F) (back : F → F) (ht : Reads t back) (g : ℕ → Fin c → F) (cols : List ℕ) :
    words (rowText t g cols) = cols.flatMap fun j => List.ofFn fun k => t.print (g j k) := by
  induction cols with
  | nil => rfl
  | cons j cols ih =>
    have e : rowText t g (j :: cols) = [32].intercalate (List.ofFn fun k => t.print (g j k)) ++ 9 :: rowText t g cols := by
      unfold rowText printEntry
      simp
    rw [e, words_entry _ (by
      intro p hp
      obtain ⟨k, rfl⟩ := List.mem_ofFn.1 hp
      exact ⟨ht.printed _, ht.solid _⟩), ih]
    rfl

private theorem flatMap_get {α : Type} (f : ℕ → List α) (hf : ∀ j, (f j).length = c) (l : List ℕ) :
    ∀ j k, k < c → (h : j < l.length) → (l.flatMap f)[c * j + k]? = (f l[j])[k]? := by
  induction l with
  | nil => intro j k _ h; simp at h
  | cons x l ih =>
    intro j k hk h
    rw [List.flatMap_cons]
    cases j with
    | zero => rw [Nat.mul_zero, Nat.zero_add, List.getElem?_append_left (by rw [hf]; exact hk)]; rfl
    | succ j =>
      rw [List.getElem?_append_right (by rw [hf, Nat.mul_succ]; omega), hf,
        show c * (j + 1) + k - c = c * j + k by rw [Nat.mul_succ]; omega,
        ih j k hk (by simpa using h)]
      rfl

private theorem entry_ok (t : Text F) (back : F → F) (ht : Reads t back) (g : ℕ → Fin c → F) (n j : ℕ) (hj : j < n) :
    entry t c (words (rowText t g (List.range n))) j = .ok fun k => back (g j k) := by
  have h : ∀ k : Fin c, ((words (rowText t g (List.range n)))[c * j + k]?).bind t.parse = some (back (g j k)) := by
    intro k
    rw [rowText_words t back ht, flatMap_get (c := c) _ (fun j => by simp) _ j k k.2 (by simpa using hj)]
    simp [ht.parse]
  unfold entry
  rw [dif_pos fun k => by rw [h]; rfl]
  congr 1
  funext k
  simp only [h, Option.get_some]

private theorem set_rep {A : GMatrix (Fin c → F)} {m n : ℕ} {M : _root_.Matrix (Fin m) (Fin n) (Fin c → F)} (h : Rep A M) (i : Fin m) (j : Fin n)
    (v : Fin c → F) : ∃ A', A.set i j v = (.ok v, A') ∧ Rep A' (fun i' j' => if i' = i ∧ j' = j then v else M i' j') := by
  have hr : i.val < A.nrows ∧ j.val < A.ncols := by
    rw [h.nrows, h.ncols]; exact ⟨i.2, j.2⟩
  letI : Add (Fin c → F) := ⟨fun a _ => a⟩
  letI : Mul (Fin c → F) := ⟨fun a _ => a⟩
  obtain ⟨A', h1, h2⟩ := C07_write h (.set v) i j
  refine ⟨A', ?_, h2⟩
  unfold Write.call GMatrix.set at h1
  simp only at h1
  unfold GMatrix.set
  rw [if_pos hr] at h1 ⊢
  cases hu : A.update (A.ncols * i.val + j.val) fun _ => v with
  | ok B => rw [hu] at h1; simp only [Prod.mk.injEq] at h1; rw [← h1.2]
  | err => rw [hu] at h1; simp [Outcome.map] at h1
  | panic => rw [hu] at h1; simp [Outcome.map] at h1

private theorem readRow_rep (t : Text F) (ws : List (List ℕ)) {m n : ℕ} (row : Fin m) (g : Fin n → Fin c → F)
    (hg : ∀ j : Fin n, entry t c ws j = .ok (g j)) (cols : List ℕ) :
    ∀ (A : GMatrix (Fin c → F)) (M : _root_.Matrix (Fin m) (Fin n) (Fin c → F)), (∀ x ∈ cols, x < n) → Rep A M →
      ∃ B, readRow t ws row cols A = .ok B ∧ Rep B (fun i j => if i = row ∧ j.val ∈ cols then g j else M i j) := by
  induction cols with
  | nil =>
    intro A M _ hA
    exact ⟨A, rfl, by simpa using hA⟩
  | cons x cols ih =>
    intro A M hc hA
    have hx := hc x List.mem_cons_self
    obtain ⟨A', h1, h2⟩ := set_rep hA row ⟨x, hx⟩ (g ⟨x, hx⟩)
    obtain ⟨B, hB, hr⟩ := ih A' _ (fun y hy => hc y (List.mem_cons_of_mem _ hy)) h2
    refine ⟨B, ?_, cast ?_ hr⟩
    · unfold readRow
      rw [hg ⟨x, hx⟩]
      simp only [Outcome.bind]
      rw [h1]
      exact hB
    · congr 1
      funext i j
      by_cases hi : i = row
      · by_cases hj : j.val ∈ cols
        · rw [if_pos ⟨hi, hj⟩, if_pos ⟨hi, List.mem_cons_of_mem _ hj⟩]
        · rw [if_neg (fun h => hj h.2)]
          by_cases hjx : j.val = x
          · have e : j = ⟨x, hx⟩ := Fin.ext hjx
            rw [if_pos ⟨hi, e⟩, if_pos ⟨hi, by rw [hjx]; exact List.mem_cons_self⟩, e]
          · rw [if_neg (fun h => hjx (by rw [h.2])), if_neg (fun h => by
              rcases List.mem_cons.1 h.2 with h | h
              · exact hjx h
              · exact hj h)]
      · rw [if_neg (fun h => hi h.1), if_neg (fun h => hi h.1), if_neg (fun h => hi h.1)]

private theorem readRows_rep (t : Text F) (back : F → F) (ht : Reads t back) {m n : ℕ} (g : ℕ → ℕ → Fin c → F) (k : ℕ) :
    ∀ (s : ℕ) (A : GMatrix (Fin c → F)) (M : _root_.Matrix (Fin m) (Fin n) (Fin c → F)), s + k ≤ m → Rep A M →
      ∃ B, readRows t n s ((List.range' s k).map fun i => rowText t (g i) (List.range n)) A = .ok B ∧
        Rep B (fun i j => if s ≤ i.val ∧ i.val < s + k then (fun x => back (g i j x)) else M i j) := by
  induction k with
  | zero =>
    intro s A M _ hA
    refine ⟨A, rfl, cast ?_ hA⟩
    congr 1
    funext i j
    rw [if_neg (by omega)]
  | succ k ih =>
    intro s A M hs hA
    rw [List.range'_succ, List.map_cons]
    obtain ⟨A', h1, h2⟩ := readRow_rep t (words (rowText t (g s) (List.range n))) (⟨s, by omega⟩ : Fin m) (fun (j : Fin n) x => back (g s j x))
      (fun j => entry_ok t back ht _ n j j.2) (List.range n) A M (by simp) hA
    obtain ⟨B, hB, hr⟩ := ih (s + 1) A' _ (by omega) h2
    refine ⟨B, ?_, cast ?_ hr⟩
    · unfold readRows
      simp only
      rw [if_neg (by rw [rowText_words t back ht]; simp [mul_comm])]
      rw [show readRow t (words (rowText t (g s) (List.range n))) s (List.range n) A = _ from h1]
      exact hB
    · congr 1
      funext i j
      by_cases hi : i.val = s
      · have e : i = ⟨s, by omega⟩ := Fin.ext hi
        rw [if_neg (by omega), if_pos ⟨e, by simp⟩, if_pos (by omega), hi]
      · have hne : ¬ (i = ⟨s, by omega⟩ ∧ j.val ∈ List.range n) := fun h => hi (by rw [h.1])
        rw [show (if i = ⟨s, by omega⟩ ∧ j.val ∈ List.range n then (fun x => back (g s j x)) else M i j) = M i j from if_neg hne]
        by_cases h : s + 1 ≤ i.val ∧ i.val < s + 1 + k
        · rw [if_pos h, if_pos (by omega)]
        · rw [if_neg h, if_neg (by omega)]

private theorem saveRow_ok (t : Text F) {m n : ℕ} {A : GMatrix (Fin c → F)} {M : _root_.Matrix (Fin m) (Fin n) (Fin c → F)} (h : Rep A M)
    (g : ℕ → ℕ → Fin c → F) (hg : ∀ (i : Fin m) (j : Fin n), g i j = M i j) (i : ℕ) (hi : i < m) (cols : List ℕ) (hc : ∀ j ∈ cols, j < n) :
    saveRow t A i cols = .ok (rowText t (g i) cols ++ [10]) := by
  induction cols with
  | nil => rfl
  | cons j cols ih =>
    have hj := hc j List.mem_cons_self
    unfold saveRow
    have hget : A.get i j = .ok (g i j) := by rw [hg ⟨i, hi⟩ ⟨j, hj⟩]; exact h.get ⟨i, hi⟩ ⟨j, hj⟩
    rw [hget, ih fun x hx => hc x (List.mem_cons_of_mem _ hx)]
    simp only [Outcome.bind]
    unfold rowText
    simp

private theorem saveRows_ok (t : Text F) {m n : ℕ} {A : GMatrix (Fin c → F)} {M : _root_.Matrix (Fin m) (Fin n) (Fin c → F)} (h : Rep A M)
    (g : ℕ → ℕ → Fin c → F) (hg : ∀ (i : Fin m) (j : Fin n), g i j = M i j) (rows : List ℕ) (hr : ∀ i ∈ rows, i < m) :
    saveRows t A rows = .ok (rows.flatMap fun i => rowText t (g i) (List.range n) ++ [10]) := by
  induction rows with
  | nil => rfl
  | cons i rows ih =>
    unfold saveRows
    rw [h.ncols, saveRow_ok t h g hg i (hr i List.mem_cons_self) _ (by simp), ih fun x hx => hr x (List.mem_cons_of_mem _ hx)]
    rfl

private theorem lines_rows (t : Text F) (back : F → F) (ht : Reads t back) (g : ℕ → ℕ → Fin c → F) (n : ℕ) (rows : List ℕ) :
    lines [] (rows.flatMap fun i => rowText t (g i) (List.range n) ++ [10]) = rows.map fun i => rowText t (g i) (List.range n) := by
  induction rows with
  | nil => rfl
  | cons i rows ih =>
    rw [List.flatMap_cons, List.append_assoc, List.singleton_append, lines_cons _ _ (rowText_clean t back ht _ _), ih]
    rfl

private theorem read_start [Zero F] (t : Text F) (back : F → F) (ht : Reads t back) (g : ℕ → ℕ → Fin c → F) (m n k : ℕ) (hk : k ≤ m)
    (hm : m < 2 ^ 64) (hn : n < 2 ^ 64) (hc : c < 2 ^ 64) :
    ∃ B, read t c (saveHeader m n c ++ (List.range k).flatMap fun i => rowText t (g i) (List.range n) ++ [10]) = .ok B ∧
      Rep B (fun (i : Fin m) (j : Fin n) => if i.val < k then (fun x => back (g i j x)) else 0) := by
  obtain ⟨ls, h1, h2, h3⟩ := header_ok m n c c hm hn hc ((List.range k).flatMap fun i => rowText t (g i) (List.range n) ++ [10])
  rw [if_pos rfl] at h3
  obtain ⟨B, hB, hr⟩ := readRows_rep t back ht g k 0 (GMatrix.new 0 m n) _ (by omega) (C07_new (0 : Fin c → F) m n)
  refine ⟨B, ?_, cast ?_ hr⟩
  · unfold read
    simp only
    rw [h3]
    simp only [Outcome.bind]
    rw [h1, List.drop_left' h2, lines_rows t back ht, List.range_eq_range' (n := k)]
    exact hB
  · congr 1
    funext i j
    by_cases h : i.val < k
    · rw [if_pos (by omega), if_pos h]
    · rw [if_neg (by omega), if_neg h]
      rfl

private def extend {m n : ℕ} [Zero F] (M : _root_.Matrix (Fin m) (Fin n) (Fin c → F)) (i j : ℕ) : Fin c → F :=
  if h : i < m ∧ j < n then M ⟨i, h.1⟩ ⟨j, h.2⟩ else 0

private theorem extend_eq {m n : ℕ} [Zero F] (M : _root_.Matrix (Fin m) (Fin n) (Fin c → F)) (i : Fin m) (j : Fin n) : extend M i j = M i j := by
  unfold extend
  rw [dif_pos ⟨i.2, j.2⟩]

/-- C79: a matrix is saved, and the file is read as a matrix of the same size, each entry being what its printed text says. -/
theorem C79_roundtrip [Zero F] (t : Text F) (back : F → F) (ht : Reads t back) {m n : ℕ} (A : GMatrix (Fin c → F))
    (M : _root_.Matrix (Fin m) (Fin n) (Fin c → F)) (h : Rep A M) (hm : m < 2 ^ 64) (hn : n < 2 ^ 64) (hc : c < 2 ^ 64) :
    ∃ file B, save t A = .ok file ∧ read t c file = .ok B ∧ Rep B (fun i j k => back (M i j k)) := by
  obtain ⟨B, h1, h2⟩ := read_start t back ht (extend M) m n m le_rfl hm hn hc
  refine ⟨_, B, ?_, h1, cast ?_ h2⟩
  · unfold save
    rw [h.nrows, saveRows_ok t h (extend M) (extend_eq M) _ (by simp), h.ncols]
    rfl
  · congr 1
    funext i j
    rw [if_pos i.2, extend_eq]

/-- C79: a file with entries of another number of components is refused. -/
theorem C79_other_kind [Zero F] (t : Text F) {m n : ℕ} (A : GMatrix (Fin c → F)) (M : _root_.Matrix (Fin m) (Fin n) (Fin c → F)) (h : Rep A M)
    (hm : m < 2 ^ 64) (hn : n < 2 ^ 64) (hc : c < 2 ^ 64) (want : ℕ) (hw : c ≠ want) :
    ∃ file, save t A = .ok file ∧ read t want file = .err := by
  refine ⟨_, by
    unfold save
    rw [h.nrows, saveRows_ok t h (extend M) (extend_eq M) _ (by simp), h.ncols]
    rfl, ?_⟩
  obtain ⟨ls, h1, h2, h3⟩ := header_ok m n c want hm hn hc ((List.range m).flatMap fun i => rowText t (extend M i) (List.range n) ++ [10])
  rw [if_neg hw] at h3
  unfold read
  simp only
  rw [h3]
  rfl

/-- C79 is false for files that were cut: a file that ends after any of its rows is read as if it was whole, with zeros in the
rows that are missing. -/
theorem C79_violated_cut [Zero F] (t : Text F) (back : F → F) (ht : Reads t back) {m n : ℕ} (A : GMatrix (Fin c → F))
    (M : _root_.Matrix (Fin m) (Fin n) (Fin c → F)) (h : Rep A M) (hm : m < 2 ^ 64) (hn : n < 2 ^ 64) (hc : c < 2 ^ 64) :
    ∃ file, save t A = .ok file ∧ ∀ k, k < m → ∃ start B, start <+: file ∧ start.length < file.length ∧ read t c start = .ok B ∧
      Rep B (fun i j => if i.val < k then (fun x => back (M i j x)) else 0) := by
  refine ⟨_, by
    unfold save
    rw [h.nrows, saveRows_ok t h (extend M) (extend_eq M) _ (by simp), h.ncols]
    rfl, ?_⟩
  intro k hk
  obtain ⟨B, h1, h2⟩ := read_start t back ht (extend M) m n k hk.le hm hn hc
  obtain ⟨d, rfl⟩ : ∃ d, m = k + (d + 1) := ⟨m - k - 1, by omega⟩
  have e : (List.range (k + (d + 1))).flatMap (fun i => rowText t (extend M i) (List.range n) ++ [10]) =
      (List.range k).flatMap (fun i => rowText t (extend M i) (List.range n) ++ [10]) ++
        ((List.range (d + 1)).map (k + ·)).flatMap (fun i => rowText t (extend M i) (List.range n) ++ [10]) := by
    rw [List.range_add, List.flatMap_append]
  refine ⟨_, B, ?_, ?_, h1, cast ?_ h2⟩
  · rw [e, ← List.append_assoc]
    exact List.prefix_append _ _
  · rw [e, ← List.append_assoc, List.length_append, List.range_succ_eq_map]
    simp only [List.map_cons, List.flatMap_cons, List.length_append, List.length_singleton]
    omega
  · congr 1
    funext i j
    rw [extend_eq]

/-! ### Any file -/

private theorem readRow_inv (t : Text F) (ws : List (List ℕ)) (row : ℕ) (cols : List ℕ) : ∀ (A B : GMatrix (Fin c → F)),
    readRow t ws row cols A = .ok B → ∀ x ∈ cols, row < A.nrows ∧ ∃ v, entry t c ws x = .ok v := by
  induction cols with
  | nil => intro A B _ x hx; cases hx
  | cons y cols ih =>
    intro A B h
    unfold readRow at h
    cases he : entry t c ws y with
    | err => rw [he] at h; cases h
    | panic => rw [he] at h; cases h
    | ok v =>
      rw [he] at h
      simp only [Outcome.bind] at h
      by_cases hb : row < A.nrows ∧ y < A.ncols
      · unfold GMatrix.set at h
        rw [if_pos hb] at h
        cases hu : A.update (A.ncols * row + y) fun _ => v with
        | err => rw [hu] at h; cases h
        | panic => rw [hu] at h; cases h
        | ok A' =>
          rw [hu] at h
          have hn : A'.nrows = A.nrows := by
            unfold GMatrix.update at hu
            split_ifs at hu with hlt
            rw [← Outcome.ok.inj hu]
          have := ih A' B h
          intro x hx
          rcases List.mem_cons.1 hx with rfl | hx
          · exact ⟨hb.1, v, he⟩
          · rw [← hn]; exact this x hx
      · unfold GMatrix.set at h
        rw [if_neg hb] at h
        cases h

private theorem entry_inv (t : Text F) (ws : List (List ℕ)) (j : ℕ) (v : Fin c → F) (h : entry t c ws j = .ok v) (k : Fin c) :
    (ws[c * j + k]?).bind t.parse = some (v k) := by
  unfold entry at h
  split_ifs at h with hh
  rw [← Outcome.ok.inj h, Option.some_get]

private theorem readRows_inv (t : Text F) {m n : ℕ} (body : List (List ℕ)) : ∀ (s : ℕ) (A B : GMatrix (Fin c → F))
    (M : _root_.Matrix (Fin m) (Fin n) (Fin c → F)), Rep A M → readRows t n s body A = .ok B →
    (0 < n → body.length = 0 ∨ s + body.length ≤ m) ∧ ∃ N : _root_.Matrix (Fin m) (Fin n) (Fin c → F), Rep B N ∧
      ∀ i : Fin m, (∀ x line, i.val = s + x → body[x]? = some line → (words line).length = c * n ∧
        ∀ (j : Fin n) (k : Fin c), ((words line)[c * j + k]?).bind t.parse = some (N i j k)) ∧
        ((i.val < s ∨ s + body.length ≤ i.val) → N i = M i) := by
  induction body with
  | nil =>
    intro s A B M hA h
    have e : A = B := Outcome.ok.inj h
    subst e
    exact ⟨fun _ => Or.inl rfl, M, hA, fun i => ⟨fun x line _ h => by simp at h, fun _ => rfl⟩⟩
  | cons line body ih =>
    intro s A B M hA h
    unfold readRows at h
    simp only at h
    by_cases hl : (words line).length ≠ c * n
    · rw [if_pos hl] at h; cases h
    · rw [if_neg hl] at h
      rw [not_not] at hl
      cases hr : readRow t (words line) s (List.range n) A with
      | err => rw [hr] at h; cases h
      | panic => rw [hr] at h; cases h
      | ok A' =>
        rw [hr] at h
        have hinv := readRow_inv t (words line) s (List.range n) A A' hr
        rw [hA.nrows] at hinv
        by_cases hs : s < m
        · have hex : ∀ j : Fin n, ∃ v, entry t c (words line) j = .ok v := fun j => (hinv j (List.mem_range.2 j.2)).2
          choose g hg using hex
          obtain ⟨A2, h1, h2⟩ := readRow_rep t (words line) (⟨s, hs⟩ : Fin m) g hg (List.range n) A M (by simp) hA
          have e : A2 = A' := Outcome.ok.inj (h1.symm.trans hr)
          subst e
          obtain ⟨hlen, N, hN, hrow⟩ := ih (s + 1) A2 B _ h2 h
          refine ⟨fun hn => Or.inr ?_, N, hN, fun i => ⟨?_, ?_⟩⟩
          · rcases hlen hn with h | h
            · rw [List.length_cons, h]; omega
            · rw [List.length_cons]; omega
          · intro x l hx hb
            cases x with
            | zero =>
              rw [List.getElem?_cons_zero] at hb
              have e : line = l := Option.some.inj hb
              subst e
              refine ⟨hl, fun j k => ?_⟩
              have hi : i = ⟨s, hs⟩ := Fin.ext (by simpa using hx)
              rw [(hrow i).2 (Or.inl (by omega))]
              rw [show (fun j : Fin n => if i = ⟨s, hs⟩ ∧ j.val ∈ List.range n then g j else M i j) j = g j from if_pos ⟨hi, by simp⟩]
              exact entry_inv t _ _ _ (hg j) k
            | succ x =>
              rw [List.getElem?_cons_succ] at hb
              exact (hrow i).1 x l (by omega) hb
          · intro hi
            rw [List.length_cons] at hi
            rw [(hrow i).2 (by omega)]
            funext j
            exact if_neg fun h => by
              have := congrArg Fin.val h.1
              simp only at this
              omega
        · have hn : n = 0 := by
            by_contra hn
            exact hs (hinv 0 (List.mem_range.2 (by omega))).1
          subst hn
          have e : A = A' := Outcome.ok.inj hr
          subst e
          obtain ⟨-, N, hN, -⟩ := ih (s + 1) A B M hA h
          refine ⟨fun h => absurd h (by simp), N, hN, fun i => ⟨?_, ?_⟩⟩
          · intro x l hx _
            have := i.2
            omega
          · intro _
            funext j
            exact j.elim0

/-- C79: whatever the file, a matrix that is read has, in each of its first rows, what the words of one of the last lines of
the file say, all of them; and zeros in the others.  No line is left out. -/
theorem C79_read [Zero F] (t : Text F) (content : List ℕ) (B : GMatrix (Fin c → F)) (h : read t c content = .ok B) :
    ∃ body, body <:+ lines [] content ∧ (0 < B.ncols → body.length ≤ B.nrows) ∧
      ∃ N : _root_.Matrix (Fin B.nrows) (Fin B.ncols) (Fin c → F), Rep B N ∧ ∀ i : Fin B.nrows,
        (∀ line, body[i.val]? = some line → (words line).length = c * B.ncols ∧
          ∀ (j : Fin B.ncols) (k : Fin c), ((words line)[c * j + k]?).bind t.parse = some (N i j k)) ∧
        (body[i.val]? = none → ∀ j, N i j = 0) := by
  unfold read at h
  simp only at h
  cases hh : header c (lines [] content) 0 none none with
  | err => rw [hh] at h; cases h
  | panic => rw [hh] at h; cases h
  | ok x =>
    rw [hh] at h
    obtain ⟨count, r, n⟩ := x
    simp only [Outcome.bind] at h
    cases r with
    | none => cases h
    | some r =>
      cases n with
      | none => cases h
      | some n =>
        simp only at h
        obtain ⟨h1, N, h2, h3⟩ := readRows_inv t _ 0 _ B _ (C07_new (0 : Fin c → F) r n) h
        have er := h2.nrows
        have en := h2.ncols
        subst er
        subst en
        refine ⟨_, List.drop_suffix count _, fun hn => ?_, N, h2, fun i => ⟨?_, ?_⟩⟩
        · rcases h1 hn with h | h <;> omega
        · intro line hl
          exact (h3 i).1 i.val line (by omega) hl
        · intro hl j
          rw [(h3 i).2 (Or.inr (by rw [List.getElem?_eq_none_iff] at hl; omega))]
          rfl

end Body

/-! ### Five decimals -/

/-- The number written for another one. -/
private noncomputable def written (near : ℚ → ℕ) (q : ℚ) : ℚ :=
  if q < 0 then -((near (|q| * 10 ^ 5) : ℚ) / 10 ^ 5) else (near (|q| * 10 ^ 5) : ℚ) / 10 ^ 5

private theorem digits_decimal (n : ℕ) : digits (decimal n) = some n := by
  unfold digits
  rw [if_pos (List.all_eq_true.2 fun c hc => by simpa using decimal_digit n c hc), decimal_value]

private theorem decimals_digit (n : ℕ) (h : n < 10 ^ 5) : ∀ c ∈ decimals n, 48 ≤ c ∧ c ≤ 57 := by
  intro c hc
  unfold decimals at hc
  simp only [List.mem_cons, List.not_mem_nil, or_false] at hc
  rcases hc with rfl | rfl | rfl | rfl | rfl <;> omega

private theorem digits_decimals (n : ℕ) (h : n < 10 ^ 5) : digits (decimals n) = some n := by
  unfold digits
  rw [if_pos (List.all_eq_true.2 fun c hc => by simpa using decimals_digit n h c hc)]
  congr 1
  unfold decimals
  simp only [List.foldl_cons, List.foldl_nil]
  omega

private theorem parse_printed (n : ℕ) : parseUnsigned (decimal (n / 10 ^ 5) ++ 46 :: decimals (n % 10 ^ 5)) = some ((n : ℚ) / 10 ^ 5) := by
  have hlt : n % 10 ^ 5 < 10 ^ 5 := Nat.mod_lt _ (by norm_num)
  unfold parseUnsigned
  rw [splitBy_at (· == 46) _ _ _ (by
      intro c hc
      have := decimal_digit _ c hc
      rw [beq_eq_false_iff_ne]; omega) rfl,
    splitBy_none (· == 46) _ (by
      intro c hc
      have := decimals_digit _ hlt c hc
      rw [beq_eq_false_iff_ne]; omega)]
  simp only
  rw [if_neg (fun h => decimal_ne _ h.1), digits_decimal, digits_decimals _ hlt]
  show some (((n / 10 ^ 5 : ℕ) : ℚ) + ((n % 10 ^ 5 : ℕ) : ℚ) / 10 ^ (decimals (n % 10 ^ 5)).length) = _
  congr 1
  have e : ((n / 10 ^ 5 * 10 ^ 5 + n % 10 ^ 5 : ℕ) : ℚ) = n := by rw [Nat.div_add_mod']
  have e2 : (decimals (n % 10 ^ 5)).length = 5 := rfl
  rw [e2]
  generalize n / 10 ^ 5 = a at *
  generalize n % 10 ^ 5 = b at *
  rw [← e]
  push_cast
  field_simp
  norm_num

private theorem reads_fixed (near : ℚ → ℕ) (rnd : ℚ → ℚ) : Reads (fixed near rnd) (fun x => rnd (written near x)) := by
  refine ⟨?_, ?_, ?_⟩
  · intro x
    simp only [fixed, printFixed]
    simp
  · intro x c hc
    simp only [fixed, printFixed] at hc
    have hlt : near (|x| * 10 ^ 5) % 10 ^ 5 < 10 ^ 5 := Nat.mod_lt _ (by norm_num)
    have : c = 45 ∨ c = 46 ∨ 48 ≤ c ∧ c ≤ 57 := by
      rcases List.mem_append.1 hc with h | h
      · split_ifs at h
        · exact Or.inl (List.mem_singleton.1 h)
        · cases h
      · rcases List.mem_append.1 h with h | h
        · exact Or.inr (Or.inr (decimal_digit _ c h))
        · rcases List.mem_cons.1 h with h | h
          · exact Or.inr (Or.inl h)
          · exact Or.inr (Or.inr (decimals_digit _ hlt c h))
    unfold isSpace
    simp only [Bool.or_eq_false_iff, beq_eq_false_iff_ne]
    omega
  · intro x
    simp only [fixed, printFixed]
    unfold written
    split_ifs with hx
    · simp only [List.singleton_append, parseFloat, parse_printed, Option.map_some]
    · rw [List.nil_append]
      have hp := parse_printed (near (|x| * 10 ^ 5))
      generalize hl : decimal (near (|x| * 10 ^ 5) / 10 ^ 5) ++ 46 :: decimals (near (|x| * 10 ^ 5) % 10 ^ 5) = l at *
      have hhead : ∀ b rest, l = b :: rest → 48 ≤ b ∧ b ≤ 57 := by
        intro b rest hb
        cases hd : decimal (near (|x| * 10 ^ 5) / 10 ^ 5) with
        | nil => exact absurd hd (decimal_ne _)
        | cons y ys =>
          rw [hd, hb, List.cons_append] at hl
          have := decimal_digit (near (|x| * 10 ^ 5) / 10 ^ 5) y (by rw [hd]; exact List.mem_cons_self)
          rw [← (List.cons.inj hl).1]
          exact this
      unfold parseFloat
      split
      · next rest => have := hhead _ _ rfl; omega
      · next rest => have := hhead _ _ rfl; omega
      · rw [hp]; rfl

/-- C79: the numbers of a colour are written with five decimals, so that the number read differs by at most half a unit of
the last of them, before it is rounded to a `f64`.

Missing: coefficients that are too small for the digits written (`C79_violated_small`). -/
theorem C79_decimals_partial (near : ℚ → ℕ) (hnear : ∀ q, 0 ≤ q → |(near q : ℚ) - q| ≤ 1 / 2) (rnd : ℚ → ℚ) :
    ∃ value : ℚ → ℚ, (∀ x, |value x - x| ≤ 1 / (2 * 10 ^ 5)) ∧ Reads (fixed near rnd) (fun x => rnd (value x)) := by
  refine ⟨written near, ?_, reads_fixed near rnd⟩
  · intro x
    have h := hnear (|x| * 10 ^ 5) (by positivity)
    unfold written
    generalize (near (|x| * 10 ^ 5) : ℚ) = n at *
    rw [abs_le] at h ⊢
    split_ifs with hx
    · rw [abs_of_neg hx] at h
      constructor
      · have : n ≤ -x * 10 ^ 5 + 1 / 2 := by linarith [h.2]
        have : n / 10 ^ 5 ≤ -x + 1 / (2 * 10 ^ 5) := by rw [div_le_iff₀ (by norm_num)]; linarith
        linarith
      · have : -x * 10 ^ 5 - 1 / 2 ≤ n := by linarith [h.1]
        have : -x - 1 / (2 * 10 ^ 5) ≤ n / 10 ^ 5 := by rw [le_div_iff₀ (by norm_num)]; linarith
        linarith
    · rw [abs_of_nonneg (not_lt.1 hx)] at h
      constructor
      · have : x - 1 / (2 * 10 ^ 5) ≤ n / 10 ^ 5 := by rw [le_div_iff₀ (by norm_num)]; linarith [h.1]
        linarith
      · have : n / 10 ^ 5 ≤ x + 1 / (2 * 10 ^ 5) := by rw [div_le_iff₀ (by norm_num)]; linarith [h.2]
        linarith

/-- C79 is false for small coefficients: colours below half a unit of the last decimal are all lost, whatever their size
compared to each other. -/
theorem C79_violated_small (near : ℚ → ℕ) (hnear : ∀ q, 0 ≤ q → |(near q : ℚ) - q| ≤ 1 / 2) (rnd : ℚ → ℚ) (h0 : rnd 0 = 0) {m n : ℕ}
    (A : GMatrix (Fin 3 → ℚ)) (M : _root_.Matrix (Fin m) (Fin n) (Fin 3 → ℚ)) (h : Rep A M) (hm : m < 2 ^ 64) (hn : n < 2 ^ 64)
    (hs : ∀ i j k, 0 ≤ M i j k ∧ M i j k < 1 / (2 * 10 ^ 5)) :
    ∃ file B, save (fixed near rnd) A = .ok file ∧ read (fixed near rnd) 3 file = .ok B ∧
      Rep B (fun (_ : Fin m) (_ : Fin n) (_ : Fin 3) => (0 : ℚ)) := by
  have hz : ∀ x : ℚ, 0 ≤ x → x < 1 / (2 * 10 ^ 5) → written near x = 0 := by
    intro x hx0 hx
    have hlt : x * 10 ^ 5 < 1 / 2 := by
      rw [lt_div_iff₀ (by norm_num)] at hx
      linarith
    have hpos : 0 ≤ x * 10 ^ 5 := by positivity
    unfold written
    rw [if_neg (not_lt.2 hx0), abs_of_nonneg hx0]
    generalize x * 10 ^ 5 = y at *
    have h := (abs_le.1 (hnear y hpos)).2
    have : ((near y : ℕ) : ℚ) < 1 := by linarith
    have : near y < 1 := by exact_mod_cast this
    rw [show near y = 0 by omega]
    simp
  obtain ⟨file, B, h1, h2, h3⟩ := C79_roundtrip (fixed near rnd) _ (reads_fixed near rnd) A M h hm hn (by norm_num)
  refine ⟨file, B, h1, h2, cast ?_ h3⟩
  congr 1
  funext i j k
  rw [hz _ (hs i j k).1 (hs i j k).2, h0]


/-- Rounding halves up is one of the ways to choose the nearest integer. -/
example : ∀ q : ℚ, 0 ≤ q → |((⌊q + 1 / 2⌋.toNat : ℕ) : ℚ) - q| ≤ 1 / 2 := by
  intro q hq
  have h0 : 0 ≤ ⌊q + 1 / 2⌋ := Int.floor_nonneg.2 (by linarith)
  have e : ((⌊q + 1 / 2⌋.toNat : ℕ) : ℚ) = (⌊q + 1 / 2⌋ : ℚ) := by
    rw [← Int.cast_natCast, Int.toNat_of_nonneg h0]
  rw [e, abs_le]
  constructor
  · linarith [Int.lt_floor_add_one (q + 1 / 2)]
  · linarith [Int.floor_le (q + 1 / 2)]

/-- A matrix of one row for the theorems above, and what is written of a colour in it. -/
example : Rep (GMatrix.new (fun k : Fin 3 => if k = 0 then (3 / 2 : ℚ) else -1 / 10 ^ 6) 1 2)
    (Matrix.of fun (_ : Fin 1) (_ : Fin 2) => fun k : Fin 3 => if k = 0 then (3 / 2 : ℚ) else -1 / 10 ^ 6) := C07_new _ 1 2

example : printFixed (fun q => ⌊q + 1 / 2⌋.toNat) (3 / 2) = bytes "1.50000" ∧
    printFixed (fun q => ⌊q + 1 / 2⌋.toNat) (-1 / 10 ^ 6) = bytes "-0.00000" := by decide +kernel

end Simple.Render.MatrixFile
