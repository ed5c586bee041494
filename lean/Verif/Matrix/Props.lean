import Verif.Matrix.Lemmas

/-!
# Properties C07, C08, C09: dense matrices
-/

namespace Simple.Matrix
open Spec GMatrix

variable {T : Type*}

/-! ## C07 -/

/-- Every matrix object whose data has the advertised length stands for exactly one mathematical
matrix. -/
theorem C07_total_map (A : GMatrix T) (h : A.data.length = A.nrows * A.ncols) :
    ∃! M : Matrix (Fin A.nrows) (Fin A.ncols) T, Rep A M := by
  obtain ⟨M, hM⟩ := exists_rep h
  exact ⟨M, hM, fun N hN => hN.unique hM⟩

/-- `from_data` accepts exactly the data of the advertised length, reading it row by row. -/
theorem C07_from_data (m n : ℕ) (d : List T) :
    (d.length = m * n → ∃ A, fromData m n d = .ok A ∧
      ∀ M : Matrix (Fin m) (Fin n) T, (∀ i j, d[n * i.val + j.val]? = some (M i j)) → Rep A M) ∧
    (d.length ≠ m * n → fromData m n d = .panic) := by
  unfold fromData
  constructor
  · intro h
    rw [if_neg (by omega)]
    exact ⟨_, rfl, fun M hM => Rep.of_getElem rfl rfl h hM⟩
  · intro h; rw [if_pos (by omega)]

theorem C07_new (v : T) (m n : ℕ) :
    Rep (new v m n) (Matrix.of fun (_ : Fin m) (_ : Fin n) => v) := new_rep v m n

theorem C07_eye [Zero T] [One T] (n : ℕ) : Rep (eye n) (1 : Matrix (Fin n) (Fin n) T) := by
  refine Rep.of_getElem rfl rfl (by simp [eye]) fun i j => ?_
  have hlt := idx_lt i.2 j.2
  have hn : 0 < n := lt_of_le_of_lt (Nat.zero_le _) j.2
  simp only [eye, List.getElem?_map]
  rw [List.getElem?_range hlt]
  have h1 : (n * i.val + j.val) % n = j.val := by
    rw [Nat.mul_add_mod, Nat.mod_eq_of_lt j.2]
  have h2 : (n * i.val + j.val - j.val) / n = i.val := by
    rw [Nat.add_sub_cancel, Nat.mul_div_cancel_left _ hn]
  simp only [Option.map_some, h1, h2, Matrix.one_apply, Fin.ext_iff]

private theorem diagLoop_length (n k : ℕ) (d v : List T) :
    (diagLoop n k d v).length = v.length := by
  induction d generalizing k v with
  | nil => rfl
  | cons x xs ih => simp [diagLoop, ih]

private theorem diagLoop_getElem? (n k : ℕ) (d v : List T) (p : ℕ) (hp : p < v.length) :
    (diagLoop n k d v)[p]? =
      if k * (n + 1) ≤ p ∧ (p - k * (n + 1)) % (n + 1) = 0 ∧ (p - k * (n + 1)) / (n + 1) < d.length
      then d[(p - k * (n + 1)) / (n + 1)]? else v[p]? := by
  induction d generalizing k v with
  | nil => simp [diagLoop]
  | cons x xs ih =>
    rw [diagLoop, ih _ _ (by simpa using hp), List.getElem?_set]
    have hk : (k + 1) * (n + 1) = k * (n + 1) + (n + 1) := by ring
    by_cases h1 : k * (n + 1) ≤ p
    · obtain ⟨q, rfl⟩ := Nat.exists_eq_add_of_le h1
      rw [Nat.add_sub_cancel_left]
      rcases lt_or_ge q (n + 1) with hq | hq
      · rw [if_neg (by rw [hk]; omega), Nat.mod_eq_of_lt hq, Nat.div_eq_of_lt hq]
        rcases Nat.eq_zero_or_pos q with h0 | h0
        · subst h0; simp; simpa using hp
        · rw [if_neg (by omega), if_neg (by omega)]
      · obtain ⟨q', rfl⟩ := Nat.exists_eq_add_of_le hq
        have e : k * (n + 1) + (n + 1 + q') - (k + 1) * (n + 1) = q' := by rw [hk]; omega
        rw [e, Nat.add_mod_left, Nat.add_div_left _ (by omega), if_neg (show ¬ k * (n + 1) = k * (n + 1) + (n + 1 + q') by omega)]
        have e2 : (k + 1) * (n + 1) ≤ k * (n + 1) + (n + 1 + q') := by rw [hk]; omega
        simp [e2]
    · rw [if_neg (by rw [hk]; omega), if_neg (by omega), if_neg (by omega)]

theorem C07_diag [Zero T] (d : List T) :
    ∃ A, diag d = .ok A ∧ Rep A (Matrix.diagonal d.get) := by
  unfold diag fromData
  simp only [diagLoop_length, List.length_replicate, ne_eq, not_true_eq_false, if_false]
  refine ⟨_, rfl, Rep.of_getElem rfl rfl (by simp [diagLoop_length]) fun i j => ?_⟩
  have hi := i.2
  have hj := j.2
  simp only []
  rw [diagLoop_getElem? _ _ _ _ _ (by simpa using idx_lt hi hj)]
  simp only [Nat.zero_mul, Nat.sub_zero, Nat.zero_le, true_and]
  by_cases hij : i = j
  · subst hij
    have : d.length * i.val + i.val = i.val * (d.length + 1) := by ring
    rw [this, Nat.mul_mod_left, Nat.mul_div_cancel _ (by omega), if_pos ⟨rfl, hi⟩,
      List.getElem?_eq_getElem hi, Matrix.diagonal_apply_eq]
    rfl
  · rw [if_neg, Matrix.diagonal_apply_ne _ hij]
    · simpa [List.getElem?_replicate] using idx_lt hi hj
    · rintro ⟨h1, h2⟩
      apply hij
      obtain ⟨q, hq⟩ := Nat.dvd_of_mod_eq_zero h1
      rw [hq, Nat.mul_div_cancel_left _ (by omega)] at h2
      have h3 : d.length * i.val + j.val = d.length * q + q := by rw [hq]; ring
      obtain ⟨ha, hb⟩ := idx_inj hj h2 h3
      exact Fin.ext (by omega)

/-- The three single-entry mutators. -/
inductive Write (T : Type*) where
  | set (v : T)
  | add (v : T)
  | scale (v : T)

/-- The call made for a write at `(r, c)`, and whether it succeeded. -/
def Write.call [Add T] [Mul T] (w : Write T) (A : GMatrix T) (r c : ℕ) : Outcome Unit × GMatrix T :=
  match w with
  | .set v => ((A.set r c v).1.map fun _ => (), (A.set r c v).2)
  | .add v => A.addToElement r c v
  | .scale v => A.scaleElement r c v

/-- What the write does to a value. -/
def Write.apply [Add T] [Mul T] : Write T → T → T
  | .set v, _ => v
  | .add v, x => x + v
  | .scale v, x => x * v

private theorem update_rep {A : GMatrix T} {m n : ℕ} {M : Matrix (Fin m) (Fin n) T} (h : Rep A M)
    (i : Fin m) (j : Fin n) (f : T → T) :
    ∃ A', A.update (n * i.val + j.val) f = .ok A' ∧
      Rep A' (fun i' j' => if i' = i ∧ j' = j then f (M i j) else M i' j') := by
  have hlt : n * i.val + j.val < A.data.length := by rw [h.length]; exact idx_lt i.2 j.2
  unfold update
  rw [dif_pos hlt]
  refine ⟨_, rfl, Rep.of_getElem h.nrows h.ncols (by simpa using h.length) fun i' j' => ?_⟩
  have hv : A.data[n * i.val + j.val] = M i j := by
    have := h.getElem i j
    rw [List.getElem?_eq_getElem hlt] at this
    exact Option.some.inj this
  simp only []
  rw [List.getElem?_set, hv]
  by_cases hij : i' = i ∧ j' = j
  · obtain ⟨rfl, rfl⟩ := hij
    simp [hlt]
  · rw [if_neg hij, if_neg]
    · exact h.getElem i' j'
    · intro he
      obtain ⟨a, b⟩ := idx_inj j.2 j'.2 he
      exact hij ⟨Fin.ext a.symm, Fin.ext b.symm⟩

/-- An in-range write succeeds and changes exactly that entry. -/
theorem C07_write [Add T] [Mul T] {A : GMatrix T} {m n : ℕ} {M : Matrix (Fin m) (Fin n) T}
    (h : Rep A M) (w : Write T) (i : Fin m) (j : Fin n) :
    ∃ A', w.call A i j = (.ok (), A') ∧
      Rep A' (fun i' j' => if i' = i ∧ j' = j then w.apply (M i j) else M i' j') := by
  have hr : i.val < A.nrows ∧ j.val < A.ncols := by
    rw [h.nrows, h.ncols]; exact ⟨i.2, j.2⟩
  cases w with
  | set v =>
    obtain ⟨A', h1, h2⟩ := update_rep h i j (fun _ => v)
    refine ⟨A', ?_, h2⟩
    simp only [Write.call, GMatrix.set]
    rw [if_pos hr, h.ncols, h1]; rfl
  | add v =>
    obtain ⟨A', h1, h2⟩ := update_rep h i j (fun x => x + v)
    refine ⟨A', ?_, h2⟩
    simp only [Write.call, addToElement, GMatrix.index]
    rw [if_pos hr, h.ncols, h1]
  | scale v =>
    obtain ⟨A', h1, h2⟩ := update_rep h i j (fun x => x * v)
    refine ⟨A', ?_, h2⟩
    simp only [Write.call, scaleElement, GMatrix.index]
    rw [if_pos hr, h.ncols, h1]

/-- Out-of-range accesses are errors that change nothing. -/
theorem C07_out_of_range [Add T] [Mul T] (A : GMatrix T) (r c : ℕ)
    (h : A.nrows ≤ r ∨ A.ncols ≤ c) :
    A.get r c = .err ∧ ∀ w : Write T, w.call A r c = (.err, A) := by
  have h' : ¬ (r < A.nrows ∧ c < A.ncols) := by omega
  refine ⟨by unfold GMatrix.get; rw [if_neg h'], fun w => ?_⟩
  cases w <;> simp [Write.call, GMatrix.set, addToElement, scaleElement, h', Outcome.map]

/-- The abstract effect of a list of writes (coordinates out of range have no effect). -/
def Write.history [Add T] [Mul T] {m n : ℕ} :
    List (Write T × ℕ × ℕ) → Matrix (Fin m) (Fin n) T → Matrix (Fin m) (Fin n) T
  | [], M => M
  | (w, r, c) :: ops, M =>
    Write.history ops fun i j => if i.val = r ∧ j.val = c then w.apply (M i j) else M i j

/-- After any sequence of writes, in or out of range, the matrix holds exactly the values
those writes leave in a plain table. -/
theorem C07_history [Add T] [Mul T] {A : GMatrix T} {m n : ℕ} {M : Matrix (Fin m) (Fin n) T}
    (h : Rep A M) (ops : List (Write T × ℕ × ℕ)) :
    Rep (ops.foldl (fun B op => (op.1.call B op.2.1 op.2.2).2) A) (Write.history ops M) := by
  induction ops generalizing A M with
  | nil => exact h
  | cons op ops ih =>
    obtain ⟨w, r, c⟩ := op
    rw [List.foldl_cons, Write.history]
    apply ih
    by_cases hrc : r < m ∧ c < n
    · obtain ⟨A', h1, h2⟩ := C07_write h w ⟨r, hrc.1⟩ ⟨c, hrc.2⟩
      simp only [] at h1
      rw [h1]
      have heq : (fun (i : Fin m) (j : Fin n) =>
          if i.val = r ∧ j.val = c then w.apply (M i j) else M i j) =
          (fun i' j' => if i' = ⟨r, hrc.1⟩ ∧ j' = ⟨c, hrc.2⟩ then w.apply (M ⟨r, hrc.1⟩ ⟨c, hrc.2⟩)
            else M i' j') := by
        funext i j
        by_cases hij : i.val = r ∧ j.val = c
        · obtain ⟨a, b⟩ := hij
          subst a; subst b; simp
        · rw [if_neg hij, if_neg]
          rintro ⟨rfl, rfl⟩
          exact hij ⟨rfl, rfl⟩
      rw [heq]; exact h2
    · have := (C07_out_of_range A r c (by rw [h.nrows, h.ncols]; omega)).2 w
      rw [this]
      have heq : (fun (i : Fin m) (j : Fin n) =>
          if i.val = r ∧ j.val = c then w.apply (M i j) else M i j) = M := by
        funext i j
        rw [if_neg]
        rintro ⟨a, b⟩
        have := i.2; have := j.2
        omega
      rw [heq]; exact h

/-- `concat_rows` stacks rows; on different widths it is an error that changes nothing. -/
theorem C07_concat_rows {A B : GMatrix T} {m m' n : ℕ} {M : Matrix (Fin m) (Fin n) T}
    {N : Matrix (Fin m') (Fin n) T} (hA : Rep A M) (hB : Rep B N) :
    ∃ C, concatRows A B = (.ok (), C) ∧
      Rep C (Matrix.of fun i : Fin (m + m') => Fin.addCases (fun i => M i) (fun i => N i) i) := by
  unfold concatRows
  rw [if_neg (by rw [hA.ncols, hB.ncols]; simp)]
  refine ⟨_, rfl, Rep.of_getElem (by simp [hA.nrows, hB.nrows]) hA.ncols
    (by simp [hA.length, hB.length]; ring) fun i j => ?_⟩
  simp only []
  refine Fin.addCases (fun i => ?_) (fun i => ?_) i
  · rw [List.getElem?_append_left (by rw [hA.length]; exact idx_lt i.2 j.2)]
    simpa using hA.getElem i j
  · have : n * (Fin.natAdd m i).val + j.val = m * n + (n * i.val + j.val) := by
      simp; ring
    rw [this, List.getElem?_append_right (by rw [hA.length]; omega), hA.length,
      Nat.add_sub_cancel_left]
    simpa using hB.getElem i j

theorem C07_concat_rows_mismatch (A B : GMatrix T) (h : A.ncols ≠ B.ncols) :
    concatRows A B = (.err, A) := by
  unfold concatRows; rw [if_pos h]

/-- `copy_from` makes the destination equal to the source, or panics when sizes differ. -/
theorem C07_copy_from {A B : GMatrix T} {m n m' n' : ℕ} {M : Matrix (Fin m) (Fin n) T}
    {N : Matrix (Fin m') (Fin n') T} (hA : Rep A M) (hB : Rep B N) :
    copyFrom A B = if m = m' ∧ n = n' then .ok B else .panic := by
  unfold copyFrom
  rw [hA.nrows, hA.ncols, hB.nrows, hB.ncols, hA.length, hB.length]
  by_cases h : m = m' ∧ n = n'
  · obtain ⟨rfl, rfl⟩ := h
    simp only [ne_eq, not_true_eq_false, if_false, and_self, if_true]
    congr 1
    have h1 := hB.nrows; have h2 := hB.ncols
    cases B; simp_all
  · rw [if_neg h]
    by_cases h1 : m = m'
    · rw [if_neg (by simpa using h1), if_pos (by tauto)]
    · rw [if_pos h1]

/-- `compare` decides equality of the matrices. -/
theorem C07_compare [DecidableEq T] {A B : GMatrix T} {m n : ℕ} {M N : Matrix (Fin m) (Fin n) T}
    (hA : Rep A M) (hB : Rep B N) : GMatrix.compare A B = true ↔ M = N := by
  unfold GMatrix.compare
  rw [if_neg (by rw [hA.ncols, hB.ncols]; simp), if_neg (by rw [hA.nrows, hB.nrows]; simp)]
  rw [List.all_eq_true]
  constructor
  · intro h
    ext i j
    have := h (n * i.val + j.val) (by rw [List.mem_range, hA.length]; exact idx_lt i.2 j.2)
    rw [decide_eq_true_eq, hA.getElem, hB.getElem] at this
    exact Option.some.inj this
  · rintro rfl k _
    rw [hA.ext_data hB]; simp

example : Rep (⟨2, 2, [1, 2, 3, 4]⟩ : GMatrix ℤ) !![1, 2; 3, 4] := by
  refine ⟨rfl, rfl, rfl, ?_⟩
  decide

/-! ## C08 -/

/-- The product into a destination of the right size is the matrix product.

Missing: matrices without rows or columns, for which the product panics (`C08_violated_zero_dimension`). -/
theorem C08_prod_into_partial [Semiring T] {A B I : GMatrix T} {m k n : ℕ} (hk : 0 < k) (hn : 0 < n)
    {M : Matrix (Fin m) (Fin k) T} {N : Matrix (Fin k) (Fin n) T} {P : Matrix (Fin m) (Fin n) T}
    (hA : Rep A M) (hB : Rep B N) (hI : Rep I P) :
    ∃ C, prodInto A B I = (.ok (), C) ∧ Rep C (M * N) := prodInto_rep hk hn hA hB hI

/-- Otherwise it is an error and the destination is untouched. -/
theorem C08_prod_into_mismatch [Semiring T] (A B I : GMatrix T)
    (h : A.ncols ≠ B.nrows ∨ I.nrows ≠ A.nrows ∨ I.ncols ≠ B.ncols) :
    prodInto A B I = (.err, I) := by
  unfold prodInto
  by_cases h1 : A.ncols ≠ B.nrows
  · rw [if_pos h1]
  · rw [if_neg h1, if_pos (by tauto)]

/-- The operator `*`. -/
theorem C08_mul [Semiring T] {A B : GMatrix T} {m k n : ℕ} (hk : 0 < k) (hn : 0 < n)
    {M : Matrix (Fin m) (Fin k) T} {N : Matrix (Fin k) (Fin n) T}
    (hA : Rep A M) (hB : Rep B N) : ∃ C, GMatrix.mul A B = .ok C ∧ Rep C (M * N) :=
  mul_rep hk hn hA hB

theorem C08_mul_mismatch [Semiring T] (A B : GMatrix T) (h : A.ncols ≠ B.nrows) :
    GMatrix.mul A B = .panic := by
  unfold GMatrix.mul
  rw [C08_prod_into_mismatch _ _ _ (Or.inl h)]

/-- Finding: products whose sizes agree but with a zero dimension panic (`chunks_exact(0)`)
instead of returning the (zero or empty) product. -/
theorem C08_violated_zero_dimension [Semiring T] {A B I : GMatrix T} {m k n : ℕ}
    (h0 : k = 0 ∨ n = 0)
    {M : Matrix (Fin m) (Fin k) T} {N : Matrix (Fin k) (Fin n) T} {P : Matrix (Fin m) (Fin n) T}
    (hA : Rep A M) (hB : Rep B N) (hI : Rep I P) : (prodInto A B I).1 = .panic := by
  unfold prodInto
  rw [if_neg (by rw [hA.ncols, hB.nrows]; simp),
    if_neg (by rw [hA.nrows, hB.ncols, hI.nrows, hI.ncols]; simp)]
  simp only []
  rw [if_pos (by rw [hA.ncols, hB.ncols]; exact h0)]

/-- The identity built by `eye` is neutral on both sides. -/
theorem C08_eye_neutral [Semiring T] {A : GMatrix T} {m n : ℕ} (hm : 0 < m) (hn : 0 < n)
    {M : Matrix (Fin m) (Fin n) T} (hA : Rep A M) :
    GMatrix.mul (eye m) A = .ok A ∧ GMatrix.mul A (eye n) = .ok A := by
  obtain ⟨C, h1, h2⟩ := C08_mul hm hn (C07_eye (T := T) m) hA
  obtain ⟨D, h3, h4⟩ := C08_mul hn hn hA (C07_eye (T := T) n)
  rw [Matrix.one_mul] at h2
  rw [Matrix.mul_one] at h4
  rw [h1, h3, h2.ext_data hA, h4.ext_data hA]
  exact ⟨rfl, rfl⟩

/-- The product is associative. -/
theorem C08_assoc [Semiring T] {A B C : GMatrix T} {m k l n : ℕ} (hk : 0 < k) (hl : 0 < l)
    (hn : 0 < n) {M : Matrix (Fin m) (Fin k) T} {N : Matrix (Fin k) (Fin l) T}
    {P : Matrix (Fin l) (Fin n) T} (hA : Rep A M) (hB : Rep B N) (hC : Rep C P) :
    ∃ AB BC R, GMatrix.mul A B = .ok AB ∧ GMatrix.mul B C = .ok BC ∧
      GMatrix.mul AB C = .ok R ∧ GMatrix.mul A BC = .ok R := by
  obtain ⟨AB, h1, h2⟩ := C08_mul hk hl hA hB
  obtain ⟨BC, h3, h4⟩ := C08_mul hl hn hB hC
  obtain ⟨R, h5, h6⟩ := C08_mul hl hn h2 hC
  obtain ⟨R', h7, h8⟩ := C08_mul hk hn hA h4
  rw [← Matrix.mul_assoc] at h8
  exact ⟨AB, BC, R, h1, h3, h5, by rw [h7, h8.ext_data h6]⟩

private theorem zipWith_rep {A B : GMatrix T} {m n : ℕ} {M N : Matrix (Fin m) (Fin n) T}
    (hA : Rep A M) (hB : Rep B N) (f : T → T → T) {r c : ℕ} (hr : r = m) (hc : c = n) :
    Rep ⟨r, c, List.zipWith f A.data B.data⟩ (Matrix.of fun i j => f (M i j) (N i j)) := by
  refine Rep.of_getElem hr hc (by simp [hA.length, hB.length]) fun i j => ?_
  simp only []
  rw [List.getElem?_zipWith, hA.getElem, hB.getElem]; rfl

/-- Sum and difference are entrywise (operators). -/
theorem C08_add_sub [Ring T] {A B : GMatrix T} {m n : ℕ} {M N : Matrix (Fin m) (Fin n) T}
    (hA : Rep A M) (hB : Rep B N) :
    (∃ C, GMatrix.add A B = .ok C ∧ Rep C (M + N)) ∧ (∃ C, GMatrix.sub A B = .ok C ∧ Rep C (M - N)) := by
  unfold GMatrix.add GMatrix.sub
  have : ¬ (A.ncols ≠ B.ncols ∨ A.nrows ≠ B.nrows) := by
    rw [hA.ncols, hB.ncols, hA.nrows, hB.nrows]; simp
  rw [if_neg this, if_neg this]
  exact ⟨⟨_, rfl, zipWith_rep hA hB _ hA.nrows hA.ncols⟩, ⟨_, rfl, zipWith_rep hA hB _ hA.nrows hA.ncols⟩⟩

/-- Sum and difference into a destination of the right size.

Missing: destinations of another shape, which are not refused (`C08_violated_add_into_destination`). -/
theorem C08_add_sub_into_partial [Ring T] {A B I : GMatrix T} {m n : ℕ} {M N P : Matrix (Fin m) (Fin n) T}
    (hA : Rep A M) (hB : Rep B N) (hI : Rep I P) :
    (∃ C, addInto A B I = (.ok (), C) ∧ Rep C (M + N)) ∧
    (∃ C, subInto A B I = (.ok (), C) ∧ Rep C (M - N)) := by
  unfold addInto subInto
  have : ¬ (A.ncols ≠ B.ncols ∨ A.nrows ≠ B.nrows) := by
    rw [hA.ncols, hB.ncols, hA.nrows, hB.nrows]; simp
  rw [if_neg this, if_neg this, overwrite_eq (by simp [hA.length, hB.length, hI.length]),
    overwrite_eq (by simp [hA.length, hB.length, hI.length])]
  exact ⟨⟨_, rfl, zipWith_rep hA hB _ hI.nrows hI.ncols⟩, ⟨_, rfl, zipWith_rep hA hB _ hI.nrows hI.ncols⟩⟩

/-- Mismatched operands: the operators panic, the `_into` versions are errors that change
nothing. -/
theorem C08_add_sub_mismatch [Ring T] (A B I : GMatrix T)
    (h : A.ncols ≠ B.ncols ∨ A.nrows ≠ B.nrows) :
    GMatrix.add A B = .panic ∧ GMatrix.sub A B = .panic ∧
    addInto A B I = (.err, I) ∧ subInto A B I = (.err, I) := by
  unfold GMatrix.add GMatrix.sub addInto subInto
  simp only [if_pos h, and_self]

/-- Scaling. -/
theorem C08_scale [CommRing T] {A I : GMatrix T} {m n : ℕ} {M P : Matrix (Fin m) (Fin n) T}
    (hA : Rep A M) (hI : Rep I P) (s : T) :
    Rep (GMatrix.smul A s) (s • M) ∧ ∃ C, scaleInto A s I = (.ok (), C) ∧ Rep C (s • M) := by
  constructor
  · refine Rep.of_getElem hA.nrows hA.ncols (by simp [GMatrix.smul, hA.length]) fun i j => ?_
    simp [GMatrix.smul, hA.getElem, mul_comm]
  · unfold scaleInto
    rw [if_neg (by rw [hA.ncols, hA.nrows, hI.ncols, hI.nrows]; simp),
      overwrite_eq (by simp [hA.length, hI.length])]
    refine ⟨_, rfl, Rep.of_getElem hI.nrows hI.ncols (by simp [hA.length]) fun i j => ?_⟩
    simp [hA.getElem, mul_comm]

theorem C08_scale_mismatch [CommRing T] (A I : GMatrix T) (s : T)
    (h : A.ncols ≠ I.ncols ∨ A.nrows ≠ I.nrows) : scaleInto A s I = (.err, I) := by
  unfold scaleInto; rw [if_pos h]

/-- Finding: unlike the product and the scaling, `add_into` and `sub_into` never look at the size
of the destination.  A destination of another size is accepted silently and keeps its own
size, so it does not hold the sum. -/
theorem C08_violated_add_into_destination [Ring T] (A B I : GMatrix T)
    (h : A.size = B.size) (hI : I.size ≠ A.size) :
    (addInto A B I).1 = .ok () ∧ (subInto A B I).1 = .ok () ∧
    ∀ {m n : ℕ} {M N : Matrix (Fin m) (Fin n) T}, Rep A M → Rep B N →
      ¬ Rep (addInto A B I).2 (M + N) := by
  simp only [GMatrix.size, Prod.mk.injEq, ne_eq] at h hI
  have hs : ¬ (A.ncols ≠ B.ncols ∨ A.nrows ≠ B.nrows) := by omega
  refine ⟨by unfold addInto; rw [if_neg hs], by unfold subInto; rw [if_neg hs], ?_⟩
  intro m n M N hA hB hC
  unfold addInto at hC
  rw [if_neg hs] at hC
  have h1 := hC.nrows; have h2 := hC.ncols
  simp only [] at h1 h2
  exact hI ⟨by rw [h1, hA.nrows], by rw [h2, hA.ncols]⟩

example : (addInto (⟨1, 1, [1]⟩ : GMatrix ℤ) ⟨1, 1, [2]⟩ ⟨2, 2, [7, 7, 7, 7]⟩)
    = (.ok (), ⟨2, 2, [3, 7, 7, 7]⟩) := by decide

/-! ## C09 -/

/-- The n-diagonal product computes the product with the band of the left matrix, whatever
lies outside of the band. -/
theorem C09_band_product [Semiring T] {A B I : GMatrix T} {m k n : ℕ} (w : ℕ) (hw : 0 < w)
    (hk : 0 < k) (hn : 0 < n)
    {M : Matrix (Fin m) (Fin k) T} {N : Matrix (Fin k) (Fin n) T} {P : Matrix (Fin m) (Fin n) T}
    (hA : Rep A M) (hB : Rep B N) (hI : Rep I P) :
    ∃ C, prodNDiagInto A B w I = (.ok (), C) ∧ Rep C (band ((w - 1) / 2) M * N) :=
  prodNDiagInto_rep w hw hk hn hA hB hI

/-- On banded matrices the shortcut and the full product give the same object. -/
theorem C09_same_as_full [Semiring T] {A B I : GMatrix T} {m k n : ℕ} (w : ℕ) (hw : Odd w)
    (hk : 0 < k) (hn : 0 < n)
    {M : Matrix (Fin m) (Fin k) T} {N : Matrix (Fin k) (Fin n) T} {P : Matrix (Fin m) (Fin n) T}
    (hA : Rep A M) (hB : Rep B N) (hI : Rep I P) (hband : Banded ((w - 1) / 2) M) :
    prodNDiagInto A B w I = prodInto A B I ∧ fromProdNDiag A B w = GMatrix.mul A B := by
  have hb : band ((w - 1) / 2) M = M := by
    ext i j
    unfold band
    split_ifs with hc
    · exact (hband i j hc).symm
    · rfl
  have hw0 : 0 < w := hw.pos
  obtain ⟨C, h1, h2⟩ := C09_band_product w hw0 hk hn hA hB hI
  obtain ⟨D, h3, h4⟩ := C08_prod_into_partial hk hn hA hB hI
  have hI' : Rep (new 0 A.nrows B.ncols) (fun _ _ => (0 : T) : Matrix (Fin m) (Fin n) T) := by
    rw [hA.nrows, hB.ncols]; exact new_rep 0 m n
  obtain ⟨C', h5, h6⟩ := C09_band_product w hw0 hk hn hA hB hI'
  obtain ⟨D', h7, h8⟩ := C08_mul hk hn hA hB
  rw [hb] at h2 h6
  refine ⟨by rw [h1, h3, h2.ext_data h4], ?_⟩
  unfold fromProdNDiag
  rw [h5, h7, h6.ext_data h8]

/-- `prod_tri_diag_into` is the case `n = 3`. -/
theorem C09_tri_diag [Semiring T] {A B I : GMatrix T} {m k n : ℕ} (hk : 0 < k) (hn : 0 < n)
    {M : Matrix (Fin m) (Fin k) T} {N : Matrix (Fin k) (Fin n) T} {P : Matrix (Fin m) (Fin n) T}
    (hA : Rep A M) (hB : Rep B N) (hI : Rep I P) (hband : Banded 1 M) :
    prodTriDiagInto A B I = prodInto A B I :=
  (C09_same_as_full 3 (by decide) hk hn hA hB hI hband).1

example : Banded 1 (!![2, 1, 0; 1, 2, 1; 0, 1, 2] : Matrix (Fin 3) (Fin 3) ℤ) := by
  intro i j h
  fin_cases i <;> fin_cases j <;> simp at h ⊢

end Simple.Matrix
