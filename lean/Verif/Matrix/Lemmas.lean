import Verif.Matrix.Spec
import Mathlib.Data.Matrix.Mul
import Mathlib.Algebra.BigOperators.Fin
import Mathlib.Tactic

namespace Simple.Matrix
open Spec GMatrix

variable {T : Type*}

theorem idx_lt {m n i j : ℕ} (hi : i < m) (hj : j < n) : n * i + j < m * n := by
  have : n * i + n ≤ n * m := by
    have := Nat.mul_le_mul_left n (Nat.succ_le_of_lt hi)
    rw [Nat.mul_succ] at this; exact this
  rw [Nat.mul_comm m n]; omega

theorem idx_inj {n i j i' j' : ℕ} (hj : j < n) (hj' : j' < n) (h : n * i + j = n * i' + j') :
    i = i' ∧ j = j' := by
  have hn : 0 < n := by omega
  have h1 : (n * i + j) / n = i := by
    rw [Nat.mul_add_div hn, Nat.div_eq_of_lt hj, Nat.add_zero]
  have h2 : (n * i' + j') / n = i' := by
    rw [Nat.mul_add_div hn, Nat.div_eq_of_lt hj', Nat.add_zero]
  have : i = i' := by rw [← h1, ← h2, h]
  subst this
  exact ⟨rfl, by omega⟩

/-- Every position of the data is the position of an entry. -/
theorem idx_surj {m n k : ℕ} (h : k < m * n) : ∃ i j, i < m ∧ j < n ∧ k = n * i + j := by
  have hn : 0 < n := by
    rcases Nat.eq_zero_or_pos n with h0 | h0
    · subst h0; simp at h
    · exact h0
  refine ⟨k / n, k % n, ?_, Nat.mod_lt _ hn, (Nat.div_add_mod k n).symm⟩
  exact Nat.div_lt_of_lt_mul (by rwa [Nat.mul_comm])

theorem Spec.Rep.getElem {A : GMatrix T} {m n : ℕ} {M : Matrix (Fin m) (Fin n) T} (h : Rep A M)
    (i : Fin m) (j : Fin n) : A.data[n * i.val + j.val]? = some (M i j) := by
  have h1 := h.get i j
  have hr := h.nrows; have hc := h.ncols
  unfold GMatrix.get Outcome.index GMatrix.index at h1
  rw [if_pos ⟨by rw [hr]; exact i.2, by rw [hc]; exact j.2⟩, hc] at h1
  split at h1
  · rename_i a ha; rw [ha]; cases h1; rfl
  · cases h1

theorem Spec.Rep.of_getElem {A : GMatrix T} {m n : ℕ} {M : Matrix (Fin m) (Fin n) T}
    (hr : A.nrows = m) (hc : A.ncols = n) (hl : A.data.length = m * n)
    (h : ∀ (i : Fin m) (j : Fin n), A.data[n * i.val + j.val]? = some (M i j)) : Rep A M := by
  refine ⟨hr, hc, hl, fun i j => ?_⟩
  unfold GMatrix.get Outcome.index GMatrix.index
  rw [if_pos ⟨by rw [hr]; exact i.2, by rw [hc]; exact j.2⟩, hc, h i j]

theorem Spec.Rep.ext_data {A B : GMatrix T} {m n : ℕ} {M : Matrix (Fin m) (Fin n) T} (hA : Rep A M)
    (hB : Rep B M) : A = B := by
  have : A.data = B.data := by
    apply List.ext_getElem?
    intro k
    by_cases hk : k < m * n
    · obtain ⟨i, j, hi, hj, rfl⟩ := idx_surj hk
      rw [hA.getElem ⟨i, hi⟩ ⟨j, hj⟩, hB.getElem ⟨i, hi⟩ ⟨j, hj⟩]
    · rw [List.getElem?_eq_none (by rw [hA.length]; omega),
        List.getElem?_eq_none (by rw [hB.length]; omega)]
  cases A; cases B
  have h1 := hA.nrows; have h2 := hB.nrows; have h3 := hA.ncols; have h4 := hB.ncols
  simp_all

theorem Spec.Rep.unique {A : GMatrix T} {m n : ℕ} {M N : Matrix (Fin m) (Fin n) T} (hM : Rep A M)
    (hN : Rep A N) : M = N := by
  ext i j
  have := hM.get i j
  rw [hN.get i j] at this
  exact (Outcome.ok.inj this).symm

theorem exists_rep {A : GMatrix T} (h : A.data.length = A.nrows * A.ncols) :
    ∃ M : Matrix (Fin A.nrows) (Fin A.ncols) T, Rep A M := by
  refine ⟨fun i j => A.data[A.ncols * i.val + j.val]'(by rw [h]; exact idx_lt i.2 j.2),
    Rep.of_getElem rfl rfl h fun i j => ?_⟩
  rw [List.getElem?_eq_getElem]

theorem overwrite_eq {xs l : List T} (h : xs.length = l.length) : overwrite xs l = xs := by
  induction xs generalizing l with
  | nil => cases l with
    | nil => rfl
    | cons _ _ => simp at h
  | cons x xs ih => cases l with
    | nil => simp at h
    | cons y ys => simp [overwrite, ih (l := ys) (by simpa using h)]

theorem overwrite_length (xs l : List T) : (overwrite xs l).length = l.length := by
  induction xs generalizing l with
  | nil => cases l <;> rfl
  | cons x xs ih => cases l with
    | nil => rfl
    | cons y ys => simp [overwrite, ih]

theorem flatten_length {n : ℕ} {L : List (List T)} (h : ∀ l ∈ L, l.length = n) :
    L.flatten.length = L.length * n := by
  induction L with
  | nil => simp
  | cons a L ih =>
    rw [List.flatten_cons, List.length_append, ih (fun l hl => h l (List.mem_cons_of_mem _ hl)),
      h a (List.mem_cons_self), List.length_cons]; ring

theorem flatten_getElem? {n : ℕ} {L : List (List T)} (h : ∀ l ∈ L, l.length = n) (i j : ℕ)
    (hj : j < n) : L.flatten[n * i + j]? = (L[i]?).bind (fun l => l[j]?) := by
  induction L generalizing i with
  | nil => simp
  | cons a L ih =>
    have ha := h a (List.mem_cons_self)
    have hL : ∀ l ∈ L, l.length = n := fun l hl => h l (List.mem_cons_of_mem _ hl)
    cases i with
    | zero =>
      rw [List.flatten_cons, List.getElem?_append_left (by omega)]; simp
    | succ i =>
      rw [List.flatten_cons, List.getElem?_append_right (by rw [ha, Nat.mul_succ]; omega), ha]
      have : n * (i + 1) + j - n = n * i + j := by rw [Nat.mul_succ]; omega
      rw [this, ih hL]
      simp

theorem chunksExact_length {m n : ℕ} (hn : 0 < n) {l : List T} (hl : l.length = m * n) :
    (chunksExact n l).length = m := by
  simp [chunksExact, hl, Nat.mul_div_cancel _ hn]

theorem chunksExact_getElem? {m n : ℕ} (hn : 0 < n) {l : List T} (hl : l.length = m * n) {i : ℕ}
    (hi : i < m) : (chunksExact n l)[i]? = some ((l.drop (n * i)).take n) := by
  unfold chunksExact
  rw [List.getElem?_map, List.getElem?_range (by rw [hl, Nat.mul_div_cancel _ hn]; exact hi)]
  rfl

theorem row_length {m n : ℕ} {l : List T} (hl : l.length = m * n) {i : ℕ} (hi : i < m) :
    ((l.drop (n * i)).take n).length = n := by
  have : n * i + n ≤ n * m := by
    have := Nat.mul_le_mul_left n (Nat.succ_le_of_lt hi)
    rw [Nat.mul_succ] at this; exact this
  rw [List.length_take, List.length_drop, hl, Nat.mul_comm m n]; omega

theorem row_getElem? {n : ℕ} {l : List T} {i j : ℕ} (hj : j < n) :
    ((l.drop (n * i)).take n)[j]? = l[n * i + j]? := by
  rw [List.getElem?_take_of_lt hj, List.getElem?_drop]

/-- A row of the data, as a list. -/
theorem Spec.Rep.row_eq {A : GMatrix T} {m n : ℕ} {M : Matrix (Fin m) (Fin n) T} (h : Rep A M)
    (i : Fin m) : (A.data.drop (n * i.val)).take n = List.ofFn (M i) := by
  apply List.ext_getElem?
  intro j
  by_cases hj : j < n
  · rw [row_getElem? hj, h.getElem i ⟨j, hj⟩, List.getElem?_eq_getElem (by simpa using hj)]
    simp
  · rw [List.getElem?_eq_none (by rw [row_length h.length i.2]; omega),
      List.getElem?_eq_none (by simp; omega)]

theorem filterMap_range_some {β : Type*} (n : ℕ) (f : ℕ → Option β) (g : Fin n → β)
    (h : ∀ i : Fin n, f i = some (g i)) : (List.range n).filterMap f = List.ofFn g := by
  induction n with
  | zero => simp
  | succ n ih =>
    rw [List.range_succ, List.filterMap_append, ih (fun i => g i.castSucc) (fun i => h i.castSucc),
      List.ofFn_succ_last]
    have := h (Fin.last n)
    simp only [Fin.val_last] at this
    simp [this]

/-- A column of the data, as a list. -/
theorem Spec.Rep.col_eq {A : GMatrix T} {m n : ℕ} {M : Matrix (Fin m) (Fin n) T} (h : Rep A M)
    (j : Fin n) : skipStepBy j.val n A.data = List.ofFn (fun i => M i j) := by
  unfold skipStepBy
  have hn : 0 < n := lt_of_le_of_lt (Nat.zero_le _) j.2
  have hcount : (A.data.length - j.val + (n - 1)) / n = m := by
    rw [h.length]
    rcases Nat.eq_zero_or_pos m with hm | hm
    · subst hm; simp; right; omega
    · obtain ⟨m', rfl⟩ : ∃ m', m = m' + 1 := ⟨m - 1, by omega⟩
      have hj := j.2
      have : (m' + 1) * n - j.val + (n - 1) = (n - 1 - j.val) + n * (m' + 1) := by
        have h2 : (m' + 1) * n = m' * n + n := by ring
        have h3 : n * (m' + 1) = m' * n + n := by ring
        omega
      rw [this, Nat.add_mul_div_left _ _ hn, Nat.div_eq_of_lt (by omega)]; omega
  rw [hcount]
  apply filterMap_range_some 
  intro i
  rw [Nat.add_comm, h.getElem i j]

theorem foldl_add_zipWith_ofFn [Semiring T] {k : ℕ} (f g : Fin k → T) :
    (List.zipWith (· * ·) (List.ofFn f) (List.ofFn g)).foldl (· + ·) 0 = ∑ i, f i * g i := by
  have : List.zipWith (· * ·) (List.ofFn f) (List.ofFn g) = List.ofFn (fun i => f i * g i) := by
    apply List.ext_getElem?
    intro i
    by_cases hi : i < k
    · simp [List.getElem?_zipWith, hi]
    · rw [List.getElem?_eq_none (by simp; omega), List.getElem?_eq_none (by simp; omega)]
  rw [this, ← List.sum_eq_foldl, List.sum_ofFn]

theorem prodItem_eq [Semiring T] {B : GMatrix T} {k n : ℕ} {N : Matrix (Fin k) (Fin n) T}
    (hB : Rep B N) (f : Fin k → T) (j : Fin n) :
    prodItem B (List.ofFn f) j.val = ∑ i, f i * N i j := by
  unfold prodItem
  rw [hB.ncols, hB.col_eq j, foldl_add_zipWith_ofFn]

theorem prodInto_rep [Semiring T] {A B I : GMatrix T} {m k n : ℕ} (hk : 0 < k) (hn : 0 < n)
    {M : Matrix (Fin m) (Fin k) T} {N : Matrix (Fin k) (Fin n) T} {P : Matrix (Fin m) (Fin n) T}
    (hA : Rep A M) (hB : Rep B N) (hI : Rep I P) :
    ∃ C, prodInto A B I = (.ok (), C) ∧ Rep C (M * N) := by
  unfold prodInto
  rw [if_neg (by rw [hA.ncols, hB.nrows]; simp),
    if_neg (by rw [hA.nrows, hB.ncols, hI.nrows, hI.ncols]; simp)]
  simp only []
  rw [if_neg (by rw [hA.ncols, hB.ncols]; omega), hA.ncols, hB.ncols]
  refine ⟨_, rfl, ?_⟩
  set cleared := I.data.map (· * 0) with hcl
  have hcll : cleared.length = m * n := by simp [hcl, hI.length]
  set rows := List.zipWith (fun row _ => (List.range n).map (prodItem B row))
    (chunksExact k A.data) (chunksExact n cleared) with hrows
  have hrl : ∀ l ∈ rows, l.length = n := by
    intro l hl
    rw [hrows, List.zipWith_eq_zipWith_take_min] at hl
    obtain ⟨i, hi, rfl⟩ := List.mem_iff_getElem.1 hl
    simp
  have hrn : rows.length = m := by
    simp [hrows, chunksExact_length hk hA.length, chunksExact_length hn hcll]
  have hget : ∀ (i : Fin m), rows[i.val]? = some ((List.range n).map (prodItem B (List.ofFn (M i)))) := by
    intro i
    rw [hrows, List.getElem?_zipWith, chunksExact_getElem? hk hA.length i.2,
      chunksExact_getElem? hn hcll i.2, hA.row_eq i]
  have how : overwrite rows.flatten cleared = rows.flatten :=
    overwrite_eq (by rw [flatten_length hrl, hrn, hcll])
  refine Rep.of_getElem hI.nrows hI.ncols ?_ fun i j => ?_
  · simp only [how]; rw [flatten_length hrl, hrn]
  · simp only [how]
    rw [flatten_getElem? hrl _ _ j.2, hget i]
    simp only [Option.bind_some, List.getElem?_map]
    rw [List.getElem?_range j.2]
    simp only [Option.map_some]
    rw [prodItem_eq hB, Matrix.mul_apply]

theorem new_rep (v : T) (m n : ℕ) : Rep (new v m n) (fun _ _ => v : Matrix (Fin m) (Fin n) T) := by
  refine Rep.of_getElem rfl rfl (by simp [new]) fun i j => ?_
  have := idx_lt i.2 j.2
  simp [new, List.getElem?_replicate, this]

theorem mul_rep [Semiring T] {A B : GMatrix T} {m k n : ℕ} (hk : 0 < k) (hn : 0 < n)
    {M : Matrix (Fin m) (Fin k) T} {N : Matrix (Fin k) (Fin n) T}
    (hA : Rep A M) (hB : Rep B N) : ∃ C, GMatrix.mul A B = .ok C ∧ Rep C (M * N) := by
  obtain ⟨C, h1, h2⟩ := prodInto_rep hk hn hA hB
    (by have := new_rep (0 : T) m n; rw [← hA.nrows, ← hB.ncols] at this; exact
        (by rw [hA.nrows, hB.ncols] at this ⊢; exact new_rep (0 : T) m n) :
      Rep (new 0 A.nrows B.ncols) (fun _ _ => (0 : T) : Matrix (Fin m) (Fin n) T))
  exact ⟨C, by unfold GMatrix.mul; rw [h1], h2⟩

theorem sum_drop_take [AddCommMonoid T] {k : ℕ} (h : Fin k → T) (ini fin : ℕ) :
    (((List.ofFn h).take fin).drop ini).sum
      = ∑ i : Fin k, if ini ≤ i.val ∧ i.val < fin then h i else 0 := by
  induction k generalizing ini fin with
  | zero => simp
  | succ k ih =>
    rw [List.ofFn_succ, Fin.sum_univ_succ]
    cases fin with
    | zero => simp
    | succ fin =>
      rw [List.take_succ_cons]
      cases ini with
      | zero =>
        have := ih (fun i => h i.succ) 0 fin
        simp only [List.drop_zero] at this
        simp [this]
      | succ ini =>
        rw [List.drop_succ_cons, ih]
        simp

/-- The band sum of `prod_n_diag_into`. -/
theorem foldl_drop_take_zipIdx [Semiring T] {k : ℕ} (f : Fin k → T) (g : ℕ → T) (ini fin : ℕ)
    (start : T) :
    ((((List.ofFn f).zipIdx).take fin).drop ini).foldl (fun acc p => acc + p.1 * g p.2) start
      = start + ∑ i : Fin k, if ini ≤ i.val ∧ i.val < fin then f i * g i.val else 0 := by
  have hgen : ∀ (l : List (T × ℕ)) (a : T),
      l.foldl (fun acc p => acc + p.1 * g p.2) a = a + (l.map (fun p => p.1 * g p.2)).sum := by
    intro l
    induction l with
    | nil => simp
    | cons x l ih => intro a; rw [List.foldl_cons, ih]; simp [add_assoc]
  rw [hgen]
  congr 1
  have hz : (List.ofFn f).zipIdx = List.ofFn (fun i => (f i, i.val)) := by
    apply List.ext_getElem?
    intro i
    by_cases hi : i < k
    · simp [hi]
    · rw [List.getElem?_eq_none (by simp; omega), List.getElem?_eq_none (by simp; omega)]
  rw [hz, List.map_drop, List.map_take, List.map_ofFn, sum_drop_take]
  rfl

theorem prodNDiagInto_rep [Semiring T] {A B I : GMatrix T} {m k n : ℕ} (w : ℕ) (hw : 0 < w)
    (hk : 0 < k) (hn : 0 < n)
    {M : Matrix (Fin m) (Fin k) T} {N : Matrix (Fin k) (Fin n) T} {P : Matrix (Fin m) (Fin n) T}
    (hA : Rep A M) (hB : Rep B N) (hI : Rep I P) :
    ∃ C, prodNDiagInto A B w I = (.ok (), C) ∧ Rep C (band ((w - 1) / 2) M * N) := by
  unfold prodNDiagInto
  rw [if_neg (by rw [hA.ncols, hB.nrows]; simp),
    if_neg (by rw [hA.nrows, hB.ncols, hI.nrows, hI.ncols]; simp)]
  simp only []
  rw [if_neg (by rw [hA.ncols, hB.ncols]; omega), hA.ncols, hB.ncols]
  refine ⟨_, rfl, ?_⟩
  set s := (w - 1) / 2
  set cleared := I.data.map (· * 0) with hcl
  have hcll : cleared.length = m * n := by simp [hcl, hI.length]
  set rows := List.zipWith (fun (p : List T × ℕ) intoRow =>
          (intoRow.zipIdx).map fun q => prodNDiagItem B k s p.2 p.1 q.2 q.1)
        (chunksExact k A.data).zipIdx (chunksExact n cleared) with hrows
  have hrn : rows.length = m := by
    simp [hrows, chunksExact_length hk hA.length, chunksExact_length hn hcll]
  have hget : ∀ (i : Fin m), rows[i.val]? = some ((((cleared.drop (n * i.val)).take n).zipIdx).map
      fun q => prodNDiagItem B k s i.val (List.ofFn (M i)) q.2 q.1) := by
    intro i
    rw [hrows, List.getElem?_zipWith, List.getElem?_zipIdx, chunksExact_getElem? hk hA.length i.2,
      chunksExact_getElem? hn hcll i.2, hA.row_eq i]
    simp
  have hrl : ∀ l ∈ rows, l.length = n := by
    intro l hl
    obtain ⟨i, hi, rfl⟩ := List.mem_iff_getElem.1 hl
    have h1 := hget ⟨i, hrn ▸ hi⟩
    rw [List.getElem?_eq_getElem hi] at h1
    rw [Option.some.inj h1, List.length_map, List.length_zipIdx]
    exact row_length hcll (hrn ▸ hi)
  have how : overwrite rows.flatten cleared = rows.flatten :=
    overwrite_eq (by rw [flatten_length hrl, hrn, hcll])
  refine Rep.of_getElem hI.nrows hI.ncols ?_ fun i j => ?_
  · simp only [how]; rw [flatten_length hrl, hrn]
  · simp only [how]
    rw [flatten_getElem? hrl _ _ j.2, hget i]
    have hstart : cleared[n * i.val + j.val]? = some 0 := by
      rw [hcl, List.getElem?_map, hI.getElem i j]; simp
    simp only [Option.bind_some, List.getElem?_map, List.getElem?_zipIdx]
    rw [row_getElem? j.2, hstart]
    simp only [Option.map_some, Nat.zero_add]
    congr 1
    unfold prodNDiagItem
    simp only []
    rw [foldl_drop_take_zipIdx (M i) (fun l => B.data[B.index l j.val]?.getD 0), zero_add,
      Matrix.mul_apply]
    apply Finset.sum_congr rfl
    intro l _
    unfold GMatrix.index band
    rw [hB.ncols, hB.getElem l j]
    have hl := l.2
    by_cases hc : i.val + s < l.val ∨ l.val + s < i.val
    · rw [if_pos hc, zero_mul, if_neg]
      split_ifs <;> omega
    · rw [if_neg hc, if_pos]
      · simp
      · split_ifs <;> omega

end Simple.Matrix
