import Verif.Matrix.NDiagModel
import Verif.Matrix.Lemmas

/-!
# Property C10: compact n-diagonal matrices
-/

namespace Simple.Matrix
open Spec NDiag

variable {T : Type*}

namespace NDiag

theorem acc_succ (N row ncols : ℕ) :
    accNInRow N (row + 1) ncols = accNInRow N row ncols + nInRow N row ncols := by
  unfold accNInRow; rw [List.range_succ, List.foldl_append]; rfl

theorem acc_mono (N ncols : ℕ) {r r' : ℕ} (h : r ≤ r') :
    accNInRow N r ncols ≤ accNInRow N r' ncols := by
  induction h with
  | refl => exact le_refl _
  | step _ ih => rw [acc_succ]; omega

theorem isDiagValue_iff {N r c : ℕ} :
    isDiagValue N r c = true ↔ r ≤ c + oneSided N ∧ c ≤ r + oneSided N := by
  simp [isDiagValue]

/-- Within a row, band coordinates have an offset inside of the slots of that row. -/
theorem offset_lt {N r c ncols : ℕ} (hN : N % 2 = 1) (hc : c < ncols)
    (hb : r ≤ c + oneSided N ∧ c ≤ r + oneSided N) :
    zeroesBefore N r ≤ c ∧ c - zeroesBefore N r < nInRow N r ncols := by
  unfold nInRow zeroesBefore at *
  have : oneSided N = (N - 1) / 2 := rfl
  split_ifs <;> omega

theorem index_lt {N r c nrows ncols : ℕ} (hN : N % 2 = 1) (hr : r < nrows) (hc : c < ncols)
    (hb : r ≤ c + oneSided N ∧ c ≤ r + oneSided N) :
    accNInRow N r ncols + c - zeroesBefore N r < accNInRow N nrows ncols := by
  have h1 := offset_lt hN hc hb
  have h2 := acc_succ N r ncols
  have h3 := acc_mono N ncols (show r + 1 ≤ nrows from hr)
  omega

theorem index_inj {N r c r' c' ncols : ℕ} (hN : N % 2 = 1) (hc : c < ncols) (hc' : c' < ncols)
    (hb : r ≤ c + oneSided N ∧ c ≤ r + oneSided N)
    (hb' : r' ≤ c' + oneSided N ∧ c' ≤ r' + oneSided N)
    (h : accNInRow N r ncols + c - zeroesBefore N r
      = accNInRow N r' ncols + c' - zeroesBefore N r') : r = r' ∧ c = c' := by
  have h1 := offset_lt hN hc hb
  have h1' := offset_lt hN hc' hb'
  have h2 := acc_succ N r ncols
  have h2' := acc_succ N r' ncols
  rcases Nat.lt_trichotomy r r' with hlt | heq | hgt
  · have h3 := acc_mono N ncols (show r + 1 ≤ r' from hlt)
    omega
  · subst heq; exact ⟨rfl, by omega⟩
  · have h3 := acc_mono N ncols (show r' + 1 ≤ r from hgt)
    omega

/-- The object `A` stands for the banded matrix `M`: right size, no storage missing, the accessor
reads every entry of `M`. -/
structure Rep [Zero T] {N : ℕ} (A : NDiag N T) {m n : ℕ} (M : Matrix (Fin m) (Fin n) T) : Prop where
  nrows : A.nrows = m
  ncols : A.ncols = n
  length : A.data.length = accNInRow N m n
  get : ∀ (i : Fin m) (j : Fin n), A.get i j = .ok (M i j)

theorem get_band [Zero T] {N : ℕ} (A : NDiag N T) {r c : ℕ} (hN : N % 2 = 1)
    (hr : r < A.nrows) (hc : c < A.ncols) (hb : r ≤ c + oneSided N ∧ c ≤ r + oneSided N) :
    A.get r c = Outcome.index A.data (accNInRow N r A.ncols + c - zeroesBefore N r) := by
  have h1 := offset_lt hN hc hb
  simp only [NDiag.get, NDiag.index]
  rw [if_pos ⟨hr, hc⟩, if_pos (isDiagValue_iff.2 hb), if_pos (isDiagValue_iff.2 hb), if_pos (by omega)]

theorem modify_band {N : ℕ} (A : NDiag N T) {r c : ℕ} (hN : N % 2 = 1)
    (hl : A.data.length = accNInRow N A.nrows A.ncols)
    (hr : r < A.nrows) (hc : c < A.ncols) (hb : r ≤ c + oneSided N ∧ c ≤ r + oneSided N)
    (v : T) (f : T → T) :
    ∃ h : accNInRow N r A.ncols + c - zeroesBefore N r < A.data.length,
    A.modify r c v f = (.ok v, ⟨A.nrows, A.ncols, A.data.set
      (accNInRow N r A.ncols + c - zeroesBefore N r)
      (f A.data[accNInRow N r A.ncols + c - zeroesBefore N r])⟩) := by
  have h1 := offset_lt hN hc hb
  have h2 := index_lt hN hr hc hb
  refine ⟨by rw [hl]; exact h2, ?_⟩
  simp only [NDiag.modify, NDiag.index]
  rw [if_pos ⟨hr, hc⟩, if_pos (isDiagValue_iff.2 hb), if_pos (isDiagValue_iff.2 hb), if_pos (by omega)]
  simp only []
  rw [dif_pos (by rw [hl]; exact h2)]

end NDiag

/-- The three single-entry mutators. -/
inductive NDWrite (T : Type*) where
  | set (v : T)
  | add (v : T)
  | scale (v : T)

def NDWrite.call [Add T] [Mul T] {N : ℕ} (w : NDWrite T) (A : NDiag N T) (r c : ℕ) :
    Outcome T × NDiag N T :=
  match w with
  | .set v => A.set r c v
  | .add v => A.addToElement r c v
  | .scale v => A.scaleElement r c v

def NDWrite.arg : NDWrite T → T
  | .set v => v
  | .add v => v
  | .scale v => v

def NDWrite.apply [Add T] [Mul T] : NDWrite T → T → T
  | .set v, _ => v
  | .add v, x => x + v
  | .scale v, x => x * v

private theorem call_eq [Add T] [Mul T] {N : ℕ} (w : NDWrite T) (A : NDiag N T) (r c : ℕ) :
    w.call A r c = A.modify r c w.arg w.apply := by cases w <;> rfl

/-- An in-range write inside of the band succeeds and changes exactly that entry (so different
coordinates never share storage). -/
theorem C10_write [Zero T] [Add T] [Mul T] {N : ℕ} (hN : N % 2 = 1) {A : NDiag N T} {m n : ℕ}
    {M : Matrix (Fin m) (Fin n) T} (h : NDiag.Rep A M) (w : NDWrite T) (i : Fin m) (j : Fin n)
    (hb : i.val ≤ j.val + (N - 1) / 2 ∧ j.val ≤ i.val + (N - 1) / 2) :
    ∃ A', w.call A i j = (.ok w.arg, A') ∧
      NDiag.Rep A' (fun i' j' => if i' = i ∧ j' = j then w.apply (M i j) else M i' j') := by
  have hr : i.val < A.nrows := by rw [h.nrows]; exact i.2
  have hc : j.val < A.ncols := by rw [h.ncols]; exact j.2
  have hl : A.data.length = accNInRow N A.nrows A.ncols := by rw [h.length, h.nrows, h.ncols]
  obtain ⟨hlt, he⟩ := modify_band A hN hl hr hc hb w.arg w.apply
  rw [call_eq, he]
  refine ⟨_, rfl, h.nrows, h.ncols, by simpa using h.length, fun i' j' => ?_⟩
  have hr' : i'.val < A.nrows := by rw [h.nrows]; exact i'.2
  have hc' : j'.val < A.ncols := by rw [h.ncols]; exact j'.2
  have hold := h.get i' j'
  by_cases hb' : i'.val ≤ j'.val + oneSided N ∧ j'.val ≤ i'.val + oneSided N
  · rw [get_band _ hN hr' hc' hb', Outcome.index_of_lt (by rw [hl]; exact index_lt hN hr' hc' hb')] at hold
    have hg := fun d : List T => get_band (N := N) (NDiag.mk A.nrows A.ncols d) hN hr' hc' hb'
    refine (hg _).trans ?_
    simp only []
    rw [Outcome.index_of_lt (by simpa using (by rw [hl]; exact index_lt hN hr' hc' hb'))]
    rw [List.getElem_set]
    by_cases hij : i' = i ∧ j' = j
    · obtain ⟨rfl, rfl⟩ := hij
      simp only [and_self, if_true]
      rw [Outcome.ok.inj hold]
    · rw [if_neg hij, if_neg]
      · exact hold
      · intro e
        obtain ⟨a, b⟩ := index_inj hN hc hc' hb hb' e
        exact hij ⟨Fin.ext a.symm, Fin.ext b.symm⟩
  · have hd : ¬ isDiagValue N i'.val j'.val = true := fun h => hb' (isDiagValue_iff.1 h)
    rw [if_neg (by rintro ⟨rfl, rfl⟩; exact hb' hb)]
    simp only [NDiag.get] at hold ⊢
    rw [if_pos ⟨hr', hc'⟩, if_neg hd] at hold
    rw [if_pos ⟨hr', hc'⟩, if_neg hd]
    exact hold

/-- Writes off the band or out of range are errors that change nothing. -/
theorem C10_write_rejected [Add T] [Mul T] {N : ℕ} (A : NDiag N T) (w : NDWrite T) (r c : ℕ)
    (h : A.nrows ≤ r ∨ A.ncols ≤ c ∨ c + (N - 1) / 2 < r ∨ r + (N - 1) / 2 < c) :
    w.call A r c = (.err, A) := by
  rw [call_eq]
  unfold NDiag.modify
  by_cases h1 : r < A.nrows ∧ c < A.ncols
  · rw [if_pos h1, if_neg]
    rw [isDiagValue_iff]
    have : oneSided N = (N - 1) / 2 := rfl
    omega
  · rw [if_neg h1]

/-- Reads off the band are zero, out of range they are errors. -/
theorem C10_read_outside [Zero T] {N : ℕ} (A : NDiag N T) (r c : ℕ) :
    (r < A.nrows → c < A.ncols → (c + (N - 1) / 2 < r ∨ r + (N - 1) / 2 < c) → A.get r c = .ok 0) ∧
    (A.nrows ≤ r ∨ A.ncols ≤ c → A.get r c = .err) := by
  have e : oneSided N = (N - 1) / 2 := rfl
  constructor
  · intro hr hc hb
    unfold NDiag.get
    rw [if_pos ⟨hr, hc⟩, if_neg]
    rw [isDiagValue_iff]; omega
  · intro h
    unfold NDiag.get
    rw [if_neg (by omega)]

/-- Every object with the right amount of storage stands for exactly one matrix, which is
banded. -/
theorem C10_total_map [Zero T] {N : ℕ} (hN : N % 2 = 1) (A : NDiag N T)
    (hl : A.data.length = accNInRow N A.nrows A.ncols) :
    ∃! M : Matrix (Fin A.nrows) (Fin A.ncols) T, NDiag.Rep A M ∧ Banded ((N - 1) / 2) M := by
  classical
  have hget : ∀ (i : Fin A.nrows) (j : Fin A.ncols), ∃ x, A.get i j = .ok x := by
    intro i j
    by_cases hb : i.val ≤ j.val + oneSided N ∧ j.val ≤ i.val + oneSided N
    · rw [get_band A hN i.2 j.2 hb,
        Outcome.index_of_lt (by rw [hl]; exact index_lt hN i.2 j.2 hb)]
      exact ⟨_, rfl⟩
    · have e : oneSided N = (N - 1) / 2 := rfl
      exact ⟨0, (C10_read_outside A i j).1 i.2 j.2 (by omega)⟩
  choose M hM using hget
  refine ⟨M, ⟨⟨rfl, rfl, hl, hM⟩, ?_⟩, ?_⟩
  · intro i j h
    have := (C10_read_outside A i.val j.val).1 i.2 j.2 (by omega)
    rw [hM i j] at this
    exact Outcome.ok.inj this
  · rintro M' ⟨hM', _⟩
    ext i j
    have := hM'.get i j
    rw [hM i j] at this
    exact (Outcome.ok.inj this).symm

/-- Scaling multiplies every entry. -/
theorem C10_scale [CommRing T] {N : ℕ} (hN : N % 2 = 1) {A : NDiag N T} {m n : ℕ}
    {M : Matrix (Fin m) (Fin n) T} (h : NDiag.Rep A M) (s : T) :
    NDiag.Rep (A.mulAssign s) (s • M) ∧
    ∀ {B : NDiag N T} {P : Matrix (Fin m) (Fin n) T}, NDiag.Rep B P →
      ∃ C, A.scaleInto s B = (.ok (), C) ∧ NDiag.Rep C (s • M) := by
  have key : ∀ C : NDiag N T, C.nrows = m → C.ncols = n → C.data = A.data.map (· * s) →
      NDiag.Rep C (s • M) := by
    intro C h1 h2 h3
    have hl : A.data.length = accNInRow N A.nrows A.ncols := by rw [h.length, h.nrows, h.ncols]
    have hl' : C.data.length = accNInRow N C.nrows C.ncols := by
      rw [h3, List.length_map, h.length, h1, h2]
    refine ⟨h1, h2, by rw [hl', h1, h2], fun i j => ?_⟩
    have hr : i.val < A.nrows := by rw [h.nrows]; exact i.2
    have hc : j.val < A.ncols := by rw [h.ncols]; exact j.2
    have hr' : i.val < C.nrows := by rw [h1]; exact i.2
    have hc' : j.val < C.ncols := by rw [h2]; exact j.2
    have hold := h.get i j
    by_cases hb : i.val ≤ j.val + oneSided N ∧ j.val ≤ i.val + oneSided N
    · rw [get_band _ hN hr hc hb, Outcome.index_of_lt (by rw [hl]; exact index_lt hN hr hc hb)] at hold
      rw [get_band _ hN hr' hc' hb, Outcome.index_of_lt (by rw [hl']; exact index_lt hN hr' hc' hb)]
      have := Outcome.ok.inj hold
      simp only [h3, List.getElem_map, h2]
      simp only [h.ncols] at this
      rw [this]
      simp [mul_comm]
    · have e : oneSided N = (N - 1) / 2 := rfl
      rw [(C10_read_outside A i j).1 hr hc (by omega)] at hold
      rw [(C10_read_outside C i j).1 hr' hc' (by omega)]
      rw [Matrix.smul_apply, ← Outcome.ok.inj hold]; simp
  refine ⟨key _ h.nrows h.ncols rfl, ?_⟩
  intro B P hB
  unfold NDiag.scaleInto
  rw [if_neg (by rw [h.ncols, hB.ncols, h.nrows, hB.nrows]; simp),
    overwrite_eq (by simp [h.length, hB.length])]
  exact ⟨_, rfl, key _ hB.nrows hB.ncols rfl⟩

/-- Finding: `new` ignores the requested value.  The entry at a band coordinate is the storage
position of that coordinate, whatever the value asked for. -/
theorem C10_violated_new [CommRing T] {N : ℕ} (hN : N % 2 = 1) (v : T) (m n : ℕ) :
    ∃ A, NDiag.new N v m n = .ok A ∧
      ∀ (i : Fin m) (j : Fin n), i.val ≤ j.val + (N - 1) / 2 ∧ j.val ≤ i.val + (N - 1) / 2 →
        A.get i j = .ok ((accNInRow N i n + j - zeroesBefore N i : ℕ) : T) := by
  unfold NDiag.new
  rw [if_neg (by omega)]
  refine ⟨_, rfl, fun i j hb => ?_⟩
  rw [get_band _ hN i.2 j.2 hb, Outcome.index_of_lt (by simpa using index_lt hN i.2 j.2 hb)]
  simp

/-- In particular a matrix created "full of ones" holds a zero at its first entry. -/
theorem C10_violated_new_witness :
    ∃ A : NDiag 3 ℤ, NDiag.new 3 1 2 2 = .ok A ∧ A.get 0 0 = .ok 0 := by
  refine ⟨_, rfl, by decide⟩

/-! ### The product with a column -/

private theorem slice_ok {l : List T} {a b : ℕ} (h1 : a ≤ b) (h2 : b ≤ l.length) :
    slice l a b = .ok ((l.drop a).take (b - a)) := by
  unfold slice; rw [if_pos ⟨h1, h2⟩]

private theorem nInRow_fits {N row n : ℕ} (hN : N % 2 = 1) (hw : N - 1 ≤ n) (hr : row < n) :
    zeroesBefore N row + nInRow N row n ≤ n ∧ 0 < nInRow N row n := by
  unfold nInRow zeroesBefore
  have : oneSided N = (N - 1) / 2 := rfl
  split_ifs <;> omega

private theorem row_sum [Semiring T] {N : ℕ} (hN : N % 2 = 1) {A : NDiag N T} {n : ℕ} (hw : N - 1 ≤ n)
    {M : Matrix (Fin n) (Fin n) T} (h : NDiag.Rep A M) (x : Fin n → T) (i : Fin n) :
    (List.zipWith (· * ·)
      ((A.data.drop (accNInRow N i n)).take (nInRow N i n))
      (((List.ofFn x).drop (zeroesBefore N i)).take (nInRow N i n))).foldl (· + ·) 0
      = ∑ j, M i j * x j := by
  have hfit := nInRow_fits hN hw i.2
  have hs : oneSided N = (N - 1) / 2 := rfl
  set zb := zeroesBefore N i with hzb
  set nz := nInRow N i n with hnz
  have hl : A.data.length = accNInRow N A.nrows A.ncols := by rw [h.length, h.nrows, h.ncols]
  have hacc : accNInRow N i n + nz ≤ A.data.length := by
    rw [h.length, hnz, ← acc_succ]; exact acc_mono N n i.2
  -- both factors, as a slice of the products over the full row
  have key : List.zipWith (· * ·) ((A.data.drop (accNInRow N i n)).take nz)
      (((List.ofFn x).drop zb).take nz)
      = ((List.ofFn (fun j => M i j * x j)).take (zb + nz)).drop zb := by
    apply List.ext_getElem?
    intro k
    by_cases hk : k < nz
    · have hj : zb + k < n := by omega
      have hb : i.val ≤ (zb + k) + oneSided N ∧ zb + k ≤ i.val + oneSided N := by
        rw [hzb] at *
        rw [hnz] at hk
        unfold nInRow at hk
        unfold zeroesBefore at hk ⊢
        split_ifs at hk ⊢ <;> omega
      have hg := h.get i ⟨zb + k, hj⟩
      rw [get_band _ hN (by rw [h.nrows]; exact i.2) (by rw [h.ncols]; exact hj) hb] at hg
      simp only [h.ncols] at hg
      have e : accNInRow N i n + (zb + k) - zeroesBefore N i = accNInRow N i n + k := by omega
      rw [e] at hg
      rw [Outcome.index_of_lt (by omega)] at hg
      have hv := Outcome.ok.inj hg
      rw [List.getElem?_zipWith, List.getElem?_take_of_lt hk, List.getElem?_take_of_lt hk,
        List.getElem?_drop, List.getElem?_drop, List.getElem?_drop,
        List.getElem?_take_of_lt (by omega), List.getElem?_eq_getElem (by omega), hv]
      simp [hj]
    · rw [List.getElem?_eq_none (by simp; omega), List.getElem?_eq_none (by simp; omega)]
  rw [key, ← List.sum_eq_foldl, sum_drop_take]
  apply Finset.sum_congr rfl
  intro j _
  split_ifs with hc
  · rfl
  · -- outside of the slice the entry is zero
    have hj := j.2
    have hb : i.val + oneSided N < j.val ∨ j.val + oneSided N < i.val := by
      by_contra hcon
      have := offset_lt (r := i.val) (c := j.val) hN hj (by omega)
      omega
    have := (C10_read_outside A i j).1 (by rw [h.nrows]; exact i.2) (by rw [h.ncols]; exact hj) (by omega)
    rw [h.get i j] at this
    rw [Outcome.ok.inj this, zero_mul]

private theorem loop_ok [Semiring T] {N : ℕ} (hN : N % 2 = 1) {A : NDiag N T} {n : ℕ} (hw : N - 1 ≤ n)
    {M : Matrix (Fin n) (Fin n) T} (h : NDiag.Rep A M) (x : Fin n → T) (k row : ℕ)
    (hk : row + k = n) :
    ∃ l, columnProdLoop A (List.ofFn x) k row (accNInRow N row n) = .ok l ∧ l.length = k ∧
      ∀ t (ht : row + t < n), l[t]? = some (∑ j, M ⟨row + t, ht⟩ j * x j) := by
  induction k generalizing row with
  | zero => exact ⟨[], rfl, rfl, fun t ht => by omega⟩
  | succ k ih =>
    have hr : row < n := by omega
    obtain ⟨l, h1, h2, h3⟩ := ih (row + 1) (by omega)
    have hfit := nInRow_fits hN hw hr
    have hacc : accNInRow N row n + nInRow N row n ≤ A.data.length := by
      rw [h.length, ← acc_succ]; exact acc_mono N n hr
    refine ⟨(∑ j, M ⟨row, hr⟩ j * x j) :: l, ?_, by simp [h2], ?_⟩
    · unfold columnProdLoop
      simp only [h.ncols]
      rw [if_pos hfit.2, slice_ok (by omega) hacc, Nat.add_sub_cancel_left]
      simp only []
      rw [slice_ok (by omega) (by simpa using hfit.1), Nat.add_sub_cancel_left]
      simp only []
      rw [← acc_succ, h1]
      simp only []
      rw [row_sum hN hw h x ⟨row, hr⟩]
    · intro t ht
      cases t with
      | zero => simp
      | succ t =>
        rw [List.getElem?_cons_succ, h3 t (by omega)]
        simp only [show row + 1 + t = row + (t + 1) by omega]

/-- `column_prod_into` of a square matrix whose band fits (`N - 1 ≤ n`) is the matrix-vector
product.

Missing: matrices narrower than their band, for which it panics, and those that are not square, whose last rows are lost (`C10_violated_narrow`, `C10_violated_tall`). -/
theorem C10_column_prod_partial [Semiring T] {N : ℕ} (hN : N % 2 = 1) {A : NDiag N T} {n : ℕ}
    (hw : N - 1 ≤ n) {M : Matrix (Fin n) (Fin n) T} (h : NDiag.Rep A M) (x y : Fin n → T) :
    A.columnProdInto (List.ofFn x) (List.ofFn y) = .ok (List.ofFn (M.mulVec x)) := by
  obtain ⟨l, h1, h2, h3⟩ := loop_ok hN hw h x n 0 (by omega)
  unfold columnProdInto
  rw [if_neg (by simp [h.ncols]), if_neg (by simp)]
  have : accNInRow N 0 n = 0 := rfl
  rw [this] at h1
  rw [List.length_ofFn, h1]
  congr 1
  apply List.ext_getElem?
  intro t
  by_cases ht : t < n
  · rw [h3 t (by omega)]
    simp [ht, Matrix.mulVec, dotProduct]
  · rw [List.getElem?_eq_none (by omega), List.getElem?_eq_none (by simp; omega)]

/-- Mismatched lengths are errors. -/
theorem C10_column_prod_mismatch [Semiring T] {N : ℕ} (A : NDiag N T) (x y : List T)
    (h : x.length ≠ A.ncols ∨ x.length ≠ y.length) : A.columnProdInto x y = .err := by
  unfold columnProdInto
  by_cases h1 : x.length ≠ A.ncols
  · rw [if_pos h1]
  · rw [if_neg h1, if_pos (by tauto)]

/-- Finding: on square matrices narrower than the band (`0 < n < N - 1`) the product panics. -/
theorem C10_violated_narrow [Semiring T] {N : ℕ} (hN : N % 2 = 1) (A : NDiag N T) (x y : List T)
    (hw : A.ncols < N - 1) (h0 : 0 < A.ncols) (hx : x.length = A.ncols) (hy : y.length = x.length) :
    A.columnProdInto x y = .panic := by
  unfold columnProdInto
  rw [if_neg (by simpa using hx), if_neg (by simpa using hy.symm)]
  -- the loop reaches a row whose slots exceed the width
  have hs : oneSided N = (N - 1) / 2 := rfl
  have key : ∀ k row acc, row + k = A.ncols → row < oneSided N → 0 < k →
      columnProdLoop A x k row acc = .panic := by
    intro k
    induction k with
    | zero => intro _ _ _ _ h; omega
    | succ k ih =>
      intro row acc hk hrow _
      unfold columnProdLoop
      have hnz : nInRow N row A.ncols = oneSided N + 1 + row := by unfold nInRow; rw [if_pos hrow]
      have hzb : zeroesBefore N row = 0 := by unfold zeroesBefore; rw [if_pos hrow]
      simp only [hnz, hzb]
      rw [if_pos (by omega)]
      unfold slice
      split_ifs with c1 c2
      · simp only [Nat.zero_add]
        rw [ih (row + 1) _ (by omega) (by omega) (by omega)]
      all_goals rfl
  exact key x.length 0 0 (by omega) (by omega) (by omega)

/-- Finding: on a matrix with more rows than columns the product is accepted, but the result
has only as many entries as the matrix has columns: the remaining rows are dropped. -/
theorem C10_violated_tall :
    ∃ A : NDiag 3 ℤ, A.nrows = 4 ∧ A.ncols = 2 ∧ A.data.length = accNInRow 3 4 2 ∧
      A.columnProdInto [1, 1] [0, 0] = .ok [2, 2] ∧ A.get 2 1 = .ok 1 := by
  refine ⟨⟨4, 2, [1, 1, 1, 1, 1]⟩, rfl, rfl, rfl, by decide, by decide⟩

example : NDiag.Rep (⟨3, 3, [2, 1, 1, 2, 1, 1, 2]⟩ : NDiag 3 ℤ)
    (!![2, 1, 0; 1, 2, 1; 0, 1, 2] : Matrix (Fin 3) (Fin 3) ℤ) := by
  refine ⟨rfl, rfl, by decide, ?_⟩
  decide

end Simple.Matrix
