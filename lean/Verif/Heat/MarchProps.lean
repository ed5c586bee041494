import Mathlib.Analysis.Calculus.IteratedDeriv.Defs
import Mathlib.Analysis.Calculus.Deriv.Prod
import Mathlib.Analysis.Calculus.Deriv.Comp
import Mathlib.Analysis.Calculus.Deriv.Add
import Mathlib.Analysis.Calculus.Deriv.Mul
import Mathlib.Topology.Algebra.Module.FiniteDimension
import Mathlib.LinearAlgebra.Matrix.ToLin
import Mathlib.Tactic.Module
import Mathlib.Analysis.SpecialFunctions.ExpDeriv
import Verif.Heat.ChunkProps

/-! # C29: the march of a chunk through time -/

namespace Simple.Heat

open Simple.Matrix Spec

set_option linter.unusedSectionVars false

variable {F : Type*} [Field F]

/-! ## Lists -/

private theorem addAssign_ofFn : ∀ {n : ℕ} (x y : Fin n → F),
    addAssign (List.ofFn x) (List.ofFn y) = List.ofFn (x + y)
  | 0, x, y => by simp [addAssign]
  | n + 1, x, y => by
    rw [List.ofFn_succ, List.ofFn_succ, addAssign, addAssign_ofFn, List.ofFn_succ]
    rfl

theorem scaleList_ofFn {n : ℕ} (x : Fin n → F) (v : F) :
    scaleList (List.ofFn x) v = List.ofFn (v • x) := by
  unfold scaleList
  rw [List.map_ofFn]
  congr 1
  funext i
  simp [mul_comm]

private theorem halfInto_ofFn : ∀ {n : ℕ} (x y : Fin n → F),
    halfInto (List.ofFn x) (List.ofFn y) = List.ofFn ((1 / 2 : F) • y)
  | 0, x, y => by simp [halfInto]
  | n + 1, x, y => by
    rw [List.ofFn_succ, List.ofFn_succ, halfInto, halfInto_ofFn, List.ofFn_succ]
    rfl

private theorem ofFn_of_length {n : ℕ} (l : List F) (h : l.length = n) : ∃ x : Fin n → F, l = List.ofFn x := by
  subst h
  exact ⟨fun i => l[i], by simp⟩

/-! ## Runge–Kutta -/

namespace Spec

/-- The memory of a chunk of `n` nodes, in which all has the right size. -/
structure Sized (n : ℕ) (mem : ChunkMemory F) : Prop where
  temps : mem.temps.length = n
  aux : mem.aux.length = n
  k1 : mem.k1.length = n
  k2 : mem.k2.length = n
  k3 : mem.k3.length = n
  k4 : mem.k4.length = n

/-- Memory with which a chunk of `n` nodes can march. -/
structure Fits (n : ℕ) (mem : ChunkMemory F) : Prop where
  sized : Sized n mem
  c : mem.c.length = n
  q : mem.q.length = n
  k : ∃ M : Matrix (Fin n) (Fin n) F, NDiag.Rep mem.k M

/-- Fourth-order Taylor polynomial of the solution of `T' = A T + q` from `x`, at time 1: its first
derivative is `A x + q` and each of the others is `A` times the previous one. -/
def taylor {n : ℕ} (A : Matrix (Fin n) (Fin n) F) (q x : Fin n → F) : Fin n → F :=
  let d1 := A.mulVec x + q
  let d2 := A.mulVec d1
  let d3 := A.mulVec d2
  let d4 := A.mulVec d3
  x + d1 + (1 / 2 : F) • d2 + (1 / 6 : F) • d3 + (1 / 24 : F) • d4

end Spec

/-- C29: a step of `rk4` takes the temperatures `x` to the fourth-order Taylor polynomial of the
solution of `T' = A T + q`; the matrix and `q` remain the same. -/
theorem C29_rk4 [CharZero F] {n : ℕ} (hn : 2 ≤ n) (mem : ChunkMemory F) (hs : Sized n mem)
    (A : Matrix (Fin n) (Fin n) F) (hA : NDiag.Rep mem.k A) (q x : Fin n → F)
    (hq : mem.q = List.ofFn q) (hx : mem.temps = List.ofFn x) :
    ∃ mem', rk4 mem = .ok mem' ∧ mem'.temps = List.ofFn (taylor A q x) ∧
      mem'.k = mem.k ∧ mem'.q = mem.q ∧ mem'.c = mem.c ∧ Sized n mem' := by
  obtain ⟨a, ha⟩ := ofFn_of_length mem.aux hs.aux
  obtain ⟨k1, h1⟩ := ofFn_of_length mem.k1 hs.k1
  obtain ⟨k2, h2⟩ := ofFn_of_length mem.k2 hs.k2
  obtain ⟨k3, h3⟩ := ofFn_of_length mem.k3 hs.k3
  obtain ⟨k4, h4⟩ := ofFn_of_length mem.k4 hs.k4
  have prod : ∀ y z : Fin n → F, mem.k.columnProdInto (List.ofFn y) (List.ofFn z)
      = .ok (List.ofFn (A.mulVec y)) := fun y z => C10_column_prod_partial (by norm_num) (by omega) hA y z
  unfold rk4
  simp only [hx, hq, ha, h1, h2, h3, h4, prod, Outcome.bind, addAssign_ofFn, halfInto_ofFn,
    copyFromSlice, List.length_ofFn, if_true, scaleList_ofFn]
  refine ⟨_, rfl, ?_, rfl, rfl, rfl, ⟨by simp, by simp, by simp, by simp, by simp, by simp⟩⟩
  simp only
  congr 1
  unfold taylor
  simp only [Matrix.mulVec_add, Matrix.mulVec_smul]
  have h2 : (2 : F) ≠ 0 := two_ne_zero
  have h3 : (3 : F) ≠ 0 := three_ne_zero
  module

/-- C29: the temperatures of a system at rest do not change. -/
theorem C29_equilibrium [CharZero F] {n : ℕ} (hn : 2 ≤ n) (mem : ChunkMemory F) (hs : Sized n mem)
    (A : Matrix (Fin n) (Fin n) F) (hA : NDiag.Rep mem.k A) (q x : Fin n → F)
    (hq : mem.q = List.ofFn q) (hx : mem.temps = List.ofFn x) (h0 : A.mulVec x + q = 0) :
    ∃ mem', rk4 mem = .ok mem' ∧ mem'.temps = mem.temps := by
  obtain ⟨mem', h, ht, _⟩ := C29_rk4 hn mem hs A hA q x hq hx
  refine ⟨mem', h, ?_⟩
  rw [ht, hx]
  congr 1
  unfold taylor
  simp [h0]

/-- C29: the step is affine: the step of a combination `s • x + (1 - s) • y` of two states is the
combination of their steps. -/
theorem C29_affine [CharZero F] {n : ℕ} (hn : 2 ≤ n) (mem : ChunkMemory F) (hs : Sized n mem)
    (A : Matrix (Fin n) (Fin n) F) (hA : NDiag.Rep mem.k A) (q x y : Fin n → F) (s : F)
    (hq : mem.q = List.ofFn q) :
    ∃ (mx my mz : ChunkMemory F) (x' y' : Fin n → F),
      rk4 { mem with temps := List.ofFn x } = .ok mx ∧ mx.temps = List.ofFn x' ∧
      rk4 { mem with temps := List.ofFn y } = .ok my ∧ my.temps = List.ofFn y' ∧
      rk4 { mem with temps := List.ofFn (s • x + (1 - s) • y) } = .ok mz ∧
      mz.temps = List.ofFn (s • x' + (1 - s) • y') := by
  have sized : ∀ z : Fin n → F, Sized n { mem with temps := List.ofFn z } := fun z =>
    ⟨by simp, hs.aux, hs.k1, hs.k2, hs.k3, hs.k4⟩
  obtain ⟨mx, h1, t1, _⟩ := C29_rk4 hn { mem with temps := List.ofFn x } (sized x) A hA q x hq rfl
  obtain ⟨my, h2, t2, _⟩ := C29_rk4 hn { mem with temps := List.ofFn y } (sized y) A hA q y hq rfl
  obtain ⟨mz, h3, t3, _⟩ := C29_rk4 hn { mem with temps := List.ofFn (s • x + (1 - s) • y) }
    (sized _) A hA q _ hq rfl
  refine ⟨mx, my, mz, _, _, h1, t1, h2, t2, h3, ?_⟩
  rw [t3]
  congr 1
  unfold taylor
  simp only [Matrix.mulVec_add, Matrix.mulVec_smul]
  module

/-- Not so with a chunk of a single node: the band does not fit in the matrix and the step panics. -/
theorem C29_violated_single_node (mem : ChunkMemory F) (hs : Sized 1 mem)
    (A : Matrix (Fin 1) (Fin 1) F) (hA : NDiag.Rep mem.k A) : rk4 mem = .panic := by
  have := C10_violated_narrow (by norm_num) mem.k mem.temps mem.k1 (by rw [hA.ncols]; norm_num)
    (by rw [hA.ncols]; norm_num) (by rw [hA.ncols, hs.temps]) (by rw [hs.temps, hs.k1])
  unfold rk4
  rw [this]
  rfl

/-! ## Dividing by the masses -/

private theorem rep_scale {n : ℕ} {k : NDiag 3 F} {M : Matrix (Fin n) (Fin n) F} (h : NDiag.Rep k M)
    (i j : ℕ) (hi : i < n) (hj : j < n) (hb : i ≤ j + 1 ∧ j ≤ i + 1) (v : F) :
    ∃ k', written (k.scaleElement i j v) = .ok k' ∧
      NDiag.Rep k' (fun a b => if a.val = i ∧ b.val = j then M a b * v else M a b) := by
  obtain ⟨k', h1, h2⟩ := C10_write (by norm_num) h (.scale v) ⟨i, hi⟩ ⟨j, hj⟩ (by simpa using hb)
  refine ⟨k', ?_, ?_⟩
  · have : k.scaleElement i j v = (.ok v, k') := h1
    rw [this]; rfl
  · have e : (fun a b : Fin n => if a.val = i ∧ b.val = j then M a b * v else M a b)
        = (fun i' j' => if i' = ⟨i, hi⟩ ∧ j' = ⟨j, hj⟩ then (NDWrite.scale v).apply (M ⟨i, hi⟩ ⟨j, hj⟩)
            else M i' j') := by
      funext a b
      by_cases hab : a.val = i ∧ b.val = j
      · obtain ⟨ha, hb'⟩ := hab
        have e1 : a = ⟨i, hi⟩ := Fin.ext ha
        have e2 : b = ⟨j, hj⟩ := Fin.ext hb'
        rw [if_pos ⟨ha, hb'⟩, if_pos ⟨e1, e2⟩, e1, e2]
        rfl
      · rw [if_neg hab, if_neg]
        rintro ⟨rfl, rfl⟩
        exact hab ⟨rfl, rfl⟩
    rw [e]
    exact h2

private theorem scaleRow_ok {n : ℕ} (row : ℕ) (hr : row < n) (v : F) : ∀ (count col : ℕ) (k : NDiag 3 F)
    (M : Matrix (Fin n) (Fin n) F), NDiag.Rep k M → (count = 0 ∨ col + count ≤ n) →
    row ≤ col + 1 → col + count ≤ row + 2 →
    ∃ k', scaleRow row v count col k = .ok k' ∧
      NDiag.Rep k' (fun a b => if a.val = row ∧ col ≤ b.val ∧ b.val < col + count then M a b * v else M a b)
  | 0, col, k, M, h, _, _, _ => by
    refine ⟨k, rfl, ?_⟩
    have e : (fun a b : Fin n => if a.val = row ∧ col ≤ b.val ∧ b.val < col + 0 then M a b * v else M a b)
        = M := by
      funext a b
      rw [if_neg (by omega)]
    rw [e]; exact h
  | count + 1, col, k, M, h, hn, h1, h2 => by
    obtain ⟨k1, a1, b1⟩ := rep_scale h row col hr (by omega) (by omega) v
    obtain ⟨k2, a2, b2⟩ := scaleRow_ok row hr v count (col + 1) k1 _ b1 (by omega) (by omega) (by omega)
    refine ⟨k2, ?_, ?_⟩
    · rw [scaleRow, a1]; exact a2
    · have e : (fun a b : Fin n => if a.val = row ∧ col ≤ b.val ∧ b.val < col + (count + 1) then M a b * v
          else M a b) = (fun a b => if a.val = row ∧ col + 1 ≤ b.val ∧ b.val < col + 1 + count then
            (if a.val = row ∧ b.val = col then M a b * v else M a b) * v
            else (if a.val = row ∧ b.val = col then M a b * v else M a b)) := by
        funext a b
        by_cases c1 : a.val = row ∧ b.val = col
        · rw [if_pos (by omega), if_neg (by omega), if_pos c1]
        · rw [if_neg c1]
          by_cases c2 : a.val = row ∧ col + 1 ≤ b.val ∧ b.val < col + 1 + count
          · rw [if_pos (by omega), if_pos c2]
          · rw [if_neg (by omega), if_neg c2]
      rw [e]; exact b2

private theorem rearrangeLoop_ok {n : ℕ} (dt : F) (c : Fin n → F) : ∀ (count row : ℕ) (k : NDiag 3 F)
    (M : Matrix (Fin n) (Fin n) F) (q : Fin n → F), NDiag.Rep k M → row + count = n →
    (∀ i j : Fin n, i.val + 1 < j.val ∨ j.val + 1 < i.val → M i j = 0) →
    ∃ k', rearrangeLoop dt (List.ofFn c) count row k (List.ofFn q)
        = .ok (k', List.ofFn fun i => if row ≤ i.val then q i * (dt / c i) else q i) ∧
      NDiag.Rep k' (fun a b => if row ≤ a.val then M a b * (dt / c a) else M a b)
  | 0, row, k, M, q, h, hr, _ => by
    refine ⟨k, ?_, ?_⟩
    · rw [rearrangeLoop]
      congr 3
      funext i
      rw [if_neg (by omega)]
    · have e : (fun a b : Fin n => if row ≤ a.val then M a b * (dt / c a) else M a b) = M := by
        funext a b
        rw [if_neg (by omega)]
      rw [e]; exact h
  | count + 1, row, k, M, q, h, hr, hband => by
    have hrow : row < n := by omega
    set ini := if row = 0 then 0 else row - 1 with hini
    set fin := if row = n - 1 then n - 1 else row + 1 with hfin
    have i1 : row ≤ ini + 1 := by rw [hini]; split_ifs <;> omega
    have i2 : ini ≤ row := by rw [hini]; split_ifs <;> omega
    have i3 : fin + 1 ≤ n := by rw [hfin]; split_ifs <;> omega
    have i4 : row ≤ fin ∧ fin ≤ row + 1 := by rw [hfin]; split_ifs <;> omega
    obtain ⟨k1, a1, b1⟩ := scaleRow_ok row hrow (dt / c ⟨row, hrow⟩) (fin + 1 - ini) ini k M h
      (by omega) i1 (by omega)
    have e1 : (fun a b : Fin n => if a.val = row ∧ ini ≤ b.val ∧ b.val < ini + (fin + 1 - ini) then
        M a b * (dt / c ⟨row, hrow⟩) else M a b)
        = fun a b => if a.val = row then M a b * (dt / c a) else M a b := by
      funext a b
      by_cases ha : a.val = row
      · have ea : a = ⟨row, hrow⟩ := Fin.ext ha
        rw [if_pos ha]
        by_cases hb : ini ≤ b.val ∧ b.val < ini + (fin + 1 - ini)
        · rw [if_pos ⟨ha, hb⟩, ea]
        · rw [if_neg (fun h => hb h.2)]
          have : M a b = 0 := by
            apply hband
            have hbn := b.2
            rw [hini, hfin] at hb
            split_ifs at hb <;> omega
          rw [this, zero_mul]
      · rw [if_neg ha, if_neg (fun h => ha h.1)]
    rw [e1] at b1
    have hq1 : modifyAt (List.ofFn q) row (· * (dt / c ⟨row, hrow⟩))
        = .ok (List.ofFn fun i => if i.val = row then q i * (dt / c i) else q i) := by
      unfold modifyAt
      rw [if_pos (by simpa using hrow)]
      congr 1
      apply List.ext_getElem?
      intro j
      rw [List.getElem?_modify]
      by_cases hj : j < n
      · simp only [List.getElem?_ofFn, hj, dite_true, Option.map_eq_map, Option.map_some]
        by_cases e : row = j
        · subst e; simp
        · have : ¬ j = row := fun h => e h.symm
          simp [e, this]
      · simp [hj]
    obtain ⟨k2, a2, b2⟩ := rearrangeLoop_ok dt c count (row + 1) k1 _ _ b1 (by omega) (by
      intro i j hij
      change (if i.val = row then M i j * (dt / c i) else M i j) = 0
      rw [hband i j hij]
      simp)
    refine ⟨k2, ?_, ?_⟩
    · rw [rearrangeLoop, Outcome.index_of_lt (by simpa using hrow)]
      simp only [Outcome.bind, List.length_ofFn, List.getElem_ofFn]
      rw [← hini, ← hfin, a1]
      simp only [hq1]
      rw [a2]
      congr 3
      funext i
      by_cases c1 : row + 1 ≤ i.val
      · rw [if_pos c1, if_neg (by omega), if_pos (by omega)]
      · rw [if_neg c1]
        by_cases c2 : i.val = row
        · rw [if_pos c2, if_pos (by omega)]
        · rw [if_neg c2, if_neg (by omega)]
    · have e : (fun a b : Fin n => if row ≤ a.val then M a b * (dt / c a) else M a b)
          = (fun a b => if row + 1 ≤ a.val then
              (if a.val = row then M a b * (dt / c a) else M a b) * (dt / c a)
              else (if a.val = row then M a b * (dt / c a) else M a b)) := by
        funext a b
        by_cases c1 : row + 1 ≤ a.val
        · rw [if_pos c1, if_neg (by omega : ¬ a.val = row), if_pos (by omega : row ≤ a.val)]
        · rw [if_neg c1]
          by_cases c2 : a.val = row
          · rw [if_pos c2, if_pos (by omega)]
          · rw [if_neg c2, if_neg (by omega)]
      rw [e]; exact b2

/-- C29: `rearrange_k` turns `C T' = K T + q` into `T' = (Δt C⁻¹ K) T + Δt C⁻¹ q`. -/
theorem C29_rearrange {n : ℕ} (dt : F) (mem : ChunkMemory F)
    (K : Matrix (Fin n) (Fin n) F) (hK : NDiag.Rep mem.k K) (c q : Fin n → F)
    (hc : mem.c = List.ofFn c) (hq : mem.q = List.ofFn q)
    (hband : ∀ i j : Fin n, i.val + 1 < j.val ∨ j.val + 1 < i.val → K i j = 0) :
    ∃ k, rearrangeK dt mem = .ok { mem with k := k, q := List.ofFn fun i => dt / c i * q i } ∧
      NDiag.Rep k (Matrix.diagonal (fun i => dt / c i) * K) := by
  obtain ⟨k, h1, h2⟩ := rearrangeLoop_ok dt c n 0 mem.k K q hK (by omega) hband
  refine ⟨k, ?_, ?_⟩
  · unfold rearrangeK
    rw [hc, hq, List.length_ofFn, h1]
    simp only [Outcome.bind, Nat.zero_le, if_true]
    congr 3
    funext i
    rw [mul_comm]
  · have e : (Matrix.diagonal (fun i => dt / c i) * K)
        = fun a b => if 0 ≤ a.val then K a b * (dt / c a) else K a b := by
      ext a b
      rw [Matrix.diagonal_mul]
      simp [mul_comm]
    rw [e]
    exact h2

/-! ## Copies -/

private theorem storeAt_ok : ∀ (xs l : List F) (i : ℕ), i + xs.length ≤ l.length →
    ∃ l', storeAt l i xs = .ok l' ∧ l'.length = l.length ∧
      ∀ j : ℕ, l'[j]? = if i ≤ j ∧ j < i + xs.length then xs[j - i]? else l[j]?
  | [], l, i, _ => ⟨l, rfl, rfl, fun j => by rw [if_neg (by simp)]⟩
  | x :: xs, l, i, h => by
    rw [List.length_cons] at h
    obtain ⟨l', h1, h2, h3⟩ := storeAt_ok xs (l.modify i fun _ => x) (i + 1) (by simp; omega)
    refine ⟨l', ?_, by simpa using h2, fun j => ?_⟩
    · rw [storeAt, modifyAt, if_pos (by omega)]
      exact h1
    · rw [h3, List.length_cons, List.getElem?_modify]
      by_cases c1 : i + 1 ≤ j ∧ j < i + 1 + xs.length
      · rw [if_pos c1, if_pos (by omega)]
        obtain ⟨k, rfl⟩ : ∃ k, j = i + 1 + k := ⟨j - (i + 1), by omega⟩
        have e1 : i + 1 + k - (i + 1) = k := by omega
        have e2 : i + 1 + k - i = k + 1 := by omega
        rw [e1, e2, List.getElem?_cons_succ]
      · rw [if_neg c1]
        by_cases c2 : i = j
        · subst c2
          have hl : i < l.length := by omega
          simp [List.getElem?_eq_getElem hl]
        · rw [if_neg (by omega), Option.map_eq_map]
          simp [c2]

theorem addSolar_ok (solar : List F) : ∀ (count a b : ℕ) (q : List F),
    a + count ≤ q.length → b + count ≤ solar.length →
    ∃ l', addSolar solar count a b q = .ok l' ∧ l'.length = q.length ∧
      ∀ j : ℕ, l'[j]? = if a ≤ j ∧ j < a + count then
        q[j]?.map (· + (solar[b + (j - a)]?).getD 0) else q[j]?
  | 0, a, b, q, _, _ => ⟨q, rfl, rfl, fun j => by rw [if_neg (by omega)]⟩
  | count + 1, a, b, q, h1, h2 => by
    have hb : b < solar.length := by omega
    obtain ⟨l', e1, e2, e3⟩ := addSolar_ok solar count (a + 1) (b + 1) (q.modify a (· + solar[b]))
      (by simp; omega) (by omega)
    refine ⟨l', ?_, by simpa using e2, fun j => ?_⟩
    · rw [addSolar, getT, List.getElem?_eq_getElem hb]
      simp only [need, Outcome.bind, modifyAt]
      rw [if_pos (by omega)]
      exact e1
    · rw [e3, List.getElem?_modify]
      by_cases c1 : a + 1 ≤ j ∧ j < a + 1 + count
      · rw [if_pos c1, if_pos (by omega)]
        have e : b + 1 + (j - (a + 1)) = b + (j - a) := by omega
        have : a ≠ j := by omega
        rw [e]
        simp [this]
      · rw [if_neg c1]
        by_cases c2 : a = j
        · subst c2
          rw [if_pos (by omega)]
          simp [List.getElem?_eq_getElem hb]
        · rw [if_neg (by omega)]
          simp [c2]

private theorem loadTemps_ok (T : List F) : ∀ (count a b : ℕ) (l : List F),
    a + count ≤ l.length → b + count ≤ T.length →
    ∃ l', loadTemps T count a b l = .ok l' ∧ l'.length = l.length ∧
      ∀ j : ℕ, l'[j]? = if a ≤ j ∧ j < a + count then T[b + (j - a)]? else l[j]?
  | 0, a, b, q, _, _ => ⟨q, rfl, rfl, fun j => by rw [if_neg (by omega)]⟩
  | count + 1, a, b, l, h1, h2 => by
    have hb : b < T.length := by omega
    obtain ⟨l', e1, e2, e3⟩ := loadTemps_ok T count (a + 1) (b + 1) (l.modify a (fun _ => T[b]))
      (by simp; omega) (by omega)
    refine ⟨l', ?_, by simpa using e2, fun j => ?_⟩
    · rw [loadTemps, getT, List.getElem?_eq_getElem hb]
      simp only [need, Outcome.bind, modifyAt]
      rw [if_pos (by omega)]
      exact e1
    · rw [e3, List.getElem?_modify]
      by_cases c1 : a + 1 ≤ j ∧ j < a + 1 + count
      · rw [if_pos c1, if_pos (by omega)]
        have e : b + 1 + (j - (a + 1)) = b + (j - a) := by omega
        rw [e]
      · rw [if_neg c1]
        by_cases c2 : a = j
        · subst c2
          have hl : a < l.length := by omega
          rw [if_pos (by omega)]
          simp [List.getElem?_eq_getElem hb, List.getElem?_eq_getElem hl]
        · rw [if_neg (by omega)]
          simp [c2]

private theorem storeTemps_ok (T : List F) : ∀ (count a b : ℕ) (l : List F),
    a + count ≤ T.length → b + count ≤ l.length →
    ∃ l', storeTemps T count a b l = .ok l' ∧ l'.length = l.length ∧
      ∀ j : ℕ, l'[j]? = if b ≤ j ∧ j < b + count then T[a + (j - b)]? else l[j]?
  | 0, a, b, q, _, _ => ⟨q, rfl, rfl, fun j => by rw [if_neg (by omega)]⟩
  | count + 1, a, b, l, h1, h2 => by
    have ha : a < T.length := by omega
    obtain ⟨l', e1, e2, e3⟩ := storeTemps_ok T count (a + 1) (b + 1) (l.set b T[a])
      (by omega) (by simp; omega)
    refine ⟨l', ?_, by simpa using e2, fun j => ?_⟩
    · rw [storeTemps, Outcome.index_of_lt ha]
      simp only [Outcome.bind]
      rw [if_pos (by omega)]
      exact e1
    · rw [e3, List.getElem?_set]
      by_cases c1 : b + 1 ≤ j ∧ j < b + 1 + count
      · rw [if_pos c1, if_pos (by omega)]
        have e : a + 1 + (j - (b + 1)) = a + (j - b) := by omega
        rw [e]
      · rw [if_neg c1]
        by_cases c2 : b = j
        · subst c2
          rw [if_pos rfl, if_pos (by omega), if_pos (by omega)]
          simp [List.getElem?_eq_getElem ha]
        · rw [if_neg c2, if_neg (by omega)]

/-! ## The march of the chunk -/

namespace Spec

/-- The equation that a chunk of a wall follows, `C T' = K T + q + solar`, over an interval `dt` and
solved for `T'`: its matrix. -/
def Wall.flowMatrix (w : Wall F) (dt : F) (c : ℕ → F) (ini n : ℕ) : Matrix (Fin n) (Fin n) F :=
  Matrix.diagonal (fun i : Fin n => dt / c (ini + i)) * w.K ini n

/-- Independent term of that equation. -/
def Wall.flowVector (w : Wall F) (dt : F) (c solar : ℕ → F) (ini n : ℕ) : Fin n → F :=
  fun i => dt / c (ini + i) * (w.q ini n i + solar (ini + i))

/-- The nodes of the chunk, after the time step. -/
def Wall.step (w : Wall F) (dt : F) (c solar : ℕ → F) (ini n : ℕ) : Fin n → F :=
  taylor (w.flowMatrix dt c ini n) (w.flowVector dt c solar ini n) (fun i => w.T (ini + i))

/-- The masses of the nodes of a wall. -/
def HasMass (c : ℕ → F) (segments : List (F × UValue F)) : Prop :=
  ∀ (i : ℕ) (s : F × UValue F), segments[i]? = some s → s.1 = c i

end Spec

private theorem K_band (w : Wall F) (ini n : ℕ) (i j : Fin n)
    (h : i.val + 1 < j.val ∨ j.val + 1 < i.val) : w.K ini n i j = 0 := by
  unfold Wall.K
  rw [if_neg (by omega), if_neg (by omega), if_neg (by omega)]

/-- C29: to march a chunk of nodes replaces their temperatures by the fourth-order Taylor polynomial of
the solution of the heat equation of the chunk, and leaves all the others as they were; its memory fits the
chunk again.

Missing: chunks of a single node, for which it panics (`C29_violated_single_node`). -/
theorem C29_march_partial [CharZero F] (w : Wall F) (cav : CavityU F) (segments : List (F × UValue F))
    (temps : List F) (h : w.Held cav segments temps) (c solar : ℕ → F) (hc : HasMass c segments)
    (dt : F) (ini n : ℕ) (hn2 : 2 ≤ n) (hn : ini + n ≤ w.N)
    (mem : ChunkMemory F) (hs : Sized n mem) (hcl : mem.c.length = n) (hql : mem.q.length = n)
    (M0 : Matrix (Fin n) (Fin n) F) (hk : NDiag.Rep mem.k M0) :
    ∃ (temps' : List F) (mem' : ChunkMemory F),
      marchMass cav segments temps ((List.range w.N).map solar) dt w.front w.frontHs w.frontRad
        w.back w.backHs w.backRad ini (ini + n) mem = .ok (temps', mem') ∧
      temps'.length = w.N ∧
      (∀ i : Fin n, temps'[ini + i.val]? = some (w.step dt c solar ini n i)) ∧
      (∀ g : ℕ, ¬ (ini ≤ g ∧ g < ini + n) → temps'[g]? = temps[g]?) ∧ Fits n mem' := by
  have hl : temps.length = w.N := by rw [h.temperatures]; simp
  have en : ini + n - ini = n := by omega
  obtain ⟨k, h1, h2⟩ := C28_matrix w cav segments temps h ini n (by omega) hn mem M0 hk hql
  -- masses
  have hxl : (((segments.drop ini).take n).map Prod.fst).length = n := by
    simp [h.nodes]; omega
  obtain ⟨cl, c1, c2, c3⟩ := storeAt_ok (((segments.drop ini).take n).map Prod.fst)
    (mem.c.map fun _ => 0) 0 (by rw [hxl, List.length_map, hcl]; omega)
  have ec : cl = List.ofFn (fun i : Fin n => c (ini + i)) := by
    apply List.ext_getElem?
    intro j
    rw [c3, hxl]
    by_cases hj : j < n
    · have hseg : ini + j < segments.length := by rw [h.nodes]; omega
      rw [if_pos (by omega), Nat.sub_zero, List.getElem?_map, List.getElem?_take_of_lt hj,
        List.getElem?_drop, List.getElem?_eq_getElem hseg, List.getElem?_ofFn, dif_pos hj]
      have := hc (ini + j) _ (List.getElem?_eq_getElem hseg)
      simp [this]
    · rw [if_neg (by omega), List.getElem?_ofFn, dif_neg hj]
      simp [hcl]; omega
  -- solar radiation
  obtain ⟨ql, q1, q2, q3⟩ := addSolar_ok ((List.range w.N).map solar) n 0 ini (List.ofFn (w.q ini n))
    (by simp) (by simpa using hn)
  have eq' : ql = List.ofFn (fun i : Fin n => w.q ini n i + solar (ini + i)) := by
    apply List.ext_getElem?
    intro j
    rw [q3]
    by_cases hj : j < n
    · rw [if_pos (by omega), List.getElem?_ofFn, dif_pos hj, List.getElem?_ofFn, dif_pos hj,
        List.getElem?_map, List.getElem?_range (by omega)]
      simp
    · rw [if_neg (by omega), List.getElem?_ofFn, dif_neg hj, List.getElem?_ofFn, dif_neg hj]
  -- rearrange
  obtain ⟨k', r1, r2⟩ := C29_rearrange dt { mem with k := k, c := cl, q := ql } (w.K ini n) h2
    (fun i : Fin n => c (ini + i)) (fun i => w.q ini n i + solar (ini + i)) ec eq' (K_band w ini n)
  -- temperatures
  obtain ⟨tl, t1, t2, t3⟩ := loadTemps_ok temps n 0 ini mem.temps (by rw [hs.temps]; omega)
    (by rw [hl]; omega)
  have et : tl = List.ofFn (fun i : Fin n => w.T (ini + i)) := by
    apply List.ext_getElem?
    intro j
    rw [t3]
    by_cases hj : j < n
    · rw [if_pos (by omega), List.getElem?_ofFn, dif_pos hj, h.temperatures,
        List.getElem?_map, List.getElem?_range (by omega)]
      simp
    · rw [if_neg (by omega), List.getElem?_ofFn, dif_neg hj]
      simp [hs.temps]; omega
  obtain ⟨mem', m1, m2, m3, m4, m5, m6⟩ := C29_rk4 hn2
    { mem with k := k', c := cl, q := List.ofFn fun i => dt / c (ini + i) * (w.q ini n i + solar (ini + i)),
               temps := tl }
    ⟨by rw [et]; simp, hs.aux, hs.k1, hs.k2, hs.k3, hs.k4⟩ (w.flowMatrix dt c ini n) r2
    (w.flowVector dt c solar ini n) (fun i => w.T (ini + i)) rfl et
  obtain ⟨gl, g1, g2, g3⟩ := storeTemps_ok mem'.temps n 0 ini temps (by rw [m2]; simp)
    (by rw [hl]; omega)
  refine ⟨gl, mem', ?_, by rw [g2, hl], fun i => ?_, fun g hg => ?_,
    ⟨m6, by rw [m5, ec]; simp, by rw [m4]; simp, ⟨_, by rw [m3]; exact r2⟩⟩⟩
  · unfold marchMass
    rw [h1]
    simp only [Outcome.bind, en, c1, q1, r1, t1, m1, g1]
  · rw [g3, if_pos (by omega), m2, List.getElem?_ofFn, dif_pos (by omega)]
    congr 2
    apply Fin.ext
    simp
  · rw [g3, if_neg hg]

/-- C29: without solar radiation, a wall at the temperature of its surroundings stays as it is. -/
theorem C29_march_rest [CharZero F] (w : Wall F) (t : F) (hu : w.Uniform t) (cav : CavityU F)
    (segments : List (F × UValue F))
    (temps : List F) (h : w.Held cav segments temps) (c : ℕ → F) (hc : HasMass c segments)
    (dt : F) (ini n : ℕ) (hn2 : 2 ≤ n) (hn : ini + n ≤ w.N)
    (mem : ChunkMemory F) (hs : Sized n mem) (hcl : mem.c.length = n) (hql : mem.q.length = n)
    (M0 : Matrix (Fin n) (Fin n) F) (hk : NDiag.Rep mem.k M0) :
    ∃ mem', marchMass cav segments temps ((List.range w.N).map fun _ => 0) dt w.front w.frontHs
        w.frontRad w.back w.backHs w.backRad ini (ini + n) mem = .ok (temps, mem') ∧ Fits n mem' := by
  obtain ⟨temps', mem', h1, h2, h3, h4, h5⟩ := C29_march_partial w cav segments temps h c (fun _ => 0) hc dt ini n hn2
    hn mem hs hcl hql M0 hk
  refine ⟨mem', ?_, h5⟩
  rw [h1]
  congr 2
  apply List.ext_getElem?
  intro g
  by_cases hg : ini ≤ g ∧ g < ini + n
  · obtain ⟨i, rfl⟩ : ∃ i : Fin n, g = ini + i.val := ⟨⟨g - ini, by omega⟩, by simp; omega⟩
    rw [h3, h.temperatures, List.getElem?_map, List.getElem?_range (by omega), Option.map_some]
    congr 1
    have hrest : (w.flowMatrix dt c ini n).mulVec (fun i : Fin n => w.T (ini + i))
        + w.flowVector dt c (fun _ => 0) ini n = 0 := by
      funext j
      have h0 := heat_eq w ini n hn j
      rw [heat_uniform w t hu] at h0
      unfold Wall.flowMatrix Wall.flowVector
      rw [← Matrix.mulVec_mulVec]
      simp only [Pi.add_apply, Matrix.mulVec_diagonal, Pi.zero_apply, add_zero]
      rw [← mul_add, h0, mul_zero]
    unfold Wall.step taylor
    simp only [hrest, Matrix.mulVec_zero]
    simp
  · exact h4 g hg

/-- C29: the heat stored in a chunk that exchanges nothing with what surrounds it changes exactly by
the solar radiation absorbed. -/
theorem C29_energy [CharZero F] (w : Wall F) (c solar : ℕ → F) (dt : F) (ini n : ℕ) (hn2 : 2 ≤ n)
    (hn : ini + n ≤ w.N) (hc : ∀ i : Fin n, c (ini + i) ≠ 0)
    (h0 : w.before ini = 0) (h1 : w.after (ini + n - 1) = 0) (hr : w.frontRad = 0) (hr' : w.backRad = 0) :
    ∑ i : Fin n, c (ini + i) * w.step dt c solar ini n i
      = ∑ i : Fin n, c (ini + i) * w.T (ini + i) + dt * ∑ i : Fin n, solar (ini + i) := by
  have rowsum : ∀ v : Fin n → F, ∑ i : Fin n, c (ini + i) * (w.flowMatrix dt c ini n).mulVec v i = 0 := by
    intro v
    have e : ∀ i : Fin n, c (ini + i) * (w.flowMatrix dt c ini n).mulVec v i
        = dt * ∑ j, w.K ini n i j * v j := by
      intro i
      unfold Wall.flowMatrix
      rw [← Matrix.mulVec_mulVec, Matrix.mulVec_diagonal, ← mul_assoc, mul_div_cancel₀ _ (hc i)]
      rfl
    simp only [e]
    rw [← Finset.mul_sum, Finset.sum_comm]
    have z : ∀ j : Fin n, ∑ i, w.K ini n i j * v j = 0 := by
      intro j
      rw [← Finset.sum_mul]
      have hsym : ∀ i, w.K ini n i j = w.K ini n j i := fun i => (K_symm w ini n).apply j i
      simp only [hsym]
      rw [K_row_sum w ini n hn j]
      have : ((if j.val = 0 then w.before ini else 0) +
        (if j.val + 1 = n then w.after (ini + j) else 0)) = 0 := by
        rw [h0]
        by_cases e2 : j.val + 1 = n
        · have : ini + j.val = ini + n - 1 := by omega
          rw [if_pos e2, this, h1]
          simp
        · rw [if_neg e2]; simp
      rw [this]
      simp
    simp [z]
  have hq : ∀ i : Fin n, w.q ini n i = 0 := by
    intro i
    unfold Wall.q Wall.radiation
    rw [h0, hr, hr']
    by_cases e2 : i.val + 1 = n
    · have : ini + i.val = ini + n - 1 := by omega
      rw [this, h1]
      simp
    · rw [if_neg e2]; simp
  unfold Wall.step taylor
  simp only [Pi.add_apply, Pi.smul_apply, smul_eq_mul, mul_add, Finset.sum_add_distrib]
  have half : ∀ (r : F) (v : Fin n → F), ∑ i : Fin n, c (ini + i) * (r * (w.flowMatrix dt c ini n).mulVec v i) = 0 := by
    intro r v
    have := rowsum v
    calc _ = r * ∑ i : Fin n, c (ini + i) * (w.flowMatrix dt c ini n).mulVec v i := by
            rw [Finset.mul_sum]; apply Finset.sum_congr rfl; intro i _; ring
      _ = 0 := by rw [this, mul_zero]
  rw [half, half, half, rowsum]
  have hf : ∀ i : Fin n, c (ini + i) * w.flowVector dt c solar ini n i = dt * solar (ini + i) := by
    intro i
    unfold Wall.flowVector
    rw [hq, zero_add, ← mul_assoc, mul_div_cancel₀ _ (hc i)]
  simp only [hf]
  rw [← Finset.mul_sum]
  ring

/-! ## The exact solution -/

section Exact

variable {n : ℕ}

/-- C29: `taylor` is what it claims to be: for every exact solution `T` of `T' = A T + q`, the result of
the step of length `dt` is `∑_{k ≤ 4} dtᵏ/k! T⁽ᵏ⁾`. -/
theorem C29_fourth_order (A : Matrix (Fin n) (Fin n) ℝ) (q : Fin n → ℝ) (T : ℝ → Fin n → ℝ)
    (hT : ∀ t, HasDerivAt T (A.mulVec (T t) + q) t) (t dt : ℝ) :
    taylor (dt • A) (dt • q) (T t)
      = ∑ k ∈ Finset.range 5, (dt ^ k / (k.factorial : ℝ)) • iteratedDeriv k T t := by
  have hA : ∀ (f : ℝ → Fin n → ℝ) (f' : Fin n → ℝ) (s : ℝ), HasDerivAt f f' s →
      HasDerivAt (fun s => A.mulVec (f s)) (A.mulVec f') s := by
    intro f f' s hf
    exact ((Matrix.mulVecLin A).toContinuousLinearMap).hasFDerivAt.comp_hasDerivAt s hf
  have i1 : iteratedDeriv 1 T = fun s => A.mulVec (T s) + q := by
    rw [iteratedDeriv_one]; funext s; exact (hT s).deriv
  have i2 : iteratedDeriv 2 T = fun s => A.mulVec (A.mulVec (T s) + q) := by
    rw [iteratedDeriv_succ, i1]
    funext s
    exact ((hA T _ s (hT s)).add_const q).deriv
  have i3 : iteratedDeriv 3 T = fun s => A.mulVec (A.mulVec (A.mulVec (T s) + q)) := by
    rw [iteratedDeriv_succ, i2]
    funext s
    exact (hA _ _ s ((hA T _ s (hT s)).add_const q)).deriv
  have i4 : iteratedDeriv 4 T = fun s => A.mulVec (A.mulVec (A.mulVec (A.mulVec (T s) + q))) := by
    rw [iteratedDeriv_succ, i3]
    funext s
    exact (hA _ _ s (hA _ _ s ((hA T _ s (hT s)).add_const q))).deriv
  simp only [Finset.sum_range_succ, Finset.sum_range_zero, i1, i2, i3, i4, iteratedDeriv_zero]
  unfold taylor
  simp only [Matrix.smul_mulVec, Matrix.mulVec_add, Matrix.mulVec_smul, Nat.factorial]
  push_cast
  module

end Exact

/-! ## A case: two massive nodes behind a light one -/

private def wall3 : Wall ℚ where
  N := 3
  T := fun i => i
  U := fun i => if i = 0 then 2 else 3
  front := ⟨10, 11⟩
  frontHs := 8
  frontRad := 1
  back := ⟨20, 22⟩
  backHs := 7
  backRad := 5

private def segments3 : List (ℚ × UValue ℚ) := [(0, .solid 2), (50, .solid 3), (60, .back)]

private def mem2 : ChunkMemory ℚ :=
  ⟨[0, 0], [0, 0], ⟨2, 2, [0, 0, 0, 0]⟩, [0, 0], [0, 0], [0, 0], [0, 0], [0, 0], [0, 0]⟩

example : wall3.Held (fun _ _ _ => .panic) segments3 [0, 1, 2] ∧
    HasMass (fun i => if i = 0 then 0 else if i = 1 then 50 else 60) segments3 ∧
    Sized 2 mem2 ∧ mem2.c.length = 2 ∧ mem2.q.length = 2 ∧
    NDiag.Rep mem2.k (0 : Matrix (Fin 2) (Fin 2) ℚ) ∧ (∀ i, 0 ≤ wall3.U i) ∧ 1 + 2 ≤ wall3.N := by
  refine ⟨⟨rfl, by decide +kernel, ?_⟩, ?_, ⟨rfl, rfl, rfl, rfl, rfl, rfl⟩, rfl, rfl,
    ⟨rfl, rfl, by decide, by decide +kernel⟩, ?_, by decide⟩
  · intro i s hi hs
    have : i = 0 ∨ i = 1 := by have : wall3.N = 3 := rfl; omega
    rcases this with rfl | rfl <;> (cases hs; rfl)
  · intro i s hs
    match i, hs with
    | 0, hs => cases hs; rfl
    | 1, hs => cases hs; rfl
    | 2, hs => cases hs; rfl
  · intro i
    unfold wall3
    simp only
    split_ifs <;> norm_num

example : ∀ t, HasDerivAt (fun t : ℝ => (fun _ : Fin 2 => Real.exp (-t)))
    ((-1 : Matrix (Fin 2) (Fin 2) ℝ).mulVec (fun _ => Real.exp (-t)) + 0) t := by
  intro t
  rw [hasDerivAt_pi]
  intro i
  have h : HasDerivAt (fun x : ℝ => Real.exp (-x)) (Real.exp (-t) * -1) t :=
    (Real.hasDerivAt_exp (-t)).comp t (hasDerivAt_neg t)
  have e : ((-1 : Matrix (Fin 2) (Fin 2) ℝ).mulVec (fun _ => Real.exp (-t)) + 0) i = Real.exp (-t) * -1 := by
    simp [Matrix.neg_mulVec]
  rw [e]
  exact h

end Simple.Heat
