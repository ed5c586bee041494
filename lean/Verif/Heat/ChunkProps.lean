import Mathlib.Data.Matrix.Mul
import Mathlib.Data.Matrix.Diagonal
import Mathlib.LinearAlgebra.Matrix.Symmetric
import Mathlib.Algebra.BigOperators.Fin
import Mathlib.Tactic.NormNum
import Mathlib.Tactic.Ring
import Mathlib.Tactic.FieldSimp
import Mathlib.Tactic.Linarith
import Mathlib.Tactic.LinearCombination
import Verif.Heat.ChunkModel
import Verif.Matrix.NDiagProps

/-! # C28, C29: conduction through a chunk of nodes, and its march through time -/

namespace Simple.Heat

open Simple.Matrix

set_option linter.unusedSectionVars false

variable {F : Type*} [Field F]

/-! ## Specification: a chain of nodes -/

namespace Spec

/-- A wall, as the nodes of its chain: `N` of them, at temperatures `T`, where node `i` conducts `U i` to
the next one; the first and the last exchange heat with the air (`hs`) and by radiation (`rad`). -/
structure Wall (F : Type*) where
  N : ℕ
  T : ℕ → F
  U : ℕ → F
  front : Env F
  frontHs : F
  frontRad : F
  back : Env F
  backHs : F
  backRad : F

/-- Conductance from node `g` to what is before it: a node, or the air. -/
def Wall.before (w : Wall F) (g : ℕ) : F := if g = 0 then w.frontHs else w.U (g - 1)

/-- Conductance from node `g` to what is after it. -/
def Wall.after (w : Wall F) (g : ℕ) : F := if g + 1 = w.N then w.backHs else w.U g

/-- Temperature of what is before node `g`. -/
def Wall.tBefore (w : Wall F) (g : ℕ) : F := if g = 0 then w.front.airTemperature else w.T (g - 1)

/-- Temperature of what is after node `g`. -/
def Wall.tAfter (w : Wall F) (g : ℕ) : F := if g + 1 = w.N then w.back.airTemperature else w.T (g + 1)

/-- Radiant heat gained by node `g`. -/
def Wall.radiation (w : Wall F) (g : ℕ) : F :=
  (if g = 0 then w.frontRad * (w.front.radTemperature - w.T g) else 0) +
  (if g + 1 = w.N then w.backRad * (w.back.radTemperature - w.T g) else 0)

/-- Net heat flow into node `g`. -/
def Wall.heat (w : Wall F) (g : ℕ) : F :=
  w.before g * (w.tBefore g - w.T g) + w.after g * (w.tAfter g - w.T g) + w.radiation g

/-- The segments and temperatures that the code holds for a wall. -/
structure Wall.Held (w : Wall F) (cav : CavityU F) (segments : List (F × UValue F)) (temps : List F) :
    Prop where
  nodes : segments.length = w.N
  temperatures : temps = (List.range w.N).map w.T
  conductance : ∀ (i : ℕ) (s : F × UValue F), i + 1 < w.N → segments[i]? = some s →
    s.2.uValue cav (w.T i) (w.T (i + 1)) = .ok (w.U i)

/-- The matrix of the chunk of `n` nodes from `ini` on. -/
def Wall.K (w : Wall F) (ini n : ℕ) : Matrix (Fin n) (Fin n) F := fun i j =>
  if i.val = j.val then -(w.before (ini + i) + w.after (ini + i))
  else if j.val = i.val + 1 then w.U (ini + i)
  else if i.val = j.val + 1 then w.U (ini + j)
  else 0

/-- Heat that the chunk receives from outside it, not counting what it loses. -/
def Wall.q (w : Wall F) (ini n : ℕ) : Fin n → F := fun i =>
  (if i.val = 0 then w.before ini * w.tBefore ini else 0) +
  (if i.val + 1 = n then w.after (ini + i) * w.tAfter (ini + i) else 0) + w.radiation (ini + i)

end Spec

open Spec

/-! ## Writes -/

private theorem rep_congr {n : ℕ} {k : NDiag 3 F} {M M' : Matrix (Fin n) (Fin n) F}
    (h : NDiag.Rep k M) (e : M = M') : NDiag.Rep k M' := e ▸ h

private theorem rep_add {n : ℕ} {k : NDiag 3 F} {M : Matrix (Fin n) (Fin n) F} (h : NDiag.Rep k M)
    (i j : ℕ) (hi : i < n) (hj : j < n) (hb : i ≤ j + 1 ∧ j ≤ i + 1) (v : F) :
    ∃ k', written (k.addToElement i j v) = .ok k' ∧
      NDiag.Rep k' (fun a b => M a b + if a.val = i ∧ b.val = j then v else 0) := by
  obtain ⟨k', h1, h2⟩ := C10_write (by norm_num) h (.add v) ⟨i, hi⟩ ⟨j, hj⟩ (by simpa using hb)
  refine ⟨k', ?_, ?_⟩
  · have : k.addToElement i j v = (.ok v, k') := h1
    rw [this]; rfl
  · refine rep_congr h2 (Eq.symm ?_)
    funext a b
    by_cases hab : a.val = i ∧ b.val = j
    · obtain ⟨ha, hb'⟩ := hab
      have e1 : a = ⟨i, hi⟩ := Fin.ext ha
      have e2 : b = ⟨j, hj⟩ := Fin.ext hb'
      rw [if_pos ⟨ha, hb'⟩, if_pos ⟨e1, e2⟩, e1, e2]
      rfl
    · rw [if_neg hab, if_neg, add_zero]
      rintro ⟨rfl, rfl⟩
      exact hab ⟨rfl, rfl⟩

private theorem rep_update {n : ℕ} {k : NDiag 3 F} {M : Matrix (Fin n) (Fin n) F} (h : NDiag.Rep k M)
    (i j : ℕ) (hi : i < n) (hj : j < n) (hb : i ≤ j + 1 ∧ j ≤ i + 1) (v : F) (f : F → F)
    (hf : ∀ x, f x = x + v) :
    ∃ k', updateIf k i j f = .ok k' ∧
      NDiag.Rep k' (fun a b => M a b + if a.val = i ∧ b.val = j then v else 0) := by
  have hget : k.get i j = .ok (M ⟨i, hi⟩ ⟨j, hj⟩) := h.get ⟨i, hi⟩ ⟨j, hj⟩
  obtain ⟨k', h1, h2⟩ := C10_write (by norm_num) h (.set (f (M ⟨i, hi⟩ ⟨j, hj⟩)))
    ⟨i, hi⟩ ⟨j, hj⟩ (by simpa using hb)
  refine ⟨k', ?_, ?_⟩
  · unfold updateIf
    rw [hget]
    have : k.set i j (f (M ⟨i, hi⟩ ⟨j, hj⟩)) = (.ok (f (M ⟨i, hi⟩ ⟨j, hj⟩)), k') := h1
    simp only [this]
    rfl
  · refine rep_congr h2 (Eq.symm ?_)
    funext a b
    by_cases hab : a.val = i ∧ b.val = j
    · obtain ⟨ha, hb'⟩ := hab
      have e1 : a = ⟨i, hi⟩ := Fin.ext ha
      have e2 : b = ⟨j, hj⟩ := Fin.ext hb'
      rw [if_pos ⟨ha, hb'⟩, if_pos ⟨e1, e2⟩, e1, e2]
      exact (hf _).symm
    · rw [if_neg hab, if_neg, add_zero]
      rintro ⟨rfl, rfl⟩
      exact hab ⟨rfl, rfl⟩

/-! ## The matrix -/

/-- The matrix once the first `l` conductances have been added. -/
private def partialK (U : ℕ → F) (ini l n : ℕ) : Matrix (Fin n) (Fin n) F := fun i j =>
  if i.val = j.val then -((if 1 ≤ i.val ∧ i.val ≤ l then U (ini + i - 1) else 0) +
    (if i.val < l then U (ini + i) else 0))
  else if j.val = i.val + 1 ∧ i.val < l then U (ini + i)
  else if i.val = j.val + 1 ∧ j.val < l then U (ini + j)
  else 0

private theorem partialK_step (U : ℕ → F) (ini l n : ℕ) :
    (fun a b : Fin n => partialK U ini l n a b + (if a.val = l ∧ b.val = l then -U (ini + l) else 0)
      + (if a.val = l + 1 ∧ b.val = l + 1 then -U (ini + l) else 0)
      + (if a.val = l ∧ b.val = l + 1 then U (ini + l) else 0)
      + (if a.val = l + 1 ∧ b.val = l then U (ini + l) else 0)) = partialK U ini (l + 1) n := by
  funext a b
  unfold partialK
  obtain ⟨a, ha⟩ := a
  obtain ⟨b, hb⟩ := b
  simp only
  by_cases h1 : a = b
  · subst h1
    rcases Nat.lt_trichotomy a l with h | h | h
    · have e1 : ¬ a = l := by omega
      have e2 : ¬ a = l + 1 := by omega
      have e3 : a ≤ l := by omega
      have e4 : a ≤ l + 1 := by omega
      have e5 : a < l + 1 := by omega
      simp [e1, e2, e3, e4, e5, h]
    · subst h
      simp
      ring
    · by_cases h' : a = l + 1
      · subst h'
        have e : ¬ l + 1 ≤ l := by omega
        have e2 : ¬ l + 1 < l := by omega
        have e3 : ini + (l + 1) - 1 = ini + l := by omega
        simp [e3]
      · have e1 : ¬ a = l := by omega
        have e3 : ¬ a ≤ l := by omega
        have e4 : ¬ a ≤ l + 1 := by omega
        have e5 : ¬ a < l + 1 := by omega
        have e6 : ¬ a < l := by omega
        simp [e1, h', e3, e4, e5, e6]
  · by_cases h2 : b = a + 1
    · subst h2
      rcases Nat.lt_trichotomy a l with h | h | h
      · have e1 : ¬ a = l := by omega
        have e2 : ¬ a = l + 1 := by omega
        have e5 : a < l + 1 := by omega
        simp [e1, e2, e5, h]
      · subst h
        simp
      · have e1 : ¬ a = l := by omega
        have e5 : ¬ a < l + 1 := by omega
        have e6 : ¬ a < l := by omega
        have e7 : ¬ a + 1 < l + 1 := by omega
        have e8 : ¬ a = a + 1 + 1 := by omega
        have e9 : ¬ a + 1 = l := by omega
        simp [e1, e5, e6, e9, e8]
    · by_cases h3 : a = b + 1
      · subst h3
        rcases Nat.lt_trichotomy b l with h | h | h
        · have e1 : ¬ b = l := by omega
          have e2 : ¬ b = l + 1 := by omega
          have e5 : b < l + 1 := by omega
          have e8 : ¬ b = b + 1 + 1 := by omega
          simp [e1, e2, e5, e8, h]
        · subst h
          have e8 : ¬ b = b + 1 + 1 := by omega
          simp [e8]
        · have e1 : ¬ b = l := by omega
          have e5 : ¬ b < l + 1 := by omega
          have e6 : ¬ b < l := by omega
          have e8 : ¬ b = b + 1 + 1 := by omega
          have e9 : ¬ b + 1 = l := by omega
          simp [e1, e5, e6, e9, e8]
      · have f1 : ¬ (a = l ∧ b = l) := by omega
        have f2 : ¬ (a = l + 1 ∧ b = l + 1) := by omega
        have f3 : ¬ (a = l ∧ b = l + 1) := by omega
        have f4 : ¬ (a = l + 1 ∧ b = l) := by omega
        rw [if_neg f1, if_neg f2, if_neg f3, if_neg f4]
        simp [h1, h2, h3]

private theorem getT_range (T : ℕ → F) (N i : ℕ) (h : i < N) :
    getT ((List.range N).map T) i = .ok (T i) := by
  unfold getT
  simp [h, need]

private theorem getTAfter_range (T : ℕ → F) (N i : ℕ) (b : Env F) (h : i + 1 < N) :
    getTAfter ((List.range N).map T) b i = T (i + 1) := by
  unfold getTAfter
  simp [h]

private theorem kLoop_ok (w : Wall F) (cav : CavityU F) (segments : List (F × UValue F))
    (temps : List F) (h : w.Held cav segments temps) (ini n : ℕ) (hn : ini + n ≤ w.N) :
    ∀ (count l : ℕ) (k : NDiag 3 F), l + count + 1 = n → NDiag.Rep k (partialK w.U ini l n) →
    ∃ k', kLoop cav segments temps w.back ini count l k = .ok k' ∧
      NDiag.Rep k' (partialK w.U ini (n - 1) n)
  | 0, l, k, hl, hk => ⟨k, rfl, by rwa [show n - 1 = l by omega]⟩
  | count + 1, l, k, hl, hk => by
    have hseg : ini + l < segments.length := by rw [h.nodes]; omega
    obtain ⟨k1, a1, b1⟩ := rep_add hk l l (by omega) (by omega) (by omega) (-w.U (ini + l))
    obtain ⟨k2, a2, b2⟩ := rep_update b1 (l + 1) (l + 1) (by omega) (by omega) (by omega)
      (-w.U (ini + l)) (· - w.U (ini + l)) (fun x => sub_eq_add_neg _ _)
    obtain ⟨k3, a3, b3⟩ := rep_update b2 l (l + 1) (by omega) (by omega) (by omega)
      (w.U (ini + l)) (· + w.U (ini + l)) (fun x => rfl)
    obtain ⟨k4, a4, b4⟩ := rep_update b3 (l + 1) l (by omega) (by omega) (by omega)
      (w.U (ini + l)) (· + w.U (ini + l)) (fun x => rfl)
    rw [partialK_step w.U ini l n] at b4
    obtain ⟨k5, a5, b5⟩ := kLoop_ok w cav segments temps h ini n hn count (l + 1) k4 (by omega) b4
    refine ⟨k5, ?_, b5⟩
    rw [kLoop, h.temperatures, getT_range _ _ _ (by omega), Outcome.index_of_lt hseg]
    simp only [Outcome.bind]
    rw [getTAfter_range _ _ _ _ (by omega),
      h.conductance (ini + l) _ (by omega) (List.getElem?_eq_getElem hseg)]
    simp only [a1, a2, a3, a4]
    rw [← h.temperatures]
    exact a5

private theorem front_ok (w : Wall F) (cav : CavityU F) (segments : List (F × UValue F))
    (temps : List F) (h : w.Held cav segments temps) (ini : ℕ) (hn : ini < w.N) :
    frontBorder cav segments temps ini w.front w.frontHs w.frontRad
      = .ok (w.before ini, w.before ini * w.tBefore ini +
          if ini = 0 then w.frontRad * (w.front.radTemperature - w.T ini) else 0) := by
  unfold frontBorder Wall.before Wall.tBefore
  by_cases h0 : ini = 0
  · subst h0
    rw [if_pos rfl, h.temperatures, getT_range _ _ _ hn]
    simp [Outcome.bind, mul_comm]
  · rw [if_neg h0]
    have hseg : ini - 1 < segments.length := by rw [h.nodes]; omega
    rw [h.temperatures, Outcome.index_of_lt hseg]
    simp only [Outcome.bind]
    rw [getT_range _ _ _ (by omega), getT_range _ _ _ (by omega)]
    have := h.conductance (ini - 1) _ (by omega) (List.getElem?_eq_getElem hseg)
    rw [show ini - 1 + 1 = ini by omega] at this
    simp only
    rw [this]
    simp [h0]

private theorem back_ok (w : Wall F) (cav : CavityU F) (segments : List (F × UValue F))
    (temps : List F) (h : w.Held cav segments temps) (g : ℕ) (hn : g < w.N) :
    backBorder cav segments temps (g + 1) w.back w.backHs w.backRad
      = .ok (w.after g, w.after g * w.tAfter g +
          if g + 1 = w.N then w.backRad * (w.back.radTemperature - w.T g) else 0) := by
  unfold backBorder Wall.after Wall.tAfter
  have hl : temps.length = w.N := by rw [h.temperatures]; simp
  by_cases h0 : g + 1 = w.N
  · rw [if_pos (by omega), h.temperatures, getT_range _ _ _ (by omega)]
    have e : w.N - 1 = g := by omega
    simp [Outcome.bind, mul_comm, h0, e]
  · rw [if_neg (by omega)]
    have hseg : g < segments.length := by rw [h.nodes]; omega
    rw [h.temperatures, Nat.add_sub_cancel, Outcome.index_of_lt hseg]
    simp only [Outcome.bind]
    rw [getT_range _ _ _ (by omega), getTAfter_range _ _ _ _ (by omega)]
    simp only
    rw [h.conductance g _ (by omega) (List.getElem?_eq_getElem hseg)]
    simp [h0]

private theorem modifyAt_ofFn {n : ℕ} (x : Fin n → F) (i : ℕ) (hi : i < n) (f : F → F) :
    modifyAt (List.ofFn x) i f = .ok (List.ofFn fun j => if j.val = i then f (x j) else x j) := by
  unfold modifyAt
  rw [if_pos (by simpa using hi)]
  congr 1
  apply List.ext_getElem?
  intro j
  rw [List.getElem?_modify]
  by_cases hj : j < n
  · simp only [List.getElem?_ofFn, hj, dite_true, Option.map_eq_map, Option.map_some]
    by_cases e : i = j
    · simp [e]
    · have : ¬ j = i := fun h => e h.symm
      simp [e, this]
  · simp [hj]

/-- C28: the matrix and the vector of any chunk of a wall are those of the chain of its nodes. -/
theorem C28_matrix (w : Wall F) (cav : CavityU F) (segments : List (F × UValue F))
    (temps : List F) (h : w.Held cav segments temps) (ini n : ℕ) (hn0 : 0 < n) (hn : ini + n ≤ w.N)
    (mem : ChunkMemory F) (M0 : Matrix (Fin n) (Fin n) F) (hk : NDiag.Rep mem.k M0)
    (hq : mem.q.length = n) :
    ∃ k, getKQ cav segments ini (ini + n) temps w.front w.frontHs w.frontRad w.back w.backHs w.backRad
        mem = .ok { mem with k := k, q := List.ofFn (w.q ini n) } ∧ NDiag.Rep k (w.K ini n) := by
  have hl : temps.length = w.N := by rw [h.temperatures]; simp
  have h0 : NDiag.Rep (mem.k.mulAssign 0) (partialK w.U ini 0 n) := by
    have := (C10_scale (by norm_num) hk (0 : F)).1
    refine rep_congr this (Eq.symm ?_)
    funext a b
    unfold partialK
    by_cases e : a.val = b.val
    · rw [if_pos e, if_neg (by omega), if_neg (by omega)]
      simp
    · rw [if_neg e, if_neg (by omega), if_neg (by omega)]
      simp
  obtain ⟨k1, a1, b1⟩ := kLoop_ok w cav segments temps h ini n hn (n - 1) 0 _ (by omega) h0
  obtain ⟨k2, a2, b2⟩ := rep_add b1 0 0 hn0 hn0 (by omega) (-w.before ini)
  obtain ⟨k3, a3, b3⟩ := rep_add b2 (n - 1) (n - 1) (by omega) (by omega) (by omega)
    (-w.after (ini + n - 1))
  have hz : (mem.q.map fun _ => (0 : F)) = List.ofFn (fun _ : Fin n => (0 : F)) := by
    apply List.ext_getElem
    · simp [hq]
    · intro i _ _; simp
  refine ⟨k3, ?_, ?_⟩
  · unfold getKQ
    rw [if_pos (by rw [hl, h.nodes]), if_pos (by omega)]
    have e : ini + n - ini = n := by omega
    simp only [e]
    rw [a1]
    simp only [Outcome.bind]
    rw [front_ok w cav segments temps h ini (by omega), hz]
    simp only
    rw [modifyAt_ofFn _ _ hn0]
    simp only [a2]
    have hb := back_ok w cav segments temps h (ini + n - 1) (by omega)
    rw [show ini + n - 1 + 1 = ini + n by omega] at hb
    rw [hb]
    simp only
    rw [modifyAt_ofFn _ _ (by omega)]
    simp only [a3]
    congr 3
    funext i
    unfold Wall.q Wall.radiation
    by_cases hi0 : i.val = 0
    · by_cases hin : i.val + 1 = n
      · have e1 : i.val = n - 1 := by omega
        have e2 : ini + i.val + 1 = ini + n := by omega
        have e3 : ini + n - 1 = ini + i.val := by omega
        rw [if_pos e1, if_pos hi0, if_pos hi0, if_pos hin, e2, e3]
        rw [hi0, Nat.add_zero]
        ring
      · have e1 : ¬ i.val = n - 1 := by omega
        have e2 : ¬ ini + i.val + 1 = w.N := by omega
        rw [if_neg e1, if_pos hi0, if_pos hi0, if_neg hin, if_neg e2, hi0, Nat.add_zero]
        ring
    · have e0 : ¬ ini + i.val = 0 := by omega
      by_cases hin : i.val + 1 = n
      · have e1 : i.val = n - 1 := by omega
        have e2 : ini + i.val + 1 = ini + n := by omega
        have e3 : ini + n - 1 = ini + i.val := by omega
        rw [if_pos e1, if_neg hi0, if_neg hi0, if_pos hin, e2, e3, if_neg e0]
        ring
      · have e1 : ¬ i.val = n - 1 := by omega
        have e2 : ¬ ini + i.val + 1 = w.N := by omega
        rw [if_neg e1, if_neg hi0, if_neg hi0, if_neg hin, if_neg e2, if_neg e0]
        ring
  · refine rep_congr b3 (Eq.symm ?_)
    funext a b
    obtain ⟨a, ha⟩ := a
    obtain ⟨b, hb⟩ := b
    unfold Wall.K partialK
    simp only
    by_cases e : a = b
    · subst e
      simp only [if_true, and_self]
      unfold Wall.before Wall.after
      by_cases ha0 : a = 0
      · subst ha0
        by_cases hn1 : n = 1
        · subst hn1
          simp
          ring
        · have e1 : ¬ 0 = n - 1 := by omega
          have e2 : 0 < n - 1 := by omega
          have e3 : ¬ ini + 0 + 1 = w.N := by omega
          rw [if_neg e3, if_neg e1, if_pos e2]
          simp
      · have ha0' : ¬ ini + a = 0 := by omega
        rw [if_neg ha0', if_neg ha0, if_pos (by omega : 1 ≤ a ∧ a ≤ n - 1)]
        by_cases han : a = n - 1
        · have e3 : ini + n - 1 = ini + a := by omega
          rw [if_pos han, if_neg (by omega : ¬ a < n - 1), e3]
          ring
        · rw [if_neg han, if_pos (by omega : a < n - 1), if_neg (by omega : ¬ ini + a + 1 = w.N)]
          ring
    · have f1 : ¬ (a = 0 ∧ b = 0) := by omega
      have f2 : ¬ (a = n - 1 ∧ b = n - 1) := by omega
      rw [if_neg e, if_neg e, if_neg f1, if_neg f2, add_zero, add_zero]
      by_cases h2 : b = a + 1
      · rw [if_pos h2, if_pos ⟨h2, by omega⟩]
      · have f3 : ¬ (b = a + 1 ∧ a < n - 1) := fun h => h2 h.1
        rw [if_neg h2, if_neg f3]
        by_cases h3 : a = b + 1
        · rw [if_pos h3, if_pos ⟨h3, by omega⟩]
        · have f4 : ¬ (a = b + 1 ∧ b < n - 1) := fun h => h3 h.1
          rw [if_neg h3, if_neg f4]

/-! ## Its properties -/

/-- A sum over the nodes of a chunk in which only a node and its neighbours matter. -/
theorem sum_neighbours {n : ℕ} (f : Fin n → F) (i : Fin n)
    (h : ∀ j : Fin n, j.val ≠ i.val → j.val ≠ i.val + 1 → i.val ≠ j.val + 1 → f j = 0) :
    ∑ j, f j = f i + (if h : i.val + 1 < n then f ⟨i.val + 1, h⟩ else 0)
      + (if h : 1 ≤ i.val then f ⟨i.val - 1, by omega⟩ else 0) := by
  have e : ∀ j : Fin n, f j = (if j = i then f i else 0)
      + (if h : i.val + 1 < n then (if j = ⟨i.val + 1, h⟩ then f ⟨i.val + 1, h⟩ else 0) else 0)
      + (if h : 1 ≤ i.val then (if j = ⟨i.val - 1, by omega⟩ then f ⟨i.val - 1, by omega⟩ else 0) else 0) := by
    intro j
    by_cases h1 : j.val = i.val
    · have : j = i := Fin.ext h1
      subst this
      have e1 : ∀ h, ¬ j = (⟨j.val + 1, h⟩ : Fin n) := by
        intro h e; have := congrArg Fin.val e; simp at this
      have e2 : ∀ h, 1 ≤ j.val → ¬ j = (⟨j.val - 1, h⟩ : Fin n) := by
        intro h h' e; have := congrArg Fin.val e; simp at this; omega
      by_cases g1 : j.val + 1 < n <;> by_cases g2 : 1 ≤ j.val <;> simp [g1, g2, e1, e2]
    · have n1 : ¬ j = i := fun e => h1 (congrArg Fin.val e)
      rw [if_neg n1]
      by_cases h2 : j.val = i.val + 1
      · have g1 : i.val + 1 < n := by omega
        have : j = ⟨i.val + 1, g1⟩ := Fin.ext h2
        rw [dif_pos g1, if_pos this]
        have e2 : ∀ h, ¬ j = (⟨i.val - 1, h⟩ : Fin n) := by
          intro h e; have := congrArg Fin.val e; simp at this; omega
        by_cases g2 : 1 ≤ i.val
        · rw [dif_pos g2, if_neg (e2 _), ← this]; simp
        · rw [dif_neg g2, ← this]; simp
      · have n2 : ∀ h, ¬ j = (⟨i.val + 1, h⟩ : Fin n) := fun h e => h2 (congrArg Fin.val e)
        by_cases h3 : i.val = j.val + 1
        · have g2 : 1 ≤ i.val := by omega
          have : j = ⟨i.val - 1, by omega⟩ := Fin.ext (by simp; omega)
          rw [dif_pos g2, if_pos this]
          by_cases g1 : i.val + 1 < n
          · rw [dif_pos g1, if_neg (n2 _), ← this]; simp
          · rw [dif_neg g1, ← this]; simp
        · rw [h j h1 h2 h3]
          have n3 : ∀ h, 1 ≤ i.val → ¬ j = (⟨i.val - 1, h⟩ : Fin n) := by
            intro h h' e; have := congrArg Fin.val e; simp at this; omega
          by_cases g1 : i.val + 1 < n <;> by_cases g2 : 1 ≤ i.val <;> simp [g1, g2, n2, n3]
  rw [Finset.sum_congr rfl fun j _ => e j, Finset.sum_add_distrib, Finset.sum_add_distrib]
  congr 1
  · congr 1
    · simp
    · by_cases g1 : i.val + 1 < n <;> simp [g1]
  · by_cases g2 : 1 ≤ i.val <;> simp [g2]

private theorem K_self (w : Wall F) (ini n : ℕ) (i : Fin n) :
    w.K ini n i i = -(w.before (ini + i) + w.after (ini + i)) := by
  unfold Wall.K; rw [if_pos rfl]

private theorem K_next (w : Wall F) (ini n : ℕ) (i : Fin n) (h : i.val + 1 < n) :
    w.K ini n i ⟨i.val + 1, h⟩ = w.U (ini + i) := by
  unfold Wall.K; rw [if_neg (by simp), if_pos rfl]

private theorem K_prev (w : Wall F) (ini n : ℕ) (i : Fin n) (h1 : 1 ≤ i.val) (h : i.val - 1 < n) :
    w.K ini n i ⟨i.val - 1, h⟩ = w.U (ini + (i.val - 1)) := by
  unfold Wall.K
  rw [if_neg (by simp only; omega), if_neg (by simp only; omega), if_pos (by simp only; omega)]

private theorem before_inside (w : Wall F) (ini i : ℕ) (h0 : i ≠ 0) :
    w.tBefore (ini + i) = w.T (ini + (i - 1)) ∧ w.before (ini + i) = w.U (ini + (i - 1)) := by
  unfold Wall.tBefore Wall.before
  rw [if_neg (by omega), if_neg (by omega), show ini + i - 1 = ini + (i - 1) by omega]
  exact ⟨rfl, rfl⟩

private theorem after_inside (w : Wall F) (ini i : ℕ) (h : ini + i + 1 ≠ w.N) :
    w.tAfter (ini + i) = w.T (ini + (i + 1)) ∧ w.after (ini + i) = w.U (ini + i) := by
  unfold Wall.tAfter Wall.after
  rw [if_neg h, if_neg h]
  exact ⟨rfl, rfl⟩

theorem K_symm (w : Wall F) (ini n : ℕ) : (w.K ini n).IsSymm := by
  ext i j
  rw [Matrix.transpose_apply]
  unfold Wall.K
  by_cases e : i.val = j.val
  · rw [if_pos e, if_pos e.symm, e]
  · rw [if_neg e, if_neg (fun h => e h.symm)]
    by_cases e2 : j.val = i.val + 1
    · rw [if_pos e2, if_neg (by omega), if_pos e2]
    · rw [if_neg e2]
      by_cases e3 : i.val = j.val + 1
      · simp only [if_pos e3, if_neg e2]
      · simp only [if_neg e3, if_neg e2]

theorem K_row_sum (w : Wall F) (ini n : ℕ) (hn : ini + n ≤ w.N) : ∀ i : Fin n,
    ∑ j, w.K ini n i j = -((if i.val = 0 then w.before ini else 0) +
      (if i.val + 1 = n then w.after (ini + i) else 0)) := by
  intro i
  rw [sum_neighbours (w.K ini n i) i (by
    intro j e1 e2 e3
    unfold Wall.K
    rw [if_neg (fun h => e1 h.symm), if_neg e2, if_neg e3])]
  rw [K_self]
  have hi := i.2
  by_cases h0 : i.val = 0
  · have g0 : ¬ 1 ≤ i.val := by omega
    rw [dif_neg g0, if_pos h0]
    by_cases hlast : i.val + 1 < n
    · rw [dif_pos hlast, if_neg (by omega : ¬ i.val + 1 = n), K_next, (after_inside w ini i.val (by omega)).2, h0,
        Nat.add_zero]
      ring
    · rw [dif_neg hlast, if_pos (by omega : i.val + 1 = n), h0, Nat.add_zero]
      ring
  · have g0 : 1 ≤ i.val := by omega
    rw [dif_pos g0, if_neg h0, K_prev _ _ _ _ g0, (before_inside w ini i.val h0).2]
    by_cases hlast : i.val + 1 < n
    · rw [dif_pos hlast, if_neg (by omega : ¬ i.val + 1 = n), K_next, (after_inside w ini i.val (by omega)).2]
      ring
    · rw [dif_neg hlast, if_pos (by omega : i.val + 1 = n)]
      ring

/-- C28: the matrix is symmetric and tridiagonal, what is not in its diagonal is the (non-negative)
conductance between the nodes, and its rows add up to minus the conductances to outside the chunk. -/
theorem C28_conduction [LinearOrder F] [IsStrictOrderedRing F] (w : Wall F) (cav : CavityU F)
    (segments : List (F × UValue F)) (temps : List F) (h : w.Held cav segments temps) (ini n : ℕ)
    (hn0 : 0 < n) (hn : ini + n ≤ w.N) (hU : ∀ i, 0 ≤ w.U i)
    (mem : ChunkMemory F) (M0 : Matrix (Fin n) (Fin n) F) (hk : NDiag.Rep mem.k M0)
    (hq : mem.q.length = n) :
    ∃ (mem' : ChunkMemory F) (K : Matrix (Fin n) (Fin n) F),
      getKQ cav segments ini (ini + n) temps w.front w.frontHs w.frontRad w.back w.backHs w.backRad
        mem = .ok mem' ∧ NDiag.Rep mem'.k K ∧
      K.IsSymm ∧
      (∀ i j, i.val + 1 < j.val ∨ j.val + 1 < i.val → K i j = 0) ∧
      (∀ i j, i ≠ j → 0 ≤ K i j) ∧
      (∀ i, ∑ j, K i j = -((if i.val = 0 then w.before ini else 0) +
        (if i.val + 1 = n then w.after (ini + i) else 0))) := by
  obtain ⟨k, h1, h2⟩ := C28_matrix w cav segments temps h ini n hn0 hn mem M0 hk hq
  refine ⟨_, w.K ini n, h1, h2, ?_, ?_, ?_, ?_⟩
  · exact K_symm w ini n
  · intro i j hij
    unfold Wall.K
    rw [if_neg (by omega), if_neg (by omega), if_neg (by omega)]
  · intro i j hij
    have : ¬ i.val = j.val := fun e => hij (Fin.ext e)
    unfold Wall.K
    rw [if_neg this]
    split_ifs
    · exact hU _
    · exact hU _
    · exact le_rfl
  · exact K_row_sum w ini n hn

/-- What the nodes of a chunk gain is the net heat flow into each one. -/
theorem heat_eq (w : Wall F) (ini n : ℕ) (hn : ini + n ≤ w.N) (i : Fin n) :
    (w.K ini n).mulVec (fun j => w.T (ini + j)) i + w.q ini n i = w.heat (ini + i) := by
  unfold Matrix.mulVec dotProduct
  rw [sum_neighbours (fun j => w.K ini n i j * w.T (ini + j)) i (by
      intro j e1 e2 e3
      unfold Wall.K
      rw [if_neg (fun h => e1 h.symm), if_neg e2, if_neg e3, zero_mul])]
  unfold Wall.q Wall.heat
  rw [K_self]
  have hi := i.2
  by_cases h0 : i.val = 0
  · have g0 : ¬ 1 ≤ i.val := by omega
    rw [dif_neg g0, if_pos h0]
    by_cases hlast : i.val + 1 < n
    · obtain ⟨t1, t2⟩ := after_inside w ini i.val (by omega)
      rw [dif_pos hlast, if_neg (by omega : ¬ i.val + 1 = n), K_next, t1, t2]
      simp only [h0, Nat.add_zero]
      ring
    · rw [dif_neg hlast, if_pos (by omega : i.val + 1 = n)]
      simp only [h0, Nat.add_zero]
      ring
  · obtain ⟨t3, t4⟩ := before_inside w ini i.val h0
    have g0 : 1 ≤ i.val := by omega
    rw [dif_pos g0, if_neg h0, K_prev _ _ _ _ g0, t3, t4]
    by_cases hlast : i.val + 1 < n
    · obtain ⟨t1, t2⟩ := after_inside w ini i.val (by omega)
      rw [dif_pos hlast, if_neg (by omega : ¬ i.val + 1 = n), K_next, t1, t2]
      ring
    · rw [dif_neg hlast, if_pos (by omega : i.val + 1 = n)]
      ring

/-- C28: `K T + q` is the net heat flow into each node: by conduction from the nodes (or air) before
and after it, and by radiation. -/
theorem C28_heat_balance (w : Wall F) (cav : CavityU F)
    (segments : List (F × UValue F)) (temps : List F) (h : w.Held cav segments temps) (ini n : ℕ)
    (hn0 : 0 < n) (hn : ini + n ≤ w.N)
    (mem : ChunkMemory F) (M0 : Matrix (Fin n) (Fin n) F) (hk : NDiag.Rep mem.k M0)
    (hq : mem.q.length = n) :
    ∃ (mem' : ChunkMemory F) (K : Matrix (Fin n) (Fin n) F) (q : Fin n → F),
      getKQ cav segments ini (ini + n) temps w.front w.frontHs w.frontRad w.back w.backHs w.backRad
        mem = .ok mem' ∧ NDiag.Rep mem'.k K ∧ mem'.q = List.ofFn q ∧
      ∀ i, K.mulVec (fun j => w.T (ini + j)) i + q i = w.heat (ini + i) := by
  obtain ⟨k, h1, h2⟩ := C28_matrix w cav segments temps h ini n hn0 hn mem M0 hk hq
  exact ⟨_, _, _, h1, h2, rfl, heat_eq w ini n hn⟩

/-- All the wall, its air and what it radiates to are at the same temperature. -/
def Spec.Wall.Uniform (w : Wall F) (t : F) : Prop :=
  (∀ i, w.T i = t) ∧ w.front.airTemperature = t ∧ w.front.radTemperature = t ∧
    w.back.airTemperature = t ∧ w.back.radTemperature = t

theorem heat_uniform (w : Wall F) (t : F) (h : w.Uniform t) (g : ℕ) : w.heat g = 0 := by
  obtain ⟨h1, h2, h3, h4, h5⟩ := h
  unfold Wall.heat Wall.radiation Wall.tBefore Wall.tAfter
  simp [h1, h2, h3, h4, h5]

/-- C28: a wall at the temperature of its surroundings is at rest. -/
theorem C28_rest (w : Wall F) (t : F) (hu : w.Uniform t) (cav : CavityU F)
    (segments : List (F × UValue F)) (temps : List F) (h : w.Held cav segments temps) (ini n : ℕ)
    (hn0 : 0 < n) (hn : ini + n ≤ w.N)
    (mem : ChunkMemory F) (M0 : Matrix (Fin n) (Fin n) F) (hk : NDiag.Rep mem.k M0)
    (hq : mem.q.length = n) :
    ∃ (mem' : ChunkMemory F) (K : Matrix (Fin n) (Fin n) F) (q : Fin n → F),
      getKQ cav segments ini (ini + n) temps w.front w.frontHs w.frontRad w.back w.backHs w.backRad
        mem = .ok mem' ∧ NDiag.Rep mem'.k K ∧ mem'.q = List.ofFn q ∧
      K.mulVec (fun _ => t) + q = 0 := by
  obtain ⟨mem', K, q, h1, h2, h3, h4⟩ := C28_heat_balance w cav segments temps h ini n hn0 hn mem M0 hk hq
  refine ⟨mem', K, q, h1, h2, h3, ?_⟩
  funext i
  have := h4 i
  rw [heat_uniform w t hu] at this
  simp only [hu.1] at this
  exact this

end Simple.Heat
