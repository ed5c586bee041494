import Verif.Heat.MarchProps
import Verif.Heat.StabilityProps
import Verif.Heat.SurfaceProps
import Mathlib.Tactic.Linarith
import Mathlib.Tactic.FieldSimp

/-! # C116: what is warmer stays warmer -/

namespace Simple.Heat

open Simple.Matrix Spec

variable {F : Type*} [Field F] [LinearOrder F] [IsStrictOrderedRing F]

namespace Spec

/-- Conductance from node `g` to what it radiates to. -/
def Wall.radiant (w : Wall F) (g : ℕ) : F := (if g = 0 then w.frontRad else 0) + (if g + 1 = w.N then w.backRad else 0)

/-- In an interval `dt`, each node of a chunk exchanges no more heat than what would take it to the temperature of what is around it, of
which three fifths may be radiation. -/
structure Gentle (w : Wall F) (dt : F) (c : ℕ → F) (ini n : ℕ) : Prop where
  time : 0 ≤ dt
  u : ∀ i, i + 1 < w.N → 0 ≤ w.U i
  hs : 0 ≤ w.frontHs ∧ 0 ≤ w.backHs
  rad : 0 ≤ w.frontRad ∧ 0 ≤ w.backRad
  mass : ∀ i : Fin n, 0 < c (ini + i)
  small : ∀ i : Fin n, dt * (w.before (ini + i) + w.after (ini + i) + w.radiant (ini + i)) ≤ c (ini + i)
  smallRad : ∀ i : Fin n, 5 * (dt * w.radiant (ini + i)) ≤ 3 * c (ini + i)

/-- The same wall, in other conditions: at least as warm everywhere, and surrounded by what is at least as warm. -/
structure Warmer (w v : Wall F) : Prop where
  same : v.N = w.N ∧ v.U = w.U ∧ v.frontHs = w.frontHs ∧ v.frontRad = w.frontRad ∧ v.backHs = w.backHs ∧ v.backRad = w.backRad
  nodes : ∀ i, w.T i ≤ v.T i
  front : w.front.airTemperature ≤ v.front.airTemperature ∧ w.front.radTemperature ≤ v.front.radTemperature
  back : w.back.airTemperature ≤ v.back.airTemperature ∧ w.back.radTemperature ≤ v.back.radTemperature

/-- All the wall, its air and what it radiates to are between two temperatures. -/
structure Within (w : Wall F) (lo hi : F) : Prop where
  nodes : ∀ i, lo ≤ w.T i ∧ w.T i ≤ hi
  front : (lo ≤ w.front.airTemperature ∧ w.front.airTemperature ≤ hi) ∧ lo ≤ w.front.radTemperature ∧ w.front.radTemperature ≤ hi
  back : (lo ≤ w.back.airTemperature ∧ w.back.airTemperature ≤ hi) ∧ lo ≤ w.back.radTemperature ∧ w.back.radTemperature ≤ hi

end Spec

/-! ## The polynomial -/

theorem mulVec_nonneg {n : ℕ} {B : Matrix (Fin n) (Fin n) F} (hB : ∀ i j, 0 ≤ B i j) {v : Fin n → F} (hv : ∀ i, 0 ≤ v i) (i : Fin n) :
    0 ≤ B.mulVec v i := by
  show 0 ≤ ∑ j, B i j * v j
  exact Finset.sum_nonneg fun j _ => mul_nonneg (hB i j) (hv j)

theorem taylor_expand {n : ℕ} (A : Matrix (Fin n) (Fin n) F) (q x : Fin n → F) :
    taylor A q x = ((3 / 8 : F) • x + (5 / 8 : F) • q) + (1 + A).mulVec ((1 / 3 : F) • x + (7 / 24 : F) • q) +
      (1 + A).mulVec ((1 + A).mulVec ((1 / 4 : F) • x + (1 / 24 : F) • q)) +
      (1 / 24 : F) • (1 + A).mulVec ((1 + A).mulVec ((1 + A).mulVec ((1 + A).mulVec x + q))) := by
  unfold taylor
  simp only [Matrix.add_mulVec, Matrix.one_mulVec, Matrix.mulVec_add, Matrix.mulVec_smul]
  funext i
  simp only [Pi.add_apply, Pi.smul_apply, smul_eq_mul]
  ring

theorem taylor_nonneg {n : ℕ} (A : Matrix (Fin n) (Fin n) F) (q x r : Fin n → F) (hx : ∀ i, 0 ≤ x i) (hr : ∀ i, 0 ≤ r i) (hr' : ∀ i, 5 * r i ≤ 3)
    (hq : ∀ i, -(r i * x i) ≤ q i) (hoff : ∀ i j, i ≠ j → 0 ≤ A i j) (hdiag : ∀ i, r i ≤ 1 + A i i) (i : Fin n) : 0 ≤ taylor A q x i := by
  have hB : ∀ i j, 0 ≤ (1 + A) i j := by
    intro i j
    by_cases h : i = j
    · subst h
      simp only [Matrix.add_apply, Matrix.one_apply_eq]
      exact le_trans (hr i) (hdiag i)
    · simp only [Matrix.add_apply, Matrix.one_apply_ne h, zero_add]
      exact hoff i j h
  have hp : ∀ a b : F, 0 ≤ b → b * 3 ≤ a * 5 → ∀ j, 0 ≤ (a • x + b • q) j := by
    intro a b hb hab j
    simp only [Pi.add_apply, Pi.smul_apply, smul_eq_mul]
    have h1 : b * -(r j * x j) ≤ b * q j := mul_le_mul_of_nonneg_left (hq j) hb
    have h2 : 5 * r j * (b * x j) ≤ 3 * (b * x j) := mul_le_mul_of_nonneg_right (hr' j) (mul_nonneg hb (hx j))
    have h3 : b * 3 * x j ≤ a * 5 * x j := mul_le_mul_of_nonneg_right hab (hx j)
    linarith
  have hl : ∀ j, 0 ≤ ((1 + A).mulVec x + q) j := by
    intro j
    have h1 : (1 + A) j j * x j ≤ (1 + A).mulVec x j :=
      Finset.single_le_sum (f := fun k => (1 + A) j k * x k) (fun k _ => mul_nonneg (hB j k) (hx k)) (Finset.mem_univ j)
    have h2 : r j * x j ≤ (1 + A) j j * x j := by
      apply mul_le_mul_of_nonneg_right _ (hx j)
      simp only [Matrix.add_apply, Matrix.one_apply_eq]
      exact hdiag j
    simp only [Pi.add_apply]
    linarith [hq j]
  rw [taylor_expand]
  simp only [Pi.add_apply, Pi.smul_apply, smul_eq_mul]
  have a1 := hp (3 / 8) (5 / 8) (by norm_num) (by norm_num) i
  have a2 := mulVec_nonneg hB (hp (1 / 3) (7 / 24) (by norm_num) (by norm_num)) i
  have a3 := mulVec_nonneg hB (mulVec_nonneg hB (hp (1 / 4) (1 / 24) (by norm_num) (by norm_num))) i
  have a4 := mulVec_nonneg hB (mulVec_nonneg hB (mulVec_nonneg hB hl)) i
  simp only [Pi.add_apply, Pi.smul_apply, smul_eq_mul] at a1
  have a5 : 0 ≤ (1 / 24 : F) * (1 + A).mulVec ((1 + A).mulVec ((1 + A).mulVec ((1 + A).mulVec x + q))) i := mul_nonneg (by norm_num) a4
  linarith

theorem taylor_sub {n : ℕ} (A : Matrix (Fin n) (Fin n) F) (q q' x x' : Fin n → F) : taylor A q' x' - taylor A q x = taylor A (q' - q) (x' - x) := by
  unfold taylor
  simp only [Matrix.mulVec_add, Matrix.mulVec_sub]
  funext i
  simp only [Pi.add_apply, Pi.sub_apply, Pi.smul_apply, smul_eq_mul]
  ring

/-! ## Walls -/

theorem step_mono (w v : Wall F) (dt : F) (c s s' : ℕ → F) (ini n : ℕ) (hn : ini + n ≤ w.N) (hg : Gentle w dt c ini n) (hw : Warmer w v)
    (hs : ∀ i : Fin n, s (ini + i) ≤ s' (ini + i)) (i : Fin n) : w.step dt c s ini n i ≤ v.step dt c s' ini n i := by
  obtain ⟨⟨e1, e2, e3, e4, e5, e6⟩, hT, hf, hb⟩ := hw
  have hbe : ∀ g, v.before g = w.before g := by intro g; unfold Wall.before; rw [e2, e3]
  have haf : ∀ g, v.after g = w.after g := by intro g; unfold Wall.after; rw [e1, e2, e5]
  have hb0 : ∀ g, g < w.N → 0 ≤ w.before g := by
    intro g hg'; unfold Wall.before; split_ifs; exacts [hg.hs.1, hg.u _ (by omega)]
  have ha0 : ∀ g, g < w.N → 0 ≤ w.after g := by
    intro g hg'; unfold Wall.after; split_ifs; exacts [hg.hs.2, hg.u _ (by omega)]
  have hr0 : ∀ g, 0 ≤ w.radiant g := by
    intro g
    unfold Wall.radiant
    apply add_nonneg
    · split_ifs; exacts [hg.rad.1, le_rfl]
    · split_ifs; exacts [hg.rad.2, le_rfl]
  have hK : v.K ini n = w.K ini n := by
    funext a b
    unfold Wall.K
    rw [hbe, haf, e2]
  have hA : v.flowMatrix dt c ini n = w.flowMatrix dt c ini n := by
    unfold Wall.flowMatrix; rw [hK]
  have hd0 : ∀ j : Fin n, 0 ≤ dt / c (ini + j) := fun j => div_nonneg hg.time (hg.mass j).le
  have hAe : ∀ a b : Fin n, w.flowMatrix dt c ini n a b = dt / c (ini + a) * w.K ini n a b := by
    intro a b
    unfold Wall.flowMatrix
    rw [Matrix.diagonal_mul]
  rw [← sub_nonneg]
  have : v.step dt c s' ini n i - w.step dt c s ini n i = (v.step dt c s' ini n - w.step dt c s ini n) i := rfl
  rw [this]
  unfold Wall.step
  rw [hA, taylor_sub]
  apply taylor_nonneg _ _ _ fun j : Fin n => dt / c (ini + j) * w.radiant (ini + j)
  · intro j
    simp only [Pi.sub_apply]
    linarith [hT (ini + j)]
  · exact fun j => mul_nonneg (hd0 j) (hr0 _)
  · intro j
    have := hg.smallRad j
    have hm := hg.mass j
    rw [show 5 * (dt / c (ini + j) * w.radiant (ini + j)) = 5 * (dt * w.radiant (ini + j)) / c (ini + j) by ring, div_le_iff₀ hm]
    exact this
  · intro j
    simp only [Pi.sub_apply]
    unfold Wall.flowVector
    rw [← mul_sub, mul_assoc, ← mul_neg]
    apply mul_le_mul_of_nonneg_left _ (hd0 j)
    have h1 : (if j.val = 0 then w.before ini * w.tBefore ini else 0) ≤ (if j.val = 0 then v.before ini * v.tBefore ini else 0) := by
      split_ifs
      · rw [hbe]
        apply mul_le_mul_of_nonneg_left _ (hb0 _ (by omega))
        unfold Wall.tBefore
        split_ifs; exacts [hf.1, hT _]
      · exact le_rfl
    have h2 : (if j.val + 1 = n then w.after (ini + j) * w.tAfter (ini + j) else 0) ≤
        (if j.val + 1 = n then v.after (ini + j) * v.tAfter (ini + j) else 0) := by
      split_ifs
      · rw [haf]
        apply mul_le_mul_of_nonneg_left _ (ha0 _ (by omega))
        unfold Wall.tAfter
        rw [e1]
        split_ifs; exacts [hb.1, hT _]
      · exact le_rfl
    have h3 : w.radiation (ini + j) - w.radiant (ini + j) * (v.T (ini + j) - w.T (ini + j)) ≤ v.radiation (ini + j) := by
      unfold Wall.radiation Wall.radiant
      rw [e1, e4, e6]
      have r1 : w.frontRad * w.front.radTemperature ≤ w.frontRad * v.front.radTemperature := mul_le_mul_of_nonneg_left hf.2 hg.rad.1
      have r2 : w.backRad * w.back.radTemperature ≤ w.backRad * v.back.radTemperature := mul_le_mul_of_nonneg_left hb.2 hg.rad.2
      split_ifs <;> linarith
    unfold Wall.q
    linarith [hs j]
  · intro a b hab
    rw [hAe]
    apply mul_nonneg (hd0 a)
    unfold Wall.K
    rw [if_neg (fun h => hab (Fin.ext h))]
    split_ifs; exacts [hg.u _ (by omega), hg.u _ (by omega), le_rfl]
  · intro a
    rw [hAe]
    have hm := hg.mass a
    have := hg.small a
    unfold Wall.K
    rw [if_pos rfl]
    have e : 1 + dt / c (ini + a) * -(w.before (ini + a) + w.after (ini + a)) - dt / c (ini + a) * w.radiant (ini + a) =
        (c (ini + a) - dt * (w.before (ini + a) + w.after (ini + a) + w.radiant (ini + a))) / c (ini + a) := by
      field_simp
      ring
    have : 0 ≤ 1 + dt / c (ini + a) * -(w.before (ini + a) + w.after (ini + a)) - dt / c (ini + a) * w.radiant (ini + a) := by
      rw [e]
      exact div_nonneg (by linarith) hm.le
    linarith

theorem step_uniform (w : Wall F) (t : F) (hu : w.Uniform t) (dt : F) (c : ℕ → F) (ini n : ℕ) (hn : ini + n ≤ w.N) (i : Fin n) :
    w.step dt c (fun _ => 0) ini n i = t := by
  have hrest : (w.flowMatrix dt c ini n).mulVec (fun i : Fin n => w.T (ini + i)) + w.flowVector dt c (fun _ => 0) ini n = 0 := by
    funext j
    have h0 := heat_eq w ini n hn j
    rw [heat_uniform w t hu] at h0
    unfold Wall.flowMatrix Wall.flowVector
    rw [← Matrix.mulVec_mulVec]
    simp only [Pi.add_apply, Matrix.mulVec_diagonal, Pi.zero_apply, add_zero]
    rw [← mul_add, h0, mul_zero]
  unfold Wall.step taylor
  simp only [hrest, Matrix.mulVec_zero]
  simp [hu.1]

/-- The same wall, all of it and its surroundings at temperature `t`. -/
private def still (w : Wall F) (t : F) : Wall F :=
  { w with T := fun _ => t, front := { w.front with airTemperature := t, radTemperature := t }
           back := { w.back with airTemperature := t, radTemperature := t } }

private theorem still_uniform (w : Wall F) (t : F) : (still w t).Uniform t := ⟨fun _ => rfl, rfl, rfl, rfl, rfl⟩

private theorem still_gentle (w : Wall F) (t dt : F) (c : ℕ → F) (ini n : ℕ) (hg : Gentle w dt c ini n) : Gentle (still w t) dt c ini n :=
  ⟨hg.time, hg.u, hg.hs, hg.rad, hg.mass, hg.small, hg.smallRad⟩

theorem step_ge (w : Wall F) (dt : F) (c s : ℕ → F) (ini n : ℕ) (hn : ini + n ≤ w.N) (hg : Gentle w dt c ini n) (lo hi : F) (hw : Within w lo hi)
    (hs : ∀ i : Fin n, 0 ≤ s (ini + i)) (i : Fin n) : lo ≤ w.step dt c s ini n i := by
  have := step_mono (still w lo) w dt c (fun _ => 0) s ini n hn (still_gentle w lo dt c ini n hg)
    ⟨⟨rfl, rfl, rfl, rfl, rfl, rfl⟩, fun i => (hw.nodes i).1, ⟨hw.front.1.1, hw.front.2.1⟩, ⟨hw.back.1.1, hw.back.2.1⟩⟩ hs i
  rwa [step_uniform _ lo (still_uniform w lo) dt c ini n hn] at this

theorem step_le (w : Wall F) (dt : F) (c s : ℕ → F) (ini n : ℕ) (hn : ini + n ≤ w.N) (hg : Gentle w dt c ini n) (lo hi : F) (hw : Within w lo hi)
    (hs : ∀ i : Fin n, s (ini + i) ≤ 0) (i : Fin n) : w.step dt c s ini n i ≤ hi := by
  have := step_mono w (still w hi) dt c s (fun _ => 0) ini n hn hg
    ⟨⟨rfl, rfl, rfl, rfl, rfl, rfl⟩, fun i => (hw.nodes i).2, ⟨hw.front.1.2, hw.front.2.2⟩, ⟨hw.back.1.2, hw.back.2.2⟩⟩ hs i
  rwa [step_uniform _ hi (still_uniform w hi) dt c ini n hn] at this

/-! ## The code -/

section
variable (w v : Wall F) (cav : CavityU F) (segments : List (F × UValue F)) (temps temps2 : List F) (c solar solar2 : ℕ → F) (dt : F) (ini n : ℕ)
  (mem mem2 : ChunkMemory F)

/-- C116: if the same wall is warmer in all its nodes, surrounded by what is warmer, and absorbs more solar radiation, then it is also warmer
after marching a chunk of nodes with mass.

Missing: chunks of a single node, for which it panics (`C29_violated_single_node`); cavities, whose conductance depends on the temperatures;
and nodes that exchange too much heat for their mass in one interval, which the discretisation allows beside layers without mass
(`C116_violated_cladding`). -/
theorem C116_order_partial (h : w.Held cav segments temps) (h2 : v.Held cav segments temps2) (hc : HasMass c segments) (hn2 : 2 ≤ n)
    (hn : ini + n ≤ w.N) (hf : Fits n mem) (hf2 : Fits n mem2) (hg : Gentle w dt c ini n) (hw : Warmer w v) (hsun : ∀ i, solar i ≤ solar2 i) :
    ∃ (t t2 : List F) (mem' mem2' : ChunkMemory F),
      marchMass cav segments temps ((List.range w.N).map solar) dt w.front w.frontHs w.frontRad w.back w.backHs w.backRad ini (ini + n) mem =
        .ok (t, mem') ∧
      marchMass cav segments temps2 ((List.range v.N).map solar2) dt v.front v.frontHs v.frontRad v.back v.backHs v.backRad ini (ini + n) mem2 =
        .ok (t2, mem2') ∧
      t.length = w.N ∧ t2.length = w.N ∧ ∀ (g : ℕ) (x y : F), t[g]? = some x → t2[g]? = some y → x ≤ y := by
  have e1 : v.N = w.N := hw.same.1
  obtain ⟨hs, hcl, hql, M0, hk⟩ := hf
  obtain ⟨hs2, hcl2, hql2, M2, hk2⟩ := hf2
  obtain ⟨t, m', a1, a2, a3, a4, _⟩ := C29_march_partial w cav segments temps h c solar hc dt ini n hn2 hn mem hs hcl hql M0 hk
  obtain ⟨t2, m2', b1, b2, b3, b4, _⟩ :=
    C29_march_partial v cav segments temps2 h2 c solar2 hc dt ini n hn2 (by omega) mem2 hs2 hcl2 hql2 M2 hk2
  refine ⟨t, t2, m', m2', a1, b1, a2, by omega, fun g x y hx hy => ?_⟩
  by_cases hgg : ini ≤ g ∧ g < ini + n
  · obtain ⟨i, rfl⟩ : ∃ i : Fin n, g = ini + i.val := ⟨⟨g - ini, by omega⟩, by simp; omega⟩
    rw [a3] at hx
    rw [b3] at hy
    cases hx; cases hy
    exact step_mono w v dt c solar solar2 ini n hn hg hw (fun i => hsun _) i
  · rw [a4 g hgg, h.temperatures, List.getElem?_map] at hx
    rw [b4 g hgg, h2.temperatures, List.getElem?_map, e1] at hy
    by_cases hgN : g < w.N
    · rw [List.getElem?_range hgN] at hx hy
      cases hx; cases hy
      exact hw.nodes g
    · rw [List.getElem?_eq_none (by simp; omega)] at hx
      cases hx

/-- C116: a wall that is, like its air and what it radiates to, between two temperatures never leaves them after marching a chunk of nodes with
mass, but to become warmer with the sun.

Missing: as in `C116_order_partial`, but for cavities. -/
theorem C116_between_partial (h : w.Held cav segments temps) (hc : HasMass c segments) (hn2 : 2 ≤ n)
    (hn : ini + n ≤ w.N) (hf : Fits n mem) (hg : Gentle w dt c ini n) (lo hi : F) (hw : Within w lo hi) (hsun : ∀ i, 0 ≤ solar i) :
    ∃ (t : List F) (mem' : ChunkMemory F),
      marchMass cav segments temps ((List.range w.N).map solar) dt w.front w.frontHs w.frontRad w.back w.backHs w.backRad ini (ini + n) mem =
        .ok (t, mem') ∧
      t.length = w.N ∧ (∀ x ∈ t, lo ≤ x) ∧ ((∀ i, solar i = 0) → ∀ x ∈ t, x ≤ hi) ∧ Fits n mem' := by
  obtain ⟨hs, hcl, hql, M0, hk⟩ := hf
  obtain ⟨t, m', a1, a2, a3, a4, a5⟩ := C29_march_partial w cav segments temps h c solar hc dt ini n hn2 hn mem hs hcl hql M0 hk
  have key : ∀ x ∈ t, (∃ i : Fin n, x = w.step dt c solar ini n i) ∨ ∃ g, x = w.T g := by
    intro x hx
    obtain ⟨g, hgx⟩ := List.mem_iff_getElem?.1 hx
    by_cases hgg : ini ≤ g ∧ g < ini + n
    · obtain ⟨i, rfl⟩ : ∃ i : Fin n, g = ini + i.val := ⟨⟨g - ini, by omega⟩, by simp; omega⟩
      rw [a3] at hgx
      cases hgx
      exact .inl ⟨i, rfl⟩
    · rw [a4 g hgg, h.temperatures, List.getElem?_map] at hgx
      by_cases hgN : g < w.N
      · rw [List.getElem?_range hgN] at hgx
        cases hgx
        exact .inr ⟨g, rfl⟩
      · rw [List.getElem?_eq_none (by simp; omega)] at hgx
        cases hgx
  refine ⟨t, m', a1, a2, fun x hx => ?_, fun h0 x hx => ?_, a5⟩
  · obtain ⟨i, rfl⟩ | ⟨g, rfl⟩ := key x hx
    · exact step_ge w dt c solar ini n hn hg lo hi hw (fun i => hsun _) i
    · exact (hw.nodes g).1
  · obtain ⟨i, rfl⟩ | ⟨g, rfl⟩ := key x hx
    · exact step_le w dt c solar ini n hn hg lo hi hw (fun i => (h0 _).le) i
    · exact (hw.nodes g).2

end

/-! ## Histories -/

namespace Spec

/-- What is around a wall during an interval, and the sun it absorbs. -/
structure Around (F : Type*) where
  front : Env F
  frontHs : F
  frontRad : F
  back : Env F
  backHs : F
  backRad : F
  solar : ℕ → F

/-- A wall of `N` nodes at temperatures `T` there. -/
def Around.wall (a : Around F) (N : ℕ) (U T : ℕ → F) : Wall F := ⟨N, T, U, a.front, a.frontHs, a.frontRad, a.back, a.backHs, a.backRad⟩

/-- To march all the nodes of a wall, all of them with mass, through several intervals. -/
def marches (cav : CavityU F) (segments : List (F × UValue F)) (dt : F) : List (Around F) → List F → ChunkMemory F → Outcome (List F × ChunkMemory F)
  | [], temps, mem => .ok (temps, mem)
  | a :: rest, temps, mem =>
    (marchMass cav segments temps ((List.range segments.length).map a.solar) dt a.front a.frontHs a.frontRad a.back a.backHs a.backRad 0
      (0 + segments.length) mem).bind fun r => marches cav segments dt rest r.1 r.2

/-- The air and what the wall radiates to are between two temperatures. -/
structure Around.Within (a : Around F) (lo hi : F) : Prop where
  front : (lo ≤ a.front.airTemperature ∧ a.front.airTemperature ≤ hi) ∧ lo ≤ a.front.radTemperature ∧ a.front.radTemperature ≤ hi
  back : (lo ≤ a.back.airTemperature ∧ a.back.airTemperature ≤ hi) ∧ lo ≤ a.back.radTemperature ∧ a.back.radTemperature ≤ hi

end Spec

/-- C116: however its surroundings change, a solid wall without sun never leaves the temperatures between which it and they have always been.

Missing: walls with nodes without mass, or of a single node, or with cavities, and nodes that exchange too much heat in one interval. -/
theorem C116_history_partial (cav : CavityU F) (segments : List (F × UValue F)) (dt lo hi : F) (c U : ℕ → F) (hc : HasMass c segments)
    (hU : ∀ i s, i + 1 < segments.length → segments[i]? = some s → s.2 = .solid (U i)) (hN : 2 ≤ segments.length) (as : List (Around F)) :
    ∀ (temps : List F) (mem : ChunkMemory F), temps.length = segments.length → Fits segments.length mem → (∀ x ∈ temps, lo ≤ x ∧ x ≤ hi) →
      (∀ a ∈ as, a.Within lo hi ∧ (∀ i, a.solar i = 0) ∧ Gentle (a.wall segments.length U fun _ => lo) dt c 0 segments.length) →
      ∃ (t : List F) (mem' : ChunkMemory F), marches cav segments dt as temps mem = .ok (t, mem') ∧ t.length = segments.length ∧
        ∀ x ∈ t, lo ≤ x ∧ x ≤ hi := by
  induction as with
  | nil => exact fun temps mem h1 _ h3 _ => ⟨temps, mem, rfl, h1, h3⟩
  | cons a rest ih =>
    intro temps mem h1 h2 h3 h4
    obtain ⟨ha, hs, hg⟩ := h4 a (by simp)
    have hl : lo ≤ hi := le_trans ha.front.1.1 ha.front.1.2
    obtain ⟨t, m', b1, b2, b3, b4, b5⟩ := C116_between_partial (a.wall segments.length U fun i => (temps[i]?).getD lo) cav segments temps c a.solar
      dt 0 segments.length mem
      ⟨rfl, by
        apply List.ext_getElem
        · simp [Around.wall, h1]
        · intro i hi hi'
          simp [Around.wall, hi],
        fun i s hi hs => by rw [hU i s hi hs]; rfl⟩ hc hN (by simp [Around.wall]) h2
      ⟨hg.time, hg.u, hg.hs, hg.rad, hg.mass, hg.small, hg.smallRad⟩ lo hi
      ⟨fun i => by
        show lo ≤ (temps[i]?).getD lo ∧ (temps[i]?).getD lo ≤ hi
        cases e : temps[i]? with
        | none => exact ⟨le_rfl, hl⟩
        | some x => exact h3 x (List.mem_of_getElem? e), ha.front, ha.back⟩ (fun i => (hs i).ge)
    have b1' : marchMass cav segments temps ((List.range segments.length).map a.solar) dt a.front a.frontHs a.frontRad a.back a.backHs a.backRad 0
      (0 + segments.length) mem = .ok (t, m') := b1
    have b2' : t.length = segments.length := b2
    obtain ⟨t', m'', d1, d2, d3⟩ := ih t m' b2' b5 (fun x hx => ⟨b3 x hx, b4 hs x hx⟩) (fun a' ha' => h4 a' (List.mem_cons_of_mem _ ha'))
    exact ⟨t', m'', by rw [marches, b1']; exact d1, d2, d3⟩

/-! ## The discretisation -/

theorem elementsFrom_mem (layers : List (Mat ℝ)) (height angle : ℝ) : ∀ (ms : List (Mat ℝ)) (ns : List ℕ) (j : ℕ) (e : ℝ × UValue ℝ),
    e ∈ elementsFrom layers height angle j ms ns → ∃ (i : ℕ) (m : Mat ℝ) (n : ℕ), ms[i]? = some m ∧ ns[i]? = some n ∧
      e = (if n = 0 then 0 else layerMass m / n, layerU layers height angle (j + i) m (max n 1))
  | [], _, _, _, h => by simp [elementsFrom] at h
  | _ :: _, [], _, _, h => by simp [elementsFrom] at h
  | m :: ms, n :: ns, j, e, h => by
    rw [elementsFrom, List.mem_append] at h
    rcases h with h | h
    · exact ⟨0, m, n, rfl, rfl, (List.mem_replicate.1 h).2⟩
    · obtain ⟨i, m', n', h1, h2, h3⟩ := elementsFrom_mem layers height angle ms ns (j + 1) e h
      exact ⟨i + 1, m', n', by simpa using h1, by simpa using h2, by rw [h3, show j + (i + 1) = j + 1 + i by omega]⟩

/-- C116: the discretisation of a construction makes all its chunks of nodes with mass gentle, if what is at both sides, and all the elements
without mass, exchange at most 20 W/m²K, of which at most 12 by radiation. -/
theorem C116_condition (debug : Bool) (layers : List (Mat ℝ)) (modelDt maxDx minDt height angle : ℝ) (hm : 0 < modelDt) (hx : 0 < maxDx)
    (hp : ∀ m ∈ layers, Positive m) (hne : layers ≠ []) (d : Discretization ℝ)
    (hd : discretizationNew debug layers modelDt maxDx minDt height angle = .ok d) (w : Wall ℝ) (cav : CavityU ℝ) (temps : List ℝ)
    (h : w.Held cav d.segments temps) (c : ℕ → ℝ) (hc : HasMass c d.segments)
    (hfront : 0 ≤ w.frontHs ∧ 0 ≤ w.frontRad ∧ w.frontRad ≤ 12 ∧ w.frontHs + w.frontRad ≤ 20)
    (hback : 0 ≤ w.backHs ∧ 0 ≤ w.backRad ∧ w.backRad ≤ 12 ∧ w.backHs + w.backRad ≤ 20)
    (hless : ∀ i e, (elements layers height angle d.nElements)[i]? = some e → e.1 = 0 → 0 ≤ w.U i ∧ w.U i ≤ 20)
    (ini n : ℕ) (hn : ini + n ≤ w.N) (hmass : ∀ i : Fin n, c (ini + i) ≠ 0) :
    Gentle w (modelDt / d.tstepSubdivision) c ini n := by
  obtain ⟨t, es, e1, e2, _, e4, _⟩ := C27_discretization_partial debug layers modelDt maxDx minDt hm hx hp
  unfold discretizationNew at hd
  rw [e1] at hd
  simp only [Outcome.bind] at hd
  have hacc : Acceptable layers es := by
    by_contra hna
    rw [(C25_build layers t es height angle e2 hne).2 hna] at hd
    cases hd
  obtain ⟨d', f1, f2, f3, f4, f5⟩ := (C25_build layers t es height angle e2 hne).1 hacc
  rw [f1] at hd
  cases hd
  rw [f2]
  rw [f3] at hless
  set E := elements layers height angle es with hE
  set dt := modelDt / (t : ℝ) with hdt
  have hdt0 : 0 ≤ dt := by positivity
  have hlen : E.length + 1 = w.N := by
    have := congrArg List.length f4
    rw [List.length_map, List.length_append, List.length_map, h.nodes] at this
    simpa using this.symm
  have hmass' : ∀ i, i < w.N → c i = nodeMass E i := by
    intro i hi
    have hi' : i < d.segments.length := by rw [h.nodes]; exact hi
    rw [← f5 i _ (List.getElem?_eq_getElem hi'), hc i _ (List.getElem?_eq_getElem hi')]
  -- elements
  have hel : ∀ i, i + 1 < w.N → 0 ≤ w.U i ∧ ((massOf E i = 0 ∧ w.U i ≤ 20) ∨ (0 < massOf E i ∧ 40 * dt + 8 * (dt * w.U i) ≤ massOf E i)) := by
    intro i hi
    have hiE : i < E.length := by omega
    have hget := List.getElem?_eq_getElem hiE
    obtain ⟨j, m, k, g1, g2, g3⟩ := elementsFrom_mem layers height angle layers es 0 E[i] (List.getElem_mem hiE)
    have hmo : massOf E i = (E[i]).1 := by unfold massOf; rw [hget]; rfl
    by_cases hk : k = 0
    · have hz : (E[i]).1 = 0 := by rw [g3, if_pos hk]
      obtain ⟨a, b⟩ := hless i _ hget hz
      exact ⟨a, .inl ⟨by rw [hmo, hz], b⟩⟩
    · obtain ⟨q1, s, kk, rho, cp, q2, q3, q4, q5, _, q6⟩ := (e4 j m k g1 g2).1 hk
      have hpm := hp m (List.mem_of_getElem? g1)
      obtain ⟨k', r', c', u1, u2, u3, hkp, hrp, hcp⟩ := hpm.2 s q2
      rw [q3] at u1; rw [q4] at u2; rw [q5] at u3
      cases u1; cases u2; cases u3
      have hth := hpm.1
      have hk1 : max k 1 = k := by omega
      have hkpos : (0 : ℝ) < k := by exact_mod_cast Nat.pos_of_ne_zero hk
      rw [← q1] at q6
      set dx := m.thickness / (k : ℝ) with hdx
      have hdxp : 0 < dx := by positivity
      have hma : massOf E i = rho * cp * dx := by
        rw [hmo, g3, if_neg hk]
        simp only [layerMass, q2, q4, q5, Option.getD_some]
        rw [hdx]; ring
      have hUi : w.U i = kk / dx := by
        have hseg : d.segments[i]? = some (d.segments[i]'(by rw [h.nodes]; omega)) := List.getElem?_eq_getElem _
        have h1 := h.conductance i _ hi hseg
        have h2 : (d.segments[i]'(by rw [h.nodes]; omega)).2 = (E[i]).2 := by
          have := congrArg (fun l => l[i]?) f4
          simp only [List.getElem?_map, hseg, Option.map_some] at this
          rw [List.getElem?_append_left (by simpa using hiE), List.getElem?_map, hget] at this
          exact Option.some.inj this
        rw [h2, g3] at h1
        simp only [layerU, q2, q3, Option.getD_some, UValue.uValue, hk1] at h1
        exact (Outcome.ok.inj h1).symm
      refine ⟨by rw [hUi]; positivity, .inr ⟨by rw [hma]; positivity, ?_⟩⟩
      rw [hma, hUi]
      unfold HalfStable at q6
      have hR : 0 < rho * cp := by positivity
      have e : dt / (rho * cp * 0.05) * (dx / 2) + 2 * dt * kk / (rho * cp) = (10 * dt * dx + 2 * dt * kk) / (rho * cp) := by
        field_simp
        ring
      rw [e, div_le_iff₀ hR] at q6
      have e' : 40 * dt + 8 * (dt * (kk / dx)) = 4 * (10 * dt * dx + 2 * dt * kk) / dx := by
        field_simp
        ring
      rw [e', div_le_iff₀ hdxp]
      nlinarith
  have hprod : ∀ u, u ≤ 20 → dt * u ≤ 20 * dt := fun u hu => by nlinarith
  have hrad12 : ∀ u, u ≤ 12 → dt * u ≤ 12 * dt := fun u hu => by nlinarith
  have hmz : massOf E (w.N - 1) = 0 := by
    unfold massOf
    rw [List.getElem?_eq_none (by omega)]
    rfl
  have hmn : ∀ i, i + 1 < w.N → 0 ≤ massOf E i ∧ 0 ≤ dt * w.U i := by
    intro i hi
    obtain ⟨a, b⟩ := hel i hi
    exact ⟨by rcases b with b | b; exacts [b.1.ge, b.1.le], mul_nonneg hdt0 a⟩
  obtain ⟨fh0, fr0, fr12, f20⟩ := hfront
  obtain ⟨bh0, br0, br12, b20⟩ := hback
  have hnode : ∀ g, g < w.N → nodeMass E g ≠ 0 →
      0 < nodeMass E g ∧ dt * (w.before g + w.after g + w.radiant g) ≤ nodeMass E g ∧ 5 * (dt * w.radiant g) ≤ 3 * nodeMass E g := by
    intro g hg hne0
    unfold nodeMass at *
    unfold Wall.before Wall.after Wall.radiant
    by_cases h0 : g = 0
    · subst h0
      simp only [if_true, zero_add] at *
      by_cases hN : 1 = w.N
      · exfalso
        rw [← hN] at hmz
        apply hne0
        rw [show massOf E 0 = 0 from hmz]
        simp
      · simp only [if_neg hN, add_zero]
        have p1 := hprod _ f20
        have p2 := hrad12 _ fr12
        obtain ⟨_, ⟨z, _⟩ | ⟨a, b⟩⟩ := hel 0 (by omega)
        · rw [z] at hne0; simp at hne0
        · have := (hmn 0 (by omega)).2
          refine ⟨by linarith, ?_, by linarith⟩
          rw [show dt * (w.frontHs + w.U 0 + w.frontRad) = dt * (w.frontHs + w.frontRad) + dt * w.U 0 by ring]
          linarith
    · simp only [if_neg h0, zero_add] at *
      obtain ⟨j, rfl⟩ : ∃ j, g = j + 1 := ⟨g - 1, by omega⟩
      simp only [Nat.add_sub_cancel] at *
      have hj := hel j hg
      have hj' := (hmn j hg).2
      by_cases hN : j + 1 + 1 = w.N
      · simp only [if_pos hN]
        rw [show w.N - 1 = j + 1 by omega] at hmz
        rw [hmz] at hne0 ⊢
        have p1 := hprod _ b20
        have p2 := hrad12 _ br12
        obtain ⟨_, ⟨z, _⟩ | ⟨a, b⟩⟩ := hj
        · rw [z] at hne0; simp at hne0
        · refine ⟨by linarith, ?_, by linarith⟩
          rw [show dt * (w.U j + w.backHs + w.backRad) = dt * (w.backHs + w.backRad) + dt * w.U j by ring]
          linarith
      · simp only [if_neg hN, mul_zero, add_zero]
        have hi := hel (j + 1) (by omega)
        have hi' := (hmn (j + 1) (by omega)).2
        rw [mul_add]
        obtain ⟨_, ⟨z, z'⟩ | ⟨a, b⟩⟩ := hj
        · have p1 := hprod _ z'
          obtain ⟨_, ⟨y, y'⟩ | ⟨a, b⟩⟩ := hi
          · rw [z, y] at hne0; simp at hne0
          · rw [z]
            exact ⟨by linarith, by linarith, by linarith⟩
        · obtain ⟨_, ⟨y, y'⟩ | ⟨a', b'⟩⟩ := hi
          · have p1 := hprod _ y'
            rw [y]
            exact ⟨by linarith, by linarith, by linarith⟩
          · exact ⟨by linarith, by linarith, by linarith⟩
  have hin : ∀ i : Fin n, ini + i.val < w.N := fun i => by omega
  exact ⟨hdt0, fun i hi => (hel i hi).1, ⟨fh0, bh0⟩, ⟨fr0, br0⟩,
    fun i => by rw [hmass' _ (hin i)]; exact (hnode _ (hin i) (by rw [← hmass' _ (hin i)]; exact hmass i)).1,
    fun i => by rw [hmass' _ (hin i)]; exact (hnode _ (hin i) (by rw [← hmass' _ (hin i)]; exact hmass i)).2.1,
    fun i => by rw [hmass' _ (hin i)]; exact (hnode _ (hin i) (by rw [← hmass' _ (hin i)]; exact hmass i)).2.2⟩

/-! ## Cladding -/

noncomputable section

/-- 4 cm of concrete and 1 mm of steel. -/
private def concrete : Mat ℝ := ⟨1/25, .normal ⟨some 1, some 2000, some 1000, none, none⟩⟩
private def steel : Mat ℝ := ⟨1/1000, .normal ⟨some 50, some 8000, some 500, none, none⟩⟩

private theorem clad_positive : ∀ m ∈ [concrete, steel], Positive m := by
  intro m hm
  simp only [List.mem_cons, List.not_mem_nil, or_false] at hm
  rcases hm with rfl | rfl
  · refine ⟨by norm_num [concrete], fun s hs => ?_⟩
    cases hs
    exact ⟨1, 2000, 1000, rfl, rfl, rfl, by norm_num, by norm_num, by norm_num⟩
  · refine ⟨by norm_num [steel], fun s hs => ?_⟩
    cases hs
    exact ⟨50, 8000, 500, rfl, rfl, rfl, by norm_num, by norm_num, by norm_num⟩

private theorem clad_discretize : discretizeConstruction true [concrete, steel] 300 (1/25) 60 = .ok (1, [1, 0]) := by
  obtain ⟨n, es, h, hlen, hn, hl, hz, hmin⟩ := C27_discretization_partial true [concrete, steel] 300 (1/25) 60 (by norm_num) (by norm_num)
    clad_positive
  obtain ⟨e0, e1, rfl⟩ := List.length_eq_two.1 hlen
  have hc0 : count (1/25) concrete = 1 := by
    show ⌈(1/25 : ℝ) / (1/25)⌉.toNat = 1
    rw [show (1/25 : ℝ) / (1/25) = ((1 : ℤ) : ℝ) by norm_num, Int.ceil_intCast]; rfl
  have hc1 : count (1/25) steel = 1 := by
    show ⌈(1/1000 : ℝ) / (1/25)⌉.toNat = 1
    have : ⌈(1/1000 : ℝ) / (1/25)⌉ = 1 := by
      rw [Int.ceil_eq_iff]; norm_num
    rw [this]; rfl
  have hg0 : LayerGood 300 (1/25) 60 concrete 1 := by
    refine ⟨_, 1, 2000, 1000, rfl, rfl, rfl, rfl, by norm_num, ?_⟩
    rw [hc0]
    unfold HalfStable
    norm_num [concrete]
  have hg1 : ∀ y, 1 ≤ y → y ≤ 13 → ¬ LayerGood 300 (1/25) 60 steel y := by
    rintro y hy hy' ⟨s, k, rho, cp, h1, h2, h3, h4, _, h5⟩
    cases h1; cases h2; cases h3; cases h4
    rw [hc1] at h5
    unfold HalfStable at h5
    have hy1 : (300 : ℝ) / y ≥ 300 / 13 := by
      apply div_le_div_of_nonneg_left (by norm_num) (by exact_mod_cast (by omega : 0 < y)) (by exact_mod_cast hy')
    norm_num [steel] at h5
    nlinarith
  have he0 : e0 ≠ 0 := fun h0 => ((hl 0 concrete e0 rfl rfl).2.1 h0) 1 le_rfl (by norm_num) hg0
  have he1 : e1 = 0 := (hl 1 steel e1 rfl rfl).2.2 hg1
  have he0' : e0 = 1 := by rw [((hl 0 concrete e0 rfl rfl).1 he0).1, hc0]
  have hn1 : n = 1 := by
    by_contra hne
    have : n ≠ 0 := fun h0 => he0 (hz.1 h0 e0 (by simp))
    obtain ⟨j, m, e, a, b, c, f⟩ := hmin 1 le_rfl (by omega)
    match j with
    | 0 => cases a; exact f hg0
    | 1 => cases a; cases b; exact c he1
    | j + 2 => simp at a
  rw [h, hn1, he0', he1]

/-- The wall of these two layers, at 20 °C but for its back, which is warmer by a fifth of a thousandth; the air is at 20 °C at the front and at
21 °C at the back. -/
private def cladWall : Wall ℝ :=
  ⟨3, fun i => if i = 2 then 20 + 1/5000 else 20, fun i => if i = 0 then 25 else if i = 1 then 50000 else 0, ⟨20, 20⟩, 10, 0, ⟨21, 21⟩, 10, 0⟩

/-- C116: it is not so when a layer with mass is next to one without mass that conducts well.  4 cm of concrete and 1 mm of steel, between 20 and
21 °C inside and out, without sun: five minutes later a node is at less than −100,000 °C. -/
theorem C116_violated_cladding :
    ∃ (layers : List (Mat ℝ)) (d : Discretization ℝ) (w : Wall ℝ) (temps : List ℝ) (mem : ChunkMemory ℝ),
      (∀ m ∈ layers, Positive m) ∧ discretizationNew true layers 300 (1/25) 60 1 90 = .ok d ∧ d.tstepSubdivision = 1 ∧
      Within w 20 21 ∧ w.frontHs = 10 ∧ w.backHs = 10 ∧ w.frontRad = 0 ∧ w.backRad = 0 ∧ ChunkMemory.fresh 0 2 = .ok mem ∧
      ∀ cav, w.Held cav d.segments temps ∧ ∃ (t : List ℝ) (mem' : ChunkMemory ℝ),
        marchMass cav d.segments temps [0, 0, 0] 300 w.front 10 0 w.back 10 0 0 2 mem = .ok (t, mem') ∧ ∃ x ∈ t, x < -100000 := by
  obtain ⟨d, hd1, hd2, _, hd4, hd5⟩ := (C25_build [concrete, steel] 1 [1, 0] 1 90 rfl (by simp)).1 (by
    intro j m n hj _
    match j with
    | 0 =>
      cases hj
      refine ⟨fun s hs => ?_, fun g hg => by cases hg⟩
      cases hs
      simp
    | 1 =>
      cases hj
      refine ⟨fun s hs => ?_, fun g hg => by cases hg⟩
      cases hs
      simp
    | j + 2 => simp at hj)
  have hE : elements [concrete, steel] 1 90 [1, 0] = [(80000, .solid 25), (0, .solid 50000)] := by
    simp [elements, elementsFrom, layerMass, layerU, concrete, steel]
    norm_num
  rw [hE] at hd4 hd5
  have hseg : d.segments = [(40000, .solid 25), (40000, .solid 50000), (0, .back)] := by
    have hl : d.segments.length = 3 := by
      have := congrArg List.length hd4
      simpa using this
    obtain ⟨a, b, c, hs⟩ := List.length_eq_three.1 hl
    rw [hs] at hd4 hd5 ⊢
    have h0 := hd5 0 a rfl
    have h1 := hd5 1 b rfl
    have h2 := hd5 2 c rfl
    simp [nodeMass, massOf] at h0 h1 h2 hd4
    norm_num at h0 h1 h2
    obtain ⟨x, y, z⟩ := hd4
    rw [← x, ← y, ← z, ← h2]
    rw [show a = (a.1, a.2) from rfl, show b = (b.1, b.2) from rfl, show c = (c.1, c.2) from rfl, h0, h1]
  have hheld : ∀ cav, cladWall.Held cav d.segments ((List.range 3).map cladWall.T) := by
    intro cav
    rw [hseg]
    refine ⟨rfl, rfl, fun i s hi hs => ?_⟩
    have hi' : i + 1 < 3 := hi
    match i with
    | 0 => cases hs; rfl
    | 1 => cases hs; rfl
    | i + 2 => omega
  obtain ⟨mem, hm1, hm2, _⟩ := fresh_fits 0 2
  obtain ⟨hs, hcl, hql, M0, hk⟩ := hm2
  refine ⟨[concrete, steel], d, cladWall, (List.range 3).map cladWall.T, mem, clad_positive, ?_, hd2, ⟨fun i => ?_, ?_, ?_⟩, rfl, rfl, rfl, rfl, hm1,
    fun cav => ⟨hheld cav, ?_⟩⟩
  · unfold discretizationNew
    rw [clad_discretize]
    exact hd1
  · unfold cladWall
    dsimp only
    split_ifs <;> norm_num
  · norm_num [cladWall]
  · norm_num [cladWall]
  obtain ⟨t, mem', a1, _, a3, _, _⟩ := C29_march_partial cladWall cav d.segments _ (hheld _)
    (fun i => if i = 2 then 0 else 40000) (fun _ => 0) (by
      rw [hseg]
      intro i s hs
      match i with
      | 0 => cases hs; simp
      | 1 => cases hs; simp
      | 2 => cases hs; simp
      | i + 3 => simp at hs) 300 0 2 le_rfl (by simp [cladWall]) mem hs hcl hql M0 hk
  refine ⟨t, mem', a1, _, List.mem_of_getElem? (a3 1), ?_⟩
  have hA : cladWall.flowMatrix 300 (fun i => if i = 2 then 0 else 40000) 0 2 = !![-(21/80), 3/16; 3/16, -(6003/16)] := by
    ext i j
    unfold Wall.flowMatrix
    rw [Matrix.diagonal_mul]
    fin_cases i <;> fin_cases j <;> simp [Wall.K, Wall.before, Wall.after, cladWall] <;> norm_num
  have hq : cladWall.flowVector 300 (fun i => if i = 2 then 0 else 40000) (fun _ => 0) 0 2 = ![3/2, 300003/40] := by
    funext i
    fin_cases i <;>
      simp [Wall.flowVector, Wall.q, Wall.before, Wall.after, Wall.tBefore, Wall.tAfter, Wall.radiation, cladWall] <;> norm_num
  have hT : (fun i : Fin 2 => cladWall.T (0 + i)) = ![20, 20] := by
    funext i
    fin_cases i <;> simp [cladWall]
  have hmv : ∀ a b c d x y : ℝ, !![a, b; c, d].mulVec ![x, y] = ![a * x + b * y, c * x + d * y] := by
    intro a b c d x y
    funext i
    fin_cases i <;> simp [Matrix.mulVec, dotProduct, Fin.sum_univ_two]
  have hadd : ∀ x y z w : ℝ, (![x, y] + ![z, w] : Fin 2 → ℝ) = ![x + z, y + w] := by
    intro x y z w
    simp
  unfold Wall.step
  rw [hA, hq, hT]
  unfold taylor
  simp only [hmv, hadd]
  simp only [Pi.add_apply, Pi.smul_apply, smul_eq_mul, Matrix.cons_val_one]
  norm_num

/-- 4 cm of concrete by themselves are gentle: the hypotheses of the theorems above hold. -/
example : Gentle (⟨2, fun _ => 20, fun _ => 25, ⟨10, 10⟩, 10, 5, ⟨25, 25⟩, 8, 0⟩ : Wall ℚ) 300 (fun _ => 40000) 0 2 ∧
    Within (⟨2, fun _ => 20, fun _ => 25, ⟨10, 10⟩, 10, 5, ⟨25, 25⟩, 8, 0⟩ : Wall ℚ) 10 25 := by
  refine ⟨⟨by norm_num, fun _ _ => by norm_num, by norm_num, by norm_num, fun _ => by norm_num, fun i => ?_, fun i => ?_⟩,
    ⟨fun _ => by norm_num, by norm_num, by norm_num⟩⟩
  · fin_cases i <;> norm_num [Wall.before, Wall.after, Wall.radiant]
  · fin_cases i <;> norm_num [Wall.radiant]

end

end Simple.Heat
