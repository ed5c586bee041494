import Verif.Heat.OrderProps
import Verif.Heat.SurfaceProps

/-! # C116: walls with layers without mass, and cavities -/

namespace Simple.Heat

open Simple.Matrix

section

variable {F : Type*} [Field F] [LinearOrder F] [IsStrictOrderedRing F]

namespace Spec

/-- With what is around it, a wall between two temperatures conducts as the code can handle: the chunks of nodes without mass have conductances of
a normal size, and those with mass exchange little heat in one interval. -/
structure Tame (a : Around F) (tiny : F) (cav : CavityU F) (segments : List (F × UValue F)) (dt lo hi : F) (c : ℕ → F)
    (nomass massive : List (ℕ × ℕ)) : Prop where
  conducts : ∀ T : ℕ → F, (∀ g, lo ≤ T g ∧ T g ≤ hi) → ∃ U : ℕ → F,
    (a.wall segments.length U T).Held cav segments ((List.range segments.length).map T) ∧
    (∀ x ∈ nomass, (a.wall segments.length U T).Regular tiny x.1 (x.2 - x.1)) ∧
    ∀ x ∈ massive, Gentle (a.wall segments.length U T) dt c x.1 (x.2 - x.1)
  shaded : ∀ x ∈ nomass, (x.1 = 0 → a.frontRad = 0) ∧ (x.2 = segments.length → a.backRad = 0)

end Spec

open Spec

/-! ## Nodes without mass -/

/-- What only receives heat is not below zero. -/
theorem chain_nonneg {n : ℕ} {tiny : F} (ht : 0 < tiny) {β α : ℕ → F} (h : Chain tiny n β α) (y : Fin n → F)
    (hy : ∀ i, (chainMatrix n β α).mulVec y i ≤ 0) (i : Fin n) : 0 ≤ y i := by
  have hu := chain_unit ht h
  have hsurj := Matrix.mulVec_surjective_iff_isUnit.2 hu
  have hinj := Matrix.mulVec_injective_iff_isUnit.2 hu
  choose g hg using fun j : Fin n => hsurj (-Pi.single j 1)
  have hpos : ∀ j i, 0 ≤ g j i := fun j i => (chain_extremes ht h j 1 zero_le_one (g j) (hg j)).1 i
  have e : y = ∑ j, (-(chainMatrix n β α).mulVec y j) • g j := by
    apply hinj
    show (chainMatrix n β α).mulVec y = (chainMatrix n β α).mulVec (∑ j, (-(chainMatrix n β α).mulVec y j) • g j)
    rw [Matrix.mulVec_sum]
    simp only [Matrix.mulVec_smul]
    have : ∀ j, (chainMatrix n β α).mulVec (g j) = -Pi.single j 1 := hg
    simp only [this]
    funext k
    rw [Finset.sum_apply, Finset.sum_eq_single k]
    · simp
    · intro j _ hj
      simp [hj.symm]
    · simp
  rw [e, Finset.sum_apply]
  exact Finset.sum_nonneg fun j _ => mul_nonneg (by linarith [hy j]) (hpos j i)

section
variable {tiny : F} (ht : 0 < tiny) (w : Wall F) {ini n : ℕ} (hn : ini + n ≤ w.N) (hr : w.Regular tiny ini n)
  (hrad : (ini = 0 → w.frontRad = 0) ∧ (ini + n = w.N → w.backRad = 0))
include ht hn hr hrad

private theorem no_radiation (T : ℕ → F) (g : ℕ) (h1 : ini ≤ g) (h2 : g < ini + n) : (w.at T).radiation g = 0 ∧ w.radiative g = 0 := by
  have e1 : g = 0 → w.frontRad = 0 := fun e => hrad.1 (by omega)
  have e2 : g + 1 = w.N → w.backRad = 0 := fun e => hrad.2 (by omega)
  unfold Wall.radiation Wall.radiative Wall.at
  simp only
  by_cases c1 : g = 0 <;> by_cases c2 : g + 1 = w.N <;> simp [c1, c2] <;> simp_all

private theorem flat_heat (T : ℕ → F) (t : F) (hT : ∀ g, ini ≤ g → g < ini + n → T g = t) (i : Fin n) :
    ((∀ g, t ≤ T g) → t ≤ w.front.airTemperature → t ≤ w.back.airTemperature → 0 ≤ (w.at T).heat (ini + i)) ∧
    ((∀ g, T g ≤ t) → w.front.airTemperature ≤ t → w.back.airTemperature ≤ t → (w.at T).heat (ini + i) ≤ 0) := by
  have hi := i.2
  have hch := regular_chain ht hn hr
  have b0 : 0 ≤ w.before (ini + i) := hch.before i hi
  have a0 : 0 ≤ w.after (ini + i) := le_trans ht.le (hch.after i hi)
  have e : (w.at T).heat (ini + i) = w.before (ini + i) * ((w.at T).tBefore (ini + i) - t) + w.after (ini + i) * ((w.at T).tAfter (ini + i) - t) := by
    show (w.at T).before _ * (_ - T (ini + i)) + (w.at T).after _ * (_ - T (ini + i)) + _ = _
    rw [(no_radiation ht w hn hr hrad T (ini + i) (by omega) (by omega)).1, hT (ini + i) (by omega) (by omega), add_zero]
    rfl
  rw [e]
  constructor
  · intro h1 h2 h3
    have q1 : t ≤ (w.at T).tBefore (ini + i) := by
      unfold Wall.tBefore
      split_ifs
      exacts [h2, h1 _]
    have q2 : t ≤ (w.at T).tAfter (ini + i) := by
      unfold Wall.tAfter
      split_ifs
      exacts [h3, h1 _]
    exact add_nonneg (mul_nonneg b0 (by linarith)) (mul_nonneg a0 (by linarith))
  · intro h1 h2 h3
    have q1 : (w.at T).tBefore (ini + i) ≤ t := by
      unfold Wall.tBefore
      split_ifs
      exacts [h2, h1 _]
    have q2 : (w.at T).tAfter (ini + i) ≤ t := by
      unfold Wall.tAfter
      split_ifs
      exacts [h3, h1 _]
    exact add_nonpos (mul_nonpos_of_nonneg_of_nonpos b0 (by linarith)) (mul_nonpos_of_nonneg_of_nonpos a0 (by linarith))

/-- Temperatures at which the heat balances are between those around. -/
private theorem balance_within (lo hi : F) (hw : Within w lo hi) (S : ℕ → F) (hS : SameOutside ini n w.T S)
    (hb : ∀ g, ini ≤ g → g < ini + n → (w.at S).heat g = 0) (g : ℕ) : lo ≤ S g ∧ S g ≤ hi := by
  by_cases hg : ini ≤ g ∧ g < ini + n
  swap
  · rw [hS g (by omega)]
    exact hw.nodes g
  have hch := regular_chain ht hn hr
  obtain ⟨i, rfl⟩ : ∃ i : Fin n, g = ini + i.val := ⟨⟨g - ini, by omega⟩, by simp; omega⟩
  have hl : lo ≤ hi := le_trans (hw.nodes 0).1 (hw.nodes 0).2
  have key : ∀ t : F, ∀ i : Fin n,
      (chainMatrix n (fun i => w.before (ini + i)) (fun i => w.after (ini + i))).mulVec
        (fun j : Fin n => S (ini + j) - t) i = -(w.at fun g => if ini ≤ g ∧ g < ini + n then t else w.T g).heat (ini + i) := by
    intro t i
    have hi := i.2
    have := heat_diff w ini n hn (fun g => if ini ≤ g ∧ g < ini + n then t else w.T g) S
      (fun g hg => by rw [hS g hg]; exact (if_neg (by omega)).symm) i
    rw [hb _ (by omega) (by omega), (no_radiation ht w hn hr hrad S (ini + i) (by omega) (by omega)).2, zero_mul, add_zero, zero_sub] at this
    rw [← this]
    congr 1
    funext j
    have hj := j.2
    rw [if_pos ⟨by omega, by omega⟩]
  constructor
  · have := chain_nonneg ht hch (fun j : Fin n => S (ini + j) - lo) (fun k => by
      rw [key lo k]
      have := (flat_heat ht w hn hr hrad (fun g => if ini ≤ g ∧ g < ini + n then lo else w.T g) lo (fun g h1 h2 => if_pos ⟨h1, h2⟩) k).1
        (fun g => by split_ifs; exacts [le_rfl, (hw.nodes g).1]) hw.front.1.1 hw.back.1.1
      linarith) i
    linarith
  · have := chain_nonneg ht hch (fun j : Fin n => hi - S (ini + j)) (fun k => by
      have e : (fun j : Fin n => hi - S (ini + j)) = -fun j : Fin n => S (ini + j) - hi := by
        funext j
        simp
      rw [e, Matrix.mulVec_neg, Pi.neg_apply, key hi k, neg_neg]
      exact (flat_heat ht w hn hr hrad (fun g => if ini ≤ g ∧ g < ini + n then hi else w.T g) hi (fun g h1 h2 => if_pos ⟨h1, h2⟩) k).2
        (fun g => by split_ifs; exacts [le_rfl, (hw.nodes g).2]) hw.front.1.2 hw.back.1.2) i
    linarith

end

/-- C116: nodes without mass that do not see what is around the wall, and all the others, stay between the temperatures between which they and the
air are, when the nodes without mass are marched; also with cavities, whose conductance depends on the temperatures.

Missing: nodes without mass at the faces of the wall that radiate, for which it fails (`C85_violated_overshoots`). -/
theorem C116_nomass_partial (a : Around F) (tiny : F) (ht : 0 < tiny) (cav : CavityU F) (segments : List (F × UValue F)) (lo hi : F)
    (ha : a.Within lo hi) (ini n : ℕ) (hn0 : 0 < n) (hn : ini + n ≤ segments.length)
    (hcond : ∀ T : ℕ → F, (∀ g, lo ≤ T g ∧ T g ≤ hi) → ∃ U : ℕ → F,
      (a.wall segments.length U T).Held cav segments ((List.range segments.length).map T) ∧ (a.wall segments.length U T).Regular tiny ini n)
    (hrad : (ini = 0 → a.frontRad = 0) ∧ (ini + n = segments.length → a.backRad = 0)) (T : ℕ → F) (hT : ∀ g, lo ≤ T g ∧ T g ≤ hi)
    (mem : ChunkMemory F) (hm : Ready n mem) :
    ∃ (T' : ℕ → F) (mem' : ChunkMemory F),
      marchNomass tiny cav segments ((List.range segments.length).map T) ((List.range segments.length).map fun _ => 0) a.front a.frontHs a.frontRad
          a.back a.backHs a.backRad ini (ini + n) mem = .ok ((List.range segments.length).map T', mem') ∧ Ready n mem' ∧
        SameOutside ini n T T' ∧ ∀ g, lo ≤ T' g ∧ T' g ≤ hi := by
  unfold marchNomass
  generalize (99999 : F) = oldErr
  generalize 19001 = left
  have turn : ∀ (T : ℕ → F), (∀ g, lo ≤ T g ∧ T g ≤ hi) → ∀ mem : ChunkMemory F, Ready n mem → ∃ (T' : ℕ → F) (mem' : ChunkMemory F),
      Ready n mem' ∧ SameOutside ini n T T' ∧ (∀ g, lo ≤ T' g ∧ T' g ≤ hi) ∧ ∃ err : F, ∀ left oldErr,
      nomassLoop tiny cav segments ((List.range segments.length).map fun _ => 0) a.front a.frontHs a.frontRad
          a.back a.backHs a.backRad ini (ini + n) left oldErr ((List.range segments.length).map T) mem
        = if err > oldErr then .ok ((List.range segments.length).map T, mem')
          else if err < allowedError (19001 - left) then .ok ((List.range segments.length).map T', mem')
          else match left with
            | 0 => .ok ((List.range segments.length).map T', mem')
            | left + 1 => nomassLoop tiny cav segments ((List.range segments.length).map fun _ => 0) a.front a.frontHs a.frontRad
                a.back a.backHs a.backRad ini (ini + n) left err ((List.range segments.length).map T') mem' := by
    intro T hT mem hm
    obtain ⟨U, hh, hr⟩ := hcond T hT
    obtain ⟨S, mem', p1, p2, p3, -, p5⟩ := loop_step tiny ht (a.wall segments.length U T) cav segments _ hh ini n hn0 hn hr (fun _ => 0) mem hm
    have hS := balance_within ht (a.wall segments.length U T) hn hr hrad lo hi ⟨hT, ha.front, ha.back⟩ S p2 (fun g h1 h2 => by
      have e1 := p3 g h1 h2
      have e2 : (a.wall segments.length U T).radiation g = 0 := (no_radiation ht (a.wall segments.length U T) hn hr hrad T g h1 h2).1
      rw [(no_radiation ht (a.wall segments.length U T) hn hr hrad S g h1 h2).1, e2] at e1
      simpa using e1)
    refine ⟨fun g => (T g + S g) * (1 / 2), mem', p1, fun g hg => ?_, fun g => ?_, _, p5⟩
    · have : S g = T g := p2 g hg
      simp only [this]
      ring
    · have h1 := hT g
      have h2 := hS g
      constructor <;> linarith [h1.1, h1.2, h2.1, h2.2]
  induction left generalizing oldErr T mem with
  | zero =>
    obtain ⟨T', mem', q1, q2, q3, err, q4⟩ := turn T hT mem hm
    rw [q4]
    by_cases c1 : err > oldErr
    · exact ⟨T, mem', by rw [if_pos c1], q1, fun g _ => rfl, hT⟩
    · refine ⟨T', mem', ?_, q1, q2, q3⟩
      rw [if_neg c1]
      simp
  | succ left ih =>
    obtain ⟨T', mem', q1, q2, q3, err, q4⟩ := turn T hT mem hm
    rw [q4]
    by_cases c1 : err > oldErr
    · exact ⟨T, mem', by rw [if_pos c1], q1, fun g _ => rfl, hT⟩
    · by_cases c2 : err < allowedError (19001 - (left + 1))
      · exact ⟨T', mem', by rw [if_neg c1, if_pos c2], q1, q2, q3⟩
      · obtain ⟨T'', m'', i1, i2, i3, i4⟩ := ih T' q3 mem' q1 err
        refine ⟨T'', m'', ?_, i2, fun g hg => (i3 g hg).trans (q2 g hg), i4⟩
        rw [if_neg c1, if_neg c2]
        exact i1

end

/-! ## Surfaces -/

noncomputable section

namespace Spec

/-- What is around a surface, in the dark. -/
def around (s : Surf) (f b : ConvectionParams × ℝ) : Around ℝ :=
  ⟨f.1.env, f.2, radHs s.frontEmissivity f.1, b.1.env, b.2, radHs s.backEmissivity b.1, fun _ => 0⟩

/-- What the march of a surface is given in an interval. -/
structure Moment where
  readings : Readings
  tFront : ℝ
  tBack : ℝ
  windDirection : ℝ
  windSpeed : ℝ

/-- It is dark, what is around the surface is between two temperatures, and between them the surface is one that the code can handle. -/
structure Moment.Mild (m : Moment) (s : Surf) (tiny : ℝ) (cav : CavityU ℝ) (dt lo hi : ℝ) (c : ℕ → ℝ) : Prop where
  frontDark : m.readings.solarFront = some 0 ∨ m.readings.solarFront = none
  backDark : m.readings.solarBack = some 0 ∨ m.readings.solarBack = none
  border : ∃ f b, borderConditions s m.readings m.tFront m.tBack m.windDirection m.windSpeed = .ok (f, b) ∧
    (around s f b).Within lo hi ∧ Tame (around s f b) tiny cav s.segments dt lo hi c s.nomassChunks s.massiveChunks

/-- The absorptances and the chunks of a surface are those of its nodes. -/
structure Chunked (s : Surf) : Prop where
  frontAlphas : s.frontAlphas.length = s.segments.length
  backAlphas : s.backAlphas.length = s.segments.length
  nomass : ∀ c ∈ s.nomassChunks, c.1 < c.2 ∧ c.2 ≤ s.segments.length
  massive : ∀ c ∈ s.massiveChunks, c.1 + 2 ≤ c.2 ∧ c.2 ≤ s.segments.length

/-- The temperatures of a surface are between two. -/
def SurfaceWithin (s : Surf) (lo hi : ℝ) (temps : List ℝ) : Prop := temps.length = s.segments.length ∧ ∀ x ∈ temps, lo ≤ x ∧ x ≤ hi

/-- To march a surface through several intervals. -/
def marchAll (s : Surf) (tiny : ℝ) (cav : CavityU ℝ) (dt : ℝ) : List Moment → SurfaceMemory → Outcome SurfaceMemory
  | [], mem => .ok mem
  | m :: rest, mem =>
    (s.march tiny cav m.readings m.tFront m.tBack m.windDirection m.windSpeed dt mem).bind fun mem => marchAll s tiny cav dt rest mem

end Spec

open Spec

theorem chunksLoop_keeps (march : MarchChunk) (P : ℕ × ℕ → ChunkMemory ℝ → Prop) (I : List ℝ → Prop) :
    ∀ (chunks : List (ℕ × ℕ)) (mems : List (ChunkMemory ℝ)) (temps : List ℝ),
    (∀ c ∈ chunks, ∀ m t, P c m → I t → ∃ t' m', march c.1 c.2 m t = .ok (t', m') ∧ I t' ∧ P c m') →
    List.Forall₂ P chunks mems → I temps →
    ∃ temps' mems', chunksLoop march chunks mems temps = .ok (temps', mems') ∧ I temps' ∧ List.Forall₂ P chunks mems'
  | [], mems, temps, _, hm, hI => by
    cases hm
    exact ⟨temps, [], rfl, hI, .nil⟩
  | c :: chunks, mems, temps, hc, hm, hI => by
    obtain ⟨m, mems, hm1, hm2, rfl⟩ := List.forall₂_cons_left_iff.1 hm
    obtain ⟨t', m', h1, h2, h3⟩ := hc c (by simp) m temps hm1 hI
    obtain ⟨t'', mems', h4, h5, h6⟩ := chunksLoop_keeps march P I chunks mems t' (fun c hcm => hc c (by simp [hcm])) hm2 h2
    refine ⟨t'', m' :: mems', ?_, h5, .cons h3 h6⟩
    rw [chunksLoop, h1]
    simp only [Outcome.bind, h4]

private theorem nodes_of (N : ℕ) (lo hi : ℝ) (hl : lo ≤ hi) (temps : List ℝ) (h1 : temps.length = N) (h2 : ∀ x ∈ temps, lo ≤ x ∧ x ≤ hi) :
    temps = (List.range N).map (fun g => (temps[g]?).getD lo) ∧ ∀ g : ℕ, lo ≤ (temps[g]?).getD lo ∧ (temps[g]?).getD lo ≤ hi := by
  constructor
  · apply List.ext_getElem (by simp [h1])
    intro j j1 j2
    simp [List.getElem?_eq_getElem j1]
  · intro g
    by_cases hg : g < temps.length
    · rw [List.getElem?_eq_getElem hg]
      exact h2 _ (List.getElem_mem hg)
    · rw [List.getElem?_eq_none (by omega)]
      exact ⟨le_rfl, hl⟩

/-- C116: in the dark, all the nodes of a surface stay between the temperatures between which they, the air and what it radiates to are; whatever its
layers are, with mass, without it or cavities whose conductance depends on the temperatures.

Missing: surfaces whose face has no mass and radiates, for which it fails (`C85_violated_overshoots`), and nodes that exchange too much heat in one
interval, for which it fails (`C116_violated_cladding`). -/
theorem C116_surface_partial (s : Surf) (hs : Chunked s) (tiny : ℝ) (ht : 0 < tiny) (cav : CavityU ℝ) (dt lo hi : ℝ) (c : ℕ → ℝ)
    (hc : HasMass c s.segments) (m : Moment) (hm : m.Mild s tiny cav dt lo hi c) (mem : SurfaceMemory) (hf : Fitting s mem)
    (hT : SurfaceWithin s lo hi mem.temperatures) :
    ∃ mem', s.march tiny cav m.readings m.tFront m.tBack m.windDirection m.windSpeed dt mem = .ok mem' ∧
      SurfaceWithin s lo hi mem'.temperatures ∧ Fitting s mem' := by
  obtain ⟨f, b, hx, ha, htame⟩ := hm.border
  have hl : lo ≤ hi := le_trans ha.front.1.1 ha.front.1.2
  have hsun : absorbedSun s m.readings s.segments.length = .ok ((List.range s.segments.length).map fun _ => 0) := by
    have : solarIrradiance m.readings = (0, 0) := by
      unfold solarIrradiance
      rcases hm.frontDark with e1 | e1 <;> rcases hm.backDark with e2 | e2 <;> rw [e1, e2] <;> simp
    unfold absorbedSun
    rw [if_pos hs.frontAlphas, if_pos hs.backAlphas, this, addAssign_zero _ _ _ hs.frontAlphas hs.backAlphas]
  obtain ⟨t1, nm, n1, n2, n3⟩ := chunksLoop_keeps
    (fun ini fin m x => marchNomass tiny cav s.segments x ((List.range s.segments.length).map fun _ => 0)
      f.1.env f.2 (radHs s.frontEmissivity f.1) b.1.env b.2 (radHs s.backEmissivity b.1) ini fin m)
    (fun c m => Ready (c.2 - c.1) m) (SurfaceWithin s lo hi) s.nomassChunks mem.nomassChunks mem.temperatures
    (fun x hx m t hr hI => by
      obtain ⟨h1, h2⟩ := hs.nomass x hx
      obtain ⟨e1, e2⟩ := nodes_of s.segments.length lo hi hl t hI.1 hI.2
      obtain ⟨T', m', p1, p2, p3, p4⟩ := C116_nomass_partial (around s f b) tiny ht cav s.segments lo hi ha x.1 (x.2 - x.1) (by omega) (by omega)
        (fun T hT => by
          obtain ⟨U, u1, u2, -⟩ := htame.conducts T hT
          exact ⟨U, u1, u2 x hx⟩)
        ⟨(htame.shaded x hx).1, fun e => (htame.shaded x hx).2 (by omega)⟩ (fun g => (t[g]?).getD lo) e2 m hr
      rw [← e1, show x.1 + (x.2 - x.1) = x.2 by omega] at p1
      refine ⟨_, m', p1, ⟨by simp, fun y hy => ?_⟩, p2⟩
      obtain ⟨g, -, rfl⟩ := List.mem_map.1 hy
      exact p4 g) hf.nomass hT
  obtain ⟨t2, mm, m1, m2, m3⟩ := chunksLoop_keeps
    (fun ini fin m x => marchMass cav s.segments x ((List.range s.segments.length).map fun _ => 0) dt
      f.1.env f.2 (radHs s.frontEmissivity f.1) b.1.env b.2 (radHs s.backEmissivity b.1) ini fin m)
    (fun c m => Fits (c.2 - c.1) m) (SurfaceWithin s lo hi) s.massiveChunks mem.massiveChunks t1
    (fun x hx m t hr hI => by
      obtain ⟨h1, h2⟩ := hs.massive x hx
      obtain ⟨e1, e2⟩ := nodes_of s.segments.length lo hi hl t hI.1 hI.2
      obtain ⟨U, u1, -, u2⟩ := htame.conducts (fun g => (t[g]?).getD lo) e2
      rw [← e1] at u1
      obtain ⟨t', m', p1, p2, p3, p4, p5⟩ := C116_between_partial ((around s f b).wall s.segments.length U fun g => (t[g]?).getD lo) cav s.segments t c
        (fun _ => 0) dt x.1 (x.2 - x.1) m u1 hc (by omega) (by show x.1 + (x.2 - x.1) ≤ s.segments.length; omega) hr (u2 x hx) lo hi
        ⟨e2, ha.front, ha.back⟩ (fun _ => le_rfl)
      rw [show x.1 + (x.2 - x.1) = x.2 by omega] at p1
      exact ⟨t', m', p1, ⟨p2, fun y hy => ⟨p3 y hy, p4 (fun _ => rfl) y hy⟩⟩, p5⟩) hf.massive n2
  refine ⟨⟨mm, nm, t2⟩, ?_, m2, n3, m3⟩
  unfold Surf.march
  rw [hT.1, hsun, hx]
  simp only [Outcome.bind, n1, m1]

/-- C116: so it is however the air, the wind and what is seen from the surface change. -/
theorem C116_surface_history_partial (s : Surf) (hs : Chunked s) (tiny : ℝ) (ht : 0 < tiny) (cav : CavityU ℝ) (dt lo hi : ℝ) (c : ℕ → ℝ)
    (hc : HasMass c s.segments) (moments : List Moment) (hm : ∀ m ∈ moments, m.Mild s tiny cav dt lo hi c) :
    ∀ mem : SurfaceMemory, Fitting s mem → SurfaceWithin s lo hi mem.temperatures →
    ∃ mem', marchAll s tiny cav dt moments mem = .ok mem' ∧ SurfaceWithin s lo hi mem'.temperatures ∧ Fitting s mem' := by
  induction moments with
  | nil => exact fun mem h1 h2 => ⟨mem, rfl, h2, h1⟩
  | cons m rest ih =>
    intro mem h1 h2
    obtain ⟨mem1, a1, a2, a3⟩ := C116_surface_partial s hs tiny ht cav dt lo hi c hc m (hm m (by simp)) mem h1 h2
    obtain ⟨mem2, b1, b2, b3⟩ := ih (fun m h => hm m (by simp [h])) mem1 a3 a2
    refine ⟨mem2, ?_, b2, b3⟩
    rw [marchAll, a1]
    exact b1

/-! ## A wall with an insulated cavity -/

/-- A wall of two leaves, with a cavity and a sheet without mass between them, that separates a room from air at 5 degrees. -/
def exampleLeaves (cavity : Cavity ℝ) : Surf :=
  { exampleWall with
    frontBoundary := .ambientTemperature 5, frontHs := some 10, backHs := some 8
    frontAlphas := [0.7, 0, 0, 0, 0, 0], backAlphas := [0, 0, 0, 0, 0, 0.7]
    segments := [(50000, .solid 2), (50000, .solid 1), (0, .cavity cavity), (0, .solid 3), (50000, .solid 2), (50000, .back)]
    massiveChunks := [(0, 2), (4, 6)], nomassChunks := [(2, 4)] }

private theorem rad_bounds (x y : ℝ) (hx : 0 ≤ x ∧ x ≤ 30) (hy : 0 ≤ y ∧ y ≤ 30) :
    0 ≤ 4 * 0.9 * sigma * (273.15 + (x + y) / 2) ^ 3 ∧ 4 * 0.9 * sigma * (273.15 + (x + y) / 2) ^ 3 ≤ 6 := by
  have h1 : 0 ≤ 273.15 + (x + y) / 2 := by linarith [hx.1, hy.1]
  have h2 : 273.15 + (x + y) / 2 ≤ 303.15 := by linarith [hx.2, hy.2]
  have h3 : (273.15 + (x + y) / 2) ^ 3 ≤ 303.15 ^ 3 := pow_le_pow_left₀ h1 h2 3
  have hs : (0 : ℝ) ≤ 4 * 0.9 * sigma := by unfold sigma; norm_num
  refine ⟨mul_nonneg hs (pow_nonneg h1 3), le_trans (mul_le_mul_of_nonneg_left h3 hs) ?_⟩
  unfold sigma
  norm_num

theorem exampleLeaves_mild (cavity : Cavity ℝ) (cav : CavityU ℝ)
    (hcav : ∀ t1 t2 : ℝ, 0 ≤ t1 ∧ t1 ≤ 30 → 0 ≤ t2 ∧ t2 ≤ 30 → ∃ u, cav cavity t1 t2 = .ok u ∧ 1 ≤ u ∧ u ≤ 5) (m : Moment)
    (hd : (m.readings.solarFront = some 0 ∨ m.readings.solarFront = none) ∧ (m.readings.solarBack = some 0 ∨ m.readings.solarBack = none))
    (hr : (0 ≤ m.readings.front ∧ m.readings.front ≤ 30) ∧ 0 ≤ m.readings.back ∧ m.readings.back ≤ 30) (hb : 0 ≤ m.tBack ∧ m.tBack ≤ 30) :
    m.Mild (exampleLeaves cavity) 1e-9 cav 300 0 30 (massOf (exampleLeaves cavity).segments) := by
  refine ⟨hd.1, hd.2, _, _, rfl, ?_, ?_, ?_⟩
  · exact ⟨⟨⟨by norm_num [around, exampleLeaves, ConvectionParams.env], by norm_num [around, exampleLeaves, ConvectionParams.env]⟩,
        by norm_num [around, exampleLeaves, ConvectionParams.env], by norm_num [around, exampleLeaves, ConvectionParams.env]⟩, ⟨hb, hb⟩⟩
  · intro T hT
    obtain ⟨u, c1, c2, c3⟩ := hcav (T 2) (T 3) (hT 2) (hT 3)
    have q1 := rad_bounds 5 m.readings.front (by norm_num) hr.1
    have q2 := rad_bounds m.tBack m.readings.back hb hr.2
    refine ⟨fun i => if i = 0 then 2 else if i = 1 then 1 else if i = 2 then u else if i = 3 then 3 else 2, ⟨rfl, rfl, ?_⟩, ?_, ?_⟩
    · intro i s hi hs
      have : i + 1 < 6 := hi
      have : i = 0 ∨ i = 1 ∨ i = 2 ∨ i = 3 ∨ i = 4 := by omega
      rcases this with rfl | rfl | rfl | rfl | rfl <;> (simp [exampleLeaves] at hs; rw [← hs])
      all_goals first | rfl | exact c1
    · intro x hx
      obtain rfl : x = (2, 4) := by simpa [exampleLeaves] using hx
      refine ⟨?_, ?_, ?_, q1.1, q2.1, ?_⟩
      · simp [Wall.before, Around.wall]
      · simp [Wall.after, Around.wall, exampleLeaves]
        norm_num
      · intro g g1 g2
        obtain rfl : g = 2 := by simp at g1 g2; omega
        simp [Around.wall]
        linarith
      · intro g g1 g2
        obtain rfl : g = 2 := by simp at g1 g2; omega
        simp [Wall.before, Wall.after, Wall.radiative, Around.wall, exampleLeaves]
        linarith
    · intro x hx
      have hx : x = (0, 2) ∨ x = (4, 6) := by simpa [exampleLeaves] using hx
      have q1' : radHs exampleWall.frontEmissivity ⟨5, 0, 5, m.readings.front, 1, exampleWall.cosTilt⟩ ≤ 6 := q1.2
      have q2' : radHs exampleWall.backEmissivity ⟨m.tBack, 0, m.tBack, m.readings.back, 1, exampleWall.cosTilt⟩ ≤ 6 := q2.2
      refine ⟨by norm_num, ?_, ⟨by norm_num [Around.wall, around], by norm_num [Around.wall, around]⟩, ⟨q1.1, q2.1⟩, ?_, ?_, ?_⟩
      · intro i _
        simp only [Around.wall]
        split_ifs <;> linarith
      · rcases hx with rfl | rfl <;> intro i <;> fin_cases i <;> norm_num [massOf, exampleLeaves]
      · rcases hx with rfl | rfl <;> intro i <;> fin_cases i <;>
          norm_num [Wall.before, Wall.after, Wall.radiant, Around.wall, around, massOf, exampleLeaves] <;> (first | linarith [q1'] | linarith [q2'])
      · rcases hx with rfl | rfl <;> intro i <;> fin_cases i <;>
          norm_num [Wall.radiant, Around.wall, around, massOf, exampleLeaves] <;> (first | linarith [q1'] | linarith [q2'])
  · intro x hx
    obtain rfl : x = (2, 4) := by simpa [exampleLeaves] using hx
    exact ⟨fun h => absurd h (by norm_num), fun h => absurd h (by simp [exampleLeaves])⟩

/-- `C116_surface_history_partial` is not vacuous: a wall of two leaves, whatever happens in the room, and however the cavity conducts. -/
example (cavity : Cavity ℝ) (cav : CavityU ℝ)
    (hcav : ∀ t1 t2 : ℝ, 0 ≤ t1 ∧ t1 ≤ 30 → 0 ≤ t2 ∧ t2 ≤ 30 → ∃ u, cav cavity t1 t2 = .ok u ∧ 1 ≤ u ∧ u ≤ 5) (moments : List Moment)
    (hm : ∀ m ∈ moments, ((m.readings.solarFront = some 0 ∨ m.readings.solarFront = none) ∧
      (m.readings.solarBack = some 0 ∨ m.readings.solarBack = none)) ∧
      ((0 ≤ m.readings.front ∧ m.readings.front ≤ 30) ∧ 0 ≤ m.readings.back ∧ m.readings.back ≤ 30) ∧ 0 ≤ m.tBack ∧ m.tBack ≤ 30) :
    ∃ mem mem', (exampleLeaves cavity).allocate [20, 21, 8, 7, 30, 0] = .ok mem ∧
      marchAll (exampleLeaves cavity) 1e-9 cav 300 moments mem = .ok mem' ∧ ∀ x ∈ mem'.temperatures, 0 ≤ x ∧ x ≤ 30 := by
  obtain ⟨mem, a1, a2, a3⟩ := C87_allocated (exampleLeaves cavity) [20, 21, 8, 7, 30, 0]
  obtain ⟨mem', b1, b2, -⟩ := C116_surface_history_partial (exampleLeaves cavity)
    ⟨rfl, rfl, by simp [exampleLeaves], by simp [exampleLeaves]⟩ 1e-9 (by norm_num) cav 300 0 30 (massOf (exampleLeaves cavity).segments)
    (by
      intro i s hi
      simp [massOf, hi])
    moments (fun m h => exampleLeaves_mild cavity cav hcav m (hm m h).1 (hm m h).2.1 (hm m h).2.2) mem a2
    (by
      rw [a3]
      refine ⟨rfl, fun x hx => ?_⟩
      simp only [List.mem_cons, List.not_mem_nil, or_false] at hx
      rcases hx with rfl | rfl | rfl | rfl | rfl | rfl <;> norm_num)
  exact ⟨mem, mem', a1, b1, b2.2⟩

end

end Simple.Heat
