import Verif.Render.DaylightProps
import Verif.Light.IncidentProps
import Verif.Light.SolarMarchProps
import Verif.Light.OpticalModel

/-! # C110: the optical data that are calculated for a building -/

namespace Simple.Light.Optical

open Simple.Light Light.March Wiring Matrix Matrix.Spec Wiring.Spec
open Geometry (Ray V3)
open Render.Daylight (Course solarIrradiance calcDc collect)
open Render.Materials (Spectrum)

namespace Spec

/-- Does a side see the sun? It does outdoors and in a space. -/
def Sunny : Boundary → Prop
  | .space | .outdoor => True
  | _ => False

/-- The sensor of a point: one millimetre off the surface, on the side, looking away from it. -/
noncomputable def sensor (normal point : V3 ℝ) : Side → Ray ℝ
  | .front => ⟨point + normal.scale (1 / 1000), normal⟩
  | .back => ⟨point - normal.scale (1 / 1000), normal.scale (-1)⟩

/-- How much of what reaches a patch of the sky counts: the weights of the three channels. -/
noncomputable def weigh (c : Spectrum) : ℝ := (c 0 * 265 + c 1 * 670 + c 2 * 65) / 1000

/-- `row` are the daylight coefficients of a side: none where there is no sun, else for each patch of the sky the mean, over
the points, of what the rays bring that end there. -/
def Coefficients (sky : Weather.Reinhart.Sky) (p : Patch) (s : Side) (row : Fin sky.nBins → ℝ) : Prop :=
  (¬ Sunny (p.boundary s) → ∀ j, row j = 0) ∧
  (Sunny (p.boundary s) → ∃ ends : Fin p.surface.points.length → List (Option (V3 ℝ × Spectrum)),
    (∀ k : Fin p.surface.points.length, Render.Daylight.Spec.Ends 1 (sensor p.surface.normal p.surface.points[k] s) (p.solar s k) (ends k)) ∧
    ∀ j, row j = (∑ k : Fin p.surface.points.length, weigh ((ends k).map (Render.Daylight.Spec.part sky (p.solar s k).length j)).sum) / p.surface.points.length)

/-- The part of the points of a surface which have nothing in front of them. -/
noncomputable def free (blocked : Ray ℝ → Bool) (p : Patch) (s : Side) : ℝ :=
  ((p.surface.points.filter fun x => !blocked (sensor p.surface.normal x s)).length : ℝ) / p.surface.points.length

/-- A surface that was sampled: it has points, its normal has length one, and random numbers are between 0 and 1. -/
structure Sampled (nSamples : ℕ) (p : Patch) : Prop where
  points : p.surface.points ≠ []
  normal : p.surface.normal.dot p.surface.normal = 1
  solar : ∀ s, ∀ k < p.surface.points.length, ∀ u ∈ p.solar s k, u.1 ∈ Render.Sampler.Spec.square
  views : ∀ s, ∀ k < p.surface.points.length, (p.views s k).length = nSamples ∧ ∀ u ∈ p.views s k, u ∈ Render.Sampler.Spec.square

/-- The data of a building, `patches` being its surfaces and fenestrations: nothing for none of them, and else a row for each. -/
structure Calculated (sky : Weather.Reinhart.Sky) (blocked : Ray ℝ → Bool) (patches : Kind → List Patch) (info : OpticalInfo)
    (dc : (kind : Kind) → Side → _root_.Matrix (Fin (patches kind).length) (Fin sky.nBins) ℝ) : Prop where
  empty : ∀ kind s, patches kind = [] → info.dc kind s = GMatrix.empty
  full : ∀ kind s, patches kind ≠ [] → Rep (info.dc kind s) (dc kind s)
  rows : ∀ kind s (i : Fin (patches kind).length), Coefficients sky (patches kind)[i] s (dc kind s i)
  count : ∀ kind s, (info.viewFactors kind s).length = (patches kind).length
  views : ∀ (kind : Kind) (s : Side) (i : ℕ) (v : ViewFactors), (info.viewFactors kind s)[i]? = some v → ∃ p, (patches kind)[i]? = some p ∧
    0 ≤ v.sky ∧ 0 ≤ v.ground ∧ 0 ≤ v.air ∧ v.sky + v.ground + v.air = free blocked p s

end Spec

open Spec

private theorem sunny_iff (b : Boundary) : receivesSun b = true ↔ Sunny b := by cases b <;> simp [receivesSun, Sunny]

private theorem raysOf_eq (p : Patch) (s : Side) : raysOf p s = p.surface.points.map fun x => sensor p.surface.normal x s := by
  cases s <;> rfl

private theorem rays_length {α : Type} (f : ℕ → α) (p : Patch) (s : Side) :
    (withNumbers f (raysOf p s)).length = p.surface.points.length := by
  simp [withNumbers, raysOf_eq]

private theorem rays_get {α : Type} (f : ℕ → α) (p : Patch) (s : Side) (k : ℕ) (hk : k < p.surface.points.length) :
    (withNumbers f (raysOf p s))[k]'(by rw [rays_length]; exact hk) = (sensor p.surface.normal p.surface.points[k] s, f k) := by
  simp [withNumbers, raysOf_eq]

private theorem rays_mem {α : Type} (f : ℕ → α) (p : Patch) (s : Side) (r : Ray ℝ × α) (hr : r ∈ withNumbers f (raysOf p s)) :
    ∃ k, ∃ hk : k < p.surface.points.length, r = (sensor p.surface.normal p.surface.points[k] s, f k) := by
  obtain ⟨k, hk, rfl⟩ := List.getElem_of_mem hr
  have hk' := hk
  rw [rays_length] at hk'
  exact ⟨k, hk', rays_get f p s k hk'⟩

private theorem sensor_unit (n x : V3 ℝ) (h : n.dot n = 1) (s : Side) : (sensor n x s).direction.dot (sensor n x s).direction = 1 := by
  cases s with
  | front => exact h
  | back =>
    simp only [sensor, V3.dot, V3.scale] at h ⊢
    linarith

private theorem rep_unique {T : Type} {A : GMatrix T} {m n : ℕ} {M N : _root_.Matrix (Fin m) (Fin n) T} (h : Rep A M) (h' : Rep A N) : M = N := by
  funext i j
  have := h.get i j
  rw [h'.get i j] at this
  exact (Outcome.ok.inj this).symm

private theorem mean_rep (checks : Bool) (mf : ℕ) (sky : Weather.Reinhart.Sky) (hs : Weather.Reinhart.new mf = .ok sky)
    (rays : List (Ray ℝ × List ((ℝ × ℝ) × Course))) (hne : rays ≠ []) (hn : ∀ r ∈ rays, r.1.direction.dot r.1.direction = 1)
    (hu : ∀ r ∈ rays, ∀ s ∈ r.2, s.1 ∈ Render.Sampler.Spec.square) :
    ∃ a, ∃ M : _root_.Matrix (Fin rays.length) (Fin sky.nBins) Spectrum, solarIrradiance checks sky 1 rays = .ok a ∧
      Rep a (fun (_ : Fin 1) (j : Fin sky.nBins) => (∑ i, weigh (M i j)) / rays.length) ∧
      (∀ i : Fin rays.length, ∃ ends, Render.Daylight.Spec.Ends 1 rays[i].1 rays[i].2 ends ∧
        ∀ j, M i j = (ends.map (Render.Daylight.Spec.part sky rays[i].2.length j)).sum) ∧
      ((∀ r ∈ rays, ∀ s ∈ r.2, Render.Daylight.Spec.Grey s.2 ∧ ∀ d, s.2.draw d < 1) → ∀ i c, (∀ j, 0 ≤ M i j c) ∧ ∑ j, M i j c ≤ Real.pi) ∧
      ((∀ r ∈ rays, r.2 ≠ [] ∧ ∀ s ∈ r.2, ∀ ray, s.2.cast ray = none) → ∀ i c, ∑ j, M i j c = Real.pi) := by
  obtain ⟨m, M, h1, h2, a, h3, h4⟩ := Render.Daylight.C77_mean checks mf sky hs 1 rays hne hn hu
  refine ⟨a, M, h3, cast ?_ h4, ?_, ?_, ?_⟩
  · congr 1
    funext _ j
    congr 1
    refine Finset.sum_congr rfl fun i _ => ?_
    unfold weigh
    ring
  · obtain ⟨m', M', e1, e2, e3⟩ := Render.Daylight.C77_entries checks mf sky hs 1 rays hn hu
    obtain rfl := Outcome.ok.inj (h1.symm.trans e1)
    rw [rep_unique h2 e2]
    exact e3
  · intro hg
    obtain ⟨m', M', e1, e2, e3⟩ := Render.Daylight.C77_bounded checks mf sky hs 1 rays hn hu hg
    obtain rfl := Outcome.ok.inj (h1.symm.trans e1)
    rw [rep_unique h2 e2]
    exact e3
  · intro hf
    obtain ⟨m', M', e1, e2, e3⟩ := Render.Daylight.C77_unobstructed checks mf sky hs 1 rays hn hu
    obtain rfl := Outcome.ok.inj (h1.symm.trans e1)
    rw [rep_unique h2 e2]
    exact fun i c => e3 i (hf _ (List.getElem_mem i.2)).1 (hf _ (List.getElem_mem i.2)).2 c

/-- Everything proved about the row of a patch. -/
private def Row (sky : Weather.Reinhart.Sky) (s : Side) (p : Patch) (row : Fin sky.nBins → ℝ) : Prop :=
  Coefficients sky p s row ∧
  ((∀ k < p.surface.points.length, ∀ u ∈ p.solar s k, Render.Daylight.Spec.Grey u.2 ∧ ∀ d, u.2.draw d < 1) →
    (∀ j, 0 ≤ row j) ∧ ∑ j, row j ≤ Real.pi) ∧
  (Sunny (p.boundary s) → (∀ k < p.surface.points.length, p.solar s k ≠ [] ∧ ∀ u ∈ p.solar s k, ∀ ray, u.2.cast ray = none) →
    ∑ j, row j = Real.pi)

private theorem sum_weigh {m n : ℕ} (M : _root_.Matrix (Fin m) (Fin n) Spectrum) (N : ℝ) :
    ∑ j, (∑ i, weigh (M i j)) / N =
      (∑ i, ((∑ j, M i j 0) * 265 + (∑ j, M i j 1) * 670 + (∑ j, M i j 2) * 65) / 1000) / N := by
  rw [← Finset.sum_div, Finset.sum_comm]
  congr 1
  refine Finset.sum_congr rfl fun i _ => ?_
  simp only [weigh, ← Finset.sum_div, Finset.sum_add_distrib, Finset.sum_mul]

private theorem rowOf_rep (checks : Bool) (mf : ℕ) (sky : Weather.Reinhart.Sky) (hs : Weather.Reinhart.new mf = .ok sky) (nSamples : ℕ)
    (s : Side) (p : Patch) (hp : Sampled nSamples p) :
    ∃ a row, rowOf checks sky s p = .ok a ∧ Rep a (fun (_ : Fin 1) j => row j) ∧ Row sky s p row := by
  by_cases hb : receivesSun (p.boundary s) = true
  · have hlen := rays_length (p.solar s) p s
    have hpos : 0 < p.surface.points.length := List.length_pos_iff.2 hp.points
    obtain ⟨a, M, h1, h2, h3, h4, h5⟩ := mean_rep checks mf sky hs (withNumbers (p.solar s) (raysOf p s))
      (by rw [← List.length_pos_iff, hlen]; exact hpos)
      (by
        intro r hr
        obtain ⟨k, hk, rfl⟩ := rays_mem _ _ _ r hr
        exact sensor_unit _ _ hp.normal s)
      (by
        intro r hr
        obtain ⟨k, hk, rfl⟩ := rays_mem _ _ _ r hr
        exact hp.solar s k hk)
    have hN : (0 : ℝ) < (withNumbers (p.solar s) (raysOf p s)).length := by rw [hlen]; exact_mod_cast hpos
    refine ⟨a, _, ?_, h2, ⟨fun h => absurd ((sunny_iff _).1 hb) h, fun _ => ?_⟩, fun hg => ?_, fun _ hf => ?_⟩
    · unfold rowOf
      rw [if_pos hb, h1]
    · choose ends he hM using h3
      refine ⟨fun k => ends (k.cast hlen.symm), fun k => ?_, fun j => ?_⟩
      · have := he (k.cast hlen.symm)
        simp only [Fin.getElem_fin, Fin.val_cast] at this
        rw [rays_get _ _ _ k.1 k.2] at this
        exact this
      · simp only
        rw [show ((withNumbers (p.solar s) (raysOf p s)).length : ℝ) = p.surface.points.length from congrArg Nat.cast hlen]
        congr 1
        refine Fintype.sum_equiv (finCongr hlen) _ _ fun i => ?_
        rw [hM]
        have : (withNumbers (p.solar s) (raysOf p s))[i] = _ := rays_get (p.solar s) p s i.1 (by rw [← hlen]; exact i.2)
        rw [this]
        rfl
    · have hg' := h4 (by
        intro r hr
        obtain ⟨k, hk, rfl⟩ := rays_mem _ _ _ r hr
        exact hg k hk)
      refine ⟨fun j => div_nonneg (Finset.sum_nonneg fun i _ => ?_) hN.le, ?_⟩
      · unfold weigh
        have := (hg' i 0).1 j
        have := (hg' i 1).1 j
        have := (hg' i 2).1 j
        positivity
      · simp only
        rw [sum_weigh, div_le_iff₀ hN]
        calc _ ≤ ∑ _i : Fin (withNumbers (p.solar s) (raysOf p s)).length, Real.pi := by
              refine Finset.sum_le_sum fun i _ => ?_
              have := (hg' i 0).2
              have := (hg' i 1).2
              have := (hg' i 2).2
              linarith
          _ = _ := by simp [mul_comm]
    · have hf' := h5 (by
        intro r hr
        obtain ⟨k, hk, rfl⟩ := rays_mem _ _ _ r hr
        exact hf k hk)
      simp only
      rw [sum_weigh, div_eq_iff hN.ne']
      calc _ = ∑ _i : Fin (withNumbers (p.solar s) (raysOf p s)).length, Real.pi := by
            refine Finset.sum_congr rfl fun i _ => ?_
            rw [hf' i 0, hf' i 1, hf' i 2]
            ring
        _ = _ := by simp [mul_comm]
  · refine ⟨_, fun _ => 0, ?_, C07_new 0 1 sky.nBins, ⟨fun _ _ => rfl, fun h => absurd ((sunny_iff _).2 h) hb⟩, fun _ => ⟨fun _ => le_refl _, ?_⟩,
      fun h => absurd ((sunny_iff _).2 h) hb⟩
    · unfold rowOf
      rw [if_neg hb]
    · simpa using Real.pi_pos.le

private theorem collect_rel {α β : Type} (f : α → Outcome β) (R : α → β → Prop) (l : List α) (h : ∀ a ∈ l, ∃ b, f a = .ok b ∧ R a b) :
    ∃ bs, collect f l = .ok bs ∧ List.Forall₂ R l bs := by
  induction l with
  | nil => exact ⟨[], rfl, .nil⟩
  | cons a l ih =>
    obtain ⟨b, hb, hr⟩ := h a List.mem_cons_self
    obtain ⟨bs, hbs, hrs⟩ := ih fun a ha => h a (List.mem_cons_of_mem _ ha)
    refine ⟨b :: bs, ?_, .cons hr hrs⟩
    unfold collect
    rw [hb, hbs]
    rfl

/-- `A` has the rows of the list. -/
private def RepL {n : ℕ} (A : GMatrix ℝ) (l : List (Fin n → ℝ)) : Prop := Rep A (fun (i : Fin l.length) j => l[i] j)

private theorem concat_rep {n : ℕ} (A B : GMatrix ℝ) (l l' : List (Fin n → ℝ)) (hA : RepL A l) (hB : RepL B l') :
    ∃ C, A.concatRows B = (.ok (), C) ∧ RepL C (l ++ l') := by
  obtain ⟨C, h1, h2⟩ := C07_concat_rows hA hB
  refine ⟨C, h1, ?_, h2.ncols, ?_, fun i j => ?_⟩
  · rw [h2.nrows, List.length_append]
  · rw [h2.length, List.length_append]
  · have hi : i.1 < l.length + l'.length := i.2.trans_eq List.length_append
    have := h2.get ⟨i.1, hi⟩ j
    rw [this]
    congr 1
    simp only [Matrix.of_apply, Fin.getElem_fin]
    by_cases hl : i.1 < l.length
    · rw [List.getElem_append_left hl]
      have e : (⟨i.1, hi⟩ : Fin (l.length + l'.length)) = Fin.castAdd l'.length ⟨i.1, hl⟩ := rfl
      rw [e, Fin.addCases_left]
    · rw [List.getElem_append_right (by omega)]
      have e : (⟨i.1, hi⟩ : Fin (l.length + l'.length)) = Fin.natAdd l.length ⟨i.1 - l.length, by omega⟩ := by
        ext
        simp only [Fin.val_natAdd]
        omega
      rw [e, Fin.addCases_right]

private theorem stack_rep {n : ℕ} : ∀ (rest : List (GMatrix ℝ)) (A : GMatrix ℝ) (l l' : List (Fin n → ℝ)), RepL A l →
    List.Forall₂ (fun r B => RepL B [r]) l' rest → ∃ C, stack A rest = .ok C ∧ RepL C (l ++ l') := by
  intro rest
  induction rest with
  | nil =>
    intro A l l' hA h
    cases h
    exact ⟨A, rfl, by simpa using hA⟩
  | cons B rest ih =>
    intro A l l' hA h
    cases h with
    | cons h1 h2 =>
      rename_i r l'
      obtain ⟨C, hC, hr⟩ := concat_rep A B l [r] hA h1
      obtain ⟨D, hD, hr'⟩ := ih C (l ++ [r]) l' hr h2
      refine ⟨D, ?_, by simpa using hr'⟩
      unfold stack
      rw [hC]
      exact hD

private theorem split_rel {α β γ : Type} {R : α → γ → Prop} {S : γ → β → Prop} : ∀ (l : List α) (bs : List β),
    List.Forall₂ (fun a b => ∃ c, R a c ∧ S c b) l bs → ∃ cs, List.Forall₂ R l cs ∧ List.Forall₂ S cs bs := by
  intro l bs h
  induction h with
  | nil => exact ⟨[], .nil, .nil⟩
  | cons h _ ih =>
    obtain ⟨c, h1, h2⟩ := h
    obtain ⟨cs, h3, h4⟩ := ih
    exact ⟨c :: cs, .cons h1 h3, .cons h2 h4⟩

private theorem dc_rep (checks : Bool) (mf : ℕ) (sky : Weather.Reinhart.Sky) (hs : Weather.Reinhart.new mf = .ok sky) (nSamples : ℕ)
    (s : Side) (list : List Patch) (hp : ∀ p ∈ list, Sampled nSamples p) :
    ∃ a, ∃ M : _root_.Matrix (Fin list.length) (Fin sky.nBins) ℝ, calcSolarDc checks sky s list = .ok a ∧ (list = [] → a = GMatrix.empty) ∧
      (list ≠ [] → Rep a M) ∧ ∀ i : Fin list.length, Row sky s list[i] (M i) := by
  obtain ⟨dcs, hd, hrel⟩ := collect_rel (rowOf checks sky s)
    (fun p a => ∃ row : Fin sky.nBins → ℝ, Row sky s p row ∧ RepL a [row]) list (by
      intro p hm
      obtain ⟨a, row, h1, h2, h3⟩ := rowOf_rep checks mf sky hs nSamples s p (hp p hm)
      refine ⟨a, h1, row, h3, h2.nrows, h2.ncols, h2.length, fun i j => ?_⟩
      have hi : i = (⟨0, by simp⟩ : Fin [row].length) := by
        ext
        have h := i.2
        simp only [List.length_cons, List.length_nil] at h
        show i.1 = 0
        omega
      subst hi
      exact h2.get 0 j)
  obtain ⟨rows, hr1, hr2⟩ := split_rel _ _ hrel
  have hlen : list.length = rows.length := hr1.length_eq
  have hrows : ∀ i : Fin list.length, Row sky s list[i] (rows[i.1]'(by rw [← hlen]; exact i.2)) := by
    intro i
    exact List.forall₂_iff_get.1 hr1 |>.2 i.1 i.2 _
  cases hl : list with
  | nil =>
    refine ⟨GMatrix.empty, fun _ _ => 0, by simp [calcSolarDc], fun _ => rfl, fun h => absurd rfl h, fun i => i.elim0⟩
  | cons p ps =>
    rw [← hl]
    cases dcs with
    | nil => rw [hl] at hrel; cases hrel
    | cons A rest =>
      cases rows with
      | nil => rw [hl] at hlen; simp at hlen
      | cons r rows =>
        cases hr2 with
        | cons h1 h2 =>
          obtain ⟨C, hC, hr⟩ := stack_rep rest A [r] rows h1 h2
          refine ⟨C, fun i => (r :: rows)[i.1]'(by rw [← hlen]; exact i.2), ?_, fun h => by rw [hl] at h; simp at h, fun _ => ?_, hrows⟩
          · unfold calcSolarDc
            rw [if_neg (by rw [hl]; simp), hd]
            exact hC
          · refine ⟨by rw [hr.nrows, hlen]; rfl, hr.ncols, by rw [hr.length, hlen]; rfl, fun i j => ?_⟩
            exact hr.get (i.cast hlen) j

private theorem filter_free {α : Type} (blocked : Ray ℝ → Bool) (g : V3 ℝ → Ray ℝ) (f : ℕ → α) : ∀ (l : List (V3 ℝ)) (k : ℕ),
    ((((l.map g).zipIdx k).map fun r => (r.1, f r.2)).filter fun r => !blocked r.1).length = (l.filter fun x => !blocked (g x)).length := by
  intro l
  induction l with
  | nil => intro k; rfl
  | cons a l ih =>
    intro k
    simp only [List.map_cons, List.zipIdx_cons, List.filter_cons]
    by_cases h : blocked (g a) = true
    · simp only [h, Bool.not_true, Bool.false_eq_true, if_false]
      exact ih (k + 1)
    · rw [Bool.not_eq_true] at h
      simp only [h, Bool.not_false, if_true, List.length_cons]
      rw [ih (k + 1)]

private theorem viewOf_spec (checks : Bool) (blocked : Ray ℝ → Bool) (nSamples : ℕ) (hN : 0 < nSamples) (s : Side) (p : Patch) (hp : Sampled nSamples p) :
    ∃ v, viewOf checks blocked nSamples s p = .ok v ∧ 0 ≤ v.sky ∧ 0 ≤ v.ground ∧ 0 ≤ v.air ∧ v.sky + v.ground + v.air = free blocked p s := by
  have hlen := rays_length (p.views s) p s
  obtain ⟨v, h1, h2, -, h3, -, h4, -, h5⟩ := C58_view_factors_partial checks blocked (withNumbers (p.views s) (raysOf p s)) nSamples hN
    (by rw [← List.length_pos_iff, hlen]; exact List.length_pos_iff.2 hp.points) (by
      intro r hr
      obtain ⟨k, hk, rfl⟩ := rays_mem _ _ _ r hr
      exact ⟨sensor_unit _ _ hp.normal s, (hp.views s k hk).1, (hp.views s k hk).2⟩)
  refine ⟨v, by unfold viewOf; rw [h1], h2, h3, h4, ?_⟩
  rw [h5, Light.Spec.freePart, hlen, free]
  congr 2
  rw [withNumbers, raysOf_eq]
  exact filter_free blocked _ _ _ 0

private theorem views_rep (checks : Bool) (blocked : Ray ℝ → Bool) (nSamples : ℕ) (hN : 0 < nSamples) (s : Side) (list : List Patch)
    (hp : ∀ p ∈ list, Sampled nSamples p) :
    ∃ vs, collect (viewOf checks blocked nSamples s) list = .ok vs ∧ vs.length = list.length ∧
      ∀ (i : ℕ) (v : ViewFactors), vs[i]? = some v → ∃ p, list[i]? = some p ∧ 0 ≤ v.sky ∧ 0 ≤ v.ground ∧ 0 ≤ v.air ∧ v.sky + v.ground + v.air = free blocked p s := by
  obtain ⟨vs, h1, h2⟩ := collect_rel (viewOf checks blocked nSamples s)
    (fun p v => 0 ≤ v.sky ∧ 0 ≤ v.ground ∧ 0 ≤ v.air ∧ v.sky + v.ground + v.air = free blocked p s) list
    (fun p hm => viewOf_spec checks blocked nSamples hN s p (hp p hm))
  have hlen := h2.length_eq
  refine ⟨vs, h1, hlen.symm, fun i v hv => ?_⟩
  obtain ⟨hi, rfl⟩ := List.getElem?_eq_some_iff.1 hv
  have hi' : i < list.length := by rw [hlen]; exact hi
  exact ⟨list[i], List.getElem?_eq_getElem hi', (List.forall₂_iff_get.1 h2).2 i hi' hi⟩

private theorem calculate_spec (checks : Bool) (mf : ℕ) (hmf : 0 < mf) (blocked : Ray ℝ → Bool) (nSamples : ℕ) (hN : 0 < nSamples)
    (patches : Kind → List Patch) (hp : ∀ kind, ∀ p ∈ patches kind, Sampled nSamples p) :
    ∃ sky info dc, Weather.Reinhart.new mf = .ok sky ∧ sky.nBins = Weather.Reinhart.nBins mf ∧
      calculate checks mf blocked nSamples patches = .ok info ∧ Calculated sky blocked patches info dc ∧
      ∀ (kind : Kind) (s : Side) (i : Fin (patches kind).length), Row sky s (patches kind)[i] (dc kind s i) := by
  obtain ⟨sky, hs, -, hb, -⟩ := (Weather.Reinhart.C36_count mf).1 hmf
  obtain ⟨fs, Mfs, a1, b1, c1, d1⟩ := dc_rep checks mf sky hs nSamples .front (patches .surface) (hp _)
  obtain ⟨bs, Mbs, a2, b2, c2, d2⟩ := dc_rep checks mf sky hs nSamples .back (patches .surface) (hp _)
  obtain ⟨ff, Mff, a3, b3, c3, d3⟩ := dc_rep checks mf sky hs nSamples .front (patches .fenestration) (hp _)
  obtain ⟨bf, Mbf, a4, b4, c4, d4⟩ := dc_rep checks mf sky hs nSamples .back (patches .fenestration) (hp _)
  obtain ⟨v1, e1, f1, g1⟩ := views_rep checks blocked nSamples hN .front (patches .surface) (hp _)
  obtain ⟨v2, e2, f2, g2⟩ := views_rep checks blocked nSamples hN .back (patches .surface) (hp _)
  obtain ⟨v3, e3, f3, g3⟩ := views_rep checks blocked nSamples hN .front (patches .fenestration) (hp _)
  obtain ⟨v4, e4, f4, g4⟩ := views_rep checks blocked nSamples hN .back (patches .fenestration) (hp _)
  obtain ⟨info, hi, i1, i2, i3, i4, j1, j2, j3, j4⟩ : ∃ info, calculate checks mf blocked nSamples patches = .ok info ∧
      info.dc .surface .front = fs ∧ info.dc .surface .back = bs ∧ info.dc .fenestration .front = ff ∧ info.dc .fenestration .back = bf ∧
      info.viewFactors .surface .front = v1 ∧ info.viewFactors .surface .back = v2 ∧ info.viewFactors .fenestration .front = v3 ∧
      info.viewFactors .fenestration .back = v4 := by
    unfold calculate
    rw [hs, Outcome.bind, a1, Outcome.bind, a2, Outcome.bind, a3, Outcome.bind, a4, Outcome.bind, e1, Outcome.bind, e2, Outcome.bind,
      e3, Outcome.bind, e4, Outcome.bind]
    exact ⟨_, rfl, rfl, rfl, rfl, rfl, rfl, rfl, rfl, rfl⟩
  obtain ⟨dc, k1, k2, k3, k4⟩ : ∃ dc : (kind : Kind) → Side → _root_.Matrix (Fin (patches kind).length) (Fin sky.nBins) ℝ,
      dc .surface .front = Mfs ∧ dc .surface .back = Mbs ∧ dc .fenestration .front = Mff ∧ dc .fenestration .back = Mbf :=
    ⟨fun kind s => match kind, s with
      | .surface, .front => Mfs | .surface, .back => Mbs | .fenestration, .front => Mff | .fenestration, .back => Mbf, rfl, rfl, rfl, rfl⟩
  have hrow : ∀ (kind : Kind) (s : Side) (i : Fin (patches kind).length), Row sky s (patches kind)[i] (dc kind s i) := by
    intro kind s
    cases kind <;> cases s
    · rw [k1]; exact d1
    · rw [k2]; exact d2
    · rw [k3]; exact d3
    · rw [k4]; exact d4
  refine ⟨sky, info, dc, hs, hb, hi, ⟨?_, ?_, fun kind s i => (hrow kind s i).1, ?_, ?_⟩, hrow⟩
  · intro kind s
    cases kind <;> cases s
    · rw [i1]; exact b1
    · rw [i2]; exact b2
    · rw [i3]; exact b3
    · rw [i4]; exact b4
  · intro kind s
    cases kind <;> cases s
    · rw [i1, k1]; exact c1
    · rw [i2, k2]; exact c2
    · rw [i3, k3]; exact c3
    · rw [i4, k4]; exact c4
  · intro kind s
    cases kind <;> cases s
    · rw [j1]; exact f1
    · rw [j2]; exact f2
    · rw [j3]; exact f3
    · rw [j4]; exact f4
  · intro kind s
    cases kind <;> cases s
    · rw [j1]; exact g1
    · rw [j2]; exact g2
    · rw [j3]; exact g3
    · rw [j4]; exact g4

/-- C110, the data: for every building of which points were sampled, data are calculated; each side of each surface has the row with its number,
with the daylight coefficients of that very side, and the view factors with its number, which add up to the part of its points with
nothing in front of them. -/
theorem C110_data_partial (checks : Bool) (mf : ℕ) (hmf : 0 < mf) (blocked : Ray ℝ → Bool) (nSamples : ℕ) (hN : 0 < nSamples)
    (patches : Kind → List Patch) (hp : ∀ kind, ∀ p ∈ patches kind, Sampled nSamples p) :
    ∃ sky info dc, Weather.Reinhart.new mf = .ok sky ∧ calculate checks mf blocked nSamples patches = .ok info ∧
      Calculated sky blocked patches info dc := by
  obtain ⟨sky, info, dc, h1, -, h2, h3, -⟩ := calculate_spec checks mf hmf blocked nSamples hN patches hp
  exact ⟨sky, info, dc, h1, h2, h3⟩

/-- C110, light is not made up: where surfaces are grey no coefficient is negative, and those of a side add up to π at most; to π where nothing
is in the way of a side that sees the sun. -/
theorem C110_energy (checks : Bool) (mf : ℕ) (hmf : 0 < mf) (blocked : Ray ℝ → Bool) (nSamples : ℕ) (hN : 0 < nSamples)
    (patches : Kind → List Patch) (hp : ∀ kind, ∀ p ∈ patches kind, Sampled nSamples p) (kind : Kind) (s : Side) (i : Fin (patches kind).length) :
    ∃ sky info, ∃ M : _root_.Matrix (Fin (patches kind).length) (Fin sky.nBins) ℝ, Weather.Reinhart.new mf = .ok sky ∧
      calculate checks mf blocked nSamples patches = .ok info ∧ Rep (info.dc kind s) M ∧
      ((∀ k < (patches kind)[i].surface.points.length, ∀ u ∈ (patches kind)[i].solar s k, Render.Daylight.Spec.Grey u.2 ∧ ∀ d, u.2.draw d < 1) →
        (∀ j, 0 ≤ M i j) ∧ ∑ j, M i j ≤ Real.pi) ∧
      (Sunny ((patches kind)[i].boundary s) →
        (∀ k < (patches kind)[i].surface.points.length,
          (patches kind)[i].solar s k ≠ [] ∧ ∀ u ∈ (patches kind)[i].solar s k, ∀ ray, u.2.cast ray = none) →
        ∑ j, M i j = Real.pi) := by
  obtain ⟨sky, info, dc, h1, -, h2, h3, h4⟩ := calculate_spec checks mf hmf blocked nSamples hN patches hp
  have hne : patches kind ≠ [] := by
    rw [← List.length_pos_iff]
    exact i.pos
  exact ⟨sky, info, dc kind s, h1, h2, h3.full kind s hne, (h4 kind s i).2⟩

/-- C110, the data fit: a building with a surface, whose sky has at most eight subdivisions, is always accepted with the data that were
calculated for it, with that subdivision, and then (`C103_day_partial`, `C103_night`) every step by day and by night goes through. -/
theorem C110_fits (checks : Bool) (mf : ℕ) (hmf : 0 < mf) (h8 : mf ≤ 8) (blocked : Ray ℝ → Bool) (nSamples : ℕ) (hN : 0 < nSamples)
    (patches : Kind → List Patch) (hp : ∀ kind, ∀ p ∈ patches kind, Sampled nSamples p) (o : Objects)
    (ho : ∀ kind, (walls o kind).length = (patches kind).length) (h0 : patches .surface ≠ []) (source : Source)
    (hs : source = .noPath ∨ source = .absent) :
    ∃ m source' dc, March.new (calculate checks mf blocked nSamples patches) (walls o .surface).length source = .ok (m, source') ∧
      m.mf = mf ∧ calculate checks mf blocked nSamples patches = .ok m.info ∧ March.Spec.Fits o m dc ∧ (source = .absent → source' = .data m.info) := by
  obtain ⟨sky, info, dc, h1, hb, h2, h3, -⟩ := calculate_spec checks mf hmf blocked nSamples hN patches hp
  have hd : derive (walls o .surface).length info = .ok mf :=
    C103_subdivision _ mf (by rw [ho]; exact List.length_pos_iff.2 h0) hmf h8 info (by rw [(h3.full .surface .back h0).ncols, hb])
  have hx : ∃ source', March.new (calculate checks mf blocked nSamples patches) (walls o .surface).length source = .ok (⟨info, mf⟩, source') ∧
      (source = .absent → source' = .data info) := by
    rcases hs with rfl | rfl
    · exact ⟨.noPath, by simp only [March.new, opticalInfo, h2, Outcome.map, Outcome.bind, hd], fun h => by cases h⟩
    · exact ⟨.data info, by simp only [March.new, opticalInfo, h2, Outcome.map, Outcome.bind, hd], fun _ => rfl⟩
  obtain ⟨source', hx, hy⟩ := hx
  refine ⟨⟨info, mf⟩, source', fun kind s i j => dc kind s (i.cast (ho kind)) (j.cast hb.symm), hx, rfl, h2, ⟨?_, ?_, ?_⟩, hy⟩
  · intro kind s
    rw [ho]
    exact h3.count kind s
  · intro kind s h
    refine h3.empty kind s ?_
    rw [← List.length_eq_zero_iff, ← ho, h]
    rfl
  · intro kind s h
    have hne : patches kind ≠ [] := by
      rw [← List.length_pos_iff, ← ho]
      exact List.length_pos_iff.2 h
    have hr := h3.full kind s hne
    refine ⟨by rw [hr.nrows, ho], by rw [hr.ncols, hb], by rw [hr.length, ho, hb], fun i j => ?_⟩
    exact hr.get (i.cast (ho kind)) (j.cast hb.symm)

/-- C110 fails when the option asks for no points: the first surface whose front sees the sun makes the calculation panic. -/
theorem C110_violated_no_points (checks : Bool) (mf : ℕ) (blocked : Ray ℝ → Bool) (nSamples : ℕ) (patches : Kind → List Patch)
    (p : Patch) (ps : List Patch) (he : patches .surface = p :: ps) (h0 : p.surface.points = []) (hb : Sunny (p.boundary .front)) :
    calculate checks mf blocked nSamples patches = .panic := by
  by_cases hmf : 0 < mf
  · obtain ⟨sky, hs, -⟩ := (Weather.Reinhart.C36_count mf).1 hmf
    have hr : rowOf checks sky .front p = .panic := by
      unfold rowOf
      rw [if_pos ((sunny_iff _).2 hb)]
      have : withNumbers (p.solar .front) (raysOf p .front) = [] := by simp [withNumbers, raysOf_eq, h0]
      rw [this, Render.Daylight.C77_no_sensors]
    have hc : calcSolarDc checks sky .front (patches .surface) = .panic := by
      unfold calcSolarDc
      rw [if_neg (by rw [he]; simp), he, collect, hr]
      rfl
    unfold calculate
    rw [hs, Outcome.bind, hc]
    rfl
  · unfold calculate
    rw [(Weather.Reinhart.C36_count mf).2 (by omega)]
    rfl

/-- C110 fails when the option asks for no subdivision of the sky: the calculation panics for every building. -/
theorem C110_violated_no_subdivision (checks : Bool) (blocked : Ray ℝ → Bool) (nSamples : ℕ) (patches : Kind → List Patch) :
    calculate checks 0 blocked nSamples patches = .panic := by
  unfold calculate
  rw [(Weather.Reinhart.C36_count 0).2 rfl]
  rfl

/-- A wall with one point, outdoors in front and adiabatic behind, in an empty scene: the front gets π and the back nothing. -/
example : ∃ p : Patch, Sampled 1 p ∧ Sunny (p.boundary .front) ∧ ¬ Sunny (p.boundary .back) ∧
    (∀ k < p.surface.points.length, p.solar .front k ≠ [] ∧ ∀ u ∈ p.solar .front k, ∀ ray, u.2.cast ray = none) := by
  refine ⟨⟨⟨[⟨0, 0, 1⟩], ⟨1, 0, 0⟩⟩, fun s => match s with | .front => .outdoor | .back => .adiabatic,
    fun _ _ => [((1 / 2, 1 / 4), ⟨fun _ => none, fun _ _ => none, fun _ => 0⟩)], fun _ _ => [(1 / 2, 1 / 4)]⟩, ⟨by simp, by norm_num [V3.dot], ?_, ?_⟩,
    trivial, fun h => h, ?_⟩
  · intro s k _ u hu
    simp only [List.mem_singleton] at hu
    subst hu
    constructor <;> constructor <;> norm_num
  · intro s k _
    refine ⟨rfl, fun u hu => ?_⟩
    simp only [List.mem_singleton] at hu
    subst hu
    constructor <;> constructor <;> norm_num
  · intro k _
    refine ⟨by simp, fun u hu ray => ?_⟩
    simp only [List.mem_singleton] at hu
    subst hu
    rfl

end Simple.Light.Optical
