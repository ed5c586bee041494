import Mathlib.Data.Rat.Cast.Order
import Verif.Heat.OrderProps
import Verif.Heat.SurfaceProps
import Verif.Sim.RunModel

/-! # C27 and C116: the time step of a whole building -/

namespace Simple.Heat

open Spec Simple.Sim

private theorem foldl_max (l : List ℕ) : ∀ a : ℕ,
    a ≤ l.foldl (fun most d => if d > most then d else most) a ∧
    (∀ d ∈ l, d ≤ l.foldl (fun most d => if d > most then d else most) a) ∧
    (l.foldl (fun most d => if d > most then d else most) a = a ∨
      l.foldl (fun most d => if d > most then d else most) a ∈ l) := by
  induction l with
  | nil => intro a; simp
  | cons x l ih =>
    intro a
    rw [List.foldl_cons]
    obtain ⟨h1, h2, h3⟩ := ih (if x > a then x else a)
    generalize l.foldl (fun most d => if d > most then d else most) (if x > a then x else a) = r at *
    by_cases hx : x > a
    · rw [if_pos hx] at h1 h3
      refine ⟨by omega, fun d hd => ?_, ?_⟩
      · rcases List.mem_cons.1 hd with rfl | hd
        exacts [h1, h2 d hd]
      · rcases h3 with rfl | h3
        · exact .inr List.mem_cons_self
        · exact .inr (List.mem_cons_of_mem _ h3)
    · rw [if_neg hx] at h1 h3
      refine ⟨h1, fun d hd => ?_, ?_⟩
      · rcases List.mem_cons.1 hd with rfl | hd
        exacts [by omega, h2 d hd]
      · rcases h3 with rfl | h3
        · exact .inl rfl
        · exact .inr (List.mem_cons_of_mem _ h3)

private theorem elementMatrix_scale (dt c dx k rho cp : ℝ) :
    elementMatrix (c * dt) dx k rho cp = c • elementMatrix dt dx k rho cp := by
  unfold elementMatrix
  ext i j
  fin_cases i <;> fin_cases j <;> simp <;> ring

/-- C27: the walls of a building are discretised one by one, and all of them march with the time step of the building,
that of the one that needs the shortest, in two halves.  With that step every layer with mass of every wall is stable:
the eigenvalues of the limit case of its elements are between `-1/4` and 0. -/
theorem C27_building (debug : Bool) (walls : List (List (Mat ℝ))) (needed : List ℕ) (elements : List (List ℕ)) (perHour : ℕ)
    (hn : 0 < perHour) (hp : ∀ layers ∈ walls, ∀ m ∈ layers, Positive m)
    (h : ∀ (w : ℕ) (layers : List (Mat ℝ)), walls[w]? = some layers → ∃ n es, needed[w]? = some n ∧ elements[w]? = some es ∧
      discretizeConstruction debug layers (3600 / perHour) (1 / 20) 60 = .ok (n, es))
    (w : ℕ) (layers : List (Mat ℝ)) (es : List ℕ) (hw : walls[w]? = some layers) (he : elements[w]? = some es)
    (j : ℕ) (m : Mat ℝ) (e : ℕ) (hj : layers[j]? = some m) (hje : es[j]? = some e) (hne : e ≠ 0) :
    ∃ s k rho cp, m.substance = .normal s ∧ s.conductivity = some k ∧ s.density = some rho ∧ s.specificHeat = some cp ∧
      ∀ (v : Fin 2 → ℝ) (ξ : ℝ), v ≠ 0 →
        (elementMatrix (partSeconds perHour needed : ℚ) (m.thickness / e) k rho cp).mulVec v = ξ • v → -1 / 4 ≤ ξ ∧ ξ < 0 := by
  obtain ⟨n, es', hnw, hes, hd⟩ := h w layers hw
  rw [he] at hes
  obtain rfl := Option.some.inj hes
  have hper : (0 : ℝ) < perHour := by exact_mod_cast hn
  have hpos := hp layers (List.mem_of_getElem? hw)
  obtain ⟨_, _, s, k, rho, cp, hs, e1, e2, e3, key⟩ := C27_stable debug layers (3600 / perHour) (1 / 20) 60 (by positivity)
    (by norm_num) hpos n es hd j m e hj hje hne
  have hn1 : 1 ≤ n := by
    by_contra h0
    obtain ⟨n', es', h', _, _, _, hz, _⟩ := C27_discretization_partial debug layers (3600 / perHour) (1 / 20) 60 (by positivity)
      (by norm_num) hpos
    rw [hd] at h'
    cases h'
    exact hne (hz.1 (by omega) e (List.mem_of_getElem? hje))
  obtain ⟨_, hmax, _⟩ := foldl_max needed 1
  have hle := hmax n (List.mem_of_getElem? hnw)
  refine ⟨s, k, rho, cp, hs, e1, e2, e3, fun v ξ hv hev => ?_⟩
  obtain ⟨big, hbig⟩ : ∃ big, big = needed.foldl (fun most d => if d > most then d else most) 1 := ⟨_, rfl⟩
  rw [← hbig] at hle
  have hn' : (1 : ℝ) ≤ n := by exact_mod_cast hn1
  have hb' : (n : ℝ) ≤ big := by exact_mod_cast hle
  have hb0 : (0 : ℝ) < big := by linarith
  have hstep : ((partSeconds perHour needed : ℚ) : ℝ) = n / (2 * big) * (3600 / perHour / n) := by
    unfold partSeconds subdivisions
    rw [← hbig]
    push_cast
    field_simp
    norm_num
  rw [hstep, elementMatrix_scale, Matrix.smul_mulVec] at hev
  have hc : (0 : ℝ) < n / (2 * big) := by positivity
  have hc2 : (n : ℝ) / (2 * big) ≤ 1 / 2 := by
    rw [div_le_div_iff₀ (by positivity) (by norm_num)]
    linarith
  generalize (n : ℝ) / (2 * big) = c at hev hc hc2
  obtain ⟨a, b⟩ := key v (ξ / c) hv (by
    have := congrArg (fun u => c⁻¹ • u) hev
    simp only [smul_smul, inv_mul_cancel₀ hc.ne', one_smul] at this
    rw [this, div_eq_inv_mul])
  rw [le_div_iff₀ hc] at a
  rw [div_lt_iff₀ hc] at b
  exact ⟨by linarith, by linarith⟩

/-- C27: the time step of a building is never shorter than half of the minimum that walls are discretised with, as long as
a time step of the simulation is not shorter than the minimum. -/
theorem C27_minimum (debug : Bool) (walls : List (List (Mat ℝ))) (needed : List ℕ) (perHour : ℕ)
    (hn : 0 < perHour) (hh : perHour ≤ 60) (hp : ∀ layers ∈ walls, ∀ m ∈ layers, Positive m)
    (h : ∀ n ∈ needed, ∃ layers ∈ walls, ∃ es, discretizeConstruction debug layers (3600 / perHour) (1 / 20) 60 = .ok (n, es)) :
    30 ≤ partSeconds perHour needed := by
  obtain ⟨h1, _, h3⟩ := foldl_max needed 1
  obtain ⟨big, hbig⟩ : ∃ big, big = needed.foldl (fun most d => if d > most then d else most) 1 := ⟨_, rfl⟩
  rw [← hbig] at h1 h3
  have hper : (0 : ℝ) < perHour := by exact_mod_cast hn
  have hb : (perHour : ℚ) * big ≤ 60 := by
    have hone : big = 1 → (perHour : ℚ) * big ≤ 60 := by
      rintro h
      rw [h]
      push_cast
      have : (perHour : ℚ) ≤ 60 := by exact_mod_cast hh
      linarith
    rcases h3 with h3 | h3
    · exact hone h3
    · obtain ⟨layers, hl, es, hd⟩ := h big h3
      obtain ⟨n', es', h', hlen, _, hlay, hz, _⟩ := C27_discretization_partial debug layers (3600 / perHour) (1 / 20) 60 (by positivity)
        (by norm_num) (hp layers hl)
      rw [hd] at h'
      cases h'
      have hex : ∃ e ∈ es, e ≠ 0 := by
        by_contra hc
        push Not at hc
        have := hz.2 hc
        omega
      obtain ⟨e, he, hne⟩ := hex
      obtain ⟨j, hj, hje⟩ := List.mem_iff_getElem.1 he
      have hjl : j < layers.length := by omega
      have hmin := (C27_stable debug layers (3600 / perHour) (1 / 20) 60 (by positivity) (by norm_num) (hp layers hl) big es hd
        j layers[j] e (List.getElem?_eq_getElem hjl) (by rw [List.getElem?_eq_getElem hj, hje]) hne).2.1
      have hb0 : (0 : ℝ) < big := by exact_mod_cast h1
      rw [le_div_iff₀ hb0, le_div_iff₀ hper] at hmin
      have : (perHour : ℝ) * big ≤ 60 := by linarith
      exact_mod_cast this
  have hq : (0 : ℚ) < perHour := by exact_mod_cast hn
  have hb1 : (1 : ℚ) ≤ big := by exact_mod_cast h1
  unfold partSeconds subdivisions
  rw [← hbig, le_div_iff₀ (by push_cast; positivity)]
  push_cast
  linarith

/-- C27 fails for the whole building: with steps of one minute, the time step is at most half of the minimum, whatever
the walls are. -/
theorem C27_violated_minimum (needed : List ℕ) : partSeconds 60 needed ≤ 30 := by
  obtain ⟨h1, _, _⟩ := foldl_max needed 1
  have hb1 : (1 : ℚ) ≤ needed.foldl (fun most d => if d > most then d else most) 1 := by exact_mod_cast h1
  unfold partSeconds subdivisions
  push_cast
  rw [div_le_iff₀ (by positivity)]
  linarith

/-- What is gentle in an interval is gentle in a shorter one. -/
private theorem gentle_shorter {w : Wall ℝ} {dt dt' : ℝ} {c : ℕ → ℝ} {ini n : ℕ} (h : Gentle w dt c ini n) (h0 : 0 ≤ dt') (hle : dt' ≤ dt)
    (hall : ∀ i : Fin n, 0 ≤ w.before (ini + i) + w.after (ini + i) + w.radiant (ini + i) ∧ 0 ≤ w.radiant (ini + i)) :
    Gentle w dt' c ini n where
  time := h0
  u := h.u
  hs := h.hs
  rad := h.rad
  mass := h.mass
  small := fun i => le_trans (mul_le_mul_of_nonneg_right hle (hall i).1) (h.small i)
  smallRad := fun i => by
    have := mul_le_mul_of_nonneg_right hle (hall i).2
    have := h.smallRad i
    linarith

namespace Spec

/-- What is at both sides exchanges at most 20 W/m²K, of which at most 12 by radiation. -/
structure Around.Mild (a : Around ℝ) : Prop where
  front : 0 ≤ a.frontHs ∧ 0 ≤ a.frontRad ∧ a.frontRad ≤ 12 ∧ a.frontHs + a.frontRad ≤ 20
  back : 0 ≤ a.backHs ∧ 0 ≤ a.backRad ∧ a.backRad ≤ 12 ∧ a.backHs + a.backRad ≤ 20

end Spec

/-- C116: in a building, whatever its other walls are, a wall of solid layers all of which have elements never leaves, without
sun, the temperatures between which it and what is around it have always been; the time step is the one that the program
chooses for the building.

Missing: walls with layers without mass, with which it may (`C116_violated_cladding`). -/
theorem C116_building_partial (debug : Bool) (layers : List (Mat ℝ)) (height angle : ℝ) (perHour : ℕ) (hn : 0 < perHour)
    (hp : ∀ m ∈ layers, Positive m) (hne : layers ≠ []) (d : Discretization ℝ)
    (hd : discretizationNew debug layers (3600 / perHour) (1 / 20) 60 height angle = .ok d) (hsolid : ∀ e ∈ d.nElements, e ≠ 0)
    (needed : List ℕ) (hneed : d.tstepSubdivision ∈ needed) (cav : CavityU ℝ) (lo hi : ℝ) (as : List (Around ℝ))
    (ha : ∀ a ∈ as, a.Within lo hi ∧ a.Mild ∧ ∀ i, a.solar i = 0) (temps : List ℝ) (mem : ChunkMemory ℝ)
    (hlen : temps.length = d.segments.length) (hmem : Fits d.segments.length mem) (ht : ∀ x ∈ temps, lo ≤ x ∧ x ≤ hi) :
    ∃ (t : List ℝ) (mem' : ChunkMemory ℝ),
      marches cav d.segments (partSeconds perHour needed : ℚ) as temps mem = .ok (t, mem') ∧ t.length = d.segments.length ∧
        ∀ x ∈ t, lo ≤ x ∧ x ≤ hi := by
  have hper : (0 : ℝ) < perHour := by exact_mod_cast hn
  have hd' := hd
  obtain ⟨t, es, e1, e2, _, e4, e5, _⟩ := C27_discretization_partial debug layers (3600 / perHour) (1 / 20) 60 (by positivity)
    (by norm_num) hp
  unfold discretizationNew at hd'
  rw [e1] at hd'
  simp only [Outcome.bind] at hd'
  have hacc : Acceptable layers es := by
    by_contra hna
    rw [(C25_build layers t es height angle e2 hne).2 hna] at hd'
    cases hd'
  obtain ⟨d', f1, f2, f3, f4, f5⟩ := (C25_build layers t es height angle e2 hne).1 hacc
  rw [f1] at hd'
  cases hd'
  rw [f3] at hsolid
  rw [f2] at hneed
  -- the elements
  have hE : ∀ i (h : i < (elements layers height angle es).length),
      0 < (elements layers height angle es)[i].1 ∧ ∃ u, (elements layers height angle es)[i].2 = .solid u := by
    intro i h
    obtain ⟨j, m, k, g1, g2, g3⟩ := elementsFrom_mem layers height angle layers es 0 _ (List.getElem_mem h)
    have hk := hsolid k (List.mem_of_getElem? g2)
    obtain ⟨q1, s, kk, rho, cp, q2, q3, q4, q5, _, q6⟩ := (e4 j m k g1 g2).1 hk
    have hpm := hp m (List.mem_of_getElem? g1)
    obtain ⟨k', r', c', u1, u2, u3, hkp, hrp, hcp⟩ := hpm.2 s q2
    rw [q3] at u1; rw [q4] at u2; rw [q5] at u3
    cases u1; cases u2; cases u3
    have hth := hpm.1
    have hkpos : (0 : ℝ) < k := by exact_mod_cast Nat.pos_of_ne_zero hk
    change (elements layers height angle es)[i] = _ at g3
    rw [g3]
    constructor
    · simp only [if_neg hk, layerMass, q2, q4, q5, Option.getD_some]
      positivity
    · simp only [layerU, q2]
      exact ⟨_, rfl⟩
  have hEne : 0 < (elements layers height angle es).length := by
    obtain ⟨m, rest, rfl⟩ := List.exists_cons_of_ne_nil hne
    obtain ⟨k, ks, rfl⟩ : ∃ k ks, es = k :: ks := by
      cases es with
      | nil => simp at e2
      | cons k ks => exact ⟨k, ks, rfl⟩
    unfold elements
    rw [elementsFrom, List.length_append, List.length_replicate]
    omega
  have hlenE : d.segments.length = (elements layers height angle es).length + 1 := by
    have := congrArg List.length f4
    simpa using this
  obtain ⟨c, hc⟩ : ∃ c : ℕ → ℝ, HasMass c d.segments :=
    ⟨fun i => ((d.segments[i]?).map Prod.fst).getD 0, fun i s hs => by simp [hs]⟩
  have hcp : ∀ i, i < d.segments.length → c i ≠ 0 := by
    intro i hi
    rw [← hc i _ (List.getElem?_eq_getElem hi), f5 i _ (List.getElem?_eq_getElem hi)]
    unfold nodeMass
    have hmo : ∀ k (h : k < (elements layers height angle es).length), 0 < massOf (elements layers height angle es) k := by
      intro k h
      unfold massOf
      rw [List.getElem?_eq_getElem h]
      exact (hE k h).1
    have hmo0 : ∀ k, 0 ≤ massOf (elements layers height angle es) k := by
      intro k
      by_cases h : k < (elements layers height angle es).length
      · exact (hmo k h).le
      · unfold massOf
        rw [List.getElem?_eq_none (by omega)]
        exact le_rfl
    by_cases h0 : i = 0
    · rw [if_pos h0, h0]
      have := hmo 0 hEne
      linarith
    · rw [if_neg h0]
      have := hmo (i - 1) (by omega)
      have := hmo0 i
      linarith
  obtain ⟨U, hU⟩ : ∃ U : ℕ → ℝ, ∀ i s, i + 1 < d.segments.length → d.segments[i]? = some s → s.2 = .solid (U i) := by
    have : ∀ i, ∃ u, ∀ s, i + 1 < d.segments.length → d.segments[i]? = some s → s.2 = .solid u := by
      intro i
      by_cases hi : i < (elements layers height angle es).length
      · obtain ⟨u, hu⟩ := (hE i hi).2
        refine ⟨u, fun s _ hs => ?_⟩
        have := congrArg (fun l => l[i]?) f4
        simp only [List.getElem?_map, hs, Option.map_some] at this
        rw [List.getElem?_append_left (by simpa using hi), List.getElem?_map, List.getElem?_eq_getElem hi] at this
        rw [Option.some.inj this, hu]
      · exact ⟨0, fun s h => by omega⟩
    choose U hU using this
    exact ⟨U, hU⟩
  apply C116_history_partial cav d.segments _ lo hi c U hc hU (by omega) as temps mem hlen hmem ht
  intro a haa
  obtain ⟨h1, h2, h3⟩ := ha a haa
  refine ⟨h1, h3, ?_⟩
  have hg := C116_condition debug layers (3600 / perHour) (1 / 20) 60 height angle (by positivity) (by norm_num) hp hne d hd
    (a.wall d.segments.length U fun _ => lo) cav (List.replicate d.segments.length lo)
    ⟨rfl, by
      apply List.ext_getElem
      · simp [Around.wall]
      · intro i hi hi'
        simp [Around.wall],
      fun i s hi hs => by rw [hU i s hi hs]; rfl⟩ c hc h2.front h2.back
    (fun i e he hz => by
      rw [f3] at he
      obtain ⟨hi, rfl⟩ := List.getElem?_eq_some_iff.1 he
      exact absurd hz (hE i hi).1.ne') 0 d.segments.length (by simp [Around.wall])
    (fun i => by rw [Nat.zero_add]; exact hcp i i.2)
  have ht1 : 1 ≤ t := by
    by_contra h0
    have := e5.1 (by omega)
    obtain ⟨k, hk⟩ : ∃ k, k ∈ es := by
      cases es with
      | nil => rw [List.length_nil] at e2; exact absurd (List.length_eq_zero_iff.1 e2.symm) hne
      | cons k ks => exact ⟨k, List.mem_cons_self⟩
    exact hsolid k hk (this k hk)
  obtain ⟨_, hmax, _⟩ := foldl_max needed 1
  have hle := hmax t hneed
  obtain ⟨big, hbig⟩ : ∃ big, big = needed.foldl (fun most d => if d > most then d else most) 1 := ⟨_, rfl⟩
  rw [← hbig] at hle
  have ht' : (1 : ℝ) ≤ t := by exact_mod_cast ht1
  have hb' : (t : ℝ) ≤ big := by exact_mod_cast hle
  have hstep : ((partSeconds perHour needed : ℚ) : ℝ) = 3600 / perHour / (2 * big) := by
    unfold partSeconds subdivisions
    rw [← hbig]
    push_cast
    field_simp
    norm_num
  rw [hstep]
  rw [f2] at hg
  refine gentle_shorter hg (by positivity) ?_ ?_
  · apply div_le_div_of_nonneg_left (by positivity) (by linarith) (by linarith)
  · intro i
    have hrad : 0 ≤ (a.wall d.segments.length U fun _ => lo).radiant (0 + i) := by
      unfold Wall.radiant
      have := h2.front.2.1
      have := h2.back.2.1
      apply add_nonneg <;> split_ifs <;> first | exact le_rfl | assumption
    refine ⟨add_nonneg (add_nonneg ?_ ?_) hrad, hrad⟩
    · unfold Wall.before
      split_ifs
      · exact h2.front.1
      · apply hg.u
        have : (a.wall d.segments.length U fun _ => lo).N = d.segments.length := rfl
        omega
    · unfold Wall.after
      split_ifs with hlast
      · exact h2.back.1
      · apply hg.u
        have : (a.wall d.segments.length U fun _ => lo).N = d.segments.length := rfl
        omega

/-! ## The hypotheses can be met -/

private noncomputable def brickR : Mat ℝ := ⟨1 / 5, .normal ⟨some (4 / 5), some 1700, some 800, none, none⟩⟩

private theorem brick_positive : ∀ layers ∈ [[brickR], [brickR, brickR]], ∀ m ∈ layers, Positive m := by
  intro layers hl m hm
  have : m = brickR := by
    simp only [List.mem_cons, List.not_mem_nil, or_false] at hl
    rcases hl with rfl | rfl <;> simpa using hm
  subst this
  refine ⟨by norm_num [brickR], fun s hs => ?_⟩
  cases hs
  exact ⟨4 / 5, 1700, 800, rfl, rfl, rfl, by norm_num, by norm_num, by norm_num⟩

private theorem brick_good : LayerGood (3600 / (4 : ℕ)) (1 / 20) 60 brickR 13 := by
  have hc : count (1 / 20) brickR = 4 := by
    have : ⌈(1 / 5 : ℝ) / (1 / 20)⌉ = 4 := by
      rw [show (1 / 5 : ℝ) / (1 / 20) = ((4 : ℤ) : ℝ) by norm_num, Int.ceil_intCast]
    show ⌈(1 / 5 : ℝ) / (1 / 20)⌉.toNat = 4
    rw [this]; rfl
  refine ⟨_, 4 / 5, 1700, 800, rfl, rfl, rfl, rfl, ?_, ?_⟩
  · norm_num
  · rw [hc]
    unfold HalfStable
    norm_num [brickR]

/-- A building with a wall of brick and one of twice the thickness, with four time steps in an hour: there are elements, and
they are stable. -/
example : ∃ (needed : List ℕ) (elements : List (List ℕ)) (e : ℕ), (elements[0]?.bind (·[0]?)) = some e ∧ e ≠ 0 ∧
    ∀ (v : Fin 2 → ℝ) (ξ : ℝ), v ≠ 0 →
      (elementMatrix (partSeconds 4 needed : ℚ) (1 / 5 / e) (4 / 5) 1700 800).mulVec v = ξ • v → -1 / 4 ≤ ξ ∧ ξ < 0 := by
  obtain ⟨n, es, h, hlen, _, hl, _, _⟩ := C27_discretization_partial true [brickR] (3600 / (4 : ℕ)) (1 / 20) 60
    (by norm_num) (by norm_num) (brick_positive _ (by simp))
  obtain ⟨n2, es2, h2, _⟩ := C27_discretization_partial true [brickR, brickR] (3600 / (4 : ℕ)) (1 / 20) 60
    (by norm_num) (by norm_num) (brick_positive _ (by simp))
  obtain ⟨e, rfl⟩ := List.length_eq_one_iff.1 hlen
  have he : e ≠ 0 := fun h0 => ((hl 0 brickR e rfl rfl).2.1 h0) 13 (by norm_num) le_rfl brick_good
  refine ⟨[n, n2], [[e], es2], e, rfl, he, ?_⟩
  obtain ⟨s, k, rho, cp, hs, a, b, c, key⟩ := C27_building true [[brickR], [brickR, brickR]] [n, n2] [[e], es2] 4 (by norm_num)
    brick_positive (by
      intro w layers hw
      match w, hw with
      | 0, hw => cases hw; exact ⟨n, [e], rfl, rfl, h⟩
      | 1, hw => cases hw; exact ⟨n2, es2, rfl, rfl, h2⟩) 0 [brickR] [e] rfl rfl 0 brickR e rfl rfl he
  cases hs
  cases a
  cases b
  cases c
  exact key

/-- A wall of brick, in a building with another one that needs 7 parts of a quarter of an hour: in an hour in which its air is
at 0 °C and then at 20 °C, with what it sees at 10 °C, it remains between them. -/
example : ∃ (d : Discretization ℝ), discretizationNew true [brickR] (3600 / (4 : ℕ)) (1 / 20) 60 3 0 = .ok d ∧
    ∀ cav : CavityU ℝ, ∃ (mem mem' : ChunkMemory ℝ) (t : List ℝ),
      marches cav d.segments (partSeconds 4 [7, d.tstepSubdivision] : ℚ)
        [⟨⟨0, 10⟩, 10, 5, ⟨20, 10⟩, 3, 5, fun _ => 0⟩, ⟨⟨20, 10⟩, 10, 5, ⟨0, 10⟩, 3, 5, fun _ => 0⟩]
        (List.replicate d.segments.length 15) mem = .ok (t, mem') ∧ ∀ x ∈ t, 0 ≤ x ∧ x ≤ 20 := by
  obtain ⟨d, n, es, hd, h, hn, hes⟩ := C27_new true [brickR] (3600 / (4 : ℕ)) (1 / 20) 60 3 0 (by norm_num) (by norm_num)
    (brick_positive _ (by simp)) (by simp) (by
      intro j m g hj hg
      have : m = brickR := by simpa using List.mem_of_getElem? hj
      subst this
      cases hg)
  obtain ⟨n', es', h', hlen, _, hl, _, _⟩ := C27_discretization_partial true [brickR] (3600 / (4 : ℕ)) (1 / 20) 60
    (by norm_num) (by norm_num) (brick_positive _ (by simp))
  rw [h] at h'
  cases h'
  obtain ⟨e, rfl⟩ := List.length_eq_one_iff.1 hlen
  have he : e ≠ 0 := fun h0 => ((hl 0 brickR e rfl rfl).2.1 h0) 13 (by norm_num) le_rfl brick_good
  refine ⟨d, hd, fun cav => ?_⟩
  obtain ⟨mem, _, hmem, _⟩ := fresh_fits 0 d.segments.length
  obtain ⟨t, mem', h1, _, h3⟩ := C116_building_partial true [brickR] 3 0 4 (by norm_num) (brick_positive _ (by simp)) (by simp) d hd
    (by rw [hes]; simpa using he) [7, d.tstepSubdivision] (by simp) cav 0 20
    [⟨⟨0, 10⟩, 10, 5, ⟨20, 10⟩, 3, 5, fun _ => 0⟩, ⟨⟨20, 10⟩, 10, 5, ⟨0, 10⟩, 3, 5, fun _ => 0⟩] (by
      intro a ha
      simp only [List.mem_cons, List.not_mem_nil, or_false] at ha
      rcases ha with rfl | rfl <;>
        exact ⟨⟨by norm_num, by norm_num⟩, ⟨by norm_num, by norm_num⟩, fun _ => rfl⟩)
    (List.replicate d.segments.length 15) mem (by simp) hmem (by
      intro x hx
      rw [List.eq_of_mem_replicate hx]
      norm_num)
  exact ⟨mem, mem', t, h1, h3⟩

end Simple.Heat
