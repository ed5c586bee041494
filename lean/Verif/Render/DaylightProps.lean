import Mathlib.Algebra.BigOperators.Group.List.Basic
import Mathlib.Algebra.BigOperators.Pi
import Mathlib.Tactic.Positivity
import Mathlib.Tactic.FieldSimp
import Mathlib.Tactic.Linarith
import Verif.Matrix.Props
import Verif.Weather.ReinhartProps
import Verif.Render.SamplerProps
import Verif.Render.DaylightModel

/-! # C77: daylight coefficients -/

namespace Simple.Render.Daylight

open Geometry Materials Sampler Matrix Matrix.Spec
open Weather.Reinhart (Sky dirToBin)

namespace Spec

/-- What a ray that leaves the scene (or not) adds to the patch `j` of the sky, if there are `n` of them. -/
noncomputable def part (sky : Sky) (n j : ℕ) (l : Option (V3 ℝ × Spectrum)) : Spectrum :=
  match l with
  | none => 0
  | some (d, beta) => open Classical in if dirToBin sky d = .ok j then fun i => beta i / n else 0

/-- `ends` tells how the rays of a sensor end: each starts with `π` at the sensor, in a direction of length one whose angle with
the normal has the cosine that was sampled. -/
def Ends (maxDepth : ℕ) (sensor : Ray ℝ) (samples : List ((ℝ × ℝ) × Course)) (ends : List (Option (V3 ℝ × Spectrum))) : Prop :=
  List.Forall₂ (fun s e => ∃ d : V3 ℝ, d.dot d = 1 ∧ d.dot sensor.direction = (cosineHemisphere s.1).z ∧
    e = leaves s.2 maxDepth 0 ⟨sensor.origin, d⟩ (gray Real.pi)) samples ends

/-- Surfaces are grey and do not make light. -/
def Grey (c : Course) : Prop :=
  ∀ d ray parallel normal s p, c.cast ray = some (parallel, normal) → c.sample d ray = some (s, p) →
    ∃ k, 0 ≤ k ∧ k ≤ 1 ∧ ∀ i, s.spectrum i * |normal.dot s.wi| / s.pdf = k

end Spec

open Spec

private theorem rep_add {T : Type} [Ring T] {A B : GMatrix T} {m n : ℕ} {M N : Matrix (Fin m) (Fin n) T} (hA : Rep A M) (hB : Rep B N) :
    ∃ C, A.add B = .ok C ∧ Rep C (M + N) := (C08_add_sub hA hB).1

private theorem addAll_rep {T : Type} [Ring T] {m n : ℕ} (l : List (GMatrix T)) : ∀ (A : GMatrix T) (M : Matrix (Fin m) (Fin n) T)
    (Ns : List (Matrix (Fin m) (Fin n) T)), Rep A M → List.Forall₂ (fun B N => Rep B N) l Ns →
    ∃ C, addAll A l = .ok C ∧ Rep C (M + Ns.sum) := by
  induction l with
  | nil =>
    intro A M Ns hA hl
    cases hl
    exact ⟨A, rfl, by simpa using hA⟩
  | cons B l ih =>
    intro A M Ns hA hl
    cases hl with
    | cons h1 h2 =>
      rename_i N Ns
      obtain ⟨C, hC, hr⟩ := rep_add hA h1
      obtain ⟨D, hD, hr'⟩ := ih C _ Ns hr h2
      refine ⟨D, ?_, ?_⟩
      · unfold addAll
        rw [hC]
        exact hD
      · rw [List.sum_cons, ← add_assoc]
        exact hr'

private theorem collect_rel {α β γ : Type} (f : α → Outcome β) (R : α → β → Prop) (l : List α) (h : ∀ a ∈ l, ∃ b, f a = .ok b ∧ R a b) :
    ∃ bs, collect f l = .ok bs ∧ List.Forall₂ R l bs := by
  induction l with
  | nil => exact ⟨[], rfl, .nil⟩
  | cons a l ih =>
    obtain ⟨b, hb, hr⟩ := h a List.mem_cons_self
    obtain ⟨bs, hbs, hrs⟩ := ih fun a ha => h a (List.mem_cons_of_mem _ ha)
    refine ⟨b :: bs, ?_, .cons hr hrs⟩
    unfold collect
    rw [hb, hbs]
    rfl

private theorem new_rep {T : Type} [Zero T] (m n : ℕ) : Rep (GMatrix.new (0 : T) m n) (fun (_ : Fin m) (_ : Fin n) => (0 : T)) := C07_new 0 m n

private theorem traceRay_rep (mf : ℕ) (sky : Sky) (hs : Weather.Reinhart.new mf = .ok sky) (n maxDepth : ℕ) (c : Course) (ray : Ray ℝ) :
    ∃ A, traceRay sky n maxDepth c ray (GMatrix.new 0 1 sky.nBins) = .ok A ∧
      Rep A (fun (_ : Fin 1) (j : Fin sky.nBins) => part sky n j (leaves c maxDepth 0 ray (gray Real.pi))) := by
  unfold traceRay part
  cases hl : leaves c maxDepth 0 ray (gray Real.pi) with
  | none => exact ⟨_, rfl, new_rep 1 sky.nBins⟩
  | some db =>
    obtain ⟨d, beta⟩ := db
    obtain ⟨b, hb, hlt, -⟩ := Weather.Reinhart.C36_in_range mf sky d hs
    simp only
    rw [hb]
    obtain ⟨A, h1, h2⟩ := C07_write (new_rep (T := Spectrum) 1 sky.nBins) (.add fun i => 1 * beta i / n) 0 ⟨b, hlt⟩
    unfold Write.call at h1
    simp only [Outcome.bind, Fin.val_zero] at h1 ⊢
    refine ⟨A, ?_, ?_⟩
    · rw [h1]
    · refine cast ?_ h2
      congr 1
      funext i j
      unfold Write.apply
      by_cases hj : b = j.val
      · rw [if_pos ⟨Subsingleton.elim _ _, Fin.ext hj.symm⟩, if_pos (by rw [hj])]
        funext k
        simp
      · rw [if_neg (fun h => hj (by rw [h.2])), if_neg (fun h => hj (Outcome.ok.inj h))]

private theorem length_one {d : V3 ℝ} (h : d.dot d = 1) : d.length = 1 := by
  unfold V3.length
  rw [show d.lengthSquared = 1 from h, Real.sqrt_one]

private theorem sensor_rep (checks : Bool) (mf : ℕ) (sky : Sky) (hs : Weather.Reinhart.new mf = .ok sky) (maxDepth : ℕ) (ray : Ray ℝ)
    (hn : ray.direction.dot ray.direction = 1) (samples : List ((ℝ × ℝ) × Course)) (hu : ∀ s ∈ samples, s.1 ∈ square) :
    ∃ A ends, sensor checks sky maxDepth ray samples = .ok A ∧ Ends maxDepth ray samples ends ∧
      Rep A (fun (_ : Fin 1) (j : Fin sky.nBins) => (ends.map (part sky samples.length j)).sum) := by
  obtain ⟨e, he, hdir⟩ := C57_tilted_cosine checks ray.direction hn
  unfold sensor
  rw [he]
  simp only
  generalize hN : samples.length = N
  obtain ⟨bs, hbs, hrel⟩ := collect_rel (γ := Unit) (fun s : (ℝ × ℝ) × Course =>
      (localToWorld checks (e.cross ray.direction) e ray.direction 0 (cosineHemisphere s.1).x (cosineHemisphere s.1).y
        (cosineHemisphere s.1).z).bind fun d =>
        if checks = true ∧ ¬ |1 - d.length| < 1 / 10 ^ 7 then .panic
        else traceRay sky N maxDepth s.2 ⟨ray.origin, d⟩ (GMatrix.new 0 1 sky.nBins))
    (fun s A => ∃ en : Option (V3 ℝ × Spectrum), (∃ d : V3 ℝ, d.dot d = 1 ∧ d.dot ray.direction = (cosineHemisphere s.1).z ∧
      en = leaves s.2 maxDepth 0 ⟨ray.origin, d⟩ (gray Real.pi)) ∧
      Rep A (fun (_ : Fin 1) (j : Fin sky.nBins) => part sky N j en)) samples (by
    intro s hmem
    obtain ⟨d, h1, h2, h3⟩ := hdir s.1 (hu s hmem)
    rw [h1]
    obtain ⟨A, hA, hr⟩ := traceRay_rep mf sky hs N maxDepth s.2 ⟨ray.origin, d⟩
    refine ⟨A, ?_, _, ⟨d, h2, h3, rfl⟩, hr⟩
    simp only [Outcome.bind]
    rw [if_neg (by rw [length_one h2]; norm_num)]
    exact hA)
  rw [hbs]
  have hex : ∃ ends, Ends maxDepth ray samples ends ∧
      List.Forall₂ (fun A en => Rep A (fun (_ : Fin 1) (j : Fin sky.nBins) => part sky N j en)) bs ends := by
    clear hbs hN hu
    induction hrel with
    | nil => exact ⟨[], .nil, .nil⟩
    | cons h _ ih =>
      obtain ⟨en, h1, h2⟩ := h
      obtain ⟨ends, h3, h4⟩ := ih
      exact ⟨en :: ends, .cons h1 h3, .cons h2 h4⟩
  obtain ⟨ends, h1, h2⟩ := hex
  have h2' : List.Forall₂ (fun B M => Rep B M) bs (ends.map fun en => (fun (_ : Fin 1) (j : Fin sky.nBins) => part sky N j en)) :=
    List.forall₂_map_right_iff.2 h2
  obtain ⟨C, hC, hr⟩ := addAll_rep bs _ _ _ (new_rep (T := Spectrum) 1 sky.nBins) h2'
  refine ⟨C, ends, hC, h1, ?_⟩
  refine cast ?_ hr
  congr 1
  clear h2' hr h2 h1
  funext i j
  have : ∀ l : List (Option (V3 ℝ × Spectrum)),
      ((l.map fun en => (fun (_ : Fin 1) (j : Fin sky.nBins) => part sky N j en : Matrix (Fin 1) (Fin sky.nBins) Spectrum)).sum) i j =
        (l.map (part sky N j)).sum := by
    intro l
    induction l with
    | nil => rfl
    | cons a l ih =>
      rw [List.map_cons, List.sum_cons, List.map_cons, List.sum_cons, ← ih]
      rfl
  rw [← this]
  show (0 : Spectrum) + _ = _
  rw [zero_add]
  rfl

private theorem fillRow_rep {T : Type} [Ring T] {m n : ℕ} (row : Fin m) (f : ℕ → Outcome T) (g : Fin n → T) (hf : ∀ j, f j.val = .ok (g j))
    (cols : List ℕ) : ∀ (A : GMatrix T) (M : Matrix (Fin m) (Fin n) T), (∀ c ∈ cols, c < n) → Rep A M →
    ∃ B, fillRow row f cols A = .ok B ∧ Rep B (fun i j => if i = row ∧ j.val ∈ cols then g j else M i j) := by
  induction cols with
  | nil =>
    intro A M _ hA
    exact ⟨A, rfl, by simpa using hA⟩
  | cons c cols ih =>
    intro A M hc hA
    have hcn := hc c List.mem_cons_self
    obtain ⟨A', h1, h2⟩ := C07_write hA (.set (g ⟨c, hcn⟩)) row ⟨c, hcn⟩
    unfold Write.call at h1
    obtain ⟨B, hB, hr⟩ := ih A' _ (fun c h => hc c (List.mem_cons_of_mem _ h)) h2
    refine ⟨B, ?_, ?_⟩
    · unfold fillRow
      rw [hf ⟨c, hcn⟩]
      simp only at h1 ⊢
      cases hset : A.set row c (g ⟨c, hcn⟩) with
      | mk o m' =>
        rw [hset] at h1
        cases o with
        | ok v =>
          simp only at h1 ⊢
          have := (Prod.mk.inj h1).2
          rw [this]
          exact hB
        | err => simp [Outcome.map] at h1
        | panic => simp [Outcome.map] at h1
    · refine cast ?_ hr
      congr 1
      funext i j
      simp only [Write.apply]
      by_cases hi : i = row
      · by_cases hj : j.val ∈ cols
        · rw [if_pos ⟨hi, hj⟩, if_pos ⟨hi, List.mem_cons_of_mem _ hj⟩]
        · rw [if_neg (fun h => hj h.2)]
          by_cases hjc : j = ⟨c, hcn⟩
          · rw [if_pos ⟨hi, hjc⟩, if_pos ⟨hi, by rw [hjc]; exact List.mem_cons_self⟩, hjc]
          · rw [if_neg (fun h => hjc h.2), if_neg]
            rintro ⟨-, h⟩
            rcases List.mem_cons.1 h with h | h
            · exact hjc (Fin.ext h)
            · exact hj h
      · rw [if_neg (fun h => hi h.1), if_neg (fun h => hi h.1), if_neg (fun h => hi h.1)]

private theorem fillRows_rep {T : Type} [Ring T] {m n : ℕ} (f : ℕ → ℕ → Outcome T) (g : Matrix (Fin m) (Fin n) T)
    (hf : ∀ (i : Fin m) (j : Fin n), f i.val j.val = .ok (g i j)) (rows : List ℕ) :
    ∀ (A : GMatrix T) (M : Matrix (Fin m) (Fin n) T), (∀ r ∈ rows, r < m) → Rep A M →
    ∃ B, fillRows n f rows A = .ok B ∧ Rep B (fun i j => if i.val ∈ rows then g i j else M i j) := by
  induction rows with
  | nil =>
    intro A M _ hA
    exact ⟨A, rfl, by simpa using hA⟩
  | cons r rows ih =>
    intro A M hr hA
    have hrm := hr r List.mem_cons_self
    obtain ⟨A', h1, h2⟩ := fillRow_rep ⟨r, hrm⟩ (f r) (g ⟨r, hrm⟩) (fun j => hf ⟨r, hrm⟩ j) (List.range n) A M (by simp) hA
    obtain ⟨B, hB, hr'⟩ := ih A' _ (fun c h => hr c (List.mem_cons_of_mem _ h)) h2
    refine ⟨B, ?_, ?_⟩
    · unfold fillRows
      rw [show fillRow r (f r) (List.range n) A = .ok A' from h1]
      exact hB
    · refine cast ?_ hr'
      congr 1
      funext i j
      by_cases hi : i.val ∈ rows
      · rw [if_pos hi, if_pos (List.mem_cons_of_mem _ hi)]
      · rw [if_neg hi]
        by_cases hir : i = ⟨r, hrm⟩
        · rw [if_pos ⟨hir, by simp⟩, if_pos (by rw [hir]; exact List.mem_cons_self), hir]
        · rw [if_neg (fun h => hir h.1), if_neg]
          intro h
          rcases List.mem_cons.1 h with h | h
          · exact hir (Fin.ext h)
          · exact hi h

private theorem fill_rep {T : Type} [Ring T] {m n : ℕ} (f : ℕ → ℕ → Outcome T) (g : Matrix (Fin m) (Fin n) T)
    (hf : ∀ (i : Fin m) (j : Fin n), f i.val j.val = .ok (g i j)) :
    ∃ B, fillRows n f (List.range m) (GMatrix.new 0 m n) = .ok B ∧ Rep B g := by
  obtain ⟨B, h1, h2⟩ := fillRows_rep f g hf (List.range m) _ _ (by simp) (new_rep (T := T) m n)
  refine ⟨B, h1, cast ?_ h2⟩
  congr 1
  funext i j
  rw [if_pos (by simp)]

/-- C77: the matrix of daylight coefficients has a row for each sensor and a column for each patch of the sky; in the column of
a patch is what the rays that leave the scene towards that patch carry, over the number of rays. -/
theorem C77_entries (checks : Bool) (mf : ℕ) (sky : Sky) (hs : Weather.Reinhart.new mf = .ok sky) (maxDepth : ℕ)
    (rays : List (Ray ℝ × List ((ℝ × ℝ) × Course))) (hn : ∀ r ∈ rays, r.1.direction.dot r.1.direction = 1)
    (hu : ∀ r ∈ rays, ∀ s ∈ r.2, s.1 ∈ square) :
    ∃ m, ∃ M : Matrix (Fin rays.length) (Fin sky.nBins) Spectrum, calcDc checks sky maxDepth rays = .ok m ∧ Rep m M ∧
      ∀ i : Fin rays.length, ∃ ends, Ends maxDepth rays[i].1 rays[i].2 ends ∧
        ∀ j, M i j = (ends.map (part sky rays[i].2.length j)).sum := by
  obtain ⟨dcs, hd, hrel⟩ := collect_rel (γ := Unit) (fun r : Ray ℝ × List ((ℝ × ℝ) × Course) => sensor checks sky maxDepth r.1 r.2)
    (fun r A => ∃ ends, Ends maxDepth r.1 r.2 ends ∧
      Rep A (fun (_ : Fin 1) (j : Fin sky.nBins) => (ends.map (part sky r.2.length j)).sum)) rays (by
    intro r hr
    obtain ⟨A, ends, h1, h2, h3⟩ := sensor_rep checks mf sky hs maxDepth r.1 (hn r hr) r.2 (hu r hr)
    exact ⟨A, h1, ends, h2, h3⟩)
  have hlen := hrel.length_eq
  have hget : ∀ i : Fin rays.length, ∃ ends, Ends maxDepth rays[i].1 rays[i].2 ends ∧
      Rep (dcs[i.val]'(by rw [← hlen]; exact i.2)) (fun (_ : Fin 1) (j : Fin sky.nBins) => (ends.map (part sky rays[i].2.length j)).sum) :=
    fun i => (List.forall₂_iff_get.1 hrel).2 i.val i.2 (by rw [← hlen]; exact i.2)
  choose ends he hrep using hget
  obtain ⟨B, h1, h2⟩ := fill_rep (fun i j => (Outcome.index dcs i).bind fun c => c.get 0 j)
    (fun (i : Fin rays.length) (j : Fin sky.nBins) => ((ends i).map (part sky rays[i].2.length j)).sum) (by
      intro i j
      rw [Outcome.index_of_lt (by rw [← hlen]; exact i.2)]
      exact (hrep i).get 0 j)
  refine ⟨B, _, ?_, h2, fun i => ⟨ends i, he i, fun j => rfl⟩⟩
  unfold calcDc
  rw [hd]
  exact h1

private theorem part_sum (mf : ℕ) (sky : Sky) (hs : Weather.Reinhart.new mf = .ok sky) (n : ℕ) (e : Option (V3 ℝ × Spectrum)) (i : Fin 3) :
    ∑ j : Fin sky.nBins, part sky n j e i = match e with | none => 0 | some (_, beta) => beta i / n := by
  cases e with
  | none => simp [part]
  | some db =>
    obtain ⟨d, beta⟩ := db
    obtain ⟨b, hb, hlt, -⟩ := Weather.Reinhart.C36_in_range mf sky d hs
    simp only
    rw [Finset.sum_eq_single (⟨b, hlt⟩ : Fin sky.nBins)]
    · unfold part
      simp only
      rw [if_pos hb]
    · intro j _ hj
      unfold part
      simp only
      rw [if_neg]
      · rfl
      · intro h
        rw [hb] at h
        exact hj (Fin.ext (Outcome.ok.inj h).symm)
    · intro h
      exact absurd (Finset.mem_univ _) h

private theorem row_sum (mf : ℕ) (sky : Sky) (hs : Weather.Reinhart.new mf = .ok sky) (n : ℕ) (i : Fin 3)
    (ends : List (Option (V3 ℝ × Spectrum))) :
    ∑ j : Fin sky.nBins, (ends.map (part sky n j)).sum i =
      (ends.map fun e => match e with | none => 0 | some (_, beta) => beta i / n).sum := by
  induction ends with
  | nil => simp
  | cons e l ih =>
    simp only [List.map_cons, List.sum_cons, Pi.add_apply]
    rw [Finset.sum_add_distrib, ih, part_sum mf sky hs]

/-- C77: the coefficients of a sensor that sees nothing but the sky and the ground add up to `π`, in each channel: a sky of
brightness one gives the irradiance `π`. -/
theorem C77_unobstructed (checks : Bool) (mf : ℕ) (sky : Sky) (hs : Weather.Reinhart.new mf = .ok sky) (maxDepth : ℕ)
    (rays : List (Ray ℝ × List ((ℝ × ℝ) × Course))) (hn : ∀ r ∈ rays, r.1.direction.dot r.1.direction = 1)
    (hu : ∀ r ∈ rays, ∀ s ∈ r.2, s.1 ∈ square) :
    ∃ m, ∃ M : Matrix (Fin rays.length) (Fin sky.nBins) Spectrum, calcDc checks sky maxDepth rays = .ok m ∧ Rep m M ∧
      ∀ i : Fin rays.length, rays[i].2 ≠ [] → (∀ s ∈ rays[i].2, ∀ ray, s.2.cast ray = none) → ∀ c, ∑ j, M i j c = Real.pi := by
  obtain ⟨m, M, h1, h2, h3⟩ := C77_entries checks mf sky hs maxDepth rays hn hu
  refine ⟨m, M, h1, h2, fun i hne hfree c => ?_⟩
  obtain ⟨ends, he, hM⟩ := h3 i
  simp only [hM]
  rw [row_sum mf sky hs]
  generalize rays[i].2 = samples at *
  have hall : ∀ n : ℕ, (ends.map fun e => match e with | none => (0 : ℝ) | some (_, beta) => beta c / n) =
      List.replicate samples.length (Real.pi / n) := by
    intro n
    clear hM hne
    unfold Ends at he
    induction he with
    | nil => rfl
    | cons h _ ih =>
      obtain ⟨d, -, -, rfl⟩ := h
      rw [List.map_cons, List.length_cons, List.replicate_succ, ih fun s hs => hfree s (List.mem_cons_of_mem _ hs)]
      congr 1
      unfold leaves
      rw [hfree _ List.mem_cons_self]
      rfl
  rw [hall, List.sum_replicate, nsmul_eq_mul]
  have : (samples.length : ℝ) ≠ 0 := by
    intro h
    exact hne (List.length_eq_zero_iff.1 (by exact_mod_cast h))
  field_simp

private theorem leaves_grey (c : Course) (hg : Grey c) (hdraw : ∀ d, c.draw d < 1) : ∀ left depth ray b, 0 ≤ b → b ≤ Real.pi →
    ∀ d beta, leaves c left depth ray (gray b) = some (d, beta) → ∃ b', 0 ≤ b' ∧ b' ≤ Real.pi ∧ beta = gray b' := by
  intro left
  induction left with
  | zero =>
    intro depth ray b h0 h1 d beta h
    unfold leaves at h
    cases hc : c.cast ray with
    | none =>
      rw [hc] at h
      exact ⟨b, h0, h1, (Prod.mk.inj (Option.some.inj h)).2.symm⟩
    | some pn =>
      obtain ⟨p, n⟩ := pn
      rw [hc] at h
      simp only at h
      split at h <;> cases h
  | succ left ih =>
    intro depth ray b h0 h1 d beta h
    unfold leaves at h
    cases hc : c.cast ray with
    | none =>
      rw [hc] at h
      exact ⟨b, h0, h1, (Prod.mk.inj (Option.some.inj h)).2.symm⟩
    | some pn =>
      obtain ⟨p, n⟩ := pn
      rw [hc] at h
      simp only at h
      split at h
      · cases h
      · cases hsm : c.sample depth ray with
        | none => rw [hsm] at h; cases h
        | some sp =>
          obtain ⟨s, point⟩ := sp
          rw [hsm] at h
          simp only at h
          obtain ⟨k, k0, k1, hk⟩ := hg depth ray p n s point hc hsm
          have hb : (fun i => gray b i * (s.spectrum i * |n.dot s.wi| / s.pdf)) = gray (b * k) := by
            funext i
            rw [hk i]
            rfl
          rw [hb] at h
          have hbk0 : 0 ≤ b * k := mul_nonneg h0 k0
          have hbk1 : b * k ≤ Real.pi := le_trans (mul_le_of_le_one_right h0 k1) h1
          have hrad : (gray (b * k)).radiance = b * k := by unfold Spectrum.radiance gray; ring
          have hpi : (1 : ℝ) ≤ Real.pi := by linarith [Real.two_le_pi]
          cases hr : Tracer.roulette (gray (b * k)) (c.draw depth) with
          | none => rw [hr] at h; cases h
          | some beta' =>
            rw [hr] at h
            simp only at h
            unfold Tracer.roulette at hr
            simp only [hrad] at hr
            split at hr
            · cases hr
            · rename_i hlt
              have hb' := (Option.some.inj hr).symm
              have hq : ∃ b', 0 ≤ b' ∧ b' ≤ Real.pi ∧ beta' = gray b' := by
                by_cases h1' : 1 ≤ b * k
                · refine ⟨b * k, hbk0, hbk1, ?_⟩
                  rw [hb', max_eq_right (by linarith)]
                  funext i
                  simp [gray]
                · have hpos : 0 < b * k := by
                    rcases hbk0.eq_or_lt with h0' | h0'
                    · exfalso
                      apply hlt
                      rw [← h0', sub_zero, max_eq_left (by norm_num)]
                      exact hdraw depth
                    · exact h0'
                  refine ⟨1, by norm_num, hpi, ?_⟩
                  rw [hb', max_eq_left (by linarith)]
                  funext i
                  simp only [gray, sub_sub_cancel]
                  exact div_self hpos.ne'
              obtain ⟨b', p0, p1, rfl⟩ := hq
              exact ih _ _ b' p0 p1 d beta h

/-- C77: with grey surfaces that do not make light, no coefficient is negative and those of a sensor add up to at most `π`:
the sensor never receives more than the sky gives. -/
theorem C77_bounded (checks : Bool) (mf : ℕ) (sky : Sky) (hs : Weather.Reinhart.new mf = .ok sky) (maxDepth : ℕ)
    (rays : List (Ray ℝ × List ((ℝ × ℝ) × Course))) (hn : ∀ r ∈ rays, r.1.direction.dot r.1.direction = 1)
    (hu : ∀ r ∈ rays, ∀ s ∈ r.2, s.1 ∈ square) (hg : ∀ r ∈ rays, ∀ s ∈ r.2, Grey s.2 ∧ ∀ d, s.2.draw d < 1) :
    ∃ m, ∃ M : Matrix (Fin rays.length) (Fin sky.nBins) Spectrum, calcDc checks sky maxDepth rays = .ok m ∧ Rep m M ∧
      ∀ i c, (∀ j, 0 ≤ M i j c) ∧ ∑ j, M i j c ≤ Real.pi := by
  obtain ⟨m, M, h1, h2, h3⟩ := C77_entries checks mf sky hs maxDepth rays hn hu
  refine ⟨m, M, h1, h2, fun i c => ?_⟩
  obtain ⟨ends, he, hM⟩ := h3 i
  have hgi := hg rays[i] (List.getElem_mem i.2)
  simp only [hM]
  rw [row_sum mf sky hs]
  generalize rays[i].2 = samples at *
  generalize hN : samples.length = N
  have hall : ∀ e ∈ ends, ∀ d beta, e = some (d, beta) → ∃ b', 0 ≤ b' ∧ b' ≤ Real.pi ∧ beta = gray b' := by
    clear hM hN
    unfold Ends at he
    induction he with
    | nil => simp
    | cons h _ ih =>
      obtain ⟨d', -, -, rfl⟩ := h
      intro e hmem d beta heq
      rcases List.mem_cons.1 hmem with rfl | hmem
      · obtain ⟨hg1, hd1⟩ := hgi _ List.mem_cons_self
        exact leaves_grey _ hg1 hd1 _ _ _ Real.pi Real.pi_pos.le (le_refl _) d beta heq
      · exact ih (fun s hs => hgi s (List.mem_cons_of_mem _ hs)) e hmem d beta heq
  have hlen : ends.length = N := by rw [← hN]; exact he.length_eq.symm
  constructor
  · intro j
    have hpos : ∀ l : List (Option (V3 ℝ × Spectrum)), (∀ e ∈ l, ∀ d beta, e = some (d, beta) → ∃ b', 0 ≤ b' ∧ b' ≤ Real.pi ∧ beta = gray b') →
        0 ≤ (l.map (part sky N j)).sum c := by
      intro l
      induction l with
      | nil => intro _; simp
      | cons e l ih =>
        intro hl
        rw [List.map_cons, List.sum_cons, Pi.add_apply]
        refine add_nonneg ?_ (ih fun e he => hl e (List.mem_cons_of_mem _ he))
        cases e with
        | none => simp [part]
        | some db =>
          obtain ⟨d, beta⟩ := db
          obtain ⟨b', p0, p1, rfl⟩ := hl _ List.mem_cons_self d beta rfl
          unfold part
          simp only
          split
          · exact div_nonneg p0 (Nat.cast_nonneg _)
          · exact le_refl _
    exact hpos ends hall
  · have := List.sum_le_card_nsmul (ends.map fun e => match e with | none => (0 : ℝ) | some (_, beta) => beta c / N) (Real.pi / N) (by
      intro x hx
      obtain ⟨e, hmem, rfl⟩ := List.mem_map.1 hx
      cases e with
      | none => exact div_nonneg Real.pi_pos.le (Nat.cast_nonneg _)
      | some db =>
        obtain ⟨d, beta⟩ := db
        obtain ⟨b', p0, p1, rfl⟩ := hall _ hmem d beta rfl
        exact div_le_div_of_nonneg_right p1 (Nat.cast_nonneg _))
    rw [List.length_map, hlen, nsmul_eq_mul] at this
    refine le_trans this ?_
    rcases Nat.eq_zero_or_pos N with h0 | h0
    · rw [h0]; simp [Real.pi_pos.le]
    · have : (N : ℝ) ≠ 0 := by exact_mod_cast h0.ne'
      field_simp
      exact le_refl _

/-- C77: the irradiance per patch that is stored for a surface is the mean, over its sensors, of the radiance of their
coefficients. -/
theorem C77_mean (checks : Bool) (mf : ℕ) (sky : Sky) (hs : Weather.Reinhart.new mf = .ok sky) (maxDepth : ℕ)
    (rays : List (Ray ℝ × List ((ℝ × ℝ) × Course))) (hne : rays ≠ []) (hn : ∀ r ∈ rays, r.1.direction.dot r.1.direction = 1)
    (hu : ∀ r ∈ rays, ∀ s ∈ r.2, s.1 ∈ square) :
    ∃ m, ∃ M : Matrix (Fin rays.length) (Fin sky.nBins) Spectrum, calcDc checks sky maxDepth rays = .ok m ∧ Rep m M ∧
      ∃ a, solarIrradiance checks sky maxDepth rays = .ok a ∧
        Rep a (fun (_ : Fin 1) (j : Fin sky.nBins) =>
          (∑ i, (M i j 0 * (265 / 1000) + M i j 1 * (67 / 100) + M i j 2 * (65 / 1000))) / rays.length) := by
  obtain ⟨m, M, h1, h2, -⟩ := C77_entries checks mf sky hs maxDepth rays hn hu
  refine ⟨m, M, h1, h2, ?_⟩
  obtain ⟨r, h3, h4⟩ := fill_rep (fun i j => (m.get i j).map Spectrum.radiance) (fun i j => (M i j).radiance) (by
    intro i j
    rw [h2.get i j]
    rfl)
  have hr : toRadiance m = .ok r := by
    unfold toRadiance
    rw [h2.nrows, h2.ncols]
    exact h3
  have hnb : 0 < sky.nBins := by
    obtain ⟨b, -, hlt, -⟩ := Weather.Reinhart.C36_in_range mf sky ⟨0, 0, 1⟩ hs
    omega
  obtain ⟨a, h5, h6⟩ := C08_mul (List.length_pos_iff.2 hne) hnb (C07_new (1 / (rays.length : ℝ)) 1 rays.length) h4
  refine ⟨a, ?_, ?_⟩
  · unfold solarIrradiance
    rw [h1]
    show (toRadiance m).bind average = _
    rw [hr]
    show average r = _
    unfold average
    rw [h4.nrows]
    exact h5
  · refine cast ?_ h6
    congr 1
    funext i j
    show (∑ k, 1 / (rays.length : ℝ) * (M k j).radiance) = _
    rw [Finset.sum_div]
    refine Finset.sum_congr rfl fun k _ => ?_
    unfold Spectrum.radiance
    ring

/-- C77: the luminance of a matrix of colours is that of each colour: 179 times the weighted sum of its channels. -/
theorem C77_luminance {r n : ℕ} (cm : GMatrix Spectrum) (M : Matrix (Fin r) (Fin n) Spectrum) (h : Rep cm M) :
    ∃ l, toLuminance cm = .ok l ∧
      Rep l (fun i j => 179 * (265 / 1000 * M i j 0 + 67 / 100 * M i j 1 + 65 / 1000 * M i j 2)) := by
  obtain ⟨l, h1, h2⟩ := fill_rep (fun i j => (cm.get i j).map fun c => c.radiance * 179) (fun i j => (M i j).radiance * 179) (by
    intro i j
    rw [h.get i j]
    rfl)
  refine ⟨l, ?_, cast ?_ h2⟩
  · unfold toLuminance
    rw [h.nrows, h.ncols]
    exact h1
  · congr 1
    funext i j
    unfold Spectrum.radiance
    ring

/-- Without sensors the mean is not defined: the product panics. -/
theorem C77_no_sensors (checks : Bool) (sky : Sky) (maxDepth : ℕ) : solarIrradiance checks sky maxDepth [] = .panic := by
  unfold solarIrradiance calcDc
  simp only [collect, Outcome.bind, List.length_nil, List.range_zero, fillRows]
  unfold toRadiance
  simp only [GMatrix.new, List.range_zero, fillRows]
  unfold average GMatrix.mul GMatrix.prodInto
  simp [GMatrix.new]

/-- A sensor that looks up, in an empty scene. -/
example : ∃ sky, Weather.Reinhart.new 1 = .ok sky ∧ ∃ m, ∃ M : Matrix (Fin 1) (Fin sky.nBins) Spectrum,
    calcDc true sky 3 [(⟨⟨0, 0, 0⟩, ⟨0, 0, 1⟩⟩, [((1 / 2, 1 / 4), ⟨fun _ => none, fun _ _ => none, fun _ => 0⟩)])] = .ok m ∧ Rep m M ∧
      ∑ j, M 0 j 0 = Real.pi := by
  obtain ⟨sky, hsky⟩ : ∃ sky, Weather.Reinhart.new 1 = .ok sky := ((Weather.Reinhart.C36_count 1).1 (by norm_num)).imp fun s h => h.1
  obtain ⟨m, M, h1, h2, h3⟩ := C77_unobstructed true 1 sky hsky 3
    [(⟨⟨0, 0, 0⟩, ⟨0, 0, 1⟩⟩, [((1 / 2, 1 / 4), ⟨fun _ => none, fun _ _ => none, fun _ => 0⟩)])]
    (by simp [V3.dot]) (by
      simp [square]
      rintro a b - rfl rfl -
      norm_num)
  exact ⟨sky, hsky, m, M, h1, h2, h3 0 (by simp) (by simp) 0⟩

end Simple.Render.Daylight
