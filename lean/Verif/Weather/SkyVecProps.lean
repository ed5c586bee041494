import Mathlib.Tactic.NormNum
import Mathlib.Tactic.Linarith
import Mathlib.Tactic.Ring
import Mathlib.Tactic.FieldSimp
import Mathlib.Tactic.Positivity
import Verif.Weather.PerezModel
import Verif.Weather.ReinhartProps

/-! # C39: the sky vector -/

namespace Simple.Weather.Perez

open Geometry

namespace Spec

/-- `after` is `before` with `f b` added to each bin `b`. -/
structure Adds (before after : List ℝ) (f : ℕ → ℝ) : Prop where
  length : after.length = before.length
  value : ∀ b < before.length, after.getD b 0 = before.getD b 0 + f b

/-- The solid angles and the directions of the bins of a sky. -/
structure Bins (r : Reinhart.Sky) (angle : ℕ → ℝ) (dir : ℕ → V3 ℝ) : Prop where
  angle : ∀ b < r.nBins, Reinhart.binSolidAngle r b = .ok (angle b) ∧ 0 < angle b
  dir : ∀ b < r.nBins, Reinhart.binDir r b = .ok (dir b) ∧ (dir b).lengthSquared = 1

end Spec

/-- Every subdivision has solid angles and directions. -/
theorem bins_exist {mf : ℕ} {r : Reinhart.Sky} (hr : Reinhart.new mf = .ok r) :
    ∃ angle dir, Spec.Bins r angle dir := by
  obtain ⟨angle, h, -, -⟩ := Reinhart.C37_solid_angles mf r hr
  have hd : ∀ b, ∃ d, b < r.nBins → Reinhart.binDir r b = .ok d ∧ d.lengthSquared = 1 := by
    intro b
    by_cases hb : b < r.nBins
    · obtain ⟨d, h1, h2, -⟩ := Reinhart.C36_round_trip mf b r hr hb
      exact ⟨d, fun _ => ⟨h1, by unfold V3.lengthSquared; linarith⟩⟩
    · exact ⟨0, fun h => absurd h hb⟩
  choose dir hdir using hd
  exact ⟨angle, dir, h, hdir⟩

/-! ## Adding to a vector -/

private theorem adds_refl (v : List ℝ) : Spec.Adds v v (fun _ => 0) := ⟨rfl, fun _ _ => by simp⟩

private theorem adds_trans {u v w : List ℝ} {f g : ℕ → ℝ} (h1 : Spec.Adds u v f) (h2 : Spec.Adds v w g) :
    Spec.Adds u w (fun b => f b + g b) :=
  ⟨by rw [h2.length, h1.length], fun b hb => by
    rw [h2.value b (by rw [h1.length]; exact hb), h1.value b hb]; ring⟩

private theorem addTo_adds {v : List ℝ} {bin : ℕ} (x : ℝ) (h : bin < v.length) :
    ∃ v', addTo v bin x = .ok v' ∧ Spec.Adds v v' (fun b => if b = bin then x else 0) := by
  unfold addTo
  rw [List.getElem?_eq_getElem h]
  refine ⟨_, rfl, by simp, ?_⟩
  intro b hb
  rw [List.getD_eq_getElem?_getD, List.getD_eq_getElem?_getD, List.getElem?_set, List.getElem?_eq_getElem hb]
  by_cases hbb : b = bin
  · subst hbb; simp [hb]
  · rw [if_neg (fun h => hbb h.symm), if_neg hbb, add_zero]

/-- What a list of closest bins adds. -/
private noncomputable def sunPart (angle : ℕ → ℝ) (dirIllum total : ℝ) (l : List (ℕ × ℝ)) (b : ℕ) : ℝ :=
  (l.map fun c => if b = c.1 then weight c * dirIllum / (179 * total) / angle c.1 else 0).sum

private theorem addSuns_adds {r : Reinhart.Sky} {angle : ℕ → ℝ} {dir : ℕ → V3 ℝ} (hb : Spec.Bins r angle dir)
    (dirIllum total : ℝ) : ∀ (l : List (ℕ × ℝ)) (v : List ℝ), (∀ c ∈ l, c.1 < r.nBins) → v.length = r.nBins →
    ∃ v', addSuns r dirIllum total l v = .ok v' ∧ Spec.Adds v v' (sunPart angle dirIllum total l) := by
  intro l
  induction l with
  | nil => intro v _ _; exact ⟨v, rfl, rfl, fun b _ => by simp [sunPart]⟩
  | cons c l ih =>
    intro v hl hv
    have hc := hl c (by simp)
    unfold addSuns
    rw [(hb.angle c.1 hc).1]
    simp only [Outcome.bind]
    obtain ⟨v1, e1, a1⟩ := addTo_adds (weight c * dirIllum / (179 * total) / angle c.1) (by rw [hv]; exact hc)
    rw [e1]
    simp only
    obtain ⟨v2, e2, a2⟩ := ih v1 (fun c h => hl c (by simp [h])) (by rw [a1.length, hv])
    refine ⟨v2, e2, ?_⟩
    have := adds_trans a1 a2
    refine ⟨this.length, fun b hb => ?_⟩
    rw [this.value b hb]
    simp [sunPart]

/-- The energy that a list of closest bins adds. -/
private theorem sunPart_energy {r : Reinhart.Sky} {angle : ℕ → ℝ} {dir : ℕ → V3 ℝ} (hb : Spec.Bins r angle dir)
    (dirIllum total : ℝ) : ∀ l : List (ℕ × ℝ), (∀ c ∈ l, c.1 < r.nBins) →
    ∑ b ∈ Finset.range r.nBins, sunPart angle dirIllum total l b * angle b =
      (l.map weight).sum * dirIllum / (179 * total) := by
  intro l
  induction l with
  | nil => intro _; simp [sunPart]
  | cons c l ih =>
    intro hl
    have hc := hl c (by simp)
    have hsplit : ∀ b, sunPart angle dirIllum total (c :: l) b * angle b =
        (if b = c.1 then weight c * dirIllum / (179 * total) else 0) + sunPart angle dirIllum total l b * angle b := by
      intro b
      unfold sunPart
      rw [List.map_cons, List.sum_cons, add_mul]
      congr 1
      by_cases hbc : b = c.1
      · rw [if_pos hbc, if_pos hbc, hbc]
        have := (hb.angle c.1 hc).2
        field_simp
      · rw [if_neg hbc, if_neg hbc, zero_mul]
    rw [Finset.sum_congr rfl (fun b _ => hsplit b), Finset.sum_add_distrib, ih (fun c h => hl c (by simp [h])),
      Finset.sum_ite_eq' (Finset.range r.nBins), if_pos (Finset.mem_range.2 hc), List.map_cons, List.sum_cons]
    ring

/-! ## The closest bins -/

private theorem insertClosest_length (bin : ℕ) (dot : ℝ) : ∀ l : List (ℕ × ℝ), (insertClosest bin dot l).length = l.length := by
  intro l
  induction l with
  | nil => rfl
  | cons c l ih =>
    unfold insertClosest
    split_ifs
    · simp
    · simp [ih]

private theorem insertClosest_mem (bin : ℕ) (dot : ℝ) : ∀ (l : List (ℕ × ℝ)) (c : ℕ × ℝ),
    c ∈ insertClosest bin dot l → c = (bin, dot) ∨ c ∈ l := by
  intro l
  induction l with
  | nil => intro c h; cases h
  | cons a l ih =>
    intro c h
    unfold insertClosest at h
    split_ifs at h
    · rcases List.mem_cons.1 h with h | h
      · exact Or.inl h
      · exact Or.inr (List.mem_of_mem_dropLast h)
    · rcases List.mem_cons.1 h with h | h
      · exact Or.inr (by simp [h])
      · rcases ih c h with h | h
        · exact Or.inl h
        · exact Or.inr (by simp [h])

/-- The order, and what is left out. -/
private theorem insertClosest_spec (bin : ℕ) (dot : ℝ) : ∀ l : List (ℕ × ℝ), l.Pairwise (fun a b => b.2 ≤ a.2) →
    (insertClosest bin dot l).Pairwise (fun a b => b.2 ≤ a.2) ∧
    (∀ c, c ∈ l ∨ c = (bin, dot) → c ∈ insertClosest bin dot l ∨ ∀ d ∈ insertClosest bin dot l, c.2 ≤ d.2) := by
  intro l
  induction l with
  | nil =>
    intro _
    exact ⟨List.Pairwise.nil, fun c _ => Or.inr (fun d h => by cases h)⟩
  | cons a l ih =>
    intro hp
    obtain ⟨h1, h2⟩ := List.pairwise_cons.1 hp
    obtain ⟨ih1, ih2⟩ := ih h2
    unfold insertClosest
    split_ifs with hlt
    · have hsub : ((a :: l).dropLast).Sublist (a :: l) := List.dropLast_sublist _
      have hle : ∀ c ∈ a :: l, c.2 ≤ a.2 := by
        intro c hc
        rcases List.mem_cons.1 hc with h | h
        · rw [h]
        · exact h1 c h
      constructor
      · rw [List.pairwise_cons]
        refine ⟨fun c hc => ?_, hp.sublist hsub⟩
        have := hle c (hsub.subset hc)
        simp only
        linarith
      · rintro c (hc | hc)
        · -- is it the last one?
          have hne : a :: l ≠ [] := by simp
          rw [← List.dropLast_append_getLast hne, List.mem_append, List.mem_singleton] at hc
          rcases hc with hc | hc
          · exact Or.inl (by simp [hc])
          · right
            intro d hd
            rcases List.mem_cons.1 hd with hd | hd
            · rw [hd]
              have := hle c (by rw [hc]; exact List.getLast_mem hne)
              simp only
              linarith
            · rw [hc]
              have hq : ((a :: l).dropLast ++ [(a :: l).getLast hne]).Pairwise (fun a b => b.2 ≤ a.2) := by
                rw [List.dropLast_append_getLast hne]; exact hp
              exact (List.pairwise_append.1 hq).2.2 d hd _ (by simp)
        · left; simp [hc]
    · rw [not_lt] at hlt
      constructor
      · rw [List.pairwise_cons]
        refine ⟨fun c hc => ?_, ih1⟩
        rcases insertClosest_mem bin dot l c hc with h | h
        · rw [h]; exact hlt
        · exact h1 c h
      · rintro c (hc | hc)
        · rcases List.mem_cons.1 hc with hc | hc
          · left; simp [hc]
          · rcases ih2 c (Or.inl hc) with h | h
            · left; simp [h]
            · right
              intro d hd
              rcases List.mem_cons.1 hd with hd | hd
              · rw [hd]; exact h1 c hc
              · exact h d hd
        · rcases ih2 c (Or.inr hc) with h | h
          · left; simp [h]
          · right
            intro d hd
            rcases List.mem_cons.1 hd with hd | hd
            · rw [hd, hc]; exact hlt
            · exact h d hd

/-- Two entries that are not placeholders are different bins. -/
private def Different (a b : ℕ × ℝ) : Prop := a.1 ≠ b.1 ∨ a = (0, -1) ∨ b = (0, -1)

private theorem insertClosest_different (bin : ℕ) (dot : ℝ) : ∀ l : List (ℕ × ℝ), l.Pairwise Different →
    (∀ c ∈ l, c.1 ≠ bin ∨ c = (0, -1)) → (insertClosest bin dot l).Pairwise Different := by
  intro l
  induction l with
  | nil => intro _ _; exact List.Pairwise.nil
  | cons a l ih =>
    intro hp hne
    unfold insertClosest
    split_ifs
    · rw [List.pairwise_cons]
      refine ⟨fun c hc => ?_, hp.sublist (List.dropLast_sublist _)⟩
      rcases hne c (List.mem_of_mem_dropLast hc) with h | h
      · exact Or.inl (Ne.symm h)
      · exact Or.inr (Or.inr h)
    · obtain ⟨h1, h2⟩ := List.pairwise_cons.1 hp
      rw [List.pairwise_cons]
      refine ⟨fun c hc => ?_, ih h2 (fun c hc => hne c (by simp [hc]))⟩
      rcases insertClosest_mem bin dot l c hc with h | h
      · rw [h]
        rcases hne a (by simp) with h | h
        · exact Or.inl h
        · exact Or.inr (Or.inl h)
      · exact h1 c h

/-- The state of the search after some bins. -/
private structure Searched (dir : ℕ → V3 ℝ) (sun : V3 ℝ) (n : ℕ) (l : List (ℕ × ℝ)) : Prop where
  length : l.length = 4
  sorted : l.Pairwise (fun a b => b.2 ≤ a.2)
  different : l.Pairwise Different
  real : ∀ c ∈ l, c = (0, -1) ∨ c.1 < n ∧ c.2 = (dir c.1).dot sun
  complete : ∀ b < n, (b, (dir b).dot sun) ∈ l ∨ ∀ c ∈ l, (dir b).dot sun ≤ c.2

private theorem closestLoop_spec {r : Reinhart.Sky} {angle : ℕ → ℝ} {dir : ℕ → V3 ℝ} (hb : Spec.Bins r angle dir)
    (sun : V3 ℝ) : ∀ (k n : ℕ) (l : List (ℕ × ℝ)), n + k = r.nBins → Searched dir sun n l →
    ∃ l', closestLoop r sun (List.range' n k) l = .ok l' ∧ Searched dir sun r.nBins l' := by
  intro k
  induction k with
  | zero =>
    intro n l hn hs
    have : n = r.nBins := by omega
    subst this
    exact ⟨l, rfl, hs⟩
  | succ k ih =>
    intro n l hn hs
    rw [List.range'_succ]
    unfold closestLoop
    rw [(hb.dir n (by omega)).1]
    simp only [Outcome.bind]
    apply ih (n + 1) _ (by omega)
    obtain ⟨h1, h2⟩ := insertClosest_spec n ((dir n).dot sun) l hs.sorted
    refine ⟨by rw [insertClosest_length, hs.length], h1, insertClosest_different _ _ _ hs.different ?_, ?_, ?_⟩
    · intro c hc
      rcases hs.real c hc with h | h
      · exact Or.inr h
      · left; omega
    · intro c hc
      rcases insertClosest_mem _ _ _ _ hc with h | h
      · right; rw [h]; exact ⟨by simp, rfl⟩
      · rcases hs.real c h with h | h
        · exact Or.inl h
        · exact Or.inr ⟨by omega, h.2⟩
    · intro b hbn
      by_cases hbe : b = n
      · subst hbe
        rcases h2 (b, (dir b).dot sun) (Or.inr rfl) with h | h
        · exact Or.inl h
        · exact Or.inr h
      · rcases hs.complete b (by omega) with h | h
        · rcases h2 _ (Or.inl h) with h | h
          · exact Or.inl h
          · exact Or.inr h
        · right
          -- every entry is at least as close as one there was
          intro d hd
          rcases insertClosest_mem _ _ _ _ hd with he | he
          · -- it went in, so it is closer than some entry
            rw [he]
            by_contra hcon
            rw [not_le] at hcon
            have : ∀ l : List (ℕ × ℝ), (∀ c ∈ l, (dir n).dot sun < c.2) →
                (n, (dir n).dot sun) ∈ insertClosest n ((dir n).dot sun) l → False := by
              intro l
              induction l with
              | nil => intro _ h; cases h
              | cons a l ihl =>
                intro hall hm
                unfold insertClosest at hm
                have ha := hall a (by simp)
                rw [if_neg (not_lt.2 ha.le)] at hm
                rcases List.mem_cons.1 hm with hm | hm
                · rw [← hm] at ha; exact lt_irrefl _ ha
                · exact ihl (fun c hc => hall c (by simp [hc])) hm
            exact this l (fun c hc => lt_of_lt_of_le hcon (h c hc)) (he ▸ hd)
          · exact h d he

private theorem dot_le_one {a b : V3 ℝ} (ha : a.lengthSquared = 1) (hb : b.lengthSquared = 1) : a.dot b ≤ 1 := by
  unfold V3.lengthSquared at ha hb
  unfold V3.dot
  nlinarith [sq_nonneg (a.x - b.x), sq_nonneg (a.y - b.y), sq_nonneg (a.z - b.z)]

private theorem dot_gt {a b : V3 ℝ} (ha : a.lengthSquared = 1) (hb : b.lengthSquared = 1) (hz : 0 < a.z + b.z) :
    -1 < a.dot b := by
  unfold V3.lengthSquared at ha hb
  unfold V3.dot
  nlinarith [sq_nonneg (a.x + b.x), sq_nonneg (a.y + b.y), mul_pos hz hz]

/-- The bins of the sky point to the sky. -/
private theorem dir_up {mf : ℕ} {r : Reinhart.Sky} {angle : ℕ → ℝ} {dir : ℕ → V3 ℝ} (hr : Reinhart.new mf = .ok r)
    (hb : Spec.Bins r angle dir) (b : ℕ) (h0 : 0 < b) (h1 : b < r.nBins) : 0 < (dir b).z :=
  Reinhart.binDir_up mf b r (dir b) hr h0 h1 (hb.dir b h1).1

/-- The search keeps four bins of the sky, none of which is one of the values that it starts with. -/
private theorem closestBins_spec {mf : ℕ} {r : Reinhart.Sky} {angle : ℕ → ℝ} {dir : ℕ → V3 ℝ}
    (hr : Reinhart.new mf = .ok r) (hb : Spec.Bins r angle dir) {sun : V3 ℝ} (hs : sun.lengthSquared = 1)
    (hz : 0 ≤ sun.z) :
    ∃ l, closestBins r sun = .ok l ∧ l.length = 4 ∧ l.Pairwise (fun a b => a.1 ≠ b.1) ∧
      (∀ c ∈ l, c.1 < r.nBins ∧ c.2 = (dir c.1).dot sun) ∧
      ∀ b < r.nBins, (∀ c ∈ l, c.1 ≠ b) → ∀ c ∈ l, (dir b).dot sun ≤ c.2 := by
  have hbig : 5 < r.nBins := by
    have h0 : 0 < mf := by
      by_contra h
      rw [(Reinhart.C36_count mf).2 (by omega)] at hr
      cases hr
    obtain ⟨s, e1, e2, e3⟩ := (Reinhart.C36_count mf).1 h0
    rw [hr] at e1
    cases e1
    nlinarith
  have hstart : Searched dir sun 0 [(0, -1), (0, -1), (0, -1), (0, -1)] := by
    refine ⟨rfl, by simp, by simp [Different], ?_, fun b h => absurd h (by omega)⟩
    intro c hc
    left
    simpa using hc
  obtain ⟨l, e, hl⟩ := closestLoop_spec hb sun r.nBins 0 _ (by omega) hstart
  rw [← List.range_eq_range'] at e
  have hno : ∀ c ∈ l, c ≠ (0, -1) := by
    intro c hc he
    rw [he] at hc
    have hin : ∀ b, 0 < b → b < r.nBins → (b, (dir b).dot sun) ∈ l := by
      intro b h0 h1
      rcases hl.complete b h1 with h | h
      · exact h
      · have := h _ hc
        have h2 := dot_gt (hb.dir b h1).2 hs (by have := dir_up hr hb b h0 h1; linarith)
        simp only at this
        linarith
    have hsub : (Finset.range 5).image (fun b => if b = 0 then ((0 : ℕ), (-1 : ℝ)) else (b, (dir b).dot sun)) ⊆ l.toFinset := by
      intro x hx
      rw [Finset.mem_image] at hx
      obtain ⟨b, h1, h2⟩ := hx
      rw [List.mem_toFinset, ← h2]
      by_cases h0 : b = 0
      · rw [if_pos h0]; exact hc
      · rw [if_neg h0]; exact hin b (by omega) (by have := Finset.mem_range.1 h1; omega)
    have h1 := Finset.card_le_card hsub
    rw [Finset.card_image_of_injOn, Finset.card_range] at h1
    · have := List.toFinset_card_le l
      rw [hl.length] at this
      omega
    · intro a _ b _ hab
      simp only at hab
      have hfst : ∀ b : ℕ, (if b = 0 then ((0 : ℕ), (-1 : ℝ)) else (b, (dir b).dot sun)).1 = b := by
        intro b
        split_ifs with h
        · exact h.symm
        · rfl
      have := congrArg Prod.fst hab
      rwa [hfst, hfst] at this
  have hreal : ∀ c ∈ l, c.1 < r.nBins ∧ c.2 = (dir c.1).dot sun :=
    fun c hc => (hl.real c hc).resolve_left (hno c hc)
  refine ⟨l, e, hl.length, ?_, hreal, ?_⟩
  · refine hl.different.imp_of_mem ?_
    intro a b ha hb' hd
    rcases hd with h | h | h
    · exact h
    · exact absurd h (hno a ha)
    · exact absurd h (hno b hb')
  · intro b h1 h2
    rcases hl.complete b h1 with h | h
    · exact absurd rfl (h2 _ h)
    · exact h

private theorem sunPart_not (angle : ℕ → ℝ) (dirIllum total : ℝ) (b : ℕ) : ∀ l : List (ℕ × ℝ), (∀ c ∈ l, c.1 ≠ b) →
    sunPart angle dirIllum total l b = 0 := by
  intro l
  induction l with
  | nil => intro _; simp [sunPart]
  | cons c l ih =>
    intro h
    have := ih (fun c hc => h c (by simp [hc]))
    unfold sunPart at this ⊢
    rw [List.map_cons, List.sum_cons, this, if_neg (fun e => h c (by simp) e.symm), add_zero]

private theorem sunPart_mem (angle : ℕ → ℝ) (dirIllum total : ℝ) : ∀ l : List (ℕ × ℝ), l.Pairwise (fun a b => a.1 ≠ b.1) →
    ∀ c ∈ l, sunPart angle dirIllum total l c.1 = weight c * dirIllum / (179 * total) / angle c.1 := by
  intro l
  induction l with
  | nil => intro _ c hc; cases hc
  | cons a l ih =>
    intro hp c hc
    obtain ⟨h1, h2⟩ := List.pairwise_cons.1 hp
    have hsplit : ∀ b, sunPart angle dirIllum total (a :: l) b =
        (if b = a.1 then weight a * dirIllum / (179 * total) / angle a.1 else 0) + sunPart angle dirIllum total l b := by
      intro b; simp [sunPart]
    rw [hsplit]
    rcases List.mem_cons.1 hc with h | h
    · rw [h, if_pos rfl, sunPart_not _ _ _ _ _ (fun c hc => (h1 c hc).symm), add_zero]
    · rw [if_neg (fun e => h1 c h e.symm), zero_add, ih h2 c h]

private theorem foldl_weight : ∀ (l : List (ℕ × ℝ)) (acc : ℝ), l.foldl (fun acc c => acc + weight c) acc = acc + (l.map weight).sum := by
  intro l
  induction l with
  | nil => intro acc; simp
  | cons c l ih => intro acc; rw [List.foldl_cons, ih, List.map_cons, List.sum_cons, add_assoc]

private theorem weight_pos {c : ℕ × ℝ} (h : c.2 ≤ 1) : 0 < weight c := by
  unfold weight
  apply div_pos one_pos
  linarith

private theorem weight_sum_pos : ∀ l : List (ℕ × ℝ), l ≠ [] → (∀ c ∈ l, c.2 ≤ 1) → 0 < (l.map weight).sum := by
  intro l
  induction l with
  | nil => intro h; exact absurd rfl h
  | cons c l ih =>
    intro _ h
    rw [List.map_cons, List.sum_cons]
    have h1 := weight_pos (h c (by simp))
    by_cases hl : l = []
    · rw [hl]; simpa using h1
    · exact add_pos h1 (ih hl (fun c hc => h c (by simp [hc])))

/-- C39: a sun above the horizon adds its radiance to four different bins, which are the four nearest to it; the
closer of two takes at least as much of it; and weighted by the solid angles the radiance added makes exactly the
direct normal irradiance given, `dirIllum / 179`.  What is added does not depend on the vector. -/
theorem C39_suns (mf : ℕ) (r : Reinhart.Sky) (angle : ℕ → ℝ) (dir : ℕ → V3 ℝ) (sun : V3 ℝ) (dirIllum : ℝ)
    (hr : Reinhart.new mf = .ok r) (hb : Spec.Bins r angle dir) (hs : sun.lengthSquared = 1) (hz : 0 ≤ sun.z) :
    ∃ (near : List ℕ) (f : ℕ → ℝ), near.length = 4 ∧ near.Nodup ∧
      (∀ b ∈ near, b < r.nBins ∧ ∀ b' < r.nBins, b' ∉ near → (dir b').dot sun ≤ (dir b).dot sun) ∧
      (∀ b ∉ near, f b = 0) ∧
      (0 < dirIllum → ∀ b ∈ near, 0 < f b) ∧
      (0 ≤ dirIllum → ∀ b ∈ near, ∀ b' ∈ near, (dir b').dot sun ≤ (dir b).dot sun → f b' * angle b' ≤ f b * angle b) ∧
      ∑ b ∈ Finset.range r.nBins, f b * angle b = dirIllum / 179 ∧
      ∀ v : List ℝ, v.length = r.nBins → ∃ v', addSun r sun dirIllum v = .ok v' ∧ Spec.Adds v v' f := by
  obtain ⟨l, e, h1, h2, h3, h4⟩ := closestBins_spec hr hb hs hz
  have hle : ∀ c ∈ l, c.2 ≤ 1 := by
    intro c hc
    rw [(h3 c hc).2]
    exact dot_le_one (hb.dir c.1 (h3 c hc).1).2 hs
  have hlrev : ∀ c ∈ l.reverse, c.1 < r.nBins := fun c hc => (h3 c (List.mem_reverse.1 hc)).1
  have htot : l.reverse.foldl (fun acc c => acc + weight c) 0 = (l.map weight).sum := by
    rw [foldl_weight, zero_add, List.map_reverse, List.sum_reverse]
  have hpos : 0 < (l.map weight).sum := weight_sum_pos l (by intro h; rw [h] at h1; simp at h1) hle
  have hprev : l.reverse.Pairwise (fun a b => a.1 ≠ b.1) :=
    List.pairwise_reverse.2 (h2.imp fun h => Ne.symm h)
  have hf : ∀ c ∈ l, sunPart angle dirIllum (l.map weight).sum l.reverse c.1 =
      weight c * dirIllum / (179 * (l.map weight).sum) / angle c.1 :=
    fun c hc => sunPart_mem _ _ _ _ hprev c (List.mem_reverse.2 hc)
  refine ⟨l.map Prod.fst, sunPart angle dirIllum (l.map weight).sum l.reverse, by simp [h1], ?_, ?_, ?_, ?_, ?_, ?_, ?_⟩
  · exact List.pairwise_map.2 h2
  · intro b hbm
    obtain ⟨c, hc, rfl⟩ := List.mem_map.1 hbm
    refine ⟨(h3 c hc).1, fun b' hb' hn => ?_⟩
    rw [← (h3 c hc).2]
    exact h4 b' hb' (fun d hd he => hn (List.mem_map.2 ⟨d, hd, he⟩)) c hc
  · intro b hbn
    apply sunPart_not
    intro c hc he
    exact hbn (List.mem_map.2 ⟨c, List.mem_reverse.1 hc, he⟩)
  · intro hd b hbm
    obtain ⟨c, hc, rfl⟩ := List.mem_map.1 hbm
    rw [hf c hc]
    have := (hb.angle c.1 (h3 c hc).1).2
    have := weight_pos (hle c hc)
    positivity
  · intro hd b hbm b' hbm' hdot
    obtain ⟨c, hc, rfl⟩ := List.mem_map.1 hbm
    obtain ⟨c', hc', rfl⟩ := List.mem_map.1 hbm'
    rw [hf c hc, hf c' hc', div_mul_cancel₀ _ (hb.angle c.1 (h3 c hc).1).2.ne',
      div_mul_cancel₀ _ (hb.angle c'.1 (h3 c' hc').1).2.ne']
    rw [← (h3 c hc).2, ← (h3 c' hc').2] at hdot
    have hw : weight c' ≤ weight c := by
      unfold weight
      apply one_div_le_one_div_of_le <;> linarith [hle c hc]
    apply div_le_div_of_nonneg_right _ (by positivity)
    exact mul_le_mul_of_nonneg_right hw hd
  · rw [sunPart_energy hb _ _ _ hlrev, List.map_reverse, List.sum_reverse]
    field_simp
  · intro v hv
    unfold addSun
    rw [e]
    simp only [Outcome.bind]
    rw [htot]
    exact addSuns_adds hb _ _ _ _ hlrev hv

/-- C39: the radiance added to the ground, over half a sphere, is what the ground reflects of the global
horizontal irradiance; it goes nowhere else. -/
theorem C39_ground (albedo cosZenith diffIllum dirIllum : ℝ) (ha : 1 / 10 ^ 8 < albedo) :
    ∃ ground, Real.pi * ground = albedo * (diffIllum + dirIllum * max cosZenith 0) / 179 ∧
      ∀ v : List ℝ, v ≠ [] → ∃ v', addGround albedo cosZenith diffIllum dirIllum v = .ok v' ∧
        Spec.Adds v v' (fun b => if b = 0 then ground else 0) := by
  refine ⟨albedo * (if 0 < cosZenith then diffIllum + dirIllum * cosZenith else diffIllum) / Real.pi / 179, ?_, ?_⟩
  · have hp := Real.pi_pos
    rw [show Real.pi * (albedo * (if 0 < cosZenith then diffIllum + dirIllum * cosZenith else diffIllum) / Real.pi / 179) =
      albedo * (if 0 < cosZenith then diffIllum + dirIllum * cosZenith else diffIllum) / 179 by field_simp]
    split_ifs with h
    · rw [max_eq_left h.le]
    · rw [max_eq_right (not_lt.1 h), mul_zero, add_zero]
  · intro v hv
    unfold addGround
    rw [if_pos ha]
    exact addTo_adds _ (List.length_pos_iff.2 hv)

/-! ## The sky -/

theorem normLoop_eq {r : Reinhart.Sky} {angle : ℕ → ℝ} {dir : ℕ → V3 ℝ} (hb : Spec.Bins r angle dir)
    (relative : V3 ℝ → ℝ) : ∀ (k n : ℕ) (acc : ℝ), n + k ≤ r.nBins →
    normLoop r relative (List.range' n k) acc =
      .ok (acc + ∑ i ∈ Finset.range k, max (relative (dir (n + i))) 0 * angle (n + i) * (dir (n + i)).z) := by
  intro k
  induction k with
  | zero => intro n acc _; simp [normLoop]
  | succ k ih =>
    intro n acc h
    rw [List.range'_succ]
    unfold normLoop
    rw [(hb.dir n (by omega)).1, (hb.angle n (by omega)).1]
    simp only [Outcome.bind]
    rw [ih (n + 1) _ (by omega), Finset.sum_range_succ', add_zero]
    congr 1
    have : (if relative (dir n) < 0 then 0 else relative (dir n)) = max (relative (dir n)) 0 := by
      split_ifs with h
      · rw [max_eq_right h.le]
      · rw [max_eq_left (not_lt.1 h)]
    rw [this]
    have h2 : ∀ i, n + 1 + i = n + (i + 1) := fun i => by omega
    simp only [h2]
    ring

private theorem addSkyLoop_adds {r : Reinhart.Sky} {angle : ℕ → ℝ} {dir : ℕ → V3 ℝ} (hb : Spec.Bins r angle dir)
    (sky : V3 ℝ → ℝ) : ∀ (k n : ℕ) (v : List ℝ), n + k ≤ r.nBins → v.length = r.nBins →
    ∃ v', addSkyLoop r sky (List.range' n k) v = .ok v' ∧
      Spec.Adds v v' (fun b => if n ≤ b ∧ b < n + k then sky (dir b) else 0) := by
  intro k
  induction k with
  | zero =>
    intro n v _ _
    refine ⟨v, rfl, rfl, fun b _ => ?_⟩
    rw [if_neg (by omega), add_zero]
  | succ k ih =>
    intro n v h hv
    rw [List.range'_succ]
    unfold addSkyLoop
    rw [(hb.dir n (by omega)).1]
    simp only [Outcome.bind]
    obtain ⟨v1, e1, a1⟩ := addTo_adds (sky (dir n)) (show n < v.length by omega)
    rw [e1]
    simp only
    obtain ⟨v2, e2, a2⟩ := ih (n + 1) v1 (by omega) (by rw [a1.length, hv])
    have := adds_trans a1 a2
    refine ⟨v2, e2, this.length, fun b hb => ?_⟩
    rw [this.value b hb]
    congr 1
    by_cases hbn : b = n
    · rw [if_pos hbn, if_neg (by omega), if_pos (by omega), hbn, add_zero]
    · rw [if_neg hbn, zero_add]
      by_cases hin : n + 1 ≤ b ∧ b < n + 1 + k
      · rw [if_pos hin, if_pos (by omega)]
      · rw [if_neg hin, if_neg (by omega)]

/-- C39: when the relative radiance of the bins of the sky is not negative and the sky is not dark, the horizontal irradiance
that the sky of 145 bins gives is exactly the diffuse one given, `diffIllum / 179`, and the radiance is a multiple of
the relative one. -/
theorem C39_sky_partial (r : Reinhart.Sky) (angle : ℕ → ℝ) (dir : ℕ → V3 ℝ) (relative : V3 ℝ → ℝ) (diffIllum : ℝ)
    (hr : Reinhart.new 1 = .ok r) (hb : Spec.Bins r angle dir)
    (hpos : ∀ b, 1 ≤ b → b < r.nBins → 0 ≤ relative (dir b))
    (hdark : 1 / 10 ^ 4 < ∑ b ∈ Finset.Ico 1 r.nBins, relative (dir b) * angle b * (dir b).z) :
    ∃ sky, skyFunction relative diffIllum = .ok sky ∧ (∃ k, (0 < diffIllum → 0 < k) ∧ (0 ≤ diffIllum → 0 ≤ k) ∧ ∀ d, sky d = relative d * k) ∧
      ∑ b ∈ Finset.Ico 1 r.nBins, sky (dir b) * angle b * (dir b).z = diffIllum / 179 := by
  have hn : 1 + (r.nBins - 1) = r.nBins := by
    obtain ⟨s, e1, e2, e3⟩ := (Reinhart.C36_count 1).1 one_pos
    rw [hr] at e1
    cases e1
    omega
  have hsum : 0 + ∑ i ∈ Finset.range (r.nBins - 1), max (relative (dir (1 + i))) 0 * angle (1 + i) * (dir (1 + i)).z =
      ∑ b ∈ Finset.Ico 1 r.nBins, relative (dir b) * angle b * (dir b).z := by
    rw [zero_add, Finset.sum_Ico_eq_sum_range]
    refine Finset.sum_congr rfl fun i hi => ?_
    rw [Finset.mem_range] at hi
    rw [max_eq_left (hpos _ (by omega) (by omega))]
  unfold skyFunction
  rw [hr]
  simp only [Outcome.bind]
  rw [normLoop_eq hb relative _ _ _ hn.le]
  simp only
  rw [hsum, if_pos hdark]
  have hp : 0 < ∑ b ∈ Finset.Ico 1 r.nBins, relative (dir b) * angle b * (dir b).z := lt_trans (by norm_num) hdark
  refine ⟨_, rfl, ⟨_, fun hd => ?_, fun hd => ?_, fun d => rfl⟩, ?_⟩
  · positivity
  · positivity
  · generalize hS : ∑ b ∈ Finset.Ico 1 r.nBins, relative (dir b) * angle b * (dir b).z = S at hp
    rw [Finset.sum_congr rfl (fun b _ => show relative (dir b) * (diffIllum / (S * 179)) * angle b * (dir b).z =
      (diffIllum / (S * 179)) * (relative (dir b) * angle b * (dir b).z) by ring), ← Finset.mul_sum, hS]
    field_simp

/-! ## Updates -/

private theorem skyFunction_ok (relative : V3 ℝ → ℝ) (diffIllum : ℝ) : ∃ sky, skyFunction relative diffIllum = .ok sky := by
  obtain ⟨r, hr, e2, e3⟩ := (Reinhart.C36_count 1).1 one_pos
  obtain ⟨angle, dir, hb⟩ := bins_exist hr
  unfold skyFunction
  rw [hr]
  simp only [Outcome.bind]
  rw [normLoop_eq hb relative _ _ _ (by omega)]
  exact ⟨_, rfl⟩

/-- C39: by day, an update adds to the vector given something that does not depend on it, and that is the vector
that is generated for the same inputs. -/
theorem C39_update (mf : ℕ) (sun : V3 ℝ) (diffuse direct diffIllum dirIllum albedo : ℝ) (relative : V3 ℝ → ℝ)
    (addSky addSun : Bool) (hmf : 0 < mf) (hs : sun.lengthSquared = 1) (hz : 0 ≤ sun.z)
    (hday : 1 / 10 ^ 4 ≤ direct + diffuse) :
    ∃ g, genSkyVec mf (some sun) diffuse direct diffIllum dirIllum albedo relative addSky addSun = .ok g ∧
      g.length = 144 * mf ^ 2 + 2 ∧
      ∀ v : List ℝ, v.length = g.length → ∃ v',
        updateSkyVec mf (some sun) diffuse direct diffIllum dirIllum albedo relative addSky addSun v = .ok v' ∧
        Spec.Adds v v' (fun b => g.getD b 0) := by
  obtain ⟨r, hr, hn, -⟩ := (Reinhart.C36_count mf).1 hmf
  obtain ⟨angle, dir, hb⟩ := bins_exist hr
  have hmain : ∃ f : ℕ → ℝ, ∀ v : List ℝ, v.length = r.nBins → ∃ v',
      updateSkyVec mf (some sun) diffuse direct diffIllum dirIllum albedo relative addSky addSun v = .ok v' ∧
      Spec.Adds v v' f := by
    -- the ground
    have hg : ∃ f : ℕ → ℝ, ∀ v : List ℝ, v.length = r.nBins → ∃ v',
        addGround albedo sun.z diffIllum dirIllum v = .ok v' ∧ Spec.Adds v v' f := by
      by_cases ha : 1 / 10 ^ 8 < albedo
      · obtain ⟨ground, -, h⟩ := C39_ground albedo sun.z diffIllum dirIllum ha
        exact ⟨_, fun v hv => h v (by intro h; rw [h] at hv; simp at hv; omega)⟩
      · refine ⟨fun _ => 0, fun v _ => ⟨v, ?_, adds_refl v⟩⟩
        unfold addGround
        rw [if_neg ha]
    -- the sky
    have hk : ∃ f : ℕ → ℝ, ∀ v : List ℝ, v.length = r.nBins → ∃ v',
        (if addSky then
            (skyFunction relative diffIllum).bind fun sky => addSkyLoop r sky (List.range' 1 (r.nBins - 1)) v
          else .ok v) = .ok v' ∧ Spec.Adds v v' f := by
      cases addSky with
      | false => exact ⟨fun _ => 0, fun v _ => ⟨v, rfl, adds_refl v⟩⟩
      | true =>
        obtain ⟨sky, e⟩ := skyFunction_ok relative diffIllum
        refine ⟨fun b => if 1 ≤ b ∧ b < 1 + (r.nBins - 1) then sky (dir b) else 0, fun v hv => ?_⟩
        obtain ⟨v', e', h'⟩ := addSkyLoop_adds hb sky (r.nBins - 1) 1 v (by omega) hv
        refine ⟨v', ?_, h'⟩
        rw [if_pos rfl, e]
        exact e'
    -- the suns
    have hu : ∃ f : ℕ → ℝ, ∀ v : List ℝ, v.length = r.nBins → ∃ v',
        (if addSun ∧ 1 / 10 ^ 4 < direct then Perez.addSun r sun dirIllum v else .ok v) = .ok v' ∧ Spec.Adds v v' f := by
      by_cases ha : addSun ∧ 1 / 10 ^ 4 < direct
      · obtain ⟨-, f, -, -, -, -, -, -, -, h⟩ := C39_suns mf r angle dir sun dirIllum hr hb hs hz
        refine ⟨f, fun v hv => ?_⟩
        rw [if_pos ha]
        exact h v hv
      · exact ⟨fun _ => 0, fun v _ => ⟨v, by rw [if_neg ha], adds_refl v⟩⟩
    obtain ⟨f1, h1⟩ := hg
    obtain ⟨f2, h2⟩ := hk
    obtain ⟨f3, h3⟩ := hu
    refine ⟨fun b => f1 b + f2 b + f3 b, fun v hv => ?_⟩
    obtain ⟨v1, e1, a1⟩ := h1 v hv
    obtain ⟨v2, e2, a2⟩ := h2 v1 (by rw [a1.length, hv])
    obtain ⟨v3, e3, a3⟩ := h3 v2 (by rw [a2.length, a1.length, hv])
    refine ⟨v3, ?_, adds_trans (adds_trans a1 a2) a3⟩
    unfold updateSkyVec
    rw [hr]
    simp only [Outcome.bind]
    rw [if_neg (by simpa using hv), if_neg (not_lt.2 hday), e1]
    simp only
    simp only [Outcome.bind] at e2
    rw [e2]
    exact e3
  obtain ⟨f, hf⟩ := hmain
  obtain ⟨g, e, hg⟩ := hf (List.replicate r.nBins 0) (by simp)
  have hl : g.length = r.nBins := by rw [hg.length]; simp
  have hgf : ∀ b < r.nBins, g.getD b 0 = f b := by
    intro b hbn
    rw [hg.value b (by simpa using hbn), List.getD_eq_getElem?_getD, List.getElem?_replicate, if_pos hbn]
    simp
  refine ⟨g, ?_, by rw [hl, hn], fun v hv => ?_⟩
  · unfold genSkyVec
    rw [hr]
    exact e
  · rw [hl] at hv
    obtain ⟨v', e', h'⟩ := hf v hv
    refine ⟨v', e', h'.length, fun b hbv => ?_⟩
    rw [h'.value b hbv, hgf b (by omega)]

/-- C39, at night: an update gives zeroes whatever the vector was. -/
theorem C39_night (mf : ℕ) (sun : Option (V3 ℝ)) (diffuse direct diffIllum dirIllum albedo : ℝ)
    (relative : V3 ℝ → ℝ) (addSky addSun : Bool) (v : List ℝ) (hmf : 0 < mf) (hv : v.length = 144 * mf ^ 2 + 2)
    (hnight : sun = none ∨ direct + diffuse < 1 / 10 ^ 4) :
    updateSkyVec mf sun diffuse direct diffIllum dirIllum albedo relative addSky addSun v =
      .ok (List.replicate (144 * mf ^ 2 + 2) 0) := by
  obtain ⟨r, hr, hn, -⟩ := (Reinhart.C36_count mf).1 hmf
  have hz : v.map (fun _ => (0 : ℝ)) = List.replicate (144 * mf ^ 2 + 2) 0 := by rw [List.map_const', hv]
  unfold updateSkyVec
  rw [hr]
  simp only [Outcome.bind]
  rw [if_neg (by rw [hv, hn]; simp)]
  rcases hnight with h | h
  · rw [h]
    simp only
    rw [hz]
    split_ifs <;> rfl
  · rw [if_pos h, hz]

/-- C39 fails: computing the sky vector twice in the same place, for a day with a sun, does not give the same
vector: the second time there is twice the light of the ground. -/
theorem C39_violated_twice :
    ∃ v v' v'' : List ℝ,
      genSkyVec 1 (some ⟨0, 0, 1⟩) 100 500 17900 89500 (1 / 5) (fun _ => 1) false false = .ok v ∧
      updateSkyVec 1 (some ⟨0, 0, 1⟩) 100 500 17900 89500 (1 / 5) (fun _ => 1) false false
        (List.replicate 146 0) = .ok v' ∧ v' = v ∧
      updateSkyVec 1 (some ⟨0, 0, 1⟩) 100 500 17900 89500 (1 / 5) (fun _ => 1) false false v' = .ok v'' ∧
      v'' ≠ v := by
  obtain ⟨r, hr, hn, -⟩ := (Reinhart.C36_count 1).1 one_pos
  have hu : ∀ v : List ℝ, v.length = 146 →
      updateSkyVec 1 (some ⟨0, 0, 1⟩) 100 500 17900 89500 (1 / 5) (fun _ => 1) false false v =
        addTo v 0 (1 / 5 * (17900 + 89500 * 1) / Real.pi / 179) := by
    intro v hv
    unfold updateSkyVec addGround
    rw [hr]
    simp only [Outcome.bind]
    rw [if_neg (by rw [hv, hn]; simp), if_neg (by norm_num), if_pos (by norm_num), if_pos one_pos]
    cases addTo v 0 (1 / 5 * (17900 + 89500 * 1) / Real.pi / 179) <;> simp
  have hx : (0 : ℝ) < 1 / 5 * (17900 + 89500 * 1) / Real.pi / 179 := by
    have := Real.pi_pos
    positivity
  obtain ⟨v, e, h⟩ := addTo_adds (v := List.replicate 146 0) (bin := 0) (1 / 5 * (17900 + 89500 * 1) / Real.pi / 179) (by simp)
  have hl : v.length = 146 := by rw [h.length]; simp
  obtain ⟨w, e', h'⟩ := addTo_adds (v := v) (bin := 0) (1 / 5 * (17900 + 89500 * 1) / Real.pi / 179) (by omega)
  refine ⟨v, v, w, ?_, ?_, rfl, ?_, ?_⟩
  · unfold genSkyVec
    rw [hr]
    simp only [Outcome.bind]
    rw [show r.nBins = 146 by rw [hn]; norm_num, hu _ (by simp), e]
  · rw [hu _ (by simp), e]
  · rw [hu _ hl, e']
  · intro hw
    have := h'.value 0 (by omega)
    rw [hw, if_pos rfl] at this
    linarith

/-- A sun half way up to the south, in the sky of 145 patches. -/
example : ∃ (r : Reinhart.Sky) (angle : ℕ → ℝ) (dir : ℕ → V3 ℝ), Reinhart.new 1 = .ok r ∧ Spec.Bins r angle dir ∧
    (⟨0, -(3 / 5), 4 / 5⟩ : V3 ℝ).lengthSquared = 1 ∧ (0 : ℝ) ≤ (⟨0, -(3 / 5), 4 / 5⟩ : V3 ℝ).z := by
  obtain ⟨r, hr, -⟩ := (Reinhart.C36_count 1).1 one_pos
  obtain ⟨angle, dir, hb⟩ := bins_exist hr
  exact ⟨r, angle, dir, hr, hb, by norm_num [V3.lengthSquared], by norm_num⟩

end Simple.Weather.Perez
