import Verif.Render.TracerProps
import Verif.Render.DaylightProps

/-! # C76 and C77: the path of a ray, and the light that it carries -/

namespace Simple.Render.Tracer

open Geometry Materials

namespace Spec

/-- What the path carries when it goes on with the sample `s` from a surface with that normal. -/
noncomputable def after (carried : Spectrum) (normal : V3 ℝ) (s : Sample) : Spectrum :=
  fun i => carried i * (s.spectrum i * |normal.dot s.wi| / s.pdf)

/-- A path of `n` bounces, of which the first is number `d`: each ray hits a surface that is not a light, and the next one
starts where the sample tells, in the direction that was sampled.  A path that carries less than one goes on with that
probability and is made up for those that do not. -/
structure Walk (w : World) (d n : ℕ) (rays : ℕ → Ray ℝ) (carried : ℕ → Spectrum) (specular : ℕ → Bool) (density : ℕ → ℝ) :
    Prop where
  step : ∀ k < n, ∃ hit s point, w.cast (rays k) = some hit ∧ hit.parallel = false ∧ hit.emits = false ∧
    w.sample (d + k) (rays k) = some (s, point) ∧ rays (k + 1) = ⟨point, s.wi⟩ ∧
    1 - (after (carried k) hit.normal s).radiance ≤ w.draw (d + k) ∧
    (∀ i, carried (k + 1) i = after (carried k) hit.normal s i / min 1 (after (carried k) hit.normal s).radiance) ∧
    specular (k + 1) = s.flags.isSpecular ∧ density (k + 1) = s.pdf

/-- The light that comes straight from the lamps to where a ray hits: a mirror has none. -/
noncomputable def lit (w : World) (d : ℕ) (ray : Ray ℝ) : Spectrum :=
  match w.cast ray with
  | some hit => if hit.specularOnly then gray 0 else w.direct d ray
  | none => gray 0

/-- The part of a distant light that counts: all of it for the eye and after a mirror; otherwise the square of one density
over the sum of the squares of both. -/
noncomputable def counted (specular : Bool) (density pdf : ℝ) : ℝ :=
  if specular then 1 else density ^ 2 / (density ^ 2 + pdf ^ 2)

/-- The light that is found at the end of a path. -/
inductive Ends (w : World) (d left : ℕ) (ray : Ray ℝ) (carried : Spectrum) (specular : Bool) (density : ℝ) : Spectrum → Prop
  | outside (h : w.cast ray = none) : Ends w d left ray carried specular density fun i =>
      ((w.distant ray).map fun l => match l with
        | some (colour, pdf) => if 1 / 10 ^ 18 < pdf then counted specular density pdf * colour i else 0
        | none => 0).sum +
      match w.sky with
      | some sky => (match w.skyColour with | some c => c i | none => 1) * sky ray.direction
      | none => 0
  | grazing (hit : Hit) (h : w.cast ray = some hit) (hp : hit.parallel = true) : Ends w d left ray carried specular density (gray 0)
  | light (hit : Hit) (h : w.cast ray = some hit) (hp : hit.parallel = false) (he : hit.emits = true) :
      Ends w d left ray carried specular density (if specular then hit.colour else gray 0)
  | deepest (hit : Hit) (h : w.cast ray = some hit) (hp : hit.parallel = false) (he : hit.emits = false) (hl : left = 0) :
      Ends w d left ray carried specular density (lit w d ray)
  | absorbed (hit : Hit) (h : w.cast ray = some hit) (hp : hit.parallel = false) (he : hit.emits = false)
      (hs : w.sample d ray = none) : Ends w d left ray carried specular density (lit w d ray)
  | stopped (hit : Hit) (s : Sample) (point : V3 ℝ) (h : w.cast ray = some hit) (hp : hit.parallel = false)
      (he : hit.emits = false) (hs : w.sample d ray = some (s, point))
      (hu : w.draw d < 1 - (after carried hit.normal s).radiance) : Ends w d left ray carried specular density (lit w d ray)

end Spec

open Spec

private theorem lit_hit {w : World} {ray : Ray ℝ} {hit : Hit} (h : w.cast ray = some hit) (d : ℕ) (beta : Spectrum) :
    (if hit.specularOnly = true then gray 0 else fun i => beta i * w.direct d ray i) = fun i => beta i * lit w d ray i := by
  unfold lit
  rw [h]
  simp only
  cases hit.specularOnly <;> funext i <;> simp [gray]

private theorem follow_path (w : World) (hd : ∀ d, 0 ≤ w.draw d) : ∀ (left d : ℕ) (ray : Ray ℝ) (p : ℝ) (beta : Spectrum)
    (spec : Bool), (d = 0 → spec = true) →
    ∃ n ≤ left, ∃ (rays : ℕ → Ray ℝ) (carried : ℕ → Spectrum) (specular : ℕ → Bool) (density : ℕ → ℝ),
      rays 0 = ray ∧ carried 0 = beta ∧ specular 0 = spec ∧ density 0 = p ∧ Walk w d n rays carried specular density ∧
      ∃ e, Ends w (d + n) (left - n) (rays n) (carried n) (specular n) (density n) e ∧
        ∀ i, follow w left d ray p beta spec i =
          ∑ k ∈ Finset.range n, carried k i * lit w (d + k) (rays k) i + carried n i * e i := by
  intro left
  -- a path that ends at once
  have stop : ∀ (left d : ℕ) (ray : Ray ℝ) (p : ℝ) (beta : Spectrum) (spec : Bool) (e : Spectrum),
      Ends w d left ray beta spec p e → (∀ i, follow w left d ray p beta spec i = beta i * e i) →
      ∃ n ≤ left, ∃ (rays : ℕ → Ray ℝ) (carried : ℕ → Spectrum) (specular : ℕ → Bool) (density : ℕ → ℝ),
      rays 0 = ray ∧ carried 0 = beta ∧ specular 0 = spec ∧ density 0 = p ∧ Walk w d n rays carried specular density ∧
      ∃ e, Ends w (d + n) (left - n) (rays n) (carried n) (specular n) (density n) e ∧
        ∀ i, follow w left d ray p beta spec i =
          ∑ k ∈ Finset.range n, carried k i * lit w (d + k) (rays k) i + carried n i * e i := by
    intro left d ray p beta spec e h1 h2
    exact ⟨0, Nat.zero_le _, fun _ => ray, fun _ => beta, fun _ => spec, fun _ => p, rfl, rfl, rfl, rfl, ⟨by simp⟩, e, h1,
      by simpa using h2⟩
  have out : ∀ (left d : ℕ) (ray : Ray ℝ) (p : ℝ) (beta : Spectrum) (spec : Bool), (d = 0 → spec = true) →
      w.cast ray = none → ∃ e, Ends w d left ray beta spec p e ∧ ∀ i, follow w left d ray p beta spec i = beta i * e i := by
    intro left d ray p beta spec h0 hc
    refine ⟨_, .outside hc, fun i => ?_⟩
    have hf : follow w left d ray p beta spec i = beta i * outside w ray (decide (d = 0) || spec) p i := by
      unfold follow
      rw [hc]
    have hsp : (decide (d = 0) || spec) = spec := by
      by_cases hz : d = 0
      · simp [hz, h0 hz]
      · simp [hz]
    rw [hf, hsp]
    unfold outside
    congr 2
    · congr 1
      apply List.map_congr_left
      intro l _
      cases l with
      | none => rfl
      | some cp =>
        obtain ⟨c, q⟩ := cp
        unfold seen counted powerHeuristic
        simp only [gt_iff_lt]
        by_cases hq : 1 / 10 ^ 18 < q
        · rw [if_pos hq, if_pos hq]
          cases spec
          · simp only [Bool.false_eq_true, if_false, Nat.cast_one, one_mul]
            rw [sq, sq]
          · simp
        · rw [if_neg hq, if_neg hq]; rfl
    · cases w.sky with
      | none => rfl
      | some sky => cases w.skyColour <;> rfl
  have surf : ∀ (left d : ℕ) (ray : Ray ℝ) (p : ℝ) (beta : Spectrum) (spec : Bool) (hit : Hit), w.cast ray = some hit →
      (hit.parallel = true ∨ hit.emits = true) →
      ∃ e, Ends w d left ray beta spec p e ∧ ∀ i, follow w left d ray p beta spec i = beta i * e i := by
    intro left d ray p beta spec hit hc h
    cases hp : hit.parallel with
    | true =>
      refine ⟨_, .grazing hit hc hp, fun i => ?_⟩
      unfold follow
      rw [hc]
      simp [hp, gray]
    | false =>
      have he : hit.emits = true := by simpa [hp] using h
      refine ⟨_, .light hit hc hp he, fun i => ?_⟩
      unfold follow
      rw [hc]
      cases spec <;> simp [hp, he, gray]
  induction left with
  | zero =>
    intro d ray p beta spec h0
    cases hc : w.cast ray with
    | none =>
      obtain ⟨e, h1, h2⟩ := out 0 d ray p beta spec h0 hc
      exact stop 0 d ray p beta spec e h1 h2
    | some hit =>
      by_cases hh : hit.parallel = true ∨ hit.emits = true
      · obtain ⟨e, h1, h2⟩ := surf 0 d ray p beta spec hit hc hh
        exact stop 0 d ray p beta spec e h1 h2
      · simp only [not_or, Bool.not_eq_true] at hh
        refine stop 0 d ray p beta spec _ (.deepest hit hc hh.1 hh.2 rfl) fun i => ?_
        unfold follow
        rw [hc]
        simp only [hh.1, hh.2, Bool.false_eq_true, if_false, lit_hit hc]
  | succ left ih =>
    intro d ray p beta spec h0
    cases hc : w.cast ray with
    | none =>
      obtain ⟨e, h1, h2⟩ := out (left + 1) d ray p beta spec h0 hc
      exact stop (left + 1) d ray p beta spec e h1 h2
    | some hit =>
      by_cases hh : hit.parallel = true ∨ hit.emits = true
      · obtain ⟨e, h1, h2⟩ := surf (left + 1) d ray p beta spec hit hc hh
        exact stop (left + 1) d ray p beta spec e h1 h2
      · simp only [not_or, Bool.not_eq_true] at hh
        cases hs : w.sample d ray with
        | none =>
          refine stop (left + 1) d ray p beta spec _ (.absorbed hit hc hh.1 hh.2 hs) fun i => ?_
          unfold follow
          rw [hc]
          simp only [hh.1, hh.2, Bool.false_eq_true, if_false, lit_hit hc, hs]
        | some sp =>
          obtain ⟨s, point⟩ := sp
          by_cases hu : w.draw d < 1 - (after beta hit.normal s).radiance
          · refine stop (left + 1) d ray p beta spec _ (.stopped hit s point hc hh.1 hh.2 hs hu) fun i => ?_
            have hr : roulette (fun i => beta i * (s.spectrum i * |hit.normal.dot s.wi| / s.pdf)) (w.draw d) = none := by
              unfold roulette
              simp only
              exact if_pos (lt_max_of_lt_left hu)
            unfold follow
            rw [hc]
            simp only [hh.1, hh.2, Bool.false_eq_true, if_false, lit_hit hc, hs, hr]
          · have hq : 1 - Max.max (1 - (after beta hit.normal s).radiance) 0 = min 1 (after beta hit.normal s).radiance := by
              rcases le_total (after beta hit.normal s).radiance 1 with h | h
              · rw [max_eq_left (by linarith), min_eq_right h]; ring
              · rw [max_eq_right (by linarith), min_eq_left h]; ring
            have hr : roulette (fun i => beta i * (s.spectrum i * |hit.normal.dot s.wi| / s.pdf)) (w.draw d) =
                some fun i => after beta hit.normal s i / min 1 (after beta hit.normal s).radiance := by
              unfold roulette
              simp only
              refine (if_neg (not_lt.2 (max_le (not_lt.1 hu) (hd d)))).trans ?_
              rw [← hq]
              rfl
            obtain ⟨n, hn, rays, carried, specular, density, r0, c0, s0, d0, walk, e, he, hsum⟩ :=
              ih (d + 1) ⟨point, s.wi⟩ s.pdf (fun i => after beta hit.normal s i / min 1 (after beta hit.normal s).radiance)
                s.flags.isSpecular (by simp)
            refine ⟨n + 1, by omega, fun k => match k with | 0 => ray | k + 1 => rays k,
              fun k => match k with | 0 => beta | k + 1 => carried k, fun k => match k with | 0 => spec | k + 1 => specular k,
              fun k => match k with | 0 => p | k + 1 => density k, rfl, rfl, rfl, rfl, ⟨?_⟩, e, ?_, ?_⟩
            · intro k hk
              cases k with
              | zero =>
                refine ⟨hit, s, point, hc, hh.1, hh.2, hs, r0, not_lt.1 hu, fun i => ?_, s0, d0⟩
                simp only [c0]
              | succ k =>
                obtain ⟨hit', s', point', q⟩ := walk.step k (by omega)
                rw [show d + 1 + k = d + (k + 1) by omega] at q
                exact ⟨hit', s', point', q⟩
            · simp only
              rw [show d + (n + 1) = d + 1 + n by omega, show left + 1 - (n + 1) = left - n by omega]
              exact he
            · intro i
              have hf : follow w (left + 1) d ray p beta spec i = beta i * lit w d ray i +
                  follow w left (d + 1) ⟨point, s.wi⟩ s.pdf
                    (fun i => after beta hit.normal s i / min 1 (after beta hit.normal s).radiance) s.flags.isSpecular i := by
                rw [follow, hc]
                simp only [hh.1, hh.2, Bool.false_eq_true, if_false, lit_hit hc, hs, hr]
              rw [hf, hsum i, Finset.sum_range_succ']
              simp only [Nat.add_zero]
              rw [Finset.sum_congr rfl fun k _ => by rw [show d + 1 + k = d + (k + 1) by omega]]
              ring

/-- C76: the light that a ray from the eye finds is, for a path of at most `max_depth` bounces that starts with it and
carries one, the sum of the direct light at each point that it bounces at and of the light at its end, each times what the
path carries there. -/
theorem C76_path (w : World) (hd : ∀ d, 0 ≤ w.draw d) (maxDepth : ℕ) (ray : Ray ℝ) :
    ∃ n ≤ maxDepth, ∃ (rays : ℕ → Ray ℝ) (carried : ℕ → Spectrum) (specular : ℕ → Bool) (density : ℕ → ℝ),
      rays 0 = ray ∧ carried 0 = gray 1 ∧ specular 0 = true ∧ Walk w 0 n rays carried specular density ∧
      ∃ e, Ends w n (maxDepth - n) (rays n) (carried n) (specular n) (density n) e ∧
        ∀ i, traceRay w maxDepth ray i = ∑ k ∈ Finset.range n, carried k i * lit w k (rays k) i + carried n i * e i := by
  obtain ⟨n, hn, rays, carried, specular, density, r0, c0, s0, -, walk, e, he, hsum⟩ :=
    follow_path w hd maxDepth 0 ray 1 (gray 1) true fun _ => rfl
  refine ⟨n, hn, rays, carried, specular, density, r0, c0, s0, walk, e, by simpa using he, ?_⟩
  intro i
  unfold traceRay
  rw [hsum i]
  simp

/-- C76: the eye sees a distant light, and the sky behind it, as bright as they are. -/
theorem C76_straight (w : World) (maxDepth : ℕ) (ray : Ray ℝ) (h : w.cast ray = none) (colour : Spectrum) (pdf : ℝ)
    (hl : w.distant ray = [some (colour, pdf)]) (hp : 1 / 10 ^ 18 < pdf) (sky : V3 ℝ → ℝ) (hs : w.sky = some sky)
    (hc : w.skyColour = none) (i : Fin 3) : traceRay w maxDepth ray i = colour i + sky ray.direction := by
  unfold traceRay follow
  rw [h]
  unfold outside seen
  simp only [hl, hs, hc, List.map_cons, List.map_nil, gt_iff_lt]
  rw [if_pos hp]
  simp [gray]

/-- Such a scene: a sun of brightness 7 in a sky of brightness 2. -/
example : ∃ w : World, ∀ ray, w.cast ray = none ∧ w.distant ray = [some (gray 7, 1)] ∧ w.sky = some (fun _ => 2) ∧
    w.skyColour = none ∧ ∀ i, traceRay w 3 ray i = 9 := by
  refine ⟨⟨fun _ => none, fun _ => [some (gray 7, 1)], some fun _ => 2, none, fun _ _ => gray 0, fun _ _ => none, fun _ => 0⟩,
    fun ray => ⟨rfl, rfl, rfl, rfl, fun i => ?_⟩⟩
  rw [C76_straight _ 3 ray rfl (gray 7) 1 rfl (by norm_num) (fun _ => 2) rfl rfl]
  norm_num [gray]

end Simple.Render.Tracer

namespace Simple.Render.Daylight

open Geometry Materials

namespace Spec

/-- The path of a ray that leaves the scene after `n` bounces, of which the first is number `d`: each ray hits a surface, the
next one starts where the sample tells, in the direction that was sampled, and what the path carries is made up for the
paths that the roulette ends. -/
structure Path (c : Course) (d n : ℕ) (rays : ℕ → Ray ℝ) (carried : ℕ → Spectrum) : Prop where
  step : ∀ k < n, ∃ normal s point, c.cast (rays k) = some (false, normal) ∧ c.sample (d + k) (rays k) = some (s, point) ∧
    rays (k + 1) = ⟨point, s.wi⟩ ∧ 1 - (Tracer.Spec.after (carried k) normal s).radiance ≤ c.draw (d + k) ∧
    ∀ i, carried (k + 1) i =
      Tracer.Spec.after (carried k) normal s i / min 1 (Tracer.Spec.after (carried k) normal s).radiance
  free : c.cast (rays n) = none

end Spec

open Spec

private theorem leaves_path (c : Course) (hd : ∀ d, 0 ≤ c.draw d) : ∀ (left d : ℕ) (ray : Ray ℝ) (beta : Spectrum)
    (v : V3 ℝ) (beta' : Spectrum), leaves c left d ray beta = some (v, beta') ↔
    ∃ n ≤ left, ∃ (rays : ℕ → Ray ℝ) (carried : ℕ → Spectrum), rays 0 = ray ∧ carried 0 = beta ∧ Path c d n rays carried ∧
      (rays n).direction = v ∧ carried n = beta' := by
  have out : ∀ (left d : ℕ) (ray : Ray ℝ) (beta : Spectrum) (v : V3 ℝ) (beta' : Spectrum), c.cast ray = none →
      (leaves c left d ray beta = some (v, beta') ↔
      ∃ n ≤ left, ∃ (rays : ℕ → Ray ℝ) (carried : ℕ → Spectrum), rays 0 = ray ∧ carried 0 = beta ∧ Path c d n rays carried ∧
        (rays n).direction = v ∧ carried n = beta') := by
    intro left d ray beta v beta' hc
    have hl : leaves c left d ray beta = some (ray.direction, beta) := by
      unfold leaves
      rw [hc]
    rw [hl]
    constructor
    · intro h
      simp only [Option.some.injEq, Prod.mk.injEq] at h
      exact ⟨0, Nat.zero_le _, fun _ => ray, fun _ => beta, rfl, rfl, ⟨by simp, hc⟩, h.1, h.2⟩
    · rintro ⟨n, hn, rays, carried, r0, c0, hp, h1, h2⟩
      cases n with
      | zero => rw [← h1, ← h2, r0, c0]
      | succ n =>
        obtain ⟨normal, s, point, q, -⟩ := hp.step 0 (by omega)
        rw [r0, hc] at q
        cases q
  intro left
  induction left with
  | zero =>
    intro d ray beta v beta'
    cases hc : c.cast ray with
    | none => exact out 0 d ray beta v beta' hc
    | some pn =>
      obtain ⟨parallel, normal⟩ := pn
      have hl : leaves c 0 d ray beta = none := by
        unfold leaves
        rw [hc]
        simp only
        split <;> rfl
      rw [hl]
      constructor
      · intro h; cases h
      · rintro ⟨n, hn, rays, carried, r0, c0, hp, -⟩
        obtain rfl : n = 0 := by omega
        have := hp.free
        rw [r0, hc] at this
        cases this
  | succ left ih =>
    intro d ray beta v beta'
    cases hc : c.cast ray with
    | none => exact out (left + 1) d ray beta v beta' hc
    | some pn =>
      obtain ⟨parallel, normal⟩ := pn
      have hq : ∀ s, 1 - Max.max (1 - (Tracer.Spec.after beta normal s).radiance) 0 =
          min 1 (Tracer.Spec.after beta normal s).radiance := by
        intro s
        rcases le_total (Tracer.Spec.after beta normal s).radiance 1 with h | h
        · rw [max_eq_left (by linarith), min_eq_right h]; ring
        · rw [max_eq_right (by linarith), min_eq_left h]; ring
      constructor
      · intro h
        unfold leaves at h
        rw [hc] at h
        simp only at h
        cases parallel with
        | true => simp at h
        | false =>
          simp only [Bool.false_eq_true, if_false] at h
          cases hs : c.sample d ray with
          | none => rw [hs] at h; simp at h
          | some sp =>
            obtain ⟨s, point⟩ := sp
            rw [hs] at h
            simp only at h
            unfold Tracer.roulette at h
            simp only at h
            by_cases hu : c.draw d < Max.max (1 - (Tracer.Spec.after beta normal s).radiance) 0
            · unfold Tracer.Spec.after at hu
              rw [if_pos hu] at h
              simp at h
            · have hu' := hu
              unfold Tracer.Spec.after at hu'
              rw [if_neg hu'] at h
              simp only at h
              obtain ⟨n, hn, rays, carried, r0, c0, hp, h1, h2⟩ := (ih _ _ _ _ _).1 h
              refine ⟨n + 1, by omega, fun k => match k with | 0 => ray | k + 1 => rays k,
                fun k => match k with | 0 => beta | k + 1 => carried k, rfl, rfl, ⟨?_, hp.free⟩, h1, h2⟩
              intro k hk
              cases k with
              | zero =>
                refine ⟨normal, s, point, hc, hs, r0, (le_max_left _ _).trans (not_lt.1 hu), fun i => ?_⟩
                simp only [c0]
                rw [← hq]
                rfl
              | succ k =>
                obtain ⟨normal', s', point', q⟩ := hp.step k (by omega)
                rw [show d + 1 + k = d + (k + 1) by omega] at q
                exact ⟨normal', s', point', q⟩
      · rintro ⟨n, hn, rays, carried, r0, c0, hp, h1, h2⟩
        cases n with
        | zero =>
          have := hp.free
          rw [r0, hc] at this
          cases this
        | succ n =>
          obtain ⟨normal', s, point, q1, q2, q3, q4, q5⟩ := hp.step 0 (by omega)
          rw [r0, hc] at q1
          simp only [Option.some.injEq, Prod.mk.injEq] at q1
          obtain ⟨rfl, rfl⟩ := q1
          simp only [Nat.add_zero, r0] at q2
          simp only [Nat.add_zero, c0] at q4 q5
          unfold leaves
          rw [hc]
          simp only [Bool.false_eq_true, if_false, q2]
          have hr : Tracer.roulette (fun i => beta i * (s.spectrum i * |normal.dot s.wi| / s.pdf)) (c.draw d) =
              some (carried 1) := by
            unfold Tracer.roulette
            simp only
            refine (if_neg (not_lt.2 (max_le q4 (hd d)))).trans ?_
            congr 1
            funext i
            rw [q5 i, ← hq]
            rfl
          rw [hr]
          simp only
          refine (ih _ _ _ _ _).2 ⟨n, by omega, fun k => rays (k + 1), fun k => carried (k + 1), q3, rfl, ⟨?_, hp.free⟩, h1, h2⟩
          intro k hk
          obtain ⟨normal', s', point', q⟩ := hp.step (k + 1) (by omega)
          rw [show d + (k + 1) = d + 1 + k by omega] at q
          exact ⟨normal', s', point', q⟩

/-- C77: a ray that starts with `beta` leaves the scene in some direction, with what it then carries, exactly if there is a
path of at most `max_depth` bounces from it that does. -/
theorem C77_path (c : Course) (hd : ∀ d, 0 ≤ c.draw d) (maxDepth : ℕ) (ray : Ray ℝ) (beta : Spectrum) (v : V3 ℝ)
    (beta' : Spectrum) : leaves c maxDepth 0 ray beta = some (v, beta') ↔
    ∃ n ≤ maxDepth, ∃ (rays : ℕ → Ray ℝ) (carried : ℕ → Spectrum), rays 0 = ray ∧ carried 0 = beta ∧ Path c 0 n rays carried ∧
      (rays n).direction = v ∧ carried n = beta' := leaves_path c hd maxDepth 0 ray beta v beta'

/-- A ray that bounces once, off a white surface, and leaves upwards with all that it carried. -/
example : leaves ⟨fun ray => if ray.direction.z < 0 then some (false, ⟨0, 0, 1⟩) else none,
    fun _ _ => some (⟨gray 1, ⟨0, 0, 1⟩, 1, .diffuseReflection⟩, ⟨0, 0, 0⟩), fun _ => 0⟩ 2 0 ⟨⟨0, 0, 1⟩, ⟨0, 0, -1⟩⟩ (gray 3) =
      some (⟨0, 0, 1⟩, gray 3) := by
  rw [C77_path _ (fun _ => le_rfl)]
  refine ⟨1, by norm_num, fun k => match k with | 0 => ⟨⟨0, 0, 1⟩, ⟨0, 0, -1⟩⟩ | _ => ⟨⟨0, 0, 0⟩, ⟨0, 0, 1⟩⟩, fun _ => gray 3, rfl, rfl,
    ⟨?_, by simp⟩, rfl, rfl⟩
  intro k hk
  obtain rfl : k = 0 := by omega
  refine ⟨⟨0, 0, 1⟩, ⟨gray 1, ⟨0, 0, 1⟩, 1, .diffuseReflection⟩, ⟨0, 0, 0⟩, by simp, rfl, rfl, ?_, fun i => ?_⟩
  · simp [Tracer.Spec.after, gray, V3.dot, Spectrum.radiance]
    norm_num
  · simp [Tracer.Spec.after, gray, V3.dot, Spectrum.radiance]
    norm_num

end Simple.Render.Daylight
