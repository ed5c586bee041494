import Mathlib.Analysis.Calculus.MeanValue
import Mathlib.Analysis.SpecialFunctions.ExpDeriv
import Mathlib.MeasureTheory.Integral.IntervalIntegral.FundThmCalculus
import Mathlib.Analysis.SpecialFunctions.Integrals.Basic
import Mathlib.Tactic.NormNum
import Mathlib.Tactic.Linarith
import Mathlib.Tactic.Positivity
import Mathlib.Tactic.FieldSimp
import Verif.Heat.ZoneModel

/-! # C30: the temperature of the zones -/

namespace Simple.Heat

namespace Spec

/-- Heat capacity of a cubic metre of air at that temperature, in Celsius. -/
noncomputable def airHeat (t : ℝ) : ℝ :=
  101325 * 28.97 / (8314.46261815324 * (t + 273.15)) * (1002.7370 + 1.2324e-2 * (t + 273.15))

/-- Heat brought by a flow of air from a temperature to a zone at `T`. -/
noncomputable def flowHeat (temp volume : Option ℝ) (T : ℝ) : ℝ :=
  match temp, volume with
  | some t, some v => airHeat t * v * (t - T)
  | _, _ => 0

/-- Heat given by a side of a surface to zone `z`, at `T`. -/
noncomputable def sideHeat (z : ℕ) (side : Side) (h : Option ℝ) (area temp T : ℝ) : ℝ :=
  match side, h with
  | .space (some i), some h => if i = z then h * area * (temp - T) else 0
  | _, _ => 0

/-- Power given to zone `z`. -/
def power (z : ℕ) (l : List (ℕ × Option ℝ)) : ℝ :=
  (l.map fun x => if x.1 = z then x.2.getD 0 else 0).sum

/-- Heat given to zone `z` by the surfaces. -/
noncomputable def surfaceHeat (z : ℕ) (l : List SurfaceIn) (T : ℝ) : ℝ :=
  (l.map fun s => sideHeat z s.front s.hFront s.area s.frontTemp T
    + sideHeat z s.back s.hBack s.area s.backTemp T).sum

/-- Heat that zone `z` receives when its air is at `T`. -/
noncomputable def heat (x : Inputs) (z : ℕ) (zone : ZoneIn) (T : ℝ) : ℝ :=
  power z x.hvacs + power z x.luminaires
    + flowHeat zone.infTemp zone.infVolume T + flowHeat zone.ventTemp zone.ventVolume T
    + surfaceHeat z x.surfaces T + surfaceHeat z x.fenestrations T

end Spec

/-! ## The heat balance -/

private theorem addAt_ok {l l' : List ℝ} {i : ℕ} {v : ℝ} (h : addAt l i v = .ok l') :
    l'.length = l.length ∧ ∀ z, l'.getD z 0 = l.getD z 0 + if i = z then v else 0 := by
  unfold addAt at h
  split_ifs at h with hi
  cases h
  refine ⟨by simp, fun z => ?_⟩
  rw [List.getD_eq_getElem?_getD, List.getD_eq_getElem?_getD, List.getElem?_modify]
  by_cases hz : i = z
  · subst hz
    simp [List.getElem?_eq_getElem hi]
  · simp [hz]

private theorem addPowers_ok {m : Outcome (List ℝ)} (hm : ∀ l, m ≠ .ok l) (ps : List (ℕ × Option ℝ)) :
    ∀ {l l' : List ℝ}, addPowers m ps l = .ok l' →
    l'.length = l.length ∧ ∀ z, l'.getD z 0 = l.getD z 0 + Spec.power z ps := by
  induction ps with
  | nil => intro l l' h; cases h; simp [Spec.power]
  | cons p rest ih =>
    intro l l' h
    obtain ⟨i, q⟩ := p
    cases q with
    | none => exact absurd h (hm _)
    | some v =>
      unfold addPowers at h
      cases ha : addAt l i v with
      | err => rw [ha] at h; cases h
      | panic => rw [ha] at h; cases h
      | ok l1 =>
        rw [ha] at h
        obtain ⟨h1, h2⟩ := addAt_ok ha
        obtain ⟨h3, h4⟩ := ih h
        refine ⟨by omega, fun z => ?_⟩
        rw [h4, h2]
        simp only [Spec.power, List.map_cons, List.sum_cons, Option.getD_some]
        ring

/-- The balance of zone `z`. -/
private def bal (ab : List ℝ × List ℝ) (z : ℕ) (T : ℝ) : ℝ := ab.1.getD z 0 - ab.2.getD z 0 * T

private theorem addBoth_ok {ab ab' : List ℝ × List ℝ} {i : ℕ} {g t : ℝ} {p : ℝ} (hp : p = g * t)
    (h : ((addAt ab.1 i p).bind fun a => (addAt ab.2 i g).bind fun b => .ok (a, b)) = .ok ab') :
    ab'.1.length = ab.1.length ∧ ab'.2.length = ab.2.length ∧
    ∀ z T, bal ab' z T = bal ab z T + if i = z then g * (t - T) else 0 := by
  cases h1 : addAt ab.1 i p with
  | err => rw [h1] at h; cases h
  | panic => rw [h1] at h; cases h
  | ok a =>
    cases h2 : addAt ab.2 i g with
    | err => rw [h1, h2] at h; cases h
    | panic => rw [h1, h2] at h; cases h
    | ok b =>
      rw [h1, h2] at h
      cases h
      obtain ⟨a1, a2⟩ := addAt_ok h1
      obtain ⟨b1, b2⟩ := addAt_ok h2
      refine ⟨a1, b1, fun z T => ?_⟩
      unfold bal
      simp only
      rw [a2, b2, hp]
      split_ifs <;> ring

private theorem addFlow_ok {ab ab' : List ℝ × List ℝ} {i : ℕ} {t v : Option ℝ}
    (h : addFlow i t v ab = .ok ab') :
    ab'.1.length = ab.1.length ∧ ab'.2.length = ab.2.length ∧
    ∀ z T, bal ab' z T = bal ab z T + if i = z then Spec.flowHeat t v T else 0 := by
  unfold addFlow at h
  cases t with
  | none => cases h; simp [Spec.flowHeat]
  | some t =>
    cases v with
    | none => cases h
    | some v =>
      obtain ⟨h1, h2, h3⟩ := addBoth_ok rfl h
      refine ⟨h1, h2, fun z T => ?_⟩
      rw [h3]
      have : air.density (t + 273.15) * v * evalPoly air.heatCapacity (t + 273.15)
          = Spec.airHeat t * v := by
        simp only [Gas.density, air, evalPoly, evalFrom, Spec.airHeat]
        ring
      rw [this]
      rfl

private theorem addSide_ok {ab ab' : List ℝ × List ℝ} {side : Side} {h area t : ℝ}
    (hs : addSide side h area t ab = .ok ab') :
    ab'.1.length = ab.1.length ∧ ab'.2.length = ab.2.length ∧
    ∀ z T, bal ab' z T = bal ab z T + Spec.sideHeat z side (some h) area t T := by
  unfold addSide at hs
  cases side with
  | other => cases hs; simp [Spec.sideHeat]
  | space i =>
    cases i with
    | none => cases hs
    | some i => exact addBoth_ok rfl hs

private theorem surfaceLoop_ok (ss : List SurfaceIn) : ∀ {ab ab' : List ℝ × List ℝ},
    surfaceLoop ss ab = .ok ab' →
    ab'.1.length = ab.1.length ∧ ab'.2.length = ab.2.length ∧
    ∀ z T, bal ab' z T = bal ab z T + Spec.surfaceHeat z ss T := by
  induction ss with
  | nil => intro ab ab' h; cases h; simp [Spec.surfaceHeat]
  | cons s rest ih =>
    intro ab ab' h
    unfold surfaceLoop at h
    cases hf : s.hFront with
    | none => rw [hf] at h; cases h
    | some f =>
      cases hb : s.hBack with
      | none => rw [hf, hb] at h; cases h
      | some g =>
        rw [hf, hb] at h
        simp only at h
        cases h1 : addSide s.front f s.area s.frontTemp ab with
        | err => rw [h1] at h; cases h
        | panic => rw [h1] at h; cases h
        | ok ab1 =>
          rw [h1] at h
          simp only [Outcome.bind] at h
          cases h2 : addSide s.back g s.area s.backTemp ab1 with
          | err => rw [h2] at h; cases h
          | panic => rw [h2] at h; cases h
          | ok ab2 =>
            rw [h2] at h
            obtain ⟨a1, a2, a3⟩ := addSide_ok h1
            obtain ⟨b1, b2, b3⟩ := addSide_ok h2
            obtain ⟨c1, c2, c3⟩ := ih h
            refine ⟨by omega, by omega, fun z T => ?_⟩
            rw [c3, b3, a3]
            simp only [Spec.surfaceHeat, List.map_cons, List.sum_cons, hf, hb]
            ring

private theorem zoneLoop_ok (zs : List ZoneIn) : ∀ {i : ℕ} {ab : List ℝ × List ℝ} {r},
    zoneLoop i zs ab = .ok r →
    r.1.1.length = ab.1.length ∧ r.1.2.length = ab.2.length ∧ r.2.length = zs.length ∧
    (∀ z T, z < i → bal r.1 z T = bal ab z T) ∧
    ∀ (j : ℕ) (zone : ZoneIn), zs[j]? = some zone →
      (∀ T, bal r.1 (i + j) T = bal ab (i + j) T + Spec.flowHeat zone.infTemp zone.infVolume T
        + Spec.flowHeat zone.ventTemp zone.ventVolume T) ∧
      ∃ t, zone.temp = some t ∧ r.2[j]? = some (zone.volume * Spec.airHeat t) := by
  induction zs with
  | nil => intro i ab r h; cases h; simp
  | cons zn rest ih =>
    intro i ab r h
    unfold zoneLoop at h
    cases h1 : addFlow i zn.infTemp zn.infVolume ab with
    | err => rw [h1] at h; cases h
    | panic => rw [h1] at h; cases h
    | ok ab1 =>
      rw [h1] at h
      simp only [Outcome.bind] at h
      cases h2 : addFlow i zn.ventTemp zn.ventVolume ab1 with
      | err => rw [h2] at h; cases h
      | panic => rw [h2] at h; cases h
      | ok ab2 =>
        rw [h2] at h
        simp only at h
        cases ht : zn.temp with
        | none => rw [ht] at h; cases h
        | some t =>
          rw [ht] at h
          simp only at h
          cases h3 : zoneLoop (i + 1) rest ab2 with
          | err => rw [h3] at h; cases h
          | panic => rw [h3] at h; cases h
          | ok r2 =>
            rw [h3] at h
            cases h
            obtain ⟨a1, a2, a3⟩ := addFlow_ok h1
            obtain ⟨b1, b2, b3⟩ := addFlow_ok h2
            obtain ⟨c1, c2, c3, c4, c5⟩ := ih h3
            refine ⟨by simp only; omega, by simp only; omega, by simp [c3], ?_, ?_⟩
            · intro z T hz
              simp only
              rw [c4 z T (by omega), b3, a3, if_neg (by omega), if_neg (by omega), add_zero, add_zero]
            · intro j zone hj
              cases j with
              | zero =>
                obtain rfl : zn = zone := by simpa using hj
                refine ⟨fun T => ?_, t, ht, ?_⟩
                · simp only [Nat.add_zero]
                  rw [c4 i T (by omega), b3, a3, if_pos rfl, if_pos rfl]
                · simp only [List.getElem?_cons_zero, mcp, Gas.density, air, evalPoly, evalFrom, Spec.airHeat]
                  congr 1
                  ring
              | succ j =>
                obtain ⟨d1, d2⟩ := c5 j zone (by simpa using hj)
                refine ⟨fun T => ?_, by simpa using d2⟩
                have e : i + (j + 1) = i + 1 + j := by omega
                simp only
                rw [e, d1, b3, a3, if_neg (by omega), if_neg (by omega), add_zero, add_zero]

/-- C30: the coefficients of a zone are those of the documented heat balance `A - B T`: loads, surfaces,
infiltration and ventilation; and its capacity is that of its air. -/
theorem C30_balance (x : Inputs) (a b c : List ℝ) (h : calculateAbc x = .ok ((a, b), c)) :
    a.length = x.zones.length ∧ b.length = x.zones.length ∧ c.length = x.zones.length ∧
    ∀ (z : ℕ) (zone : ZoneIn), x.zones[z]? = some zone →
      (∀ T, a.getD z 0 - b.getD z 0 * T = Spec.heat x z zone T) ∧
      ∃ t, zone.temp = some t ∧ c[z]? = some (zone.volume * Spec.airHeat t) := by
  unfold calculateAbc at h
  cases h1 : addPowers .err x.hvacs (List.replicate x.zones.length 0) with
  | err => rw [h1] at h; cases h
  | panic => rw [h1] at h; cases h
  | ok a1 =>
    rw [h1] at h
    simp only [Outcome.bind] at h
    cases h2 : addPowers .panic x.luminaires a1 with
    | err => rw [h2] at h; cases h
    | panic => rw [h2] at h; cases h
    | ok a2 =>
      rw [h2] at h
      simp only at h
      cases h3 : zoneLoop 0 x.zones (a2, List.replicate x.zones.length 0) with
      | err => rw [h3] at h; cases h
      | panic => rw [h3] at h; cases h
      | ok r =>
        rw [h3] at h
        simp only at h
        cases h4 : surfaceLoop x.surfaces r.1 with
        | err => rw [h4] at h; cases h
        | panic => rw [h4] at h; cases h
        | ok ab1 =>
          rw [h4] at h
          simp only at h
          cases h5 : surfaceLoop x.fenestrations ab1 with
          | err => rw [h5] at h; cases h
          | panic => rw [h5] at h; cases h
          | ok ab2 =>
            rw [h5] at h
            simp only at h
            obtain ⟨rfl, rfl⟩ := Prod.mk.inj (Outcome.ok.inj h)
            obtain ⟨p1, p2⟩ := addPowers_ok (by intro l; simp) _ h1
            obtain ⟨q1, q2⟩ := addPowers_ok (by intro l; simp) _ h2
            obtain ⟨r1, r2, r3, -, r5⟩ := zoneLoop_ok _ h3
            obtain ⟨s1, s2, s3⟩ := surfaceLoop_ok _ h4
            obtain ⟨t1, t2, t3⟩ := surfaceLoop_ok _ h5
            simp only [List.length_replicate] at p1 r2
            simp only at r1 t1 t2
            refine ⟨by omega, by omega, r3, fun z zone hz => ?_⟩
            obtain ⟨u1, u2⟩ := r5 z zone hz
            refine ⟨fun T => ?_, u2⟩
            have := t3 z T
            rw [s3] at this
            have u := u1 T
            rw [Nat.zero_add] at u
            rw [u] at this
            have v : bal (a2, List.replicate x.zones.length 0) z T
                = Spec.power z x.hvacs + Spec.power z x.luminaires := by
              have hrep : (List.replicate x.zones.length (0 : ℝ)).getD z 0 = 0 := by
                rw [List.getD_eq_getElem?_getD, List.getElem?_replicate]
                split_ifs <;> rfl
              unfold bal
              simp only
              rw [q2, p2, hrep]
              ring
            rw [v] at this
            unfold bal at this
            simp only at this
            rw [this, Spec.heat]

/-! ## The solution -/

/-- C30: with the heat of the balance, the air reaches after `dt` the temperature of *any* solution of
`C dT/dt = A - B T` that starts at the current temperature. -/
theorem C30_exact (t a b c dt : ℝ) (hb : 1e-9 < |b|) (hc : c ≠ 0) (hdt : 0 ≤ dt) (T : ℝ → ℝ) (h0 : T 0 = t)
    (hT : ∀ s ∈ Set.Icc 0 dt, HasDerivAt T ((a - b * T s) / c) s) :
    T dt = futureTemp t a b c dt := by
  have hb0 : b ≠ 0 := by intro h; rw [h, abs_zero] at hb; norm_num at hb
  set g : ℝ → ℝ := fun s => (T s - a / b) * Real.exp (b * s / c) with hg
  have hd : ∀ s ∈ Set.Icc 0 dt, HasDerivAt g 0 s := by
    intro s hs
    have h1 : HasDerivAt (fun s => T s - a / b) ((a - b * T s) / c) s := (hT s hs).sub_const _
    have h2 : HasDerivAt (fun s : ℝ => Real.exp (b * s / c)) (Real.exp (b * s / c) * (b / c)) s := by
      have : HasDerivAt (fun s : ℝ => b * s / c) (b / c) s := by
        have := ((hasDerivAt_id s).const_mul b).div_const c
        simpa using this
      exact this.exp
    have h3 := h1.mul h2
    have e : (a - b * T s) / c * Real.exp (b * s / c) + (T s - a / b) * (Real.exp (b * s / c) * (b / c)) = 0 := by
      field_simp
      ring
    rw [e] at h3
    exact h3
  have hconst := constant_of_has_deriv_right_zero (f := g) (a := 0) (b := dt)
    (fun s hs => (hd s hs).continuousAt.continuousWithinAt)
    (fun s hs => (hd s ⟨hs.1, hs.2.le⟩).hasDerivWithinAt) dt ⟨hdt, le_rfl⟩
  simp only [hg, mul_zero, zero_div, Real.exp_zero, mul_one, h0] at hconst
  unfold futureTemp
  rw [if_pos hb, ← hconst, mul_assoc, ← Real.exp_add]
  have : b * dt / c + -b * dt / c = 0 := by ring
  rw [this, Real.exp_zero]
  ring

/-- C30: there is such a solution: the prediction itself, as a function of time. -/
theorem C30_solution (t a b c : ℝ) (hb : 1e-9 < |b|) (s : ℝ) :
    futureTemp t a b c 0 = t ∧
    HasDerivAt (fun s => futureTemp t a b c s) ((a - b * futureTemp t a b c s) / c) s := by
  have hb0 : b ≠ 0 := by intro h; rw [h, abs_zero] at hb; norm_num at hb
  have e : ∀ s, futureTemp t a b c s = a / b + (t - a / b) * Real.exp (-b * s / c) := by
    intro s; unfold futureTemp; rw [if_pos hb]
  constructor
  · rw [e]; simp
  · have h1 : HasDerivAt (fun s : ℝ => -b * s / c) (-b / c) s := by
      have := ((hasDerivAt_id s).const_mul (-b)).div_const c
      simpa using this
    have h2 := (h1.exp.const_mul (t - a / b)).const_add (a / b)
    have e2 : (fun s => futureTemp t a b c s) = fun s => a / b + (t - a / b) * Real.exp (-b * s / c) := funext e
    rw [e2, e]
    refine h2.congr_deriv ?_
    by_cases hc : c = 0
    · subst hc; simp
    · field_simp
      ring

/-- C30: the mean temperature is the average over time of the solution. -/
theorem C30_mean (t a b c dt : ℝ) (hb : 1e-9 < |b|) (hc : c ≠ 0) (hdt : 0 < dt) (T : ℝ → ℝ) (h0 : T 0 = t)
    (hT : ∀ s ∈ Set.Icc 0 dt, HasDerivAt T ((a - b * T s) / c) s) :
    (∫ s in (0 : ℝ)..dt, T s) / dt = meanFutureTemp t a b c dt := by
  have hb0 : b ≠ 0 := by intro h; rw [h, abs_zero] at hb; norm_num at hb
  have hcont : ContinuousOn T (Set.uIcc 0 dt) := by
    rw [Set.uIcc_of_le hdt.le]
    exact fun s hs => (hT s hs).continuousAt.continuousWithinAt
  -- `A s - C T(s)` over `B` is a primitive of `T`
  have hF : ∀ s ∈ Set.uIcc 0 dt, HasDerivAt (fun s => (a * s - c * T s) / b) (T s) s := by
    intro s hs
    rw [Set.uIcc_of_le hdt.le] at hs
    have := (((hasDerivAt_id s).const_mul a).sub ((hT s hs).const_mul c)).div_const b
    refine this.congr_deriv ?_
    field_simp
    ring
  rw [intervalIntegral.integral_eq_sub_of_hasDerivAt hF hcont.intervalIntegrable,
    C30_exact t a b c dt hb hc hdt.le T h0 hT, h0]
  unfold futureTemp meanFutureTemp
  rw [if_pos hb, if_pos hb]
  field_simp
  ring

/-- C30: the predicted temperature is between that of now and that of equilibrium, and so is the mean. -/
theorem C30_between (t a b c dt e : ℝ) (hb : 0 ≤ b) (hc : 0 < c) (hdt : 0 ≤ dt) (he : a - b * e = 0) :
    min t e ≤ futureTemp t a b c dt ∧ futureTemp t a b c dt ≤ max t e ∧
    (0 < dt → min t e ≤ meanFutureTemp t a b c dt ∧ meanFutureTemp t a b c dt ≤ max t e) := by
  by_cases hb1 : 1e-9 < |b|
  · have hb0 : b ≠ 0 := by intro h; rw [h, abs_zero] at hb1; norm_num at hb1
    have hbp : 0 < b := lt_of_le_of_ne hb (Ne.symm hb0)
    have hE : a / b = e := by rw [div_eq_iff hb0]; linarith
    have conv : ∀ w : ℝ, 0 ≤ w → w ≤ 1 → min t e ≤ e + (t - e) * w ∧ e + (t - e) * w ≤ max t e := by
      intro w w0 w1
      constructor
      · rcases le_total t e with h | h
        · rw [min_eq_left h]; nlinarith
        · rw [min_eq_right h]; nlinarith
      · rcases le_total t e with h | h
        · rw [max_eq_right h]; nlinarith
        · rw [max_eq_left h]; nlinarith
    have hx : 0 ≤ b * dt / c := by positivity
    have hneg : -b * dt / c = -(b * dt / c) := by ring
    have hexp1 : Real.exp (-b * dt / c) ≤ 1 := by rw [hneg]; exact Real.exp_le_one_iff.2 (by linarith)
    obtain ⟨l1, l2⟩ := conv _ (Real.exp_pos (-b * dt / c)).le hexp1
    unfold futureTemp meanFutureTemp
    rw [if_pos hb1, if_pos hb1, hE]
    refine ⟨l1, l2, fun hdt0 => ?_⟩
    have hx0 : 0 < b * dt / c := by positivity
    have hw0 : 0 ≤ (1 - Real.exp (-b * dt / c)) / (b * dt / c) :=
      div_nonneg (by linarith) hx
    have hw1 : (1 - Real.exp (-b * dt / c)) / (b * dt / c) ≤ 1 := by
      rw [div_le_one hx0]
      have := Real.add_one_le_exp (-b * dt / c)
      rw [hneg] at this ⊢
      linarith
    have key : c * (t - e) / dt / b * (1 - Real.exp (-b * dt / c))
        = (t - e) * ((1 - Real.exp (-b * dt / c)) / (b * dt / c)) := by
      field_simp
    rw [key]
    exact conv _ hw0 hw1
  · unfold futureTemp meanFutureTemp
    rw [if_neg hb1, if_neg hb1]
    exact ⟨min_le_left _ _, le_max_left _ _, fun _ => ⟨min_le_left _ _, le_max_left _ _⟩⟩

/-- C30: no time, no change; in equilibrium, no change; and `t₁` then `t₂` is `t₁ + t₂`. -/
theorem C30_flow (t a b c t1 t2 : ℝ) :
    futureTemp t a b c 0 = t ∧
    (a - b * t = 0 → futureTemp t a b c t1 = t ∧ meanFutureTemp t a b c t1 = t) ∧
    futureTemp (futureTemp t a b c t1) a b c t2 = futureTemp t a b c (t1 + t2) := by
  by_cases hb : 1e-9 < |b|
  · have hb0 : b ≠ 0 := by intro h; rw [h, abs_zero] at hb; norm_num at hb
    unfold futureTemp meanFutureTemp
    simp only [gt_iff_lt, if_pos hb]
    refine ⟨by simp, fun h => ?_, ?_⟩
    · have hE : a / b = t := by rw [div_eq_iff hb0]; linarith
      rw [hE]; constructor <;> simp
    · have : -b * (t1 + t2) / c = -b * t1 / c + -b * t2 / c := by ring
      rw [this, Real.exp_add]
      ring
  · unfold futureTemp meanFutureTemp
    simp only [gt_iff_lt, if_neg hb]
    exact ⟨trivial, fun _ => ⟨trivial, trivial⟩, trivial⟩

/-! ## A step -/

theorem futureTemps_ok (t a b c : List ℝ) (dt : ℝ) (n : ℕ) : ∀ {i : ℕ} {r : List ℝ},
    futureTemps t a b c dt n i = .ok r → r.length = n ∧
    ∀ j, j < n → r[j]? = some (futureTemp (t.getD (i + j) 0) (a.getD (i + j) 0) (b.getD (i + j) 0)
      (c.getD (i + j) 0) dt) := by
  induction n with
  | zero => intro i r h; cases h; simp
  | succ n ih =>
    intro i r h
    have get : ∀ l : List ℝ, (∃ v, Outcome.index l i = .ok v ∧ l.getD i 0 = v) ∨ Outcome.index l i = .panic := by
      intro l
      by_cases hl : i < l.length
      · left; exact ⟨l[i], Outcome.index_of_lt hl, by simp [List.getD_eq_getElem?_getD, hl]⟩
      · right; exact Outcome.index_of_ge (by omega)
    unfold futureTemps at h
    rcases get t with ⟨v1, e1, g1⟩ | e1 <;> rw [e1] at h <;> simp only [Outcome.bind] at h
    · rcases get a with ⟨v2, e2, g2⟩ | e2 <;> rw [e2] at h <;> simp only at h
      · rcases get b with ⟨v3, e3, g3⟩ | e3 <;> rw [e3] at h <;> simp only at h
        · rcases get c with ⟨v4, e4, g4⟩ | e4 <;> rw [e4] at h <;> simp only at h
          · cases h5 : futureTemps t a b c dt n (i + 1) with
            | err => rw [h5] at h; cases h
            | panic => rw [h5] at h; cases h
            | ok r' =>
              rw [h5] at h
              cases h
              obtain ⟨k1, k2⟩ := ih h5
              refine ⟨by simp [k1], fun j hj => ?_⟩
              cases j with
              | zero => simp only [Nat.add_zero, g1, g2, g3, g4]; rfl
              | succ j =>
                have := k2 j (by omega)
                rw [show i + 1 + j = i + (j + 1) by omega] at this
                simpa using this
          · cases h
        · cases h
      · cases h
    · cases h

theorem currentTemps_ok (zs : List ZoneIn) : ∀ {r : List ℝ}, currentTemps zs = .ok r →
    ∀ (j : ℕ) (zone : ZoneIn), zs[j]? = some zone → ∃ t, zone.temp = some t ∧ r[j]? = some t := by
  induction zs with
  | nil => intro r _ j zone hj; simp at hj
  | cons z rest ih =>
    intro r h j zone hj
    unfold currentTemps at h
    cases ht : z.temp with
    | none => rw [ht] at h; cases h
    | some t =>
      rw [ht] at h
      simp only at h
      cases h1 : currentTemps rest with
      | err => rw [h1] at h; cases h
      | panic => rw [h1] at h; cases h
      | ok r' =>
        rw [h1] at h
        cases h
        cases j with
        | zero => obtain rfl : z = zone := by simpa using hj
                  exact ⟨t, ht, by simp⟩
        | succ j => simpa using ih h1 j zone (by simpa using hj)

/-- C30: in a step every zone that exchanges heat takes the temperature that the differential equation of
its heat balance gives after `dt`, and any other keeps its temperature. -/
theorem C30_step (x : Inputs) (dt : ℝ) (hdt : 0 ≤ dt) (r : List ℝ) (h : zonesStep x dt = .ok r) :
    r.length = x.zones.length ∧
    ∀ (z : ℕ) (zone : ZoneIn), x.zones[z]? = some zone → ∃ t new, zone.temp = some t ∧ r[z]? = some new ∧
      -- the zone gets or loses some heat if its temperature changes by a degree
      (1e-9 < |Spec.heat x z zone 0 - Spec.heat x z zone 1| → zone.volume * Spec.airHeat t ≠ 0 →
        ∀ T : ℝ → ℝ, T 0 = t →
          (∀ s ∈ Set.Icc 0 dt, HasDerivAt T (Spec.heat x z zone (T s) / (zone.volume * Spec.airHeat t)) s) →
          T dt = new) ∧
      (¬ 1e-9 < |Spec.heat x z zone 0 - Spec.heat x z zone 1| → new = t) := by
  unfold zonesStep at h
  cases h1 : currentTemps x.zones with
  | err => rw [h1] at h; cases h
  | panic => rw [h1] at h; cases h
  | ok ts =>
    rw [h1] at h
    simp only [Outcome.bind] at h
    cases h2 : calculateAbc x with
    | err => rw [h2] at h; cases h
    | panic => rw [h2] at h; cases h
    | ok abc =>
      rw [h2] at h
      obtain ⟨⟨a, b⟩, c⟩ := abc
      simp only at h
      obtain ⟨l1, l2⟩ := futureTemps_ok _ _ _ _ _ _ h
      obtain ⟨-, -, -, bl⟩ := C30_balance x a b c h2
      refine ⟨l1, fun z zone hz => ?_⟩
      have hzl : z < x.zones.length := by
        by_contra hc
        rw [List.getElem?_eq_none (by omega)] at hz
        cases hz
      obtain ⟨t, ht, hts⟩ := currentTemps_ok _ h1 z zone hz
      obtain ⟨hb, t', ht', hc⟩ := bl z zone hz
      rw [ht] at ht'
      cases ht'
      have hr := l2 z hzl
      rw [Nat.zero_add] at hr
      have e1 : ts.getD z 0 = t := by rw [List.getD_eq_getElem?_getD, hts]; rfl
      have e2 : c.getD z 0 = zone.volume * Spec.airHeat t := by rw [List.getD_eq_getElem?_getD, hc]; rfl
      rw [e1, e2] at hr
      have eb : Spec.heat x z zone 0 - Spec.heat x z zone 1 = b.getD z 0 := by
        rw [← hb 0, ← hb 1]; ring
      refine ⟨t, _, ht, hr, ?_, ?_⟩
      · intro hbb hcc T h0 hT
        rw [eb] at hbb
        apply C30_exact t _ _ _ dt hbb hcc hdt T h0
        intro s hs
        rw [hb]
        exact hT s hs
      · intro hbb
        rw [eb] at hbb
        unfold futureTemp
        rw [if_neg hbb]

/-- A zone that exchanges no heat with anything but has a heater does not warm up: the heat is lost. -/
theorem C30_isolated_heater : ∃ (x : Inputs) (zone : ZoneIn), x.zones = [zone] ∧ Spec.power 0 x.hvacs = 2000 ∧
    (∀ T, Spec.heat x 0 zone T = 2000) ∧ zone.temp = some 20 ∧ 0 < zone.volume ∧
    ∀ dt, zonesStep x dt = .ok [20] := by
  refine ⟨⟨[(0, some 2000)], [], [⟨none, none, none, none, some 20, 30⟩], [], []⟩, _, rfl, ?_, ?_, rfl,
    by norm_num, ?_⟩
  · simp [Spec.power]
  · intro T; simp [Spec.heat, Spec.power, Spec.surfaceHeat, Spec.flowHeat]
  · intro dt
    simp [zonesStep, currentTemps, calculateAbc, addPowers, addAt, zoneLoop, addFlow, surfaceLoop, futureTemps,
      Outcome.bind, Outcome.index, futureTemp]

/-- C30 is not vacuous: a zone with infiltration, and a wall. -/
example : ∃ r, zonesStep ⟨[(0, some 500)], [], [⟨some 10, some 0.01, none, none, some 20, 30⟩],
    [⟨some 5, some 10, 12, .space (some 0), .other, 18, 11⟩], []⟩ 60 = .ok r := by
  simp [zonesStep, currentTemps, calculateAbc, addPowers, addAt, zoneLoop, addFlow, surfaceLoop, addSide,
    futureTemps, Outcome.bind, Outcome.index]

/-- … and its solution exists. -/
example : ∃ T : ℝ → ℝ, T 0 = 20 ∧ ∀ s, HasDerivAt T ((100 - 5 * T s) / 30) s := by
  refine ⟨fun s => futureTemp 20 100 5 30 s, (C30_solution 20 100 5 30 ?_ 0).1,
    fun s => (C30_solution 20 100 5 30 ?_ s).2⟩ <;> norm_num

end Simple.Heat
