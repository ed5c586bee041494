import Mathlib.Tactic.NormNum
import Mathlib.Tactic.Linarith
import Mathlib.Tactic.Positivity
import Verif.Air.Model
import Verif.Building.StateProps

/-! # C33: infiltration -/

namespace Simple.Air

open Simple.State

namespace Spec

/-- Flow of a space at `tIn` with that infiltration, with wind speed `v` in the weather file and
`m` times that at the site; `cs` and `cw` are the stack and wind coefficients of the building. -/
noncomputable def flow (m cs cw tIn tOut v : ℝ) : Infiltration → ℝ
  | .constant flow => flow
  | .blast flow => flow * (0.606 + 0.03636 * |tIn - tOut| + 0.1177 * (v * m))
  | .doe2 flow => flow * (0.224 * (v * m))
  | .designFlowRate a b c d phi => phi * (a + b * |tIn - tOut| + c * (v * m) + d * (v * m) ^ 2)
  | .leakageArea area => 10 * area * √(cs * |tIn - tOut| + cw * v ^ 2)

/-- No coefficient is negative. -/
def NonNeg : Infiltration → Prop
  | .constant flow => 0 ≤ flow
  | .blast flow => 0 ≤ flow
  | .doe2 flow => 0 ≤ flow
  | .designFlowRate a b c d phi => 0 ≤ a ∧ 0 ≤ b ∧ 0 ≤ c ∧ 0 ≤ d ∧ 0 ≤ phi
  | .leakageArea area => 0 ≤ area

end Spec

/-! ## The formulas -/

/-- C33: the four functions compute the documented flows. -/
theorem C33_formulas (w : Weather) (i : ℕ) (state : List ℝ) (tIn m cs cw : ℝ)
    (hi : state[i]? = some tIn) :
    (∀ phi a b c d, designFlowRate w (some i) state phi a b c d m
      = .ok (Spec.flow m cs cw tIn w.dryBulb w.windSpeed (.designFlowRate a b c d phi))) ∧
    (∀ phi, blastDesignFlowRate w (some i) state phi m
      = .ok (Spec.flow m cs cw tIn w.dryBulb w.windSpeed (.blast phi))) ∧
    (∀ phi, doe2DesignFlowRate w (some i) state phi m
      = .ok (Spec.flow m cs cw tIn w.dryBulb w.windSpeed (.doe2 phi))) ∧
    (∀ area, effectiveLeakageArea w (some i) state area cw cs
      = .ok (Spec.flow m cs cw tIn w.dryBulb w.windSpeed (.leakageArea area))) := by
  have hr : dryBulbOf (some i) state = .ok tIn := by
    obtain ⟨h, e⟩ := List.getElem?_eq_some_iff.1 hi
    rw [dryBulbOf, Outcome.index_of_lt h, e]
  refine ⟨fun phi a b c d => ?_, fun phi => ?_, fun phi => ?_, fun area => ?_⟩
  · rw [designFlowRate, hr]
    simp only [Outcome.bind, Spec.flow]
    congr 1; ring
  · rw [blastDesignFlowRate, designFlowRate, hr]
    simp only [Outcome.bind, Spec.flow]
    congr 1; ring
  · rw [doe2DesignFlowRate, designFlowRate, hr]
    simp only [Outcome.bind, Spec.flow]
    congr 1; ring
  · rw [effectiveLeakageArea, hr]
    simp only [Outcome.bind, Spec.flow]
    rw [abs_sub_comm w.dryBulb tIn]
    congr 1
    have : cw * w.windSpeed * w.windSpeed = cw * w.windSpeed ^ 2 := by ring
    rw [this]
    ring

/-- C33: a flow is never negative, depends on the temperatures only by their difference, whatever its
sign, and does not decrease with the difference nor with the wind. -/
theorem C33_flow (inf : Infiltration) (h : Spec.NonNeg inf) (m cs cw : ℝ) (hm : 0 ≤ m) (hcs : 0 ≤ cs)
    (hcw : 0 ≤ cw) (tIn tOut tIn' tOut' v v' : ℝ) (hv : 0 ≤ v) (hvv : v ≤ v')
    (ht : |tIn - tOut| ≤ |tIn' - tOut'|) :
    0 ≤ Spec.flow m cs cw tIn tOut v inf ∧
    Spec.flow m cs cw tIn tOut v inf = Spec.flow m cs cw tOut tIn v inf ∧
    Spec.flow m cs cw tIn tOut v inf ≤ Spec.flow m cs cw tIn' tOut' v' inf := by
  have hd : 0 ≤ |tIn - tOut| := abs_nonneg _
  have hvm : 0 ≤ v * m := mul_nonneg hv hm
  have hvm' : v * m ≤ v' * m := mul_le_mul_of_nonneg_right hvv hm
  cases inf with
  | constant flow => exact ⟨h, rfl, le_rfl⟩
  | blast flow =>
    have h : 0 ≤ flow := h
    refine ⟨?_, ?_, ?_⟩
    · unfold Spec.flow; positivity
    · unfold Spec.flow; simp only; rw [abs_sub_comm]
    · exact mul_le_mul_of_nonneg_left (by linarith) h
  | doe2 flow =>
    have h : 0 ≤ flow := h
    refine ⟨?_, rfl, ?_⟩
    · unfold Spec.flow; positivity
    · exact mul_le_mul_of_nonneg_left (by linarith) h
  | designFlowRate a b c d phi =>
    obtain ⟨ha, hb, hc, hd', hphi⟩ := h
    refine ⟨?_, ?_, ?_⟩
    · unfold Spec.flow; positivity
    · unfold Spec.flow; simp only; rw [abs_sub_comm]
    · apply mul_le_mul_of_nonneg_left _ hphi
      have h1 := mul_le_mul_of_nonneg_left ht hb
      have h2 := mul_le_mul_of_nonneg_left hvm' hc
      have h3 := mul_le_mul_of_nonneg_left (pow_le_pow_left₀ hvm hvm' 2) hd'
      linarith
  | leakageArea area =>
    have h : 0 ≤ area := h
    refine ⟨?_, ?_, ?_⟩
    · unfold Spec.flow; positivity
    · unfold Spec.flow; simp only; rw [abs_sub_comm]
    · apply mul_le_mul_of_nonneg_left _ (by positivity)
      apply Real.sqrt_le_sqrt
      have h1 := mul_le_mul_of_nonneg_left ht hcs
      have h3 := mul_le_mul_of_nonneg_left (pow_le_pow_left₀ hv hvv 2) hcw
      linarith

/-! ## The coefficients of the site and of the building -/

/-- C33: the wind speed at a height is zero at the ground, never negative, and grows with height. -/
theorem C33_wind (t : Option Terrain) (h h' : ℝ) (hh : h ≤ h') :
    (h ≤ 0 → siteModifier t h = 0) ∧ 0 ≤ siteModifier t h ∧ siteModifier t h ≤ siteModifier t h' := by
  have key : ∀ t : Terrain, (h ≤ 0 → t.windSpeedModifier h = 0) ∧ 0 ≤ t.windSpeedModifier h ∧
      t.windSpeedModifier h ≤ t.windSpeedModifier h' := by
    intro t
    obtain ⟨c, e, hc, he, heq⟩ : ∃ c e : ℝ, 0 < c ∧ 0 < e ∧ ∀ x : ℝ, t.windSpeedModifier x
        = if x < 1e-5 then 0 else (270 / 10) ^ (0.14 : ℝ) * (x / c) ^ e := by
      cases t
      · exact ⟨270, 0.14, by norm_num, by norm_num, fun _ => rfl⟩
      · exact ⟨370, 0.22, by norm_num, by norm_num, fun _ => rfl⟩
      · exact ⟨460, 0.33, by norm_num, by norm_num, fun _ => rfl⟩
      · exact ⟨210, 0.10, by norm_num, by norm_num, fun _ => rfl⟩
      · exact ⟨370, 0.22, by norm_num, by norm_num, fun _ => rfl⟩
    rw [heq, heq]
    refine ⟨fun h0 => ?_, ?_, ?_⟩
    · rw [if_pos (lt_of_le_of_lt h0 (by norm_num))]
    · split_ifs with hx
      · exact le_rfl
      · have : 0 ≤ h := le_trans (by norm_num) (not_lt.1 hx)
        positivity
    · by_cases hx : h < 1e-5
      · rw [if_pos hx]
        split_ifs with hx'
        · exact le_rfl
        · have : 0 ≤ h' := le_trans (by norm_num) (not_lt.1 hx')
          positivity
      · have h0 : 0 ≤ h := le_trans (by norm_num) (not_lt.1 hx)
        rw [if_neg hx, if_neg (fun h2 => hx (lt_of_le_of_lt hh h2))]
        apply mul_le_mul_of_nonneg_left _ (by positivity)
        exact Real.rpow_le_rpow (by positivity) (div_le_div_of_nonneg_right hh hc.le) he.le
  cases t with
  | none => exact key .suburbs
  | some t => exact key t

/-- C33: the coefficients of a building are those it has been given or positive values of the tables. -/
theorem C33_coefficients (b : Bldg) (cs cw : ℝ)
    (hs : stackCoefficient b = .ok cs) (hw : windCoefficient b = .ok cw) :
    (b.stackCoefficient = some cs ∨ b.stackCoefficient = none ∧ 0 < cs ∧ cs ≤ 0.000435) ∧
    (b.windCoefficient = some cw ∨ b.windCoefficient = none ∧ 0 < cw ∧ cw ≤ 0.000494) := by
  constructor
  · unfold stackCoefficient at hs
    cases h : b.stackCoefficient with
    | some v => rw [h] at hs; cases hs; exact Or.inl rfl
    | none =>
      refine Or.inr ⟨rfl, ?_⟩
      rw [h] at hs
      cases hn : b.nStoreys with
      | none => rw [hn] at hs; cases hs
      | some n =>
        rw [hn] at hs
        simp only at hs
        split_ifs at hs <;> (cases hs; constructor <;> norm_num)
  · unfold windCoefficient at hw
    cases h : b.windCoefficient with
    | some v => rw [h] at hw; cases hw; exact Or.inl rfl
    | none =>
      refine Or.inr ⟨rfl, ?_⟩
      rw [h] at hw
      cases hn : b.nStoreys with
      | none => rw [hn] at hw; cases hw
      | some n =>
        cases hsh : b.shelter with
        | none => rw [hn, hsh] at hw; cases hw
        | some s =>
          rw [hn, hsh] at hw
          cases s <;> simp only [shelterTable] at hw <;> split_ifs at hw <;>
            (cases hw; constructor <;> norm_num)

/-! ## A step of the simulation -/

/-- What the infiltration of a space needs: a leakage area needs a building with enough data; `cs`
and `cw` are its coefficients. -/
def Spec.Coefficients (s : Space) (cs cw : ℝ) : Prop :=
  ∀ area, s.infiltration = some (.leakageArea area) →
    ∃ b, s.building = some (some b) ∧ stackCoefficient b = .ok cs ∧ windCoefficient b = .ok cw

private theorem setState_ok {state : List ℝ} {i : ℕ} (h : i < state.length) (v : ℝ) :
    setState state i v = .ok (state.set i v) := by
  unfold setState; rw [if_pos h]

/-- The effect of the closure of one space. -/
theorem run_ok (terrain : Option Terrain) (s : Space) (cs cw : ℝ) (hcs : Spec.Coefficients s cs cw)
    (p : Prepared) (hp : p.dryBulb = s.dryBulb) (hres : resolve terrain s = .ok p.resolver)
    (w : Weather) (state : List ℝ) (d : ℕ) (tIn : ℝ) (hd : s.dryBulb = some d) (ht : state[d]? = some tIn)
    (h1 : p.volumeIndex < state.length) (h2 : p.temperatureIndex < state.length)
    (h4 : d ≠ p.temperatureIndex) :
    (s.infiltration = none → p.run w state = .ok state) ∧
    ∀ inf, s.infiltration = some inf → p.run w state
      = .ok ((state.set p.temperatureIndex w.dryBulb).set p.volumeIndex
          (Spec.flow (siteModifier terrain 1) cs cw tIn w.dryBulb w.windSpeed inf)) := by
  constructor
  · intro hn
    unfold resolve at hres
    rw [hn] at hres
    cases hr : p.resolver <;> rw [hr] at hres <;> first | (cases hres; done) | skip
    unfold Prepared.run
    rw [hr]
  · intro inf hinf
    have hs1 : setState state p.temperatureIndex w.dryBulb = .ok (state.set p.temperatureIndex w.dryBulb) :=
      setState_ok h2 _
    have hs2 : ∀ v, setState (state.set p.temperatureIndex w.dryBulb) p.volumeIndex v
        = .ok ((state.set p.temperatureIndex w.dryBulb).set p.volumeIndex v) :=
      fun v => setState_ok (by simpa using h1) v
    have ht' : (state.set p.temperatureIndex w.dryBulb)[d]? = some tIn := by
      rw [List.getElem?_set_ne (Ne.symm h4)]
      exact ht
    obtain ⟨f1, f2, f3, f4⟩ := C33_formulas w d (state.set p.temperatureIndex w.dryBulb) tIn
      (siteModifier terrain 1) cs cw ht'
    unfold resolve at hres
    rw [hinf] at hres
    rw [hd] at hp
    obtain ⟨pd, pv, pt, pr⟩ := p
    subst hp
    cases inf with
    | constant flow =>
      obtain rfl := Outcome.ok.inj hres
      simp only [Prepared.run]
      rw [hs1, Outcome.bind, hs2]
      rfl
    | blast flow =>
      obtain rfl := Outcome.ok.inj hres
      simp only [Prepared.run]
      rw [hs1, Outcome.bind, f2, Outcome.bind, hs2]
    | doe2 flow =>
      obtain rfl := Outcome.ok.inj hres
      simp only [Prepared.run]
      rw [hs1, Outcome.bind, f3, Outcome.bind, hs2]
    | designFlowRate a b c d phi =>
      obtain rfl := Outcome.ok.inj hres
      simp only [Prepared.run]
      rw [hs1, Outcome.bind, f1, Outcome.bind, hs2]
    | leakageArea area =>
      obtain ⟨b, hb, h5, h6⟩ := hcs area hinf
      simp only [hb, h5, h6, Outcome.bind] at hres
      obtain rfl := Outcome.ok.inj hres
      simp only [Prepared.run]
      rw [hs1, Outcome.bind, f4, Outcome.bind, hs2]

/-- What `new` does with the first space. -/
private theorem newLoop_cons {terrain : Option Terrain} {i : ℕ} {s : Space} {rest : List Space}
    {h h' : Header ℝ} {ps : List Prepared} (hn : newLoop terrain i (s :: rest) h = .ok (ps, h')) :
    ∃ r ps' h1, resolve terrain s = .ok r ∧
      ps = { dryBulb := s.dryBulb, volumeIndex := h.len, temperatureIndex := h.len + 1, resolver := r } :: ps' ∧
      h1.elements = h.elements ++ [.spaceInfiltrationVolume i, .spaceInfiltrationTemperature i] ∧
      newLoop terrain (i + 1) rest h1 = .ok (ps', h') := by
  unfold newLoop at hn
  simp only [Header.push, Element.isPersonal, Element.isOperational, Header.register,
    Bool.false_eq_true, if_false] at hn
  cases hd : h.defaultValues with
  | none => rw [hd] at hn; cases hn
  | some vs =>
    rw [hd] at hn
    simp only at hn
    cases hr : resolve terrain s with
    | err => rw [hr] at hn; cases hn
    | panic => rw [hr] at hn; cases hn
    | ok r =>
      rw [hr] at hn
      simp only [Outcome.bind] at hn
      split at hn
      · rename_i x heq
        obtain ⟨ps', h''⟩ := x
        obtain ⟨rfl, rfl⟩ := Prod.mk.inj (Outcome.ok.inj hn)
        refine ⟨r, ps', _, rfl, ?_, ?_, heq⟩
        · simp [Header.len]
        · simp
      · cases hn
      · cases hn

/-- The invariant of the loops. -/
private theorem step_aux (terrain : Option Terrain) (w : Weather) (cs cw : ℕ → ℝ) (n0 : ℕ) :
    ∀ (spaces : List Space) (i : ℕ) (h h' : Header ℝ) (ps : List Prepared) (state : List ℝ),
    newLoop terrain i spaces h = .ok (ps, h') → n0 ≤ h.len → h'.len ≤ state.length →
    (∀ (j : ℕ) (s : Space), spaces[j]? = some s → Spec.Coefficients s (cs (i + j)) (cw (i + j)) ∧
      ∃ d, s.dryBulb = some d ∧ d < n0) →
    h'.len = h.len + 2 * spaces.length ∧ h.elements <+: h'.elements ∧
    ∃ state', march w ps state = .ok state' ∧ state'.length = state.length ∧
    (∀ k, k < h.len ∨ h'.len ≤ k → state'[k]? = state[k]?) ∧
    ∀ (j : ℕ) (s : Space), spaces[j]? = some s →
      h'.elements[h.len + 2 * j]? = some (.spaceInfiltrationVolume (i + j)) ∧
      h'.elements[h.len + 2 * j + 1]? = some (.spaceInfiltrationTemperature (i + j)) ∧
      (s.infiltration = none → state'[h.len + 2 * j]? = state[h.len + 2 * j]? ∧
        state'[h.len + 2 * j + 1]? = state[h.len + 2 * j + 1]?) ∧
      ∀ inf, s.infiltration = some inf → ∀ d tIn, s.dryBulb = some d → state[d]? = some tIn →
        state'[h.len + 2 * j]? = some (Spec.flow (siteModifier terrain 1) (cs (i + j)) (cw (i + j))
          tIn w.dryBulb w.windSpeed inf) ∧
        state'[h.len + 2 * j + 1]? = some w.dryBulb := by
  intro spaces
  induction spaces with
  | nil =>
    intro i h h' ps state hn h0 hl hs
    unfold newLoop at hn
    obtain ⟨rfl, rfl⟩ := Prod.mk.inj (Outcome.ok.inj hn)
    refine ⟨by simp, List.prefix_rfl, state, rfl, rfl, fun _ _ => rfl, fun j s hj => by simp at hj⟩
  | cons s rest ih =>
    intro i h h' ps state hn h0 hl hs
    obtain ⟨r, ps', h1, hr, rfl, he, hn'⟩ := newLoop_cons hn
    have hlen1 : h1.len = h.len + 2 := by simp [Header.len, he]
    obtain ⟨hc, d, hd, hd0⟩ := hs 0 s (by simp)
    rw [Nat.add_zero] at hc
    -- the length of the final header, from the induction hypothesis with any state
    have hs' : ∀ (j : ℕ) (s' : Space), rest[j]? = some s' →
        Spec.Coefficients s' (cs (i + 1 + j)) (cw (i + 1 + j)) ∧ ∃ d, s'.dryBulb = some d ∧ d < n0 := by
      intro j s' hj
      have := hs (j + 1) s' (by simpa using hj)
      rwa [show i + (j + 1) = i + 1 + j by omega] at this
    have hlh : h'.len = h1.len + 2 * rest.length := by
      exact (ih (i + 1) h1 h' ps' (List.replicate h'.len 0) hn' (by omega) (by simp) hs').1
    have hdl : d < state.length := by omega
    obtain ⟨r1, r2⟩ := run_ok terrain s (cs i) (cw i) hc
      { dryBulb := s.dryBulb, volumeIndex := h.len, temperatureIndex := h.len + 1, resolver := r }
      rfl hr w state d state[d] hd (List.getElem?_eq_getElem hdl) (by simp only; omega)
      (by simp only; omega) (by simp only; omega)
    simp only at r1 r2
    -- the state after the first space
    obtain ⟨st1, hrun, hst1, hkeep, hnone, hsome⟩ : ∃ st1, Prepared.run w
        { dryBulb := s.dryBulb, volumeIndex := h.len, temperatureIndex := h.len + 1, resolver := r } state
          = .ok st1 ∧ st1.length = state.length ∧
        (∀ k, k ≠ h.len → k ≠ h.len + 1 → st1[k]? = state[k]?) ∧
        (s.infiltration = none → st1 = state) ∧
        (∀ inf, s.infiltration = some inf →
          st1[h.len]? = some (Spec.flow (siteModifier terrain 1) (cs i) (cw i) state[d] w.dryBulb w.windSpeed inf) ∧
          st1[h.len + 1]? = some w.dryBulb) := by
      cases hi : s.infiltration with
      | none => exact ⟨state, r1 hi, rfl, fun _ _ _ => rfl, fun _ => rfl, fun _ h => by cases h⟩
      | some inf =>
        refine ⟨_, r2 inf hi, by simp, ?_, fun hc => absurd hc (by simp), ?_⟩
        · intro k k1 k2
          rw [List.getElem?_set_ne (Ne.symm k1), List.getElem?_set_ne (Ne.symm k2)]
        · intro inf' hinf
          cases hinf
          constructor
          · rw [List.getElem?_set_self (by simp; omega)]
          · rw [List.getElem?_set_ne (by omega), List.getElem?_set_self (by omega)]
    obtain ⟨_, hpre, st2, hm, hl2, hk2, hj2⟩ := ih (i + 1) h1 h' ps' st1 hn' (by omega) (by omega) hs'
    have hpre0 : h.elements <+: h1.elements := by rw [he]; exact List.prefix_append _ _
    refine ⟨by simp; omega, hpre0.trans hpre, st2, ?_, by omega, ?_, ?_⟩
    · unfold march
      rw [hrun]
      exact hm
    · intro k hk
      rw [hk2 k (by omega), hkeep k (by omega) (by omega)]
    · intro j s' hj
      cases j with
      | zero =>
        obtain rfl : s = s' := by simpa using hj
        simp only [Nat.mul_zero, Nat.add_zero]
        refine ⟨?_, ?_, ?_, ?_⟩
        · rw [prefix_getElem? hpre (by rw [he]; simp [Header.len]), he]
          simp [Header.len]
        · rw [prefix_getElem? hpre (by rw [he]; simp [Header.len]), he]
          simp [Header.len]
        · intro hi
          rw [hk2 _ (by omega), hk2 _ (by omega), hnone hi]
          exact ⟨rfl, rfl⟩
        · intro inf hi d' tIn hd' ht
          rw [hd] at hd'
          cases hd'
          rw [List.getElem?_eq_getElem hdl] at ht
          cases ht
          rw [hk2 _ (by omega), hk2 _ (by omega)]
          exact hsome inf hi
      | succ j =>
        have hj' : rest[j]? = some s' := by simpa using hj
        obtain ⟨q1, q2, q3, q4⟩ := hj2 j s' hj'
        have e1 : h1.len + 2 * j = h.len + 2 * (j + 1) := by omega
        have e2 : i + 1 + j = i + (j + 1) := by omega
        rw [e1, e2] at q1 q2
        rw [e1] at q3
        rw [e1, e2] at q4
        refine ⟨q1, q2, ?_, ?_⟩
        · intro hi
          obtain ⟨a1, a2⟩ := q3 hi
          rw [a1, a2, hkeep _ (by omega) (by omega), hkeep _ (by omega) (by omega)]
          exact ⟨rfl, rfl⟩
        · intro inf hi d' tIn hd' ht
          obtain ⟨_, d'', hd'', hlt⟩ := hs' j s' hj'
          rw [hd''] at hd'
          cases hd'
          exact q4 inf hi _ tIn hd'' (by rw [hkeep _ (by omega) (by omega)]; exact ht)

/-- C33: after the model is created the infiltration of every space has its own pair of elements of the
state; a step sets the temperature of each to that outdoors and its volume to the flow of its space with
the temperature that the space had before the step, and changes nothing else of the state. -/
theorem C33_step (terrain : Option Terrain) (w : Weather) (spaces : List Space) (h h' : Header ℝ)
    (ps : List Prepared) (state : List ℝ) (cs cw : ℕ → ℝ)
    (hnew : newLoop terrain 0 spaces h = .ok (ps, h')) (hstate : h'.len ≤ state.length)
    (hspaces : ∀ (i : ℕ) (s : Space), spaces[i]? = some s → Spec.Coefficients s (cs i) (cw i) ∧
      ∃ d, s.dryBulb = some d ∧ d < h.len) :
    ∃ state', march w ps state = .ok state' ∧ state'.length = state.length ∧
    (∀ k : ℕ, (∀ (i : ℕ) (s : Space), spaces[i]? = some s → s.infiltration ≠ none →
        h'.elements[k]? ≠ some (Element.spaceInfiltrationVolume i) ∧
        h'.elements[k]? ≠ some (Element.spaceInfiltrationTemperature i)) → state'[k]? = state[k]?) ∧
    ∀ (i : ℕ) (s : Space) (inf : Infiltration) (d : ℕ) (tIn : ℝ), spaces[i]? = some s →
      s.infiltration = some inf → s.dryBulb = some d → state[d]? = some tIn →
      ∃ v t : ℕ, v ≠ t ∧ h'.elements[v]? = some (.spaceInfiltrationVolume i) ∧
        h'.elements[t]? = some (.spaceInfiltrationTemperature i) ∧ h.len ≤ v ∧ h.len ≤ t ∧
        state'[v]? = some (Spec.flow (siteModifier terrain 1) (cs i) (cw i) tIn w.dryBulb w.windSpeed inf) ∧
        state'[t]? = some w.dryBulb := by
  obtain ⟨hl, hpre, st, hm, hls, hk, hj⟩ := step_aux terrain w cs cw h.len spaces 0 h h' ps state hnew
    le_rfl hstate (by simpa using hspaces)
  refine ⟨st, hm, hls, ?_, ?_⟩
  · intro k hkk
    by_cases hin : h.len ≤ k ∧ k < h'.len
    · obtain ⟨j, hj' | hj'⟩ : ∃ j, k = h.len + 2 * j ∨ k = h.len + 2 * j + 1 :=
        ⟨(k - h.len) / 2, by omega⟩
      all_goals
        have hjlt : j < spaces.length := by omega
        obtain ⟨q1, q2, q3, q4⟩ := hj j _ (List.getElem?_eq_getElem hjlt)
        have hsp := hkk j _ (List.getElem?_eq_getElem hjlt)
        rw [Nat.zero_add] at q1 q2
        by_cases hi : spaces[j].infiltration = none
        · subst hj'
          first | exact (q3 hi).1 | exact (q3 hi).2
        · subst hj'
          first | exact absurd q1 (hsp hi).1 | exact absurd q2 (hsp hi).2
    · exact hk k (by omega)
  · intro i s inf d tIn hi hinf hd ht
    obtain ⟨q1, q2, q3, q4⟩ := hj i s hi
    rw [Nat.zero_add] at q1 q2 q4
    obtain ⟨a1, a2⟩ := q4 inf hinf d tIn hd ht
    exact ⟨_, _, by omega, q1, q2, by omega, by omega, a1, a2⟩

/-- C33: the model is refused exactly if some space has a leakage area and lacks the data of its building;
never panics. -/
theorem C33_refused (terrain : Option Terrain) (spaces : List Space) (h : Header ℝ) (vs : List ℝ)
    (hv : h.defaultValues = some vs) :
    (∃ ps h', newLoop terrain 0 spaces h = .ok (ps, h')) ∨
    (newLoop terrain 0 spaces h = .err ∧ ∃ s ∈ spaces, ∃ area, s.infiltration = some (.leakageArea area) ∧
      ∀ b, s.building = some (some b) → stackCoefficient b = .err ∨ windCoefficient b = .err) := by
  suffices H : ∀ i vs (h : Header ℝ), h.defaultValues = some vs →
      (∃ ps h', newLoop terrain i spaces h = .ok (ps, h')) ∨
      (newLoop terrain i spaces h = .err ∧ ∃ s ∈ spaces, ∃ area, s.infiltration = some (.leakageArea area) ∧
        ∀ b, s.building = some (some b) → stackCoefficient b = .err ∨ windCoefficient b = .err) from
    H 0 vs h hv
  clear hv h vs
  induction spaces with
  | nil => intro i vs h hv; exact Or.inl ⟨[], h, rfl⟩
  | cons s rest ih =>
    intro i vs h hv
    have hstack : ∀ b, (∃ c, stackCoefficient b = .ok c) ∨ stackCoefficient b = .err := by
      intro b; unfold stackCoefficient
      cases b.stackCoefficient <;> cases b.nStoreys <;> simp only <;> (try split_ifs) <;> simp
    have hwind : ∀ b, (∃ c, windCoefficient b = .ok c) ∨ windCoefficient b = .err := by
      intro b; unfold windCoefficient
      cases b.windCoefficient <;> cases b.nStoreys <;> cases b.shelter <;> simp
    have hres : (∃ r, resolve terrain s = .ok r) ∨ (resolve terrain s = .err ∧
        ∃ area, s.infiltration = some (.leakageArea area) ∧
        ∀ b, s.building = some (some b) → stackCoefficient b = .err ∨ windCoefficient b = .err) := by
      unfold resolve
      cases hi : s.infiltration with
      | none => exact Or.inl ⟨_, rfl⟩
      | some inf =>
        cases inf with
        | constant => exact Or.inl ⟨_, rfl⟩
        | blast => exact Or.inl ⟨_, rfl⟩
        | doe2 => exact Or.inl ⟨_, rfl⟩
        | designFlowRate => exact Or.inl ⟨_, rfl⟩
        | leakageArea area =>
          cases hb : s.building with
          | none => exact Or.inr ⟨rfl, area, rfl, fun b hb => by cases hb⟩
          | some ob =>
            cases ob with
            | none => exact Or.inr ⟨rfl, area, rfl, fun b hb => by cases hb⟩
            | some b =>
              rcases hstack b with ⟨c, hc⟩ | hc
              · rcases hwind b with ⟨c', hc'⟩ | hc'
                · left; simp only [hc, hc', Outcome.bind]; exact ⟨_, rfl⟩
                · right; simp only [hc, hc', Outcome.bind]
                  exact ⟨trivial, area, rfl, fun b' hb' => by cases hb'; exact Or.inr hc'⟩
              · right; simp only [hc, Outcome.bind]
                exact ⟨trivial, area, rfl, fun b' hb' => by cases hb'; exact Or.inl hc⟩
    unfold newLoop
    simp only [Header.push, Element.isPersonal, Element.isOperational, Header.register,
      Bool.false_eq_true, if_false, hv]
    rcases hres with ⟨r, hr⟩ | ⟨hr, area, ha, hb⟩
    · simp only [hr, Outcome.bind]
      rcases ih (i + 1) _ (Header.mk h.nOperational h.nIndividual true true
        (h.elements ++ [Element.spaceInfiltrationVolume i] ++ [Element.spaceInfiltrationTemperature i])
        (some (vs ++ [0] ++ [0]))) rfl with ⟨ps, h', hn⟩ | ⟨hn, s', hs', rest'⟩
      · left; rw [hn]; exact ⟨_, _, rfl⟩
      · right; rw [hn]; exact ⟨rfl, s', List.mem_cons_of_mem _ hs', rest'⟩
    · right
      simp only [hr, Outcome.bind]
      exact ⟨trivial, s, List.mem_cons_self, area, ha, hb⟩

/-- C33 is not vacuous: a space with a leakage area in a two storey sheltered building. -/
example : ∃ (ps : List Prepared) (h' : Header ℝ),
    newLoop none 0 [⟨some (.leakageArea 0.05),
      some (some ⟨none, none, some 2, some .urban⟩), some 0⟩]
      ⟨0, 0, false, false, [.spaceDryBulbTemperature 0], some [20]⟩ = .ok (ps, h') ∧ h'.len = 3 := by
  refine ⟨_, _, rfl, rfl⟩

example : Spec.Coefficients ⟨some (.leakageArea 0.05),
    some (some ⟨none, none, some 2, some .urban⟩), some 0⟩ 0.000290 0.000231 := by
  intro area _
  exact ⟨_, rfl, by simp [stackCoefficient], by simp [windCoefficient, shelterTable]⟩

end Simple.Air
