import Verif.Heat.WithinProps

/-! # C29: surfaces of several chunks -/

namespace Simple.Heat

open Simple.Matrix Spec

section

variable {F : Type*} [Field F]

/-- The step of a chunk depends on its nodes and on those next to it. -/
theorem step_congr (a : Around F) (N : ℕ) (U T S : ℕ → F) (dt : F) (c solar : ℕ → F) (ini n : ℕ)
    (h : ∀ g, ini ≤ g + 1 → g ≤ ini + n → T g = S g) : (a.wall N U T).step dt c solar ini n = (a.wall N U S).step dt c solar ini n := by
  have hT : (fun i : Fin n => T (ini + i)) = fun i : Fin n => S (ini + i) := by
    funext i
    have := i.2
    exact h _ (by omega) (by omega)
  have hq : (a.wall N U T).q ini n = (a.wall N U S).q ini n := by
    funext i
    have hi := i.2
    have e1 : (a.wall N U T).tBefore ini = (a.wall N U S).tBefore ini := by
      unfold Wall.tBefore
      split_ifs with h0
      · rfl
      · exact h _ (by omega) (by omega)
    have e2 : (a.wall N U T).tAfter (ini + i) = (a.wall N U S).tAfter (ini + i) := by
      show (if ini + i.val + 1 = N then a.back.airTemperature else T (ini + i.val + 1)) =
        if ini + i.val + 1 = N then a.back.airTemperature else S (ini + i.val + 1)
      rw [h (ini + i.val + 1) (by omega) (by omega)]
    have e3 : (a.wall N U T).radiation (ini + i) = (a.wall N U S).radiation (ini + i) := by
      have : (a.wall N U T).T (ini + i) = (a.wall N U S).T (ini + i) := h _ (by omega) (by omega)
      unfold Wall.radiation
      rw [this]
      rfl
    unfold Wall.q
    rw [e1, e2, e3]
    rfl
  have hv : (a.wall N U T).flowVector dt c solar ini n = (a.wall N U S).flowVector dt c solar ini n := by
    unfold Wall.flowVector
    rw [hq]
  unfold Wall.step
  rw [hv]
  congr 1

end

section

variable (cav : CavityU ℝ) (segments : List (ℝ × UValue ℝ)) (U : ℕ → ℝ) (c : ℕ → ℝ) (hc : HasMass c segments)
  (a : Around ℝ) (dt : ℝ)

namespace Spec

/-- Temperatures, as a function. -/
def valuesOf (t : List ℝ) (g : ℕ) : ℝ := (t[g]?).getD 0

/-- The conductances next to the nodes of the chunks are always the same; so only cavities that are not next to them may have others. -/
def Steady (chunks : List (ℕ × ℕ)) : Prop :=
  ∀ i x, i + 1 < segments.length → segments[i]? = some x → (∃ u, ∀ t1 t2, x.2.uValue cav t1 t2 = .ok u) ∨
    ∀ y ∈ chunks, ¬ (y.1 ≤ i ∧ i < y.2) ∧ ¬ (y.1 ≤ i + 1 ∧ i + 1 < y.2)

end Spec

include hc in
/-- Chunks with mass that are not next to each other, marched one after the other. -/
theorem chunks_march : ∀ (chunks : List (ℕ × ℕ)) (mems : List (ChunkMemory ℝ)) (t : List ℝ),
    (a.wall segments.length U (valuesOf t)).Held cav segments t → Steady cav segments chunks →
    (∀ x ∈ chunks, x.1 + 2 ≤ x.2 ∧ x.2 ≤ segments.length) → chunks.Pairwise (fun x y => x.2 < y.1) →
    List.Forall₂ (fun x m => Fits (x.2 - x.1) m) chunks mems →
    ∃ t' mems', chunksLoop (fun ini fin m x => marchMass cav segments x ((List.range segments.length).map a.solar) dt a.front a.frontHs a.frontRad
        a.back a.backHs a.backRad ini fin m) chunks mems t = .ok (t', mems') ∧ t'.length = segments.length ∧
      List.Forall₂ (fun x m => Fits (x.2 - x.1) m) chunks mems' ∧
      (∀ x ∈ chunks, ∀ i : Fin (x.2 - x.1),
        t'[x.1 + i.val]? = some ((a.wall segments.length U (valuesOf t)).step dt c a.solar x.1 (x.2 - x.1) i)) ∧
      ∀ g, (∀ x ∈ chunks, ¬ (x.1 ≤ g ∧ g < x.2)) → t'[g]? = t[g]?
  | [], mems, t, hl, _, _, _, hm => by
    cases hm
    exact ⟨t, [], rfl, by rw [hl.temperatures]; simp [Around.wall], .nil, by simp, fun _ _ => rfl⟩
  | x :: chunks, mems, t, held, hu, hx, hp, hm => by
    obtain ⟨m, mems, hm1, hm2, rfl⟩ := List.forall₂_cons_left_iff.1 hm
    obtain ⟨hp1, hp2⟩ := List.pairwise_cons.1 hp
    obtain ⟨x1, x2⟩ := hx x (by simp)
    obtain ⟨M0, hk⟩ := hm1.k
    obtain ⟨t1, m1, p1, p2, p3, p4, p5⟩ := C29_march_partial (a.wall segments.length U (valuesOf t)) cav segments t held c a.solar hc dt x.1
      (x.2 - x.1) (by omega) (by show x.1 + (x.2 - x.1) ≤ segments.length; omega) m hm1.sized hm1.c hm1.q M0 hk
    have ex : x.1 + (x.2 - x.1) = x.2 := by omega
    rw [ex] at p1 p4
    have held1 : (a.wall segments.length U (valuesOf t1)).Held cav segments t1 := by
      refine ⟨rfl, ?_, fun i y h1 h2 => ?_⟩
      · have p2' : t1.length = segments.length := p2
        apply List.ext_getElem (by simp [Around.wall, p2'])
        intro j j1 j2
        simp [Around.wall, valuesOf, List.getElem?_eq_getElem j1]
      · have h0 := held.conductance i y h1 h2
        rcases hu i y h1 h2 with ⟨u, hu⟩ | hu
        · rw [hu] at h0 ⊢
          exact h0
        · obtain ⟨u1, u2⟩ := hu x (by simp)
          have e1 : valuesOf t1 i = valuesOf t i := by unfold valuesOf; rw [p4 i u1]
          have e2 : valuesOf t1 (i + 1) = valuesOf t (i + 1) := by unfold valuesOf; rw [p4 _ u2]
          show y.2.uValue cav (valuesOf t1 i) (valuesOf t1 (i + 1)) = .ok (U i)
          rw [e1, e2]
          exact h0
    obtain ⟨t', mems', q1, q2, q3, q4, q5⟩ := chunks_march chunks mems t1 held1
      (fun i y h1 h2 => (hu i y h1 h2).imp id fun h z hz => h z (by simp [hz])) (fun y hy => hx y (by simp [hy])) hp2 hm2
    refine ⟨t', m1 :: mems', ?_, q2, .cons p5 q3, ?_, ?_⟩
    · rw [chunksLoop, show marchMass cav segments t ((List.range segments.length).map a.solar) dt a.front a.frontHs a.frontRad
        a.back a.backHs a.backRad x.1 x.2 m = _ from p1]
      simp only [Outcome.bind, q1]
    · intro y hy i
      rcases List.mem_cons.1 hy with rfl | hy
      · have hi := i.2
        rw [q5 _ (fun z hz => by have := hp1 z hz; omega), p3]
      · have hi := i.2
        rw [q4 y hy i]
        congr 1
        refine congrFun (step_congr a segments.length U _ _ dt c a.solar y.1 (y.2 - y.1) fun g g1 g2 => ?_) i
        unfold valuesOf
        rw [p4 g (by have := hp1 y hy; omega)]
    · intro g hg
      rw [q5 g (fun z hz => hg z (by simp [hz])), p4 g (hg x (by simp))]

end

/-! ## Nodes without mass only change in their chunks -/

section

variable {F : Type*} [Field F]

private theorem halfway_outside (temps : List F) : ∀ (count localI globalI : ℕ) (l l' : List F),
    halfway temps count localI globalI l = .ok l' → l'.length = l.length ∧ ∀ g, ¬ (globalI ≤ g ∧ g < globalI + count) → l'[g]? = l[g]?
  | 0, localI, globalI, l, l', h => by
    cases h
    exact ⟨rfl, fun _ _ => rfl⟩
  | count + 1, localI, globalI, l, l', h => by
    rw [halfway] at h
    cases h1 : Outcome.index temps localI with
    | err => rw [h1] at h; cases h
    | panic => rw [h1] at h; cases h
    | ok v =>
      rw [h1] at h
      simp only [Outcome.bind] at h
      cases h2 : getT l globalI with
      | err => rw [h2] at h; cases h
      | panic => rw [h2] at h; cases h
      | ok t =>
        rw [h2] at h
        simp only at h
        obtain ⟨e1, e2⟩ := halfway_outside temps count _ _ _ _ h
        refine ⟨by simpa using e1, fun g hg => ?_⟩
        rw [e2 g (by omega), List.getElem?_set_ne (by omega)]

private theorem bind_ok {α β : Type*} {x : Outcome α} {f : α → Outcome β} {y : β} (h : x.bind f = .ok y) : ∃ z, x = .ok z ∧ f z = .ok y := by
  cases x with
  | ok z => exact ⟨z, rfl, h⟩
  | err => cases h
  | panic => cases h

private theorem loop_outside [LinearOrder F] (tiny : F) (cav : CavityU F) (segments : List (F × UValue F)) (solar : List F)
    (front : Env F) (frontHs frontRadHs : F) (back : Env F) (backHs backRadHs : F) (ini fin : ℕ) (hif : ini ≤ fin) (left : ℕ) :
    ∀ (oldErr : F) (l l' : List F) (mem mem' : ChunkMemory F),
    nomassLoop tiny cav segments solar front frontHs frontRadHs back backHs backRadHs ini fin left oldErr l mem = .ok (l', mem') →
    l'.length = l.length ∧ ∀ g, ¬ (ini ≤ g ∧ g < fin) → l'[g]? = l[g]? := by
  induction left with
  | zero =>
    intro oldErr l l' mem mem' h
    rw [nomassLoop] at h
    obtain ⟨x, -, h⟩ := bind_ok h
    obtain ⟨total, -, h⟩ := bind_ok h
    by_cases h1 : total / ((fin - ini : ℕ) : F) > oldErr
    · have h := (if_pos h1).symm.trans h
      cases h
      exact ⟨rfl, fun _ _ => rfl⟩
    · obtain ⟨l1, e, h⟩ := bind_ok ((if_neg h1).symm.trans h)
      obtain ⟨e1, e2⟩ := halfway_outside _ _ _ _ _ _ e
      simp only [ite_self] at h
      cases h
      exact ⟨e1, fun g hg => e2 g (by omega)⟩
  | succ left ih =>
    intro oldErr l l' mem mem' h
    rw [nomassLoop] at h
    obtain ⟨x, -, h⟩ := bind_ok h
    obtain ⟨total, -, h⟩ := bind_ok h
    by_cases h1 : total / ((fin - ini : ℕ) : F) > oldErr
    · have h := (if_pos h1).symm.trans h
      cases h
      exact ⟨rfl, fun _ _ => rfl⟩
    · obtain ⟨l1, e, h⟩ := bind_ok ((if_neg h1).symm.trans h)
      obtain ⟨e1, e2⟩ := halfway_outside _ _ _ _ _ _ e
      by_cases h2 : total / ((fin - ini : ℕ) : F) < allowedError (19001 - (left + 1))
      · have h := (if_pos h2).symm.trans h
        cases h
        exact ⟨e1, fun g hg => e2 g (by omega)⟩
      · obtain ⟨i1, i2⟩ := ih _ _ _ _ _ ((if_neg h2).symm.trans h)
        exact ⟨i1.trans e1, fun g hg => (i2 g hg).trans (e2 g (by omega))⟩

end

private theorem nomass_outside (march : MarchChunk)
    (hmarch : ∀ ini fin m t t' m', ini ≤ fin → march ini fin m t = .ok (t', m') → t'.length = t.length ∧ ∀ g : ℕ, ¬ (ini ≤ g ∧ g < fin) → t'[g]? = t[g]?) :
    ∀ (chunks : List (ℕ × ℕ)) (mems : List (ChunkMemory ℝ)) (t t' : List ℝ) (mems' : List (ChunkMemory ℝ)), (∀ x ∈ chunks, x.1 ≤ x.2) →
    chunksLoop march chunks mems t = .ok (t', mems') →
    t'.length = t.length ∧ ∀ g : ℕ, (∀ x ∈ chunks, ¬ (x.1 ≤ g ∧ g < x.2)) → t'[g]? = t[g]?
  | [], mems, t, t', mems', _, h => by
    cases h
    exact ⟨rfl, fun _ _ => rfl⟩
  | x :: chunks, [], t, t', mems', _, h => by cases h
  | x :: chunks, m :: mems, t, t', mems', hx, h => by
    rw [chunksLoop] at h
    obtain ⟨⟨t1, m1⟩, h1, h⟩ := bind_ok h
    obtain ⟨⟨t2, m2⟩, h2, h⟩ := bind_ok h
    cases h
    obtain ⟨a1, a2⟩ := hmarch _ _ _ _ _ _ (hx x (by simp)) h1
    obtain ⟨b1, b2⟩ := nomass_outside march hmarch chunks mems t1 t2 m2 (fun y hy => hx y (by simp [hy])) h2
    exact ⟨b1.trans a1, fun g hg => (b2 g fun y hy => hg y (by simp [hy])).trans (a2 g (hg x (by simp)))⟩

/-! ## Surfaces -/

noncomputable section

namespace Spec

/-- The sun that a node absorbs: what reaches each side of the surface, by what the node absorbs of it. -/
def sunAt (s : Surf) (r : Readings) (g : ℕ) : ℝ :=
  (s.frontAlphas[g]?).getD 0 * max 0 (r.solarFront.getD 0) + (s.backAlphas[g]?).getD 0 * r.solarBack.getD 0

end Spec

theorem absorbed_sun (s : Surf) (hs : Chunked s) (r : Readings) :
    absorbedSun s r s.segments.length = .ok ((List.range s.segments.length).map (sunAt s r)) := by
  have h1 := C87_front_sun_partial r
  have h2 : (solarIrradiance r).2 = r.solarBack.getD 0 := by
    cases hb : r.solarBack with
    | none =>
      unfold solarIrradiance
      simp [hb]
    | some v => exact C87_violated_back_sun r v hb
  unfold absorbedSun
  rw [if_pos hs.frontAlphas, if_pos hs.backAlphas, h1, h2]
  congr 1
  have key : ∀ (a b : List ℝ) (x y : ℝ), a.length = b.length → addAssign (scaleList a x) (scaleList b y) =
      (List.range a.length).map fun g => (a[g]?).getD 0 * x + (b[g]?).getD 0 * y := by
    intro a
    induction a with
    | nil =>
      intro b x y h
      cases b with
      | nil => simp [scaleList, addAssign]
      | cons _ _ => cases h
    | cons u a ih =>
      intro b x y h
      cases b with
      | nil => cases h
      | cons v b =>
        have := ih b x y (by simpa using h)
        simp only [scaleList, List.map_cons, addAssign] at this ⊢
        rw [this, List.length_cons, List.range_succ_eq_map]
        simp
  rw [key _ _ _ _ (hs.frontAlphas.trans hs.backAlphas.symm), hs.frontAlphas]
  rfl

/-- C29: in a time step each node with mass of a surface goes where the equations of its chunk, solved to fourth order, lead it, from the temperatures
`t` that there are after those without mass are balanced; all from the same temperatures, although the chunks are marched one after the other.  The
balance of the nodes without mass changes no others, and these do not change them in turn.

Missing: what `t` is for the nodes without mass, for which see C85; surfaces whose chunks with mass are next to each other or have a single node, or
with cavities next to them. -/
theorem C29_surface_partial (s : Surf) (hs : Chunked s) (apart : s.massiveChunks.Pairwise fun x y => x.2 < y.1) (tiny : ℝ) (cav : CavityU ℝ)
    (steady : Steady cav s.segments s.massiveChunks) (m : Moment) (dt : ℝ) (c : ℕ → ℝ) (hc : HasMass c s.segments) (f b : ConvectionParams × ℝ)
    (border : borderConditions s m.readings m.tFront m.tBack m.windDirection m.windSpeed = .ok (f, b)) (mem mem' : SurfaceMemory)
    (hf : Fitting s mem) (hl : mem.temperatures.length = s.segments.length)
    (h : s.march tiny cav m.readings m.tFront m.tBack m.windDirection m.windSpeed dt mem = .ok mem') :
    ∃ t : List ℝ, t.length = s.segments.length ∧
      (∀ g, (∀ x ∈ s.nomassChunks, ¬ (x.1 ≤ g ∧ g < x.2)) → t[g]? = mem.temperatures[g]?) ∧
      ∀ U, ((around s f b).wall s.segments.length U (valuesOf t)).Held cav s.segments t →
        (∀ x ∈ s.massiveChunks, ∀ i : Fin (x.2 - x.1), mem'.temperatures[x.1 + i.val]? =
          some (((around s f b).wall s.segments.length U (valuesOf t)).step dt c (sunAt s m.readings) x.1 (x.2 - x.1) i)) ∧
        ∀ g, (∀ x ∈ s.massiveChunks, ¬ (x.1 ≤ g ∧ g < x.2)) → mem'.temperatures[g]? = t[g]? := by
  unfold Surf.march at h
  rw [hl, absorbed_sun s hs, border] at h
  obtain ⟨sun, hsun, h⟩ := bind_ok h
  cases hsun
  obtain ⟨x, hx, h⟩ := bind_ok h
  cases hx
  obtain ⟨⟨t, nm⟩, ht, h⟩ := bind_ok h
  obtain ⟨⟨t', mm⟩, ht', h⟩ := bind_ok h
  cases h
  obtain ⟨n1, n2⟩ := nomass_outside _ (fun ini fin m t t' m' hif e => loop_outside _ _ _ _ _ _ _ _ _ _ ini fin hif 19001 _ _ _ _ _ e)
    s.nomassChunks _ _ _ _ (fun x hx => le_of_lt (hs.nomass x hx).1) ht
  refine ⟨t, n1.trans hl, n2, fun U held => ?_⟩
  obtain ⟨t2, mm2, p1, p2, p3, p4, p5⟩ := chunks_march cav s.segments U c hc { around s f b with solar := sunAt s m.readings } dt s.massiveChunks
    mem.massiveChunks t held steady hs.massive apart hf.massive
  have e := ht'.symm.trans p1
  cases e
  exact ⟨p4, p5⟩

/-- `C29_surface_partial` is not vacuous: the leaves of a wall with a cavity, on a sunless day. -/
example (cavity : Cavity ℝ) (m : Moment)
    (hd : (m.readings.solarFront = some 0 ∨ m.readings.solarFront = none) ∧ (m.readings.solarBack = some 0 ∨ m.readings.solarBack = none))
    (hr : (0 ≤ m.readings.front ∧ m.readings.front ≤ 30) ∧ 0 ≤ m.readings.back ∧ m.readings.back ≤ 30) (hb : 0 ≤ m.tBack ∧ m.tBack ≤ 30)
    (f b : ConvectionParams × ℝ)
    (border : borderConditions (exampleLeaves cavity) m.readings m.tFront m.tBack m.windDirection m.windSpeed = .ok (f, b)) :
    ∃ mem mem' t, (exampleLeaves cavity).allocate [20, 21, 8, 7, 30, 0] = .ok mem ∧
      (exampleLeaves cavity).march 1e-9 (fun _ t1 t2 => .ok (1 + (t1 - t2) ^ 2 / 900)) m.readings m.tFront m.tBack m.windDirection m.windSpeed 300 mem
        = .ok mem' ∧
      mem'.temperatures[4]? = some (((around (exampleLeaves cavity) f b).wall 6
        (fun i => if i = 0 then 2 else if i = 1 then 1 else if i = 2 then 1 + (valuesOf t 2 - valuesOf t 3) ^ 2 / 900 else if i = 3 then 3 else 2)
        (valuesOf t)).step 300 (massOf (exampleLeaves cavity).segments) (sunAt (exampleLeaves cavity) m.readings) 4 2 0) ∧
      t[4]? = some 30 := by
  obtain ⟨mem, a1, a2, a3⟩ := C87_allocated (exampleLeaves cavity) [20, 21, 8, 7, 30, 0]
  have hch : Chunked (exampleLeaves cavity) := ⟨rfl, rfl, by simp [exampleLeaves], by simp [exampleLeaves]⟩
  have hmass : HasMass (massOf (exampleLeaves cavity).segments) (exampleLeaves cavity).segments := by
    intro i s hi
    simp [massOf, hi]
  obtain ⟨mem', b1, -, -⟩ := C116_surface_partial (exampleLeaves cavity) hch 1e-9 (by norm_num) (fun _ t1 t2 => .ok (1 + (t1 - t2) ^ 2 / 900)) 300 0 30
    (massOf (exampleLeaves cavity).segments) hmass m
    (exampleLeaves_mild cavity _ (fun t1 t2 h1 h2 => ⟨_, rfl, by nlinarith [sq_nonneg (t1 - t2)], by nlinarith⟩) m hd hr hb) mem a2
    (by
      rw [a3]
      refine ⟨rfl, fun x hx => ?_⟩
      simp only [List.mem_cons, List.not_mem_nil, or_false] at hx
      rcases hx with rfl | rfl | rfl | rfl | rfl | rfl <;> norm_num)
  obtain ⟨t, t1, t2, t3⟩ := C29_surface_partial (exampleLeaves cavity) hch (by simp [exampleLeaves]) 1e-9 (fun _ t1 t2 => .ok (1 + (t1 - t2) ^ 2 / 900))
    (by
      intro i x hi hx
      have : i + 1 < 6 := hi
      have : i = 0 ∨ i = 1 ∨ i = 2 ∨ i = 3 ∨ i = 4 := by omega
      rcases this with rfl | rfl | rfl | rfl | rfl <;> simp [exampleLeaves] at hx <;> subst hx
      · exact .inl ⟨_, fun _ _ => rfl⟩
      · exact .inl ⟨_, fun _ _ => rfl⟩
      · exact .inr (by simp [exampleLeaves])
      · exact .inl ⟨_, fun _ _ => rfl⟩
      · exact .inl ⟨_, fun _ _ => rfl⟩)
    m 300 _ hmass f b border mem mem' a2 (by rw [a3]; rfl) b1
  have held := t3 (fun i => if i = 0 then 2 else if i = 1 then 1 else if i = 2 then 1 + (valuesOf t 2 - valuesOf t 3) ^ 2 / 900
    else if i = 3 then 3 else 2) ⟨rfl, by
      apply List.ext_getElem (by simp [Around.wall, t1])
      intro j j1 j2
      simp [Around.wall, valuesOf, List.getElem?_eq_getElem j1], by
      intro i x hi hx
      have : i + 1 < 6 := hi
      have : i = 0 ∨ i = 1 ∨ i = 2 ∨ i = 3 ∨ i = 4 := by omega
      rcases this with rfl | rfl | rfl | rfl | rfl <;> simp [exampleLeaves] at hx <;> subst hx <;> rfl⟩
  refine ⟨mem, mem', t, a1, b1, held.1 (4, 6) (by simp [exampleLeaves]) (0 : Fin 2), ?_⟩
  rw [t2 4 (by simp [exampleLeaves]), a3]
  rfl

end

end Simple.Heat
