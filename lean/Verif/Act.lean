import Verif.Prelude

/-! # Methods that change the state also when they fail

A Rust method that takes `&mut self` and returns a `Result` is a function from the state to the outcome and the state
that is left, also when the method fails. -/

namespace Simple

/-- A method on the state `σ`. -/
def Act (σ α : Type _) := σ → Outcome α × σ

namespace Act

variable {σ α β : Type _}

/-- Sequencing with `?`: the first failure ends the method, and the state stays as it is at that point. -/
protected def bind (m : Act σ α) (f : α → Act σ β) : Act σ β := fun s =>
  match m s with
  | (.ok a, s') => f a s'
  | (.err, s') => (.err, s')
  | (.panic, s') => (.panic, s')

instance : Monad (Act σ) where
  pure a := fun s => (.ok a, s)
  bind := Act.bind

/-- A computation that does not touch the state. -/
def lift (o : Outcome α) : Act σ α := fun s => (o, s)

def get : Act σ σ := fun s => (.ok s, s)

def modify (f : σ → σ) : Act σ Unit := fun s => (.ok (), f s)

def err : Act σ α := fun s => (.err, s)

def panic : Act σ α := fun s => (.panic, s)

/-- `if let Some(x) = o { f(x)? }`. -/
def whenSome (o : Option α) (f : α → Act σ Unit) : Act σ Unit :=
  match o with
  | some a => f a
  | none => pure ()

/-- `if b { f }`. -/
def when (b : Bool) (f : Act σ Unit) : Act σ Unit := if b then f else pure ()

/-- `for x in l { f(x)? }`. -/
def each (f : α → Act σ Unit) : List α → Act σ Unit
  | [] => pure ()
  | a :: t => do f a; each f t

/-- From the state `s` the method ends well with `Q`, or fails and leaves `E`. -/
def Sat (m : Act σ α) (s : σ) (Q : α → σ → Prop) (E : σ → Prop) : Prop :=
  match m s with
  | (.ok a, s') => Q a s'
  | (.err, s') => E s'
  | (.panic, s') => E s'

theorem sat_bind {m : Act σ α} {f : α → Act σ β} {s : σ} {Q : β → σ → Prop} {E : σ → Prop}
    (h : m.Sat s (fun a s' => (f a).Sat s' Q E) E) : (m >>= f).Sat s Q E := by
  show (Act.bind m f).Sat s Q E
  unfold Sat Act.bind at *
  cases hm : m s with
  | mk o s' =>
    rw [hm] at h
    cases o <;> simpa using h

theorem sat_pure {a : α} {s : σ} {Q : α → σ → Prop} {E : σ → Prop} (h : Q a s) : (pure a : Act σ α).Sat s Q E := h

theorem sat_lift {o : Outcome α} {s : σ} {Q : α → σ → Prop} {E : σ → Prop} (h : ∀ a, o = .ok a → Q a s) (he : E s) :
    (lift o).Sat s Q E := by
  unfold Sat lift
  cases o with
  | ok a => exact h a rfl
  | err => exact he
  | panic => exact he

theorem sat_lift_ok {o : Outcome α} {a : α} {s : σ} {Q : α → σ → Prop} {E : σ → Prop} (ho : o = .ok a) (h : Q a s) :
    (lift o).Sat s Q E := by
  subst ho; exact h

theorem sat_get {s : σ} {Q : σ → σ → Prop} {E : σ → Prop} (h : Q s s) : (get : Act σ σ).Sat s Q E := h

theorem sat_modify {f : σ → σ} {s : σ} {Q : Unit → σ → Prop} {E : σ → Prop} (h : Q () (f s)) : (modify f).Sat s Q E := h

theorem sat_err {s : σ} {Q : α → σ → Prop} {E : σ → Prop} (h : E s) : (err : Act σ α).Sat s Q E := h

theorem sat_panic {s : σ} {Q : α → σ → Prop} {E : σ → Prop} (h : E s) : (panic : Act σ α).Sat s Q E := h

theorem sat_ite {c : Prop} [Decidable c] {m m' : Act σ α} {s : σ} {Q : α → σ → Prop} {E : σ → Prop}
    (h : c → m.Sat s Q E) (h' : ¬ c → m'.Sat s Q E) : (if c then m else m').Sat s Q E := by
  by_cases hc : c
  · rw [if_pos hc]; exact h hc
  · rw [if_neg hc]; exact h' hc

theorem sat_mono {m : Act σ α} {s : σ} {Q Q' : α → σ → Prop} {E E' : σ → Prop} (h : m.Sat s Q E)
    (hq : ∀ a s', Q a s' → Q' a s') (he : ∀ s', E s' → E' s') : m.Sat s Q' E' := by
  unfold Sat at *
  cases hm : m s with
  | mk o s' => rw [hm] at h; cases o <;> simp_all

theorem sat_when {b : Bool} {m : Act σ Unit} {s : σ} {Q : Unit → σ → Prop} {E : σ → Prop}
    (h : b = true → m.Sat s Q E) (h' : b = false → Q () s) : (when b m).Sat s Q E := by
  unfold when
  cases b with
  | true => simpa using h rfl
  | false => simpa using sat_pure (h' rfl)

theorem sat_whenSome {o : Option α} {f : α → Act σ Unit} {s : σ} {Q : Unit → σ → Prop} {E : σ → Prop}
    (h : ∀ a, o = some a → (f a).Sat s Q E) (h' : o = none → Q () s) : (whenSome o f).Sat s Q E := by
  unfold whenSome
  cases o with
  | none => exact sat_pure (h' rfl)
  | some a => exact h a rfl

theorem sat_each {f : α → Act σ Unit} (I : σ → Prop) {E : σ → Prop} (l : List α)
    (h : ∀ a ∈ l, ∀ s, I s → (f a).Sat s (fun _ s' => I s') E) : ∀ s, I s → (each f l).Sat s (fun _ s' => I s') E := by
  induction l with
  | nil => intro s hs; exact sat_pure hs
  | cons a t ih =>
    intro s hs
    exact sat_bind (sat_mono (h a (by simp) s hs)
      (fun _ s' hs' => ih (fun b hb => h b (List.mem_cons_of_mem _ hb)) s' hs') (fun _ h => h))

/-- Reading the result off a known run. -/
theorem sat_ok {m : Act σ α} {s : σ} {Q : α → σ → Prop} {E : σ → Prop} (h : m.Sat s Q E) {a : α} {s' : σ}
    (hm : m s = (.ok a, s')) : Q a s' := by
  unfold Sat at h; rw [hm] at h; exact h

/-- A method that cannot fail. -/
theorem sat_exists {m : Act σ α} {s : σ} {Q : α → σ → Prop} (h : m.Sat s Q fun _ => False) :
    ∃ a s', m s = (.ok a, s') ∧ Q a s' := by
  unfold Sat at h
  cases hm : m s with
  | mk o s' =>
    rw [hm] at h
    cases o with
    | ok a => exact ⟨a, s', rfl, h⟩
    | err => exact h.elim
    | panic => exact h.elim

theorem sat_fail {m : Act σ α} {s : σ} {Q : α → σ → Prop} {E : σ → Prop} (h : m.Sat s Q E) (hm : ∀ a, (m s).1 ≠ .ok a) :
    E (m s).2 := by
  unfold Sat at h
  cases hr : m s with
  | mk o s' =>
    rw [hr] at h hm
    cases o with
    | ok a => exact absurd rfl (hm a)
    | err => exact h
    | panic => exact h

end Act

end Simple
