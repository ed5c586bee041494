/-! # Common vocabulary: outcomes of Rust computations -/

namespace Simple

/-- Outcome of a Rust function: `Ok` value (or plain return), `Err`, or a panic. Error messages
are not modelled. -/
inductive Outcome (α : Type _) where
  | ok (a : α)
  | err
  | panic
deriving DecidableEq, Repr

namespace Outcome

def bind {α β} (x : Outcome α) (f : α → Outcome β) : Outcome β :=
  match x with
  | ok a => f a
  | err => err
  | panic => panic

def map {α β} (f : α → β) (x : Outcome α) : Outcome β :=
  match x with
  | ok a => ok (f a)
  | err => err
  | panic => panic

instance : Monad Outcome where
  pure := ok
  bind := bind
  map := map

@[simp] theorem bind_ok {α β} (a : α) (f : α → Outcome β) : (Outcome.ok a >>= f) = f a := rfl
@[simp] theorem bind_err {α β} (f : α → Outcome β) : ((Outcome.err : Outcome α) >>= f) = .err := rfl
@[simp] theorem bind_panic {α β} (f : α → Outcome β) :
    ((Outcome.panic : Outcome α) >>= f) = .panic := rfl
@[simp] theorem pure_eq {α} (a : α) : (pure a : Outcome α) = .ok a := rfl

/-- Array indexing `v[i]`, which panics out of bounds. -/
def index {α} (l : List α) (i : Nat) : Outcome α :=
  match l[i]? with
  | some a => ok a
  | none => panic

theorem index_of_lt {α} {l : List α} {i : Nat} (h : i < l.length) : index l i = ok l[i] := by
  simp [index, List.getElem?_eq_getElem h]

theorem index_of_ge {α} {l : List α} {i : Nat} (h : l.length ≤ i) : index l i = panic := by
  simp [index, List.getElem?_eq_none h]

end Outcome
end Simple
