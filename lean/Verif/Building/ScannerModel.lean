import Mathlib.Data.List.Basic
import Mathlib.Logic.Function.Basic
import Mathlib.Algebra.Order.Ring.Int

/-! Model of the scanner of SIMPLE files, `/repo/model/src/scanner.rs`.

The source is the list of its bytes, each one seen `as char` as the code does; the part that has
already been consumed is dropped, so the scanner is `finished` exactly when nothing is left.  Line
numbers, which only appear in error messages, are not modelled.  The bodies are valid UTF-8: the
source is, and they start and end at ASCII characters. -/

namespace Simple.Scan

/-- What a scanning function does: it returns, fails, or never comes back. -/
inductive Res (α : Type*) where
  | ok (a : α)
  | err
  | hang
deriving DecidableEq

/-- Where `skip_white_space` is. -/
inductive Mode where
  | normal
  | line
  | block
deriving DecidableEq

/-- `scanner.rs:93-150`, `skip_white_space`: what is left of the source.  `line` and `block` are the
loops within comments, `scanner.rs:118-121` and `126-142`. -/
def skip : Mode → List Char → List Char
  | _, [] => []
  | .normal, c :: r =>
    if c = ' ' ∨ c = '\r' ∨ c = '\t' ∨ c = '\n' then skip .normal r
    else if c = '/' then
      match r with
      | [] => ['/']
      | d :: r' =>
        if d = '/' then skip .line r' else if d = '*' then skip .block r' else '/' :: d :: r'
    else c :: r
  | .line, c :: r => if c = '\n' then skip .normal r else skip .line r
  | .block, c :: r =>
    match r with
    | [] => []
    | d :: r' => if c = '*' ∧ d = '/' then skip .normal r' else skip .block (d :: r')

/-- `scanner.rs:157`: the characters of an identifier. -/
def isIdent (c : Char) : Bool :=
  (('a' ≤ c ∧ c ≤ 'z') ∨ ('A' ≤ c ∧ c ≤ 'Z')) ∨ ('0' ≤ c ∧ c ≤ '9') ∨ c = '_'

/-- `scanner.rs:153-168`, `identifier`: the identifier and what is left. -/
def identifier : List Char → List Char × List Char
  | [] => ([], [])
  | c :: r => if isIdent c then ((c :: (identifier r).1), (identifier r).2) else ([], c :: r)

/-- The loop of `scanner.rs:177-205`; the result is what was consumed, and what is left.  Reaching
the end of the source ends the loop.  `levels` may be negative. -/
def objectLoop : (levels : ℤ) → (started : Bool) → (opn cls : Char) → List Char →
    Res (List Char × List Char)
  | _, _, _, _, [] => .ok ([], [])
  | levels, started, opn, cls, next :: rest =>
    if levels > 0 ∨ !started then
      if !started ∧ next = ',' then .err
      else
        let opn' := if !started ∧ next = '(' then '(' else opn
        let cls' := if !started ∧ next = '(' then ')' else cls
        let up : ℤ := if next = opn' then 1 else 0
        let down : ℤ := if next = cls' then 1 else 0
        match objectLoop (levels + up - down) (started || next == opn') opn' cls' rest with
        | .ok (a, b) => .ok (next :: a, b)
        | .err => .err
        | .hang => .hang
    else .ok ([], next :: rest)

/-- `scanner.rs:171-209`, `object`.  When the source has finished already, `current_index` goes past
its length and the loop never ends. -/
def object (l : List Char) : Res (List Char × List Char) :=
  if l = [] then .hang else objectLoop 0 false '{' '}' l

theorem skip_length (m : Mode) (l : List Char) : (skip m l).length ≤ l.length := by
  fun_induction skip m l <;> simp_all; all_goals omega

theorem identifier_length (l : List Char) : (identifier l).2.length ≤ l.length := by
  induction l with
  | nil => simp [identifier]
  | cons c r ih => unfold identifier; split_ifs <;> simp <;> omega

theorem objectLoop_length (n : ℤ) (s : Bool) (o c : Char) (l a b : List Char)
    (h : objectLoop n s o c l = .ok (a, b)) : a ++ b = l := by
  induction l generalizing n s o c a b with
  | nil => simp [objectLoop] at h; simp [h]
  | cons x r ih =>
    rw [objectLoop] at h
    by_cases hc : n > 0 ∨ (!s) = true
    · rw [if_pos hc] at h
      by_cases hk : (!s) = true ∧ x = ','
      · rw [if_pos hk] at h; simp at h
      · rw [if_neg hk] at h
        dsimp only at h
        split at h
        · rename_i a' b' heq
          obtain ⟨rfl, rfl⟩ := Prod.mk.inj (Res.ok.inj h)
          rw [List.cons_append, ih _ _ _ _ _ _ heq]
        · simp at h
        · simp at h
    · rw [if_neg hc] at h
      obtain ⟨rfl, rfl⟩ := Prod.mk.inj (Res.ok.inj h)
      rfl

theorem object_shorter (l a b : List Char) (h : object l = .ok (a, b)) : b.length < l.length := by
  unfold object at h
  split_ifs at h with hl
  cases l with
  | nil => exact absurd rfl hl
  | cons x r =>
    rw [objectLoop] at h
    simp only [Bool.not_false, or_true, if_true, true_and] at h
    split_ifs at h
    all_goals first
      | (split at h
         · rename_i a' b' heq
           obtain ⟨rfl, rfl⟩ := Prod.mk.inj (Res.ok.inj h)
           have := congrArg List.length (objectLoop_length _ _ _ _ _ _ _ heq)
           simp at this ⊢
           omega
         · simp at h
         · simp at h)

/-- The loop of `parse_model`, `scanner.rs:220-253`: the identifiers and objects in the order in which
they are found. -/
def scanItems (l : List Char) : Res (List (List Char × List Char)) :=
  let l1 := skip .normal l
  if l1 = [] then .ok []
  else
    match _h : object (skip .normal (identifier l1).2) with
    | .ok (body, l4) =>
      match scanItems l4 with
      | .ok items => .ok (((identifier l1).1, body) :: items)
      | .err => .err
      | .hang => .hang
    | .err => .err
    | .hang => .hang
termination_by l.length
decreasing_by
  have h1 := object_shorter _ _ _ _h
  have h2 := skip_length .normal (identifier (skip .normal l)).2
  have h3 := identifier_length (skip .normal l)
  have h4 := skip_length .normal l
  have h5 : l1 = skip .normal l := rfl
  rw [h5] at h1
  omega

/-- The map of `scanner.rs:218` and `246-250`: objects by identifier, in the order found. -/
def collect : List (List Char × List Char) → (List Char → List (List Char))
    → (List Char → List (List Char))
  | [], data => data
  | (name, body) :: items, data => collect items (Function.update data name (data name ++ [body]))

/-- `scanner.rs:257-271`. -/
def readOrder : List (List Char) :=
  ["Space".toList, "Substance".toList, "Material".toList, "Construction".toList, "Surface".toList,
   "Fenestration".toList, "Building".toList, "HVAC".toList, "Luminaire".toList, "Object".toList,
   "Output".toList, "SiteDetails".toList, "SolarOptions".toList]

/-- `scanner.rs:273-433`: the objects, in the order in which they are parsed and added to the model.
What the model does with each of them is not part of this. -/
def additions (items : List (List Char × List Char)) : List (List Char × List Char) :=
  readOrder.flatMap fun ident => (collect items (fun _ => []) ident).map fun body => (ident, body)

end Simple.Scan
