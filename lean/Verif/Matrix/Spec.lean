import Verif.Matrix.Model
import Mathlib.LinearAlgebra.Matrix.Defs

/-!
# Specification: what a matrix object means

`Rep A M` says that the object `A` stands for the mathematical matrix `M`
(Mathlib's `Matrix (Fin m) (Fin n) T`): it has that size, it carries no other data, and the
public accessor `get` reads every entry of `M`.
-/

namespace Simple.Matrix.Spec
open Simple.Matrix

variable {T : Type*}

structure Rep (A : GMatrix T) {m n : ℕ} (M : Matrix (Fin m) (Fin n) T) : Prop where
  nrows : A.nrows = m
  ncols : A.ncols = n
  length : A.data.length = m * n
  get : ∀ (i : Fin m) (j : Fin n), A.get i j = .ok (M i j)

/-- `M` has non-zero entries only within `s` of the diagonal. -/
def Banded [Zero T] {m n : ℕ} (s : ℕ) (M : Matrix (Fin m) (Fin n) T) : Prop :=
  ∀ (i : Fin m) (j : Fin n), (i.val + s < j.val ∨ j.val + s < i.val) → M i j = 0

/-- `M` with everything farther than `s` from the diagonal erased. -/
def band [Zero T] {m n : ℕ} (s : ℕ) (M : Matrix (Fin m) (Fin n) T) : Matrix (Fin m) (Fin n) T :=
  fun i j => if i.val + s < j.val ∨ j.val + s < i.val then 0 else M i j

end Simple.Matrix.Spec
