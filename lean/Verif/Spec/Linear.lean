import Mathlib.Algebra.BigOperators.Group.Finset.Basic
import Mathlib.Algebra.Field.Basic
import Mathlib.Logic.Equiv.Basic
import Mathlib.Algebra.Group.End

/-! # Specification vocabulary for linear systems (independent of the model) -/

namespace Verif.Spec

variable {K : Type*} [Field K]

/-- Row `i` of the product of an `n`-column matrix and a vector. -/
def mulVec (n : Nat) (A : Nat → Nat → K) (x : Nat → K) (i : Nat) : K := ∑ j ∈ Finset.range n, A i j * x j

/-- `x` solves the `n` by `n` system `A x = b`. -/
def Solves (n : Nat) (A : Nat → Nat → K) (x b : Nat → K) : Prop := ∀ i, i < n → mulVec n A x i = b i

/-- The first `c` columns of the `m`-row matrix `A` are linearly dependent. -/
def ColsDependent (m : Nat) (A : Nat → Nat → K) (c : Nat) : Prop :=
  ∃ v : Nat → K, (∃ j, j < c ∧ v j ≠ 0) ∧ ∀ i, i < m → mulVec c A v i = 0

/-- The row permutation obtained by performing the interchanges `0 ↔ p 0`, `1 ↔ p 1`, ..., `k-1 ↔ p (k-1)` in this
order: row `i` of the permuted matrix is row `rowPerm p k i` of the original one. -/
def rowPerm (p : Nat → Nat) : Nat → Equiv.Perm Nat
  | 0 => 1
  | k + 1 => rowPerm p k * Equiv.swap k (p k)

/-- Unit lower trapezoidal factor stored strictly below the diagonal of `M`. -/
def lowerUnit (M : Nat → Nat → K) : Nat → Nat → K := fun i t => if t < i then M i t else if t = i then 1 else 0

/-- Upper triangular factor stored on and above the diagonal of `M`. -/
def upperTri (M : Nat → Nat → K) : Nat → Nat → K := fun t j => if t ≤ j then M t j else 0

end Verif.Spec
