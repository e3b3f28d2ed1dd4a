import Mathlib.Algebra.Polynomial.Derivative
import Mathlib.Algebra.Polynomial.BigOperators

/-! # Specification vocabulary for interpolation (independent of the model) -/

set_option autoImplicit false

namespace Verif.Spec

open Polynomial

variable {K : Type*} [Field K]

/-- `P` is an interpolating polynomial of degree at most `k` for the data `(τ i, y i)`, `i ≤ k`. -/
def Interpolates (k : Nat) (τ y : Nat → K) (P : K[X]) : Prop :=
  P.natDegree ≤ k ∧ ∀ i, i ≤ k → P.eval (τ i) = y i

end Verif.Spec
