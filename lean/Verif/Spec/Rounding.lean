import Verif.Scalar
import Mathlib.Algebra.Order.BigOperators.Group.Finset
import Mathlib.Algebra.Order.BigOperators.Ring.Finset

/-!
# Floating-point arithmetic

The standard model of floating-point arithmetic: a floating-point number has a value in an ordered field, and the result of
each operation is the exact one times `1 + d` with `|d| ≤ u`.  There is no overflow and no underflow in this model.
Comparisons, absolute value and sign change are exact.
-/

set_option autoImplicit false

namespace Verif.Spec

open Verif

universe u v

/-- `F` computes with unit roundoff `u`; `val a` is the number represented by `a`. -/
class StdModel (F : Type u) (K : outParam (Type v)) [Scalar F] [Field K] [LinearOrder K] [IsStrictOrderedRing K] where
  val : F → K
  /-- unit roundoff -/
  u : K
  u_nonneg : 0 ≤ u
  u_lt : u < 1
  val_zero : val 0 = 0
  val_one : val 1 = 1
  val_neg : ∀ a, val (-a) = -val a
  val_abs : ∀ a, val (Scalar.abs a) = |val a|
  lt_iff : ∀ a b, Scalar.lt a b = true ↔ val a < val b
  le_iff : ∀ a b, Scalar.le a b = true ↔ val a ≤ val b
  eq_iff : ∀ a b, Scalar.eqb a b = true ↔ val a = val b
  val_add : ∀ a b, ∃ d, |d| ≤ u ∧ val (a + b) = (val a + val b) * (1 + d)
  val_sub : ∀ a b, ∃ d, |d| ≤ u ∧ val (a - b) = (val a - val b) * (1 + d)
  val_mul : ∀ a b, ∃ d, |d| ≤ u ∧ val (a * b) = val a * val b * (1 + d)
  val_div : ∀ a b, val b ≠ 0 → ∃ d, |d| ≤ u ∧ val (a / b) = val a / val b * (1 + d)
  val_recip : ∀ a, val a ≠ 0 → ∃ d, |d| ≤ u ∧ val (Scalar.recip a) = (val a)⁻¹ * (1 + d)
  val_sqrt : ∀ a, 0 ≤ val a → 0 ≤ val (Scalar.sqrt a) ∧ val a * (1 - u) ^ 2 ≤ val (Scalar.sqrt a) ^ 2 ∧
    val (Scalar.sqrt a) ^ 2 ≤ val a * (1 + u) ^ 2
  val_ofNat : ∀ n : Nat, ∃ d, |d| ≤ u ∧ val (Scalar.ofNat n) = (n : K) * (1 + d)

section
variable {K : Type v} [Field K] [LinearOrder K] [IsStrictOrderedRing K]

/-- The relative error bound of `m` operations in a row, `(1 - u)^(-m) - 1`; about `m u`. -/
def gamma (u : K) (m : Nat) : K := ((1 - u) ^ m)⁻¹ - 1

end

end Verif.Spec
