import Verif.Spec.Rounding
import Mathlib.Order.Monotone.Basic

/-!
# Correctly rounded floating-point arithmetic

The standard model of `Spec/Rounding.lean`, and in addition: results of addition, subtraction and multiplication are the
exact result rounded by one monotone function that leaves floating-point numbers unchanged (this is what IEEE 754 demands).
The literals of the program and `epsilon` have their values, or nearly.
-/

set_option autoImplicit false

namespace Verif.Spec

open Verif

universe u v

class Correct (F : Type u) (K : outParam (Type v)) [Scalar F] [Field K] [LinearOrder K] [IsStrictOrderedRing K] extends
    StdModel F K where
  /-- rounding -/
  rd : K → K
  rd_mono : ∀ a b, a ≤ b → rd a ≤ rd b
  rd_val : ∀ a, rd (val a) = val a
  add_rd : ∀ a b, val (a + b) = rd (val a + val b)
  sub_rd : ∀ a b, val (a - b) = rd (val a - val b)
  mul_rd : ∀ a b, val (a * b) = rd (val a * val b)
  val_max : ∀ a b, val (Scalar.max a b) = max (val a) (val b)
  val_min : ∀ a b, val (Scalar.min a b) = min (val a) (val b)
  val_two : val Scalar.two = 2
  val_four : val Scalar.four = 4
  val_half : val Scalar.half = 1 / 2
  val_quarter : val Scalar.quarter = 1 / 4
  pt9_lo : 1 / 2 ≤ val Scalar.pt9
  pt9_hi : val Scalar.pt9 ≤ 1
  pt001_pos : 0 < val Scalar.pt001
  hundred_pos : 0 < val Scalar.hundred
  /-- `epsilon` is at least the unit roundoff (it is twice the unit roundoff in binary64), and small -/
  eps_ge : u ≤ val Scalar.eps
  eps_le : 16 * val Scalar.eps ≤ 1

end Verif.Spec
