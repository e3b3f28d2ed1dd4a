import Verif.Scalar
import Verif.Model.Norm

/-!
# Arithmetic with NaN

The part of IEEE 754 that concerns NaN: every operation with a NaN operand yields NaN, every comparison with a NaN operand is
false.  Nothing is said about the other numbers, in particular infinities and rounding are possible.  (`Float::max` and
`Float::min`, which ignore a NaN operand, are left open.)
-/

set_option autoImplicit false

namespace Verif.Spec

open Verif

universe u

/-- Laws of NaN. -/
class NanLaws (K : Type u) [Scalar K] where
  nan : K → Prop
  add_left : ∀ a b : K, nan a → nan (a + b)
  add_right : ∀ a b : K, nan b → nan (a + b)
  sub_left : ∀ a b : K, nan a → nan (a - b)
  sub_right : ∀ a b : K, nan b → nan (a - b)
  mul_left : ∀ a b : K, nan a → nan (a * b)
  mul_right : ∀ a b : K, nan b → nan (a * b)
  div_left : ∀ a b : K, nan a → nan (a / b)
  div_right : ∀ a b : K, nan b → nan (a / b)
  neg : ∀ a : K, nan a → nan (-a)
  sqrt : ∀ a : K, nan a → nan (Scalar.sqrt a)
  abs : ∀ a : K, nan a → nan (Scalar.abs a)
  /-- `powf(NaN, x)` is NaN unless `x` is zero; only roots are used. -/
  root : ∀ (a : K) (m : Nat), nan a → nan (Scalar.powf a (Scalar.recip (Scalar.ofNat (m + 1))))
  le : ∀ a b : K, nan a ∨ nan b → Scalar.le a b = false
  lt : ∀ a b : K, nan a ∨ nan b → Scalar.lt a b = false
  eqb : ∀ a b : K, nan a ∨ nan b → Scalar.eqb a b = false

variable {K : Type u} [Scalar K] [NanLaws K] {n : Nat}

/-- No component is NaN. -/
def Clean (v : Vec n K) : Prop := ∀ i, ¬ NanLaws.nan (v i)

end Verif.Spec
