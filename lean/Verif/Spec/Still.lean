import Verif.Spec.Correct
import Verif.Model.State

/-!
# Equilibria in floating-point arithmetic

Vectors are compared by the values of their entries, so that `0` and `-0` are the same.
-/

set_option autoImplicit false

namespace Verif.Spec

open Verif

universe u v

section
variable {n q : Nat} {F : Type u} {K : Type v} [Scalar F] [Field K] [LinearOrder K] [IsStrictOrderedRing K] [StdModel F K]

/-- All entries have the value zero. -/
def Null (x : Vec n F) : Prop := ∀ i, StdModel.val (F := F) (K := K) (x i) = 0

/-- All entries have the same values. -/
def Alike (x y : Vec n F) : Prop := ∀ i, StdModel.val (F := F) (K := K) (x i) = StdModel.val (F := F) (K := K) (y i)

/-- The residual, as the user's code computes it, is zero at the values of `y0` with derivatives zero, at all times (and
whatever is in the array it is written to). -/
def AtRest (P : Problem n q F) (y0 : Vec n F) : Prop :=
  ∀ (t : F) (y yp buf : Vec n F), Alike (K := K) y y0 → Null (K := K) yp → Null (K := K) (P.res t y yp buf)

end
end Verif.Spec
