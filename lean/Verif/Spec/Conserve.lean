import Verif.Model.State
import Mathlib.Algebra.BigOperators.Fin
import Mathlib.Algebra.Field.Basic

/-! # Linear invariants of a problem -/

set_option autoImplicit false

namespace Verif.Spec

open Verif

universe u

section
variable {n q : Nat} {K : Type u} [Field K]

/-- `a_1 v_1 + ... + a_n v_n`. -/
def dot (a v : Vec n K) : K := ∑ i, a i * v i

/-- A combination of the equations reads `a·y = b`, and the same combination of the rows of the Jacobian is `a`. -/
def AlgebraicInvariant (P : Problem n q K) (a : Vec n K) (b : K) : Prop :=
  ∃ w : Vec n K, (∀ t y yp buf, dot w (P.res t y yp buf) = dot a y - b) ∧
    ∀ t cj y yp r (j : Fin n), ∑ i : Fin n, w i * P.jac t cj y yp r (fun _ _ => 0) i j = a j

/-- A combination of the equations reads `a·y' = 0`, and the same combination of the rows of the Jacobian
`∂F/∂y + cj ∂F/∂y'` is `cj a`. -/
def DifferentialInvariant (P : Problem n q K) (a : Vec n K) : Prop :=
  ∃ w : Vec n K, (∀ t y yp buf, dot w (P.res t y yp buf) = dot a yp) ∧
    ∀ t cj y yp r (j : Fin n), ∑ i : Fin n, w i * P.jac t cj y yp r (fun _ _ => 0) i j = cj * a j

end

end Verif.Spec
