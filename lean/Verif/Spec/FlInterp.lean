import Verif.Spec.Errors
import Mathlib.Algebra.Polynomial.Derivative
import Mathlib.Algebra.Polynomial.Eval.Defs
import Mathlib.Algebra.Polynomial.Eval.SMul
import Mathlib.Algebra.Order.Field.Basic
import Mathlib.Algebra.Order.BigOperators.Group.Finset

/-!
# The interpolating polynomial of the dense output

In Newton form, in the variable `X = t - t_n`.  The nodes are the current time and earlier times, `psi 0`, `psi 1`, ... before it; `phi`
are the (scaled) divided differences.
-/

set_option autoImplicit false

namespace Verif.Spec

universe u w

/-- The nonlinear solver returns no errors other than those after which the step is tried again with a smaller size.  (The
Newton solver of the crate returns no error at all.) -/
def OnlyRecoverable {ν : Type w} {n q : Nat} {F : Type u} [Scalar F] (cfg : Cfg ν n q F) : Prop :=
  ∀ err, Returned cfg err → ∃ rec, rec ≠ Rec.constraint ∧ err = .ida (.recoverableFail rec)

end Verif.Spec

namespace Verif.Spec.Newton

open Finset Polynomial

universe v
variable {K : Type v} [Field K]

/-- How long before the current time the node is. -/
def ago (psi : Nat → K) : Nat → K
  | 0 => 0
  | i + 1 => psi i

/-- `∏_{i<j} (X + ago i) / psi i`. -/
noncomputable def basis (psi : Nat → K) (j : Nat) : K[X] := ∏ i ∈ range j, (C (psi i)⁻¹ * (X + C (ago psi i)))

/-- The interpolating polynomial of degree `k`. -/
noncomputable def interp (psi phi : Nat → K) (k : Nat) : K[X] := ∑ j ∈ range (k + 1), C (phi j) * basis psi j

/-- The derivative of the basis polynomial, with the absolute values of the summands of the product rule. -/
def absSlope [LinearOrder K] (psi : Nat → K) (j : Nat) (x : K) : K :=
  ∑ m ∈ range j, |(∏ i ∈ (range j).erase m, (x + ago psi i) / psi i) / psi m|

end Verif.Spec.Newton
