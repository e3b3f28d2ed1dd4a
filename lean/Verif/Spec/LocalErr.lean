import Verif.Spec.Select
import Verif.Spec.History

/-!
# The local error of an attempt

What the local error test of the method promises, written over the recorded attempts alone.
-/

set_option autoImplicit false

namespace Verif.Spec

open Finset Polynomial

universe u

section
variable {n : Nat} {K : Type u} [Field K] [LinearOrder K] [ExactParams K]

/-- The step size divided by the distance from the new time to the accepted point number `m` (0 is the most recent one,
so the ratio is 1 for it). -/
def stepRatio (x : Att n K) (m : Nat) : K := x.hh / (x.tnew - (point x m).1)

/-- The constant of the local error test for order `k`: with `a m` the step ratios, the larger one of
`a k` (the interpolation error) and `|a 0 + ... + a k - (1 + 1/2 + ... + 1/k)|` (the local truncation error). -/
def testFactor (x : Att n K) : K :=
  max |stepRatio x x.kk + ∑ m ∈ range x.kk, stepRatio x m - ∑ m ∈ range x.kk, ((m : K) + 1)⁻¹| (stepRatio x x.kk)

/-- `P` (one polynomial per component) is the result of the method of the next higher order for the attempt `x` of order
`k`: degree at most `k + 1`, through the last `k + 1` accepted points, and with the computed derivative at the new time.
If the true solution of the problem is a polynomial of degree at most `k + 1` that passes through the accepted points and
has the computed derivative (as for `y' = g(t)`), then `P` is the true solution. -/
def NextOrder (x : Att n K) (P : Fin n → K[X]) : Prop :=
  (∀ i, (P i).natDegree ≤ x.kk + 1) ∧ (∀ m, m ≤ x.kk → ∀ p, x.before[m]? = some p → ∀ i, (P i).eval p.1 = p.2 i) ∧
    ∀ i, (derivative (P i)).eval x.tnew = x.yp i

end

end Verif.Spec
