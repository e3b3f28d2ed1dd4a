import Verif.Model.State
import Mathlib.Algebra.Polynomial.Derivative

/-!
# Specification vocabulary for the history of accepted points

Points are pairs (time, solution vector), most recent first.
-/

set_option autoImplicit false

namespace Verif.Spec

open Polynomial

universe u

section
variable {n : Nat} {K : Type u} [Field K]

/-- `Q` (one polynomial per component) has degree at most `k` and passes through the first `k + 1` points of the list
(or all of them, if there are fewer). -/
def Through (k : Nat) (pts : List (K × Vec n K)) (Q : Fin n → K[X]) : Prop :=
  (∀ i, (Q i).natDegree ≤ k) ∧ ∀ m, m ≤ k → ∀ p, pts[m]? = some p → ∀ i, (Q i).eval p.1 = p.2 i

/-- `x` was predicted by extrapolating the accepted points. -/
def Extrapolates (x : Att n K) : Prop :=
  ∃ Q : Fin n → K[X], Through x.kk x.before Q ∧
    ∀ i, x.pred i = (Q i).eval x.tnew ∧ x.predp i = (derivative (Q i)).eval x.tnew

/-- The fixed-leading-coefficient BDF formula for the pair `(y, y')` at time `t`, step size `h`, order `k` and
predictor polynomial `Q`: there is a polynomial `W` of degree at most `k` with `W(t) = y` and `W'(t) = y'` that agrees
with `Q` at `t - h, ..., t - k h`. -/
def FixedLeadingBdf (k : Nat) (t h : K) (Q : Fin n → K[X]) (y y' : Vec n K) : Prop :=
  ∀ i, ∃ W : K[X], W.natDegree ≤ k ∧ W.eval t = y i ∧ (derivative W).eval t = y' i ∧
    ∀ j : Nat, 1 ≤ j → j ≤ k → W.eval (t - j * h) = (Q i).eval (t - j * h)

end

end Verif.Spec
