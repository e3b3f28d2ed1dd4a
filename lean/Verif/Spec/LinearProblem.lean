import Verif.Model.Nls
import Mathlib.LinearAlgebra.Matrix.Determinant.Basic

/-! # Linear problems, and convergence of Newton's method with a current Jacobian -/

set_option autoImplicit false

namespace Verif.Spec

universe u

section
variable {n q : Nat} {K : Type u} [Field K] [LinearOrder K] [ExactParams K]

/-- The problem is `A y + B y' + f(t) = 0`, and the user's Jacobian is `A + cj B`. -/
structure LinearProblem (P : Problem n q K) (A B : Matrix (Fin n) (Fin n) K) (f : K → Vec n K) : Prop where
  res : ∀ t y yp buf i, P.res t y yp buf i = (∑ j, A i j * y j) + (∑ j, B i j * yp j) + f t i
  jac : ∀ t cj y yp r (i j : Fin n), P.jac t cj y yp r (fun _ _ => 0) i j = A i j + cj * B i j

/-- Newton's iteration converges whenever it begins with the evaluation of the Jacobian: no attempt of `Newton::solve` that
calls the setup function ends with `ConvergenceRecover`, from any predicted values, for any leading coefficient and weights
and any contents of the solver's memory. -/
def FreshConverges (P : Problem n q K) : Prop :=
  ∀ (e : Env n K) (tol : K) (w : Vec n K) (jb : Bool) (N N' : Newton (Vec n K)) (m m' : Mem n K) (y y' : Vec n K),
    N.maxiters = 4 → 0 ≤ tol →
    newtonAttempt (idaNLProblem P e) vzero tol w true jb N m y ≠ .done N' m' y' (.error (.nl .convergenceRecover))

end

end Verif.Spec
