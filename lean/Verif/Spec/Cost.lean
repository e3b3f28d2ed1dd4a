import Verif.Model.Nls
import Verif.Model.Io

/-! # The work done by the solver -/

set_option autoImplicit false

namespace Verif.Spec

universe u

section
variable {n q : Nat} {K : Type u} [Scalar K]

/-- The residual function is a function of its documented arguments: it does not read the contents of the buffer it is handed
for its result. -/
def ResIsFunction (P : Problem n q K) : Prop := ∀ t y yp buf buf', P.res t y yp buf = P.res t y yp buf'

/-- At the predicted values, leading coefficient and time in `e`, with weights `w` and tolerance `tol`, a pass of
`Newton::solve` that begins by evaluating the Jacobian at the predicted values ends without convergence (whatever is left in
the solver's memory). -/
def FreshFails (P : Problem n q K) (e : Env n K) (tol : K) (w : Vec n K) : Prop :=
  ∀ (jb : Bool) (N : Newton (Vec n K)) (m : Mem n K) (y : Vec n K), N.maxiters = 4 →
    ∃ N' m' y', newtonAttempt (idaNLProblem P e) vzero tol w true jb N m y =
      .done N' m' y' (.error (.nl .convergenceRecover))

/-- The number of steps attempted so far, by the public counters: accepted, rejected by the error test, given up by the
nonlinear solver. -/
def attempts {ν : Type*} (s : State ν n q K) : Nat :=
  getNumSteps s + getNumErrTestFails s + getNumNonlinSolvConvFails s

end

end Verif.Spec
