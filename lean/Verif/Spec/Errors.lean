import Verif.Model.Io
import Verif.Model.Nls
import Verif.Model.Solve
import Verif.Spec.FlRoot

/-! # Why `solve` may return an error -/

set_option autoImplicit false

namespace Verif.Spec

universe u v

section
variable {ν : Type v} {n q : Nat} {K : Type u} [Scalar K]

/-- The attempt failed because the nonlinear solver returned an error. -/
def unsolved (a : Att n K) : Bool := match a.out with | .nlsFail _ => true | _ => false

/-- The nonlinear solver returned the error `e` (in some call). -/
def Returned (cfg : Cfg ν n q K) (e : Err) : Prop :=
  ∃ N env m y0 y w tol c N' m' ee, cfg.nls.solve N env m y0 y w tol c = .ret N' m' ee (.error e)

/-- Why an internal step was given up.  `a :: l` are the attempts at it, the last one first. -/
inductive GaveUp (cfg : Cfg ν n q K) (a : Att n K) (l : List (Att n K)) : Err → Prop
  /-- The error test failed as often as is allowed (twice in any case). -/
  | errorTest : a.out = .testFail → (a :: l).countP (fun x => x.out = .testFail) = max cfg.maxnef 3 →
      GaveUp cfg a l (.other "IDA_ERR_FAIL")
  /-- The nonlinear solver failed as often as is allowed, the last time because of the residual function. -/
  | residual : Returned cfg (.ida (.recoverableFail .residual)) → a.out = .nlsFail (.ida (.recoverableFail .residual)) →
      (a :: l).countP unsolved = max cfg.maxncf 1 →
      GaveUp cfg a l (.ida .residualFail)
  /-- The same, the last time for another recoverable reason. -/
  | convergence (rec : Rec) : rec ≠ .residual → Returned cfg (.ida (.recoverableFail rec)) →
      a.out = .nlsFail (.ida (.recoverableFail rec)) →
      (a :: l).countP unsolved = max cfg.maxncf 1 → GaveUp cfg a l (.ida .convergenceFail)
  /-- The nonlinear solver returned an error that is not an `IdaError`; it is passed on. -/
  | solver (e : Err) : (∀ x, e ≠ .ida x) → Returned cfg e → a.out = .nlsFail e → GaveUp cfg a l e

/-- No attempt at a step was made. -/
def NoAttempt (s s' : State ν n q K) : Prop := s'.g.atts = s.g.atts ∧ getNumSteps s' = getNumSteps s

/-- `t` lies before the last internal step (with some tolerance). -/
def BeforeLast (s : State ν n q K) (t : K) : Prop :=
  Scalar.lt ((t - (getCurrentTime s - getLastStep s -
    Scalar.hundred * Scalar.eps * (Scalar.abs (getCurrentTime s) + Scalar.abs s.c.hh) * Scalar.signum s.c.hh)) * s.c.hh) 0 = true

/-- Why a call `solve(tout, task)` in the state `s` that ends in the state `s'` returns `Err(e)`. -/
inductive Cause (cfg : Cfg ν n q K) (s s' : State ν n q K) (tout : K) (task : Task) : Err → Prop
  /-- First step not yet taken: `tout` is too close to the initial time. -/
  | tooClose : getNumSteps s = 0 → NoAttempt s s' →
      (Scalar.eqb (Scalar.abs (tout - getCurrentTime s)) 0 = true ∨
        Scalar.lt (Scalar.abs (tout - getCurrentTime s))
          (Scalar.two * Scalar.eps * (Scalar.abs (getCurrentTime s) + Scalar.abs tout)) = true) →
      Cause cfg s s' tout task (.ida .illegalInput)
  /-- First step not yet taken: the given initial step points away from `tout`. -/
  | wrongWay : getNumSteps s = 0 → NoAttempt s s' → Scalar.neb cfg.hin 0 = true →
      Scalar.lt ((tout - getCurrentTime s) * cfg.hin) 0 = true → Cause cfg s s' tout task (.ida .illegalInput)
  /-- First step not yet taken: the stop time is not ahead. -/
  | stopNotAhead (ts : K) : getNumSteps s = 0 → NoAttempt s s' → s.tstop = some ts →
      Scalar.le ((ts - getCurrentTime s) * s'.c.hh) 0 = true → Cause cfg s s' tout task (.ida .illegalInput)
  /-- The limit on the number of steps in one call has been reached. -/
  | stepLimit : 0 < cfg.mxstep → getNumSteps s' = getNumSteps s + cfg.mxstep → s'.tret = getCurrentTime s' →
      Cause cfg s s' tout task (.ida .illegalInput)
  /-- An error weight of the solution computed last is not positive. -/
  | weight (i : Fin n) (w : Vec n K) : 0 < getNumSteps s' → s'.e.ewt = cfg.ewtSet (s'.h.phi 0) w →
      Scalar.le (s'.e.ewt i) 0 = true → s'.tret = getCurrentTime s' → Cause cfg s s' tout task (.ida .illegalInput)
  /-- The tolerances are too small for the precision of the arithmetic. -/
  | accuracy : Scalar.gt (Scalar.eps * wrmsNorm cfg.id (s'.h.phi 0) s'.e.ewt cfg.suppressalg) 1 = true →
      s'.tret = getCurrentTime s' → Cause cfg s s' tout task (.ida .tooMuchAccuracy)
  /-- The last call found a root; a component of the root function is zero there and a little later.  (`j = i` if the
  arithmetic knows that zero is not positive.) -/
  | closeRoots (i j : Fin q) (t' x y : K) : s.r.irfnd = true → NoAttempt s s' → SeenAt cfg s' s.r.tlo j x →
      Scalar.eqb (Scalar.abs x) 0 = true → SeenAt cfg s' t' i y → Scalar.eqb (Scalar.abs y) 0 = true →
      (∃ tt, t' = s.r.tlo + tt * Scalar.signum s.c.hh) → (Scalar.gt (0 : K) 0 = false → j = i) →
      Cause cfg s s' tout task (.ida .closeRoots)
  /-- `tout` lies before the last step. -/
  | past : 0 < getNumSteps s → NoAttempt s s' → task = .normal → BeforeLast s tout →
      Cause cfg s s' tout task (.ida .badTimeValue)
  /-- The stop time lies behind, -/
  | stopPast (ts : K) : 0 < getNumSteps s → NoAttempt s s' → s.tstop = some ts →
      Scalar.gt ((getCurrentTime s - ts) * s.c.hh) 0 = true → Cause cfg s s' tout task (.ida .badStopTime)
  /-- or before the last step. -/
  | stopBefore (ts : K) (e : Err) : 0 < getNumSteps s → NoAttempt s s' → s.tstop = some ts → BeforeLast s ts →
      (e = .ida .badTimeValue ∨ e = .ida .badStopTime) → Cause cfg s s' tout task e
  /-- The last internal step was given up. -/
  | step (a : Att n K) (l l' : List (Att n K)) (e : Err) : s'.g.atts = a :: l ++ l' →
      (∀ x ∈ a :: l, x.out ≠ .accepted ∧ x.t0 = getCurrentTime s') → GaveUp cfg a l e → Cause cfg s s' tout task e

end

end Verif.Spec
