import Verif.Model.Newton

/-!
# What a user of `Newton::solve` observes: the sequence of callback invocations

`recorded P` is the user's problem `P` with a recorder wrapped around every callback.  It behaves exactly like `P`
and additionally appends one `Event` per invocation to a log.
-/

set_option autoImplicit false

namespace Verif.Spec

universe u v w

open Verif

/-- One callback invocation with its observable arguments and result. -/
inductive Event (V : Type v) where
  /-- residual evaluated at `y` -/
  | sys (y : V) (r : Cb Unit)
  /-- linear solver set up at `y` with the `jbad` flag; result = "Jacobian is now current" -/
  | setup (y : V) (jbad : Bool) (r : Cb Bool)
  /-- linear solve; `d` = contents of the right-hand-side buffer on return, i.e. the update -/
  | solve (d : V) (r : Cb Unit)
  /-- convergence test of iterate `y` with update `d` -/
  | ctest (y d : V) (r : Cb Bool)

section
variable {σ : Type u} {V : Type v} {K : Type w}

/-- The problem with a recorder around it. -/
def recorded (P : NLProblem σ V K) : NLProblem (σ × List (Event V)) V K where
  sys s y buf := let r := P.sys s.1 y buf; ((r.1, s.2 ++ [.sys y r.2.2]), r.2.1, r.2.2)
  setup s y f jbad := let r := P.setup s.1 y f jbad; ((r.1, s.2 ++ [.setup y jbad r.2]), r.2)
  solve s y b := let r := P.solve s.1 y b; ((r.1, s.2 ++ [.solve r.2.1 r.2.2]), r.2.1, r.2.2)
  ctest s view y del tol ewt := let r := P.ctest s.1 view y del tol ewt; ((r.1, s.2 ++ [.ctest y del r.2]), r.2)

/-- Number of linear solves in a log. -/
def numSolves (l : List (Event V)) : Nat :=
  l.countP fun | .solve _ _ => true | _ => false

/-- The error reported by a callback, if it failed. -/
def Event.error? : Event V → Option Err
  | .sys _ (.err e) => some e
  | .setup _ _ (.err e) => some e
  | .solve _ (.err e) => some e
  | .ctest _ _ (.err e) => some e
  | _ => none

/-- Jacobian status after the calls in a log, given the status before: set by each successful setup. -/
def jacCurrent : Bool → List (Event V) → Bool
  | j, [] => j
  | _, .setup _ _ (.ok j) :: l => jacCurrent j l
  | j, _ :: l => jacCurrent j l

variable [Add V]

/-- The calls of a Newton iteration that starts at `y` and performs the updates `ds`, all of them successful:
solve, convergence test of the updated iterate and, unless it was the last one, the residual there. -/
def iterationLog : V → List V → List (Event V)
  | _, [] => []
  | y, [d] => [.solve d (.ok ()), .ctest (y + d) d (.ok true)]
  | y, d :: d' :: ds =>
    [.solve d (.ok ()), .ctest (y + d) d (.ok false), .sys (y + d) (.ok ())] ++ iterationLog (y + d) (d' :: ds)

/-- The calls of one successful attempt from `y0`: residual at `y0`, optionally setup at `y0`, iteration. -/
def attemptLog (y0 : V) (su : Option (Bool × Bool)) (ds : List V) : List (Event V) :=
  [.sys y0 (.ok ())] ++ (match su with | none => [] | some (jbad, j) => [.setup y0 jbad (.ok j)]) ++
    iterationLog y0 ds

/-- Protocol of a Newton iteration from `y`, `m` iterations having been completed: the calls made and how it ends.
Each callback error ends it with that error; not converging within `maxit` iterations ends it with
`ConvergenceRecover`. -/
inductive Iteration (maxit : Nat) : Nat → V → List (Event V) → Except Err Unit → Prop where
  | solveErr (m y d e) : Iteration maxit m y [.solve d (.err e)] (.error e)
  | ctestErr (m y d e) : Iteration maxit m y [.solve d (.ok ()), .ctest (y + d) d (.err e)] (.error e)
  | converged (m y d) : Iteration maxit m y [.solve d (.ok ()), .ctest (y + d) d (.ok true)] (.ok ())
  | cap (m y d) : m + 1 ≥ maxit →
      Iteration maxit m y [.solve d (.ok ()), .ctest (y + d) d (.ok false)] (.error (.nl .convergenceRecover))
  | sysErr (m y d e) : m + 1 < maxit →
      Iteration maxit m y [.solve d (.ok ()), .ctest (y + d) d (.ok false), .sys (y + d) (.err e)] (.error e)
  | next (m y d rest r) : m + 1 < maxit → Iteration maxit (m + 1) (y + d) rest r →
      Iteration maxit m y ([.solve d (.ok ()), .ctest (y + d) d (.ok false), .sys (y + d) (.ok ())] ++ rest) r

/-- Protocol of one attempt from `y0`; `su = none`: no setup, `su = some jbad`: setup is called with that flag. -/
inductive Attempt (maxit : Nat) (y0 : V) : Option Bool → List (Event V) → Except Err Unit → Prop where
  | sysErr (su e) : Attempt maxit y0 su [.sys y0 (.err e)] (.error e)
  | setupErr (jbad e) : Attempt maxit y0 (some jbad) [.sys y0 (.ok ()), .setup y0 jbad (.err e)] (.error e)
  | plain (l r) : Iteration maxit 0 y0 l r → Attempt maxit y0 none (.sys y0 (.ok ()) :: l) r
  | withSetup (jbad j l r) : Iteration maxit 0 y0 l r →
      Attempt maxit y0 (some jbad) (.sys y0 (.ok ()) :: .setup y0 jbad (.ok j) :: l) r

/-- Protocol of a whole solve: a sequence of attempts, the number of convergence failures counted, the result.
`j` is the Jacobian status at the start.
* An attempt that succeeds ends the solve.
* An attempt that ends with any error other than `ConvergenceRecover` ends the solve with that error and is counted.
* After `ConvergenceRecover` with a stale Jacobian the failure is counted and a new attempt from the same `y0` is made
  in which setup is called with `jbad = true`.
* After `ConvergenceRecover` with a current Jacobian (what the code actually does) the attempt is repeated. -/
inductive Run (maxit : Nat) (y0 : V) : Option Bool → Bool → List (Event V) → Nat → Except Err Unit → Prop where
  | success (su j A) : Attempt maxit y0 su A (.ok ()) → Run maxit y0 su j A 0 (.ok ())
  | hardError (su j A e) : Attempt maxit y0 su A (.error e) → e ≠ .nl .convergenceRecover →
      Run maxit y0 su j A 1 (.error e)
  | retryStale (su j A B n r) : Attempt maxit y0 su A (.error (.nl .convergenceRecover)) →
      jacCurrent j A = false → Run maxit y0 (some true) false B n r → Run maxit y0 su j (A ++ B) (n + 1) r
  | retryCurrent (su j A B n r) : Attempt maxit y0 su A (.error (.nl .convergenceRecover)) →
      jacCurrent j A = true → Run maxit y0 su true B n r → Run maxit y0 su j (A ++ B) n r

end

end Verif.Spec
