import Verif.Model.Solve

/-!
# Histories

The states a user can bring an `Ida` object into: create it, then call public methods in any order with any arguments,
as long as every call returns (a call that panics or does not return ends the history).  The fuel arguments `rf`, `sf`
(bounds on root-search passes and step-loop passes) are arbitrary at each call.
-/

set_option autoImplicit false

namespace Verif

universe u v

/-- Errors that report a failed internal step (as opposed to errors found before or after stepping). -/
def Err.isStepFailure : Err → Bool
  | .ida .residualFail => true
  | .ida .constraintFail => true
  | .ida .convergenceFail => true
  | .ida _ => false
  | _ => true

section
variable {ν : Type v} {n q : Nat} {K : Type u} [Scalar K]

/-- The states of all histories.  The crate has no setter for the stop time; the model allows any value. -/
inductive Reach (cfg : Cfg ν n q K) : State ν n q K → Prop
  | new (nls0 : ν) (yy0 yp0 : Vec n K) (tstop : Option K) :
      Reach cfg { State.new nls0 yy0 yp0 with tstop := tstop }
  | call {s s' : State ν n q K} (rf sf : Nat) (op : Op K) (r : Res n K) : Reach cfg s →
      exec cfg rf sf s op = some (s', r) → Reach cfg s'

/-- The states of the histories that begin with the values `yy0`, `yp0`. -/
inductive ReachFrom (cfg : Cfg ν n q K) (yy0 yp0 : Vec n K) : State ν n q K → Prop
  | new (nls0 : ν) (tstop : Option K) : ReachFrom cfg yy0 yp0 { State.new nls0 yy0 yp0 with tstop := tstop }
  | call {s s' : State ν n q K} (rf sf : Nat) (op : Op K) (r : Res n K) : ReachFrom cfg yy0 yp0 s →
      exec cfg rf sf s op = some (s', r) → ReachFrom cfg yy0 yp0 s'

/-- The states of histories in which no call has reported a failed internal step. -/
inductive ReachOk (cfg : Cfg ν n q K) : State ν n q K → Prop
  | new (nls0 : ν) (yy0 yp0 : Vec n K) (tstop : Option K) :
      ReachOk cfg { State.new nls0 yy0 yp0 with tstop := tstop }
  | call {s s' : State ν n q K} (rf sf : Nat) (op : Op K) (r : Res n K) : ReachOk cfg s →
      exec cfg rf sf s op = some (s', r) → (∀ e, r = .solved (.error e) → e.isStepFailure = false) → ReachOk cfg s'

/-- Errors a nonlinear solver may return according to the protocol between `step` and the solver: recoverable failures
other than `Constraint` (which only the unimplemented constraint check could produce), or errors that are not
`IdaError`s.  For any other `IdaError`, `handle_n_flag` panics or takes it for an error-test failure. -/
def Err.fromNls : Err → Prop
  | .ida (.recoverableFail r) => r ≠ .constraint
  | .ida _ => False
  | _ => True

/-- The nonlinear solver follows the protocol.  `Newton` does (`newton_legal`). -/
def NlsLegal (cfg : Cfg ν n q K) : Prop :=
  ∀ N e m y0 y w tol call N' m' ee err, cfg.nls.solve N e m y0 y w tol call = .ret N' m' ee (.error err) → err.fromNls

theorem ReachOk.reach {cfg : Cfg ν n q K} {s : State ν n q K} (h : ReachOk cfg s) : Reach cfg s := by
  induction h with
  | new a b c d => exact .new a b c d
  | call rf sf op r _ he _ ih => exact .call rf sf op r ih he

end

end Verif
