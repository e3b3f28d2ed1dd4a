import Verif.Scalar

/-!
# Newton nonlinear solver (crates/nonlinear)

Callbacks are total functions on an arbitrary callback memory `σ`; a callback may also `panic`.  Vectors are an
arbitrary type `V` with `+` and negation (no laws).  The Rust `loop`s are modelled with an explicit fuel; running
out of fuel is the outcome `diverge`.
-/

set_option autoImplicit false

namespace Verif

universe u v w

/-- `nonlinear::Error` (/repo/crates/nonlinear/src/lib.rs:11-35). -/
inductive NErr where
  | continue_
  | convergenceRecover
  | illegalInput
  | linearSetupFailed (col : Nat)
deriving DecidableEq, Repr

/-- `Recoverable` (/repo/src/error.rs:3-15). -/
inductive Rec where
  | residual
  | lSetup
  | lSolve
  | constraint
  | nlsSetup
deriving DecidableEq, Repr

/-- `IdaError` (/repo/src/error.rs:17-126); the times and messages carried only for printing are dropped. -/
inductive IdaErr where
  | testFail
  | repeatedResidualError
  | illegalInput
  | linearInitFail
  | badErrorWeightVector
  | residualFail
  | firstResidualFail
  | linearSetupFail
  | linearSolveFail
  | noRecovery
  | recoverableFail (r : Rec)
  | constraintFail
  | linesearchFail
  | convergenceFail
  | badK
  | badTimeValue
  | rootFunctionFail
  | badStopTime
  | tooMuchAccuracy
  | closeRoots
deriving DecidableEq, Repr

/-- The dynamic error type seen by the integrator (`failure::Error`): something that downcasts to `IdaError`, to
`nonlinear::Error`, or to neither. -/
inductive Err where
  | ida (e : IdaErr)
  | nl (e : NErr)
  | other (msg : String)
deriving DecidableEq, Repr

/-- The pattern `Err(Error::ConvergenceRecover {})` (/repo/crates/nonlinear/src/newton.rs:142). -/
def Err.isConvRecover : Err → Bool
  | .nl .convergenceRecover => true
  | _ => false

/-- Result of a callback: `Ok`, `Err`, or a panic. -/
inductive Cb (α : Type u) where
  | ok (a : α)
  | err (e : Err)
  | panic
deriving DecidableEq, Repr

/-- What a convergence test can read from the solver through `NLSolver` (/repo/crates/nonlinear/src/traits.rs:196-208):
`get_num_iters`, `get_cur_iter`, `get_num_conv_fails`. -/
structure NlsView where
  numIters : Nat
  curIter : Nat
  numConvFails : Nat
deriving DecidableEq, Repr

/-- `NLProblem` (/repo/crates/nonlinear/src/traits.rs:5-136).  Every callback may read and update the problem memory
`σ`.  `sys` and `solve` receive the previous contents of the buffer they write to, and return its new contents even
when they fail (Rust out-parameters may be written before an `Err`). -/
structure NLProblem (σ : Type u) (V : Type v) (K : Type w) where
  sys : σ → (y buf : V) → σ × V × Cb Unit
  setup : σ → (y f : V) → (jbad : Bool) → σ × Cb Bool
  solve : σ → (y b : V) → σ × V × Cb Unit
  ctest : σ → NlsView → (y del : V) → (tol : K) → (ewt : V) → σ × Cb Bool

/-- `struct Newton` (/repo/crates/nonlinear/src/newton.rs:14-33). -/
structure Newton (V : Type v) where
  delta : V
  jcur : Bool
  curiter : Nat
  maxiters : Nat
  niters : Nat
  nconvfails : Nat

/-- `Newton::new` (newton.rs:41-50); `zeros` is `OVector::zeros()`. -/
def Newton.new {V : Type v} (zeros : V) (maxiters : Nat) : Newton V :=
  { delta := zeros, jcur := false, curiter := 0, maxiters, niters := 0, nconvfails := 0 }

/-- The getters of newton.rs:168-180. -/
def Newton.view {V : Type v} (N : Newton V) : NlsView :=
  { numIters := N.niters, curIter := N.curiter, numConvFails := N.nconvfails }

/-- Outcome of a `solve` call: `done` carries solver object, problem memory, contents of `y`, and the `Result`. -/
inductive NOut (σ : Type u) (V : Type v) where
  | done (N : Newton V) (s : σ) (y : V) (r : Except Err Unit)
  | panic
  | diverge

section
variable {σ : Type u} {V : Type v} {K : Type w} [Add V] [Neg V]

/-- `'inner: loop` (newton.rs:94-131).  One fuel unit per pass. -/
def newtonInner (P : NLProblem σ V K) (tol : K) (w : V) : Nat → Newton V → σ → V → NOut σ V
  | 0, _, _, _ => .diverge
  | fuel + 1, N, s, y =>
    -- newton.rs:96-99: `self.niters += 1; self.delta.neg_mut()`
    let N := { N with niters := N.niters + 1, delta := -N.delta }
    -- newton.rs:102
    match P.solve s y N.delta with
    | (_, _, .panic) => .panic
    | (s, d, .err e) => .done { N with delta := d } s y (.error e)
    | (s, d, .ok _) =>
      let N := { N with delta := d }
      -- newton.rs:104: `*y += &self.delta`
      let y := y + N.delta
      -- newton.rs:107-108
      match P.ctest s N.view y N.delta tol w with
      | (_, .panic) => .panic
      | (s, .err e) => .done N s y (.error e)
      | (s, .ok true) => .done { N with jcur := false } s y (.ok ())
      | (s, .ok false) =>
        -- newton.rs:115-123
        let N := { N with curiter := N.curiter + 1 }
        if N.curiter ≥ N.maxiters then .done N s y (.error (.nl .convergenceRecover))
        else
          match P.sys s y N.delta with
          | (_, _, .panic) => .panic
          | (s, d, .err e) => .done { N with delta := d } s y (.error e)
          | (s, d, .ok _) => newtonInner P tol w fuel { N with delta := d } s y

/-- One pass of `'outer: loop` up to `match retval` (newton.rs:73-132): evaluate the residual at `y0`, set up the
linear solver if `callLsetup`, iterate. -/
def newtonAttempt (P : NLProblem σ V K) (y0 : V) (tol : K) (w : V) (callLsetup jbad : Bool) (N : Newton V) (s : σ)
    (y : V) : NOut σ V :=
  match P.sys s y0 N.delta with
  | (_, _, .panic) => .panic
  | (s, d, .err e) => .done { N with delta := d } s y (.error e)
  | (s, d, .ok _) =>
    let N := { N with delta := d }
    if callLsetup then
      match P.setup s y0 N.delta jbad with
      | (_, .panic) => .panic
      | (s, .err e) => .done N s y (.error e)
      | (s, .ok jcur) => newtonInner P tol w (N.maxiters + 1) { N with jcur := jcur, curiter := 0 } s y0
    else newtonInner P tol w (N.maxiters + 1) { N with curiter := 0 } s y0

/-- `'outer: loop` (newton.rs:71-160).  One fuel unit per pass.  Note that the `Err(ConvergenceRecover)` arm with
`self.jcur == true` falls out of the `match` and repeats the loop with unchanged flags, as in the source. -/
def newtonOuter (P : NLProblem σ V K) (y0 : V) (tol : K) (w : V) :
    Nat → (callLsetup jbad : Bool) → Newton V → σ → V → NOut σ V
  | 0, _, _, _, _, _ => .diverge
  | fuel + 1, callLsetup, jbad, N, s, y =>
    match newtonAttempt P y0 tol w callLsetup jbad N s y with
    | .panic => .panic
    | .diverge => .diverge
    | .done N s y (.ok _) => .done N s y (.ok ())
    | .done N s y (.error e) =>
      if e.isConvRecover then
        if !N.jcur then newtonOuter P y0 tol w fuel true true { N with nconvfails := N.nconvfails + 1 } s y
        else newtonOuter P y0 tol w fuel callLsetup jbad N s y
      else .done { N with nconvfails := N.nconvfails + 1 } s y (.error e)

/-- `Newton::solve` (newton.rs:52-166). -/
def newtonSolve (P : NLProblem σ V K) (fuel : Nat) (N : Newton V) (s : σ) (y0 y w : V) (tol : K) (callLsetup : Bool) :
    NOut σ V :=
  newtonOuter P y0 tol w fuel callLsetup false N s y

end

end Verif
