import Verif.Model.Norm
import Verif.Model.Newton
import Verif.Model.Dense

/-!
# Integrator state

The struct `Ida` (/repo/src/lib.rs:86-244) together with its nested `IdaNLProblem` (/repo/src/ida_nls.rs:20-60) and
`IdaLProblem` (/repo/src/ida_ls.rs:20-105).

Simplifications, valid for everything below:
* fields that no function of the crate ever assigns after construction are in `Cfg` (immutable), the rest in `State`;
* the scratch arrays `ida_cvals`, `ida_dvals`, `ida_zvecs` and `a` are local to the functions that use them (no
  function reads a value left there by another one); the index checks on them are kept;
* arrays of length `MXORDP1 = 6` are functions on `Nat`; every index access that Rust checks is modelled by an explicit
  test `< 6` whose failure is the outcome "panic";
* `usize`/`u64` counters are natural numbers (no overflow);
* user callbacks are deterministic functions of their arguments, including the old contents of the output buffer;
* logging and profiling are dropped;
* the linear solver is `Dense`; for other implementations of the trait see `Model/Ls.lean`.
-/

set_option autoImplicit false
set_option linter.unusedVariables false

namespace Verif

universe u v

/-- `MXORDP1` (/repo/src/constants.rs:6). -/
def mxordp1 : Nat := 6

/-- `IdaTask` (/repo/src/lib.rs:51-55). -/
inductive Task where
  | normal
  | oneStep
deriving DecidableEq, Repr

/-- `IdaSolveStatus` (/repo/src/lib.rs:57-63). -/
inductive Status where
  | continueSteps
  | success
  | tstop
  | root
deriving DecidableEq, Repr

/-- Outcome of a fallible method: it returns (`Ok` or `Err`) leaving a new state, or it panics, or (loops only) it does
not return. -/
inductive Out (S : Type u) (α : Type v) where
  | ret (s : S) (r : Except Err α)
  | panic
  | diverge

/-- Sequencing with the `?` operator. -/
def Out.bind {S : Type u} {α β : Type v} (o : Out S α) (f : S → α → Out S β) : Out S β :=
  match o with
  | .ret s (.ok a) => f s a
  | .ret s (.error e) => .ret s (.error e)
  | .panic => .panic
  | .diverge => .diverge

/-- A call of a user function, as seen by the user (ghost data, see `Mem.log`). -/
inductive UCall (n : Nat) (K : Type u) where
  | res (t : K) (yy yp : Vec n K)
  | jac (t cj : K) (yy yp rr : Vec n K)
  | root (t : K) (yy yp : Vec n K)

/-- The user's problem: `Residual`, `Jacobian`, `Root` (/repo/src/traits.rs:12-107).  The last argument is the old
contents of the output buffer. -/
structure Problem (n q : Nat) (K : Type u) where
  res : K → Vec n K → Vec n K → Vec n K → Vec n K
  jac : K → K → Vec n K → Vec n K → Vec n K → Mat K → Mat K
  root : K → Vec n K → Vec n K → Vec q K → Vec q K

/-- The part of `IdaNLProblem`/`IdaLProblem` that no method of `NLProblem` writes (/repo/src/ida_nls.rs:117-266,
/repo/src/ida_ls.rs:232-455): fixed during one nonlinear solve. -/
structure Env (n : Nat) (K : Type u) where
  tn : K
  yypredict : Vec n K
  yppredict : Vec n K
  ewt : Vec n K
  toldel : K
  cj : K

/-- The part of `IdaNLProblem`/`IdaLProblem` the `NLProblem` methods write.  `log` is ghost data: the calls of user
functions so far, most recent first. -/
structure Mem (n : Nat) (K : Type u) where
  yy : Vec n K
  yp : Vec n K
  savres : Vec n K
  ss : K
  oldnrm : K
  nre : Nat
  nsetups : Nat
  cjold : K
  cjratio : K
  matJ : Mat K
  piv : Nat → Nat
  x : Vec n K
  nje : Nat
  ncfl : Nat
  log : List (UCall n K)

/-- Outcome of `NLSolver::solve`: solver state, problem memory, correction, result. -/
inductive NlOut (ν : Type v) (n : Nat) (K : Type u) where
  | ret (N : ν) (m : Mem n K) (ee : Vec n K) (r : Except Err Unit)
  | panic
  | diverge

/-- An implementation of the trait `NLSolver` (/repo/crates/nonlinear/src/traits.rs:150-214) working on an
`IdaNLProblem`: `solve N env mem y0 y w tol call_lsetup`.  `setup` has the default (empty) implementation. -/
structure NlSolver (ν : Type v) (n : Nat) (K : Type u) where
  solve : ν → Env n K → Mem n K → Vec n K → Vec n K → Vec n K → K → Bool → NlOut ν n K
  numIters : ν → Nat

/-- Immutable part of `Ida`. -/
structure Cfg (ν : Type v) (n q : Nat) (K : Type u) where
  prob : Problem n q K
  /-- `TolControl::ewt_set(ycur, ewt)`; the second argument is the old buffer. -/
  ewtSet : Vec n K → Vec n K → Vec n K
  nls : NlSolver ν n K
  maxord : Nat
  mxstep : Nat
  maxnef : Nat
  maxncf : Nat
  hmaxInv : K
  hin : K
  epcon : K
  suppressalg : Bool
  constraintsSet : Bool
  id : Fin n → Bool
  /-- `ida_rootdir: Array1<u8>` -/
  rootdir : Fin q → Nat

/-- Divided differences and coefficient arrays (/repo/src/lib.rs:103-115). -/
structure Hist (n : Nat) (K : Type u) where
  phi : Nat → Vec n K
  psi : Nat → K
  alpha : Nat → K
  beta : Nat → K
  sigma : Nat → K
  gamma : Nat → K

/-- Step data (/repo/src/lib.rs:140-167). -/
structure Ctl (K : Type u) where
  kk : Nat
  kused : Nat
  knew : Nat
  phase : Nat
  ns : Nat
  hh : K
  hused : K
  rr : K
  cjlast : K

/-- `IdaCounters` (/repo/src/lib.rs:71-84). -/
structure Counters where
  nst : Nat
  ncfn : Nat
  netf : Nat
  nni : Nat
deriving DecidableEq, Repr

/-- Rootfinding data (/repo/src/lib.rs:195-232). -/
structure RootSt (m : Nat) (K : Type u) where
  iroots : Vec m K
  tlo : K
  thi : K
  trout : K
  glo : Vec m K
  ghi : Vec m K
  grout : Vec m K
  toutc : K
  ttol : K
  taskc : Task
  irfnd : Bool
  nge : Nat
  gactive : Fin m → Bool

/-- Performance monitor fields of `IdaLProblem` (/repo/src/ida_ls.rs:60-69). -/
structure Perf where
  nst0 : Nat
  nni0 : Nat
  ncfn0 : Nat
  ncfl0 : Nat
  nwarn : Nat
deriving DecidableEq, Repr

/-- Outcome of one attempt of an internal step (ghost data). -/
inductive AttOut where
  | accepted
  | testFail
  | nlsFail (e : Err)
deriving DecidableEq, Repr

/-- Record of one attempt of an internal step (ghost data), made when the nonlinear solve is over: the accepted points
`before` the attempt (most recent first), start time, time of the attempt, step size, order, error coefficient `ck`,
leading coefficient `cj`, predicted `y` and `y'`, weights, the correction and the resulting `y` and `y'`, the stop time
in force, outcome. -/
structure Att (n : Nat) (K : Type u) where
  before : List (K × Vec n K)
  t0 : K
  tnew : K
  hh : K
  kk : Nat
  ck : K
  cj : K
  pred : Vec n K
  predp : Vec n K
  ewt : Vec n K
  ee : Vec n K
  yy : Vec n K
  yp : Vec n K
  stop : Option K
  out : AttOut

/-- Ghost data: the attempts made and the accepted points `(t, y)` so far (starting point included), most recent
first.  Nothing in the model reads them. -/
structure Ghost (n : Nat) (K : Type u) where
  atts : List (Att n K)
  acc : List (K × Vec n K)

/-- Mutable part of `Ida`.  `tret` is the caller's variable passed to `solve` as `&mut tret`; `g` is
ghost data. -/
structure State (ν : Type v) (n q : Nat) (K : Type u) where
  setupDone : Bool
  h : Hist n K
  c : Ctl K
  e : Env n K
  m : Mem n K
  delta : Vec n K
  ee : Vec n K
  cnt : Counters
  r : RootSt q K
  perf : Perf
  nls : ν
  tstop : Option K
  h0u : K
  tretlast : K
  epsNewt : K
  tolsf : K
  tret : K
  g : Ghost n K

section
variable {ν : Type v} {n q : Nat} {K : Type u} [Scalar K]

/-- `Ida::new` (/repo/src/lib.rs:278-405), `IdaNLProblem::new` (/repo/src/ida_nls.rs:74-100), `IdaLProblem::new`
(/repo/src/ida_ls.rs:122-225).  The initial time is always `0`.  `nls0` is `NLS::new(n, MAXNLSIT)`; `tret` is not yet
meaningful. -/
def State.new (nls0 : ν) (yy0 yp0 : Vec n K) : State ν n q K where
  setupDone := false
  h := { phi := fun j => if j = 0 then yy0 else if j = 1 then yp0 else vzero
         psi := fun _ => 0, alpha := fun _ => 0, beta := fun _ => 0, sigma := fun _ => 0, gamma := fun _ => 0 }
  c := { kk := 0, kused := 0, knew := 0, phase := 0, ns := 0, hh := 0, hused := 0, rr := 0, cjlast := 0 }
  e := { tn := 0, yypredict := vzero, yppredict := vzero, ewt := vzero, toldel := 0, cj := 0 }
  m := { yy := yy0, yp := yp0, savres := vzero, ss := 0, oldnrm := 0, nre := 0, nsetups := 0, cjold := 0,
         cjratio := 0, matJ := fun _ _ => 0, piv := fun _ => 0, x := vzero, nje := 0, ncfl := 0, log := [] }
  delta := vzero
  ee := vzero
  cnt := { nst := 0, ncfn := 0, netf := 0, nni := 0 }
  r := { iroots := vzero, tlo := 0, thi := 0, trout := 0, glo := vzero, ghi := vzero, grout := vzero, toutc := 0,
         ttol := 0, taskc := .normal, irfnd := false, nge := 0, gactive := fun _ => false }
  perf := { nst0 := 0, nni0 := 0, ncfn0 := 0, ncfl0 := 0, nwarn := 0 }
  nls := nls0
  tstop := none
  h0u := 0
  tretlast := 0
  epsNewt := 0
  tolsf := 1
  tret := 0
  g := { atts := [], acc := [] }

/-- The configuration `Ida::new` sets up (/repo/src/lib.rs:308-322, 368; /repo/src/constants.rs).  The crate has no
setter for any of these fields. -/
def Cfg.std (prob : Problem n q K) (ewtSet : Vec n K → Vec n K → Vec n K) (nls : NlSolver ν n K) : Cfg ν n q K where
  prob := prob
  ewtSet := ewtSet
  nls := nls
  maxord := 5
  mxstep := 500
  maxnef := 10
  maxncf := 10
  hmaxInv := 0
  hin := 0
  epcon := Scalar.epcon
  suppressalg := false
  constraintsSet := false
  id := fun _ => false
  rootdir := fun _ => 0

end

end Verif
