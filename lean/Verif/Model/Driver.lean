import Verif.Model.Io
import Verif.Model.Samples
import Verif.Model.Nls

/-!
# The example program (/repo/examples/roberts.rs)

Printing, logging and the optional profiler are not modelled: the rows of the printed table are represented by the state of
the `Ida` object after each call of `solve` together with the result of that call.
-/

set_option autoImplicit false

namespace Verif

universe u v

section
variable {ν : Type v} {n q : Nat} {K : Type u} [Scalar K]

/-- A row of the output table (/repo/examples/roberts.rs:107-120), and the result of `solve` that decides how the loop goes
on. -/
structure Row (ν : Type v) (n q : Nat) (K : Type u) where
  obj : State ν n q K
  res : Except Err Status

/-- Column `t`: the variable `tret` of the caller. -/
def Row.t (x : Row ν n q K) : K := x.obj.tret
/-- Columns `y1`, `y2`, `y3`. -/
def Row.y (x : Row ν n q K) : Vec n K := getYy x.obj
/-- Column `nst`. -/
def Row.nst (x : Row ν n q K) : Nat := getNumSteps x.obj
/-- Column `k`. -/
def Row.k (x : Row ν n q K) : Nat := getLastOrder x.obj
/-- Column `h`. -/
def Row.h (x : Row ν n q K) : K := getLastStep x.obj

/-- The loop of `main` (/repo/examples/roberts.rs:95-138): the rows of the table in the order they are printed, and
`retval`.  `nout` is the 12 of the program, `factor` its 10.  `fuel` bounds the number of passes; `none`: it was exhausted,
or a call of `solve` did not return. -/
def outputLoop (cfg : Cfg ν n q K) (rf sf nout : Nat) (factor : K) :
    Nat → State ν n q K → Nat → K → K → Option (List (Row ν n q K) × Except Err Unit)
  | 0, _, _, _, _ => none
  | fuel + 1, s, iout, tout, tret =>
    match exec cfg rf sf s (.solve tout tret .normal) with
    | some (s', .solved (.error e)) => some ([⟨s', .error e⟩], .error e)
    | some (s', .solved (.ok st)) =>
      let (iout, tout) := if st = .success then (iout + 1, tout * factor) else (iout, tout)
      if iout = nout then some ([⟨s', .ok st⟩], .ok ())
      else (outputLoop cfg rf sf nout factor fuel s' iout tout s'.tret).map fun p => (⟨s', .ok st⟩ :: p.1, p.2)
    | _ => none

/-- The variables `iout`, `tout`, `tret` of `bench_dense_ida_rs` (/repo/benches/dense.rs:214-216).  They are declared outside
the two closures, so an iteration starts with the values the iteration before left. -/
structure BenchVars (K : Type u) where
  iout : Nat
  tout : K
  tret : K

/-- The timed closure (/repo/benches/dense.rs:233-250), called with the object made by the setup closure: the calls of
`solve` it made and the variables after it.  `none`: it did not return (`fuel` bounds the number of passes), or `unwrap()`
panicked. -/
def benchLoop (cfg : Cfg ν n q K) (rf sf nout : Nat) (factor : K) :
    Nat → State ν n q K → BenchVars K → Option (List (Row ν n q K) × BenchVars K)
  | 0, _, _ => none
  | fuel + 1, s, v =>
    match exec cfg rf sf s (.solve v.tout v.tret .normal) with
    | some (s', .solved (.ok st)) =>
      let v := { v with tret := s'.tret }
      let v := if st = .success then { v with iout := v.iout + 1, tout := v.tout * factor } else v
      if v.iout = nout then some ([⟨s', .ok st⟩], v)
      else (benchLoop cfg rf sf nout factor fuel s' v).map fun p => (⟨s', .ok st⟩ :: p.1, p.2)
    | _ => none

/-- `k` iterations of the benchmark (`iter_with_setup`, /repo/benches/dense.rs:218-251), each with a new object `s0`. -/
def benchRun (cfg : Cfg ν n q K) (rf sf nout : Nat) (factor : K) (fuel : Nat) (s0 : State ν n q K) :
    Nat → BenchVars K → Option (List (List (Row ν n q K)))
  | 0, _ => some []
  | k + 1, v =>
    match benchLoop cfg rf sf nout factor fuel s0 v with
    | some (l, v) => (benchRun cfg rf sf nout factor fuel s0 k v).map (l :: ·)
    | none => none

/-- `check_ans` (/repo/examples/roberts.rs:9-50): is the warning printed?  (The reference solution is an argument here.) -/
def checkAns (y reference : Vec n K) (rtol : K) (atol : Vec n K) : Bool :=
  let ewt : Vec n K := fun i => rtol * Scalar.abs (reference i) + Scalar.ten * atol i
  let ewt : Vec n K := fun i => Scalar.recip (ewt i)
  let diff := vsub y reference
  let err := normWrms diff ewt
  Scalar.ge err 1

end

section
variable {K : Type u} [Field K] [LinearOrder K] [ExactParams K]

/-- The object of `main` (/repo/examples/roberts.rs:63-71, 90): `RTOL`, `ATOL`, `Roberts`. -/
def robertsMain (fuel : Nat) : Cfg (Newton (Vec 3 K)) 3 2 K :=
  Cfg.newton roberts (.sv (1 / 10000) ![1 / 100000000, 1 / 1000000, 1 / 1000000]) fuel

/-- `yy0` and `yp0` (/repo/examples/roberts.rs:68-69). -/
def robertsY0 : Vec 3 K := ![1, 0, 0]
def robertsYp0 : Vec 3 K := ![-(4 / 100), 4 / 100, 0]

end

end Verif
