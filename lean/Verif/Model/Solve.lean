import Verif.Model.Step
import Verif.Model.Root

/-! # The driver: `solve` and the stopping tests -/

set_option autoImplicit false
set_option linter.unusedVariables false

namespace Verif

universe u v

section
variable {ν : Type v} {n q : Nat} {K : Type u} [Scalar K]

/-- `troundoff` in the stopping tests (/repo/src/impl_stop_test.rs:68-70, 105-107, 165-167, 189-191). -/
def stopRoundoff (s : State ν n q K) : K := Scalar.hundred * Scalar.eps * (Scalar.abs s.e.tn + Scalar.abs s.c.hh)

/-- The limitation of `hh` by the stop time (/repo/src/impl_stop_test.rs:85-88, 118-121, 177-180, 200-203). -/
def clampToStop (s : State ν n q K) (tstop : K) : State ν n q K :=
  if Scalar.gt ((s.e.tn + s.c.hh - tstop) * s.c.hh) 0 then
    { s with c.hh := (tstop - s.e.tn) * (1 - Scalar.four * Scalar.eps) }
  else s

/-- `self.ida_tretlast = t; *tret = t;` -/
def State.setTret (s : State ν n q K) (t : K) : State ν n q K := { s with tretlast := t, tret := t }

/-- "The internal time is past the stop time" (/repo/src/impl_stop_test.rs:44-47). -/
def pastStop (s : State ν n q K) : Bool :=
  match s.tstop with
  | some tstop => Scalar.gt ((s.e.tn - tstop) * s.c.hh) 0
  | none => false

/-- `stop_test1` (/repo/src/impl_stop_test.rs:36-125). -/
def stopTest1 (s : State ν n q K) (tout : K) (task : Task) : Out (State ν n q K) Status :=
  if pastStop s then .ret s (.error (.ida .badStopTime))
  else match task with
    | .normal =>
      if Scalar.eqb tout s.tretlast then .ret (s.setTret tout) (.ok .success)
      else if Scalar.ge ((s.e.tn - tout) * s.c.hh) 0 then
        (getSolution s tout).bind fun s _ => .ret (s.setTret tout) (.ok .success)
      else match s.tstop with
        | some tstop =>
          if Scalar.le (Scalar.abs (s.e.tn - tstop)) (stopRoundoff s) then
            match getSolution s tstop with
            | .ret s (.ok _) => .ret { s.setTret tstop with tstop := none } (.ok .tstop)
            | .ret s (.error _) => .ret s (.error (.ida .badStopTime))
            | .panic => .panic
            | .diverge => .diverge
          else .ret (clampToStop s tstop) (.ok .continueSteps)
        | none => .ret s (.ok .continueSteps)
    | .oneStep =>
      if Scalar.gt ((s.e.tn - s.tretlast) * s.c.hh) 0 then
        match getSolution' s s.e.tn with
        | none => .panic
        | some s => .ret (s.setTret s.e.tn) (.ok .success)
      else match s.tstop with
        | some tstop =>
          if Scalar.le (Scalar.abs (s.e.tn - tstop)) (stopRoundoff s) then
            (getSolution s tstop).bind fun s _ => .ret (s.setTret tstop) (.ok .tstop)
          else .ret (clampToStop s tstop) (.ok .continueSteps)
        | none => .ret s (.ok .continueSteps)

/-- `stop_test2` (/repo/src/impl_stop_test.rs:146-211). -/
def stopTest2 (s : State ν n q K) (tout : K) (task : Task) : Out (State ν n q K) Status :=
  match task with
  | .normal =>
    if Scalar.ge ((s.e.tn - tout) * s.c.hh) 0 then
      match getSolution' (s.setTret tout) tout with
      | none => .panic
      | some s => .ret s (.ok .success)
    else match s.tstop with
      | some tstop =>
        if Scalar.le (Scalar.abs (s.e.tn - tstop)) (stopRoundoff s) then
          match getSolution' s tstop with
          | none => .panic
          | some s => .ret { s.setTret tstop with tstop := none } (.ok .tstop)
        else .ret (clampToStop s tstop) (.ok .continueSteps)
      | none => .ret s (.ok .continueSteps)
  | .oneStep =>
    match s.tstop with
    | some tstop =>
      if Scalar.le (Scalar.abs (s.e.tn - tstop)) (stopRoundoff s) then
        match getSolution' s tstop with
        | none => .panic
        | some s => .ret { s.setTret tstop with tstop := none } (.ok .tstop)
      else
        let s := clampToStop s tstop
        .ret (s.setTret s.e.tn) (.ok .success)
    | none => .ret (s.setTret s.e.tn) (.ok .success)

/-- `ls_perf(counters, false)` (/repo/src/ida_ls.rs:460-467). -/
def perfReset (s : State ν n q K) : State ν n q K :=
  { s with perf := { nst0 := s.cnt.nst, nni0 := s.cnt.nni, ncfn0 := s.cnt.ncfn, ncfl0 := s.m.ncfl, nwarn := 0 } }

/-- `ls_perf(counters, true)` (/repo/src/ida_ls.rs:470-499); `none` is a subtraction that underflows.  The `f64`
comparisons `a / b > 0.9` of two counters are modelled by the exact `10 a > 9 b` (they only decide about warnings). -/
def perfCheck (s : State ν n q K) : Option (State ν n q K) :=
  if s.cnt.nst < s.perf.nst0 ∨ s.cnt.nni < s.perf.nni0 then none
  else
    let nstd := s.cnt.nst - s.perf.nst0
    let nnid := s.cnt.nni - s.perf.nni0
    if nstd = 0 ∨ nnid = 0 then some s
    else if s.cnt.ncfn < s.perf.ncfn0 ∨ s.m.ncfl < s.perf.ncfl0 then none
    else if 10 * (s.cnt.ncfn - s.perf.ncfn0) > 9 * nstd ∨ 10 * (s.m.ncfl - s.perf.ncfl0) > 9 * nnid then
      some { s with perf.nwarn := s.perf.nwarn + 1 }
    else some s

/-- The automatic initial step (/repo/src/impl_solve.rs:119-133). -/
def autoStep (cfg : Cfg ν n q K) (s : State ν n q K) (tout tdist : K) : K :=
  let hh := Scalar.pt001 * tdist
  let ypnorm := wrmsNorm cfg.id (s.h.phi 1) s.e.ewt cfg.suppressalg
  let hh := if Scalar.gt ypnorm (Scalar.two / hh) then Scalar.half / ypnorm else hh
  if Scalar.lt tout s.e.tn then -hh else hh

/-- The stop-time part of the first call (/repo/src/impl_solve.rs:140-157); `none` means "stop time behind". -/
def firstStop (s : State ν n q K) : Option (State ν n q K) :=
  match s.tstop with
  | some tstop =>
    if Scalar.le ((tstop - s.e.tn) * s.c.hh) 0 then none
    else some (clampToStop s tstop)
  | none => some s

/-- `initial_setup` (/repo/src/lib.rs:537-568) if it has not been done (/repo/src/impl_solve.rs:88-91). -/
def initialSetup (cfg : Cfg ν n q K) (s : State ν n q K) : State ν n q K :=
  if s.setupDone then s else { s with e.ewt := cfg.ewtSet (s.h.phi 0) s.e.ewt, setupDone := true }

/-- The size of the first step before the stop time is considered (/repo/src/impl_solve.rs:112-138). -/
def firstStepSize (cfg : Cfg ν n q K) (s : State ν n q K) (tout tdist : K) : K :=
  let hh := if Scalar.eqb cfg.hin 0 then autoStep cfg s tout tdist else cfg.hin
  let rh := Scalar.abs hh * cfg.hmaxInv
  if Scalar.gt rh 1 then hh / rh else hh

/-- The end of the first-call block (/repo/src/impl_solve.rs:159-175). -/
def firstReady (cfg : Cfg ν n q K) (s : State ν n q K) : State ν n q K :=
  let s := { s with h0u := s.c.hh, c.kk := 0, c.kused := 0 }
  let s := if q > 0 then rCheck1 cfg s else s
  { s with
    h.phi := upd s.h.phi 1 (vscale s.c.hh (s.h.phi 1))
    epsNewt := cfg.epcon
    e.toldel := Scalar.pt0001 * cfg.epcon }

/-- "The user's first step points away from `tout`" (/repo/src/impl_solve.rs:113-115). -/
def wrongWay (cfg : Cfg ν n q K) (s : State ν n q K) (tout : K) : Bool :=
  Scalar.neb cfg.hin 0 && Scalar.lt ((tout - s.e.tn) * cfg.hin) 0

/-- "`tout` is too close to `t0`" (/repo/src/impl_solve.rs:97-110). -/
def tooClose (s : State ν n q K) (tout : K) : Bool :=
  let tdist := Scalar.abs (tout - s.e.tn)
  Scalar.eqb tdist 0 || Scalar.lt tdist (Scalar.two * Scalar.eps * (Scalar.abs s.e.tn + Scalar.abs tout))

/-- The first-call block of `solve` (/repo/src/impl_solve.rs:84-176). -/
def firstCall (cfg : Cfg ν n q K) (s : State ν n q K) (tout : K) : Out (State ν n q K) Unit :=
  let s := initialSetup cfg s
  if tooClose s tout then .ret s (.error (.ida .illegalInput))
  else
    let s := { s with c.hh := cfg.hin }
    if wrongWay cfg s tout then .ret s (.error (.ida .illegalInput))
    else
      let s := { s with c.hh := firstStepSize cfg s tout (Scalar.abs (tout - s.e.tn)) }
      match firstStop s with
      | none => .ret s (.error (.ida .illegalInput))
      | some s => .ret (firstReady cfg s) (.ok ())

/-- What a section of `solve` does: return to the caller, or carry on. -/
inductive Flow (S : Type u) where
  | go (s : S)
  | ret (s : S) (r : Except Err Status)
  | panic
  | diverge

/-- Continue with `f` unless the section has returned. -/
def Flow.andThen {S : Type u} (o : Flow S) (f : S → Out S Status) : Out S Status :=
  match o with
  | .go s => f s
  | .ret s r => .ret s r
  | .panic => .panic
  | .diverge => .diverge

/-- Interpretation of the result of a stopping test (/repo/src/impl_solve.rs:231-239, 363-371). -/
def Flow.ofStop {S : Type u} : Out S Status → Flow S
  | .ret s (.ok .continueSteps) => .go s
  | .ret s r => .ret s r
  | .panic => .panic
  | .diverge => .diverge

/-- The root checks at the beginning of a later call (/repo/src/impl_solve.rs:184-226). -/
def rootChecks (cfg : Cfg ν n q K) (rf : Nat) (s : State ν n q K) (task : Task) : Flow (State ν n q K) :=
  let irfndp := s.r.irfnd
  match rCheck2 cfg s with
  | .panic => .panic
  | .diverge => .diverge
  | .ret s (.error e) => .ret s (.error e)
  | .ret s (.ok .rootFound) => .ret (s.setTret s.r.tlo) (.ok .root)
  | .ret s (.ok .continue_) =>
    let troundoff := (Scalar.abs s.e.tn + Scalar.abs s.c.hh) * Scalar.eps * Scalar.hundred
    if Scalar.gt (Scalar.abs (s.e.tn - s.tretlast)) troundoff then
      match rCheck3 cfg rf s with
      | .panic => .panic
      | .diverge => .diverge
      | .ret s (.error e) => .ret s (.error e)
      | .ret s (.ok .continue_) =>
        let s := { s with r.irfnd := false }
        if task = .oneStep ∧ irfndp = true then
          match getSolution' (s.setTret s.e.tn) s.e.tn with
          | none => .panic
          | some s => .ret s (.ok .success)
        else .go s
      | .ret s (.ok .rootFound) =>
        let s := { s with r.irfnd := true }
        .ret (s.setTret s.r.tlo) (.ok .root)
    else .go s

/-- The stop checks at the beginning of a later call (/repo/src/impl_solve.rs:181-240). -/
def laterCall (cfg : Cfg ν n q K) (rf : Nat) (s : State ν n q K) (tout : K) (task : Task) : Flow (State ν n q K) :=
  match (if q > 0 then rootChecks cfg rf s task else Flow.go s) with
  | .go s => Flow.ofStop (stopTest1 s tout task)
  | r => r

/-- The tests at the top of the step loop (/repo/src/impl_solve.rs:246-309). -/
def preStep (cfg : Cfg ν n q K) (s : State ν n q K) (nstloc : Nat) : Flow (State ν n q K) :=
  if cfg.mxstep > 0 ∧ nstloc ≥ cfg.mxstep then .ret (s.setTret s.e.tn) (.error (.ida .illegalInput))
  else
    match perfCheck s with
    | none => .panic
    | some s =>
      let s := if s.cnt.nst > 0 then { s with e.ewt := cfg.ewtSet (s.h.phi 0) s.e.ewt } else s
      let bad := decide (s.cnt.nst > 0) && Fin.foldl n (fun b i => b || Scalar.le (s.e.ewt i) 0) false
      if bad then
        match getSolution' s s.e.tn with
        | none => .panic
        | some s => .ret (s.setTret s.e.tn) (.error (.ida .illegalInput))
      else
        let nrm := wrmsNorm cfg.id (s.h.phi 0) s.e.ewt cfg.suppressalg
        let tolsf := Scalar.eps * nrm
        let s := { s with tolsf := tolsf }
        if Scalar.gt tolsf 1 then
          let s := ({ s with tolsf := tolsf * Scalar.ten }).setTret s.e.tn
          match (if s.cnt.nst > 0 then getSolution' s s.e.tn else some s) with
          | none => .panic
          | some s => .ret s (.error (.ida .tooMuchAccuracy))
        else .go s

/-- A failed step (/repo/src/impl_solve.rs:315-328). -/
def stepFailed (s : State ν n q K) (e : Err) : Flow (State ν n q K) :=
  match getSolution s s.e.tn with
  | .ret s (.ok _) => .ret (s.setTret s.e.tn) (.error e)
  | .ret s (.error _) => .ret s (.error e)
  | .panic => .panic
  | .diverge => .diverge

/-- The checks after a successful step (/repo/src/impl_solve.rs:333-371). -/
def postStep (cfg : Cfg ν n q K) (rf : Nat) (s : State ν n q K) (tout : K) (task : Task) : Flow (State ν n q K) :=
  if q > 0 then
    match rCheck3 cfg rf s with
    | .panic => .panic
    | .diverge => .diverge
    | .ret s (.error e) => .ret s (.error e)
    | .ret s (.ok .rootFound) =>
      let s := { s with r.irfnd := true }
      .ret (s.setTret s.r.tlo) (.ok .root)
    | .ret s (.ok .continue_) => Flow.ofStop (stopTest2 s tout task)
  else Flow.ofStop (stopTest2 s tout task)

/-- One pass of the step loop of `solve`. -/
def solvePass (cfg : Cfg ν n q K) (rf : Nat) (s : State ν n q K) (tout : K) (task : Task) (nstloc : Nat) :
    Flow (State ν n q K) :=
  match preStep cfg s nstloc with
  | .go s =>
    match step cfg s with
    | .panic => .panic
    | .diverge => .diverge
    | .ret s (.error e) => stepFailed s e
    | .ret s (.ok _) => postStep cfg rf s tout task
  | r => r

/-- The step loop of `solve` (/repo/src/impl_solve.rs:245-373), with fuel `sf`; `rf` is the fuel of root searches. -/
def solveLoop (cfg : Cfg ν n q K) (rf : Nat) (tout : K) (task : Task) :
    Nat → State ν n q K → Nat → Out (State ν n q K) Status
  | 0, _, _ => .diverge
  | sf + 1, s, nstloc =>
    (solvePass cfg rf s tout task nstloc).andThen fun s => solveLoop cfg rf tout task sf s (nstloc + 1)

/-- `solve` (/repo/src/impl_solve.rs:69-376).  `s.tret` is the caller's variable. -/
def solve (cfg : Cfg ν n q K) (rf sf : Nat) (s : State ν n q K) (tout : K) (task : Task) :
    Out (State ν n q K) Status :=
  let s := if task = .normal then { s with r.toutc := tout } else s
  let s := { s with r.taskc := task }
  (if s.cnt.nst = 0 then firstCall cfg s tout else .ret s (.ok ())).bind fun s _ =>
    let s := perfReset s
    (if s.cnt.nst > 0 then laterCall cfg rf s tout task else Flow.go s).andThen fun s =>
      solveLoop cfg rf tout task sf s 0

/-- A call of a public method by the user. -/
inductive Op (K : Type u) where
  /-- `solve(tout, &mut tret, task)`, where the caller's variable contains `tret` -/
  | solve (tout tret : K) (task : Task)
  | getSolution (t : K)
  | getDky (t : K) (k : Nat)

/-- What the user sees of a call. -/
inductive Res (n : Nat) (K : Type u) where
  | solved (r : Except Err Status)
  | solution (r : Except Err Unit)
  | dky (r : Except Err (Vec n K))

/-- Execution of a public call; `none`: it panicked or did not return. -/
def exec (cfg : Cfg ν n q K) (rf sf : Nat) (s : State ν n q K) : Op K → Option (State ν n q K × Res n K)
  | .solve tout tret task =>
    match solve cfg rf sf { s with tret := tret } tout task with
    | .ret s r => some (s, .solved r)
    | _ => none
  | .getSolution t =>
    match getSolution s t with
    | .ret s r => some (s, .solution r)
    | _ => none
  | .getDky t k =>
    match getDky s t k with
    | .ret s r => some (s, .dky r)
    | _ => none

end

end Verif
