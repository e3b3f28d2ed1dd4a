import Verif.Model.Interp

/-! # One internal step: `step` and everything it calls -/

set_option autoImplicit false
set_option linter.unusedVariables false

namespace Verif

universe u v

section
variable {ν : Type v} {n q : Nat} {K : Type u} [Scalar K]

/-- Local variable `temp1` and the arrays written by the coefficient loop of `set_coeffs`. -/
structure CoefLoop (K : Type u) where
  temp1 : K
  psi : Nat → K
  alpha : Nat → K
  beta : Nat → K
  sigma : Nat → K
  gamma : Nat → K

/-- One pass of the coefficient loop (/repo/src/lib.rs:737-746), for `i = i0 + 1`. -/
def coefPass (hh : K) (i0 : Nat) (l : CoefLoop K) : CoefLoop K :=
  let i := i0 + 1
  let temp2 := l.psi (i - 1)
  let psi := upd l.psi (i - 1) l.temp1
  let beta := upd l.beta i (l.beta (i - 1) * psi (i - 1) / temp2)
  let temp1 := temp2 + hh
  let alpha := upd l.alpha i (hh / temp1)
  let sigma := upd l.sigma i (Scalar.ofNat i * l.sigma (i - 1) * alpha i)
  let gamma := upd l.gamma i (l.gamma (i - 1) + alpha (i - 1) / hh)
  { temp1 := temp1, psi := psi, alpha := alpha, beta := beta, sigma := sigma, gamma := gamma }

/-- The branch of `set_coeffs` that recomputes the coefficients (/repo/src/lib.rs:731-748). -/
def recompute (kk : Nat) (hh : K) (h : Hist n K) : Hist n K :=
  let l := forUp kk (coefPass hh)
    { temp1 := hh, psi := h.psi, alpha := upd h.alpha 0 1, beta := upd h.beta 0 1, sigma := upd h.sigma 0 1
      gamma := upd h.gamma 0 0 }
  { h with psi := upd l.psi kk l.temp1, alpha := l.alpha, beta := l.beta, sigma := l.sigma, gamma := l.gamma }

/-- `alphas` and `alpha0` (/repo/src/lib.rs:750-756). -/
def alphaSums (alpha : Nat → K) (kk : Nat) : K × K :=
  forUp kk (fun i (a : K × K) => (a.1 - 1 / Scalar.ofNat (i + 1), a.2 - alpha i)) (0, 0)

/-- `phi[lo ..= hi] *= c[lo ..= hi]` (/repo/src/lib.rs:767-779 and 1071-1081). -/
def scalePhi (phi : Nat → Vec n K) (c : Nat → K) (lo hi : Nat) : Nat → Vec n K :=
  fun j => if lo ≤ j ∧ j ≤ hi then vscale (c j) (phi j) else phi j

/-- The counter `ns` after the first lines of `set_coeffs` (/repo/src/lib.rs:726-730). -/
def nextNs (c : Ctl K) : Nat :=
  let ns := if Scalar.neb c.hh c.hused || decide (c.kk ≠ c.kused) then 0 else c.ns
  min (ns + 1) (c.kused + 2)

/-- `set_coeffs` (/repo/src/lib.rs:722-782): new state and the error coefficient `ck`; `none` is an out-of-bounds
index. -/
def setCoeffs (s : State ν n q K) : Option (State ν n q K × K) :=
  let kk := s.c.kk
  if kk < mxordp1 then
    let ns := nextNs s.c
    let h := if kk + 1 ≥ ns then recompute kk s.c.hh s.h else s.h
    let a := alphaSums h.alpha kk
    let cj := -a.1 / s.c.hh
    let ck := Scalar.max (Scalar.abs (h.alpha kk + a.1 - a.2)) (h.alpha kk)
    let phi := if ns ≤ kk then scalePhi h.phi h.beta ns kk else h.phi
    some ({ s with h := { h with phi := phi }, c := { s.c with ns := ns, cjlast := s.e.cj }, e.cj := cj }, ck)
  else none

/-- `predict` (/repo/src/lib.rs:894-959). -/
def predict (s : State ν n q K) : Option (State ν n q K) :=
  if s.c.kk < mxordp1 then
    some { s with
      e.yypredict := forUp (s.c.kk + 1) (fun j y => vadd y (s.h.phi j)) vzero
      e.yppredict := forUp s.c.kk (fun j y => scaledAdd y (s.h.gamma (j + 1)) (s.h.phi (j + 1))) vzero }
  else none

/-- The decision of `nonlinear_solve` to refresh the Jacobian and the updates of `cjold`, `cjratio`, `ss`
(/repo/src/lib.rs:792-816): memory passed to the solver and `call_lsetup`. -/
def nlsPrepare (s : State ν n q K) : Mem n K × Bool :=
  let m := s.m
  let first := decide (s.cnt.nst = 0)
  let m := if first then { m with cjold := s.e.cj, ss := Scalar.twenty } else m
  let m := { m with cjratio := s.e.cj / m.cjold }
  let temp1 : K := Scalar.xrateLo
  let temp2 := Scalar.recip temp1
  let call := first || (Scalar.lt m.cjratio temp1 || Scalar.gt m.cjratio temp2)
  let m := if Scalar.neb s.e.cj s.c.cjlast then { m with ss := Scalar.hundred } else m
  (m, call)

/-- `nonlinear_solve` (/repo/src/lib.rs:787-890).  `unimplemented!()` for constraints is a panic. -/
def nonlinearSolve (cfg : Cfg ν n q K) (s : State ν n q K) : Out (State ν n q K) Unit :=
  let p := nlsPrepare s
  let s := { s with m := p.1, delta := vzero }
  match cfg.nls.solve s.nls s.e s.m s.delta s.ee s.e.ewt s.epsNewt p.2 with
  | .panic => .panic
  | .diverge => .diverge
  | .ret N m ee r =>
    let m := { m with yy := vadd s.e.yypredict ee, yp := scaledAdd s.e.yppredict s.e.cj ee }
    let s := { s with nls := N, m := m, ee := ee }
    match r with
    | .error e => .ret s (.error e)
    | .ok _ => if cfg.constraintsSet then .panic else .ret s (.ok ())

/-- Result of `test_error`: `(err_k, err_km1)` and whether the test passed. -/
structure TestRes (K : Type u) where
  errk : K
  errkm1 : K
  passed : Bool

/-- `test_error` (/repo/src/lib.rs:967-1039). -/
def testError (cfg : Cfg ν n q K) (s : State ν n q K) (ck : K) : Option (State ν n q K × TestRes K) :=
  let kk := s.c.kk
  if kk < mxordp1 then
    let norm (x : Vec n K) : K := wrmsNorm cfg.id x s.e.ewt cfg.suppressalg
    let enormk := norm s.ee
    let errk := s.h.sigma kk * enormk
    let terrk := errk * (Scalar.ofNat kk + 1)
    let t : K × Nat × Vec n K :=
      if kk > 1 then
        let delta := vadd (s.h.phi kk) s.ee
        let errkm1 := s.h.sigma (kk - 1) * norm delta
        let terrkm1 := Scalar.ofNat kk * errkm1
        if kk > 2 then
          let delta := vadd delta (s.h.phi (kk - 1))
          let errkm2 := s.h.sigma (kk - 2) * norm delta
          let terrkm2 := (Scalar.ofNat kk - 1) * errkm2
          (errkm1, if Scalar.le (Scalar.max terrkm1 terrkm2) terrk then kk - 1 else kk, delta)
        else (errkm1, if Scalar.le terrkm1 (terrk * Scalar.half) then kk - 1 else kk, delta)
      else (0, kk, s.delta)
    let s := { s with delta := t.2.2, c.knew := t.2.1 }
    some (s, { errk := errk, errkm1 := t.1, passed := Scalar.le (ck * enormk) 1 })
  else none

/-- `restore` (/repo/src/lib.rs:1044-1083). -/
def restore (s : State ν n q K) (savedT : K) : Option (State ν n q K) :=
  let kk := s.c.kk
  if kk < mxordp1 then
    let psi := forUp kk (fun j0 p => upd p j0 (p (j0 + 1) - s.c.hh)) s.h.psi
    let phi := if s.c.ns ≤ kk then scalePhi s.h.phi (fun j => Scalar.recip (s.h.beta j)) s.c.ns kk else s.h.phi
    some { s with e.tn := savedT, h.psi := psi, h.phi := phi }
  else none

/-- Local counters `ncf`, `nef` of `step`. -/
structure Fails where
  ncf : Nat
  nef : Nat
deriving DecidableEq, Repr

/-- `handle_n_flag` (/repo/src/lib.rs:1120-1244): new state and counters, and `Ok`/`Err`; `none` is the panic
`unimplemented!("Should never happen")`. -/
def handleNFlag (cfg : Cfg ν n q K) (s : State ν n q K) (error : Err) (errk errkm1 : K) (f : Fails) :
    Option (State ν n q K × Fails × Except Err Unit) :=
  let s := { s with c.phase := 1 }
  match error with
  | .ida .testFail =>
    let f := { f with nef := f.nef + 1 }
    let s := { s with cnt.netf := s.cnt.netf + 1 }
    if f.nef = 1 then
      let errknew := if s.c.kk = s.c.knew then errk else errkm1
      let kk := s.c.knew
      let base := Scalar.two * errknew + Scalar.pt0001
      let rr := Scalar.pt9 * Scalar.powf base (-(Scalar.recip (Scalar.ofNat (kk + 1))))
      let rr := Scalar.max Scalar.quarter (Scalar.min Scalar.pt9 rr)
      some ({ s with c.kk := kk, c.rr := rr, c.hh := s.c.hh * rr }, f, .ok ())
    else if f.nef = 2 then
      let rr : K := Scalar.quarter
      some ({ s with c.kk := s.c.knew, c.rr := rr, c.hh := s.c.hh * rr }, f, .ok ())
    else if f.nef < cfg.maxnef then
      let rr : K := Scalar.quarter
      some ({ s with c.kk := 1, c.rr := rr, c.hh := s.c.hh * rr }, f, .ok ())
    else some (s, f, .error (.other "IDA_ERR_FAIL"))
  | .ida (.recoverableFail rec) =>
    let f := { f with ncf := f.ncf + 1 }
    let s := { s with cnt.ncfn := s.cnt.ncfn + 1 }
    let rr := if rec = Rec.constraint then s.c.rr else Scalar.quarter
    let s := { s with c.rr := rr, c.hh := s.c.hh * rr }
    if f.ncf < cfg.maxncf then some (s, f, .ok ())
    else some (s, f, .error (match rec with
      | .residual => .ida .residualFail
      | .constraint => .ida .constraintFail
      | _ => .ida .convergenceFail))
  | .ida _ => none
  | e => some ({ s with cnt.ncfn := s.cnt.ncfn + 1 }, { f with ncf := f.ncf + 1 }, .error e)

/-- `reset` (/repo/src/lib.rs:1249-1252): note that it scales the whole array `phi`. -/
def reset (s : State ν n q K) : State ν n q K :=
  { s with h.psi := upd s.h.psi 0 s.c.hh, h.phi := fun j => if j < mxordp1 then vscale s.c.rr (s.h.phi j) else s.h.phi j }

/-- `hnew = 2*hh` limited by `hmax_inv` (/repo/src/impl_complete_step.rs:46-50, 135-139). -/
def doubled (cfg : Cfg ν n q K) (hh : K) : K :=
  let hnew := Scalar.two * hh
  let tmp := Scalar.abs hnew * cfg.hmaxInv
  if Scalar.gt tmp 1 then hnew / tmp else hnew

/-- `enum Action` (/repo/src/impl_complete_step.rs:55-60). -/
inductive Action where
  | lower
  | maintain
  | raise
deriving DecidableEq, Repr

/-- The order decision (/repo/src/impl_complete_step.rs:63-104): action and `err_kp1`.  `kdiff1` is `kdiff == 1`.
`none`: `phi[kk+1]` out of bounds. -/
def orderAction (cfg : Cfg ν n q K) (s : State ν n q K) (kdiff1 : Bool) (errk errkm1 : K) : Option (Action × K) :=
  let kk := s.c.kk
  if s.c.knew = kk - 1 then some (.lower, 0)
  else if kk = cfg.maxord then some (.maintain, 0)
  else if kk + 1 ≥ s.c.ns || kdiff1 then some (.maintain, 0)
  else if kk + 1 < mxordp1 then
    let enorm := wrmsNorm cfg.id (vsub s.ee (s.h.phi (kk + 1))) s.e.ewt cfg.suppressalg
    let errkp1 := enorm / Scalar.ofNat (kk + 2)
    let terrk := Scalar.ofNat (kk + 1) * errk
    let terrkp1 := Scalar.ofNat (kk + 2) * errkp1
    if kk = 1 then
      if Scalar.ge terrkp1 (Scalar.half * terrk) then some (.maintain, errkp1) else some (.raise, errkp1)
    else
      let terrkm1 := Scalar.ofNat kk * errkm1
      if Scalar.le terrkm1 (Scalar.min terrk terrkp1) then some (.lower, errkp1)
      else if Scalar.ge terrkp1 terrk then some (.maintain, errkp1)
      else some (.raise, errkp1)
  else none

/-- Step-size selection from the estimate (/repo/src/impl_complete_step.rs:123-147): new `rr` and `hh`. -/
def selectStep (cfg : Cfg ν n q K) (hh : K) (kk : Nat) (errknew : K) : K × K :=
  let base := Scalar.two * errknew + Scalar.pt0001
  let rr := Scalar.powf base (-(Scalar.recip (Scalar.ofNat (kk + 1))))
  if Scalar.ge rr Scalar.two then (rr, doubled cfg hh)
  else if Scalar.le rr 1 then
    let rr := Scalar.max Scalar.half (Scalar.min rr Scalar.pt9)
    (rr, hh * rr)
  else (rr, hh)

/-- The final update of `phi` (/repo/src/impl_complete_step.rs:151-175): `phi[kused+1] = ee` if `kused < maxord`, then
`tmp = ee; for j in (0..=kused).rev() { tmp += phi[j]; phi[j] = tmp }`. -/
def updatePhi (maxord kused : Nat) (ee : Vec n K) (phi : Nat → Vec n K) : Nat → Vec n K :=
  let phi := if kused < maxord then upd phi (kused + 1) ee else phi
  (forUp (kused + 1) (fun i (a : Vec n K × (Nat → Vec n K)) =>
      let j := kused - i
      let tmp := vadd a.1 (a.2 j)
      (tmp, upd a.2 j tmp)) (ee, phi)).2

/-- End of the initial phase (/repo/src/impl_complete_step.rs:33-35). -/
def markPhase (cfg : Cfg ν n q K) (s : State ν n q K) : State ν n q K :=
  if s.c.knew = s.c.kk - 1 ∨ s.c.kk = cfg.maxord then { s with c.phase := 1 } else s

/-- The order and step size for the next step (/repo/src/impl_complete_step.rs:37-148).  `none`: index out of
bounds. -/
def chooseNext (cfg : Cfg ν n q K) (s : State ν n q K) (kdiff1 : Bool) (errk errkm1 : K) : Option (State ν n q K) :=
  if s.c.phase = 0 then
    if s.cnt.nst > 1 then some { s with c.kk := s.c.kk + 1, c.hh := doubled cfg s.c.hh } else some s
  else
    match orderAction cfg s kdiff1 errk errkm1 with
    | none => none
    | some (act, errkp1) =>
      let p : Nat × K := match act with
        | .raise => (s.c.kk + 1, errkp1)
        | .lower => (s.c.kk - 1, errkm1)
        | .maintain => (s.c.kk, errk)
      let r := selectStep cfg s.c.hh p.1 p.2
      some { s with c.kk := p.1, c.rr := r.1, c.hh := r.2 }

/-- `complete_step` (/repo/src/impl_complete_step.rs:22-177).  `none`: index out of bounds, or `kk - 1` underflow. -/
def completeStep (cfg : Cfg ν n q K) (s : State ν n q K) (errk errkm1 : K) : Option (State ν n q K) :=
  let kk0 := s.c.kk
  if kk0 = 0 then none
  else
    match chooseNext cfg (markPhase cfg { s with cnt.nst := s.cnt.nst + 1, c.kused := kk0, c.hused := s.c.hh })
      (decide (kk0 = s.c.kused + 1)) errk errkm1 with
    | none => none
    | some s =>
      if kk0 < mxordp1 ∧ (kk0 < cfg.maxord → kk0 + 1 < mxordp1) then
        some { s with h.phi := updatePhi cfg.maxord kk0 s.ee s.h.phi }
      else none

/-- Initialisations at the beginning of `step` when no step has been taken yet (/repo/src/lib.rs:619-627). -/
def firstStepInit (s : State ν n q K) : State ν n q K :=
  if s.cnt.nst = 0 then
    { s with c.kk := 1, c.kused := 0, c.hused := 0, h.psi := upd s.h.psi 0 s.c.hh, e.cj := Scalar.recip s.c.hh
             c.phase := 0, c.ns := 0 }
  else s

/-- `tn += hh`, limited by the stop time (/repo/src/lib.rs:653-658). -/
def advanceTime (s : State ν n q K) : State ν n q K :=
  let tn := s.e.tn + s.c.hh
  let tn := match s.tstop with
    | some tstop => if Scalar.gt ((tn - tstop) * s.c.hh) 1 then tstop else tn
    | none => tn
  { s with e.tn := tn }

/-- Result of one pass of the attempt loop of `step`. -/
inductive Attempt (S : Type u) (K : Type v) where
  /-- converged: leave the loop with `(ck, err_k, err_km1)` -/
  | done (s : S) (ck errk errkm1 : K)
  /-- recoverable failure: go round again -/
  | again (s : S) (f : Fails)
  /-- error returned by `handle_n_flag` -/
  | fail (s : S) (e : Err)
  | panic
  | diverge

/-- The failure branch of the attempt loop (/repo/src/lib.rs:676-690). -/
def attemptFailed (cfg : Cfg ν n q K) (savedT : K) (s : State ν n q K) (err : Err) (errk errkm1 : K) (f : Fails) :
    Attempt (State ν n q K) K :=
  match restore s savedT with
  | none => .panic
  | some s =>
    match handleNFlag cfg s err errk errkm1 f with
    | none => .panic
    | some (s, f, .ok ()) => .again (if s.cnt.nst = 0 then reset s else s) f
    | some (s, _, .error e) => .fail s e

/-- Ghost: the accepted points before an attempt that starts at `t0`; before the first step this is the starting
point, whose solution vector is `phi[0]`. -/
def State.points (s : State ν n q K) (t0 : K) : List (K × Vec n K) :=
  if s.cnt.nst = 0 then [(t0, s.h.phi 0)] else s.g.acc

/-- Ghost: record an attempt. -/
def State.note (s : State ν n q K) (t0 ck : K) (out : AttOut) : State ν n q K :=
  { s with
    g.atts :=
      { before := s.points t0, t0 := t0, tnew := s.e.tn, hh := s.c.hh, kk := s.c.kk, ck := ck, cj := s.e.cj
        pred := s.e.yypredict, predp := s.e.yppredict, ewt := s.e.ewt, ee := s.ee, yy := s.m.yy, yp := s.m.yp
        stop := s.tstop, out := out } :: s.g.atts }

/-- Ghost: record the accepted point. -/
def State.noteAcc (s : State ν n q K) (t0 : K) : State ν n q K :=
  { s with g.acc := (s.e.tn, s.m.yy) :: s.points t0 }

/-- What the first part of a pass of the attempt loop finds out. -/
inductive Trial (S : Type u) (K : Type v) where
  /-- the nonlinear solver returned an error -/
  | nlsFail (s : S) (ck : K) (e : Err)
  /-- the corrector converged and the error test was evaluated -/
  | tested (s : S) (ck : K) (t : TestRes K)
  | panic
  | diverge

/-- Coefficients, prediction, nonlinear solve and error test (/repo/src/lib.rs:646-674). -/
def trial (cfg : Cfg ν n q K) (s : State ν n q K) : Trial (State ν n q K) K :=
  match setCoeffs s with
  | none => .panic
  | some (s, ck) =>
    match predict (advanceTime s) with
    | none => .panic
    | some s =>
      match nonlinearSolve cfg s with
      | .panic => .panic
      | .diverge => .diverge
      | .ret s (.error e) => .nlsFail s ck e
      | .ret s (.ok ()) =>
        match testError cfg s ck with
        | none => .panic
        | some (s, t) => .tested s ck t

/-- One pass of the attempt loop of `step` (/repo/src/lib.rs:634-695). -/
def attempt (cfg : Cfg ν n q K) (savedT : K) (s : State ν n q K) (f : Fails) : Attempt (State ν n q K) K :=
  match trial cfg s with
  | .panic => .panic
  | .diverge => .diverge
  | .nlsFail s ck e => attemptFailed cfg savedT (s.note savedT ck (.nlsFail e)) e 0 0 f
  | .tested s ck t =>
    if t.passed then
      .done ((s.note savedT ck .accepted).noteAcc savedT) ck t.errk t.errkm1
    else attemptFailed cfg savedT (s.note savedT ck .testFail) (.ida .testFail) t.errk t.errkm1 f

/-- The attempt loop and the end of `step` (/repo/src/lib.rs:634-711), with fuel. -/
def stepLoop (cfg : Cfg ν n q K) (savedT : K) : Nat → State ν n q K → Fails → Out (State ν n q K) Unit
  | 0, _, _ => .diverge
  | fuel + 1, s, f =>
    match attempt cfg savedT s f with
    | .panic => .panic
    | .diverge => .diverge
    | .fail s e => .ret s (.error e)
    | .again s f => stepLoop cfg savedT fuel s f
    | .done s ck errk errkm1 =>
      match completeStep cfg s errk errkm1 with
      | none => .panic
      | some s => .ret { s with ee := vscale ck s.ee } (.ok ())

/-- `step` (/repo/src/lib.rs:613-711).  The fuel is the number of attempts after which `handle_n_flag` must have given
up (`c30_attempts_bounded` shows that it is never exhausted). -/
def step (cfg : Cfg ν n q K) (s : State ν n q K) : Out (State ν n q K) Unit :=
  stepLoop cfg s.e.tn (max cfg.maxnef 3 + cfg.maxncf + 1) (firstStepInit s) { ncf := 0, nef := 0 }

end

end Verif
