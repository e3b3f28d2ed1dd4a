import Verif.Model.Interp

/-! # Root finding (/repo/src/impl_r_check.rs) -/

set_option autoImplicit false
set_option linter.unusedVariables false

namespace Verif

universe u v

/-- `RootStatus` (/repo/src/impl_r_check.rs:3-6). -/
inductive RootStatus where
  | rootFound
  | continue_
deriving DecidableEq, Repr

section
variable {ν : Type v} {n q : Nat} {K : Type u} [Scalar K]

/-- `let _ = self.get_solution(t)`: the error is discarded (it leaves the state unchanged); `none` is a panic. -/
def getSolution' (s : State ν n q K) (t : K) : Option (State ν n q K) :=
  match getSolution s t with
  | .ret s _ => some s
  | _ => none

/-- A call of the user's root function; the ghost log records it. -/
def callRoot (cfg : Cfg ν n q K) (s : State ν n q K) (t : K) (yy yp : Vec n K) (buf : Vec q K) :
    State ν n q K × Vec q K :=
  ({ s with m.log := .root t yy yp :: s.m.log }, cfg.prob.root t yy yp buf)

/-- The root tolerance `ttol` (/repo/src/impl_r_check.rs:39-41, 150-152, 250-252). -/
def rootTol (s : State ν n q K) : K := (Scalar.abs s.e.tn + Scalar.abs s.c.hh) * Scalar.eps * Scalar.hundred

/-- `r_check1` (/repo/src/impl_r_check.rs:32-99). -/
def rCheck1 (cfg : Cfg ν n q K) (s : State ν n q K) : State ν n q K :=
  let s := { s with r.iroots := vzero, r.tlo := s.e.tn, r.ttol := rootTol s }
  let (s, glo) := callRoot cfg s s.r.tlo (s.h.phi 0) (s.h.phi 1) s.r.glo
  let zroot := Fin.foldl q (fun z i => z || Scalar.eqb (Scalar.abs (glo i)) 0) false
  let gactive : Fin q → Bool := fun i => if Scalar.eqb (Scalar.abs (glo i)) 0 then false else s.r.gactive i
  let s := { s with r.glo := glo, r.nge := 1, r.gactive := gactive }
  if zroot then
    let hratio := Scalar.max (s.r.ttol / Scalar.abs s.c.hh) Scalar.pt1
    let smallh := hratio * s.c.hh
    let tplus := s.r.tlo + smallh
    let s := { s with m.yy := scaledAdd (s.h.phi 0) smallh (s.h.phi 1) }
    let (s, ghi) := callRoot cfg s tplus s.m.yy (s.h.phi 1) s.r.ghi
    let act : Fin q → Bool := fun i => !s.r.gactive i && Scalar.neb (Scalar.abs (ghi i)) 0
    { s with
      r.ghi := ghi
      r.nge := s.r.nge + 1
      r.gactive := fun i => if act i then true else s.r.gactive i
      r.glo := fun i => if act i then ghi i else s.r.glo i }
  else s

/-- State of the second fold of `r_check2`. -/
structure R2Fold (q : Nat) (K : Type u) where
  /-- `FoldWhile::Done`: close roots -/
  done : Bool
  zroot : Bool
  iroots : Vec q K
  glo : Vec q K

/-- The second fold of `r_check2` (/repo/src/impl_r_check.rs:176-198). -/
def r2Fold (gactive : Fin q → Bool) (ghi : Vec q K) (iroots glo : Vec q K) : R2Fold q K :=
  Fin.foldl q (fun (a : R2Fold q K) i =>
    if a.done then a
    else if gactive i then
      if Scalar.eqb (Scalar.abs (ghi i)) 0 then
        if Scalar.gt (a.iroots i) 0 then { a with done := true }
        else { a with zroot := true, iroots := fun j => if j = i then 1 else a.iroots j }
      else if Scalar.gt (a.iroots i) 0 then { a with glo := fun j => if j = i then ghi i else a.glo j }
      else a
    else a) { done := false, zroot := false, iroots := iroots, glo := glo }

/-- `r_check2` (/repo/src/impl_r_check.rs:117-209). -/
def rCheck2 (cfg : Cfg ν n q K) (s : State ν n q K) : Out (State ν n q K) RootStatus :=
  if s.r.irfnd = false then .ret s (.ok .continue_)
  else
    match getSolution' s s.r.tlo with
    | none => .panic
    | some s =>
      let (s, glo) := callRoot cfg s s.r.tlo s.m.yy s.m.yp s.r.glo
      let zero : Fin q → Bool := fun i => s.r.gactive i && Scalar.eqb (Scalar.abs (glo i)) 0
      let zroot := Fin.foldl q (fun z i => z || zero i) false
      let s := { s with r.glo := glo, r.nge := s.r.nge + 1, r.iroots := fun i => if zero i then 1 else 0 }
      if zroot then
        let s := { s with r.ttol := rootTol s }
        let smallh := s.r.ttol * Scalar.signum s.c.hh
        let tplus := s.r.tlo + smallh
        let s? := if Scalar.ge ((tplus - s.e.tn) * s.c.hh) 0 then
            some { s with m.yy := scaledAdd s.m.yy (smallh / s.c.hh) (s.h.phi 1) }
          else getSolution' s tplus
        match s? with
        | none => .panic
        | some s =>
          let (s, ghi) := callRoot cfg s tplus s.m.yy s.m.yp s.r.ghi
          let a := r2Fold s.r.gactive ghi s.r.iroots s.r.glo
          let s := { s with r.ghi := ghi, r.nge := s.r.nge + 1, r.iroots := a.iroots, r.glo := a.glo }
          if a.done then .ret s (.error (.ida .closeRoots))
          else if a.zroot then .ret s (.ok .rootFound)
          else .ret s (.ok .continue_)
      else .ret s (.ok .continue_)

/-- Accumulator of the scans of `root_find`. -/
structure Scan (K : Type u) where
  zroot : Bool
  sgnchg : Bool
  maxfrac : K
  imax : Nat

/-- `rootdir_glo_neg` -/
def dirOk (cfg : Cfg ν n q K) (glo : Vec q K) (i : Fin q) : Bool := Scalar.le (Scalar.ofNat (cfg.rootdir i) * glo i) 0

/-- The update for a sign change (/repo/src/impl_r_check.rs:370-377, 507-514). -/
def scanSign (cfg : Cfg ν n q K) (glo g : Vec q K) (a : Scan K) (i : Fin q) : Scan K :=
  if Scalar.lt (glo i * g i) 0 && dirOk cfg glo i then
    let gfrac := Scalar.abs (g i / (g i - glo i))
    if Scalar.gt gfrac a.maxfrac then { a with sgnchg := true, maxfrac := gfrac, imax := i.val } else a
  else a

/-- The first scan of `root_find` (/repo/src/impl_r_check.rs:347-386). -/
def scan1 (cfg : Cfg ν n q K) (gactive : Fin q → Bool) (glo ghi : Vec q K) : Scan K :=
  Fin.foldl q (fun (a : Scan K) i =>
    if gactive i then
      if Scalar.eqb (Scalar.abs (ghi i)) 0 then (if dirOk cfg glo i then { a with zroot := true } else a)
      else scanSign cfg glo ghi a i
    else a) { zroot := false, sgnchg := false, maxfrac := 0, imax := 0 }

/-- The scan inside the loop of `root_find` (/repo/src/impl_r_check.rs:486-522). -/
def scan2 (cfg : Cfg ν n q K) (gactive : Fin q → Bool) (glo grout : Vec q K) (imax : Nat) : Scan K :=
  Fin.foldl q (fun (a : Scan K) i =>
    if gactive i then
      if Scalar.eqb (Scalar.abs (grout i)) 0 && dirOk cfg glo i then { a with zroot := true }
      else scanSign cfg glo grout a i
    else a) { zroot := false, sgnchg := false, maxfrac := 0, imax := imax }

/-- `fracsub` (/repo/src/impl_r_check.rs:455-460, 464-469). -/
def fracSub (thi tlo ttol : K) : K :=
  let fracint := Scalar.abs (thi - tlo) / ttol
  if Scalar.gt fracint Scalar.five then Scalar.pt1 else Scalar.half / fracint

/-- The trial point `tmid` (/repo/src/impl_r_check.rs:450-471). -/
def trialPoint (thi tlo ttol ghi glo alph : K) : K :=
  let tmid := thi - (thi - tlo) * ghi / (ghi - alph * glo)
  let tmid := if Scalar.lt (Scalar.abs (tmid - tlo)) (Scalar.half * ttol)
    then tlo + fracSub thi tlo ttol * (thi - tlo) else tmid
  if Scalar.lt (Scalar.abs (thi - tmid)) (Scalar.half * ttol)
    then thi - fracSub thi tlo ttol * (thi - tlo) else tmid

/-- Local variables of the loop of `root_find`. -/
structure RfLoc (K : Type u) where
  alph : K
  side : Int
  sideprev : Int
  imax : Nat

/-- The weight `alph` of the next pass (/repo/src/impl_r_check.rs:437-445). -/
def nextAlph (l : RfLoc K) : K :=
  if l.sideprev = l.side then (if l.side = 2 then l.alph * Scalar.two else l.alph * Scalar.half) else 1

/-- The convergence test of the loop (/repo/src/impl_r_check.rs:423, 530, 549). -/
def bracketSmall (r : RootSt q K) : Bool := Scalar.le (Scalar.abs (r.thi - r.tlo)) r.ttol

/-- How a pass of the loop ends: `break`, go round again, or an out-of-bounds index. -/
inductive RfPass (S : Type u) (L : Type v) where
  | stop (s : S)
  | more (s : S) (l : L)
  | panic

/-- The assignments at the end of a pass (/repo/src/impl_r_check.rs:524-551). -/
def rootNarrow (s : State ν n q K) (a : Scan K) (tmid alph : K) (sideprev : Int) : RfPass (State ν n q K) (RfLoc K) :=
  if a.sgnchg then
    let s := { s with r.thi := tmid, r.ghi := s.r.grout }
    if bracketSmall s.r then .stop s else .more s { alph := alph, side := 1, sideprev := sideprev, imax := a.imax }
  else if a.zroot then .stop { s with r.thi := tmid, r.ghi := s.r.grout }
  else
    let s := { s with r.tlo := tmid, r.glo := s.r.grout }
    if bracketSmall s.r then .stop s else .more s { alph := alph, side := 2, sideprev := sideprev, imax := a.imax }

/-- One pass of the loop of `root_find` after the convergence test (/repo/src/impl_r_check.rs:427-551). -/
def rootPass (cfg : Cfg ν n q K) (s : State ν n q K) (l : RfLoc K) : RfPass (State ν n q K) (RfLoc K) :=
  if hi : l.imax < q then
    let alph := nextAlph l
    let tmid := trialPoint s.r.thi s.r.tlo s.r.ttol (s.r.ghi ⟨l.imax, hi⟩) (s.r.glo ⟨l.imax, hi⟩) alph
    match getSolution' s tmid with
    | none => .panic
    | some s =>
      let p := callRoot cfg s tmid s.m.yy s.m.yp s.r.grout
      let s := { p.1 with r.grout := p.2, r.nge := s.r.nge + 1 }
      rootNarrow s (scan2 cfg s.r.gactive s.r.glo s.r.grout l.imax) tmid alph l.side
  else .panic

/-- The loop of `root_find` (/repo/src/impl_r_check.rs:421-552), with fuel. -/
def rootLoop (cfg : Cfg ν n q K) : Nat → State ν n q K → RfLoc K → Out (State ν n q K) Unit
  | 0, _, _ => .diverge
  | fuel + 1, s, l =>
    if bracketSmall s.r then .ret s (.ok ())
    else match rootPass cfg s l with
      | .panic => .panic
      | .stop s => .ret s (.ok ())
      | .more s l => rootLoop cfg fuel s l

/-- `iroots` at the end of `root_find` (/repo/src/impl_r_check.rs:556-573). -/
def finalIroots (cfg : Cfg ν n q K) (r : RootSt q K) : Vec q K := fun i =>
  if r.gactive i && (dirOk cfg r.glo i &&
      (Scalar.eqb (Scalar.abs (r.ghi i)) 0 || Scalar.lt (r.glo i * r.ghi i) 0))
  then Scalar.signum (r.glo i) else 0

/-- `root_find` (/repo/src/impl_r_check.rs:343-576). -/
def rootFind (cfg : Cfg ν n q K) (fuel : Nat) (s : State ν n q K) : Out (State ν n q K) RootStatus :=
  let a := scan1 cfg s.r.gactive s.r.glo s.r.ghi
  if a.sgnchg = false then
    let s := { s with r.trout := s.r.thi, r.grout := s.r.ghi }
    if a.zroot = false then .ret s (.ok .continue_)
    else
      let iroots : Vec q K := fun i =>
        if s.r.gactive i && (Scalar.eqb (Scalar.abs (s.r.ghi i)) 0 && dirOk cfg s.r.glo i)
        then Scalar.signum (s.r.glo i) else 0
      .ret { s with r.iroots := iroots } (.ok .rootFound)
  else
    (rootLoop cfg fuel s { alph := 1, side := 0, sideprev := -1, imax := a.imax }).bind fun s _ =>
      .ret { s with r.trout := s.r.thi, r.grout := s.r.ghi, r.iroots := finalIroots cfg s.r } (.ok .rootFound)

/-- The upper end of the search interval (/repo/src/impl_r_check.rs:223-233). -/
def searchEnd (s : State ν n q K) : K :=
  match s.r.taskc with
  | .oneStep => s.e.tn
  | .normal => if Scalar.ge ((s.r.toutc - s.e.tn) * s.c.hh) 0 then s.e.tn else s.r.toutc

/-- `r_check3` (/repo/src/impl_r_check.rs:221-271). -/
def rCheck3 (cfg : Cfg ν n q K) (fuel : Nat) (s : State ν n q K) : Out (State ν n q K) RootStatus :=
  let s := { s with r.thi := searchEnd s }
  match getSolution' s s.r.thi with
  | none => .panic
  | some s =>
    let (s, ghi) := callRoot cfg s s.r.thi s.m.yy s.m.yp s.r.ghi
    let s := { s with r.ghi := ghi, r.nge := s.r.nge + 1, r.ttol := rootTol s }
    (rootFind cfg fuel s).bind fun s ier =>
      let s := { s with
        r.gactive := fun i => if !s.r.gactive i && Scalar.neb (s.r.grout i) 0 then true else s.r.gactive i
        r.tlo := s.r.trout
        r.glo := s.r.grout }
      if ier = .rootFound then
        match getSolution' s s.r.trout with
        | none => .panic
        | some s => .ret s (.ok ier)
      else .ret s (.ok ier)

end

end Verif
