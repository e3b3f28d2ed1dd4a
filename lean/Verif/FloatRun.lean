import Verif.Model.Driver
import Verif.Model.Ls

/-!
# A binary64 run of the model on the example program

A test of the model, not a proof of a property, and nothing depends on it: the model is executed with Lean's `Float` on
Robertson's problem with the tolerances and initial values of /repo/examples/roberts.rs, until the last output time 4e10.
The build fails if the values there do not pass `check_ans` of that program.

The functions of the model are run as they are.  The vectors in the state are functions, which Lean would evaluate again at
each access; so between two calls they are replaced by functions reading an array of their values.  For the same reason the
steps are taken one per call (`OneStep`).
-/

set_option autoImplicit false

namespace Verif.FloatRun

open Verif

instance : Scalar Float where
  zero := 0
  one := 1
  lt a b := a < b
  le a b := a ≤ b
  eqb a b := a == b
  abs := Float.abs
  max a b := if a < b then b else a
  min a b := if a < b then a else b
  sqrt := Float.sqrt
  powf := Float.pow
  signum a := if a < 0 then -1 else 1
  recip a := 1 / a
  eps := 2.220446049250313e-16
  ofNat n := n.toFloat
  half := 0.5
  quarter := 0.25
  two := 2
  four := 4
  five := 5
  ten := 10
  twenty := 20
  hundred := 100
  pt9 := 0.9
  pt1 := 0.1
  pt001 := 0.001
  pt0001 := 0.0001
  xrateLo := 0.6
  epcon := 0.33

/-- /repo/src/sample_problems/roberts.rs -/
def roberts : Problem 3 2 Float where
  res _ yy yp _ :=
    let r0 := -0.04 * yy 0 + 1.0e4 * yy 1 * yy 2
    ![r0 - yp 0, -r0 - 3.0e7 * yy 1 * yy 1 - yp 1, yy 0 + yy 1 + yy 2 - 1.0]
  jac _ cj yy _ _ jac :=
    let jac := upd2 jac 0 0 (-0.04 - cj)
    let jac := upd2 jac 0 1 (1.0e4 * yy 2)
    let jac := upd2 jac 0 2 (1.0e4 * yy 1)
    let jac := upd2 jac 1 0 0.04
    let jac := upd2 jac 1 1 (-1.0e4 * yy 2 - 6.0e7 * yy 1 - cj)
    let jac := upd2 jac 1 2 (-1.0e4 * yy 1)
    let jac := upd2 jac 2 0 1
    let jac := upd2 jac 2 1 1
    upd2 jac 2 2 1
  root _ y _ _ := ![y 0 - 0.0001, y 2 - 0.01]

@[noinline] def ofArr (a : Array Float) : Vec 3 Float := fun i => a[i.val]!
@[noinline] def toArr (v : Vec 3 Float) : Array Float := #[v 0, v 1, v 2]
@[noinline] def ofArr2 (a : Array Float) : Vec 2 Float := fun i => a[i.val]!
@[noinline] def toArr2 (v : Vec 2 Float) : Array Float := #[v 0, v 1]
@[noinline] def ofSeq (a : Array Float) : Nat → Float := fun i => a[i]!
@[noinline] def toSeq (v : Nat → Float) : Array Float := Array.ofFn (fun i : Fin 8 => v i)
@[noinline] def ofRows (a : Array (Array Float)) : Nat → Vec 3 Float := fun i j => (a.getD i #[0, 0, 0])[j.val]!
@[noinline] def toRows (v : Nat → Vec 3 Float) : Array (Array Float) := Array.ofFn (fun i : Fin 8 => toArr (v i))
@[noinline] def ofMat (a : Array Float) : Mat Float := fun i j => a[i * 3 + j]!
@[noinline] def toMat (v : Mat Float) : Array Float := Array.ofFn (fun i : Fin 9 => v (i / 3) (i % 3))
@[noinline] def ofPiv (a : Array Nat) : Nat → Nat := fun i => a[i]!
@[noinline] def toPiv (p : Nat → Nat) : Array Nat := #[p 0, p 1, p 2]

local macro "tab" t:term:max : term => `(ofArr (toArr $t))

def tabMem (m : Mem 3 Float) : Mem 3 Float :=
  { m with yy := tab (m.yy), yp := tab (m.yp), savres := tab (m.savres), matJ := ofMat (toMat m.matJ), x := tab (m.x),
           log := [] }

def tabEnv (e : Env 3 Float) : Env 3 Float :=
  { e with yypredict := tab (e.yypredict), yppredict := tab (e.yppredict), ewt := tab (e.ewt) }

def tabState {ν : Type} (s : State ν 3 2 Float) : State ν 3 2 Float :=
  { s with
    m := tabMem s.m, e := tabEnv s.e, ee := tab (s.ee), delta := tab (s.delta), g := { atts := [], acc := [] }
    h := { phi := ofRows (toRows s.h.phi), psi := ofSeq (toSeq s.h.psi), alpha := ofSeq (toSeq s.h.alpha)
           beta := ofSeq (toSeq s.h.beta), sigma := ofSeq (toSeq s.h.sigma), gamma := ofSeq (toSeq s.h.gamma) }
    r := { s.r with iroots := ofArr2 (toArr2 s.r.iroots), glo := ofArr2 (toArr2 s.r.glo)
                    ghi := ofArr2 (toArr2 s.r.ghi), grout := ofArr2 (toArr2 s.r.grout) } }

/-- `denseLs` with the values of the matrix put into an array after each pass of the elimination. -/
def dense : LSolver (Nat → Nat) 3 Float :=
  { denseLs 3 Float with
    setup := fun p a => Id.run do
      let mut a := ofMat (toMat a)
      let mut p := p
      for k in [0:3] do
        match rfStep 3 3 k a p with
        | .ok b r =>
          a := ofMat (toMat b)
          p := ofPiv (toPiv r)
        | .err _ b r => return (r, b, .err)
        | .panic => return (p, a, .panic)
      return (p, a, .ok) }

abbrev M := Mem 3 Float × LsMem (Nat → Nat)

def tabProblem (P : NLProblem M (Vec 3 Float) Float) : NLProblem M (Vec 3 Float) Float where
  sys m y b := let r := P.sys m (tab (y)) (tab (b)); ((tabMem r.1.1, r.1.2), tab (r.2.1), r.2.2)
  setup m y f j := let r := P.setup m (tab (y)) (tab (f)) j; ((tabMem r.1.1, r.1.2), r.2)
  solve m y b := let r := P.solve m (tab (y)) (tab (b)); ((tabMem r.1.1, r.1.2), tab (r.2.1), r.2.2)
  ctest m v y d t w := let r := P.ctest m v (tab (y)) (tab (d)) t (tab (w)); ((tabMem r.1.1, r.1.2), r.2)

abbrev N := Newton (Vec 3 Float) × LsMem (Nat → Nat)

def nls : NlSolver N 3 Float where
  solve N e m y0 y w tol call :=
    match newtonSolve (tabProblem (idaNLProblemWith dense roberts (tabEnv e))) 100 N.1 (tabMem m, N.2) (tab (y0)) (tab (y))
      (tab (w)) tol call with
    | .done N m y r => .ret ({ N with delta := tab (N.delta) }, m.2) (tabMem m.1) (tab (y)) r
    | .panic => .panic
    | .diverge => .diverge
  numIters N := N.1.niters

def rtol : Float := 1.0e-4
def atol : Vec 3 Float := ![1.0e-8, 1.0e-6, 1.0e-6]

def cfg : Cfg N 3 2 Float := Cfg.std roberts (fun y _ => (TolControl.sv rtol atol).ewtSet y) nls

def start : State N 3 2 Float := State.new (newtonWith0 (fun _ => 0)) ![1, 0, 0] ![-0.04, 0.04, 0]

/-- The reference solution of `check_ans`. -/
def reference : Vec 3 Float := ![5.2083474251394888e-08, 2.0833390772616859e-13, 9.9999994791631752e-01]

/-- A number of the form `d.ddddde±x`. -/
def sci (x : Float) : String :=
  if x == 0 then "0" else
    let e := (Float.log10 x.abs).floor
    s!"{x / Float.pow 10 e}e{e.toInt64}"

def line (t : Float) (y : Vec 3 Float) (s : State N 3 2 Float) : String :=
  s!"{sci t}  {sci (y 0)} {sci (y 1)} {sci (y 2)}  {s.cnt.nst} {s.c.kused} {sci s.c.hused}"

/-- Take steps until the last output time is passed; the table of the example program, and the last values. -/
def main : IO Unit := do
  let mut s := start
  let mut tout := 0.4
  let mut iout := 0
  let mut table := ""
  let mut y := reference
  for _ in [0:2000] do
    match exec cfg 200 2 (tabState s) (.solve 0.4 0.0 .oneStep) with
    | some (s', .solved (.ok st)) =>
      s := tabState s'
      if st = .root then table := table ++ line s.tret s.m.yy s ++ "  root\n"
      if s.e.tn ≥ tout then
        match getSolution' s tout with
        | some z => y := tab (z.m.yy)
        | none => throw (IO.userError "no solution")
        table := table ++ line tout y s ++ "\n"
        tout := tout * 10
        iout := iout + 1
      if iout = 12 then break
    | _ => throw (IO.userError s!"step {s.cnt.nst} failed")
  if iout < 12 then throw (IO.userError "too many steps")
  if checkAns y reference rtol atol then throw (IO.userError s!"check_ans\n{table}")
  IO.println table
  IO.println s!"steps {s.cnt.nst}, residuals {s.m.nre}, Jacobians {s.m.nje}, error test failures {s.cnt.netf}, root functions {s.r.nge}"

#eval main

end Verif.FloatRun
