import Verif.Model.Solve

/-!
# `IdaNLProblem` as a nonlinear problem, and the standard solver stack Newton + Dense

/repo/src/ida_nls.rs and /repo/src/ida_ls.rs, with `LS = Dense` (a direct solver) and `NLS = Newton`.
-/

set_option autoImplicit false
set_option linter.unusedVariables false

namespace Verif

universe u v

section
variable {n q : Nat} {K : Type u} [Scalar K]

/-- A vector as a function on all natural numbers (entries outside are never read). -/
def Vec.toFun (v : Vec n K) : Nat → K := fun i => if h : i < n then v ⟨i, h⟩ else 0

/-- The first `n` entries. -/
def Vec.ofFun (f : Nat → K) : Vec n K := fun i => f i.val

/-- `IdaNLProblem::sys` (/repo/src/ida_nls.rs:118-153): new memory and the residual. -/
def idaSys (P : Problem n q K) (e : Env n K) (m : Mem n K) (ycor buf : Vec n K) : Mem n K × Vec n K :=
  let yy := vadd e.yypredict ycor
  let yp := scaledAdd e.yppredict e.cj ycor
  let res := P.res e.tn yy yp buf
  ({ m with yy := yy, yp := yp, nre := m.nre + 1, savres := res, log := .res e.tn yy yp :: m.log }, res)

/-- `IdaLProblem::setup` (/repo/src/ida_ls.rs:232-290): `none` is the panic of `unwrap()` on a singular matrix.  The
time passed to the user's Jacobian is zero, as in the source.  `mat_j.is_empty()` iff `n = 0`. -/
def lsSetup (P : Problem n q K) (e : Env n K) (m : Mem n K) (yy yp r : Vec n K) : Option (Mem n K) :=
  let m := if n = 0 then m else
    { m with nje := m.nje + 1, matJ := P.jac 0 e.cj yy yp r (fun _ _ => 0), log := .jac 0 e.cj yy yp r :: m.log }
  match denseSetup n m.matJ m.piv with
  | .ok a p => some { m with matJ := a, piv := p }
  | .err _ _ _ => none
  | .panic => none

/-- `IdaNLProblem::setup` (/repo/src/ida_nls.rs:156-187). -/
def idaSetup (P : Problem n q K) (e : Env n K) (m : Mem n K) (res : Vec n K) : Option (Mem n K) :=
  match lsSetup P e { m with nsetups := m.nsetups + 1 } m.yy m.yp res with
  | none => none
  | some m => some { m with cjold := e.cj, cjratio := 1, ss := Scalar.twenty }

/-- `IdaLProblem::solve` for a direct solver (/repo/src/ida_ls.rs:298-455): new memory and the new contents of `b`.
`Dense::solve` never returns `Err`, so `ncfl` is not incremented. -/
def lsSolve (m : Mem n K) (b : Vec n K) : Option (Mem n K × Vec n K) :=
  match denseSolve n m.matJ m.piv b.toFun with
  | none => none
  | some x =>
    let x : Vec n K := Vec.ofFun x
    let b := if Scalar.neb m.cjratio 1 then vscale (Scalar.two / (1 + m.cjratio)) x else x
    some ({ m with x := x }, b)

/-- `IdaNLProblem::ctest` (/repo/src/ida_nls.rs:218-266).  `RATEMAX = 0.9`. -/
def idaCtest (e : Env n K) (m : Mem n K) (vw : NlsView) (del : Vec n K) (tol : K) (ewt : Vec n K) :
    Mem n K × Cb Bool :=
  let delnrm := normWrms del ewt
  if vw.curIter = 0 then
    let m := { m with oldnrm := delnrm }
    if Scalar.le delnrm (Scalar.pt0001 * e.toldel) then (m, .ok true)
    else (m, .ok (Scalar.le (m.ss * delnrm) tol))
  else
    let rate := Scalar.powf (delnrm / m.oldnrm) (Scalar.recip (Scalar.ofNat vw.curIter))
    if Scalar.gt rate Scalar.pt9 then (m, .err (.nl .convergenceRecover))
    else
      let m := { m with ss := rate / (1 - rate) }
      (m, .ok (Scalar.le (m.ss * delnrm) tol))

/-- `impl NLProblem for IdaNLProblem` (/repo/src/ida_nls.rs:104-267). -/
def idaNLProblem (P : Problem n q K) (e : Env n K) : NLProblem (Mem n K) (Vec n K) K where
  sys m y buf := let r := idaSys P e m y buf; (r.1, r.2, .ok ())
  setup m y f jbad := match idaSetup P e m f with
    | none => (m, .panic)
    | some m => (m, .ok true)
  solve m y b := match lsSolve m b with
    | none => (m, b, .panic)
    | some (m, b) => (m, b, .ok ())
  ctest m vw y del tol ewt := idaCtest e m vw del tol ewt

/-- The solver stack of the examples: `Ida<P, Dense, Newton, _>`.  `fuel` bounds the passes of Newton's outer loop. -/
def newtonNls (P : Problem n q K) (fuel : Nat) : NlSolver (Newton (Vec n K)) n K where
  solve N e m y0 y w tol call :=
    match newtonSolve (idaNLProblem P e) fuel N m y0 y w tol call with
    | .done N m y r => .ret N m y r
    | .panic => .panic
    | .diverge => .diverge
  numIters N := N.niters

/-- `NLS::new(n, MAXNLSIT)` with `MAXNLSIT = 4` (/repo/src/constants.rs:31). -/
def newton0 : Newton (Vec n K) := Newton.new vzero 4

/-- The configuration of `Ida<P, Dense, Newton, TolC>::new`. -/
def Cfg.newton (P : Problem n q K) (tol : TolControl n K) (fuel : Nat) : Cfg (Newton (Vec n K)) n q K :=
  Cfg.std P (fun y _ => tol.ewtSet y) (newtonNls P fuel)

end

end Verif
