import Verif.Model.Nls

/-!
# The solver stack with an arbitrary linear solver

`Ida<P, LS, Newton, TolC>` for any implementation `LS` of the trait `LSolver`: direct, iterative or matrix-iterative.
`Model/Nls.lean` is the instance `LS = Dense` (`c70_dense_is_an_instance` in `Props/Ls.lean`).
-/

set_option autoImplicit false
set_option linter.unusedVariables false

namespace Verif

universe u v

/-- `LSolverType` (/repo/crates/linear/src/lib.rs:15-20). -/
inductive LsType where
  | direct
  | iterative
  | matrixIterative
deriving DecidableEq, Repr

/-- How a call of the linear solver ends: `Ok(())`, `Err(_)`, or a panic.  The error value itself is never looked at by
the caller. -/
inductive LsEnd where
  | ok
  | err
  | panic
deriving DecidableEq, Repr

/-- An implementation of the trait `LSolver` (/repo/crates/linear/src/traits.rs:28-88) with solver object of type `L`.
`setup l a` factorizes `a` in place; `solve l a x b tol` overwrites the initial guess `x`.  `solve` takes `&self` in the
crate; a solver that reports its number of iterations needs interior mutability, so the object is passed through.
`res_norm` is never called and therefore left out. -/
structure LSolver (L : Type v) (n : Nat) (K : Type u) where
  kind : L → LsType
  setScaling : L → Vec n K → Vec n K → L
  setup : L → Mat K → L × Mat K × LsEnd
  solve : L → Mat K → Vec n K → Vec n K → K → L × Vec n K × LsEnd
  numIters : L → Nat

/-- The fields `ls` and `nli` of `IdaLProblem` (/repo/src/ida_ls.rs:22, 53). -/
structure LsMem (L : Type v) where
  ls : L
  nli : Nat

section
variable {n q : Nat} {K : Type u} [Scalar K] {L : Type v}

/-- `IdaLProblem::setup` (/repo/src/ida_ls.rs:232-290); `none` is a panic, in particular `unwrap()` on `Err`. -/
def lsSetupWith (S : LSolver L n K) (P : Problem n q K) (e : Env n K) (m : Mem n K) (l : LsMem L) (yy yp r : Vec n K) :
    Option (Mem n K × LsMem L) :=
  let m := if n = 0 then m else
    { m with nje := m.nje + 1, matJ := P.jac 0 e.cj yy yp r (fun _ _ => 0), log := .jac 0 e.cj yy yp r :: m.log }
  match S.setup l.ls m.matJ with
  | (ls, a, .ok) => some ({ m with matJ := a }, { l with ls := ls })
  | (_, _, .err) => none
  | (_, _, .panic) => none

/-- `IdaNLProblem::setup` (/repo/src/ida_nls.rs:156-187). -/
def idaSetupWith (S : LSolver L n K) (P : Problem n q K) (e : Env n K) (m : Mem n K) (l : LsMem L) (res : Vec n K) :
    Option (Mem n K × LsMem L) :=
  match lsSetupWith S P e { m with nsetups := m.nsetups + 1 } l m.yy m.yp res with
  | none => none
  | some (m, l) => some ({ m with cjold := e.cj, cjratio := 1, ss := Scalar.twenty }, l)

/-- The tolerance passed to the linear solver (/repo/src/ida_ls.rs:320-332).  `eplifac = 0.05` (ida_ls.rs:202) is written
`0.5 * 0.1`, which is the same floating-point number. -/
def lsTol (n : Nat) : LsType → K
  | .direct => 0
  | _ => Scalar.sqrt (Scalar.ofNat n) * (Scalar.half * Scalar.pt1)

/-- The new contents of `b` (/repo/src/ida_ls.rs:381-406): the solution, unless the solver is iterative and reports no
iteration; scaled for direct and matrix-iterative solvers. -/
def lsResult (kind : LsType) (iters : Nat) (cjratio : K) (x b : Vec n K) : Vec n K :=
  let b := if kind ≠ .direct ∧ iters = 0 then b else x
  if kind ≠ .iterative ∧ Scalar.neb cjratio 1 = true then vscale (Scalar.two / (1 + cjratio)) b else b

/-- `IdaLProblem::solve` (/repo/src/ida_ls.rs:298-455): new memory and the new contents of `b`; `none` is a panic of the
linear solver.  An `Err` is counted in `ncfl` and has no other effect. -/
def lsSolveWith (S : LSolver L n K) (e : Env n K) (m : Mem n K) (l : LsMem L) (b : Vec n K) :
    Option (Mem n K × LsMem L × Vec n K) :=
  let kind := S.kind l.ls
  let ls := S.setScaling l.ls e.ewt e.ewt
  match S.solve ls m.matJ vzero b (lsTol n kind) with
  | (_, _, .panic) => none
  | (ls, x, r) =>
    let iters := S.numIters ls
    let nli := if kind = .direct then l.nli else l.nli + iters
    let ncfl := if r = .err then m.ncfl + 1 else m.ncfl
    some ({ m with x := x, ncfl := ncfl }, { ls := ls, nli := nli }, lsResult kind iters m.cjratio x b)

/-- `impl NLProblem for IdaNLProblem<P, LS>` (/repo/src/ida_nls.rs:104-267). -/
def idaNLProblemWith (S : LSolver L n K) (P : Problem n q K) (e : Env n K) :
    NLProblem (Mem n K × LsMem L) (Vec n K) K where
  sys m y buf := let r := idaSys P e m.1 y buf; ((r.1, m.2), r.2, .ok ())
  setup m y f jbad := match idaSetupWith S P e m.1 m.2 f with
    | none => (m, .panic)
    | some m => (m, .ok true)
  solve m y b := match lsSolveWith S e m.1 m.2 b with
    | none => (m, b, .panic)
    | some (m, l, b) => ((m, l), b, .ok ())
  ctest m vw y del tol ewt := let r := idaCtest e m.1 vw del tol ewt; ((r.1, m.2), r.2)

/-- The solver stack `Ida<P, LS, Newton, _>`: the Newton object and the linear solver are the solver state. -/
def newtonNlsWith (S : LSolver L n K) (P : Problem n q K) (fuel : Nat) : NlSolver (Newton (Vec n K) × LsMem L) n K where
  solve N e m y0 y w tol call :=
    match newtonSolve (idaNLProblemWith S P e) fuel N.1 (m, N.2) y0 y w tol call with
    | .done N m y r => .ret (N, m.2) m.1 y r
    | .panic => .panic
    | .diverge => .diverge
  numIters N := N.1.niters

/-- The configuration of `Ida<P, LS, Newton, TolC>::new`. -/
def Cfg.newtonWith (S : LSolver L n K) (P : Problem n q K) (tol : TolControl n K) (fuel : Nat) :
    Cfg (Newton (Vec n K) × LsMem L) n q K :=
  Cfg.std P (fun y _ => tol.ewtSet y) (newtonNlsWith S P fuel)

/-- The state after `Ida::new`, where `l0` is `LS::new(n)` (/repo/src/ida_ls.rs:185-190). -/
def newtonWith0 (l0 : L) : Newton (Vec n K) × LsMem L := (newton0, { ls := l0, nli := 0 })

/-- `Dense` as an implementation of `LSolver` (/repo/crates/linear/src/dense.rs:22-64); the object consists of the
pivots. -/
def denseLs (n : Nat) (K : Type u) [Scalar K] : LSolver (Nat → Nat) n K where
  kind _ := .direct
  setScaling p _ _ := p
  setup p a := match denseSetup n a p with
    | .ok a p => (p, a, .ok)
    | .err _ a p => (p, a, .err)
    | .panic => (p, a, .panic)
  solve p a x b _ := match denseSolve n a p b.toFun with
    | none => (p, x, .panic)
    | some x => (p, Vec.ofFun x, .ok)
  numIters _ := 0

end

end Verif
