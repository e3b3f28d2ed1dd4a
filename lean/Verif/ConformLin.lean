import Verif.Conform
import Verif.Model.Dense
import Verif.Model.Newton
import Verif.Model.Norm

/-!
# The unit tests of the linear and the nonlinear solver and of the norms, run on the model

As `Verif.Conform`, for the tests in /repo/crates/linear/src/dense.rs, /repo/crates/nonlinear/src/newton.rs and
/repo/src/norm_rms.rs.
-/

set_option autoImplicit false

namespace Verif.Conform

open Verif

/-- A matrix given by its columns. -/
def cols (l : List (List ℚ)) : Mat B64 := fun i j => .of ((l.getD j []).getD i 0)

def eqPre (n : Nat) (e : ℚ) (a b : Nat → B64) : Bool := (List.range n).all fun i => eqNum e (a i) (b i)
def eqMat (n : Nat) (e : ℚ) (a b : Mat B64) : Bool := (List.range n).all fun i => eqPre n e (a i) (b i)

/-- /repo/crates/linear/src/dense.rs, `test_get_rs1`. -/
def getRs1Check : Bool :=
  match denseGetRs 3 (cols [[1, 40000000000000001 / 10 ^ 18, -40655973218655501 / 10 ^ 18],
    [1, -95620329139608493 / 10 ^ 13, -99881984364015208 / 10 ^ 17],
    [1, -41880782326080723 / 10 ^ 18, 70539909027303449 / 10 ^ 20]])
      (fun i => [2, 1, 2].getD i 0) (arr [-18658722011386564 / 10 ^ 23, 1791760359416981 / 10 ^ 22, 15432100042289676 / 10 ^ 30]) with
  | none => false
  | some b => eqPre 3 0 b (arr [10806109402745275 / 10 ^ 21, 28591564117644602 / 10 ^ 27, -10806137978877292 / 10 ^ 21])

/-- /repo/crates/linear/src/dense.rs, `test_get_rs2`. -/
def getRs2Check : Bool :=
  match denseGetRs 3 (cols [[1, 40000000000000001 / 10 ^ 18, -41180751793579905 / 10 ^ 18],
    [1, -93768756693193609 / 10 ^ 13, -99825358822328103 / 10 ^ 17],
    [1, -4272931434962135 / 10 ^ 17, 12553747713712066 / 10 ^ 19]])
      (fun i => [2, 1, 2].getD i 0) (arr [-92446647014019954 / 10 ^ 23, 9098297931611867 / 10 ^ 22, 10769163338864018 / 10 ^ 30]) with
  | none => false
  | some b => eqPre 3 0 b (arr [12924954909363613 / 10 ^ 21, -38131780122501411 / 10 ^ 27, -12924916766814327 / 10 ^ 21])

/-- /repo/crates/linear/src/dense.rs, `test_get_rf1`. -/
def getRf1Check : Bool :=
  match denseGetRf 3 3 (cols [[-9593473862037126 / 10 ^ 17, 40000000000000001 / 10 ^ 18, 1],
    [52745976183265557 / 10 ^ 13, -54852758397300222 / 10 ^ 13, 1],
    [35103714444140913 / 10 ^ 18, -35103714444140913 / 10 ^ 18, 1]]) (fun _ => 0) with
  | .ok a p =>
    eqMat 3 0 a (cols [[1, 40000000000000001 / 10 ^ 18, -9593473862037126 / 10 ^ 17],
    [1, -54853158397300222 / 10 ^ 13, -96160252338811314 / 10 ^ 17],
    [1, -75103714444140907 / 10 ^ 18, 58818531739205995 / 10 ^ 18]]) &&
    decide ([p 0, p 1, p 2] = [2, 1, 2])
  | _ => false

/-- /repo/crates/linear/src/dense.rs, `test_get_rf2`. -/
def getRf2Check : Bool :=
  match denseGetRf 3 3 (cols [[-42361503587159809 / 10 ^ 18, 40000000000000001 / 10 ^ 18, 1],
    [93138399601148321 / 10 ^ 13, -9331507477848012 / 10 ^ 12, 1],
    [29441927049318833 / 10 ^ 19, -29441927049318833 / 10 ^ 19, 1]]) (fun _ => 0) with
  | .ok a p =>
    eqMat 3 0 a (cols [[1, 40000000000000001 / 10 ^ 18, -42361503587159809 / 10 ^ 18],
    [1, -93315474778480129 / 10 ^ 13, -99810694246891751 / 10 ^ 17],
    [1, -42944192704931883 / 10 ^ 18, 24427994145761397 / 10 ^ 19]]) &&
    decide ([p 0, p 1, p 2] = [2, 1, 2])
  | _ => false

/-- /repo/crates/linear/src/dense.rs, `test_dense1` (the list has the columns of the matrix). -/
def dense1Check : Bool :=
  match denseSetup 4 (cols [[5, 2, 4, 1],
    [0, 2, 5, 6],
    [0, 2, 5, 4],
    [1, 1, 5, 5]]) (fun _ => 0) with
  | .ok a p =>
    match denseSolve 4 a p (arr [9, 16, 49, 45]) with
    | none => false
    | some x => eqPre 4 (1 / 10 ^ 9) x (arr [1, 2, 3, 4])
  | _ => false

/-- The state of `TestProblem` (/repo/crates/nonlinear/src/newton.rs:190-202): the factors and the pivots. -/
structure TestMem where
  a : Mat B64
  p : Nat → Nat

def sq (x : B64) : B64 := x * x

/-- The functions of `TestProblem` (newton.rs:203-303). -/
def testProblem : NLProblem TestMem (Vec 3 B64) B64 where
  sys s y _ :=
    let x := y 0; let z := y 2; let y := y 1
    let r0 := sq x + sq y + sq z - 1
    let r1 := B64.of 2 * sq x + sq y - B64.of 4 * z
    let r2 := B64.of 3 * sq x - B64.of 4 * y + sq z
    (s, fun i => [r0, r1, r2].getD i 0, .ok ())
  setup s y _ _ :=
    let x := y 0; let z := y 2; let y := y 1
    let j : Mat B64 := fun i k =>
      ([[B64.of 2 * x, B64.of 4 * x, B64.of 6 * x], [B64.of 2 * y, B64.of 2 * y, B64.of (-4)],
        [B64.of 2 * z, B64.of (-4), B64.of 2 * z]].getD k []).getD i 0
    match denseSetup 3 j s.p with
    | .ok a p => ({ a := a, p := p }, .ok true)
    | .err _ a p => ({ a := a, p := p }, .err (.other "LUFactFail"))
    | .panic => (s, .panic)
  solve s _ b :=
    match denseSolve 3 s.a s.p (fun i => if h : i < 3 then b ⟨i, h⟩ else 0) with
    | some x => (s, fun i => x i, .ok ())
    | none => (s, b, .panic)
  ctest s _ _ del tol w := (s, .ok (Scalar.le (normWrms del w) tol))

/-- /repo/crates/nonlinear/src/newton.rs, `test_newton` (the test allows a relative error of `1e-5` in the difference of
the computed to the exact solution, which is printed with six digits). -/
def newtonCheck : Bool :=
  match newtonSolve testProblem 2 (Newton.new (vec []) 10) { a := fun _ _ => 0, p := fun _ => 0 }
      (vec [1 / 2, 1 / 2, 1 / 2]) (vec []) (vec [1, 1, 1]) (B64.of (1 / 100)) true with
  | .done _ _ y (.ok ()) =>
    let d := y - vec [785196933062355226 / 10 ^ 18, 496611392944656396 / 10 ^ 18, 369922830745872357 / 10 ^ 18]
    eqVec (1 / 10 ^ 5) d (vec [-578453 / 10 ^ 8, 10143 / 10 ^ 12, 147767 / 10 ^ 13])
  | _ => false

/-- /repo/src/norm_rms.rs, `test_norm_wrms`. -/
def normCheck : Bool :=
  eqNum 0 (normWrms (n := 32) (fun _ => B64.of (-1 / 2)) (fun _ => B64.of (1 / 2))) (.of (1 / 4))

/-- /repo/src/norm_rms.rs, `test_norm_wrms_masked`. -/
def normMaskedCheck : Bool :=
  let fac := Scalar.sqrt (B64.of 31 / B64.of 32)
  eqNum 0 (normWrmsMasked (n := 32) (fun _ => B64.of (-1 / 2)) (fun _ => B64.of (1 / 2)) (fun i => decide (i.val ≠ 31)))
    (fac * B64.of (1 / 2) * B64.of (1 / 2))

example : getRs1Check = true := by decide +kernel

example : getRs2Check = true := by decide +kernel

example : getRf1Check = true := by decide +kernel

example : getRf2Check = true := by decide +kernel

example : dense1Check = true := by decide +kernel

example : newtonCheck = true := by decide +kernel

example : normCheck = true := by decide +kernel

example : normMaskedCheck = true := by decide +kernel

end Verif.Conform
