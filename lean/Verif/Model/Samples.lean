import Verif.Model.State
import Mathlib.Analysis.SpecialFunctions.Trigonometric.Basic
import Mathlib.Data.Real.Sqrt

/-!
# The sample problems (/repo/src/sample_problems)

`f64` is replaced by an exact field (`Roberts`) or by the real numbers (`SlCrank`, which needs `sin`, `cos`, `sqrt`);
decimal literals are the rational numbers they denote.
-/

set_option autoImplicit false
set_option linter.unusedVariables false

namespace Verif

universe u

section
variable {K : Type u} [Field K]

/-- `<Roberts as Residual>::res` (/repo/src/sample_problems/roberts.rs:46-63): the assignments in order, on the buffer
`rr`. -/
def robertsRes (t : K) (yy yp rr : Vec 3 K) : Vec 3 K :=
  let rr := Function.update rr 0 (-(4 / 100) * yy 0 + 10000 * yy 1 * yy 2)
  let rr := Function.update rr 1 (-rr 0 - 30000000 * yy 1 * yy 1 - yp 1)
  let rr := Function.update rr 0 (rr 0 - yp 0)
  Function.update rr 2 (yy 0 + yy 1 + yy 2 - 1)

/-- `<Roberts as Jacobian>::jac` (roberts.rs:65-92). -/
def robertsJac (t cj : K) (yy yp rr : Vec 3 K) (jac : Mat K) : Mat K :=
  let jac := upd2 jac 0 0 (-(4 / 100) - cj)
  let jac := upd2 jac 0 1 (10000 * yy 2)
  let jac := upd2 jac 0 2 (10000 * yy 1)
  let jac := upd2 jac 1 0 (4 / 100)
  let jac := upd2 jac 1 1 (-10000 * yy 2 - 60000000 * yy 1 - cj)
  let jac := upd2 jac 1 2 (-10000 * yy 1)
  let jac := upd2 jac 2 0 1
  let jac := upd2 jac 2 1 1
  upd2 jac 2 2 1

/-- `<Roberts as Root>::root` (roberts.rs:94-114), with `num_roots() = 2`. -/
def robertsG (t : K) (y yp : Vec 3 K) (gout : Vec 2 K) : Vec 2 K :=
  let gout := Function.update gout 0 (y 0 - 1 / 10000)
  Function.update gout 1 (y 2 - 1 / 100)

/-- The problem `Roberts` (`model_size() = 3`). -/
def roberts : Problem 3 2 K where
  res := robertsRes
  jac := robertsJac
  root := robertsG

end

open Real

/-- `struct SlCrank` (/repo/src/sample_problems/slider_crank.rs:25-44). -/
structure SlCrank where
  a : ℝ
  J1 : ℝ
  J2 : ℝ
  m2 : ℝ
  k : ℝ
  c : ℝ
  l0 : ℝ
  F : ℝ

/-- `SlCrank::default` (slider_crank.rs:83-96). -/
noncomputable def SlCrank.default : SlCrank := { a := 1 / 2, J1 := 1, m2 := 1, J2 := 2, k := 1, c := 1, l0 := 1, F := 1 }

/-- `SlCrank::force` (slider_crank.rs:46-81); the buffer `Q` is overwritten completely. -/
noncomputable def SlCrank.force (S : SlCrank) (yy : Vec 10 ℝ) : Vec 3 ℝ :=
  let q := yy 0
  let x := yy 1
  let p := yy 2
  let qd := yy 3
  let xd := yy 4
  let pd := yy 5
  let s1 := sin q
  let c1 := cos q
  let s2 := sin p
  let c2 := cos p
  let s21 := s2 * c1 - c2 * s1
  let c21 := c2 * c1 + s2 * s1
  let l2 := x ^ 2 - x * (c2 + S.a * c1) + (1 + S.a ^ 2) / 4 + S.a * c21 / 2
  let l := √l2
  let ld := 2 * x * xd - xd * (c2 + S.a * c1) + x * (s2 * pd + S.a * s1 * qd) - S.a * s21 * (pd - qd) / 2
  let ld := ld / (2 * l)
  let f := S.k * (l - S.l0) + S.c * ld
  let fl := f / l
  ![-fl * S.a * (s21 / 2 + x * s1) / 2, fl * (c2 / 2 - x + S.a * c1 / 2) + S.F,
    -fl * (x * s2 - S.a * s21 / 2) / 2 - S.F * s2]

/-- `<SlCrank as Residual>::res` (slider_crank.rs:106-155); all ten components of the buffer are overwritten. -/
noncomputable def SlCrank.res (S : SlCrank) (t : ℝ) (yy yp : Vec 10 ℝ) : Vec 10 ℝ :=
  let q := yy 0
  let x := yy 1
  let p := yy 2
  let qd := yy 3
  let xd := yy 4
  let pd := yy 5
  let lam1 := yy 6
  let lam2 := yy 7
  let mu1 := yy 8
  let mu2 := yy 9
  let s1 := sin q
  let c1 := cos q
  let s2 := sin p
  let c2 := cos p
  let Q := S.force yy
  ![yp 0 - qd + S.a * s1 * mu1 - S.a * c1 * mu2,
    yp 1 - xd + mu1,
    yp 2 - pd + s2 * mu1 - c2 * mu2,
    S.J1 * yp 3 - Q 0 + S.a * s1 * lam1 - S.a * c1 * lam2,
    S.m2 * yp 4 - Q 1 + lam1,
    S.J2 * yp 5 - Q 2 + s2 * lam1 - c2 * lam2,
    x - c2 - S.a * c1,
    -s2 - S.a * s1,
    S.a * s1 * qd + xd + s2 * pd,
    -S.a * c1 * qd - c2 * pd]

end Verif
