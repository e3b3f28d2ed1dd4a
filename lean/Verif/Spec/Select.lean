import Verif.Spec.Trace
import Mathlib.Algebra.BigOperators.Ring.Finset

/-!
# The choice of order and step size

The documented rule of the method, written over the recorded attempts alone: the local errors that the methods of the
neighbouring orders would have made in the step are estimated from the accepted points, and compared.
-/

set_option autoImplicit false

namespace Verif.Spec

open Finset

universe u

section
variable {ν : Type*} {n q : Nat} {K : Type u} [Field K] [LinearOrder K] [ExactParams K]

/-- The accepted point number `m` before the attempt (0 is the most recent); for the factors of the very first step, the
starting point is thought to be preceded by a point at the distance of the step size. -/
def point (x : Att n K) (m : Nat) : K × Vec n K := x.before.getD m (x.t0 - m * x.hh, fun _ => 0)

/-- The polynomial of degree `j` through the last `j + 1` accepted points before the attempt, evaluated at the time of the
attempt (Lagrange's formula). -/
def extrapolate (x : Att n K) (j : Nat) : Vec n K := fun i =>
  ∑ m ∈ range (j + 1), (point x m).2 i *
    ∏ l ∈ (range (j + 1)).erase m, (x.tnew - (point x l).1) / ((point x m).1 - (point x l).1)

/-- The factor of the error estimate for order `j`: `j! h^j / ((t - t_1) ... (t - t_j))`. -/
def errFactor (x : Att n K) (j : Nat) : K :=
  ∏ i ∈ range j, (((i : Nat) : K) + 1) * (x.hh / (x.tnew - (point x (i + 1)).1))

/-- Estimate of the local error of the method of order `j`: the weighted norm of the difference between the computed
solution and the value predicted by the polynomial of degree `j`, times the factor. -/
def estimate (cfg : Cfg ν n q K) (x : Att n K) (j : Nat) : K :=
  errFactor x j * wrmsNorm cfg.id (fun i => x.yy i - (if j = x.kk then x.pred else extrapolate x j) i) x.ewt cfg.suppressalg

/-- The quantities compared in the choice of the order. -/
def term (cfg : Cfg ν n q K) (x : Att n K) (j : Nat) : K := ((j : K) + 1) * estimate cfg x j

/-- The estimates suggest to lower the order. -/
def lowers (cfg : Cfg ν n q K) (x : Att n K) : Bool :=
  decide (2 ≤ x.kk) &&
    if x.kk = 2 then decide (term cfg x 1 ≤ term cfg x 2 / 2)
    else decide (max (term cfg x (x.kk - 1)) (term cfg x (x.kk - 2)) ≤ term cfg x x.kk)

/-- The length of the series of attempts, up to the last one, of the same step size and order as the step accepted last
before them (plus one). -/
def streak : List (Att n K) → Nat
  | [] => 0
  | x :: l => match l.find? isAccepted with
    | none => 1
    | some y => if x.hh = y.hh ∧ x.kk = y.kk then streak l + 1 else 1

/-- The start-up phase: no attempt has failed, the order was never suggested to be lowered and is not maximal. -/
def inStartUp (cfg : Cfg ν n q K) (l : List (Att n K)) : Bool :=
  l.all fun x => isAccepted x && !lowers cfg x && decide (x.kk ≠ cfg.maxord)

/-- The order chosen after the accepted attempt `y` (earlier attempts: `l`), after the start-up phase. -/
def orderAfter (cfg : Cfg ν n q K) (l : List (Att n K)) (y : Att n K) : Nat :=
  let T := term cfg y
  let k := y.kk
  if lowers cfg y then k - 1
  else if k = cfg.maxord ∨ streak (y :: l) < k + 2 then k
  else if k = 1 then if T 2 < T 1 / 2 then 2 else 1
  else if T (k - 1) ≤ min (T k) (T (k + 1)) then k - 1
  else if T (k + 1) < T k then k + 1
  else k

/-- `h` limited to the maximal step size. -/
def limited (cfg : Cfg ν n q K) (h : K) : K := if 1 < |h| * cfg.hmaxInv then h / (|h| * cfg.hmaxInv) else h

/-- `(2 e + 0.0001) ^ (-1 / (k + 1))`: the factor by which the step size may be multiplied if the error estimate for the
order `k` is `e`. -/
def ratio (k : Nat) (e : K) : K := ExactParams.powf (2 * e + 1 / 10000) (-((k + 1 : Nat) : K)⁻¹)

/-- The step size chosen after an accepted step of size `h`. -/
def sizeAfter (cfg : Cfg ν n q K) (h r : K) : K :=
  if 2 ≤ r then limited cfg (2 * h) else if r ≤ 1 then h * max (1 / 2) (min r (9 / 10)) else h

/-- The order of the retry after a failed error test. -/
def orderRetry (cfg : Cfg ν n q K) (y : Att n K) : Nat := if lowers cfg y then y.kk - 1 else y.kk

/-- The choice of order and step size after the attempts `y :: l`. -/
def choice (cfg : Cfg ν n q K) (l : List (Att n K)) (y : Att n K) : Nat × K :=
  match y.out with
  | .accepted =>
    if inStartUp cfg (y :: l) then if l = [] then (y.kk, y.hh) else (y.kk + 1, limited cfg (2 * y.hh))
    else
      let k := orderAfter cfg l y
      (k, sizeAfter cfg y.hh (ratio k (estimate cfg y k)))
  | .testFail =>
    if testFails (y :: l) = 1 then
      let k := orderRetry cfg y
      (k, y.hh * max (1 / 4) (min (9 / 10) (9 / 10 * ratio k (estimate cfg y k))))
    else (if testFails (y :: l) = 2 then orderRetry cfg y else 1, y.hh * (1 / 4))
  | .nlsFail _ => (y.kk, y.hh * (1 / 4))

/-- The next attempt has the order and size chosen; the size may be shortened to end at the stop time. -/
def Chosen (cfg : Cfg ν n q K) : List (Att n K) → Plan K → Prop
  | [], p => p.kk = 1
  | y :: l, p => p.kk = (choice cfg l y).1 ∧
    (p.hh = (choice cfg l y).2 ∨ (y.out = .accepted ∧ ∃ ts, y.stop = some ts ∧ p.hh = (ts - p.t0) * (1 - 4 * ExactParams.eps)))

/-- Every attempt has the order and size chosen after the attempts before it. -/
def AllChosen (cfg : Cfg ν n q K) : List (Att n K) → Prop
  | [] => True
  | x :: l => Chosen cfg l (planOf x) ∧ AllChosen cfg l

end

end Verif.Spec
