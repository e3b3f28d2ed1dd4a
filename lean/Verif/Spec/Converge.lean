import Verif.Model.Nls

/-!
# The convergence test of the nonlinear iteration

The rule for ending the iteration of an attempted step, in terms of the sequence of its updates: the norms are weighted
root-mean-square norms with the error weights of the attempt, `tol` is the tolerance for the iteration error.
Lists of calls and attempts are most recent first, lists of updates oldest first.
-/

set_option autoImplicit false

namespace Verif.Spec

open Verif

universe u

section
variable {n q : Nat} {K : Type u} [Scalar K]

/-- The estimated rate of convergence after the updates `d0, ..., d`, where `d` is the one with number `m ≥ 1`:
`(‖d‖ / ‖d0‖)^(1/m)`. -/
def rate (w d0 d : Vec n K) (m : Nat) : K := Scalar.powf (normWrms d w / normWrms d0 w) (Scalar.recip (Scalar.ofNat m))

/-- The test of the update `d` after the updates `ds`.  `S` is the factor that turns the norm of an update into an estimate of
the remaining error.  The first update is tested with the factor left by the previous iterations (and accepted at once if it
is tiny); the later ones with the factor `r/(1 - r)` of the estimated rate `r`, which also replaces `S`; a rate above `0.9`
means failure (`none`). -/
def convTest (w : Vec n K) (toldel tol S : K) (ds : List (Vec n K)) (d : Vec n K) : K × Option Bool :=
  match ds with
  | [] => (S, some (Scalar.le (normWrms d w) (Scalar.pt0001 * toldel) || Scalar.le (S * normWrms d w) tol))
  | d0 :: _ =>
    let r := rate w d0 d ds.length
    if Scalar.gt r Scalar.pt9 then (S, none) else (r / (1 - r), some (Scalar.le (r / (1 - r) * normWrms d w) tol))

/-- The correction that results from the updates: their sum. -/
def corr (ds : List (Vec n K)) : Vec n K := ds.foldl (· + ·) vzero

/-- The residual evaluation for a correction `c` in the attempt `x`. -/
def resAt (x : Att n K) (c : Vec n K) : UCall n K := .res x.tnew (vadd x.pred c) (scaledAdd x.predp x.cj c)

/-- Where an iteration is: the updates since it last began, the factor `S`, and, after an update, the result of its test. -/
inductive ConvAt (n : Nat) (K : Type u) where
  | residual (ds : List (Vec n K)) (S : K)
  | tested (ds : List (Vec n K)) (S : K) (v : Option Bool)

/-- The calls of the user's functions by the iterations of the attempt `x`, and where they lead.  `S0` is the factor at the
beginning. -/
inductive ConvCalls (x : Att n K) (toldel tol S0 : K) : List (UCall n K) → ConvAt n K → Prop
  /-- The residual at the predicted values. -/
  | start : ConvCalls x toldel tol S0 [resAt x vzero] (.residual [] S0)
  /-- The Jacobian is evaluated at the predicted values; the factor becomes 20. -/
  | jac (calls : List (UCall n K)) (S : K) (F : Vec n K) :
      ConvCalls x toldel tol S0 (resAt x vzero :: calls) (.residual [] S) →
      ConvCalls x toldel tol S0 (.jac 0 x.cj (vadd x.pred vzero) (scaledAdd x.predp x.cj vzero) F :: resAt x vzero :: calls)
        (.residual [] Scalar.twenty)
  /-- An update and its test. -/
  | update (calls : List (UCall n K)) (ds : List (Vec n K)) (S : K) (d : Vec n K) :
      ConvCalls x toldel tol S0 calls (.residual ds S) →
      ConvCalls x toldel tol S0 calls (.tested (ds ++ [d]) (convTest x.ewt toldel tol S ds d).1
        (convTest x.ewt toldel tol S ds d).2)
  /-- Not yet converged: the residual for the new correction. -/
  | next (calls : List (UCall n K)) (ds : List (Vec n K)) (S : K) :
      ConvCalls x toldel tol S0 calls (.tested ds S (some false)) →
      ConvCalls x toldel tol S0 (resAt x (corr ds) :: calls) (.residual ds S)
  /-- The iteration has failed and begins again. -/
  | restart (calls : List (UCall n K)) (ds : List (Vec n K)) (S : K) (v : Option Bool) : v ≠ some true →
      ConvCalls x toldel tol S0 calls (.tested ds S v) →
      ConvCalls x toldel tol S0 (resAt x vzero :: calls) (.residual [] S)

/-- The factor at the beginning of an attempt with leading coefficient `cj`: 100 if `cj` differs from the leading coefficient
of the previous attempt, otherwise the factor left by that one. -/
def startFactor (cj : K) (a : List (Att n K)) (S : K) : K :=
  match a with
  | [] => Scalar.hundred
  | y :: _ => if Scalar.neb cj y.cj then Scalar.hundred else S

/-- All calls of the user's functions in a history: root-function calls, and the iterations of the attempts.  Every attempt
ends with an update that passes the test; its correction is the sum of the updates of the last iteration.  `S` is the factor
left. -/
inductive ConvStory (toldel tol : K) : List (UCall n K) → List (Att n K) → K → Prop
  | new (S : K) : ConvStory toldel tol [] [] S
  | root (t : K) (y yp : Vec n K) (l : List (UCall n K)) (a : List (Att n K)) (S : K) : ConvStory toldel tol l a S →
      ConvStory toldel tol (.root t y yp :: l) a S
  | attempt (x : Att n K) (calls l : List (UCall n K)) (a : List (Att n K)) (S S' : K) (ds : List (Vec n K)) :
      ConvStory toldel tol l a S → ConvCalls x toldel tol (startFactor x.cj a S) calls (.tested ds S' (some true)) →
      x.ee = corr ds → ConvStory toldel tol (calls ++ l) (x :: a) S'

end

end Verif.Spec
