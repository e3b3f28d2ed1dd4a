import Verif.Model.Nls
import Verif.Spec.Rescale

/-!
# The other direction of time, without laws of arithmetic

The same problem with the time running the other way: `t` becomes `-t`, `y'` becomes `-y'`, the solution is the same.
-/

set_option autoImplicit false

namespace Verif.Spec

universe u v

/-- The arithmetic of `K` does not distinguish the signs, and a number that is not zero is either positive or negative. -/
structure TwoWay (K : Type u) [Scalar K] : Prop extends SignFree K where
  /-- the order is reversed -/
  lt : ∀ a b : K, Scalar.lt (-a) (-b) = Scalar.lt b a
  eq : ∀ a b : K, Scalar.eqb (-a) (-b) = Scalar.eqb a b
  signum : ∀ a : K, Scalar.eqb a 0 = false → Scalar.signum (-a) = -(Scalar.signum a)
  /-- a product with zero is not negative -/
  still : ∀ a b : K, Scalar.eqb a 0 = true → Scalar.lt (b * a) 0 = false
  /-- of two numbers at a distance one is the smaller one -/
  apart : ∀ a b : K, Scalar.eqb (Scalar.abs (a - b)) 0 = false → Scalar.lt b a = !Scalar.lt a b

namespace Mirror

variable {n q : Nat} {K : Type u} [Scalar K]

/-- `P'` is the problem `P` with the time running the other way: its solutions are `t ↦ y(-t)`, with the derivatives
`-y'(-t)`.  `cj` multiplies the derivatives by `y'` in the Jacobian, so it changes its sign, too. -/
structure Same (P P' : Problem n q K) : Prop where
  res : ∀ t y yp b, P'.res (-t) y (-yp) b = P.res t y yp b
  jac : ∀ t cj y yp r m, P'.jac (-t) (-cj) y (-yp) r m = P.jac t cj y yp r m
  root : ∀ t y yp b, P'.root (-t) y (-yp) b = P.root t y yp b

/-- `(-1) ^ k * v`. -/
def alt : Nat → Vec n K → Vec n K
  | 0, v => v
  | k + 1, v => -(alt k v)

/-- A public call, with the time running the other way. -/
def op : Op K → Op K
  | .solve tout tret task => .solve (-tout) (-tret) task
  | .getSolution t => .getSolution (-t)
  | .getDky t k => .getDky (-t) k

/-- A call of a user function. -/
def call : UCall n K → UCall n K
  | .res t yy yp => .res (-t) yy (-yp)
  | .jac t cj yy yp rr => .jac (-t) (-cj) yy (-yp) rr
  | .root t yy yp => .root (-t) yy (-yp)

/-- The result of a public call: a `k`-th derivative is multiplied by `(-1) ^ k`. -/
def res : Op K → Res n K → Res n K
  | .getDky _ k, .dky r => .dky (r.map (alt k))
  | _, r => r

/-- What the getters and the variable `tret` show. -/
def shot (v : Snapshot n q K) : Snapshot n q K :=
  { v with
    yp := -v.yp
    tret := -v.tret
    actualInitStep := -v.actualInitStep
    lastStep := -v.lastStep
    currentStep := -v.currentStep
    currentTime := -v.currentTime }

/-- All that is seen of a call: times, step sizes and first derivatives change their signs.  The solution, the orders, the
counters and the root directions do not change. -/
def seen (o : Op K) : Option (Res n K × Snapshot n q K × List (UCall n K)) → Option (Res n K × Snapshot n q K × List (UCall n K))
  | some (r, v, log) => some (res o r, shot v, log.map call)
  | none => none

/-- The sessions that are compared, given by the calls and what is seen of them (`k` steps have been taken before).

* Until a step has been taken, only `solve` is called.
* If no step has been taken in a call then nothing is done after it, unless it was rejected because of its arguments.  (So
  nothing is done after a first step that failed.)
* Otherwise, a call is made only if the step size is not zero. -/
def Regular : Nat → List (Op K) → List (Option (Res n K × Snapshot n q K × List (UCall n K))) → Prop
  | k, o :: ops, x :: xs =>
    (k = 0 → ∃ tout tret task, o = .solve tout tret task) ∧
    match x with
    | none => True
    | some (r, v, _) => ops = [] ∨
      ((v.numSteps = 0 → r = .solved (.error (.ida .illegalInput))) ∧
       (0 < v.numSteps → Scalar.eqb v.currentStep 0 = false) ∧ Regular v.numSteps ops xs)
  | _, _, _ => True

/-- The same without the condition on the step size (which always holds in correctly rounded arithmetic). -/
def Started : Nat → List (Op K) → List (Option (Res n K × Snapshot n q K × List (UCall n K))) → Prop
  | k, o :: ops, x :: xs =>
    (k = 0 → ∃ tout tret task, o = .solve tout tret task) ∧
    match x with
    | none => True
    | some (r, v, _) => ops = [] ∨ ((v.numSteps = 0 → r = .solved (.error (.ida .illegalInput))) ∧ Started v.numSteps ops xs)
  | _, _, _ => True

end Mirror

end Verif.Spec
