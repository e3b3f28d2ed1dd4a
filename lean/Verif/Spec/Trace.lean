import Verif.Spec.Reach

/-!
# The law of the step sequence

Which attempt may follow which, written over the list of recorded attempts alone (most recent first), without reference
to the integrator's control variables.
-/

set_option autoImplicit false

namespace Verif.Spec

universe u

section
variable {n : Nat} {K : Type u} [Field K] [LinearOrder K] [ExactParams K]

/-- Start time, step size and order of an attempt. -/
structure Plan (K : Type u) where
  t0 : K
  hh : K
  kk : Nat

/-- The plan carried out by an attempt. -/
def planOf (x : Att n K) : Plan K := { t0 := x.t0, hh := x.hh, kk := x.kk }

def isAccepted (x : Att n K) : Bool := match x.out with
  | .accepted => true
  | _ => false

def isTestFail (x : Att n K) : Bool := match x.out with
  | .testFail => true
  | _ => false

def isNlsFail (x : Att n K) : Bool := match x.out with
  | .nlsFail _ => true
  | _ => false

/-- The attempts made since the last accepted one. -/
def sinceAccepted (l : List (Att n K)) : List (Att n K) := l.takeWhile fun x => !isAccepted x

/-- Number of error-test failures of the current step. -/
def testFails (l : List (Att n K)) : Nat := (sinceAccepted l).countP isTestFail

/-- Number of nonlinear-solver failures of the current step. -/
def convFails (l : List (Att n K)) : Nat := (sinceAccepted l).countP isNlsFail

/-- The number of consecutive accepted steps, up to the last one, that used the same step size and order as the last
one. -/
def runLength (l : List (Att n K)) : Nat :=
  match l.filter isAccepted with
  | [] => 0
  | x :: r => 1 + (r.takeWhile fun z => decide (z.hh = x.hh) && decide (z.kk = x.kk)).length

/-- The start-up phase: so far no attempt has failed and the order has never been lowered; at least two steps have been
accepted. -/
def StartUp (l : List (Att n K)) : Prop :=
  (∀ x ∈ l, x.out = .accepted) ∧ l.Pairwise (fun a b => b.kk ≤ a.kk) ∧ 2 ≤ l.length

/-- The next attempt after the accepted attempt `y` (earlier attempts: `l`). -/
structure AfterAccept (l : List (Att n K)) (y : Att n K) (p : Plan K) : Prop where
  /-- it starts where `y` ended -/
  t0 : p.t0 = y.tnew
  /-- the order changes by at most one -/
  up : p.kk ≤ y.kk + 1
  down : y.kk ≤ p.kk + 1
  /-- it is raised in the start-up phase, or after at least order + 2 equal steps -/
  raise : p.kk = y.kk + 1 → StartUp (y :: l) ∨ y.kk + 2 ≤ runLength (y :: l)
  /-- the step size changes by a factor between 1/2 and 2, unless it is shortened to end at the stop time -/
  size : ∃ c, 0 < c ∧ c ≤ 2 ∧ p.hh = c * y.hh ∧
    (1 / 2 ≤ c ∨ ∃ ts, y.stop = some ts ∧ p.hh = (ts - p.t0) * (1 - 4 * ExactParams.eps))

/-- The next attempt after `y` failed the error test for the `k`-th time in this step. -/
structure AfterTestFail {ν : Type*} {q : Nat} (cfg : Cfg ν n q K) (k : Nat) (y : Att n K) (p : Plan K) : Prop where
  more : k ≤ 2 ∨ k < cfg.maxnef
  t0 : p.t0 = y.t0
  first : k = 1 → ∃ c, 1 / 4 ≤ c ∧ c ≤ 9 / 10 ∧ p.hh = c * y.hh
  later : k ≠ 1 → p.hh = y.hh / 4
  order : k ≤ 2 → p.kk = y.kk ∨ p.kk + 1 = y.kk
  order1 : 2 < k → p.kk = 1

/-- The next attempt after the nonlinear solver reported `e` for the attempt `y`, the `k`-th time in this step. -/
structure AfterNlsFail {ν : Type*} {q : Nat} (cfg : Cfg ν n q K) (k : Nat) (e : Err) (y : Att n K) (p : Plan K) :
    Prop where
  recoverable : ∃ r, e = .ida (.recoverableFail r)
  more : k < cfg.maxncf
  t0 : p.t0 = y.t0
  size : p.hh = y.hh / 4
  order : p.kk = y.kk

/-- The next attempt may be `p`, after the attempts `l`. -/
def Follows {ν : Type*} {q : Nat} (cfg : Cfg ν n q K) : List (Att n K) → Plan K → Prop
  | [], p => p.t0 = 0 ∧ p.kk = 1
  | y :: l, p => match y.out with
    | .accepted => AfterAccept l y p
    | .testFail => AfterTestFail cfg (testFails (y :: l)) y p
    | .nlsFail e => AfterNlsFail cfg (convFails (y :: l)) e y p

/-- Every attempt follows from the ones before it. -/
def Lawful {ν : Type*} {q : Nat} (cfg : Cfg ν n q K) : List (Att n K) → Prop
  | [] => True
  | x :: l => Follows cfg l (planOf x) ∧ Lawful cfg l

/-- The step is given up with the error `err` after the attempts `l`. -/
def GivesUp {ν : Type*} {q : Nat} (cfg : Cfg ν n q K) (err : Err) : List (Att n K) → Prop
  | [] => False
  | y :: l => match y.out with
    | .accepted => False
    | .testFail => 3 ≤ testFails (y :: l) ∧ cfg.maxnef ≤ testFails (y :: l) ∧ err = .other "IDA_ERR_FAIL"
    | .nlsFail e =>
      ((∀ x, e ≠ .ida x) ∧ err = e) ∨
      (cfg.maxncf ≤ convFails (y :: l) ∧ ∃ r, e = .ida (.recoverableFail r) ∧
        err = if r = .residual then .ida .residualFail else .ida .convergenceFail)

/-- The failed attempts `l` of one step (most recent first), the next attempt having step size `h`: after the first
error-test failure of the step a factor between 1/4 and 0.9, after later ones and after failures of the nonlinear solver
exactly 1/4. -/
def RetrySizes : List (Att n K) → K → Prop
  | [], _ => True
  | y :: l, h => (match y.out with
    | .accepted => False
    | .testFail => if l.countP isTestFail = 0 then ∃ c, 1 / 4 ≤ c ∧ c ≤ 9 / 10 ∧ h = c * y.hh else h = y.hh / 4
    | .nlsFail _ => h = y.hh / 4) ∧ RetrySizes l y.hh

end

end Verif.Spec
