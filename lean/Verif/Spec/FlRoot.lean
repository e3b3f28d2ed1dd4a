import Verif.Spec.Rounding
import Verif.Spec.Reach

/-!
# The root function in floating-point arithmetic

Signs of the values that the root function was seen to return; `val` is the number that a floating-point number represents.
-/

set_option autoImplicit false
set_option linter.unusedSectionVars false

namespace Verif.Spec

open Verif

universe u v w

section
variable {ν : Type w} {n q : Nat} {F : Type u} [Scalar F]

/-- In the execution up to `s` the root function was called at time `t` and component `i` of its result was `x`. -/
def SeenAt (cfg : Cfg ν n q F) (s : State ν n q F) (t : F) (i : Fin q) (x : F) : Prop :=
  ∃ (v vp : Vec n F) (buf : Vec q F), UCall.root t v vp ∈ s.m.log ∧ cfg.prob.root t v vp buf i = x

end

section
variable {ν : Type w} {n q : Nat} {F : Type u} {K : Type v} [Scalar F] [Field K] [LinearOrder K] [IsStrictOrderedRing K]
  [StdModel F K]

/-- The user's direction filter lets component `i` through, whose value before the search is `x`. -/
def Allowed (cfg : Cfg ν n q F) (i : Fin q) (x : F) : Prop := (cfg.rootdir i : K) * StdModel.val (K := K) x ≤ 0

/-- Monitored component `i`, with the value `x` before and `y` at the later point, changes sign. -/
def Changes (cfg : Cfg ν n q F) (act : Fin q → Bool) (i : Fin q) (x y : F) : Prop :=
  act i = true ∧ Allowed (K := K) cfg i x ∧ StdModel.val (K := K) x * StdModel.val (K := K) y < 0

/-- Monitored component `i` is zero at the later point. -/
def IsZero (cfg : Cfg ν n q F) (act : Fin q → Bool) (i : Fin q) (x y : F) : Prop :=
  act i = true ∧ Allowed (K := K) cfg i x ∧ StdModel.val (K := K) y = 0

/-- The literals used by the root search have their values, up to a rounding error; `epsilon` is at least the unit
roundoff. -/
class RootLits (F : Type u) (K : outParam (Type v)) [Scalar F] [Field K] [LinearOrder K] [IsStrictOrderedRing K]
    [StdModel F K] : Prop where
  half : StdModel.val (K := K) (Scalar.half : F) = 1 / 2
  two : 0 < StdModel.val (K := K) (Scalar.two : F)
  five : ∃ d, |d| ≤ StdModel.u (F := F) (K := K) ∧ StdModel.val (K := K) (Scalar.five : F) = 5 * (1 + d)
  pt1 : ∃ d, |d| ≤ StdModel.u (F := F) (K := K) ∧ StdModel.val (K := K) (Scalar.pt1 : F) = 1 / 10 * (1 + d)
  hundred : ∃ d, |d| ≤ StdModel.u (F := F) (K := K) ∧ StdModel.val (K := K) (Scalar.hundred : F) = 100 * (1 + d)
  eps : StdModel.u (F := F) (K := K) ≤ StdModel.val (K := K) (Scalar.eps : F)
  eps_pos : 0 < StdModel.val (K := K) (Scalar.eps : F)
  signum_pos : ∀ a : F, 0 < StdModel.val (K := K) a → StdModel.val (K := K) (Scalar.signum a) = 1
  signum_neg : ∀ a : F, StdModel.val (K := K) a < 0 → StdModel.val (K := K) (Scalar.signum a) = -1
  max : ∀ a b : F, StdModel.val (K := K) b ≤ StdModel.val (K := K) (Scalar.max a b)

/-- The root function was seen to have component `i` equal to `x` at `t`; or, if component `i` vanishes at `t` or `t` is the
initial time, at a point not before `t` (times increase in the direction `σ`). -/
def StartsWith (σ : K) (cfg : Cfg ν n q F) (s : State ν n q F) (t : F) (i : Fin q) (x : F) : Prop :=
  SeenAt cfg s t i x ∨
  (∃ t', 0 ≤ σ * (StdModel.val (K := K) t' - StdModel.val (K := K) t) ∧ SeenAt cfg s t' i x) ∧
    (StdModel.val (K := K) t = 0 ∨ ∃ z, StdModel.val (K := K) z = 0 ∧ SeenAt cfg s t i z)

/-- Component `i` of the root function was seen to be zero at `t`, or to have opposite signs at `t` and at an earlier
point at most `tol` away. -/
def CrossesAt (σ : K) (cfg : Cfg ν n q F) (s : State ν n q F) (tol : K) (t : F) (i : Fin q) : Prop :=
  ∃ g, SeenAt cfg s t i g ∧ (StdModel.val (K := K) g = 0 ∨
    ∃ t' g', |StdModel.val (K := K) t - StdModel.val (K := K) t'| ≤ tol ∧
      StdModel.val (K := K) g' * StdModel.val (K := K) g < 0 ∧ Allowed (K := K) cfg i g' ∧ StartsWith σ cfg s t' i g')

/-- The histories in which no call of `solve` asks for a time on the other side of the initial time (which is 0): with
`σ = 1` all times asked for are at least 0, with `σ = -1` at most 0. -/
inductive ReachSide (σ : K) (cfg : Cfg ν n q F) : State ν n q F → Prop
  | new (nls0 : ν) (yy0 yp0 : Vec n F) (tstop : Option F) :
      ReachSide σ cfg { State.new nls0 yy0 yp0 with tstop := tstop }
  | call {s s' : State ν n q F} (rf sf : Nat) (op : Op F) (r : Res n F) : ReachSide σ cfg s →
      (∀ tout tret task, op = .solve tout tret task → 0 ≤ σ * StdModel.val (K := K) tout) →
      exec cfg rf sf s op = some (s', r) → ReachSide σ cfg s'

end

end Verif.Spec
