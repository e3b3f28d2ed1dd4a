import Verif.Props.Stop

/-!
# What the root function was seen to return

The model's ghost log `s.m.log` records every call of the user's callbacks.  A root function writes its values into a
buffer; what it returns may depend on the old contents of the buffer, so the values below are "for some buffer".
-/

set_option autoImplicit false
set_option linter.unusedSectionVars false

namespace Verif.Spec

open Verif.Props

universe u v

section
variable {K : Type u} [Field K] [LinearOrder K]

/-- `t` lies between `a` and `b`. -/
def Between (a t b : K) : Prop := a ≤ t ∧ t ≤ b ∨ b ≤ t ∧ t ≤ a

/-- `t` lies strictly between `a` and `b`. -/
def Inside (a t b : K) : Prop := a < t ∧ t < b ∨ b < t ∧ t < a

/-- The trial points `ts` (in the order of evaluation) narrow the bracket from `a`, `b` to `a'`, `b'`: each one lies
strictly inside the current bracket, and replacing an end by it shrinks the bracket by at least `ttol / 2`. -/
inductive Narrowing (ttol : K) : K → K → List K → K → K → Prop
  | done (a b : K) : Narrowing ttol a b [] a b
  | upper {a b t a' b' : K} {ts : List K} : Inside a t b → |t - a| + ttol / 2 ≤ |b - a| → Narrowing ttol a t ts a' b' →
      Narrowing ttol a b (t :: ts) a' b'
  | lower {a b t a' b' : K} {ts : List K} : Inside a t b → |b - t| + ttol / 2 ≤ |b - a| → Narrowing ttol t b ts a' b' →
      Narrowing ttol a b (t :: ts) a' b'

end

section
variable {ν : Type v} {n q : Nat} {K : Type u}

/-- The times of the root-function calls in a list of calls. -/
def rootTimes : List (UCall n K) → List K
  | [] => []
  | .root t _ _ :: l => t :: rootTimes l
  | _ :: l => rootTimes l

/-- The calls made between two states: root calls at the times `ts` (in order), all counted. -/
def CallsAt (s s' : State ν n q K) (ts : List K) : Prop :=
  ∃ l : List (UCall n K), s'.m.log = l ++ s.m.log ∧ (∀ x ∈ l, x.isRoot = true) ∧ rootTimes l = ts.reverse ∧
    s'.r.nge = s.r.nge + ts.length

end

section
variable {ν : Type v} {n q : Nat} {K : Type u} [Field K] [LinearOrder K] [IsStrictOrderedRing K] [ExactParams K]
  [EpsLaws K]

/-- In the execution up to `s` the root function was called at time `t` and component `i` of its result was `x`. -/
def Seen (cfg : Cfg ν n q K) (s : State ν n q K) (t : K) (i : Fin q) (x : K) : Prop :=
  ∃ (v vp : Vec n K) (buf : Vec q K), UCall.root t v vp ∈ s.m.log ∧ cfg.prob.root t v vp buf i = x

/-- As `Seen`; moreover the root function was given the vectors that `get_solution(t)` yields (if `t` is not before the
last step). -/
def SeenSol (cfg : Cfg ν n q K) (s : State ν n q K) (t : K) (i : Fin q) (x : K) : Prop :=
  ∃ (v vp : Vec n K) (buf : Vec q K), UCall.root t v vp ∈ s.m.log ∧ cfg.prob.root t v vp buf i = x ∧
    (¬ BeforeLastStep s t → solutionAt s t = some (v, vp))

theorem SeenSol.seen {cfg : Cfg ν n q K} {s : State ν n q K} {t x : K} {i : Fin q} (h : SeenSol cfg s t i x) :
    Seen cfg s t i x := by
  obtain ⟨v, vp, buf, h1, h2, -⟩ := h
  exact ⟨v, vp, buf, h1, h2⟩

/-- The root tolerance: one hundred units of roundoff of the internal time and the step size. -/
def rootTolerance (s : State ν n q K) : K := 100 * ExactParams.eps * (|s.e.tn| + |s.c.hh|)

/-- Component `i` of the root function is zero at `t`, or it has opposite signs at `t` and at a point within the root
tolerance of `t` (before `t`, in the direction of integration, if `fwd`), where the root function was called too. -/
def BracketedAt (cfg : Cfg ν n q K) (s : State ν n q K) (fwd : Prop) (t : K) (i : Fin q) : Prop :=
  ∃ g, SeenSol cfg s t i g ∧ (g = 0 ∨ ∃ t' g', |t - t'| ≤ rootTolerance s ∧ (fwd → 0 < (t - t') * s.c.hh) ∧ g' * g < 0 ∧
    Seen cfg s t' i g')

/-- As the second half of `BracketedAt`, but the opposite sign was observed at a point `u` after `t'`, and `t'` is the
initial time or a point at which the component is zero. -/
def BracketedAfter (cfg : Cfg ν n q K) (s : State ν n q K) (fwd : Prop) (t : K) (i : Fin q) : Prop :=
  ∃ g, SeenSol cfg s t i g ∧ ∃ t' u g', |t - t'| ≤ rootTolerance s ∧ (fwd → 0 < (t - t') * s.c.hh) ∧ g' * g < 0 ∧
    Seen cfg s u i g' ∧ 0 < (u - t') * s.c.hh ∧ (t' = 0 ∨ Seen cfg s t' i 0)

end

end Verif.Spec
