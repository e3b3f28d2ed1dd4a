import Verif.Model.Io
import Verif.Model.Nls
import Verif.Spec.Linear
import Mathlib.Algebra.Module.Equiv.Basic
import Mathlib.Algebra.Module.Pi

/-!
# Change of units

The same problem written in other units, with the unknowns numbered differently, with other (equivalent) equations, and
possibly with the time reversed.
-/

set_option autoImplicit false

namespace Verif

universe u

section
variable {n q : Nat} {K : Type u} [Field K] [LinearOrder K]

/-- Times are multiplied by `σ`, the new unknown `i` is `d i` times the old unknown `π i`, and the new residual is the
image of the old one under the invertible linear map `E`. -/
structure Change (n : Nat) (K : Type u) [Field K] where
  σ : K
  d : Fin n → K
  π : Equiv.Perm (Fin n)
  E : (Fin n → K) ≃ₗ[K] (Fin n → K)
  hσ : σ ≠ 0
  hd : ∀ i, d i ≠ 0

/-- The new values of the unknowns. -/
def Change.vec (C : Change n K) (y : Vec n K) : Vec n K := fun i => C.d i * y (C.π i)

/-- The new values of their time derivatives. -/
def Change.rate (C : Change n K) (yp : Vec n K) : Vec n K := fun i => C.d i * yp (C.π i) / C.σ

/-- The new values of the error weights, which have the inverse unit of the unknowns. -/
def Change.wt (C : Change n K) (w : Vec n K) : Vec n K := fun i => w (C.π i) / |C.d i|

/-- The tolerances in the new units. -/
def Change.tol (C : Change n K) : TolControl n K → TolControl n K
  | .ss rtol atol => .sv rtol (fun i => |C.d i| * atol)
  | .sv rtol atol => .sv rtol (fun i => |C.d i| * atol (C.π i))

/-- The user's functions in the new units: the residual is transformed by `E`, the Jacobian by the chain rule
(`J' (vec v) = E (J v)`; the new leading coefficient is `cj / σ`), the root functions take the same values. -/
structure Change.Problems (C : Change n K) (P P' : Problem n q K) : Prop where
  res : ∀ t y yp b b', P'.res (C.σ * t) (C.vec y) (C.rate yp) b' = C.E (P.res t y yp b)
  jac : ∀ t cj y yp r (v : Vec n K) (i : Fin n),
    Spec.mulVec n (P'.jac (C.σ * t) (cj / C.σ) (C.vec y) (C.rate yp) (C.E r) (fun _ _ => 0))
      (fun j => if h : j < n then C.vec v ⟨j, h⟩ else 0) i =
    C.E (fun i => Spec.mulVec n (P.jac t cj y yp r (fun _ _ => 0)) (fun j => if h : j < n then v ⟨j, h⟩ else 0) i) i
  root : ∀ t y yp b b', P'.root (C.σ * t) (C.vec y) (C.rate yp) b' = P.root t y yp b

/-- The same call in the new units. -/
def Change.op (C : Change n K) : Op K → Op K
  | .solve tout tret task => .solve (C.σ * tout) (C.σ * tret) task
  | .getSolution t => .getSolution (C.σ * t)
  | .getDky t k => .getDky (C.σ * t) k

/-- The same result in the new units: a `k`-th derivative is divided by `σ ^ k`. -/
def Change.result (C : Change n K) : Op K → Res n K → Res n K
  | .getDky _ k, .dky (.ok v) => .dky (.ok fun i => C.d i * v (C.π i) / C.σ ^ k)
  | _, r => r

section
variable [ExactParams K]

/-- Everything the getters and the variable `tret` show is the same, up to the units. -/
structure Change.Same {ν : Type u} (C : Change n K) (cfg cfg' : Cfg ν n q K) (s s' : State ν n q K) : Prop where
  yy : getYy s' = C.vec (getYy s)
  yp : getYp s' = C.rate (getYp s)
  tret : s'.tret = C.σ * s.tret
  time : getCurrentTime s' = C.σ * getCurrentTime s
  lastStep : getLastStep s' = C.σ * getLastStep s
  currentStep : getCurrentStep s' = C.σ * getCurrentStep s
  initStep : getActualInitStep s' = C.σ * getActualInitStep s
  lastOrder : getLastOrder s' = getLastOrder s
  currentOrder : getCurrentOrder s' = getCurrentOrder s
  numSteps : getNumSteps s' = getNumSteps s
  resEvals : getNumResEvals s' = getNumResEvals s
  setups : getNumLinSolvSetups s' = getNumLinSolvSetups s
  jacEvals : getNumJacEvals s' = getNumJacEvals s
  errTestFails : getNumErrTestFails s' = getNumErrTestFails s
  iters : getNumNonlinSolvIters cfg' s' = getNumNonlinSolvIters cfg s
  convFails : getNumNonlinSolvConvFails s' = getNumNonlinSolvConvFails s
  gEvals : getNumGEvals s' = getNumGEvals s
  rootInfo : getRootInfo s' = getRootInfo s
  tolScale : getTolScaleFactor s' = getTolScaleFactor s

/-- A call the comparison applies to: any call once a step has been taken, calls of `solve` before that. -/
def legit {ν : Type u} (s : State ν n q K) (op : Op K) : Prop :=
  getNumSteps s = 0 → ∃ tout tret task, op = .solve tout tret task

/-- Two histories with the same calls, one in the old and one in the new units.  A history goes on after a call only if
steps have been taken or the call was rejected because of its arguments (so not after a first step that failed). -/
inductive Change.Twin (C : Change n K) (P P' : Problem n q K) (tol tol' : TolControl n K) (fuel : Nat) (y0 yp0 : Vec n K) :
    State (Newton (Vec n K)) n q K → State (Newton (Vec n K)) n q K → Prop
  | new : Change.Twin C P P' tol tol' fuel y0 yp0 (State.new newton0 y0 yp0) (State.new newton0 (C.vec y0) (C.rate yp0))
  | call {s s1 s' s1' : State (Newton (Vec n K)) n q K} {rf sf : Nat} {op : Op K} {r r' : Res n K} :
      Change.Twin C P P' tol tol' fuel y0 yp0 s s' → legit s op →
      exec (Cfg.newton P tol fuel) rf sf s op = some (s1, r) →
      exec (Cfg.newton P' tol' fuel) rf sf s' (C.op op) = some (s1', r') →
      (getNumSteps s1 = 0 → r = .solved (.error (.ida .illegalInput))) →
      Change.Twin C P P' tol tol' fuel y0 yp0 s1 s1'

end

end

end Verif
