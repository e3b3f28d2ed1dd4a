import Verif.Spec.Reach

/-!
# Continuations of a history

The states a user can reach from a given state by further calls of public methods.
-/

set_option autoImplicit false

namespace Verif

universe u v

section
variable {ν : Type v} {n q : Nat} {K : Type u} [Scalar K]

/-- The problem memory with other output vectors (`get_yy`, `get_yp`) and another ghost log. -/
def Mem.wear (m : Mem n K) (yy yp : Vec n K) (log : List (UCall n K)) : Mem n K := { m with yy := yy, yp := yp, log := log }

/-- The problem memories differ in the output vectors and the ghost log only. -/
def Mem.Alike (m m' : Mem n K) : Prop := ∃ yy yp log, m' = m.wear yy yp log

/-- The same outcome of the nonlinear solver up to the contents of the output vectors and the log. -/
inductive NlOut.Alike : NlOut ν n K → NlOut ν n K → Prop
  | ret (N : ν) (m m' : Mem n K) (y : Vec n K) (r : Except Err Unit) : m.Alike m' → NlOut.Alike (.ret N m y r) (.ret N m' y r)
  | panic : NlOut.Alike .panic .panic
  | diverge : NlOut.Alike .diverge .diverge

/-- What the nonlinear solver does is independent of the output vectors it finds.  `Newton` has this property
(`newton_nlsBlind`): the integrator's nonlinear problem overwrites them before it reads them. -/
def NlsBlind (cfg : Cfg ν n q K) : Prop :=
  ∀ N e m m' y0 y w tol call, m.Alike m' →
    NlOut.Alike (cfg.nls.solve N e m y0 y w tol call) (cfg.nls.solve N e m' y0 y w tol call)

end

end Verif

namespace Verif.Spec

universe u v

section
variable {ν : Type v} {n q : Nat} {K : Type u} [Scalar K]

/-- `s'` is the state after some calls from `s`, with any arguments and in any order, all of which have returned. -/
inductive Later (cfg : Cfg ν n q K) (s : State ν n q K) : State ν n q K → Prop
  | refl : Later cfg s s
  | call {s1 s2 : State ν n q K} (rf sf : Nat) (op : Op K) (r : Res n K) : Later cfg s s1 →
      exec cfg rf sf s1 op = some (s2, r) → Later cfg s s2

/-- The same, and none of these calls has reported a failed internal step. -/
inductive LaterOk (cfg : Cfg ν n q K) (s : State ν n q K) : State ν n q K → Prop
  | refl : LaterOk cfg s s
  | call {s1 s2 : State ν n q K} (rf sf : Nat) (op : Op K) (r : Res n K) : LaterOk cfg s s1 →
      exec cfg rf sf s1 op = some (s2, r) → (∀ e, r = .solved (.error e) → e.isStepFailure = false) → LaterOk cfg s s2

theorem LaterOk.later {cfg : Cfg ν n q K} {s s' : State ν n q K} (h : LaterOk cfg s s') : Later cfg s s' := by
  induction h with
  | refl => exact .refl
  | call rf sf op r _ he _ ih => exact .call rf sf op r ih he

theorem LaterOk.reachOk {cfg : Cfg ν n q K} {s s' : State ν n q K} (h : LaterOk cfg s s') (hs : ReachOk cfg s) :
    ReachOk cfg s' := by
  induction h with
  | refl => exact hs
  | call rf sf op r _ he hb ih => exact .call rf sf op r ih he hb

/-- The error weights depend only on the solution vector they are computed from (and not on the previous weights).  This
holds for the tolerance controls of the crate. -/
def FreshWeights (cfg : Cfg ν n q K) : Prop := ∀ y w w', cfg.ewtSet y w = cfg.ewtSet y w'

end

end Verif.Spec
