import Verif.Model.Io

/-!
# States of solvers with and without a stop time

The record of an attempt contains the stop time in force.  To compare the integrations of a solver with a stop time and of
one without, it is left out.
-/

set_option autoImplicit false

namespace Verif.Spec

universe u v

section
variable {ν : Type v} {n q : Nat} {K : Type u} [Scalar K]

/-- The record of an attempt without the stop time. -/
def _root_.Verif.Att.forget (x : Att n K) : Att n K := { x with stop := none }

/-- The state without the stop time; everything else, and in particular everything the solver computes with, is as before. -/
def _root_.Verif.State.forget (s : State ν n q K) : State ν n q K := { s with tstop := none, g.atts := s.g.atts.map Att.forget }

/-- A step from time `t` with step size `h` ends beyond `T`, in its direction.  (The solver asks `… > 0` in one
place and `… > 1` in another; with transitive comparisons the second disjunct is redundant.) -/
def beyond (T t h : K) : Bool := Scalar.gt ((t + h - T) * h) 0 || Scalar.gt ((t + h - T) * h) 1

/-- No attempt of the history started with a step that ends beyond `T`. -/
def StaysBefore (T : K) (s : State ν n q K) : Prop := ∀ x ∈ s.g.atts, beyond T x.t0 x.hh = false

end

end Verif.Spec
