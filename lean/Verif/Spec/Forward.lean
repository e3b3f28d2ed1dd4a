import Verif.Spec.Reach
import Verif.Model.Io

/-!
# Sessions that only go forward
-/

set_option autoImplicit false

namespace Verif.Spec

open Verif

universe u v

/-- States of sessions in which every call of `solve` returned `Ok`, and after the first step asked in normal mode for a
time not before the one returned last, seen in the direction of integration.  (There is no stop time: the crate has no way
to set one.)  Other public calls may occur in between. -/
inductive Forward {ν : Type v} {n q : Nat} {K : Type u} [Scalar K] [Preorder K] (cfg : Cfg ν n q K) :
    State ν n q K → Prop
  | new (N : ν) (y0 yp0 : Vec n K) : Forward cfg (State.new N y0 yp0)
  | solve {s s' : State ν n q K} (rf sf : Nat) (tout tret : K) (task : Task) (st : Status) : Forward cfg s →
      (0 < getNumSteps s → task = .normal → 0 ≤ (tout - s.tretlast) * getCurrentStep s) →
      exec cfg rf sf s (.solve tout tret task) = some (s', .solved (.ok st)) → Forward cfg s'
  | look {s s' : State ν n q K} (rf sf : Nat) (op : Op K) (r : Res n K) : Forward cfg s →
      (∀ x, r ≠ .solved x) → exec cfg rf sf s op = some (s', r) → Forward cfg s'

end Verif.Spec
