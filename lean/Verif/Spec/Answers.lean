import Verif.Model.Nls

/-!
# Problems that give the same answers to a set of calls

`A` is a set of calls of user functions: a residual, Jacobian or root function with its arguments.
-/

set_option autoImplicit false

namespace Verif.Spec

universe u v

section
variable {ν : Type v} {n q : Nat} {K : Type u} [Scalar K]

/-- Both problems give the same answer to every call in `A`, whatever is in the buffer to be filled. -/
structure SameAnswers (A : UCall n K → Prop) (P P' : Problem n q K) : Prop where
  res : ∀ t y yp buf, A (.res t y yp) → P'.res t y yp buf = P.res t y yp buf
  jac : ∀ t cj y yp r buf, A (.jac t cj y yp r) → P'.jac t cj y yp r buf = P.jac t cj y yp r buf
  root : ∀ t y yp buf, A (.root t y yp) → P'.root t y yp buf = P.root t y yp buf

/-- A session of a user with a solver: from `s0`, the calls `l` of public methods (most recent first; with the bounds for the
searches and steps, the method called and its result) lead to `s`. -/
inductive Session (cfg : Cfg ν n q K) (s0 : State ν n q K) : List (Nat × Nat × Op K × Res n K) → State ν n q K → Prop
  | nil : Session cfg s0 [] s0
  | call {l : List (Nat × Nat × Op K × Res n K)} {s s' : State ν n q K} (rf sf : Nat) (op : Op K) (r : Res n K) :
      Session cfg s0 l s → exec cfg rf sf s op = some (s', r) → Session cfg s0 ((rf, sf, op, r) :: l) s'

end

end Verif.Spec
