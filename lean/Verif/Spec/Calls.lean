import Verif.Model.State
import Mathlib.Algebra.BigOperators.Fin
import Mathlib.Algebra.Order.Field.Basic

/-!
# The calls of the user's functions in an integration with Newton's method

Lists of calls and of attempts are most recent first.  `Story P calls atts`: the calls made so far can be split into
the root-function calls and one block per attempt, and every block consists of the calls of a modified Newton iteration
for the implicit equation of that attempt.
-/

set_option autoImplicit false

namespace Verif.Spec

open Verif

universe u

section
variable {n q : Nat} {K : Type u}

/-- A call of the residual function. -/
def IsRes : UCall n K → Prop
  | .res _ _ _ => True
  | _ => False

/-- A call of the Jacobian function. -/
def IsJac : UCall n K → Prop
  | .jac _ _ _ _ _ => True
  | _ => False

/-- A call of the root function. -/
def IsRoot : UCall n K → Prop
  | .root _ _ _ => True
  | _ => False

/-- `jac t cj y y' r` is the most recent Jacobian evaluation. -/
inductive LastJac (t cj : K) (y yp r : Vec n K) : List (UCall n K) → Prop
  | here (l : List (UCall n K)) : LastJac t cj y yp r (.jac t cj y yp r :: l)
  | older (x : UCall n K) (l : List (UCall n K)) : ¬ IsJac x → LastJac t cj y yp r l → LastJac t cj y yp r (x :: l)

variable [Field K]

/-- The point `(y, y')` that belongs to the correction `c` in the attempt `x`. -/
def Att.y (x : Att n K) (c : Vec n K) : Vec n K := fun i => x.pred i + c i
def Att.y' (x : Att n K) (c : Vec n K) : Vec n K := fun i => x.predp i + x.cj * c i

/-- Where a Newton iteration is: it has the correction `c`, or it has also evaluated the residual `F` for it. -/
inductive NewtonAt (n : Nat) (K : Type u) where
  | has (c : Vec n K)
  | residual (c F : Vec n K)

/-- `F` is a value of the residual function at `(t, y, y')` (the function is handed a buffer to fill). -/
def ResVal (P : Problem n q K) (t : K) (y yp F : Vec n K) : Prop := ∃ buf, F = P.res t y yp buf

open Classical in
/-- Factor applied to the solution of the linear system when the Jacobian was evaluated for the leading coefficient
`c` and the current one is `cj`. -/
noncomputable def staleFactor (cj c : K) : K := if c = cj then 1 else 2 / (1 + cj / c)

/-- Only the zero vector is mapped to zero. -/
def Regular (A : Nat → Nat → K) (n : Nat) : Prop :=
  ∀ v : Vec n K, (∀ i : Fin n, ∑ j : Fin n, A i j * v j = 0) → ∀ j, v j = 0

/-- The calls `calls` of a modified Newton iteration for the attempt `x`, after the earlier calls `l`. -/
inductive NewtonCalls (P : Problem n q K) (x : Att n K) (l : List (UCall n K)) :
    List (UCall n K) → NewtonAt n K → Prop
  /-- The iteration starts with the correction zero: the residual at the predictor. -/
  | start (F : Vec n K) : ResVal P x.tnew x.pred x.predp F →
      NewtonCalls P x l [.res x.tnew x.pred x.predp] (.residual (fun _ => 0) F)
  /-- After a convergence failure it starts again. -/
  | restart (calls : List (UCall n K)) (c F : Vec n K) : NewtonCalls P x l calls (.has c) →
      ResVal P x.tnew x.pred x.predp F →
      NewtonCalls P x l (.res x.tnew x.pred x.predp :: calls) (.residual (fun _ => 0) F)
  /-- The Jacobian is evaluated right after the residual, at the same point and with its value; the time passed is
  zero. -/
  | jac (calls : List (UCall n K)) (t : K) (y yp c F : Vec n K) :
      NewtonCalls P x l (.res t y yp :: calls) (.residual c F) →
      NewtonCalls P x l (.jac 0 x.cj y yp F :: .res t y yp :: calls) (.residual c F)
  /-- The correction is updated by the solution of the linear system with the most recent Jacobian, which is regular;
  the solution is scaled. -/
  | update (calls : List (UCall n K)) (c F d : Vec n K) (t cj : K) (y yp r : Vec n K) :
      NewtonCalls P x l calls (.residual c F) → LastJac t cj y yp r (calls ++ l) →
      (∀ i : Fin n, ∑ j : Fin n, P.jac t cj y yp r (fun _ _ => 0) i j * d j = -F i) →
      Regular (P.jac t cj y yp r fun _ _ => 0) n →
      NewtonCalls P x l calls (.has fun i => c i + staleFactor x.cj cj * d i)
  /-- The residual for the new correction. -/
  | next (calls : List (UCall n K)) (c F : Vec n K) : NewtonCalls P x l calls (.has c) →
      ResVal P x.tnew (Att.y x c) (Att.y' x c) F →
      NewtonCalls P x l (.res x.tnew (Att.y x c) (Att.y' x c) :: calls) (.residual c F)

variable [LinearOrder K]

/-- The Jacobian is evaluated at the beginning of the attempt, or the most recent one was evaluated for a leading
coefficient `c` with `3/5 ≤ cj/c ≤ 5/3`. -/
def FreshOrClose (x : Att n K) (l calls : List (UCall n K)) : Prop :=
  (∃ F calls', calls = calls' ++ [.jac 0 x.cj x.pred x.predp F, .res x.tnew x.pred x.predp]) ∨
  ∃ t c y yp r, LastJac t c y yp r l ∧ 3 / 5 ≤ x.cj / c ∧ x.cj / c ≤ 5 / 3

inductive Story (P : Problem n q K) : List (UCall n K) → List (Att n K) → Prop
  | new : Story P [] []
  | root (x : UCall n K) (l : List (UCall n K)) (a : List (Att n K)) : IsRoot x → Story P l a → Story P (x :: l) a
  | attempt (x : Att n K) (calls l : List (UCall n K)) (a : List (Att n K)) : Story P l a →
      NewtonCalls P x l calls (.has x.ee) → FreshOrClose x l calls → Story P (calls ++ l) (x :: a)

end

end Verif.Spec
