import Verif.Model.Nls
import Verif.Spec.Ls

/-!
# Multiplication by a power of the base of the number system, without laws of arithmetic

In binary floating-point arithmetic (without overflow or underflow) multiplying a number by a power of two only changes its
exponent, so it commutes with the rounding of all operations.  `Exact2 K` is the set of laws this gives, for any scalar type:
`f` multiplies by the factor, `g` divides by it.  (In exact arithmetic every positive factor has these laws.)
-/

set_option autoImplicit false

namespace Verif.Spec

universe u v

/-- A change of unit that commutes with the arithmetic of `K`. -/
structure Exact2 (K : Type u) [Scalar K] where
  f : K → K
  g : K → K
  gf : ∀ a, g (f a) = a
  fg : ∀ a, f (g a) = a
  zero : f 0 = 0
  add : ∀ a b, f a + f b = f (a + b)
  sub : ∀ a b, f a - f b = f (a - b)
  neg : ∀ a, -(f a) = f (-a)
  mul : ∀ a b, f a * b = f (a * b)
  mul' : ∀ a b, a * f b = f (a * b)
  div : ∀ a b, f a / b = f (a / b)
  div' : ∀ a b, a / f b = g (a / b)
  recip : ∀ a, Scalar.recip (f a) = g (Scalar.recip a)
  abs : ∀ a, Scalar.abs (f a) = f (Scalar.abs a)
  signum : ∀ a, Scalar.signum (f a) = Scalar.signum a
  lt : ∀ a b, Scalar.lt (f a) (f b) = Scalar.lt a b
  le : ∀ a b, Scalar.le (f a) (f b) = Scalar.le a b
  eqb : ∀ a b, Scalar.eqb (f a) (f b) = Scalar.eqb a b

/-- The rounding of the arithmetic of `K` does not distinguish the signs. -/
structure SignFree (K : Type u) [Scalar K] : Prop where
  neg : ∀ a : K, - -a = a
  zero : -(0 : K) = 0
  add : ∀ a b : K, -a + -b = -(a + b)
  sub : ∀ a b : K, -a - -b = -(a - b)
  mul : ∀ a b : K, -a * b = -(a * b)
  mul' : ∀ a b : K, a * -b = -(a * b)
  div : ∀ a b : K, -a / b = -(a / b)
  div' : ∀ a b : K, a / -b = -(a / b)
  recip : ∀ a : K, Scalar.recip (-a) = -(Scalar.recip a)
  abs : ∀ a : K, Scalar.abs (-a) = Scalar.abs a
  eqb : ∀ a : K, Scalar.eqb (-a) 0 = Scalar.eqb a 0

/-- A change of unit, possibly together with a change of sign. -/
structure SignedUnit (K : Type u) [Scalar K] where
  u : Exact2 K
  minus : Bool
  ok : minus = true → SignFree K

namespace SignedUnit

variable {K : Type u} [Scalar K] (S : SignedUnit K)

/-- A quantity in the new unit, with the new sign. -/
def f (a : K) : K := if S.minus then -(S.u.f a) else S.u.f a

/-- A quantity in the reciprocal of the new unit, with the new sign. -/
def g (a : K) : K := if S.minus then -(S.u.g a) else S.u.g a

end SignedUnit

/-- Other units: one for each unknown, one for the equations, one for each root function; unknowns and equations may change
their signs, too. -/
structure Rescale (n q : Nat) (K : Type u) [Scalar K] where
  y : Fin n → SignedUnit K
  e : SignedUnit K
  r : Fin q → Exact2 K

namespace Rescale

variable {n q : Nat} {K : Type u} [Scalar K] (C : Rescale n q K)

/-- Unknowns, their derivatives and their corrections in the new units. -/
def vec (v : Vec n K) : Vec n K := fun i => (C.y i).f (v i)

/-- Tolerances in the new units: they have no sign. -/
def size (v : Vec n K) : Vec n K := fun i => (C.y i).u.f (v i)

/-- Error weights (the reciprocals of tolerances) in the new units. -/
def wt (v : Vec n K) : Vec n K := fun i => (C.y i).u.g (v i)

/-- Residuals in the new units. -/
def eqn (v : Vec n K) : Vec n K := fun i => C.e.f (v i)

/-- The values of the root functions in the new units. -/
def rts (v : Vec q K) : Vec q K := fun i => (C.r i).f (v i)

/-- A Jacobian in the new units: entry `(i, j)` is the derivative of equation `i` by unknown `j`.  (Columns that a matrix does
not have are left as they are.) -/
def mat (a : Mat K) : Mat K := fun i j => if h : j < n then C.e.f ((C.y ⟨j, h⟩).g (a i j)) else a i j

/-- The tolerances in the new units. -/
def tol : TolControl n K → TolControl n K
  | .ss rtol atol => .sv rtol (C.size fun _ => atol)
  | .sv rtol atol => .sv rtol (C.size atol)

/-- `P'` is the problem `P` in the new units.  The residual and the root functions write all of their output (`b`, `b'` are the
previous contents of the buffers); the Jacobian is written into a matrix of zeros. -/
structure Same (P P' : Problem n q K) : Prop where
  res : ∀ t y yp b b', P'.res t (C.vec y) (C.vec yp) b' = C.eqn (P.res t y yp b)
  jac : ∀ t cj y yp r, P'.jac t cj (C.vec y) (C.vec yp) (C.eqn r) (fun _ _ => 0) = C.mat (P.jac t cj y yp r fun _ _ => 0)
  root : ∀ t y yp b b', P'.root t (C.vec y) (C.vec yp) b' = C.rts (P.root t y yp b)

/-- A call of a user function, in the new units. -/
def call : UCall n K → UCall n K
  | .res t yy yp => .res t (C.vec yy) (C.vec yp)
  | .jac t cj yy yp rr => .jac t cj (C.vec yy) (C.vec yp) (C.eqn rr)
  | .root t yy yp => .root t (C.vec yy) (C.vec yp)

/-- The result of a call, in the new units. -/
def res : Res n K → Res n K
  | .solved r => .solved r
  | .solution r => .solution r
  | .dky r => .dky (r.map C.vec)

/-- All that is seen of a call, in the new units: the solution and its derivatives change their units, and so do the arguments
of the calls of the user's functions.  The times, step sizes, orders, counters and the root directions do not change. -/
def seen : Option (Res n K × Snapshot n q K × List (UCall n K)) → Option (Res n K × Snapshot n q K × List (UCall n K))
  | some (r, v, log) => some (C.res r, { v with yy := C.vec v.yy, yp := C.vec v.yp }, log.map C.call)
  | none => none

end Rescale

end Verif.Spec
