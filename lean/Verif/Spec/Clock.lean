import Verif.Spec.Mirror

/-!
# Another unit of time, without laws of arithmetic

The same problem with the time measured in another unit: `t` becomes `c t` and `y'` becomes `y' / c`, the solution is the same.
-/

set_option autoImplicit false

namespace Verif.Spec

universe u v

/-- A change of the unit of time: `f` converts times, and `g` (its inverse) converts rates. -/
structure Clock (K : Type u) [Scalar K] extends Exact2 K

namespace Clock

variable {n q : Nat} {K : Type u} [Scalar K] (U : Clock K)

/-- Square roots may be taken before or after the conversion. -/
def Roots : Prop := ∀ a, Scalar.sqrt (U.f (U.f a)) = U.f (Scalar.sqrt a)

/-- Rates. -/
def rate (v : Vec n K) : Vec n K := fun i => U.g (v i)

/-- `P'` is the problem `P` with the other unit of time.  `cj` multiplies the derivatives by `y'` in the Jacobian; it is a rate. -/
structure Same (P P' : Problem n q K) : Prop where
  res : ∀ t y yp b, P'.res (U.f t) y (U.rate yp) b = P.res t y yp b
  jac : ∀ t cj y yp r m, P'.jac (U.f t) (U.g cj) y (U.rate yp) r m = P.jac t cj y yp r m
  root : ∀ t y yp b, P'.root (U.f t) y (U.rate yp) b = P.root t y yp b

/-- A `k`-th derivative. -/
def diff : Nat → Vec n K → Vec n K
  | 0, v => v
  | k + 1, v => U.rate (diff k v)

/-- A public call. -/
def op : Op K → Op K
  | .solve tout tret task => .solve (U.f tout) (U.f tret) task
  | .getSolution t => .getSolution (U.f t)
  | .getDky t k => .getDky (U.f t) k

/-- A call of a user function. -/
def call : UCall n K → UCall n K
  | .res t yy yp => .res (U.f t) yy (U.rate yp)
  | .jac t cj yy yp rr => .jac (U.f t) (U.g cj) yy (U.rate yp) rr
  | .root t yy yp => .root (U.f t) yy (U.rate yp)

/-- The result of a public call. -/
def res : Op K → Res n K → Res n K
  | .getDky _ k, .dky r => .dky (r.map (U.diff k))
  | _, r => r

/-- What the getters and the variable `tret` show. -/
def shot (v : Snapshot n q K) : Snapshot n q K :=
  { v with
    yp := U.rate v.yp
    tret := U.f v.tret
    actualInitStep := U.f v.actualInitStep
    lastStep := U.f v.lastStep
    currentStep := U.f v.currentStep
    currentTime := U.f v.currentTime }

/-- All that is seen of a call. -/
def seen (o : Op K) : Option (Res n K × Snapshot n q K × List (UCall n K)) → Option (Res n K × Snapshot n q K × List (UCall n K))
  | some (r, v, log) => some (U.res o r, U.shot v, log.map U.call)
  | none => none

end Clock

end Verif.Spec
