import Verif.Model.Driver

/-!
# What the table printed by the example program has to look like
-/

set_option autoImplicit false

namespace Verif.Spec

open Verif

universe u v

section
variable {ν : Type v} {n q : Nat} {K : Type u}

/-- The row was printed after a call that returned `Success`. -/
def Row.isSuccess (x : Row ν n q K) : Bool := match x.res with | .ok .success => true | _ => false

/-- The row was printed after a call that returned an error. -/
def Row.isError (x : Row ν n q K) : Bool := match x.res with | .error _ => true | _ => false

/-- The first `k` of the times `t`, `t·f`, `t·f·f`, … -/
def outputTimes [Scalar K] (f : K) : Nat → K → List K
  | 0, _ => []
  | k + 1, t => t :: outputTimes f k (t * f)

end
end Verif.Spec
