import Verif.Model.Solve

/-!
# Larger tolerances

What a user does with the factor `get_tol_scale_factor` suggests.
-/

set_option autoImplicit false

namespace Verif

universe u

/-- The tolerances multiplied by `f`. -/
def TolControl.times {n : Nat} {K : Type u} [Scalar K] (f : K) : TolControl n K → TolControl n K
  | .ss rtol atol => .ss (rtol * f) (atol * f)
  | .sv rtol atol => .sv (rtol * f) (fun i => atol i * f)

end Verif
