import Verif.Model.Io

/-!
# The same solver with other root functions

`cfg.withRoots root dir` solves the same equations with the same tolerances and the same nonlinear solver, but watches the
root functions `root` instead; there may be more or fewer of them, or none.
-/

set_option autoImplicit false

namespace Verif.Spec

universe u v

section
variable {ν : Type v} {n q q' : Nat} {K : Type u} [Scalar K]

/-- The same configuration with the root functions `root` and the root directions `dir`. -/
def _root_.Verif.Cfg.withRoots (cfg : Cfg ν n q K) (root : K → Vec n K → Vec n K → Vec q' K → Vec q' K) (dir : Fin q' → Nat) :
    Cfg ν n q' K where
  prob := { res := cfg.prob.res, jac := cfg.prob.jac, root := root }
  ewtSet := cfg.ewtSet
  nls := cfg.nls
  maxord := cfg.maxord
  mxstep := cfg.mxstep
  maxnef := cfg.maxnef
  maxncf := cfg.maxncf
  hmaxInv := cfg.hmaxInv
  hin := cfg.hin
  epcon := cfg.epcon
  suppressalg := cfg.suppressalg
  constraintsSet := cfg.constraintsSet
  id := cfg.id
  rootdir := dir

end

end Verif.Spec
