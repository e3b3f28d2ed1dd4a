import Verif.Model.Nls
import Verif.Spec.Newton

/-!
# Nonlinear solvers that work through the problem interface

`Calls P m t m'`: starting from problem memory `m`, some sequence of callback invocations with arbitrary arguments,
recorded in `t`, leads to memory `m'`.  A nonlinear solver that accesses the problem only through the trait `NLProblem`
can do nothing else to the memory.
-/

set_option autoImplicit false

namespace Verif.Spec

open Verif

universe u v w

section
variable {σ : Type u} {V : Type v} {K : Type w}

inductive Calls (P : NLProblem σ V K) (s : σ) : List (Event V) → σ → Prop
  | nil : Calls P s [] s
  | sys {l : List (Event V)} {s1 : σ} (y buf : V) : Calls P s l s1 →
      Calls P s (l ++ [.sys y (P.sys s1 y buf).2.2]) (P.sys s1 y buf).1
  | setup {l : List (Event V)} {s1 : σ} (y f : V) (jbad : Bool) : Calls P s l s1 →
      Calls P s (l ++ [.setup y jbad (P.setup s1 y f jbad).2]) (P.setup s1 y f jbad).1
  | solve {l : List (Event V)} {s1 : σ} (y b : V) : Calls P s l s1 →
      Calls P s (l ++ [.solve (P.solve s1 y b).2.1 (P.solve s1 y b).2.2]) (P.solve s1 y b).1
  | ctest {l : List (Event V)} {s1 : σ} (vw : NlsView) (y del : V) (tol : K) (ewt : V) : Calls P s l s1 →
      Calls P s (l ++ [.ctest y del (P.ctest s1 vw y del tol ewt).2]) (P.ctest s1 vw y del tol ewt).1

end

/-- The nonlinear solver of the configuration works through the problem interface.  `Newton` does
(`newton_uses_interface`). -/
def NlsUses {ν : Type v} {n q : Nat} {K : Type u} [Scalar K] (cfg : Cfg ν n q K) : Prop :=
  ∀ N e m y0 y w tol call N' m' ee r, cfg.nls.solve N e m y0 y w tol call = .ret N' m' ee r →
    ∃ t, Calls (idaNLProblem cfg.prob e) m t m'

end Verif.Spec
