import Verif.Proofs.Ghost
import Verif.Props.History

/-!
# C22 and C32 in every history

`s.g.atts` is the list of step attempts, `s.g.acc` the list of accepted points, both most recent first.
-/

set_option autoImplicit false
set_option linter.unusedSectionVars false
set_option linter.unusedVariables false

namespace Verif.Props

open Verif Verif.Spec Verif.Witness Polynomial

universe u v

section
variable {ν : Type v} {n q : Nat} {K : Type u} [Scalar K]

/-- **C32, both directions** (any scalar type, every history): an attempt whose nonlinear solve succeeded is accepted if
the error coefficient times the weighted norm of its correction is at most one, and fails the error test otherwise; every
accepted point except the starting point is the solution of an accepted attempt that started from the points before it. -/
theorem c32_test_decides (cfg : Cfg ν n q K) (s : State ν n q K) (h : Reach cfg s) :
    (∀ x ∈ s.g.atts, (∀ e, x.out ≠ .nlsFail e) →
      (x.out = .accepted ↔ Scalar.le (x.ck * wrmsNorm cfg.id x.ee x.ewt cfg.suppressalg) 1 = true)) ∧
    ∀ pre p rest, s.g.acc = pre ++ p :: rest → rest ≠ [] →
      ∃ x ∈ s.g.atts, x.out = .accepted ∧ x.before = rest ∧ p = (x.tnew, x.yy) := by
  have H := h.linked
  refine ⟨fun x hx hn => ⟨H.passed x hx, fun hp => ?_⟩, H.link⟩
  cases ho : x.out with
  | accepted => rfl
  | testFail => rw [H.failed x hx ho] at hp; cases hp
  | nlsFail e => exact absurd ho (hn e)

end

section
variable {ν : Type v} {n q : Nat} {K : Type u} [Field K] [LinearOrder K] [IsStrictOrderedRing K] [ExactParams K]
  [EpsLaws K]

theorem attForm {cfg : Cfg ν n q K} {s : State ν n q K} (h : Reach cfg s) :
    ∀ x ∈ s.g.atts, x.cj = harmonicSum K x.kk / x.hh := by
  refine (h.ghost (fun g => ∀ x ∈ g.atts, x.cj = harmonicSum K x.kk / x.hh) (fun x hx => by cases hx) ?_ ?_).1
  · intro s t0 ee r out hI _ _ x hx
    rcases List.mem_cons.1 hx with rfl | hx
    · exact leadCoef_eq s
    · exact hI x hx
  · intro s t0 ee hI _ _ _ x hx
    rcases List.mem_cons.1 hx with rfl | hx
    · exact leadCoef_eq s
    · exact hI x hx

/-- **C22.** Every attempt of every history, also after failed calls: the leading coefficient is
`(1 + 1/2 + ... + 1/k) / h`, and the pair `(y, y')` the corrector produces satisfies the fixed-leading-coefficient BDF
formula for every polynomial of degree at most the order that the prediction `(y, y')` was taken from.  (Which polynomial
that is, is the subject of C21; there is always one, and in histories without failed steps it is the interpolant of the
accepted points.) -/
theorem c22_bdf (cfg : Cfg ν n q K) (hl : NlsLegal cfg) (hm1 : 1 ≤ cfg.maxord) (hm : 0 ≤ cfg.hmaxInv)
    (s : State ν n q K) (h : Reach cfg s) (x : Att n K) (hx : x ∈ s.g.atts) :
    x.cj = (∑ i ∈ Finset.range x.kk, ((i : K) + 1)⁻¹) / x.hh ∧
    (∃ Q : Fin n → K[X], (∀ i, (Q i).natDegree ≤ x.kk) ∧
      ∀ i, x.pred i = (Q i).eval x.tnew ∧ x.predp i = (derivative (Q i)).eval x.tnew) ∧
    ∀ Q : Fin n → K[X], (∀ i, (Q i).natDegree ≤ x.kk) →
      (∀ i, x.pred i = (Q i).eval x.tnew ∧ x.predp i = (derivative (Q i)).eval x.tnew) →
      FixedLeadingBdf x.kk x.tnew x.hh Q x.yy x.yp := by
  have hk := (h.attOrd hl hm1 x hx).1
  obtain ⟨hh, ht, -, -⟩ := (h.ctl hl hm).atts x hx
  obtain ⟨h1, h2⟩ := h.linked.yy x hx
  refine ⟨attForm h x hx, ⟨fun i => C (x.pred i) + C (x.predp i) * (X - C x.tnew), fun i => ?_, fun i => ?_⟩, ?_⟩
  · refine (natDegree_add_le _ _).trans (max_le (by simp) ?_)
    exact (natDegree_C_mul_le _ _).trans (by rw [natDegree_X_sub_C]; exact hk)
  · simp
  · intro Q hd hQ
    exact bdf_form hh (attForm h x hx) h1 h2 hd hQ

end

/-! Witness: a history with a failed call (ten convergence failures in one step), a step rejected by the error test and
four accepted steps, of orders 1 and 2. -/

example : ((run (scriptCfg ([okSmall, okSmall] ++ List.replicate 10 recov ++ [okSmall, okBig, okSmall])) 10 20 (steps 5)
    script0).map fun p => (p.2.map Res.stepFailed, p.1.g.atts.map fun x => (x.kk, decide (x.out = .accepted),
      decide (x.out = .testFail)))) = some ([false, false, true, false, false],
      [(2, true, false), (2, false, true), (2, true, false)] ++ List.replicate 10 (2, false, false) ++
        [(1, true, false), (1, true, false)]) := by decide +kernel

end Verif.Props
