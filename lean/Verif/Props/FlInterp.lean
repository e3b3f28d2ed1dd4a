import Verif.Proofs.FlPsi
import Verif.Proofs.FlInterp
import Verif.Props.FlControl
import Verif.Props.Interp
import Verif.Props.Errors

/-!
# Interpolated output in floating-point arithmetic (C92)

`F` is any correctly rounded floating-point arithmetic (`Spec/Correct.lean`), `♯a` is the number `a` represents and `μ` the unit
roundoff.  `Spec.Newton.interp psi phi k` is the polynomial of degree `k` in Newton form (`Spec/FlInterp.lean`).
-/

set_option autoImplicit false
set_option linter.unusedSectionVars false

namespace Verif.Props

open Verif Verif.Spec Verif.Spec.Newton Polynomial Finset

universe u v w

section
variable {ν : Type w} {n q : Nat} {F : Type u} {K : Type v} [Scalar F] [Field K] [LinearOrder K] [IsStrictOrderedRing K]
  [S : Correct F K]

local prefix:max "♯" => StdModel.val (F := F) (K := K)
local notation "μ" => (StdModel.u (F := F) (K := K))

/-- **C92.** In every history, once a step has been taken: there are nodes `psi`, which lie behind the current time with respect to
the direction of integration, none closer than a quarter of the planned step, and differences `phi` such that for all times `t`
which `get_solution` accepts there is an `x`, equal to `t - t_n` up to one rounding, such that
* the value returned is exactly that at `x` of the interpolating polynomial with slightly different differences (relative
  difference about `(4 k + 2) μ`, `k` the order of the last step),
* the derivative returned differs from that of the interpolating polynomial at `x` by at most about `(5 k + 1) μ` times the sum
  of the absolute values of the terms,
* at the current time the value is `phi 0` without any error. -/
theorem c92_dense_output (cfg : Cfg ν n q F) (hl : OnlyRecoverable cfg) (ho : 1 ≤ cfg.maxord) (hm : 0 ≤ ♯cfg.hmaxInv)
    (hu : 1000 * (μ : K) ≤ 1) (h9 : ♯(Scalar.pt9 : F) ≤ 19 / 20) (s : State ν n q F) (hs : Reach cfg s)
    (hn : 0 < getNumSteps s) :
    ∃ (psi : Nat → K) (phi : Nat → Fin n → K),
      (∀ i, i < getLastOrder s → 0 < psi i * ♯(getCurrentStep s) ∧ |♯(getCurrentStep s)| ≤ 4 * |psi i|) ∧
      ∀ t y yp, solutionAt s t = some (y, yp) →
        (t = getCurrentTime s → ∀ i, ♯(y i) = phi 0 i) ∧
        ∃ x, |x - (♯t - ♯(getCurrentTime s))| ≤ μ * |♯t - ♯(getCurrentTime s)| ∧ ∀ i,
          (∃ phi' : Nat → K, (∀ j, |phi' j - phi j i| ≤ gamma μ (4 * getLastOrder s + 2) * |phi j i|) ∧
            ♯(y i) = (interp psi phi' (getLastOrder s)).eval x) ∧
          |♯(yp i) - (derivative (interp psi (fun j => phi j i) (getLastOrder s))).eval x| ≤
            gamma μ (5 * getLastOrder s + 1) * ∑ j ∈ range (getLastOrder s + 1), absSlope psi j x * |phi j i| := by
  have hI := FlPsi.reach_psi (K := K) hl ho hu h9 hm hs
  have hP := hI.psi hn
  have hk0 : s.c.kused ≠ 0 := fun h => by
    have := hI.ord.kused0.1 h
    have hn : 0 < s.cnt.nst := hn
    omega
  have hne : ∀ i, i < s.c.kused → ♯(s.h.psi i) ≠ 0 := fun i hi => left_ne_zero_of_mul (hP.pos i (by omega)).ne'
  refine ⟨fun i => ♯(s.h.psi i), fun j i => ♯(s.h.phi j i), fun i hi => ?_, fun t y yp h => ?_⟩
  · have hi : i < s.c.kused := hi
    exact ⟨hP.pos i (by omega), hP.lo i (by omega)⟩
  · unfold solutionAt getSolution at h
    by_cases hb : badTime s t = true
    · rw [if_pos hb] at h; cases h
    · rw [if_neg hb] at h
      have hko : kordOf s.c.kused = s.c.kused := by unfold kordOf; rw [if_neg hk0]
      simp only [hko] at h
      by_cases hx : s.c.kused < mxordp1
      · rw [if_pos hx] at h
        simp only [Option.some.injEq, Prod.mk.injEq] at h
        obtain ⟨rfl, rfl⟩ := h
        refine ⟨fun ht i => ?_, ♯(t - s.e.tn), FlInterp.delt_err t s.e.tn, fun i => ?_⟩
        · rw [ht]; exact FlInterp.solEval_now s.h s.e.tn s.c.kused hne i
        · exact ⟨FlInterp.solEval_val s.h _ s.c.kused hne i, FlInterp.solEval_slope s.h _ s.c.kused hne i⟩
      · rw [if_neg hx] at h; cases h

/-- The Newton solver of the crate returns no errors, so the theorem applies to the standard stack. -/
theorem newton_onlyRecoverable {F : Type u} [Scalar F] (P : Problem n q F) (tol : TolControl n F) (fuel : Nat) :
    OnlyRecoverable (Cfg.newton P tol fuel) := by
  rintro e ⟨N, env, m, y0, y, w, tol', c, N', m', ee, h⟩
  exact absurd h (newton_no_error P fuel)

end

/-! ## Witness -/

section witness

/-- A nonlinear solver that solves `y' + y = 0`, or fails recoverably, as the table says. -/
def solveBin (p : ℕ) (l : List Bool) : NlSolver Nat 1 (Bin p) where
  solve N e m _ _ _ _ _ := .ret (N + 1) m (fun i => -(e.yppredict i + e.yypredict i) / (e.cj + 1))
    (if (l[N]?).getD true then .ok () else .error (.ida (.recoverableFail .lSolve)))
  numIters N := N

def solveBinCfg (l : List Bool) : Cfg Nat 1 0 (Bin 52) :=
  { Cfg.std (decayBin 52) (fun _ _ _ => Bin.of 1000) (solveBin 52 l) with hmaxInv := 0 }

theorem solveBin_only (l : List Bool) : OnlyRecoverable (solveBinCfg l) := by
  rintro err ⟨N, e, m, y0, y, w, tol, c, N', m', ee, h⟩
  simp only [solveBinCfg, Cfg.std, solveBin] at h
  injection h with _ _ _ h
  split at h
  · cases h
  · cases h; exact ⟨.lSolve, by simp, rfl⟩

theorem solveBin_run : ((Witness.run (solveBinCfg [true, true, false, true, true, true, false]) 10 10
    (List.replicate 7 (.solve (Bin.of 10) 0 .oneStep)) (State.new 0 (fun _ => 1) (fun _ => -1))).map fun p =>
      decide (getLastOrder p.1 = 2) && decide (getNumSteps p.1 = 7) && decide (p.1.g.atts.length = 9) &&
        (solutionAt p.1 (Bin.of (1 / 300))).isSome) = some true := by decide +kernel

/-- Precision of binary64, seven steps and two failed attempts; the order is two.  The theorem applies, also to the value at
`t = 1/300`, which lies between the last two accepted times. -/
example : ∃ s, Reach (solveBinCfg [true, true, false, true, true, true, false]) s ∧ getLastOrder s = 2 ∧ getNumSteps s = 7 ∧
    s.g.atts.length = 9 ∧ ∃ y yp, solutionAt s (Bin.of (1 / 300)) = some (y, yp) ∧
    ∃ (psi phi : Nat → ℚ) (x : ℚ), psi 0 ≠ 0 ∧ psi 1 ≠ 0 ∧ (y 0).v = (interp psi phi 2).eval x := by
  obtain ⟨s, l, hr, hp⟩ := Witness.run_witness (P := fun (s : State Nat 1 0 (Bin 52)) _ =>
    decide (getLastOrder s = 2) && decide (getNumSteps s = 7) && decide (s.g.atts.length = 9) &&
      (solutionAt s (Bin.of (1 / 300))).isSome) solveBin_run
  simp only [Bool.and_eq_true, decide_eq_true_eq, Option.isSome_iff_exists, Prod.exists] at hp
  obtain ⟨⟨⟨h1, h2⟩, h3⟩, y, yp, h4⟩ := hp
  have hR : Reach (solveBinCfg [true, true, false, true, true, true, false]) s :=
    Witness.run_reach _ (.new 0 _ _ none) hr
  obtain ⟨psi, phi, q1, q2⟩ := c92_dense_output (K := ℚ) _ (solveBin_only _) (by decide)
    (by show (0 : ℚ) ≤ ((0 : Bin 52)).v; decide +kernel) (by show 1000 * ((1 : ℚ) / 2) ^ 52 ≤ 1; norm_num)
    (by show ((Bin.of (9 / 10) : Bin 52)).v ≤ 19 / 20; decide +kernel) s hR (by omega)
  obtain ⟨-, x, -, q3⟩ := q2 _ y yp h4
  obtain ⟨⟨phi', -, q4⟩, -⟩ := q3 0
  rw [h1] at q1 q4
  exact ⟨s, hR, h1, h2, h3, y, yp, h4, psi, phi', x, left_ne_zero_of_mul (q1 0 (by omega)).1.ne',
    left_ne_zero_of_mul (q1 1 (by omega)).1.ne', q4⟩

end witness

end Verif.Props
