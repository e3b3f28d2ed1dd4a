import Verif.Proofs.FlPsi
import Verif.Proofs.AttOrd
import Verif.Props.FlControl
import Verif.Props.FlInterp
import Verif.Props.RoundNorm

/-!
# The formula of a step in floating-point arithmetic (C93)

`F` is any correctly rounded floating-point arithmetic (`Spec/Correct.lean`), `♯a` is the number `a` represents and `μ` the unit
roundoff.  `s.g.atts` is the list of all attempts of steps.
-/

set_option autoImplicit false
set_option linter.unusedSectionVars false

namespace Verif.Props

open Verif Verif.Spec Verif.Proofs Finset

universe u v w

section
variable {ν : Type w} {n q : Nat} {F : Type u} {K : Type v} [Scalar F] [Field K] [LinearOrder K] [IsStrictOrderedRing K]
  [S : Correct F K]

local prefix:max "♯" => StdModel.val (F := F) (K := K)
local notation "μ" => (StdModel.u (F := F) (K := K))

/-- **C93, formula.** In every history, for every attempt of a step (failed or not) of order `k` and size `h`: the coefficient
`cj`, which the user's Jacobian function is given, is `(1 + 1/2 + ... + 1/k) / h` up to `k + 3` roundings; the value is the predicted
value plus the correction, up to one rounding; the derivative is the predicted one plus `(1 + 1/2 + ... + 1/k) / h` times the
correction, up to `k + 5` roundings. -/
theorem c93_formula (cfg : Cfg ν n q F) (hl : NlsLegal cfg) (ho : 1 ≤ cfg.maxord) (hm : 0 ≤ ♯cfg.hmaxInv) (s : State ν n q F)
    (hs : Reach cfg s) (x : Att n F) (hx : x ∈ s.g.atts) :
    ♯x.hh ≠ 0 ∧
    |♯x.cj * ♯x.hh - ∑ i ∈ range x.kk, ((i : K) + 1)⁻¹| ≤ gamma μ (x.kk + 3) * ∑ i ∈ range x.kk, ((i : K) + 1)⁻¹ ∧
    (∀ i, |♯(x.yy i) - (♯(x.pred i) + ♯(x.ee i))| ≤ μ * |♯(x.pred i) + ♯(x.ee i)|) ∧
    ∀ i, |♯(x.yp i) - (♯(x.predp i) + (∑ j ∈ range x.kk, ((j : K) + 1)⁻¹) / ♯x.hh * ♯(x.ee i))| ≤
      μ * |♯(x.predp i)| + gamma μ (x.kk + 5) * |(∑ j ∈ range x.kk, ((j : K) + 1)⁻¹) / ♯x.hh * ♯(x.ee i)| := by
  have U0 := u0 (F := F) (K := K); have U1 := u1 (F := F) (K := K)
  have h0 : ♯x.hh ≠ 0 := ((FlControl.reach_ctl (K := K) hl hm hs).atts x hx).1
  have hk := (hs.attOrd hl ho x hx).1
  have hcj : ∀ x ∈ s.g.atts, ∃ al : Nat → F, x.cj = -(alphaSums al x.kk).1 / x.hh := by
    refine (hs.ghost (fun g => ∀ x ∈ g.atts, ∃ al : Nat → F, x.cj = -(alphaSums al x.kk).1 / x.hh) (fun x hx => by cases hx) ?_ ?_).1
    · intro s t0 ee r out hI _ _ x hx
      rcases List.mem_cons.1 hx with rfl | hx
      · exact ⟨_, rfl⟩
      · exact hI x hx
    · intro s t0 ee hI _ _ _ x hx
      rcases List.mem_cons.1 hx with rfl | hx
      · exact ⟨_, rfl⟩
      · exact hI x hx
  obtain ⟨al, hal⟩ := hcj x hx
  obtain ⟨e1, e2⟩ := hs.linked.yy x hx
  refine ⟨h0, ?_, fun i => ?_, fun i => ?_⟩
  · rw [hal]; exact FlCoef.lead_val al x.kk x.hh h0
  · rw [e1]
    show |♯(x.pred i + x.ee i) - _| ≤ _
    obtain ⟨d, hd, e⟩ := StdModel.val_add (K := K) (x.pred i) (x.ee i)
    rw [e, show (♯(x.pred i) + ♯(x.ee i)) * (1 + d) - (♯(x.pred i) + ♯(x.ee i)) = d * (♯(x.pred i) + ♯(x.ee i)) by ring, abs_mul]
    exact mul_le_mul_of_nonneg_right hd (abs_nonneg _)
  · rw [e2]
    show |♯(x.predp i + x.cj * x.ee i) - _| ≤ _
    obtain ⟨c, hc, e3⟩ := FlCoef.lead_fac (K := K) al x.kk hk x.hh h0
    rw [← hal] at e3
    obtain ⟨a1, h1, e4⟩ := fl_mul x.cj (x.ee i)
    obtain ⟨d, hd, e⟩ := StdModel.val_add (K := K) (x.predp i) (x.cj * x.ee i)
    have hd1 : Fac μ 1 (1 + d) := .ofErr U0 U1 hd
    rw [e, e4, e3]
    set H := (∑ j ∈ range x.kk, ((j : K) + 1)⁻¹) / ♯x.hh
    have hF : Fac μ (x.kk + 5) (c * a1 * (1 + d)) := ((hc.mul U0 U1 h1).mul U0 U1 hd1).mono U0 U1 (by omega)
    rw [show (♯(x.predp i) + H * c * ♯(x.ee i) * a1) * (1 + d) - (♯(x.predp i) + H * ♯(x.ee i)) =
      d * ♯(x.predp i) + (c * a1 * (1 + d) - 1) * (H * ♯(x.ee i)) by ring]
    refine (abs_add_le _ _).trans (add_le_add ?_ ?_)
    · rw [abs_mul]; exact mul_le_mul_of_nonneg_right hd (abs_nonneg _)
    · rw [abs_mul]; exact mul_le_mul_of_nonneg_right (hF.err U0 U1) (abs_nonneg _)

/-- **C93, error test.** The coefficient of the error test is positive and at most six, in every history.  So the test is never void,
and a step is rejected by it only if the mean square of the weighted correction is more than 1/36 (up to `n + 9` roundings). -/
theorem c93_error_constant (cfg : Cfg ν n q F) (hl : OnlyRecoverable cfg) (ho : 1 ≤ cfg.maxord) (hm : 0 ≤ ♯cfg.hmaxInv)
    (hu : 1000 * (μ : K) ≤ 1) (h9 : ♯(Scalar.pt9 : F) ≤ 19 / 20) (s : State ν n q F) (hs : Reach cfg s) (x : Att n F)
    (hx : x ∈ s.g.atts) :
    0 < ♯x.ck ∧ ♯x.ck ≤ 6 ∧
    (0 < n → cfg.suppressalg = false → x.out = .testFail →
      (1 - μ) ^ (n + 9) < 36 * ((∑ i, (♯(x.ee i) * ♯(x.ewt i)) ^ 2) / n)) := by
  obtain ⟨h1, h2⟩ := (FlPsi.reach_psi (K := K) hl ho hu h9 hm hs).atts x hx
  refine ⟨h1, h2, fun hn hid hout => ?_⟩
  refine lt_of_lt_of_le ((c81_error_test cfg s hs hn hid x hx h1.le).2 hout) ?_
  have hM : (0 : K) ≤ (∑ i, (♯(x.ee i) * ♯(x.ewt i)) ^ 2) / n :=
    div_nonneg (sum_nonneg fun i _ => sq_nonneg _) (Nat.cast_nonneg _)
  refine mul_le_mul_of_nonneg_right ?_ hM
  nlinarith

end

/-! ## Witness -/

section witness

/-- The history of the witness of C92, with two failed attempts and order two, in the precision of binary64. -/
example : ∃ s, Reach (solveBinCfg [true, true, false, true, true, true, false]) s ∧ ∃ x ∈ s.g.atts, x.kk = 2 ∧ 0 < x.ck.v ∧
    |x.cj.v * x.hh.v - 3 / 2| ≤ gamma ((1 / 2) ^ 52) 5 * (3 / 2) := by
  have hd : ((Witness.run (solveBinCfg [true, true, false, true, true, true, false]) 10 10
      (List.replicate 7 (.solve (Bin.of 10) 0 .oneStep)) (State.new 0 (fun _ => 1) (fun _ => -1))).map fun p =>
      p.1.g.atts.any fun x => decide (x.kk = 2)) = some true := by decide +kernel
  obtain ⟨s, l, hr, hp⟩ := Witness.run_witness (P := fun (s : State Nat 1 0 (Bin 52)) _ =>
    s.g.atts.any fun x => decide (x.kk = 2)) hd
  simp only [List.any_eq_true, decide_eq_true_eq] at hp
  obtain ⟨x, hx, hk⟩ := hp
  have hR : Reach (solveBinCfg [true, true, false, true, true, true, false]) s :=
    Witness.run_reach _ (.new 0 _ _ none) hr
  have hm : (0 : ℚ) ≤ ((0 : Bin 52)).v := by decide +kernel
  obtain ⟨-, h1, -⟩ := c93_formula (K := ℚ) _ (solveBin_only _).legal (by decide) hm s hR x hx
  obtain ⟨h2, -⟩ := c93_error_constant (K := ℚ) _ (solveBin_only _) (by decide) hm
    (by show 1000 * ((1 : ℚ) / 2) ^ 52 ≤ 1; norm_num)
    (by show ((Bin.of (9 / 10) : Bin 52)).v ≤ 19 / 20; decide +kernel) s hR x hx
  rw [hk, show ∑ i ∈ range 2, ((i : ℚ) + 1)⁻¹ = 3 / 2 by norm_num [sum_range_succ]] at h1
  exact ⟨s, hR, x, hx, hk, h2, h1⟩

end witness

end Verif.Props
