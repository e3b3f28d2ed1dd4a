import Verif.Proofs.Converge
import Verif.Props.Norm
import Verif.Props.Returns
import Verif.RealInst

/-!
# The nonlinear iteration ends by the convergence test (C68)

How good is the solution of the nonlinear system of a step?  The iteration stops at the first update that passes a test with
an estimated rate of convergence.  The first theorem says that this is so in every history, for every scalar type, with the
constants of the code.  The second one says what the test is worth.
-/

set_option autoImplicit false
set_option linter.unusedSectionVars false
set_option linter.unusedSimpArgs false
set_option linter.unusedVariables false

namespace Verif.Props

open Verif Verif.Spec Verif.Witness

universe u

/-- **C68, the test.**  In every history of an object with Newton's method: the calls of the user's functions are those of
iterations which go on while the test of `Spec.convTest` says so, with the tolerance `0.33` (and `0.33e-8` for an update that
is accepted at once), and every attempted step uses the sum of the updates of an iteration whose last update passed. -/
theorem c68_convergence_test {n q : Nat} {K : Type u} [Scalar K] (hn : 0 < n) (P : Problem n q K) (tol : TolControl n K)
    (fuel : Nat) (s : State (Newton (Vec n K)) n q K) (h : Reach (Cfg.newton P tol fuel) s) :
    ConvStory (Scalar.pt0001 * Scalar.epcon) Scalar.epcon s.m.log s.g.atts s.m.ss :=
  (convInv_reach (Nat.pos_iff_ne_zero.1 hn) h).told

section
variable {n q : Nat} {K : Type u} [Field K] [LinearOrder K] [IsStrictOrderedRing K] [ExactParams K] [ExactLaws K]

/-- The factors that can occur. -/
def GoodFactor (S : K) : Prop := -1 < S ∧ S ≤ 100

theorem good_rate {r : K} (h : r ≤ 9 / 10) : GoodFactor (r / (1 - r)) := by
  have h1 : 0 < 1 - r := by linarith
  constructor
  · rw [lt_div_iff₀ h1]; linarith
  · rw [div_le_iff₀ h1]; linarith

theorem convTest_good {w : Vec n K} {S : K} (hS : GoodFactor S) (ds : List (Vec n K)) (d : Vec n K) :
    GoodFactor (convTest w (1 / 10000 * (33 / 100)) (33 / 100) S ds d).1 ∧
    ((convTest w (1 / 10000 * (33 / 100)) (33 / 100) S ds d).2 = some true →
      (convTest w (1 / 10000 * (33 / 100)) (33 / 100) S ds d).1 * normWrms d w ≤ 33 / 100) := by
  have h0 : 0 ≤ normWrms d w := (c12_norm_formula d w).1
  unfold convTest
  cases ds with
  | nil =>
    refine ⟨hS, fun h => ?_⟩
    simp only [Option.some.injEq, Bool.or_eq_true, ex_le, decide_eq_true_eq, ex_pt0001] at h
    rcases h with h | h
    · refine (mul_le_mul_of_nonneg_right hS.2 h0).trans ?_
      have h1 : normWrms d w ≤ 1 / 1000 := h.trans (by norm_num)
      linarith
    · exact h
  | cons d0 t =>
    simp only [Scalar.gt, ex_lt, ex_le, decide_eq_true_eq, ex_pt9]
    split
    · exact ⟨hS, by simp⟩
    · rename_i h
      refine ⟨good_rate (not_lt.1 h), fun h2 => ?_⟩
      simpa using h2

/-- What is known of the factor. -/
def GoodAt (x : Att n K) : ConvAt n K → Prop
  | .residual _ S => GoodFactor S
  | .tested ds S v => GoodFactor S ∧ ∃ ds' d, ds = ds' ++ [d] ∧ (v = some true → S * normWrms d x.ewt ≤ 33 / 100)

theorem convCalls_good {x : Att n K} {S0 : K} (h0 : GoodFactor S0) {l : List (UCall n K)} {p : ConvAt n K}
    (h : ConvCalls x (1 / 10000 * (33 / 100)) (33 / 100) S0 l p) : GoodAt x p := by
  induction h with
  | start => exact h0
  | jac calls S F _ ih => exact ⟨by norm_num, by norm_num⟩
  | update calls ds S d _ ih => exact ⟨(convTest_good ih ds d).1, ds, d, rfl, (convTest_good ih ds d).2⟩
  | next calls ds S _ ih => exact ih.1
  | restart calls ds S v _ _ ih => exact ih.1

theorem convStory_good {l : List (UCall n K)} {a : List (Att n K)} {S : K}
    (h : ConvStory (1 / 10000 * (33 / 100)) (33 / 100) l a S) :
    (a ≠ [] → GoodFactor S) ∧ ∀ x ∈ a, ∃ ds d F, x.ee = corr (ds ++ [d]) ∧ GoodFactor F ∧ F * normWrms d x.ewt ≤ 33 / 100 := by
  induction h with
  | new S => exact ⟨fun h => absurd rfl h, by simp⟩
  | root t y yp l a S _ ih => exact ih
  | attempt x calls l a S S' ds _ hc he ih =>
    have hs : GoodFactor (startFactor x.cj a S) := by
      unfold startFactor
      split
      · exact ⟨by norm_num, by norm_num⟩
      · split
        · exact ⟨by norm_num, by norm_num⟩
        · exact ih.1 (by simp)
    obtain ⟨h1, ds', d, h2, h3⟩ := convCalls_good hs hc
    refine ⟨fun _ => h1, fun y hy => ?_⟩
    rcases List.mem_cons.1 hy with rfl | hy
    · exact ⟨ds', d, S', by rw [he, h2], h1, h3 rfl⟩
    · exact ih.2 y hy

theorem normWrms_neg (x w : Vec n K) : normWrms (fun i => -x i) w = normWrms x w := by
  have := c12_norm_homogeneous (-1) x w
  simpa using this

/-- **C68, what the test is worth.**  For every attempted step in every history there are a last update `d` and a factor `F`,
with `F ‖d‖ ≤ 0.33`, such that for every possible solution `c` of the nonlinear system: if the last update has brought the
iteration closer to `c` at least by the factor `F/(1 + F)` (which is the estimated rate of convergence), then the correction
used is within `0.33` of `c`, in the norm of the error test (in which 1 is the error tolerated). -/
theorem c68_iteration_error (hn : 0 < n) (P : Problem n q K) (tol : TolControl n K) (fuel : Nat)
    (s : State (Newton (Vec n K)) n q K) (h : Reach (Cfg.newton P tol fuel) s) (x : Att n K) (hx : x ∈ s.g.atts) :
    ∃ (ds : List (Vec n K)) (d : Vec n K) (F : K), x.ee = corr (ds ++ [d]) ∧ -1 < F ∧ F ≤ 100 ∧
      F * normWrms d x.ewt ≤ 33 / 100 ∧
      ∀ c : Vec n K, normWrms (fun i => x.ee i - c i) x.ewt ≤ F / (1 + F) * normWrms (fun i => corr ds i - c i) x.ewt →
        normWrms (fun i => x.ee i - c i) x.ewt ≤ 33 / 100 := by
  obtain ⟨ds, d, F, h1, h2, h3⟩ := (convStory_good (c68_convergence_test hn P tol fuel s h)).2 x hx
  refine ⟨ds, d, F, h1, h2.1, h2.2, h3, fun c hc => ?_⟩
  have hF : 0 < 1 + F := by linarith [h2.1]
  have e1 : (fun i => corr ds i - c i) = fun i => (x.ee i - c i) + -d i := by
    funext i
    rw [h1, corr_append]
    show _ = corr ds i + d i - c i + -d i
    ring
  have h4 : normWrms (fun i => corr ds i - c i) x.ewt ≤ normWrms (fun i => x.ee i - c i) x.ewt + normWrms d x.ewt := by
    rw [e1, ← normWrms_neg d]
    exact c12_norm_triangle _ _ _
  have h0 : 0 ≤ normWrms (fun i => x.ee i - c i) x.ewt := (c12_norm_formula _ _).1
  have h5 : 0 ≤ normWrms (fun i => corr ds i - c i) x.ewt := (c12_norm_formula _ _).1
  rw [div_mul_eq_mul_div, le_div_iff₀ hF] at hc
  rcases le_or_gt 0 F with hp | hp
  · have := mul_le_mul_of_nonneg_left h4 hp
    nlinarith
  · have : normWrms (fun i => x.ee i - c i) x.ewt * (1 + F) ≤ 0 := hc.trans (mul_nonpos_of_nonpos_of_nonneg hp.le h5)
    have h6 : normWrms (fun i => x.ee i - c i) x.ewt ≤ 0 := by
      by_contra h7
      have := mul_pos (not_le.1 h7) hF
      linarith
    linarith

end

/-! ## The hypotheses can be met -/

/-- Six steps of `y' + y = 0` (rational arithmetic), some of them with more than one update. -/
example : ∃ s, Reach decayCfg s ∧ 6 ≤ s.g.atts.length ∧ s.g.atts.length < s.m.log.countP UCall.isRes ∧
    ConvStory (1 / 10000 * (33 / 100)) (33 / 100) s.m.log s.g.atts s.m.ss := by
  have hd : ((run decayCfg 10 10 (steps 6) decay0).map fun p => decide (6 ≤ p.1.g.atts.length) &&
      decide (p.1.g.atts.length < p.1.m.log.countP UCall.isRes)) = some true := by
    decide +kernel
  obtain ⟨s, l, hr, hp⟩ := run_witness (P := fun (s : State (Newton (Vec 1 ℚ)) 1 0 ℚ) (_ : List (Res 1 ℚ)) =>
    decide (6 ≤ s.g.atts.length) && decide (s.g.atts.length < s.m.log.countP UCall.isRes)) hd
  simp only [Bool.and_eq_true, decide_eq_true_eq] at hp
  have hR := run_reach _ (.new newton0 (fun _ => 1) (fun _ => -1) none) hr
  exact ⟨s, hR, hp.1, hp.2, c68_convergence_test (by decide) _ _ _ s hR⟩

/-- `y' + y = 0` over the real numbers. -/
def realDecay : Problem 1 0 ℝ where
  res _ y yp _ := fun i => yp i + y i
  jac _ cj _ _ _ _ := fun _ _ => cj + 1
  root _ _ _ b := b

/-- The standard stack for it. -/
noncomputable def realCfg : Cfg (Newton (Vec 1 ℝ)) 1 0 ℝ := Cfg.newton realDecay (.ss (1 / 100) (1 / 100)) 3

theorem realDecay_linear : LinearProblem realDecay 1 1 (fun _ _ => 0) := by
  refine ⟨fun t y yp buf i => ?_, fun t cj y yp r i j => ?_⟩
  · show yp i + y i = _
    simp only [Fin.sum_univ_one, Matrix.one_apply, Subsingleton.elim i 0, if_true]
    ring
  · show cj + 1 = _
    simp only [Matrix.one_apply, Subsingleton.elim i 0, Subsingleton.elim j 0, if_true]
    ring

theorem step_atts {ν : Type*} {n q : Nat} {K : Type u} [Scalar K] {cfg : Cfg ν n q K} {s s' : State ν n q K}
    {r : Except Err Unit} (h : step cfg s = .ret s' r) : s'.g.atts ≠ [] := by
  have key : ∀ {s1 s2 : State ν n q K}, Attempted cfg s1 s2 → s2.g.atts ≠ [] := by
    intro s1 s2 hA
    obtain ⟨t0, m1, ee, r, out, -, -, e3, -⟩ := hA
    rw [e3]; simp
  have := step_rule (cfg := cfg) (fun _ _ => True) (fun s1 => s1.g.atts ≠ []) (fun s1 _ => s1.g.atts ≠ []) trivial
    (fun _ _ _ _ _ _ => trivial)
    (fun s1 f s2 ck a b s' _ h hc => by
      have hC := completeStep_eq hc
      show s'.g.atts ≠ []
      rw [hC.g]; exact key (attempt_done_attempted h))
    (fun s1 f s' e _ h => key (attempt_fail_attempted h)) h
  rcases this with ⟨-, h⟩ | ⟨e, -, h⟩ <;> exact h

/-- Over the real numbers: a history with an attempted step. -/
theorem real_attempt : ∃ s, Reach realCfg s ∧ s.g.atts ≠ [] := by
  have hR0 : Reach realCfg { (State.new newton0 (fun _ => 1) (fun _ => -1) : State (Newton (Vec 1 ℝ)) 1 0 ℝ) with tstop := none } :=
    .new newton0 (fun _ => 1) (fun _ => -1) none
  obtain ⟨rf0, h⟩ := c67_linear_returns (K := ℝ) (by decide) Real.sqrt_zero (Real.zero_rpow one_ne_zero) realDecay 1 1 _
    realDecay_linear (.ss (1 / 100) (1 / 100)) 3 (by decide) (fun _ => 1) (fun _ => -1) none _ .refl 1 0 .oneStep
    (fun cj hc => by
      rw [Matrix.det_fin_one]
      show (1 : Matrix (Fin 1) (Fin 1) ℝ) 0 0 + cj * (1 : Matrix (Fin 1) (Fin 1) ℝ) 0 0 ≠ 0
      simp only [Matrix.one_apply, if_true]
      have : (0 : ℝ) < (1 - 0) * cj := hc
      linarith)
  obtain ⟨s', r, h1⟩ := h rf0 (le_refl _) 501 (by decide)
  have hR : Reach realCfg s' := .call rf0 501 _ _ hR0 h1
  refine ⟨s', hR, ?_⟩
  simp only [exec] at h1
  split at h1
  · rename_i s2 r2 h2
    cases h1
    obtain ⟨s0, hF, -, hE⟩ := solve_first rfl h2
    have htn : (initialSetup (Cfg.newton realDecay (.ss (1 / 100) (1 / 100)) 3) s0).e.tn = 0 := by
      rw [(initialSetup_same _ _).tn, hF.e]; rfl
    have hphi : s0.h.phi 0 = (fun _ => 1 : Vec 1 ℝ) := by rw [hF.h]; rfl
    have hts : (initialSetup (Cfg.newton realDecay (.ss (1 / 100) (1 / 100)) 3) s0).tstop = none := by
      rw [show (initialSetup (Cfg.newton realDecay (.ss (1 / 100) (1 / 100)) 3) s0).tstop = s0.tstop by
        unfold initialSetup; split <;> rfl, hF.tstop]
    cases hE with
    | rejected e g1 g2 =>
      exfalso
      rcases firstCall_cases g1 with ⟨h3, -, -⟩ | ⟨h3, -, -⟩ | ⟨hh, -, -, -, ⟨h3, -, -⟩ | ⟨s1, -, -, h3⟩⟩
      · unfold tooClose at h3
        rw [htn] at h3
        norm_num [ExactParams.eps] at h3
      · unfold wrongWay at h3
        have : (Cfg.newton realDecay (.ss (1 / 100) (1 / 100)) 3).hin = 0 := rfl
        rw [this] at h3
        norm_num at h3
      · unfold firstStop at h3
        rw [show ({ initialSetup (Cfg.newton realDecay (.ss (1 / 100) (1 / 100)) 3) s0 with c.hh := hh } :
          State (Newton (Vec 1 ℝ)) 1 0 ℝ).tstop = none from hts] at h3
        cases h3
      · cases h3
    | noStep s1 e g1 g2 g3 g4 g5 =>
      exfalso
      rcases firstCall_cases g1 with ⟨-, -, h3⟩ | ⟨-, -, h3⟩ | ⟨hh, -, -, -, ⟨-, -, h3⟩ | ⟨s2, h3, h4, -⟩⟩
      · cases h3
      · cases h3
      · cases h3
      unfold firstStop at h3
      rw [show ({ initialSetup (Cfg.newton realDecay (.ss (1 / 100) (1 / 100)) 3) s0 with c.hh := hh } :
          State (Newton (Vec 1 ℝ)) 1 0 ℝ).tstop = none from hts] at h3
      cases h3
      have hsd : s0.setupDone = false := by rw [hF.setupDone]; rfl
      have e1 : s1.h.phi 0 = (fun _ => 1 : Vec 1 ℝ) := by
        rw [h4, ← hphi]
        unfold initialSetup
        rw [hsd]
        rfl
      have e2 : s1.e.ewt = (fun _ => 50 : Vec 1 ℝ) := by
        rw [h4]
        unfold initialSetup
        rw [hsd]
        show (TolControl.ss (1 / 100) (1 / 100) : TolControl 1 ℝ).ewtSet (s0.h.phi 0) = _
        rw [hphi]
        funext i
        norm_num [TolControl.ewtSet]
      have e3 : wrmsNorm (Cfg.newton realDecay (.ss (1 / 100) (1 / 100)) 3).id (s1.h.phi 0) s1.e.ewt
          (Cfg.newton realDecay (.ss (1 / 100) (1 / 100)) 3).suppressalg = normWrms (fun _ => 1 : Vec 1 ℝ) (fun _ => 50) := by
        rw [e1, e2]; rfl
      rw [e3] at g5
      obtain ⟨k1, k2⟩ := c12_norm_formula (fun _ => 1 : Vec 1 ℝ) (fun _ => 50)
      simp only [Scalar.gt, ex_lt, decide_eq_true_eq, ex_eps, ExactParams.eps] at g5
      norm_num at k2
      nlinarith
    | failed s1 s2 s3 e g1 g2 g3 g4 g5 =>
      rw [g4.g]; exact step_atts g3
    | stepped s1 s2 s3 g1 g2 g3 g4 =>
      cases g4 with
      | clean h3 _ =>
        have hn := micros_nst_pos h3 (step_nst g3)
        exact (Reach.logInv2 (I := fun _ _ => True) (fun _ _ _ _ _ _ _ _ => trivial) (fun _ _ _ _ _ => trivial)
          (fun _ _ _ => trivial) hR).2 hn
      | failed s4 s5 e h3 h4 h5 _ =>
        rw [h5.g]
        cases h4 with
        | firstStep _ _ _ _ _ h => exact step_atts h
        | step _ _ _ h _ => exact step_atts h
  · cases h1

/-- The second theorem applies to it. -/
example : ∃ s x, Reach realCfg s ∧ x ∈ s.g.atts ∧ ∃ (ds : List (Vec 1 ℝ)) (d : Vec 1 ℝ) (F : ℝ), x.ee = corr (ds ++ [d]) ∧
    F * normWrms d x.ewt ≤ 33 / 100 := by
  obtain ⟨s, h1, h2⟩ := real_attempt
  obtain ⟨x, l, h3⟩ := List.exists_cons_of_ne_nil h2
  have hx : x ∈ s.g.atts := by rw [h3]; exact List.mem_cons_self
  obtain ⟨ds, d, F, g1, -, -, g2, -⟩ := c68_iteration_error (by decide) realDecay _ 3 s h1 x hx
  exact ⟨s, x, h1, hx, ds, d, F, g1, g2⟩

end Verif.Props
