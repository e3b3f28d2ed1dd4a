import Verif.Proofs.CostHist
import Verif.Witness

/-!
# C69: the work done by the solver, and what a call that does not return is doing

For `Ida<P, Dense, Newton, _>`, any scalar type, all histories of public calls from `Ida::new` that have returned.
-/

set_option autoImplicit false
set_option linter.unusedSectionVars false
set_option linter.unusedVariables false

namespace Verif.Props

open Verif.Spec Verif.Witness

universe u v

section
variable {n q : Nat} {K : Type u} [Scalar K]

/-- **C69, the counters agree.** In every history the number of nonlinear iterations is the number of residual evaluations, the
number of linear solver setups is the number of Jacobian evaluations, there are at least as many residual evaluations as
Jacobian evaluations and as attempted steps, and no convergence failure of the nonlinear solver is ever counted. -/
theorem c69_counters_agree (hn : n ≠ 0) (P : Problem n q K) (tol : TolControl n K) (fuel : Nat) (y0 yp0 : Vec n K)
    (ts : Option K) (s : State (Newton (Vec n K)) n q K)
    (h : Later (Cfg.newton P tol fuel) { State.new newton0 y0 yp0 with tstop := ts } s) :
    getNumNonlinSolvIters (Cfg.newton P tol fuel) s = getNumResEvals s ∧
    getNumLinSolvSetups s = getNumJacEvals s ∧
    getNumJacEvals s ≤ getNumResEvals s ∧
    attempts s ≤ getNumResEvals s ∧
    getNumNonlinSolvConvFails s = 0 := by
  have hw := workInv_later h
  have hr : Reach (Cfg.newton P tol fuel) s := h.reach (.new newton0 y0 yp0 ts)
  refine ⟨?_, (hw.setups hn).symm, hw.jac, ?_, ncfn_later h⟩
  · show s.cnt.nni + s.nls.niters = s.m.nre
    rw [nni_later h, hw.niters, Nat.zero_add]
  · rw [attempts_count (newton_legal P tol fuel) hr]; exact hw.res

/-- **C69, the work is bounded by the attempts.** If the residual is a function of its documented arguments, each attempted
step costs at most one evaluation of the Jacobian and at most eight of the residual. -/
theorem c69_work_bounded (hn : n ≠ 0) (P : Problem n q K) (hP : ResIsFunction P) (tol : TolControl n K) (fuel : Nat)
    (y0 yp0 : Vec n K) (ts : Option K) (s : State (Newton (Vec n K)) n q K)
    (h : Later (Cfg.newton P tol fuel) { State.new newton0 y0 yp0 with tstop := ts } s) :
    getNumJacEvals s ≤ attempts s ∧ getNumResEvals s ≤ 8 * attempts s := by
  have hw := workInv_later h
  have hr : Reach (Cfg.newton P tol fuel) s := h.reach (.new newton0 y0 yp0 ts)
  rw [attempts_count (newton_legal P tol fuel) hr]
  exact ⟨hw.pureJac hn hP, hw.pureRes hn hP⟩

/-- **C69, a call that goes on for more than two passes goes on for ever.** The same call, in any history, has the same
outcome (return, panic, or no return) for any number `2 ≤ fuel` of passes the nonlinear solver is allowed. -/
theorem c69_two_passes (hn : n ≠ 0) (P : Problem n q K) (hP : ResIsFunction P) (tol : TolControl n K) (fuel fuel' : Nat)
    (hf : 2 ≤ fuel) (hf' : 2 ≤ fuel') (y0 yp0 : Vec n K) (ts : Option K) (s : State (Newton (Vec n K)) n q K)
    (h : Later (Cfg.newton P tol fuel) { State.new newton0 y0 yp0 with tstop := ts } s) (rf sf : Nat) :
    (∀ tout task, solve (Cfg.newton P tol fuel') rf sf s tout task = solve (Cfg.newton P tol fuel) rf sf s tout task) ∧
    (∀ op, exec (Cfg.newton P tol fuel') rf sf s op = exec (Cfg.newton P tol fuel) rf sf s op) ∧
    Later (Cfg.newton P tol fuel') { State.new newton0 y0 yp0 with tstop := ts } s := by
  have hw := workInv_later h
  refine ⟨fun tout task => ?_, fun op => ?_, ?_⟩
  · rw [solve_fuel hn hP hf' hw, solve_fuel hn hP hf hw]
  · rw [exec_fuel hn hP hf' hw, exec_fuel hn hP hf hw]
  · clear hw
    induction h with
    | refl => exact .refl
    | call rf sf op r h1 he ih =>
      have hw := workInv_later h1
      refine .call rf sf op r ih ?_
      rw [exec_fuel hn hP hf' hw, ← exec_fuel hn hP hf hw]; exact he

/-- **C69, when the nonlinear solver does not return.** From a solver object between two calls, `Newton::solve` never returns
if and only if a pass with a new Jacobian fails at the predicted values, and (unless the Jacobian is evaluated at once) the
pass with the old one fails first. -/
theorem c69_hangs_iff (hn : n ≠ 0) (P : Problem n q K) (hP : ResIsFunction P) (e : Env n K) (tol : K) (w : Vec n K)
    (c : Bool) (N : Newton (Vec n K)) (m : Mem n K) (y : Vec n K) (hN : N.jcur = false) (hm : N.maxiters = 4) :
    (∀ fuel, newtonSolve (idaNLProblem P e) fuel N m vzero y w tol c = .diverge) ↔
    FreshFails P e tol w ∧ (c = false → ∃ N' m' y', newtonAttempt (idaNLProblem P e) vzero tol w false false N m y =
      .done N' m' y' (.error (.nl .convergenceRecover))) := by
  constructor
  · intro h
    refine ⟨newtonSolve_diverge hn hP (le_refl 2) hN hm (h 2), ?_⟩
    rintro rfl
    have h1 := h 1
    unfold newtonSolve newtonOuter at h1
    cases ha : newtonAttempt (idaNLProblem P e) vzero tol w false false N m y with
    | panic => rw [ha] at h1; cases h1
    | diverge => exact absurd ha (Proofs.Newton.attempt_no_diverge _ _ _ _ _ _ _ _ _)
    | done N1 m1 y1 r1 =>
      rw [ha] at h1
      cases r1 with
      | ok u => cases h1
      | error err =>
        obtain ⟨rfl, -⟩ := (newtonAttempt_cost ha).err _ rfl
        exact ⟨_, _, _, rfl⟩
  · rintro ⟨hF, hS⟩ fuel
    unfold newtonSolve
    cases c with
    | true =>
      obtain ⟨N', m', y', h⟩ := hF false N m y hm
      exact outer_hangs hn hP h _ _ _ _ _ rfl
    | false =>
      obtain ⟨N1, m1, y1, h1⟩ := hS rfl
      cases fuel with
      | zero => rfl
      | succ fuel =>
        have hc := newtonAttempt_cost h1
        have hj : N1.jcur = false := by
          have := (hc.err _ rfl).2
          rw [hN] at this
          simpa using this
        unfold newtonOuter
        rw [h1]
        simp only [Err.isConvRecover, if_true, hj, Bool.not_false]
        obtain ⟨N', m', y', h⟩ := hF true N1 m1 y1 (hc.maxiters.trans hm)
        refine outer_hangs hn hP h _ _ _ _ _ ?_
        exact rfl

end

/-! ## Witnesses -/

theorem decay_resIsFunction : ResIsFunction decay := fun _ _ _ _ _ => rfl

/-- A history in which one attempt needs several residual evaluations and not every attempt evaluates the Jacobian; the
hypotheses of `c69_counters_agree` and `c69_work_bounded` are met. -/
example : ∃ s, Later (Cfg.newton decay (.ss (1 / 100) (1 / 100)) 3)
      { (State.new newton0 (fun _ => 1) (fun _ => -1) : State (Newton (Vec 1 ℚ)) 1 0 ℚ) with tstop := none } s ∧
    0 < getNumJacEvals s ∧ getNumJacEvals s < attempts s ∧ attempts s < getNumResEvals s := by
  have hd : ((run decayCfg 10 10 (steps 6) decay0).map fun p => decide (0 < getNumJacEvals p.1) &&
      (decide (getNumJacEvals p.1 < attempts p.1) && decide (attempts p.1 < getNumResEvals p.1))) = some true := by decide +kernel
  obtain ⟨s, l, hr, hp⟩ := run_witness (P := fun (s : State (Newton (Vec 1 ℚ)) 1 0 ℚ) (_ : List (Res 1 ℚ)) =>
      decide (0 < getNumJacEvals s) &&
      (decide (getNumJacEvals s < attempts s) && decide (attempts s < getNumResEvals s))) hd
  simp only [Bool.and_eq_true, decide_eq_true_eq] at hp
  have key : ∀ (ops : List (Op ℚ)) (s1 s2 : State (Newton (Vec 1 ℚ)) 1 0 ℚ) (l : List (Res 1 ℚ)),
      Later decayCfg decay0 s1 → run decayCfg 10 10 ops s1 = some (s2, l) → Later decayCfg decay0 s2 := by
    intro ops
    induction ops with
    | nil => intro s1 s2 l h1 h2; cases h2; exact h1
    | cons op ops ih =>
      intro s1 s2 l h1 h2
      unfold run at h2
      split at h2
      · cases h2
      · rename_i s3 r h3
        cases h4 : run decayCfg 10 10 ops s3 with
        | none => rw [h4] at h2; cases h2
        | some p =>
          rw [h4] at h2
          simp only [Option.map_some, Option.some.injEq, Prod.mk.injEq] at h2
          obtain ⟨rfl, -⟩ := h2
          exact ih s3 p.1 p.2 (.call 10 10 op r h1 h3) h4
  exact ⟨s, key _ _ _ _ .refl hr, hp.1, hp.2.1, hp.2.2⟩

/-- `y' + y = 0` with a Jacobian of the wrong sign. -/
def wrongSign : Problem 1 0 ℚ := { decay with jac := fun _ cj _ _ _ _ _ _ => -(cj + 1) }

/-- The first call of `solve` from `y(0) = 1`, `y'(0) = 0` never returns. -/
theorem c69_wrong_jacobian_hangs (fuel : Nat) (hf : 2 ≤ fuel) :
    solve (Cfg.newton wrongSign (.ss (1 / 1000) (1 / 1000)) fuel) 10 600
      { (State.new newton0 (fun _ => 1) (fun _ => 0) : State (Newton (Vec 1 ℚ)) 1 0 ℚ) with tstop := none } 1 .oneStep =
    .diverge := by
  have h2 : (match solve (Cfg.newton wrongSign (.ss (1 / 1000) (1 / 1000)) 2) 10 600
      { (State.new newton0 (fun _ => 1) (fun _ => 0) : State (Newton (Vec 1 ℚ)) 1 0 ℚ) with tstop := none } 1 .oneStep with
      | .diverge => true
      | _ => false) = true := by decide +kernel
  rw [(c69_two_passes (by decide) wrongSign (fun _ _ _ _ _ => rfl) (.ss (1 / 1000) (1 / 1000)) 2 fuel (le_refl _) hf _ _ none
    _ .refl 10 600).1 1 .oneStep]
  split at h2
  · assumption
  · cases h2

end Verif.Props
