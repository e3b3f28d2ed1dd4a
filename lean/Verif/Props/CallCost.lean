import Verif.Proofs.CallCost
import Verif.Props.Solve
import Verif.Props.Cost
import Verif.Proofs.Answers

/-!
# C106: the work of one call

For `Ida<P, Dense, Newton, _>`, any scalar type (in particular floating point), every call of `solve` that returns, in any history
of public calls from `Ida::new`.
-/

set_option autoImplicit false
set_option linter.unusedSectionVars false
set_option linter.unusedVariables false

namespace Verif.Props

open Verif.Spec Verif.Witness

universe u v

section
variable {n q : Nat} {K : Type u} [Scalar K]

/-- In one-step mode a call that returns an error has accepted no step. -/
theorem oneStep_error {ν : Type v} {cfg : Cfg ν n q K} {rf sf : Nat} {s s' : State ν n q K} {tout : K} {e : Err}
    (h : solve cfg rf sf s tout .oneStep = .ret s' (.error e)) (he : e.isStepFailure = true) : s'.cnt.nst = s.cnt.nst := by
  cases solve_ends h with
  | clean h1 hb => have := hb e rfl; rw [he] at this; cases this
  | failed s1 s2 e' h1 h2 h3 h4 =>
    cases solve_outcome h with
    | rejected e h5 h6 h7 => exact congrArg Counters.nst ((firstCall_cnt h6).trans (begun_same s tout .oneStep).2.2.2.cnt)
    | early h5 h6 =>
      have hc : (perfReset (begun s tout .oneStep)).cnt = s.cnt := (begun_same s tout .oneStep).2.2.2.cnt
      cases h6 with
      | close _ _ h2 _ => rw [(rCheck2_frame h2).cnt, hc]
      | root2 _ _ h2 h3 h4 => cases h4
      | root3 _ _ _ h2 _ h3 h4 h5 => cases h5
      | pending _ _ _ _ h2 _ h3 h4 h5 => cases h5
      | stop s1 h2 h3 h4 =>
        have hc1 : s1.cnt = s.cnt := (noRootBefore_frame h2).1.cnt.trans hc
        refine congrArg Counters.nst (Eq.trans ?_ hc1)
        cases stopTest1_cases h3 <;> rfl
    | loop p k hI h5 =>
      have hk : k = 0 := by
        by_contra hc
        have := hI.again (by omega)
        cases this
      subst hk
      cases h5 with
      | pre h6 =>
        obtain ⟨-, h7, -⟩ := preStep_ret h6
        rw [h7, hI.nst]; rfl
      | failed p1 p2 e h6 h7 h8 =>
        obtain ⟨-, h9, -, -⟩ := preStep_pending hI.pending h6
        obtain ⟨-, h10, -⟩ := stepFailed_spec h8
        rw [h10, ((step_quiet h7).2.2 e rfl).1, h9, hI.nst]; rfl
      | post p1 p2 h6 h7 h8 =>
        cases h8 with
        | root s3 _ h9 h10 h11 => cases h11
        | stop s3 h9 h10 h11 => cases stopTest2_cases h10

theorem exec_solve_ret {ν : Type v} {cfg : Cfg ν n q K} {rf sf : Nat} {s s' : State ν n q K} {tout tret : K} {task : Task}
    {r : Except Err Status} (h : exec cfg rf sf s (.solve tout tret task) = some (s', .solved r)) :
    solve cfg rf sf { s with tret := tret } tout task = .ret s' r := by
  unfold exec at h
  simp only at h
  split at h
  · rename_i h1
    cases h
    exact h1
  · cases h

/-- **C106.** A call of `solve` attempts at most ten steps for each step it accepts, and ten more if it gives up.  Each attempt costs
at most one evaluation of the Jacobian and eight of the residual. -/
theorem c106_call (hn : n ≠ 0) (P : Problem n q K) (hP : ResIsFunction P) (tol : TolControl n K) (fuel : Nat)
    (y0 yp0 : Vec n K) (ts : Option K) (s s' : State (Newton (Vec n K)) n q K)
    (h : Later (Cfg.newton P tol fuel) { State.new newton0 y0 yp0 with tstop := ts } s) (rf sf : Nat) (tout tret : K) (task : Task)
    (r : Except Err Status) (he : exec (Cfg.newton P tol fuel) rf sf s (.solve tout tret task) = some (s', .solved r)) :
    getNumJacEvals s' + attempts s ≤ getNumJacEvals s + attempts s' ∧
    getNumResEvals s' + 8 * attempts s ≤ getNumResEvals s + 8 * attempts s' ∧
    attempts s' + 10 * getNumSteps s ≤ attempts s + 10 * getNumSteps s' + (if r.isOk then 0 else 10) := by
  have hr : Reach (Cfg.newton P tol fuel) s := h.reach (.new newton0 y0 yp0 ts)
  have hr' : Reach (Cfg.newton P tol fuel) s' := .call rf sf _ _ hr he
  have hs := exec_solve_ret he
  have hw := workInv_later h
  obtain ⟨h1, f, h2, h3, h4⟩ := solve_spent hn hP (s := { s with tret := tret }) (hw : WorkInv P s) hs
  change _ + 10 * s.cnt.nst ≤ s.g.atts.length + _ at h4
  rw [attempts_count (newton_legal P tol fuel) hr, attempts_count (newton_legal P tol fuel) hr']
  refine ⟨h1.jac, h1.res, ?_⟩
  have hf : 10 * f ≤ if r.isOk then 0 else 10 := by
    rcases Nat.eq_zero_or_pos f with rfl | hp
    · simp
    · obtain ⟨e, rfl, -⟩ := h3 (by omega)
      show 10 * f ≤ 10
      omega
  unfold getNumSteps
  omega

/-- **C106, in numbers.** A call of `solve` attempts at most 5000 steps, evaluates the Jacobian at most 5000 times and the residual at
most 40000 times. -/
theorem c106_in_numbers (hn : n ≠ 0) (P : Problem n q K) (hP : ResIsFunction P) (tol : TolControl n K) (fuel : Nat)
    (y0 yp0 : Vec n K) (ts : Option K) (s s' : State (Newton (Vec n K)) n q K)
    (h : Later (Cfg.newton P tol fuel) { State.new newton0 y0 yp0 with tstop := ts } s) (rf sf : Nat) (tout tret : K) (task : Task)
    (r : Except Err Status) (he : exec (Cfg.newton P tol fuel) rf sf s (.solve tout tret task) = some (s', .solved r)) :
    attempts s' ≤ attempts s + 5000 ∧ getNumJacEvals s' ≤ getNumJacEvals s + 5000 ∧
      getNumResEvals s' ≤ getNumResEvals s + 40000 := by
  obtain ⟨h1, h2, -⟩ := c106_call hn P hP tol fuel y0 yp0 ts s s' h rf sf tout tret task r he
  have hr : Reach (Cfg.newton P tol fuel) s := h.reach (.new newton0 y0 yp0 ts)
  have hr' : Reach (Cfg.newton P tol fuel) s' := .call rf sf _ _ hr he
  have hs := exec_solve_ret he
  have hw := workInv_later h
  obtain ⟨-, f, h3, h4, h5⟩ := solve_spent hn hP (s := { s with tret := tret }) (hw : WorkInv P s) hs
  change _ + 10 * s.cnt.nst ≤ s.g.atts.length + _ at h5
  rw [← attempts_count (newton_legal P tol fuel) hr, ← attempts_count (newton_legal P tol fuel) hr'] at h5
  obtain ⟨k, k1, -, k2, k3⟩ := steps_taken hs
  change _ = s.cnt.nst + k at k1
  have k4 : k ≤ 500 := k2 (by show 0 < 500; omega)
  have k5 : k + f ≤ 500 := by
    rcases Nat.eq_zero_or_pos f with rfl | hp
    · omega
    · by_contra hc
      obtain ⟨e, hr0, hx⟩ := h4 (by omega)
      rcases k3 (by show 0 < 500; omega) (by show k = 500; omega) with ⟨st, h6⟩ | ⟨h6, -⟩
      · rw [hr0] at h6; cases h6
      · rw [hr0] at h6; cases h6; cases hx
  omega

/-- **C106, one step at a time.** In one-step mode the bounds are ten attempts, ten Jacobians and eighty residuals. -/
theorem c106_one_step (hn : n ≠ 0) (P : Problem n q K) (hP : ResIsFunction P) (tol : TolControl n K) (fuel : Nat)
    (y0 yp0 : Vec n K) (ts : Option K) (s s' : State (Newton (Vec n K)) n q K)
    (h : Later (Cfg.newton P tol fuel) { State.new newton0 y0 yp0 with tstop := ts } s) (rf sf : Nat) (tout tret : K)
    (r : Except Err Status) (he : exec (Cfg.newton P tol fuel) rf sf s (.solve tout tret .oneStep) = some (s', .solved r)) :
    attempts s' ≤ attempts s + 10 ∧ getNumJacEvals s' ≤ getNumJacEvals s + 10 ∧
      getNumResEvals s' ≤ getNumResEvals s + 80 := by
  obtain ⟨h1, h2, -⟩ := c106_call hn P hP tol fuel y0 yp0 ts s s' h rf sf tout tret .oneStep r he
  have hr : Reach (Cfg.newton P tol fuel) s := h.reach (.new newton0 y0 yp0 ts)
  have hr' : Reach (Cfg.newton P tol fuel) s' := .call rf sf _ _ hr he
  have hs := exec_solve_ret he
  have hw := workInv_later h
  obtain ⟨-, f, h3, h4, h5⟩ := solve_spent hn hP (s := { s with tret := tret }) (hw : WorkInv P s) hs
  change _ + 10 * s.cnt.nst ≤ s.g.atts.length + _ at h5
  rw [← attempts_count (newton_legal P tol fuel) hr, ← attempts_count (newton_legal P tol fuel) hr'] at h5
  obtain ⟨k, k1, k2, -⟩ := steps_taken hs
  change _ = s.cnt.nst + k at k1
  have k3 := k2 rfl
  have k5 : k + f ≤ 1 := by
    rcases Nat.eq_zero_or_pos f with rfl | hp
    · omega
    · obtain ⟨e, rfl, hx⟩ := h4 (by omega)
      have h9 := oneStep_error (s := { s with tret := tret }) hs hx
      change s'.cnt.nst = s.cnt.nst at h9
      omega
  omega

/-- The output functions call no function of the user. -/
theorem c106_output {ν : Type v} (cfg : Cfg ν n q K) (rf sf : Nat) (s s' : State ν n q K) (op : Op K) (r : Res n K)
    (he : exec cfg rf sf s op = some (s', r)) (hr : ∀ r', r ≠ .solved r') : s'.m.log = s.m.log := by
  unfold exec at he
  cases op with
  | solve tout tret task =>
    simp only at he
    split at he
    · cases he; exact absurd rfl (hr _)
    · cases he
  | getSolution t =>
    simp only at he
    split at he
    · rename_i h1
      cases he
      obtain ⟨-, yy, yp, rfl⟩ := getSolution_frame h1
      rfl
    · cases he
  | getDky t k =>
    simp only at he
    split at he
    · rename_i h1
      cases he
      rw [getDky_state h1]
    · cases he

end

/-! ## Witness -/

/-- The first step of `y' = -y` from a wrong initial derivative: the error test fails twice, and the call evaluates the Jacobian three
times and the residual six times. -/
example : ∃ s s', Later (Cfg.newton decay (.ss (1 / 100) (1 / 100)) 3)
      { (State.new newton0 (fun _ => 1) (fun _ => 0) : State (Newton (Vec 1 ℚ)) 1 0 ℚ) with tstop := none } s ∧
    (∃ r, exec (Cfg.newton decay (.ss (1 / 100) (1 / 100)) 3) 10 10 s (.solve 1000 0 .oneStep) = some (s', .solved r)) ∧
    attempts s' = attempts s + 3 ∧ getNumResEvals s' = getNumResEvals s + 6 ∧ getNumJacEvals s' = getNumJacEvals s + 3 := by
  let s0 : State (Newton (Vec 1 ℚ)) 1 0 ℚ := State.new newton0 (fun _ => 1) (fun _ => 0)
  have hd : ((exec decayCfg 10 10 s0 (.solve 1000 0 .oneStep)).map fun p => decide (attempts p.1 = 3) &&
      (decide (getNumResEvals p.1 = 6) && (decide (getNumJacEvals p.1 = 3) &&
        (match p.2 with | .solved _ => true | _ => false)))) = some true := by decide +kernel
  cases he : exec decayCfg 10 10 s0 (.solve 1000 0 .oneStep) with
  | none => rw [he] at hd; cases hd
  | some p =>
    obtain ⟨s', r⟩ := p
    rw [he] at hd
    simp only [Option.map_some, Option.some.injEq, Bool.and_eq_true, decide_eq_true_eq] at hd
    cases r with
    | solved r => exact ⟨s0, s', .refl, ⟨r, he⟩, hd.1, hd.2.1, hd.2.2.1⟩
    | solution r => cases hd.2.2.2
    | dky r => cases hd.2.2.2

end Verif.Props
