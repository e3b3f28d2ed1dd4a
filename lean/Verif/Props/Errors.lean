import Verif.Proofs.Errors
import Verif.Proofs.Nls
import Verif.Props.FlRoot

/-! # C91: every error returned by `solve` has a definite cause -/

set_option autoImplicit false
set_option linter.unusedSectionVars false
set_option linter.unusedSimpArgs false
set_option linter.unusedVariables false

namespace Verif.Props

open Verif Verif.Spec

universe u v

section
variable {ν : Type v} {n q : Nat} {K : Type u} [Scalar K]

/-- **C91.** In any arithmetic, for every problem, every nonlinear solver that only returns errors it is allowed to return, and
every state: if a call of `solve` returns an error then the situation that error stands for was present. The input errors
name the violated requirement, the step errors the attempts that failed and how often, `CloseRoots` the two times at which a
component was seen to be zero. -/
theorem c91_error_cause (cfg : Cfg ν n q K) (hl : NlsLegal cfg) (rf sf : Nat) (s s' : State ν n q K) (tout tret : K)
    (task : Task) (e : Err) (h : exec cfg rf sf s (.solve tout tret task) = some (s', .solved (.error e))) :
    Cause cfg s s' tout task e := by
  unfold exec at h
  simp only at h
  split at h
  · rename_i s1 r h1
    cases h
    cases solve_cause hl h1 with
    | tooClose a b c => exact .tooClose a b c
    | wrongWay a b c d => exact .wrongWay a b c d
    | stopNotAhead ts a b c d => exact .stopNotAhead ts a b c d
    | stepLimit a b c => exact .stepLimit a b c
    | weight i w a b c d => exact .weight i w a b c d
    | accuracy a b => exact .accuracy a b
    | closeRoots i j t' x y a b c d e f g k => exact .closeRoots i j t' x y a b c d e f g k
    | past a b c d => exact .past a b c d
    | stopPast ts a b c d => exact .stopPast ts a b c d
    | stopBefore ts e a b c d f => exact .stopBefore ts e a b c d f
    | step a l l' e x y z => exact .step a l l' e x y z
  · cases h

/-- The errors `solve` can return at all. -/
theorem c91_error_kinds (cfg : Cfg ν n q K) (hl : NlsLegal cfg) (rf sf : Nat) (s s' : State ν n q K) (tout tret : K)
    (task : Task) (e : Err) (h : exec cfg rf sf s (.solve tout tret task) = some (s', .solved (.error e))) :
    e = .ida .illegalInput ∨ e = .ida .tooMuchAccuracy ∨ e = .ida .badTimeValue ∨ e = .ida .badStopTime ∨
    e = .ida .closeRoots ∨ e = .ida .residualFail ∨ e = .ida .convergenceFail ∨ ∀ x, e ≠ .ida x := by
  cases c91_error_cause cfg hl rf sf s s' tout tret task e h with
  | stopBefore ts e a b c d f => rcases f with rfl | rfl <;> simp
  | step a l l' e x y z =>
    cases z with
    | solver e a b => exact .inr (.inr (.inr (.inr (.inr (.inr (.inr a))))))
    | _ => simp
  | _ => simp

/-- `CloseRoots` needs a root function, `BadStopTime` a stop time; the errors of a step need the nonlinear solver to fail. -/
theorem c91_errors_needed (cfg : Cfg ν n q K) (hl : NlsLegal cfg) (rf sf : Nat) (s s' : State ν n q K) (tout tret : K)
    (task : Task) (e : Err) (h : exec cfg rf sf s (.solve tout tret task) = some (s', .solved (.error e))) :
    (e = .ida .closeRoots → 0 < q ∧ s.r.irfnd = true) ∧ (e = .ida .badStopTime → s.tstop ≠ none) ∧
    (e = .ida .residualFail → Returned cfg (.ida (.recoverableFail .residual))) ∧
    (e = .ida .convergenceFail → ∃ rec, rec ≠ .residual ∧ Returned cfg (.ida (.recoverableFail rec))) ∧
    ((∀ x, e ≠ .ida x) → e = .other "IDA_ERR_FAIL" ∨ Returned cfg e) := by
  cases c91_error_cause cfg hl rf sf s s' tout tret task e h with
  | closeRoots i j t' x y a => simp [a]; exact i.pos
  | stopPast ts a b c => simp [c]
  | stopBefore ts e a b c d f => rcases f with rfl | rfl <;> simp [c]
  | step a l l' e x y z =>
    cases z with
    | errorTest => simp
    | residual a => simp [a]
    | convergence rec a b => simp; exact ⟨rec, a, b⟩
    | solver e a b => exact ⟨fun h => absurd h (a _), fun h => absurd h (a _), fun h => absurd h (a _), fun h => absurd h (a _), fun _ => .inr b⟩
  | _ => simp

/-- With the crate's own Newton solver a step is only given up because of the error test. -/
theorem c91_standard_stack (P : Problem n q K) (tol : TolControl n K) (fuel rf sf : Nat)
    (s s' : State (Newton (Vec n K)) n q K) (tout tret : K) (task : Task) (e : Err)
    (h : exec (Cfg.newton P tol fuel) rf sf s (.solve tout tret task) = some (s', .solved (.error e))) :
    e = .ida .illegalInput ∨ e = .ida .tooMuchAccuracy ∨ e = .ida .badTimeValue ∨ (e = .ida .badStopTime ∧ s.tstop ≠ none) ∨
    (e = .ida .closeRoots ∧ 0 < q ∧ s.r.irfnd = true) ∨ e = .other "IDA_ERR_FAIL" := by
  have hn : ∀ e, ¬ Returned (Cfg.newton P tol fuel) e := by
    rintro e ⟨N, env, m, y0, y, w, tol', c, N', m', ee, h⟩
    exact newton_no_error P fuel h
  have hl := newton_legal P tol fuel
  obtain ⟨h1, h2, h3, h4, h5⟩ := c91_errors_needed _ hl rf sf s s' tout tret task e h
  rcases c91_error_kinds _ hl rf sf s s' tout tret task e h with k | k | k | k | k | k | k | k
  · exact .inl k
  · exact .inr (.inl k)
  · exact .inr (.inr (.inl k))
  · exact .inr (.inr (.inr (.inl ⟨k, h2 k⟩)))
  · exact .inr (.inr (.inr (.inr (.inl ⟨k, h1 k⟩))))
  · exact absurd (h3 k) (hn _)
  · obtain ⟨rec, -, h⟩ := h4 k
    exact absurd h (hn _)
  · exact .inr (.inr (.inr (.inr (.inr ((h5 k).resolve_right (hn _))))))

end

/-! ## Concrete runs: every kind of error occurs -/

section
attribute [local instance] ratParams ratEps

/-- The error of the last call. -/
def lastErr {ν : Type} {n q : Nat} (p : Option (State ν n q ℚ × List (Res n ℚ))) : Option Err :=
  match p with
  | some (_, l) => match l.getLast? with
    | some (.solved (.error e)) => some e
    | _ => none
  | none => none

open Witness

def resid : ℚ × Except Err Unit := (0, .error (.ida (.recoverableFail .residual)))
def setupFail : ℚ × Except Err Unit := (0, .error (.ida (.recoverableFail .lSetup)))

-- `tout` equal to the initial time; the step limit (here 2) in one call
example : lastErr (run decayCfg 10 10 [.solve 0 0 .normal] decay0) = some (.ida .illegalInput) := by decide +kernel
example : lastErr (run { scriptCfg [] with mxstep := 2 } 10 10 [.solve 1000 0 .normal] script0) = some (.ida .illegalInput) := by
  decide +kernel
-- `tout` behind the last step
example : lastErr (run (scriptCfg []) 10 10 (steps 3 ++ [.solve 0 0 .normal]) script0) = some (.ida .badTimeValue) := by
  decide +kernel
-- ten failures of the nonlinear solver, of either sort, and a mixture of both where the last one counts
example : lastErr (run (scriptCfg (List.replicate 10 resid)) 10 10 (steps 1) script0) = some (.ida .residualFail) := by
  decide +kernel
example : lastErr (run (scriptCfg (List.replicate 10 setupFail)) 10 10 (steps 1) script0) = some (.ida .convergenceFail) := by
  decide +kernel
example : lastErr (run (scriptCfg (List.replicate 9 resid ++ [setupFail])) 10 10 (steps 1) script0) =
    some (.ida .convergenceFail) := by
  decide +kernel
-- ten failures of the error test
example : lastErr (run (scriptCfg (List.replicate 10 (1000, .ok ()))) 10 10 (steps 1) script0) =
    some (.other "IDA_ERR_FAIL") := by
  decide +kernel
-- an error of the nonlinear solver of its own
example : lastErr (run (scriptCfg [(0, .error (.nl .convergenceRecover))]) 10 10 (steps 1) script0) =
    some (.nl .convergenceRecover) := by
  decide +kernel
-- a root function that is zero from 1/2 on
example : lastErr (run (clockCfg fun t : ℚ => if t < 1 / 2 then t - 1 / 2 else 0) 100 10
    [.solve 10 0 .normal, .solve 10 0 .normal] clock0) = some (.ida .closeRoots) := by
  decide +kernel
-- a stop time behind
example : lastErr (run (scriptCfg []) 10 10 [.solve 1000 0 .oneStep] { script0 with tstop := some (-1) }) =
    some (.ida .illegalInput) := by
  decide +kernel

end

end Verif.Props
