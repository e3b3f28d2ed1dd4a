import Verif.Props.Cases
import Verif.Props.Accepted
import Verif.Props.Linear
import Verif.Props.Newton
import Verif.Props.Norm
import Verif.Props.Interp
import Verif.Props.FirstCall
import Verif.Props.Stop
import Verif.Props.Affine
import Verif.Props.Select
import Verif.Props.Outputs

/-!
# The theorems applied to concrete runs: solvers, interpolation, history, first call, stop time (C04 - C24, C34, C38 - C43,
C50, C62, C65, C66)

As in `Cases`: each example meets all hypotheses of the theorem named in its comment, and gets its conclusion from it.
-/

set_option autoImplicit false
set_option linter.unusedSectionVars false
set_option linter.unusedVariables false

namespace Verif.Props

open Verif Verif.Spec Verif.Witness Polynomial

/-! ## C04, C06, C07, C10, C11, C12, C13 -/

/-- `c04_lu_factorization`, on a matrix that needs a row interchange. -/
example : ∃ (M : Mat ℚ) (p : Nat → Nat), denseGetRf 3 3 exA (fun _ => 0) = .ok M p ∧ p 0 = 1 ∧
    (∀ i, i < 3 → ∀ j, j < 3 → exA (rowPerm p 3 i) j = ∑ t ∈ Finset.range 3, lowerUnit M i t * upperTri M t j) := by
  have h : (match denseGetRf 3 3 exA (fun _ => 0) with | .ok M p => decide (p 0 = 1) | _ => false) = true := by decide +kernel
  split at h
  · rename_i M p hM
    exact ⟨M, p, hM, by simpa using h, (c04_lu_factorization (le_refl 3) exA _ hM).2.1⟩
  · cases h

/-- A solve of `demoProblem`, with its log: two attempts, the second one successful. -/
theorem demo_run : ∃ (N : Newton ℚ) (s : ℚ) (l : List (Event ℚ)) (y : ℚ),
    newtonSolve (recorded demoProblem) 2 (Newton.new 0 5) (4, []) 0 0 1 (1 / 100) false = .done N (s, l) y (.ok ()) ∧
    numSolves l = 5 ∧ y = 3 := by
  have h : (match newtonSolve (recorded demoProblem) 2 (Newton.new 0 5) (4, []) 0 0 1 (1 / 100) false with
    | .done N s y (.ok ()) => decide (numSolves s.2 = 5) && decide (y = 3) | _ => false) = true := by decide +kernel
  split at h
  · rename_i N s y hs
    simp only [Bool.and_eq_true, decide_eq_true_eq] at h
    exact ⟨N, s.1, s.2, y, hs, h⟩
  · cases h

/-- `c06_newton_success`, `c07_newton_iteration_cap`, `c11_newton_iteration_count`, on that solve. -/
example : ∃ (N : Newton ℚ) (s : ℚ) (l : List (Event ℚ)) (d : ℚ) (As : List (List (Event ℚ))),
    newtonSolve (recorded demoProblem) 2 (Newton.new 0 5) (4, []) 0 0 1 (1 / 100) false = .done N (s, l) 3 (.ok ()) ∧
    l.getLast? = some (.ctest 3 d (.ok true)) ∧ l = As.flatten ∧ (∀ A ∈ As, numSolves A ≤ 5) ∧ N.view.numIters = 5 := by
  obtain ⟨N, s, l, y, h, hn, rfl⟩ := demo_run
  obtain ⟨pre, su, ds, d, -, -, h1⟩ := c06_newton_success demoProblem 2 (Newton.new 0 5) 4 [] 0 0 1 (1 / 100) false N s l 3 h
  obtain ⟨As, h2, h3⟩ := c07_newton_iteration_cap demoProblem 2 (Newton.new 0 5) 4 [] 0 0 1 (1 / 100) false N s l 3 _ h
  have h4 := c11_newton_iteration_count 0 N l (.solve demoProblem 2 4 s 0 0 1 3 (1 / 100) false _ (.new 5) h)
  exact ⟨N, s, l, d, As, h, h1, by simpa using h2, fun A hA => (h3 A hA).2, by rw [h4, hn]⟩

/-- `c10_newton_never_reports_recover`. -/
example (N' : Newton ℚ) (s' y' : ℚ) : newtonSolve demoProblem 2 (Newton.new 0 5) 4 0 0 1 (1 / 100) false ≠
    .done N' s' y' (.error (.nl .convergenceRecover)) :=
  c10_newton_never_reports_recover demoProblem 2 (Newton.new 0 5) 4 0 0 1 (1 / 100) false N' s' y'

/-- `c12_norm_definite`, `c13_masked_norm`, over the reals. -/
example : normWrms (![0, 1] : Vec 2 ℝ) ![1, 2] ≠ 0 ∧
    normWrmsMasked (![3, 1] : Vec 2 ℝ) ![1, 2] ![true, false] = normWrmsMasked ![3, 7] ![1, 5] ![true, false] ∧
    normWrmsMasked (![3, 1] : Vec 2 ℝ) ![1, 2] ![true, false] ≤ normWrms ![3, 1] ![1, 2] := by
  have h := c13_masked_norm (![3, 1] : Vec 2 ℝ) ![3, 7] ![1, 2] ![1, 5] ![true, false]
  refine ⟨fun h0 => ?_, h.1 ?_, h.2.1⟩
  · have := (c12_norm_definite (![0, 1] : Vec 2 ℝ) ![1, 2] (by intro i; fin_cases i <;> simp)).1 h0 1
    simp at this
  · intro i hi
    fin_cases i
    · simp
    · simp at hi

/-! ## C17, C18 -/

/-- `c17_error_changes_nothing`, `c17_success_changes_outputs_only`, `c18_bad_k`, `c18_dky_value`, on the state of
`Interp`. -/
example : (∃ s' e, getSolution exState (-1) = .ret s' (.error e) ∧ s' = exState) ∧
    (∃ s' yy yp, getSolution exState (1 / 2) = .ret s' (.ok ()) ∧ s' = { exState with m.yy := yy, m.yp := yp }) ∧
    getDky exState (1 / 2) 4 = .ret exState (.error (.ida .badK)) := by
  refine ⟨?_, ?_, c18_bad_k exState (1 / 2) 4 (by decide)⟩
  · have h : (match getSolution exState (-1) with | .ret s (.error e) => true | _ => false) = true := by decide +kernel
    split at h
    · rename_i s e hs; exact ⟨s, e, hs, (c17_error_changes_nothing exState s (-1) e hs).1⟩
    · cases h
  · have h : (match getSolution exState (1 / 2) with | .ret s (.ok ()) => true | _ => false) = true := by decide +kernel
    split at h
    · rename_i s hs
      obtain ⟨yy, yp, h⟩ := c17_success_changes_outputs_only exState s (1 / 2) hs
      exact ⟨s, yy, yp, hs, h⟩
    · cases h

example : dkyAt exState (1 / 2) 1 = some (fun i => (derivative^[1] (interpPoly exState.e.tn exState.h 3 i)).eval (1 / 2) -
    ∑ j ∈ (Finset.range 4).filter (fun j => 1 < j ∧ 3 < j),
      exState.h.phi j i * (derivative^[1] (nb exState.e.tn exState.h.psi j)).eval (1 / 2)) :=
  c18_dky_value exState 1 (by decide) (by decide) (by decide) (1 / 2)
    (fun h => by have := (badTime_iff _ _).2 h; revert this; decide +kernel)

/-! ## C15, C19 - C23, C34 -/

/-- Accepted; accepted; rejected, then accepted; convergence failure, then accepted; accepted. -/
def history5 : List (ℚ × Except Err Unit) := [okSmall, okSmall, okBig, okSmall, recov, okKeep, okSmall]

theorem history5_legal : NlsLegal (scriptCfg history5) := legal_of _ (by decide +kernel)

/-- Four calls, and a fifth one. -/
theorem history5_run : ∃ (s s' : State Nat 1 0 ℚ) (a b c d e f g : Att 1 ℚ), ReachOk (scriptCfg history5) s ∧
    exec (scriptCfg history5) 10 10 s go = some (s', .solved (.ok .success)) ∧ s'.g.atts = [a, b, c, d, e, f, g] ∧
    getNumSteps s = 4 ∧ getNumSteps s' = 5 ∧ a.before.length = 5 ∧ b.before.length = 4 ∧ d.before.length = 3 ∧
    c.out = .nlsFail (.ida (.recoverableFail .lSolve)) ∧ e.out = .testFail ∧ a.kk = 2 ∧ b.kk = 2 ∧ c.kk = 2 := by
  obtain ⟨s, s', r, h1, h2, h3⟩ := one_more (cfg := scriptCfg history5) (rf := 10) (sf := 10) (ops := steps 4) (op := go)
    (s0 := script0) (P := fun s s' r => Res.isStatus .success r && match s'.g.atts with
      | [a, b, c, d, e, f, g] => decide (getNumSteps s = 4 ∧ getNumSteps s' = 5 ∧ a.before.length = 5 ∧ b.before.length = 4 ∧
          d.before.length = 3 ∧ c.out = .nlsFail (.ida (.recoverableFail .lSolve)) ∧ e.out = .testFail ∧ a.kk = 2 ∧ b.kk = 2 ∧
          c.kk = 2)
      | _ => false) (by decide +kernel) (script_new _)
  simp only [Bool.and_eq_true, Res.isStatus_iff] at h3
  obtain ⟨rfl, h3⟩ := h3
  split at h3
  · rename_i a b c d e f g hat
    simp only [decide_eq_true_eq] at h3
    exact ⟨s, s', a, b, c, d, e, f, g, h1, h2, hat, h3⟩
  · cases h3

/-- `c15_current_solution_partial`, `c19_dense_output_partial`, `c20_continuous_partial`, `c20_points_kept`. -/
example : ∃ s s' : State Nat 1 0 ℚ, getNumSteps s = 4 ∧ getNumSteps s' = 5 ∧ CurrentSolution s' ∧ DenseInterpolates s' ∧
    getCurrentTime s' - getLastStep s' = getCurrentTime s ∧
    (∃ y, (solutionAt s (getCurrentTime s)).map Prod.fst = some y ∧ (solutionAt s' (getCurrentTime s)).map Prod.fst = some y) ∧
    ∃ p, s'.g.acc = p :: s.g.acc := by
  obtain ⟨s, s', a, b, c, d, e, f, g, h1, h2, hat, n1, n2, -⟩ := history5_run
  have hok : ∀ e, (Res.solved (.ok .success) : Res 1 ℚ) = .solved (.error e) → e.isStepFailure = false := by
    intro e he; cases he
  have k1 := c15_current_solution_partial _ history5_legal (by decide) (by decide) (le_refl _) 10 10 s s' go _ h1 h2 (by omega)
  have k2 := c19_dense_output_partial _ history5_legal (by decide) (by decide) (le_refl _) s'
    (.call 10 10 go _ h1 h2 hok) (by omega)
  have k3 := c20_continuous_partial _ history5_legal (by decide) (by decide) (le_refl _) 10 10 s s' go _ h1 h2 hok (by omega)
    (by omega)
  obtain ⟨l, k4, k5⟩ := c20_points_kept _ history5_legal (by decide) (le_refl _) 10 10 s s' go _ h1 h2 (by omega)
  obtain ⟨p, hp⟩ := List.length_eq_one_iff.1 (show l.length = 1 by omega)
  exact ⟨s, s', n1, n2, k1, k2, k3.1, k3.2, p, by rw [k4, hp]; rfl⟩

/-- `c21_predictor_partial`, `c22_bdf_partial`, `c22_bdf`, for the last attempt (order 2, five points before it);
`c23_rollback_partial`, for the retries of the fourth and of the third step. -/
example : ∃ (s : State Nat 1 0 ℚ) (a b c d e : Att 1 ℚ), a ∈ s.g.atts ∧ a.kk = 2 ∧
    (∃ Q : Fin 1 → ℚ[X], Through 2 a.before Q ∧ ∀ i, a.pred i = (Q i).eval a.tnew) ∧
    a.cj = (1 + 1 / 2) / a.hh ∧ (b.t0 = c.t0 ∧ b.before = c.before) ∧ (d.t0 = e.t0 ∧ d.before = e.before) := by
  obtain ⟨s, s', a, b, c, d, e, f, g, h1, h2, hat, n1, n2, l1, l2, l3, o1, o2, q1, q2, q3⟩ := history5_run
  have ha : a ∈ s'.g.atts := by rw [hat]; simp
  have k1 := c21_predictor_partial _ history5_legal (by decide) (le_refl _) 10 10 s s' go _ h1 h2 a ha (by omega)
  obtain ⟨-, -, -, -, Q, m1, -, m2, -⟩ := k1
  have k2 := (c22_bdf_partial _ history5_legal (by decide) (le_refl _) 10 10 s s' go _ h1 h2 a ha).1
  have k2' := (c22_bdf _ history5_legal (by decide) (le_refl _) s' (.call 10 10 go _ h1.reach h2) a ha).1
  have k3 := c23_rollback_partial _ history5_legal (by decide) (le_refl _) 10 10 s s' go _ h1 h2 [a] [d, e, f, g] b c hat
    (by rw [o1]; simp) (by omega)
  have k4 := c23_rollback_partial _ history5_legal (by decide) (le_refl _) 10 10 s s' go _ h1 h2 [a, b, c] [f, g] d e hat
    (by rw [o2]; simp) (by omega)
  rw [q1] at m1 k2
  refine ⟨s', a, b, c, d, e, ha, q1, ⟨Q, m1, m2⟩, ?_, ⟨k3.1, k3.2.1⟩, k4.1, k4.2.1⟩
  rw [k2]
  norm_num [Finset.sum_range_succ]

/-- `c21_exact_partial`: a solver whose correction makes the accepted points lie on a line (`y' = -1`, corrections 0): the
prediction of the third step is the value of that line. -/
example : ∃ (s : State Nat 1 0 ℚ) (x : Att 1 ℚ), x ∈ s.g.atts ∧ 2 ≤ x.before.length ∧ x.pred 0 = 1 - x.tnew := by
  obtain ⟨s, s', r, h1, h2, h3⟩ := one_more (cfg := scriptCfg []) (rf := 10) (sf := 10) (ops := steps 2) (op := go)
    (s0 := script0) (P := fun s s' r => match s'.g.atts with
      | x :: _ => decide (2 ≤ x.before.length) && decide (1 ≤ x.kk) && x.before.all fun p => decide (p.2 0 = 1 - p.1)
      | [] => false) (by decide +kernel) (script_new _)
  split at h3
  · rename_i x l hat
    simp only [Bool.and_eq_true, decide_eq_true_eq, List.all_eq_true] at h3
    have := c21_exact_partial _ (legal_of [] rfl) (by decide) (le_refl _) 10 10 s s' go r h1 h2 x (by rw [hat]; simp) h3.1.1
      (fun _ => C 1 - X)
      (fun i => (natDegree_sub_le _ _).trans (by simp; exact h3.1.2))
      (fun p hp i => by rw [Fin.fin_one_eq_zero i, h3.2 p hp]; simp)
    exact ⟨s', x, by rw [hat]; simp, h3.1.1, by rw [this.1 0]; simp⟩
  · cases h3

/-- `c34_same_values_partial`: three steps, then a call that fails; the dense output over the last step is unchanged. -/
example : ∃ (s s' : State Nat 1 0 ℚ) (e : Err), exec (scriptCfg [okSmall, okSmall, okSmall, unrec]) 10 10 s go =
      some (s', .solved (.error e)) ∧ getNumSteps s = 3 ∧
    ∀ t, 0 ≤ (t - (getCurrentTime s - getLastStep s)) * getCurrentStep s → solutionAt s' t = solutionAt s t := by
  obtain ⟨s, s', r, h1, h2, h3⟩ := one_more (cfg := scriptCfg [okSmall, okSmall, okSmall, unrec]) (rf := 10) (sf := 10)
    (ops := steps 3) (op := go) (s0 := script0)
    (P := fun s s' r => (match r with | .solved (.error e) => e.isStepFailure | _ => false) && decide (getNumSteps s = 3) &&
      decide (getNumSteps s' = 3) && (sinceAccepted s'.g.atts).all fun x => decide (getLastOrder s' ≤ x.kk))
    (by decide +kernel) (script_new _)
  simp only [Bool.and_eq_true, decide_eq_true_eq, List.all_eq_true] at h3
  obtain ⟨⟨⟨h3, n1⟩, n2⟩, ho⟩ := h3
  split at h3
  · rename_i e
    exact ⟨s, s', e, h2, n1, fun t ht => c34_same_values_partial _ (legal_of _ (by decide +kernel)) (by decide) (by decide)
      (le_refl _) 10 10 s s' go e h1 h2 h3 (by omega) (by omega) ho t ht⟩
  · cases h3

/-! ## C38, C39, C43 -/

/-- `c38_too_close`, `c38_wrong_way`, `c38_stop_behind`. -/
example : (∃ s', solve decayCfg 10 10 decay0 0 .normal = .ret s' (.error (.ida .illegalInput)) ∧ NothingDone decay0 s') ∧
    (∃ s', solve { decayCfg with hin := -1 } 10 10 decay0 1 .normal = .ret s' (.error (.ida .illegalInput)) ∧
      NothingDone decay0 s') ∧
    ∃ s', solve decayCfg 10 10 { decay0 with tstop := some 1 } (-1) .normal = .ret s' (.error (.ida .illegalInput)) ∧
      NothingDone { decay0 with tstop := some 1 } s' :=
  ⟨c38_too_close decayCfg 10 10 decay0 0 .normal rfl (Or.inl (by decide +kernel)),
   c38_wrong_way { decayCfg with hin := -1 } 10 10 decay0 1 .normal rfl (by decide +kernel) (by decide +kernel),
   c38_stop_behind decayCfg (le_refl _) 10 10 { decay0 with tstop := some 1 } (-1) 1 .normal rfl rfl (by decide +kernel)⟩

/-- `c38_accepted`: toward -1. -/
example : ∃ s', solve decayCfg 10 10 decay0 (-1) .oneStep = .ret s' (.ok .success) ∧
    0 < (-1 - getCurrentTime decay0) * getActualInitStep s' := by
  obtain ⟨s', r, h1, h2⟩ := solve_one (cfg := decayCfg) (rf := 10) (sf := 10) (s := decay0) (t := -1) (task := .oneStep)
    (P := fun _ r => isOk .success r) (by decide +kernel)
  rw [isOk_iff] at h2; subst h2
  exact ⟨s', h1, c38_accepted decayCfg (le_refl _) 10 10 decay0 s' (-1) .oneStep _ rfl (by decide +kernel) (by decide +kernel)
    (Or.inl rfl) (by intro ts h; cases h) h1⟩

/-- `c39_initial_step`: toward 1 and toward 100. -/
example (tout : ℚ) (ht : tout = 1 ∨ tout = 100) : ∃ (s' : State (Newton (Vec 1 ℚ)) 1 0 ℚ) (r : Res 1 ℚ) (l : Att 1 ℚ),
    exec decayCfg 10 10 decay0 (.solve tout 0 .oneStep) = some (s', r) ∧ s'.g.atts = [l] ∧
    |l.hh| = if 2 / (|tout| / 1000) < 50 then 1 / 2 / 50 else |tout| / 1000 := by
  have hN : initialNorm decayCfg (fun _ => 1) (fun _ => -1) = 50 := by decide +kernel
  have key : ∀ tout : ℚ, ((exec decayCfg 10 10 decay0 (.solve tout 0 .oneStep)).map fun x =>
      (fun (s : State (Newton (Vec 1 ℚ)) 1 0 ℚ) (_ : Res 1 ℚ) => decide (s.g.atts.length = 1)) x.1 x.2) = some true →
      ∃ (s' : State (Newton (Vec 1 ℚ)) 1 0 ℚ) (r : Res 1 ℚ) (l : Att 1 ℚ),
        exec decayCfg 10 10 decay0 (.solve tout 0 .oneStep) = some (s', r) ∧ s'.g.atts = [l] ∧
        |l.hh| = if 2 / (|tout| / 1000) < 50 then 1 / 2 / 50 else |tout| / 1000 := by
    intro tout h
    obtain ⟨s', r, h1, h2⟩ := exec_one (P := fun (s : State (Newton (Vec 1 ℚ)) 1 0 ℚ) (_ : Res 1 ℚ) =>
      decide (s.g.atts.length = 1)) h
    simp only [decide_eq_true_eq] at h2
    obtain ⟨l, hl⟩ := List.length_eq_one_iff.1 h2
    have := (c39_initial_step decayCfg (newton_legal _ _ _) (by decide) (le_refl _) rfl 10 10 newton0 (fun _ => 1) (fun _ => -1)
      none s' tout 0 .oneStep r h1 l [] hl).2.2.2.2 rfl rfl
    rw [hN] at this
    exact ⟨s', r, l, h1, hl, this⟩
  rcases ht with rfl | rfl
  · exact key 1 (by decide +kernel)
  · exact key 100 (by decide +kernel)

/-- `c43_rejected_partial`: a rejected call, then a good one. -/
example : ∃ s1, solve decayCfg 10 10 decay0 0 .normal = .ret s1 (.error (.ida .illegalInput)) ∧
    solve decayCfg 10 10 s1 1 .normal = solve decayCfg 10 10 decay0 1 .normal := by
  have h : (match firstCall decayCfg (begun decay0 0 .normal) 0 with | .ret s (.error e) => true | _ => false) = true := by
    decide +kernel
  split at h
  · rename_i s1 e h1
    exact ⟨s1, c43_rejected_partial decayCfg 10 10 decay0 s1 0 1 .normal .normal (Or.inl rfl) rfl e h1 (by decide +kernel)
      (by decide +kernel)⟩
  · cases h

/-! ## C40, C41, C50 -/

/-- `c40_never_past`, `c40_one_step_not_missed`, `c40_no_bad_stop_time`: stop time 2, one step to time 1. -/
example : ∃ s' : State Nat 1 0 ℚ, exec smooth 10 10 { script0 with tstop := some 2 } (.solve 3 0 .oneStep) =
      some (s', .solved (.ok .success)) ∧ s'.tstop = some 2 ∧ (getCurrentTime s' - 2) * getCurrentStep s' ≤ 0 ∧
    getCurrentTime s' ≠ 2 ∧
    ∀ s'', exec smooth 10 10 s' (.solve 3 0 .oneStep) ≠ some (s'', .solved (.error (.ida .badStopTime))) := by
  obtain ⟨s', r, h1, h2⟩ := exec_one (cfg := smooth) (rf := 10) (sf := 10) (s := { script0 with tstop := some 2 })
    (a := .solve 3 0 .oneStep) (P := fun s r => Res.isStatus .success r && decide (s.tstop = some 2) && decide (getNumSteps s = 1))
    (by decide +kernel)
  simp only [Bool.and_eq_true, decide_eq_true_eq, Res.isStatus_iff] at h2
  obtain ⟨⟨rfl, h3⟩, h4⟩ := h2
  have hR : Reach smooth s' := .call 10 10 _ _ (smooth_new (some 2)) h1
  exact ⟨s', h1, h3, (c40_never_past smooth smooth_legal (le_refl _) s' hR).2 (by omega) 2 h3,
    (c40_one_step_not_missed smooth 10 10 _ s' 3 0 h1 (by rw [h4]; exact one_ne_zero) 2 h3).2.1,
    fun s'' => c40_no_bad_stop_time smooth smooth_legal (le_refl _) 10 10 s' s'' hR 3 0 .oneStep⟩

/-- `c41_later_call`: `strict` after its first step. -/
example : ∃ s s' : State Nat 1 0 ℚ, getNumSteps s = 1 ∧ solve strict 10 10 s 3 .oneStep =
      .ret s' (.error (.ida .tooMuchAccuracy)) ∧ s'.g.atts = s.g.atts ∧
    getTolScaleFactor s' = accuracyProduct strict s * 10 := by
  obtain ⟨s, r0, h1, h2⟩ := solve_one (cfg := strict) (rf := 10) (sf := 10) (s := script0) (t := 3) (task := .oneStep)
    (P := fun s r => decide (getNumSteps s = 1) && Scalar.gt (accuracyProduct strict s) 1 &&
      decide (s.tstop = none) && !Scalar.le (nextWeights strict s 0) 0 &&
      !Scalar.gt ((getCurrentTime s - s.tretlast) * getCurrentStep s) 0 &&
      match solve strict 10 10 s 3 .oneStep with | .ret _ _ => true | _ => false) (by decide +kernel)
  simp only [Bool.and_eq_true, decide_eq_true_eq, Bool.not_eq_true'] at h2
  obtain ⟨⟨⟨⟨⟨n1, ha⟩, hs⟩, hw⟩, ht⟩, h2⟩ := h2
  split at h2
  · rename_i s' r h3
    have k := c41_later_call strict 10 10 s s' 3 .oneStep r (by omega) ha h3
    obtain ⟨k1, k2, -⟩ := k.2.2.2 (fun i => by rw [Fin.fin_one_eq_zero i]; exact hw) rfl hs (by intro h; cases h) (fun _ => ht)
    subst k1
    exact ⟨s, s', n1, h3, k.1, k2⟩
  · cases h2

/-- `c41_first_call`: weights so large that the initial value itself asks for too much accuracy. -/
example : ∃ s' : State Nat 1 0 ℚ, solve { smooth with ewtSet := fun _ _ _ => 10 ^ 20 } 10 10 script0 3 .oneStep =
      .ret s' (.error (.ida .tooMuchAccuracy)) ∧ s'.g.atts = [] ∧ getNumSteps s' = 0 := by
  obtain ⟨s', r, h1, h2⟩ := solve_one (cfg := { smooth with ewtSet := fun _ _ _ => 10 ^ 20 }) (rf := 10) (sf := 10) (s := script0)
    (t := 3) (task := .oneStep) (P := fun s r => isErr (.ida .tooMuchAccuracy) r) (by decide +kernel)
  rw [isErr_iff] at h2; subst h2
  have k := c41_first_call { smooth with ewtSet := fun _ _ _ => 10 ^ 20 } 10 10 script0 s' 3 .oneStep _ rfl (by decide +kernel) h1
  exact ⟨s', h1, k.1, k.2.1⟩

/-- `c50_jacobian_point_partial`: a Jacobian evaluation in a run of the crate's Newton solver. -/
example : ∃ (s : State (Newton (Vec 1 ℚ)) 1 0 ℚ) (l1 l2 : List (UCall 1 ℚ)) (t cj : ℚ) (y yp r : Vec 1 ℚ),
    s.m.log = l1 ++ .jac t cj y yp r :: l2 ∧ ∃ x ∈ s.g.atts, cj = x.cj := by
  obtain ⟨s, l, hr, hp⟩ := run_witness (cfg := decayCfg) (rf := 10) (sf := 10) (ops := [.solve 1 0 .oneStep, .solve 1 0 .oneStep])
    (s := decay0) (P := fun s _ => s.m.log.any fun | .jac _ _ _ _ _ => true | _ => false) (by decide +kernel)
  obtain ⟨u, hu, hw⟩ := List.any_eq_true.1 hp
  obtain ⟨l1, l2, hl⟩ := List.append_of_mem hu
  cases u with
  | jac t cj y yp r =>
    obtain ⟨-, x, hx, h, -⟩ := c50_jacobian_point_partial decay (.ss (1 / 100) (1 / 100)) 3 s
      (run_reach _ (.new newton0 (fun _ => 1) (fun _ => -1) none) hr) l1 l2 t cj y yp r hl
    exact ⟨s, l1, l2, t, cj, y, yp, r, hl, x, hx, h⟩
  | res t y yp => cases hw
  | root t y yp => cases hw

/-! ## C62, C65, C66 -/

/-- `c62_affine_exact`, `c62_affine_no_failure`, `c62_affine_returned`: two calls in normal mode. -/
example : ∃ s s' : State (Newton (Vec 2 ℚ)) 2 0 ℚ,
    exec (Cfg.newton drift (.ss (1 / 100) (1 / 100)) 3) 10 100 s (.solve (7 / 6) 0 .normal) = some (s', .solved (.ok .success)) ∧
    3 ≤ getNumSteps s' ∧ (∀ i, getYy s' i = drift0 i + 7 / 6 * driftp i) ∧ getNumErrTestFails s' = 0 ∧
    (∀ p ∈ s'.g.acc, ∀ i, p.2 i = drift0 i + p.1 * driftp i) := by
  obtain ⟨s, r, s', r', h1, h2, h3⟩ := exec_two (cfg := Cfg.newton drift (.ss (1 / 100) (1 / 100)) 3) (rf := 10) (sf := 100)
    (a := .solve (1 / 2) 0 .normal) (b := .solve (7 / 6) 0 .normal) (s := State.new newton0 drift0 driftp)
    (P := fun s _ s' r' => Res.isStatus .success r' && decide (3 ≤ getNumSteps s') && decide ((7 / 6 : ℚ) ≠ s.tretlast))
    (by decide +kernel)
  simp only [Bool.and_eq_true, decide_eq_true_eq, Res.isStatus_iff] at h3
  obtain ⟨⟨rfl, h3⟩, h4⟩ := h3
  have ha : EnoughAccuracy (.ss (1 / 100) (1 / 100)) drift0 := by unfold EnoughAccuracy; decide +kernel
  have hR : ReachFrom (Cfg.newton drift (.ss (1 / 100) (1 / 100)) 3) drift0 driftp s := .call _ _ _ _ (.new newton0 none) h1
  have hR' : ReachFrom (Cfg.newton drift (.ss (1 / 100) (1 / 100)) 3) drift0 driftp s' := .call _ _ _ _ hR h2
  have h0 : ExactParams.sqrt (0 : ℚ) = 0 := by decide +kernel
  have k1 := c62_affine_exact _ _ _ _ _ h0 drift_affine ha s' hR'
  have k2 := (c62_affine_returned _ _ _ _ _ h0 drift_affine ha 10 100 s s' (7 / 6) 0 hR).1 h2 h4
  exact ⟨s, s', h2, h3, k2.1, k1.2.2.1, k1.2.1⟩

/-- `c65_attempts_chosen`, `c65_first_attempt`, `c65_announced`, on the history above: the retry after the convergence
failure, the first attempt, and what is announced at the end. -/
example : ∃ (s : State Nat 1 0 ℚ) (b c g : Att 1 ℚ) (l : List (Att 1 ℚ)), ReachOk (scriptCfg history5) s ∧
    [b, c, g].Sublist s.g.atts ∧ b.kk = (choice (scriptCfg history5) l c).1 ∧ b.hh = (choice (scriptCfg history5) l c).2 ∧
    g.kk = 1 ∧ ∃ y l', s.g.atts = y :: l' ∧ getCurrentOrder s = (choice (scriptCfg history5) l' y).1 := by
  obtain ⟨s, s', a, b, c, d, e, f, g, h1, h2, hat, n1, n2, -, -, -, o1, -⟩ := history5_run
  have hR : ReachOk (scriptCfg history5) s' := .call 10 10 go _ h1 h2 (by intro e he; cases he)
  have k1 := c65_attempts_chosen _ history5_legal (by decide) (le_refl _) 10 10 s s' go _ h1 h2 [a] [d, e, f, g] b c hat
  have k2 := c65_first_attempt _ history5_legal (by decide) (le_refl _) 10 10 s s' go _ h1 h2 [a, b, c, d, e, f] g hat
  obtain ⟨y, l, k3, -, k4, -⟩ := c65_announced _ history5_legal (by decide) (le_refl _) s' hR (by omega)
  refine ⟨s', b, c, g, _, hR, ?_, k1.1, k1.2.resolve_right fun h => ?_, k2, y, l, k3, k4⟩
  · rw [hat]; exact .cons _ (.cons_cons _ (.cons_cons _ (.cons _ (.cons _ (.cons _ (.refl _))))))
  · rw [o1] at h; cases h.1

theorem run_later {ν : Type*} {n q : Nat} {K : Type*} [Scalar K] {cfg : Cfg ν n q K} {rf sf : Nat} (ops : List (Op K))
    {s0 s s' : State ν n q K} {l : List (Res n K)} (hs : Later cfg s0 s) (h : run cfg rf sf ops s = some (s', l)) :
    Later cfg s0 s' := by
  induction ops generalizing s l with
  | nil => cases h; exact hs
  | cons op ops ih =>
    unfold run at h
    split at h
    · cases h
    · rename_i s1 r1 h1
      obtain ⟨⟨s2, l2⟩, h2, h3⟩ := Option.map_eq_some_iff.1 h
      cases h3
      exact ih (.call rf sf op r1 hs h1) h2

/-- `c66_one_integration`, `c66_same_attempts`: after a step, one user takes three steps; another asks for outputs in
between. -/
example : ∃ s s1 s2 : State (Newton (Vec 1 ℚ)) 1 0 ℚ, getNumSteps s = 1 ∧ getNumSteps s1 = 4 ∧ getNumSteps s2 = 4 ∧
    SamePoint decayCfg s1 s2 := by
  obtain ⟨s, r, h1, h2⟩ := exec_one (cfg := decayCfg) (rf := 10) (sf := 10) (s := decay0) (a := .solve 1 0 .oneStep)
    (P := fun s r => Res.isStatus .success r && decide (getNumSteps s = 1) && s.tstop.isNone &&
      (((run decayCfg 10 10 [.solve 1 0 .oneStep, .solve 1 0 .oneStep, .solve 1 0 .oneStep] s).map fun p =>
        decide (getNumSteps p.1 = 4 ∧ p.1.g.atts.length = 4)) == some true) &&
      (((run decayCfg 10 10 [.solve (1 / 500) 0 .normal, .getDky (1 / 500) 0, .solve (1 / 200) 0 .normal] s).map fun p =>
        decide (getNumSteps p.1 = 4 ∧ p.1.g.atts.length = 4)) == some true)) (by decide +kernel)
  simp only [Bool.and_eq_true, decide_eq_true_eq, beq_iff_eq, Option.isNone_iff_eq_none] at h2
  obtain ⟨⟨⟨⟨-, n⟩, ht⟩, p1⟩, p2⟩ := h2
  obtain ⟨s1, l1, r1, q1⟩ := run_witness (P := fun (s : State (Newton (Vec 1 ℚ)) 1 0 ℚ) _ =>
    decide (getNumSteps s = 4 ∧ s.g.atts.length = 4)) p1
  obtain ⟨s2, l2, r2, q2⟩ := run_witness (P := fun (s : State (Newton (Vec 1 ℚ)) 1 0 ℚ) _ =>
    decide (getNumSteps s = 4 ∧ s.g.atts.length = 4)) p2
  simp only [decide_eq_true_eq] at q1 q2
  obtain ⟨hb, hw⟩ := c66_newton decay (.ss (1 / 100) (1 / 100)) 3
  exact ⟨s, s1, s2, n, q1.1, q2.1, c66_same_attempts decayCfg hb hw s s1 s2 (by omega) ht (run_later _ .refl r1)
    (run_later _ .refl r2) (by omega)⟩

end Verif.Props
