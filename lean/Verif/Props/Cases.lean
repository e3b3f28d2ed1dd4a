import Verif.Props.Control
import Verif.Props.Step
import Verif.Props.Solve
import Verif.Props.Refused
import Verif.Props.History
import Verif.Props.Nls

/-!
# The theorems applied to concrete runs: control of the steps, the driver (C25 - C33, C36, C37, C56)

Each example is a run of the model whose states meet all hypotheses of the theorem named in its comment; the conclusion is
obtained from that theorem.  `scriptCfg l` is the solver with a nonlinear solver that returns the results listed in `l`,
`decayCfg` is `y' = -y` with the crate's Newton solver.
-/

set_option autoImplicit false
set_option linter.unusedSectionVars false
set_option linter.unusedVariables false
set_option linter.unusedSimpArgs false

namespace Verif.Witness

open Verif Verif.Spec

/-- `Err.fromNls`, decided. -/
def fromNlsB : Err → Bool
  | .ida (.recoverableFail r) => decide (r ≠ .constraint)
  | .ida _ => false
  | _ => true

theorem legal_of (l : List (ℚ × Except Err Unit))
    (h : (l.all fun p => match p.2 with | .error e => fromNlsB e | .ok _ => true) = true) : NlsLegal (scriptCfg l) := by
  refine Props.scriptCfg_legal l fun p hp e he => ?_
  have := List.all_eq_true.1 h p hp
  rw [he] at this
  revert this
  unfold fromNlsB Err.fromNls
  cases e with
  | ida x => cases x <;> simp
  | _ => simp

/-- A history of calls without step failure, and one more call. -/
theorem one_more {ν : Type*} {n q : Nat} {K : Type*} [Scalar K] {cfg : Cfg ν n q K} {rf sf : Nat} {ops : List (Op K)} {op : Op K}
    {s0 : State ν n q K} {P : State ν n q K → State ν n q K → Res n K → Bool}
    (h : ((run cfg rf sf ops s0).bind fun p => (exec cfg rf sf p.1 op).map fun z =>
      !p.2.any Res.stepFailed && P p.1 z.1 z.2) = some true) (h0 : ReachOk cfg s0) :
    ∃ s s' r, ReachOk cfg s ∧ exec cfg rf sf s op = some (s', r) ∧ P s s' r = true := by
  obtain ⟨⟨s, l⟩, h1, h2⟩ := Option.bind_eq_some_iff.1 h
  obtain ⟨⟨s', r⟩, h3, h4⟩ := Option.map_eq_some_iff.1 h2
  simp only [Bool.and_eq_true, Bool.not_eq_true'] at h4
  exact ⟨s, s', r, run_reachOk _ h0 h1 h4.1, h3, h4.2⟩

/-- One call of `solve`. -/
theorem solve_one {ν : Type*} {n q : Nat} {K : Type*} [Scalar K] {cfg : Cfg ν n q K} {rf sf : Nat} {s : State ν n q K} {t : K}
    {task : Task} {P : State ν n q K → Except Err Status → Bool}
    (h : (match solve cfg rf sf s t task with | .ret s' r => P s' r | _ => false) = true) :
    ∃ s' r, solve cfg rf sf s t task = .ret s' r ∧ P s' r = true := by
  split at h
  · rename_i s' r hs; exact ⟨s', r, hs, h⟩
  · cases h

/-- A result of `solve`, decided. -/
def isOk (st : Status) : Except Err Status → Bool
  | .ok x => decide (x = st)
  | .error _ => false

theorem isOk_iff {st : Status} {r : Except Err Status} : isOk st r = true ↔ r = .ok st := by
  cases r <;> simp [isOk]

def isErr (e : Err) : Except Err Status → Bool
  | .ok _ => false
  | .error x => decide (x = e)

theorem isErr_iff {e : Err} {r : Except Err Status} : isErr e r = true ↔ r = .error e := by
  cases r <;> simp [isErr]

end Verif.Witness

namespace Verif.Props

open Verif Verif.Spec Verif.Witness

/-- `solve(1000, OneStep)`. -/
def go : Op ℚ := .solve 1000 0 .oneStep

/-- An accepted step; then a rejected attempt, another one, a convergence failure, another rejected attempt, an accepted
one; then an accepted step. -/
def mixed : List (ℚ × Except Err Unit) := [(1 / 100, .ok ()), (3, .ok ()), (1000, .ok ()),
  (0, .error (.ida (.recoverableFail .lSolve))), (1000, .ok ()), (1 / 100, .ok ()), (1 / 100, .ok ())]

theorem mixed_legal : NlsLegal (scriptCfg mixed) := legal_of _ (by decide +kernel)

def mixedShape (s : State Nat 1 0 ℚ) : Bool := match s.g.atts with
  | [a, b, c, d, e, f, g] => decide (a.out = .accepted) && decide (b.out = .accepted) && decide (c.out = .testFail) &&
      decide (d.out = .nlsFail (.ida (.recoverableFail .lSolve))) && decide (e.out = .testFail) &&
      decide (f.out = .testFail) && decide (g.out = .accepted) && decide (getNumSteps s = 3)
  | _ => false

/-- The run: two calls, and a third one. -/
theorem mixed_run : ∃ (s s' : State Nat 1 0 ℚ) (r : Res 1 ℚ) (a b c d e f g : Att 1 ℚ),
    ReachOk (scriptCfg mixed) s ∧ exec (scriptCfg mixed) 10 10 s go = some (s', r) ∧ r = .solved (.ok .success) ∧
    s'.g.atts = [a, b, c, d, e, f, g] ∧ a.out = .accepted ∧ b.out = .accepted ∧ c.out = .testFail ∧
    d.out = .nlsFail (.ida (.recoverableFail .lSolve)) ∧ e.out = .testFail ∧ f.out = .testFail ∧ g.out = .accepted ∧
    getNumSteps s' = 3 ∧ getNumSteps s = 2 := by
  obtain ⟨s, s', r, h1, h2, h3⟩ := one_more (cfg := scriptCfg mixed) (rf := 10) (sf := 10) (ops := steps 2) (op := go)
    (s0 := script0) (P := fun s s' r => Res.isStatus .success r && mixedShape s' && decide (getNumSteps s = 2))
    (by decide +kernel) (script_new _)
  simp only [Bool.and_eq_true, decide_eq_true_eq, Res.isStatus_iff] at h3
  obtain ⟨⟨hr, h3⟩, h4⟩ := h3
  unfold mixedShape at h3
  split at h3
  · rename_i a b c d e f g hat
    simp only [Bool.and_eq_true, decide_eq_true_eq] at h3
    obtain ⟨⟨⟨⟨⟨⟨⟨h5, h6⟩, h7⟩, h8⟩, h9⟩, h10⟩, h11⟩, h12⟩ := h3
    exact ⟨s, s', r, a, b, c, d, e, f, g, h1, h2, hr, hat, h5, h6, h7, h8, h9, h10, h11, h12, h4⟩
  · cases h3

/-- The state after the run has no step failure in its history either. -/
theorem mixed_after {s s' : State Nat 1 0 ℚ} {r : Res 1 ℚ} (h1 : ReachOk (scriptCfg mixed) s)
    (h2 : exec (scriptCfg mixed) 10 10 s go = some (s', r)) (h3 : r = .solved (.ok .success)) :
    ReachOk (scriptCfg mixed) s' :=
  .call 10 10 go r h1 h2 (by rw [h3]; intro e he; cases he)

/-! ## C25, C30, C31, C32, C56 -/

/-- `c25_order_in_range`, `c25_no_panic`. -/
example : ∃ s : State Nat 1 0 ℚ, getNumSteps s = 3 ∧ 1 ≤ getLastOrder s ∧ getCurrentOrder s ≤ 5 ∧
    (∀ rf sf tout tret task, solve (scriptCfg mixed) rf sf { s with tret := tret } tout task ≠ .panic) := by
  obtain ⟨s, s', r, a, b, c, d, e, f, g, h1, h2, h3, hat, ha, hb, hc, hd, he, hf, hg, hn, hn0⟩ := mixed_run
  have hR := (mixed_after h1 h2 h3).reach
  have h5 := (c25_order_in_range _ mixed_legal (by decide) s' hR).1 (by omega)
  exact ⟨s', hn, h5.1, h5.2.2.2, (c25_no_panic _ ⟨mixed_legal, (fun _ _ _ _ _ _ _ _ h => by cases h), rfl,
    by show 1 ≤ 5; omega, by show 5 ≤ 5; omega⟩ s' hR).1⟩

/-- `c31_step_counters`: three accepted attempts, three rejected ones, one convergence failure. -/
example : ∃ s : State Nat 1 0 ℚ, Reach (scriptCfg mixed) s ∧ getNumSteps s = 3 ∧ getNumErrTestFails s = 3 ∧
    getNumNonlinSolvConvFails s = 1 := by
  obtain ⟨s, s', r, a, b, c, d, e, f, g, h1, h2, h3, hat, ha, hb, hc, hd, he, hf, hg, hn, hn0⟩ := mixed_run
  have hR := (mixed_after h1 h2 h3).reach
  obtain ⟨-, h5, h6⟩ := c31_step_counters _ mixed_legal s' hR
  refine ⟨s', hR, hn, ?_, ?_⟩
  · rw [h5, hat]; simp [List.countP_cons, ha, hb, hc, hd, he, hf, hg]
  · rw [h6, hat]; simp [List.countP_cons, Att.nlsFailed, ha, hb, hc, hd, he, hf, hg]

/-- `c31_counters_monotone`, in a call that makes a step. -/
example : ∃ (s s' : State Nat 1 0 ℚ) (r : Res 1 ℚ), exec (scriptCfg mixed) 10 10 s go = some (s', r) ∧
    getNumSteps s < getNumSteps s' ∧ getNumErrTestFails s ≤ getNumErrTestFails s' := by
  obtain ⟨s, s', r, a, b, c, d, e, f, g, h1, h2, h3, hat, ha, hb, hc, hd, he, hf, hg, hn, hn0⟩ := mixed_run
  exact ⟨s, s', r, h2, by omega, (c31_counters_monotone _ mixed_legal 10 10 s s' go r h2).2.1⟩

/-- `c32_accepted_passed_test`, for each of the three accepted attempts. -/
example : ∃ (s : State Nat 1 0 ℚ) (a b g : Att 1 ℚ), [a, b, g].Sublist s.g.atts ∧ ∀ x ∈ [a, b, g],
    Scalar.le (x.ck * wrmsNorm (scriptCfg mixed).id x.ee x.ewt (scriptCfg mixed).suppressalg) 1 = true := by
  obtain ⟨s, s', r, a, b, c, d, e, f, g, h1, h2, h3, hat, ha, hb, hc, hd, he, hf, hg, hn, hn0⟩ := mixed_run
  have hR := (mixed_after h1 h2 h3).reach
  have key := c32_accepted_passed_test _ mixed_legal s' hR
  refine ⟨s', a, b, g, by rw [hat]; simp, fun x hx => ?_⟩
  simp only [List.mem_cons, List.not_mem_nil, or_false] at hx
  rcases hx with rfl | rfl | rfl
  · exact key _ (by rw [hat]; simp) ha
  · exact key _ (by rw [hat]; simp) hb
  · exact key _ (by rw [hat]; simp) hg

/-- `c30_solves_bounded`: any step of that solver calls the nonlinear solver at most 19 times. -/
example (s s' : State Nat 1 0 ℚ) (r : Except Err Unit) (h : step (scriptCfg mixed) s = .ret s' r) : s'.nls ≤ s.nls + 19 :=
  c30_solves_bounded (scriptCfg mixed) mixed_legal id
    (fun N e m y0 y w tol call N' m' ee r h =>
      (congrArg (fun o : NlOut Nat 1 ℚ => match o with | .ret N _ _ _ => N | _ => 0) h).symm) s s' r h

/-- `c56_perf_never_underflows`: nowhere during the calls after that run. -/
example : ∃ s : State Nat 1 0 ℚ, getNumSteps s = 3 ∧ ∀ s', Micros (scriptCfg mixed) s s' → perfCheck s' ≠ none := by
  obtain ⟨s, s', r, a, b, c, d, e, f, g, h1, h2, h3, hat, ha, hb, hc, hd, he, hf, hg, hn, hn0⟩ := mixed_run
  exact ⟨s', hn, fun x hx => c56_perf_never_underflows _ mixed_legal s' x (mixed_after h1 h2 h3).reach hx⟩

/-! ## C26 -/

/-- Seven attempts accepted. -/
def smooth7 : List (ℚ × Except Err Unit) := List.replicate 7 (1 / 100, .ok ())

theorem smooth7_legal : NlsLegal (scriptCfg smooth7) := legal_of _ (by decide +kernel)

/-- `c26_order_changes_partial`, `c26_current_order_partial`: orders 1, 1, 2, 3, 4, then 5. -/
example : ∃ s : State Nat 1 0 ℚ, ReachOk (scriptCfg smooth7) s ∧ (s.g.atts.map fun x => x.kk) = [4, 3, 2, 1, 1] ∧
    OrderRule s.g.atts ∧ getCurrentOrder s = getLastOrder s + 1 ∧
    (StartUp s.g.atts ∨ getLastOrder s + 2 ≤ runLength s.g.atts) := by
  obtain ⟨s, s', r, h1, h2, h3⟩ := one_more (cfg := scriptCfg smooth7) (rf := 10) (sf := 10) (ops := steps 4) (op := go)
    (s0 := script0) (P := fun s s' r => Res.isStatus .success r && decide ((s'.g.atts.map fun x => x.kk) = [4, 3, 2, 1, 1]) &&
      decide (getCurrentOrder s' = getLastOrder s' + 1) && decide (getNumSteps s' = 5)) (by decide +kernel) (script_new _)
  simp only [Bool.and_eq_true, decide_eq_true_eq, Res.isStatus_iff] at h3
  obtain ⟨⟨⟨rfl, h4⟩, h5⟩, h6⟩ := h3
  have hR : ReachOk (scriptCfg smooth7) s' := .call 10 10 go _ h1 h2 (by intro e he; cases he)
  exact ⟨s', hR, h4, c26_order_changes_partial _ smooth7_legal (by decide) (le_refl _) 10 10 s s' go _ h1 h2, h5,
    (c26_current_order_partial _ smooth7_legal (by decide) (le_refl _) s' hR (by omega)).2.2 h5⟩

/-! ## C27, C33 -/

/-- `c27_after_accepted`, `c27_after_test_failure` (first, second and third failure), `c27_after_convergence_failure`, on
the run above. -/
example : ∃ a b c d e f g : Att 1 ℚ,
    (∃ s, Reach (scriptCfg mixed) s ∧ s.g.atts = [a, b, c, d, e, f, g]) ∧
    (a.t0 = b.tnew ∧ ∃ k, 0 < k ∧ k ≤ 2 ∧ a.hh = k * b.hh) ∧
    b.hh = c.hh / 4 ∧ b.kk = 1 ∧ (c.hh = d.hh / 4 ∧ c.kk = d.kk) ∧ d.hh = e.hh / 4 ∧
    (∃ k, 1 / 4 ≤ k ∧ k ≤ 9 / 10 ∧ e.hh = k * f.hh) := by
  obtain ⟨s, s', r, a, b, c, d, e, f, g, h1, h2, h3, hat, ha, hb, hc, hd, he, hf, hg, hn, hn0⟩ := mixed_run
  have k1 := c27_after_accepted _ mixed_legal (by decide) (le_refl _) 10 10 s s' go r h1 h2 [] [c, d, e, f, g] a b hat hb
  have k2 := c27_after_test_failure _ mixed_legal (by decide) (le_refl _) 10 10 s s' go r h1 h2 [a] [d, e, f, g] b c hat hc
  have k3 := c27_after_convergence_failure _ mixed_legal (by decide) (le_refl _) 10 10 s s' go r h1 h2 [a, b] [e, f, g] c d _
    hat hd
  have k4 := c27_after_test_failure _ mixed_legal (by decide) (le_refl _) 10 10 s s' go r h1 h2 [a, b, c] [f, g] d e hat he
  have k5 := c27_after_test_failure _ mixed_legal (by decide) (le_refl _) 10 10 s s' go r h1 h2 [a, b, c, d] [g] e f hat hf
  have q2 : testFails [c, d, e, f, g] = 3 := by
    simp [testFails, sinceAccepted, isAccepted, isTestFail, List.takeWhile, List.countP_cons, hc, hd, he, hf, hg]
  have q4 : testFails [e, f, g] = 2 := by
    simp [testFails, sinceAccepted, isAccepted, isTestFail, List.takeWhile, List.countP_cons, he, hf, hg]
  have q5 : testFails [f, g] = 1 := by
    simp [testFails, sinceAccepted, isAccepted, isTestFail, List.takeWhile, List.countP_cons, hf, hg]
  obtain ⟨m1, k, m2, m3, m4, -⟩ := k1
  exact ⟨a, b, c, d, e, f, g, ⟨s', (mixed_after h1 h2 h3).reach, hat⟩, ⟨m1, k, m2, m3, m4⟩, k2.2.2.1 (by omega),
    k2.2.2.2.2 (by omega), ⟨k3.2.1, k3.2.2.1⟩, k4.2.2.1 (by omega), k5.2.1 q5⟩

/-- `c27_current_step`. -/
example : ∃ s : State Nat 1 0 ℚ, getNumSteps s = 3 ∧ ∃ c, 1 / 2 ≤ c ∧ c ≤ 2 ∧ getCurrentStep s = c * getLastStep s := by
  obtain ⟨s, s', r, h1, h2, h3⟩ := one_more (cfg := scriptCfg mixed) (rf := 10) (sf := 10) (ops := steps 2) (op := go)
    (s0 := script0) (P := fun s s' r => Res.isStatus .success r && decide (getNumSteps s' = 3) &&
      s'.g.atts.all fun x => decide (x.stop = none)) (by decide +kernel) (script_new _)
  simp only [Bool.and_eq_true, decide_eq_true_eq, Res.isStatus_iff, List.all_eq_true] at h3
  obtain ⟨⟨rfl, h4⟩, h5⟩ := h3
  exact ⟨s', h4, c27_current_step _ mixed_legal (by decide) (le_refl _) s' (mixed_after h1 h2 rfl) (by omega) h5⟩

/-- `c27_any_state`: a step from a state no history leads to (order 3 with an empty history array). -/
example : ∃ (s' : State Nat 1 0 ℚ) (x : Att 1 ℚ) (l : List (Att 1 ℚ)),
    step (scriptCfg mixed) { script0 with c.hh := 1, c.kk := 3, cnt.nst := 7 } = .ret s' (.ok ()) ∧ s'.g.atts = x :: l ∧
    ∃ c, 1 / 2 ≤ c ∧ c ≤ 2 ∧ getCurrentStep s' = c * x.hh := by
  have hd : (match step (scriptCfg mixed) { script0 with c.hh := 1, c.kk := 3, cnt.nst := 7 } with
    | .ret _ (.ok ()) => true | _ => false) = true := by decide +kernel
  split at hd
  · rename_i s' hs
    obtain ⟨x, l, h1, h2, h3⟩ := c27_any_state _ mixed_legal (le_refl _) _ s' _ (by simp [scriptCfg, Cfg.std])
      (by intro ts h; cases h) hs
    exact ⟨s', x, l, hs, by rw [h1]; exact List.append_nil _, (h3 rfl).2⟩
  · cases hd

/-- `c33_retry_partial`: the convergence failure of the run above is retried with a quarter of the step. -/
example : ∃ s : State Nat 1 0 ℚ, Reach (scriptCfg mixed) s ∧ ∃ x y p t, s.g.atts = p ++ x :: y :: t ∧
    y.out = .nlsFail (.ida (.recoverableFail .lSolve)) ∧ x.t0 = y.t0 ∧ x.hh = y.hh / 4 := by
  obtain ⟨s, s', r, a, b, c, d, e, f, g, h1, h2, h3, hat, ha, hb, hc, hd, he, hf, hg, hn, hn0⟩ := mixed_run
  rcases c33_retry_partial _ mixed_legal (by decide) (le_refl _) 10 10 s s' go r h1 h2 [a, b, c] [e, f, g] d .lSolve hat hd with
    ⟨p, x, hp, k1, k2, -⟩ | ⟨h, -⟩
  · have : p = [a, b] ∧ x = c := by
      have : [a, b] ++ [c] = p ++ [x] := hp
      have := List.append_inj' this rfl
      exact ⟨this.1.symm, (List.cons.inj this.2).1.symm⟩
    obtain ⟨rfl, rfl⟩ := this
    exact ⟨s', (mixed_after h1 h2 h3).reach, x, d, [a, b], [e, f, g], hat, hd, k1, k2⟩
  · cases h

/-- `c33_retry_partial`, second case: ten failures, then `ConvergenceFail`. -/
example : ∃ (s' : State Nat 1 0 ℚ) (r : Res 1 ℚ),
    exec (scriptCfg (List.replicate 12 recov)) 10 10 script0 go = some (s', r) ∧ s'.g.atts.length = 10 ∧
    r = .solved (.error (.ida .convergenceFail)) := by
  obtain ⟨s', r, h1, h2⟩ := exec_one (cfg := scriptCfg (List.replicate 12 recov)) (rf := 10) (sf := 10) (s := script0) (a := go)
    (P := fun s _ => match s.g.atts with
      | y :: t => decide (t.length = 9) && decide (y.out = .nlsFail (.ida (.recoverableFail .lSolve)))
      | [] => false) (by decide +kernel)
  split at h2
  · rename_i y t hat
    simp only [Bool.and_eq_true, decide_eq_true_eq] at h2
    rcases c33_retry_partial _ (legal_of _ (by decide +kernel)) (by decide) (le_refl _) 10 10 script0 s' go r (script_new _) h1 []
      t y .lSolve hat h2.2 with ⟨p, x, hp, -⟩ | ⟨-, -, h⟩
    · cases p <;> cases hp
    · exact ⟨s', r, h1, by rw [hat]; simp [h2.1], h⟩
  · cases h2

/-- `c33_other_errors_end_the_step`. -/
example : ∃ (s' : State Nat 1 0 ℚ), exec (scriptCfg [unrec]) 10 10 script0 go =
    some (s', .solved (.error (.other "sys"))) ∧ s'.g.atts.length = 1 := by
  obtain ⟨s', r, h1, h2⟩ := exec_one (cfg := scriptCfg [unrec]) (rf := 10) (sf := 10) (s := script0) (a := go)
    (P := fun s _ => match s.g.atts with
      | [y] => decide (y.out = .nlsFail (.other "sys"))
      | _ => false) (by decide +kernel)
  split at h2
  · rename_i y hat
    simp only [decide_eq_true_eq] at h2
    obtain ⟨-, h⟩ := c33_other_errors_end_the_step _ (legal_of _ (by decide +kernel)) (by decide) (le_refl _) 10 10 script0 s' go r
      (script_new _) h1 [] [] y _ (by intro x h; cases h) hat h2
    subst h
    exact ⟨s', h1, by rw [hat]; rfl⟩
  · cases h2

/-! ## C28, C29 -/

/-- `c28_max_step`, `c28_current_step`: five steps with `hmax = 3`, the last two of that size. -/
example : ∃ s : State Nat 1 0 ℚ, (s.g.atts.map fun x => x.hh) = [3, 3, 2, 1, 1] ∧ (∀ x ∈ s.g.atts, |x.hh| ≤ 3) ∧
    |getCurrentStep s| ≤ 3 ∧ |getLastStep s| ≤ 3 := by
  obtain ⟨s, l, hr, hp⟩ := run_witness (cfg := { scriptCfg smooth7 with hmaxInv := 1 / 3 }) (rf := 10) (sf := 10) (ops := steps 5)
    (s := script0) (P := fun s _ => decide ((s.g.atts.map fun x => x.hh) = [3, 3, 2, 1, 1]) && decide (getNumSteps s = 5))
    (by decide +kernel)
  simp only [Bool.and_eq_true, decide_eq_true_eq] at hp
  have hR : Reach { scriptCfg smooth7 with hmaxInv := 1 / 3 } s := run_reach _ (.new 0 (fun _ => 1) (fun _ => -1) none) hr
  have hl : NlsLegal { scriptCfg smooth7 with hmaxInv := 1 / 3 } := smooth7_legal
  have := c28_current_step _ hl 3 (by norm_num) rfl s hR (by omega)
  exact ⟨s, hp.1, fun x hx => c28_max_step _ hl 3 (by norm_num) rfl s hR x hx, this⟩

/-- `c29_times_monotone`, `c29_first_direction`, `c29_direction_kept`: backwards in time, times `0, -1, -2, -4`. -/
example : ∃ s s' : State Nat 1 0 ℚ, (s'.g.acc.map fun x => x.1) = [-4, -2, -1, 0] ∧ getNumSteps s = 2 ∧
    (s'.g.acc.Pairwise fun a b => 0 < (a.1 - b.1) * getCurrentStep s') ∧ 0 < getCurrentStep s * getCurrentStep s' := by
  obtain ⟨s, s', r, h1, h2, h3⟩ := one_more (cfg := scriptCfg smooth7) (rf := 10) (sf := 10)
    (ops := List.replicate 2 (.solve (-1000) 0 .oneStep)) (op := .solve (-1000) 0 .oneStep)
    (s0 := script0) (P := fun s s' r => Res.isStatus .success r && decide ((s'.g.acc.map fun x => x.1) = [-4, -2, -1, 0]) &&
      decide (getNumSteps s = 2) && decide (getNumSteps s' = 3)) (by decide +kernel) (script_new _)
  simp only [Bool.and_eq_true, decide_eq_true_eq, Res.isStatus_iff] at h3
  obtain ⟨⟨⟨rfl, h4⟩, h5⟩, h6⟩ := h3
  have hR : Reach (scriptCfg smooth7) s' := .call 10 10 _ _ h1.reach h2
  exact ⟨s, s', h4, h5, (c29_times_monotone _ smooth7_legal (le_refl _) s' hR (by omega)).1,
    (c29_direction_kept _ smooth7_legal (le_refl _) 10 10 s s' _ _ h1.reach (by omega) h2).1⟩

example : ∃ s' : State Nat 1 0 ℚ, getNumSteps s' = 1 ∧ getCurrentStep s' < 0 := by
  obtain ⟨s', r, h1, h2⟩ := exec_one (cfg := scriptCfg smooth7) (rf := 10) (sf := 10) (s := script0) (a := .solve (-1000) 0 .oneStep)
    (P := fun s _ => decide (getNumSteps s = 1)) (by decide +kernel)
  simp only [decide_eq_true_eq] at h2
  have := c29_first_direction _ smooth7_legal (le_refl _) 10 10 script0 s' (-1000) 0 .oneStep r (script_new _).reach rfl
    (by omega) h1
  exact ⟨s', h2, by nlinarith⟩

/-! ## C36, C37 -/

/-- `c36_first_call`, `c36_at_most_one`: the first call in one-step mode. -/
example : ∃ s' : State Nat 1 0 ℚ, solve (scriptCfg smooth7) 10 10 script0 1000 .oneStep = .ret s' (.ok .success) ∧
    getNumSteps s' = 1 ∧ getNumSteps script0 ≤ getNumSteps s' := by
  obtain ⟨s', r, h1, h2⟩ := solve_one (cfg := scriptCfg smooth7) (rf := 10) (sf := 10) (s := script0) (t := 1000)
    (task := .oneStep) (P := fun _ r => isOk .success r) (by decide +kernel)
  rw [isOk_iff] at h2; subst h2
  exact ⟨s', h1, c36_first_call _ 10 10 script0 s' 1000 rfl h1, (c36_at_most_one _ 10 10 script0 s' 1000 _ h1).1⟩

/-- `c37_at_most_mxstep`, `c37_limit`: with `mxstep = 4` a call in normal mode toward 1000 ends after four steps, at time 8. -/
example : ∃ s' : State Nat 1 0 ℚ, solve { scriptCfg smooth7 with mxstep := 4 } 10 10 script0 1000 .normal =
    .ret s' (.error (.ida .illegalInput)) ∧ getNumSteps s' = 4 ∧ s'.tret = 8 ∧ getNumSteps s' ≤ getNumSteps script0 + 4 := by
  obtain ⟨s', r, h1, h2⟩ := solve_one (cfg := { scriptCfg smooth7 with mxstep := 4 }) (rf := 10) (sf := 10) (s := script0)
    (t := 1000) (task := .normal)
    (P := fun s r => (match r with | .error _ => true | .ok _ => false) && decide (getNumSteps s = 4) &&
      decide (getCurrentTime s = (8 : ℚ))) (by decide +kernel)
  simp only [Bool.and_eq_true, decide_eq_true_eq] at h2
  obtain ⟨⟨h2, h3⟩, h4⟩ := h2
  split at h2
  · rename_i e
    obtain ⟨rfl, h6⟩ := c37_limit { scriptCfg smooth7 with mxstep := 4 } (show 0 < 4 by omega) 10 10 script0 s' 1000 .normal e h1 h3
    exact ⟨s', h1, h3, by rw [h6]; exact h4,
      c37_at_most_mxstep { scriptCfg smooth7 with mxstep := 4 } (show 0 < 4 by omega) 10 10 script0 s' 1000 .normal _ h1⟩
  · cases h2

/-- `c37_terminates_no_roots`, `c37_terminates_with_roots`: from the starting state, for any `tout`. -/
example (tout : ℚ) (task : Task) : (∀ rf sf, 500 < sf → solve (scriptCfg mixed) rf sf script0 tout task ≠ .diverge) ∧
    ∃ rf0, ∀ rf, rf0 ≤ rf → ∀ sf, 500 < sf → solve (scriptCfg mixed) rf sf script0 tout task ≠ .diverge :=
  ⟨fun rf sf h => c37_terminates_no_roots (scriptCfg mixed) (show 0 < 500 by omega) mixed_legal (scriptCfg_returns _) rf sf h _ _ _,
   c37_terminates_with_roots (scriptCfg mixed) (show 0 < 500 by omega) mixed_legal (scriptCfg_returns _) (le_refl _)
    (fun N e m y0 y w tol call N' m' ee r h => ⟨[], by cases h; rfl⟩) script0 (script_new _).reach tout task⟩

end Verif.Props
