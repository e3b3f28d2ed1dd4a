import Verif.Proofs.AttOrd
import Verif.Proofs.NoPanic
import Verif.Model.Io
import Verif.Witness

/-!
# Internal steps: order range, panics, attempt bound, counters, error test (C25, C30, C31, C32, C56)

Everything in this file holds for an arbitrary scalar type without laws, hence also for binary64 with NaN.

`s.g.atts` lists the attempts of internal steps made in the history of `s` (one entry per nonlinear solve, see
`c30_attempts_are_solves`).
-/

set_option autoImplicit false
set_option linter.unusedSectionVars false
set_option linter.unusedSimpArgs false
set_option linter.unusedVariables false

namespace Verif.Props

open Verif Verif.Spec

universe u v

section
variable {ν : Type v} {n q : Nat} {K : Type u} [Scalar K]

/-! ## C25 -/

/-- **C25, orders.** In every history the orders reported by `get_last_order` and `get_current_order` after the first
accepted step, and the order of every attempt, are between one and the maximum order. -/
theorem c25_order_in_range (cfg : Cfg ν n q K) (hl : NlsLegal cfg) (hm : 1 ≤ cfg.maxord) (s : State ν n q K)
    (h : Reach cfg s) :
    (0 < getNumSteps s → 1 ≤ getLastOrder s ∧ getLastOrder s ≤ cfg.maxord ∧
      1 ≤ getCurrentOrder s ∧ getCurrentOrder s ≤ cfg.maxord) ∧
    (∀ x ∈ s.g.atts, 1 ≤ x.kk ∧ x.kk ≤ cfg.maxord) := by
  have ho := h.ord hl hm
  refine ⟨fun h0 => ?_, h.attOrd hl hm⟩
  have h1 := ho.kk h0
  refine ⟨?_, ho.kusedm, h1.1, h1.2⟩
  have h2 : s.c.kused ≠ 0 := fun h => by have := ho.kused0.1 h; unfold getNumSteps at h0; omega
  exact Nat.pos_of_ne_zero h2

/-- **C25, panics.** If the nonlinear solver does not panic and follows the protocol, no call of `solve` or
`get_solution` panics, in any history. -/
theorem c25_no_panic (cfg : Cfg ν n q K) (hc : NoPanicCfg cfg) (s : State ν n q K) (h : Reach cfg s) :
    (∀ rf sf tout tret task, solve cfg rf sf { s with tret := tret } tout task ≠ .panic) ∧
    ∀ t, getSolution s t ≠ .panic := by
  have hs := h.sane hc.legal hc.maxord1
  refine ⟨fun rf sf tout tret task => ?_, fun t => (getSolution_noPanic (hs.kused hc) t).1⟩
  exact solve_noPanic hc ⟨⟨hs.ord.kk, hs.ord.kusedm, hs.ord.kused0⟩, ⟨hs.perf.nst, hs.perf.nni⟩⟩

/-- The configurations of the table-driven solver satisfy the hypotheses. -/
theorem scriptCfg_legal (l : List (ℚ × Except Err Unit)) (h : ∀ p ∈ l, ∀ e, p.2 = .error e → e.fromNls) :
    NlsLegal (Witness.scriptCfg l) := by
  intro N e m y0 y w tol call N' m' ee err hs
  have h2 : (Witness.table l N).2 = .error err := by
    have := congrArg (fun o : NlOut Nat 1 ℚ => match o with | .ret _ _ _ r => r | _ => .ok ()) hs
    exact this
  unfold Witness.table at h2
  cases hx : l[N]? with
  | none => rw [hx] at h2; cases h2
  | some p =>
    rw [hx] at h2
    exact h p (List.mem_of_getElem? hx) err h2

theorem scriptCfg_noPanic (l : List (ℚ × Except Err Unit)) (h : ∀ p ∈ l, ∀ e, p.2 = .error e → e.fromNls) :
    NoPanicCfg (Witness.scriptCfg l) :=
  ⟨scriptCfg_legal l h, (fun _ _ _ _ _ _ _ _ h => by cases h), rfl, by show 1 ≤ 5; omega, by show 5 ≤ 5; omega⟩

theorem scriptCfg_returns (l : List (ℚ × Except Err Unit)) : NlsReturns (Witness.scriptCfg l) :=
  fun _ _ _ _ _ _ _ _ h => by cases h

/-- Seven accepted steps reach order five. -/
example : ((Witness.run (Witness.scriptCfg (List.replicate 7 (1 / 100, .ok ()))) 10 10 (Witness.steps 7) Witness.script0).map
    fun p => (getNumSteps p.1, getLastOrder p.1, getCurrentOrder p.1)) = some (7, 5, 5) := by decide +kernel

/-! ## C30 -/

/-- A function of the nonlinear solver's state that counts its calls. -/
def CountsCalls (cfg : Cfg ν n q K) (c : ν → Nat) : Prop :=
  ∀ N e m y0 y w tol call N' m' ee r, cfg.nls.solve N e m y0 y w tol call = .ret N' m' ee r → c N' = c N + 1

/-- The number of recorded attempts is the number of calls of the nonlinear solver, in one step. -/
theorem c30_attempts_are_solves (cfg : Cfg ν n q K) (hl : NlsLegal cfg) (c : ν → Nat) (hc : CountsCalls cfg c)
    (s s' : State ν n q K) (r : Except Err Unit) (h : step cfg s = .ret s' r) :
    c s'.nls + s.g.atts.length = c s.nls + s'.g.atts.length := by
  have hi := firstStepInit_cnt s
  have hn : (firstStepInit s).nls = s.nls := by unfold firstStepInit; split <;> rfl
  have hmem : ∀ {s1 : State ν n q K} {N' : ν} {m' : Mem n K}, MemAfter cfg s1 N' m' → c N' = c s1.nls + 1 := by
    intro s1 N' m' hm
    obtain ⟨m, ee, r, hm, -⟩ := hm
    exact hc _ _ _ _ _ _ _ _ _ _ _ _ hm
  have := step_rule (cfg := cfg) (fun s1 _ => c s1.nls + s.g.atts.length = c s.nls + s1.g.atts.length)
    (fun s1 => c s1.nls + s.g.atts.length = c s.nls + s1.g.atts.length)
    (fun s1 _ => c s1.nls + s.g.atts.length = c s.nls + s1.g.atts.length)
    (by rw [hn, hi.2.1])
    (fun s1 f s2 f' hI h => by
      have h1 := hmem (attempt_again_m h).1
      obtain ⟨err, a, b, s5, s6, hR, hH, rfl⟩ := attempt_again' hl h
      obtain ⟨ee, hg⟩ := hR.ghost
      rw [h1, (ite_reset_ctl s6 (s6.cnt.nst = 0)).2.2.2.1, (handled_ctl hH).2.2.2.2.2.2.2.1, hg]
      simp only [List.length_cons]
      omega)
    (fun s1 f s2 ck a b s' hI h hcs => by
      have h1 := hmem (attempt_done_m h).1
      obtain ⟨s3, h3, -, -, -, -, rfl⟩ := attempt_done h
      have hC := completeStep_eq hcs
      show c s'.nls + _ = _ + s'.g.atts.length
      rw [hC.nls, h1, hC.g, done_ghost h3]
      simp only [List.length_cons]
      omega)
    (fun s1 f s2 e hI h => by
      have h1 := hmem (attempt_fail_m h).1
      obtain ⟨err, a, b, f', s5, hR, hH⟩ := attempt_fail' hl h
      obtain ⟨ee, hg⟩ := hR.ghost
      rw [h1, (handled_ctl hH).2.2.2.2.2.2.2.1, hg]
      simp only [List.length_cons]
      omega) h
  rcases this with ⟨-, h⟩ | ⟨e, -, h⟩ <;> exact h

/-- **C30.** One internal step, from any state whatsoever: if the nonlinear solver always returns, the step returns (the
fuel of the model's loop is never exhausted), and it makes at most `max(maxnef, 3) + max(maxncf, 1) - 1` nonlinear
solves. -/
theorem c30_attempts_bounded (cfg : Cfg ν n q K) (hl : NlsLegal cfg) (s : State ν n q K) :
    (NlsReturns cfg → step cfg s ≠ .diverge) ∧
    ∀ s' r, step cfg s = .ret s' r →
      s'.g.atts.length ≤ s.g.atts.length + (max cfg.maxnef 3 + max cfg.maxncf 1 - 1) := by
  have := stepLoop_attempts (cfg := cfg) (t0 := s.e.tn) hl s.g.atts.length (max cfg.maxnef 3 + cfg.maxncf + 1)
    (s := firstStepInit s) (f := { ncf := 0, nef := 0 }) ⟨by show 0 < _; omega, by show 0 < _; omega⟩
    (by rw [(firstStepInit_cnt s).2.1]; rfl) (by show _ ≤ _ + 0 + 0; omega)
  exact ⟨fun hr h => this.1 h hr, this.2⟩

/-- **C30 in terms of calls of the nonlinear solver.** -/
theorem c30_solves_bounded (cfg : Cfg ν n q K) (hl : NlsLegal cfg) (c : ν → Nat) (hc : CountsCalls cfg c)
    (s s' : State ν n q K) (r : Except Err Unit) (h : step cfg s = .ret s' r) :
    c s'.nls ≤ c s.nls + (max cfg.maxnef 3 + max cfg.maxncf 1 - 1) := by
  have h1 := (c30_attempts_bounded cfg hl s).2 s' r h
  have h2 := c30_attempts_are_solves cfg hl c hc s s' r h
  omega

/-- The table-driven solver counts its calls. -/
example (l : List (ℚ × Except Err Unit)) : CountsCalls (Witness.scriptCfg l) id := by
  intro N e m y0 y w tol call N' m' ee r h
  have := congrArg (fun o : NlOut Nat 1 ℚ => match o with | .ret N _ _ _ => N | _ => 0) h
  exact this.symm

/-- The bound is attained: 18 = 10 + 10 - 2 failures of both kinds, then an attempt that succeeds or fails. -/
example : ((Witness.run (Witness.scriptCfg (List.replicate 9 ((0 : ℚ), .error (.ida (.recoverableFail .lSolve))) ++
      List.replicate 10 (1000, .ok ()))) 10 10 [.solve 1000 0 .oneStep] Witness.script0).map
    fun p => (p.1.nls, getNumErrTestFails p.1, getNumNonlinSolvConvFails p.1)) = some (19, 10, 9) := by decide +kernel

/-! ## C31 -/

/-- **C31, step counters.** In every history `get_num_steps`, `get_num_err_test_fails` and
`get_num_nonlin_solv_conv_fails` are the numbers of attempts accepted, rejected by the error test, and failed in the
nonlinear solver. -/
theorem c31_step_counters (cfg : Cfg ν n q K) (hl : NlsLegal cfg) (s : State ν n q K) (h : Reach cfg s) :
    getNumSteps s = s.g.atts.countP (fun x => decide (x.out = .accepted)) ∧
    getNumErrTestFails s = s.g.atts.countP (fun x => decide (x.out = .testFail)) ∧
    getNumNonlinSolvConvFails s = s.g.atts.countP Att.nlsFailed :=
  ⟨(h.count hl).nst, (h.count hl).netf, (h.count hl).ncfn⟩

/-- **C31, monotonicity.** No public call decreases these counters. -/
theorem c31_counters_monotone (cfg : Cfg ν n q K) (hl : NlsLegal cfg) (rf sf : Nat) (s s' : State ν n q K) (op : Op K)
    (r : Res n K) (h : exec cfg rf sf s op = some (s', r)) :
    getNumSteps s ≤ getNumSteps s' ∧ getNumErrTestFails s ≤ getNumErrTestFails s' ∧
    getNumNonlinSolvConvFails s ≤ getNumNonlinSolvConvFails s' :=
  ⟨(exec_cntLe hl h).nst, (exec_cntLe hl h).netf, (exec_cntLe hl h).ncfn⟩

/-- **C31, root-function calls (partial).** A public call increases `get_num_g_evals` by the number of calls of the
user's root function it makes, provided a step has been accepted before or no root function has been called yet.
Missing: a repeated first call, where the claim is false (`c31_g_evals_refuted`). -/
theorem c31_g_evals_partial (cfg : Cfg ν n q K) (hu : NlsUses cfg) (rf sf : Nat) (s s' : State ν n q K) (op : Op K)
    (r : Res n K) (hs : 0 < getNumSteps s ∨ getNumGEvals s = 0) (h : exec cfg rf sf s op = some (s', r)) :
    getNumGEvals s' + rootCalls s.m = getNumGEvals s + rootCalls s'.m :=
  exec_rootCounted (nlsUses_noRoot hu) hs h

/-- The decay problem with a root function that is never zero. -/
def rootDecay : Problem 1 1 ℚ where
  res _ y yp _ := fun i => yp i + y i
  jac _ cj _ _ _ _ := fun _ _ => cj + 1
  root _ _ _ _ := fun _ => 1

/-- A nonlinear solver that fails unrecoverably on its first call. -/
def failOnce : Cfg Nat 1 1 ℚ :=
  Cfg.std rootDecay (fun _ _ _ => 1) (Witness.script (Witness.table [(0, .error (.other "sys"))]))

/-- **C31, root-function calls: refutation.** When the first call of `solve` fails in its first step and is repeated,
`get_num_g_evals` forgets the root-function calls made before (`r_check1` sets the counter to one). -/
theorem c31_g_evals_refuted : ∃ s : State Nat 1 1 ℚ, Reach failOnce s ∧ getNumGEvals s < rootCalls s.m := by
  have hd : ((Witness.run failOnce 10 10 [.solve 1000 0 .oneStep, .solve 1000 0 .oneStep]
      (State.new 0 (fun _ => 1) (fun _ => -1))).map fun p => decide (getNumGEvals p.1 < rootCalls p.1.m)) =
        some true := by decide +kernel
  obtain ⟨s, l, hr, hp⟩ := Witness.run_witness (P := fun s _ => decide (getNumGEvals s < rootCalls s.m)) hd
  exact ⟨s, Witness.run_reach _ (.new 0 (fun _ => 1) (fun _ => -1) none) hr, by simpa using hp⟩

/-! ## C32 -/

/-- **C32.** Every accepted step of every history passed the local error test: error coefficient times weighted norm of
the correction is at most one, with the weights in force during that step. -/
theorem c32_accepted_passed_test (cfg : Cfg ν n q K) (hl : NlsLegal cfg) (s : State ν n q K) (h : Reach cfg s)
    (x : Att n K) (hx : x ∈ s.g.atts) (ho : x.out = .accepted) :
    Scalar.le (x.ck * wrmsNorm cfg.id x.ee x.ewt cfg.suppressalg) 1 = true :=
  (h.count hl).passed x hx ho

/-! ## C56 -/

/-- **C56.** Wherever `ls_perf(_, true)` runs in a call of `solve`, in any history, its unsigned subtractions do not
underflow. -/
theorem c56_perf_never_underflows (cfg : Cfg ν n q K) (hl : NlsLegal cfg) (s s' : State ν n q K) (h : Reach cfg s)
    (hs : Micros cfg s s') : perfCheck s' ≠ none := by
  have h1 : PerfOk s' := hs.inv (P := PerfOk) (fun _ _ hI hm => hI.micro hl hm) (h.perf hl)
  obtain ⟨s2, h2⟩ := perfCheck_some h1
  rw [h2]
  intro h; cases h

end

end Verif.Props
