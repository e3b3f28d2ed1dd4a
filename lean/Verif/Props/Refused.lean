import Verif.Proofs.RootEnd
import Verif.Props.Root

/-!
# Refused calls (C57, C58) and calls with root functions that end (C37)
-/

set_option autoImplicit false
set_option linter.unusedSectionVars false
set_option linter.unusedSimpArgs false
set_option linter.unusedVariables false

namespace Verif.Props

open Verif Verif.Spec

universe u v

section
variable {ν : Type v} {n q : Nat} {K : Type u} [Field K] [LinearOrder K] [IsStrictOrderedRing K] [ExactParams K]
  [EpsLaws K]

/-! ## C37 -/

/-- **C37, termination with root functions.** In every history, if the nonlinear solver follows the protocol, always
returns and only appends to the log of calls, then every call of `solve` returns or panics: some number of turns of the
root search suffices for all searches of the call, and `mxstep + 1` passes of the step loop. -/
theorem c37_terminates_with_roots [Archimedean K] (cfg : Cfg ν n q K) (hx : 0 < cfg.mxstep) (hl : NlsLegal cfg)
    (hn : NlsReturns cfg) (hm : 0 ≤ cfg.hmaxInv) (hk : NlsKeepsLog cfg) (s : State ν n q K) (h : Reach cfg s) (tout : K)
    (task : Task) :
    ∃ rf0, ∀ rf, rf0 ≤ rf → ∀ sf, cfg.mxstep < sf → solve cfg rf sf s tout task ≠ .diverge := by
  have hC := h.ctl hl hm
  obtain ⟨rf0, hr⟩ := exists_enough hC tout
  exact ⟨rf0, fun rf hrf sf hsf => solve_ends_root hl hm hk hx hsf (fun s _ => (c30_attempts_bounded cfg hl s).1 hn) hC
    (h.root hl hm hk) (hr rf hrf)⟩

/-! ## C57, C58 -/

/-- `tout` before the last step lies behind the internal time. -/
theorem before_behind {cfg : Cfg ν n q K} {s : State ν n q K} (hC : CtlInv cfg s) (hn : 0 < s.cnt.nst) {t : K}
    (h : BeforeLastStep s t) : 0 ≤ (s.e.tn - t) * s.c.hh := by
  have hu := hC.used hn
  have heps := EpsLaws.eps_pos (K := K)
  have hf : 0 ≤ 100 * ExactParams.eps * (|s.e.tn| + |s.c.hh|) := by positivity
  rcases h with ⟨h1, h2⟩ | ⟨h1, h2⟩
  · have h3 : 0 < s.c.hused := pos_of_mul_pos_right hu h1.le
    exact mul_nonneg (by linarith) h1.le
  · have h3 : s.c.hused < 0 := by
      by_contra hx
      exact absurd hu (not_lt.2 (mul_nonpos_of_nonpos_of_nonneg h1.le (not_lt.1 hx)))
    exact mul_nonneg_of_nonpos_of_nonpos (by linarith) h1.le

theorem not_pastStop {cfg : Cfg ν n q K} {s : State ν n q K} (hC : CtlInv cfg s) (hn : 0 < s.cnt.nst) : pastStop s = false := by
  unfold pastStop
  split
  · rename_i ts h
    have := hC.stop hn ts h
    simp only [Scalar.gt, ex_lt, decide_eq_false_iff_not, not_lt]
    exact this
  · rfl

/-- A call whose `tout` is behind the internal time, without root functions. -/
theorem solve_behind {cfg : Cfg ν n 0 K} {s : State ν n 0 K} (hC : CtlInv cfg s) (hn : 0 < s.cnt.nst) {tout : K}
    (h : BeforeLastStep s tout) (ht : tout ≠ s.tretlast) (rf sf : Nat) :
    solve cfg rf sf s tout .normal = .ret (perfReset (begun s tout .normal)) (.error (.ida .badTimeValue)) := by
  rw [solve_eq, if_neg (by omega)]
  unfold laterCall
  rw [if_neg (by omega)]
  simp only
  have h1 : stopTest1 (perfReset (begun s tout .normal)) tout .normal =
      .ret (perfReset (begun s tout .normal)) (.error (.ida .badTimeValue)) := by
    unfold stopTest1
    rw [show pastStop (perfReset (begun s tout .normal)) = pastStop s from rfl, not_pastStop hC hn]
    simp only [Bool.false_eq_true, if_false]
    rw [if_neg, if_pos]
    · rw [getSolution_eq, if_pos]
      · rfl
      · rw [badTime_iff]; exact h
    · simp only [Scalar.ge, ex_le, decide_eq_true_eq]
      exact before_behind hC hn h
    · rw [ex_eqb, decide_eq_true_eq]; exact ht
  rw [h1]
  rfl

theorem solve_congr {cfg : Cfg ν n q K} {rf sf : Nat} {x y : State ν n q K} {tout : K} {task : Task} (hx : x.cnt.nst ≠ 0)
    (hy : y.cnt.nst ≠ 0) (h : perfReset (begun x tout task) = perfReset (begun y tout task)) :
    solve cfg rf sf x tout task = solve cfg rf sf y tout task := by
  rw [solve_eq, solve_eq, if_neg hx, if_neg hy, h]

theorem begun_normal (s : State ν n q K) (t : K) :
    begun s t .normal = { s with r := { s.r with toutc := t, taskc := .normal } } := by
  unfold begun
  rw [if_pos rfl]

theorem perfReset_begun_again (s : State ν n q K) (tret tret2 t t2 : K) :
    perfReset (begun { perfReset (begun { s with tret := tret } t .normal) with tret := tret2 } t2 .normal) =
      perfReset (begun { s with tret := tret2 } t2 .normal) := by
  simp only [begun_normal, perfReset]

/-- **C58 without root functions.** In every history with at least one internal step: `solve(tout, Normal)` with `tout` before
the last internal step (and not the time returned last) returns `BadTimeValue`, and leaves the internal time, the returned
time, the step count and the vectors as they are.

*Missing from the English claim:* root functions; with them it is false, see `c58_past_tout_refuted`. -/
theorem c58_past_tout_partial (cfg : Cfg ν n 0 K) (hl : NlsLegal cfg) (hm : 0 ≤ cfg.hmaxInv) (rf sf : Nat)
    (s : State ν n 0 K) (h : Reach cfg s) (hn : 0 < getNumSteps s) (tout tret : K) (hb : BeforeLastStep s tout)
    (ht : tout ≠ s.tretlast) :
    ∃ s', exec cfg rf sf s (.solve tout tret .normal) = some (s', .solved (.error (.ida .badTimeValue))) ∧
      getCurrentTime s' = getCurrentTime s ∧ s'.tret = tret ∧ getNumSteps s' = getNumSteps s ∧ s'.m = s.m ∧ s'.h = s.h := by
  refine ⟨perfReset (begun { s with tret := tret } tout .normal), ?_, rfl, rfl, rfl, rfl, rfl⟩
  unfold exec
  simp only
  rw [solve_behind (s := { s with tret := tret }) (setTret_reach_ctl hl hm h tret) hn hb ht]

/-- **C57 without root functions.** In every history with at least one internal step: after `solve(tout, Normal)` was refused
because `tout` is before the last internal step, any call of `solve` in normal mode and `get_solution` have exactly the
outcome they would have had without the refused call.

*Missing from the English claim:* root functions; with them it is false, see `c57_refused_refuted`. Calls of `solve` in
one-step mode leave a different value of `toutc`, which is not observable without root functions, behind. -/
theorem c57_refused_partial (cfg : Cfg ν n 0 K) (hl : NlsLegal cfg) (hm : 0 ≤ cfg.hmaxInv) (rf sf : Nat)
    (s : State ν n 0 K) (h : Reach cfg s) (hn : 0 < getNumSteps s) (tout tret : K) (hb : BeforeLastStep s tout)
    (ht : tout ≠ s.tretlast) (s' : State ν n 0 K) (r : Res n K)
    (hs : exec cfg rf sf s (.solve tout tret .normal) = some (s', r)) :
    r = .solved (.error (.ida .badTimeValue)) ∧
    (∀ rf sf t2 tret2, exec cfg rf sf s' (.solve t2 tret2 .normal) = exec cfg rf sf s (.solve t2 tret2 .normal)) ∧
    (∀ t, solutionAt s' t = solutionAt s t) := by
  unfold exec at hs
  simp only at hs
  rw [solve_behind (s := { s with tret := tret }) (setTret_reach_ctl hl hm h tret) hn hb ht] at hs
  cases hs
  refine ⟨rfl, fun rf sf t2 tret2 => ?_, fun t => solutionAt_congr (s := s) (s' := perfReset (begun { s with tret := tret } tout .normal)) rfl rfl rfl t⟩
  unfold exec
  simp only
  have : solve cfg rf sf { perfReset (begun { s with tret := tret } tout .normal) with tret := tret2 } t2 .normal =
      solve cfg rf sf { s with tret := tret2 } t2 .normal := by
    have hn : s.cnt.nst ≠ 0 := by unfold getNumSteps at hn; omega
    exact solve_congr hn hn (perfReset_begun_again s tret tret2 tout t2)
  rw [this]

end

/-! ## Concrete runs -/

section
attribute [local instance] ratParams ratEps

theorem timed_run3 {g : ℚ → ℚ} {a b c : Op ℚ} {P : State Nat 1 1 ℚ → Res 1 ℚ → State Nat 1 1 ℚ → Res 1 ℚ → Bool}
    (h : ((exec (timedCfg g []) 100 10 timed0 a).bind fun w => (exec (timedCfg g []) 100 10 w.1 b).bind fun x =>
      (exec (timedCfg g []) 100 10 x.1 c).map fun y => P x.1 x.2 y.1 y.2) = some true) :
    ∃ s1 r1 s2 r2, Reach (timedCfg g []) s1 ∧ exec (timedCfg g []) 100 10 s1 c = some (s2, r2) ∧ P s1 r1 s2 r2 = true := by
  obtain ⟨s1, r1, s2, r2, s3, r3, h1, h2, h3, h4⟩ := Witness.exec_three (P := fun _ _ x rx y ry => P x rx y ry) h
  exact ⟨s2, r2, s3, r3, .call _ _ _ _ (.call _ _ _ _ (.new _ _ _ none) h1) h2, h3, h4⟩

/-- **C58: refutation.** With a root function, `t - 1/2`, the internal time 2 and the time returned last `3/2`, the call
`solve(-5, Normal)` is not refused: it searches from `3/2` back to `-5`, and returns `Root` at `1/2`, before the last step. -/
theorem c58_past_tout_refuted : ∃ s s' : State Nat 1 1 ℚ, Reach (timedCfg (ramp (1 / 2)) []) s ∧ s.tret = 3 / 2 ∧
    s.e.tn = 2 ∧ s.c.hused = 1 ∧ BeforeLastStep s (-5) ∧ (-5 : ℚ) ≠ s.tretlast ∧
    exec (timedCfg (ramp (1 / 2)) []) 100 10 s (.solve (-5) 0 .normal) = some (s', .solved (.ok .root)) ∧
    s'.tret = 1 / 2 := by
  obtain ⟨s1, r1, s2, r2, h1, h2, h3⟩ := timed_run3 (g := ramp (1 / 2)) (a := .solve 1000 0 .oneStep)
    (b := .solve (3 / 2) 0 .normal) (c := .solve (-5) 0 .normal)
    (P := fun s r s' r' => Witness.Res.isStatus .root r' && badTime s (-5) &&
      decide (s.tret = (3 / 2 : ℚ) ∧ s.e.tn = (2 : ℚ) ∧ s.c.hused = (1 : ℚ) ∧ s.tretlast = (3 / 2 : ℚ) ∧ s'.tret = (1 / 2 : ℚ)))
    (by decide +kernel)
  simp only [Bool.and_eq_true, decide_eq_true_eq, Witness.Res.isStatus_iff, badTime_iff] at h3
  obtain ⟨⟨rfl, h4⟩, h5, h6, h7, h8, h9⟩ := h3
  exact ⟨s1, s2, h1, h5, h6, h7, h4, by rw [h8]; norm_num, h2, h9⟩

/-- Positive before `-2`, negative up to 0, positive up to `13/8`, then negative. -/
def pulses (t : ℚ) : ℚ := if t < -2 then 1 else if t < 0 then -1 else if t < 13 / 8 then 1 else -1

/-- **C57: refutation.** With a root function: `solve(7/4, Normal)` returns `Root` at `13/8`; but if `solve(-5, Normal)` is
called before, which is refused, the same call returns `Root` at `-2` — before the initial time. (The refused call has
moved the start of the next search to `-5`.) -/
theorem c57_refused_refuted : ∃ s s1 s2 s3 : State Nat 1 1 ℚ, Reach (timedCfg pulses []) s ∧
    exec (timedCfg pulses []) 100 10 s (.solve (7 / 4) 0 .normal) = some (s1, .solved (.ok .root)) ∧ s1.tret = 13 / 8 ∧
    exec (timedCfg pulses []) 100 10 s (.solve (-5) 0 .normal) = some (s2, .solved (.error (.ida .badTimeValue))) ∧
    exec (timedCfg pulses []) 100 10 s2 (.solve (7 / 4) 0 .normal) = some (s3, .solved (.ok .root)) ∧ s3.tret = -2 := by
  obtain ⟨s, r, s2, r2, h1, h2, h3⟩ := timed_run3 (g := pulses) (a := .solve 1000 0 .oneStep)
    (b := .solve (3 / 2) 0 .normal) (c := .solve (-5) 0 .normal)
    (P := fun s r s' r' => Witness.Res.isError .badTimeValue r' &&
      (match exec (timedCfg pulses []) 100 10 s (.solve (7 / 4) 0 .normal) with
        | some (x, rx) => Witness.Res.isStatus .root rx && decide (x.tret = (13 / 8 : ℚ))
        | none => false) &&
      (match exec (timedCfg pulses []) 100 10 s' (.solve (7 / 4) 0 .normal) with
        | some (x, rx) => Witness.Res.isStatus .root rx && decide (x.tret = (-2 : ℚ))
        | none => false))
    (by decide +kernel)
  simp only [Bool.and_eq_true] at h3
  obtain ⟨⟨h4, h5⟩, h6⟩ := h3
  cases h7 : exec (timedCfg pulses []) 100 10 s (.solve (7 / 4) 0 .normal) with
  | none => rw [h7] at h5; cases h5
  | some x =>
    cases h8 : exec (timedCfg pulses []) 100 10 s2 (.solve (7 / 4) 0 .normal) with
    | none => rw [h8] at h6; cases h6
    | some y =>
      rw [h7] at h5
      rw [h8] at h6
      simp only [Bool.and_eq_true, decide_eq_true_eq, Witness.Res.isStatus_iff] at h5 h6
      obtain ⟨x1, x2⟩ := x
      obtain ⟨y1, y2⟩ := y
      obtain ⟨rfl, h5⟩ := h5
      obtain ⟨rfl, h6⟩ := h6
      rw [Witness.Res.isError_iff.1 h4] at h2
      exact ⟨s, x1, s2, y1, h1, h7, h5, h2, h8, h6⟩

/-- The hypotheses of `c57_refused_partial` and `c58_past_tout_partial`: after three steps, to 1, 2 and 4, `tout = 0` is
before the last step. -/
example : ∃ s : State Nat 1 0 ℚ, Reach (Witness.scriptCfg []) s ∧ getNumSteps s = 3 ∧ BeforeLastStep s 0 ∧
    (0 : ℚ) ≠ s.tretlast ∧ ∃ s', exec (Witness.scriptCfg []) 10 10 s (.solve 0 0 .normal) =
      some (s', .solved (.error (.ida .badTimeValue))) := by
  obtain ⟨s, l, hr, hP⟩ := Witness.run_witness (cfg := Witness.scriptCfg []) (rf := 10) (sf := 10) (ops := Witness.steps 3)
    (s := Witness.script0) (P := fun s _ => badTime s 0 && decide (getNumSteps s = 3 ∧ (0 : ℚ) ≠ s.tretlast))
    (by decide +kernel)
  simp only [Bool.and_eq_true, decide_eq_true_eq, badTime_iff] at hP
  obtain ⟨h1, h2, h3⟩ := hP
  have hR := Witness.run_reach _ (.new _ _ _ none) hr
  obtain ⟨s', h4, -⟩ := c58_past_tout_partial _ (scriptCfg_legal [] (fun p h => by cases h))
    (by show (0 : ℚ) ≤ 0; exact le_refl _) 10 10 s hR (by rw [h2]; decide) 0 0 h1 h3
  exact ⟨s, hR, h2, h1, h3, s', h4⟩

end

end Verif.Props
