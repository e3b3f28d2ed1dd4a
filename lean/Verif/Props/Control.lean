import Verif.Proofs.Trace
import Verif.Witness
import Verif.Props.Step
import Verif.Model.Io

/-!
# Step-size and order control (C26 - C29, C33)

`K` is any ordered field whose unit roundoff parameter is positive and below 1/1000 (`EpsLaws`): arithmetic is exact,
square root and power are arbitrary functions.  `hmaxInv = 0` means "no maximum step size".

`ReachOk` are the histories in which no call reported a failed internal step; statements about "one more call" then
also cover the call that reports such a failure.
-/

set_option autoImplicit false
set_option linter.unusedSectionVars false

namespace Verif.Props

open Verif Verif.Spec

universe u v

section
variable {ν : Type v} {n q : Nat} {K : Type u} [Field K] [LinearOrder K] [IsStrictOrderedRing K] [ExactParams K]
  [EpsLaws K]

theorem lawful_split {cfg : Cfg ν n q K} {p r : List (Att n K)} {x : Att n K} (h : Lawful cfg (p ++ x :: r)) :
    Follows cfg r (planOf x) := by
  induction p with
  | nil => exact h.1
  | cons y p ih => exact ih h.2

/-! ## C26 -/

/-- The rule of C26 for a list of attempts (most recent first): for every attempt `x` that directly follows an accepted
one, `y`. -/
def OrderRule (l : List (Att n K)) : Prop :=
  ∀ p x y r, l = p ++ x :: y :: r → y.out = .accepted →
    x.kk ≤ y.kk + 1 ∧ y.kk ≤ x.kk + 1 ∧ (x.kk = y.kk + 1 → StartUp (y :: r) ∨ y.kk + 2 ≤ runLength (y :: r))

/-- **C26 (partial).** One more call after a history without step failure: the attempt after an accepted step has an
order that differs by at most one, and is raised only in the start-up phase or after at least order + 2 consecutive
accepted steps of the same size and order.  Missing: histories that continue after a failed step, where the claim is
false (`c26_refuted`). -/
theorem c26_order_changes_partial (cfg : Cfg ν n q K) (hl : NlsLegal cfg) (hm1 : 1 ≤ cfg.maxord) (hm : 0 ≤ cfg.hmaxInv)
    (rf sf : Nat) (s s' : State ν n q K) (op : Op K) (r : Res n K) (hs : ReachOk cfg s)
    (h : exec cfg rf sf s op = some (s', r)) : OrderRule s'.g.atts := by
  intro p x y t hat hy
  have hlaw := (exec_trace hl hm1 hm hs h).1
  rw [hat] at hlaw
  have hF := lawful_split hlaw
  unfold Follows at hF
  simp only [hy] at hF
  exact ⟨hF.up, hF.down, hF.raise⟩

/-- **C26 (partial), the order announced for the next step.** -/
theorem c26_current_order_partial (cfg : Cfg ν n q K) (hl : NlsLegal cfg) (hm1 : 1 ≤ cfg.maxord)
    (hm : 0 ≤ cfg.hmaxInv) (s : State ν n q K) (hs : ReachOk cfg s) (hn : 0 < getNumSteps s) :
    getCurrentOrder s ≤ getLastOrder s + 1 ∧ getLastOrder s ≤ getCurrentOrder s + 1 ∧
    (getCurrentOrder s = getLastOrder s + 1 → StartUp s.g.atts ∨ getLastOrder s + 2 ≤ runLength s.g.atts) := by
  have hI := (hs.okInv hl hm1 hm).trace
  obtain ⟨x, l, h1, h2, h3, h4, h5, h6⟩ := hI.last hn
  have hF := hI.next hn
  rw [h1] at hF ⊢
  unfold Follows at hF
  simp only [h2] at hF
  show s.c.kk ≤ s.c.kused + 1 ∧ s.c.kused ≤ s.c.kk + 1 ∧ (s.c.kk = s.c.kused + 1 → _ ∨ s.c.kused + 2 ≤ _)
  rw [← h4]
  exact ⟨hF.up, hF.down, hF.raise⟩

/-- A nonlinear solver that fails unrecoverably on its second and third call. -/
def failTwice : List (ℚ × Except Err Unit) :=
  [(1 / 100, .ok ()), (0, .error (.other "sys")), (0, .error (.other "sys")), (1 / 100, .ok ()), (1 / 100, .ok ())]

/-- **C26: refutation for histories with failed steps.** The two failed attempts are counted as steps of constant size:
the order is raised to two after two steps of order one. -/
theorem c26_refuted : ∃ s : State Nat 1 0 ℚ, Reach (Witness.scriptCfg failTwice) s ∧ ¬ OrderRule s.g.atts := by
  have hd : ((Witness.run (Witness.scriptCfg failTwice) 10 10 (Witness.steps 5) Witness.script0).map fun p =>
      match p.1.g.atts with
      | x :: y :: r => isAccepted y && decide (x.kk = y.kk + 1) && decide (runLength (y :: r) < y.kk + 2) &&
          r.any (fun z => !isAccepted z)
      | _ => false) = some true := by decide +kernel
  obtain ⟨s, l, hr, hp⟩ := Witness.run_witness (P := fun (s : State Nat 1 0 ℚ) _ =>
    match s.g.atts with
      | x :: y :: r => isAccepted y && decide (x.kk = y.kk + 1) && decide (runLength (y :: r) < y.kk + 2) &&
          r.any (fun z => !isAccepted z)
      | _ => false) hd
  refine ⟨s, Witness.run_reach _ (.new 0 (fun _ => 1) (fun _ => -1) none) hr, fun hO => ?_⟩
  split at hp
  · rename_i x y t hat
    simp only [Bool.and_eq_true, decide_eq_true_eq, List.any_eq_true, Bool.not_eq_true'] at hp
    obtain ⟨⟨⟨h1, h2⟩, h3⟩, z, hz, h4⟩ := hp
    obtain ⟨-, -, h5⟩ := hO [] x y t hat ((isAccepted_iff y).1 h1)
    rcases h5 h2 with h6 | h6
    · have := h6.1 z (by simp [hz])
      rw [(isAccepted_iff z).2 this] at h4; cases h4
    · omega
  · cases hp

/-- In the start-up phase the order goes up with every step from the second on. -/
example : ((Witness.run (Witness.scriptCfg (List.replicate 7 (1 / 100, .ok ()))) 10 10 (Witness.steps 5)
    Witness.script0).map fun p => (p.1.g.atts.map fun x => x.kk, getCurrentOrder p.1)) =
      some ([4, 3, 2, 1, 1], 5) := by decide +kernel

/-! ## C27 -/

/-- **C27, after an accepted step.** One more call after a history without step failure: the step size of the attempt
that follows an accepted one is between 1/2 and 2 times as large, unless it is shortened to end at the stop time. -/
theorem c27_after_accepted (cfg : Cfg ν n q K) (hl : NlsLegal cfg) (hm1 : 1 ≤ cfg.maxord) (hm : 0 ≤ cfg.hmaxInv)
    (rf sf : Nat) (s s' : State ν n q K) (op : Op K) (r : Res n K) (hs : ReachOk cfg s)
    (h : exec cfg rf sf s op = some (s', r)) (p t : List (Att n K)) (x y : Att n K)
    (hat : s'.g.atts = p ++ x :: y :: t) (hy : y.out = .accepted) :
    x.t0 = y.tnew ∧ ∃ c, 0 < c ∧ c ≤ 2 ∧ x.hh = c * y.hh ∧
      (1 / 2 ≤ c ∨ ∃ ts, y.stop = some ts ∧ x.hh = (ts - x.t0) * (1 - 4 * ExactParams.eps)) := by
  have hlaw := (exec_trace hl hm1 hm hs h).1
  rw [hat] at hlaw
  have hF := lawful_split hlaw
  unfold Follows at hF
  simp only [hy] at hF
  exact ⟨hF.t0, hF.size⟩

/-- **C27, the step size announced for the next step.** -/
theorem c27_current_step (cfg : Cfg ν n q K) (hl : NlsLegal cfg) (hm1 : 1 ≤ cfg.maxord) (hm : 0 ≤ cfg.hmaxInv)
    (s : State ν n q K) (hs : ReachOk cfg s) (hn : 0 < getNumSteps s) (hts : ∀ x ∈ s.g.atts, x.stop = none) :
    ∃ c, 1 / 2 ≤ c ∧ c ≤ 2 ∧ getCurrentStep s = c * getLastStep s := by
  have hI := (hs.okInv hl hm1 hm).trace
  obtain ⟨x, l, h1, h2, h3, h4, h5, h6⟩ := hI.last hn
  have hF := hI.next hn
  have hx := hts x (by rw [h1]; simp)
  rw [h1] at hF
  unfold Follows at hF
  simp only [h2] at hF
  obtain ⟨c, hc1, hc2, hc3, hc4⟩ := hF.size
  rcases hc4 with hc4 | ⟨ts, h, -⟩
  · exact ⟨c, hc4, hc2, by show s.c.hh = c * s.c.hused; rw [← h3]; exact hc3⟩
  · rw [hx] at h; cases h

/-- **C27, after an error-test failure.** The step is tried again from the same point; the first time with a step size
multiplied by a factor between 1/4 and 0.9, after that by 1/4; from the third failure on with order one. -/
theorem c27_after_test_failure (cfg : Cfg ν n q K) (hl : NlsLegal cfg) (hm1 : 1 ≤ cfg.maxord) (hm : 0 ≤ cfg.hmaxInv)
    (rf sf : Nat) (s s' : State ν n q K) (op : Op K) (r : Res n K) (hs : ReachOk cfg s)
    (h : exec cfg rf sf s op = some (s', r)) (p t : List (Att n K)) (x y : Att n K)
    (hat : s'.g.atts = p ++ x :: y :: t) (hy : y.out = .testFail) :
    x.t0 = y.t0 ∧
    (testFails (y :: t) = 1 → ∃ c, 1 / 4 ≤ c ∧ c ≤ 9 / 10 ∧ x.hh = c * y.hh) ∧
    (testFails (y :: t) ≠ 1 → x.hh = y.hh / 4) ∧
    (testFails (y :: t) ≤ 2 → x.kk = y.kk ∨ x.kk + 1 = y.kk) ∧ (2 < testFails (y :: t) → x.kk = 1) := by
  have hlaw := (exec_trace hl hm1 hm hs h).1
  rw [hat] at hlaw
  have hF := lawful_split hlaw
  unfold Follows at hF
  simp only [hy] at hF
  exact ⟨hF.t0, hF.first, hF.later, hF.order, hF.order1⟩

/-- **C27, after a nonlinear-solver failure**: a quarter of the step size, from the same point, with the same order. -/
theorem c27_after_convergence_failure (cfg : Cfg ν n q K) (hl : NlsLegal cfg) (hm1 : 1 ≤ cfg.maxord)
    (hm : 0 ≤ cfg.hmaxInv) (rf sf : Nat) (s s' : State ν n q K) (op : Op K) (r : Res n K) (hs : ReachOk cfg s)
    (h : exec cfg rf sf s op = some (s', r)) (p t : List (Att n K)) (x y : Att n K) (e : Err)
    (hat : s'.g.atts = p ++ x :: y :: t) (hy : y.out = .nlsFail e) :
    x.t0 = y.t0 ∧ x.hh = y.hh / 4 ∧ x.kk = y.kk ∧ ∃ rec, e = .ida (.recoverableFail rec) := by
  have hlaw := (exec_trace hl hm1 hm hs h).1
  rw [hat] at hlaw
  have hF := lawful_split hlaw
  unfold Follows at hF
  simp only [hy] at hF
  exact ⟨hF.t0, hF.size, hF.order, hF.recoverable⟩

/-- **C27, one step from any state at all** whose step size respects the maximum and the stop time: the attempts `x :: l`
the step makes, and the step size it leaves for the next step. -/
theorem c27_any_state (cfg : Cfg ν n q K) (hl : NlsLegal cfg) (hm : 0 ≤ cfg.hmaxInv) (s s' : State ν n q K)
    (r : Except Err Unit) (hb : |s.c.hh| * cfg.hmaxInv ≤ 1)
    (hw : ∀ ts, s.tstop = some ts → (s.e.tn + s.c.hh - ts) * s.c.hh ≤ 0) (h : step cfg s = .ret s' r) :
    ∃ x l, s'.g.atts = x :: l ++ s.g.atts ∧ RetrySizes l x.hh ∧
      (r = .ok () → x.out = .accepted ∧ ∃ c, 1 / 2 ≤ c ∧ c ≤ 2 ∧ getCurrentStep s' = c * x.hh) :=
  step_sizes hl hm hb hw h

/-- A run with all three kinds of outcome: attempts `(start, size, order)` and outcomes, most recent first. -/
example : ((Witness.run (Witness.scriptCfg [(1 / 100, .ok ()), (3, .ok ()), (1000, .ok ()),
      (0, .error (.ida (.recoverableFail .lSolve))), (1000, .ok ()), (1 / 100, .ok ()), (1 / 100, .ok ())]) 10 10
      (Witness.steps 3) Witness.script0).map
    fun p => p.1.g.atts.map fun x => (x.hh, x.kk, isAccepted x, isTestFail x)) =
      some [(5193 / 320000, 1, true, false), (5193 / 640000, 1, true, false), (5193 / 160000, 1, false, true),
        (5193 / 40000, 1, false, false), (5193 / 10000, 1, false, true), (1, 1, false, true), (1, 1, true, false)] := by decide +kernel

/-! ## C28 -/

/-- **C28.** In every history (failed steps included), every step attempted has at most the configured maximum size. -/
theorem c28_max_step (cfg : Cfg ν n q K) (hl : NlsLegal cfg) (hmax : K) (h0 : 0 < hmax) (hm : cfg.hmaxInv = 1 / hmax)
    (s : State ν n q K) (hs : Reach cfg s) (x : Att n K) (hx : x ∈ s.g.atts) : |x.hh| ≤ hmax := by
  have := ((hs.ctl hl (by rw [hm]; exact (div_pos one_pos h0).le)).atts x hx).2.2.1
  rw [hm, mul_one_div, div_le_one h0] at this
  exact this

/-- **C28, the step size announced for the next step.** -/
theorem c28_current_step (cfg : Cfg ν n q K) (hl : NlsLegal cfg) (hmax : K) (h0 : 0 < hmax) (hm : cfg.hmaxInv = 1 / hmax)
    (s : State ν n q K) (hs : Reach cfg s) (hn : 0 < getNumSteps s) :
    |getCurrentStep s| ≤ hmax ∧ |getLastStep s| ≤ hmax := by
  have hI := hs.ctl hl (by rw [hm]; exact (div_pos one_pos h0).le)
  have h1 := hI.hmax hn
  rw [hm, mul_one_div, div_le_one h0] at h1
  refine ⟨h1, ?_⟩
  have h2 := hI.usedMax hn
  rw [hm, mul_one_div, div_le_one h0] at h2
  exact h2

/-- With `hmax = 3` the growth of the step size stops at 3. -/
example : ((Witness.run { Witness.scriptCfg (List.replicate 7 (1 / 100, .ok ())) with hmaxInv := 1 / 3 } 10 10
    (Witness.steps 5) Witness.script0).map fun p => p.1.g.atts.map fun x => x.hh) = some [3, 3, 2, 1, 1] := by
  decide +kernel

/-! ## C29 -/

/-- **C29.** In every history the accepted times (starting time 0 included, most recent first) are strictly monotone in
the direction of the current step; the most recent one is the current internal time; there is one more than accepted
steps (so a failed step leaves the time unchanged). -/
theorem c29_times_monotone (cfg : Cfg ν n q K) (hl : NlsLegal cfg) (hm : 0 ≤ cfg.hmaxInv) (s : State ν n q K)
    (hs : Reach cfg s) (hn : 0 < getNumSteps s) :
    (s.g.acc.Pairwise fun a b => 0 < (a.1 - b.1) * getCurrentStep s) ∧
    (∃ y rest, s.g.acc = (getCurrentTime s, y) :: rest) ∧ (∃ y0, s.g.acc.getLast? = some (0, y0)) ∧
    s.g.acc.length = getNumSteps s + 1 :=
  ⟨(hs.ctl hl hm).chain, (hs.ctl hl hm).last hn, (hs.ctl hl hm).start hn, (hs.ctl hl hm).len hn⟩

/-- **C29, later calls.** No public call changes the direction of integration, and accepted points are only added. -/
theorem c29_direction_kept (cfg : Cfg ν n q K) (hl : NlsLegal cfg) (hm : 0 ≤ cfg.hmaxInv) (rf sf : Nat)
    (s s' : State ν n q K) (op : Op K) (r : Res n K) (hs : Reach cfg s) (hn : 0 < getNumSteps s)
    (h : exec cfg rf sf s op = some (s', r)) :
    0 < getCurrentStep s * getCurrentStep s' ∧ ∃ l, s'.g.acc = l ++ s.g.acc :=
  ⟨(exec_onward hl hm hs hn h).dir, (exec_onward hl hm hs hn h).acc⟩

/-- **C29, the first step.** The call in which the first step is accepted steps in the direction of its `tout`. -/
theorem c29_first_direction (cfg : Cfg ν n q K) (hl : NlsLegal cfg) (hm : 0 ≤ cfg.hmaxInv) (rf sf : Nat)
    (s s' : State ν n q K) (tout tret : K) (task : Task) (r : Res n K) (hs : Reach cfg s) (hn : getNumSteps s = 0)
    (hn' : 0 < getNumSteps s') (h : exec cfg rf sf s (.solve tout tret task) = some (s', r)) :
    0 < tout * getCurrentStep s' := by
  unfold exec at h
  simp only at h
  split at h
  · rename_i s1 r1 h1
    cases h
    have hC := hs.ctl hl hm
    have hC' : CtlInv cfg { s with tret := tret } :=
      hC.of_scale hm rfl rfl rfl rfl (Or.inl rfl) ⟨1, one_pos, le_refl _, by rw [one_mul]⟩
    have := solve_direction hl hm hC' hn hn' h1
    have h0 : s.e.tn = 0 := (hC.zero hn).1
    rw [show ({ s with tret := tret } : State ν n q K).e.tn = s.e.tn from rfl, h0, sub_zero] at this
    exact this
  · cases h

/-- Integration backwards in time. -/
example : ((Witness.run (Witness.scriptCfg (List.replicate 7 (1 / 100, .ok ()))) 10 10
    (List.replicate 3 (.solve (-1000) 0 .oneStep)) Witness.script0).map fun p => p.1.g.acc.map fun x => x.1) =
      some [-4, -2, -1, 0] := by decide +kernel

/-! ## C33 -/

/-- **C33 (partial).** One more call after a history without step failure: an attempt for which the nonlinear solver
reported an `IdaError::RecoverableFail` is followed by an attempt from the same point with a quarter of the step size
and the same order, unless `maxncf` such failures have occurred in this step; in that case the call reports
`ConvergenceFail` (`ResidualFail` if the residual function failed).

Missing: the error `ConvergenceRecover` of the `nonlinear` crate, for which the claim is false (`c33_refuted`). -/
theorem c33_retry_partial (cfg : Cfg ν n q K) (hl : NlsLegal cfg) (hm1 : 1 ≤ cfg.maxord) (hm : 0 ≤ cfg.hmaxInv)
    (rf sf : Nat) (s s' : State ν n q K) (op : Op K) (r : Res n K) (hs : ReachOk cfg s)
    (h : exec cfg rf sf s op = some (s', r)) (p t : List (Att n K)) (y : Att n K) (rec : Rec)
    (hat : s'.g.atts = p ++ y :: t) (hy : y.out = .nlsFail (.ida (.recoverableFail rec))) :
    (∃ p' x, p = p' ++ [x] ∧ x.t0 = y.t0 ∧ x.hh = y.hh / 4 ∧ x.kk = y.kk ∧ convFails (y :: t) < cfg.maxncf) ∨
    (p = [] ∧ cfg.maxncf ≤ convFails (y :: t) ∧
      r = .solved (.error (if rec = .residual then .ida .residualFail else .ida .convergenceFail))) := by
  have hE := exec_trace hl hm1 hm hs h
  rcases List.eq_nil_or_concat p with hp | ⟨p', x, hp⟩
  · right
    refine ⟨hp, ?_⟩
    subst hp
    obtain ⟨e, hr, hf⟩ := exec_last_failed hl hm1 hm hs h hat (by rw [hy]; simp)
    have hG := hE.2 e hr hf
    rw [hat] at hG
    simp only [List.nil_append] at hG
    unfold GivesUp at hG
    simp only [hy] at hG
    rcases hG with ⟨h1, -⟩ | ⟨h1, rec', h2, h3⟩
    · exact absurd rfl (h1 _)
    · cases h2
      exact ⟨h1, by rw [hr, h3]⟩
  · left
    rw [List.concat_eq_append] at hp
    subst hp
    have hlaw := hE.1
    rw [hat, List.append_assoc] at hlaw
    have hF : Follows cfg (y :: t) (planOf x) := lawful_split (p := p') hlaw
    unfold Follows at hF
    simp only [hy] at hF
    exact ⟨p', x, rfl, hF.t0, hF.size, hF.order, hF.more⟩

/-- The full claim of C33, for an attempt with the solver's verdict `e`: it is retried unless `maxncf` failures have
occurred. -/
def Retried (cfg : Cfg ν n q K) (l : List (Att n K)) (e : Err) : Prop :=
  ∀ p y t, l = p ++ y :: t → y.out = .nlsFail e → convFails (y :: t) < cfg.maxncf → ∃ p' x, p = p' ++ [x] ∧ x.hh = y.hh / 4

/-- **C33: refutation.** `ConvergenceRecover`, the error by which the nonlinear solvers of the `nonlinear` crate report a
recoverable convergence failure, is treated as unrecoverable: the call fails after a single attempt although `maxncf`
is 10. -/
theorem c33_refuted :
    ∃ (s : State Nat 1 0 ℚ) (l : List (Res 1 ℚ)),
      Witness.run (Witness.scriptCfg [(0, .error (.nl .convergenceRecover))]) 10 10 (Witness.steps 1) Witness.script0 =
        some (s, l) ∧ l.any Witness.Res.stepFailed = true ∧
      ¬ Retried (Witness.scriptCfg [(0, .error (.nl .convergenceRecover))]) s.g.atts (.nl .convergenceRecover) := by
  have hd : ((Witness.run (Witness.scriptCfg [(0, .error (.nl .convergenceRecover))]) 10 10 (Witness.steps 1)
      Witness.script0).map fun p => p.2.any Witness.Res.stepFailed && match p.1.g.atts with
      | [y] => decide (y.out = .nlsFail (.nl .convergenceRecover)) && decide (convFails [y] < 10)
      | _ => false) = some true := by decide +kernel
  obtain ⟨s, l, hr, hp⟩ := Witness.run_witness (P := fun (s : State Nat 1 0 ℚ) l => l.any Witness.Res.stepFailed && match s.g.atts with
      | [y] => decide (y.out = .nlsFail (.nl .convergenceRecover)) && decide (convFails [y] < 10)
      | _ => false) hd
  simp only [Bool.and_eq_true] at hp
  refine ⟨s, l, hr, hp.1, fun hR => ?_⟩
  have hp2 := hp.2
  split at hp2
  · rename_i y hat
    simp only [Bool.and_eq_true, decide_eq_true_eq] at hp2
    obtain ⟨p', x, h, -⟩ := hR [] y [] hat hp2.1 hp2.2
    cases p' <;> cases h
  · cases hp2

/-- **C33, unrecoverable errors** (among them `ConvergenceRecover`): in the same setting, an attempt for which the
solver reported an error that is not an `IdaError` is the last one, and the call reports that error. -/
theorem c33_other_errors_end_the_step (cfg : Cfg ν n q K) (hl : NlsLegal cfg) (hm1 : 1 ≤ cfg.maxord)
    (hm : 0 ≤ cfg.hmaxInv) (rf sf : Nat) (s s' : State ν n q K) (op : Op K) (r : Res n K) (hs : ReachOk cfg s)
    (h : exec cfg rf sf s op = some (s', r)) (p t : List (Att n K)) (y : Att n K) (e : Err) (he : ∀ x, e ≠ .ida x)
    (hat : s'.g.atts = p ++ y :: t) (hy : y.out = .nlsFail e) : p = [] ∧ r = .solved (.error e) := by
  have hE := exec_trace hl hm1 hm hs h
  rcases List.eq_nil_or_concat p with hp | ⟨p', x, hp⟩
  · refine ⟨hp, ?_⟩
    subst hp
    obtain ⟨e', hr, hf⟩ := exec_last_failed hl hm1 hm hs h hat (by rw [hy]; simp)
    have hG := hE.2 e' hr hf
    rw [hat] at hG
    simp only [List.nil_append] at hG
    unfold GivesUp at hG
    simp only [hy] at hG
    rcases hG with ⟨-, h1⟩ | ⟨h1, rec', h2, h3⟩
    · rw [hr, h1]
    · exact absurd h2 (he _)
  · rw [List.concat_eq_append] at hp
    subst hp
    have hlaw := hE.1
    rw [hat, List.append_assoc] at hlaw
    have hF : Follows cfg (y :: t) (planOf x) := lawful_split (p := p') hlaw
    unfold Follows at hF
    simp only [hy] at hF
    obtain ⟨rec, h⟩ := hF.recoverable
    exact absurd h (he _)

/-- Ten recoverable failures in a row: ten attempts, then `ConvergenceFail`. -/
example : ((Witness.run (Witness.scriptCfg (List.replicate 12 ((0 : ℚ), .error (.ida (.recoverableFail .lSolve))))) 10 10
    (Witness.steps 1) Witness.script0).map fun p => (p.1.g.atts.length, p.1.g.atts.map fun x => x.hh)) =
      some (10, [1 / 262144, 1 / 65536, 1 / 16384, 1 / 4096, 1 / 1024, 1 / 256, 1 / 64, 1 / 16, 1 / 4, 1]) := by
  decide +kernel

end

end Verif.Props
