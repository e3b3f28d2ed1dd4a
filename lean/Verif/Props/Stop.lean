import Verif.Proofs.SolveExact
import Verif.Props.Solve
import Verif.Props.FirstCall

/-!
# The driver `solve` in exact arithmetic: reached times, stop time, returned solution (C35, C36, C40, C42)

`Reach cfg s`: `s` is the state after any history of calls on a new object.  The stop time may be set to any value when
the object is created (`Reach.new`); `s.tstop` is the stop time in force.
-/

set_option autoImplicit false
set_option linter.unusedSectionVars false
set_option linter.unusedSimpArgs false
set_option linter.unusedVariables false

namespace Verif.Props

open Verif Verif.Spec

universe u v

section
variable {ν : Type v} {n q : Nat} {K : Type u} [Scalar K]

theorem exec_solve {cfg : Cfg ν n q K} {rf sf : Nat} {s s' : State ν n q K} {tout tret : K} {task : Task}
    {r : Except Err Status} (h : exec cfg rf sf s (.solve tout tret task) = some (s', .solved r)) :
    solve cfg rf sf { s with tret := tret } tout task = .ret s' r := by
  unfold exec at h
  simp only at h
  split at h
  · rename_i h1
    cases h; exact h1
  · cases h

/-- **C40, the result `TStop`.** Any state, any scalar type: if `solve` returns `TStop`, then a stop time was set, it is
the time returned, the internal time is within roundoff of it, and it is cleared, if the mode is normal or a step was
taken. -/
theorem c40_tstop_result (cfg : Cfg ν n q K) (rf sf : Nat) (s s' : State ν n q K) (tout : K) (task : Task)
    (h : solve cfg rf sf s tout task = .ret s' (.ok .tstop)) :
    ∃ ts, s.tstop = some ts ∧ s'.tret = ts ∧ s'.tretlast = ts ∧
      Scalar.le (Scalar.abs (getCurrentTime s' - ts))
        (Scalar.hundred * Scalar.eps * (Scalar.abs (getCurrentTime s') + Scalar.abs (getCurrentStep s'))) = true ∧
      (task = .normal ∨ getNumSteps s' ≠ getNumSteps s → s'.tstop = none) := by
  cases solve_outcome h with
  | rejected e h0 h1 h2 => cases h2
  | early h0 h1 =>
    have hb : Pending s tout task (perfReset (begun s tout task)) := (begun_pending s tout task).quiet (by quiet_rfl)
    have hc : (perfReset (begun s tout task)).cnt = s.cnt := (begun_same s tout task).2.2.2.cnt
    cases h1 with
    | close _ _ _ h2 => cases h2
    | root2 _ _ _ _ h2 => cases h2
    | root3 _ _ _ _ _ _ _ h2 => cases h2
    | pending _ _ _ ht _ _ _ _ h2 => cases h2
    | stop s1 h2 h3 _ =>
      have hp := hb.quiet (noRootBefore_frame h2).2
      have hn : s1.cnt.nst = s.cnt.nst := by rw [(noRootBefore_frame h2).1.cnt, hc]
      cases stopTest1_cases h3 with
      | stopNormal s2 ts hg hts hns hs =>
        obtain ⟨hf, yy, yp, rfl⟩ := getSolution_frame hs
        exact ⟨ts, hp.tstop.symm.trans hts, rfl, rfl, hns, fun _ => rfl⟩
      | stopOne s2 ts hg hts hns hs =>
        obtain ⟨hf, yy, yp, rfl⟩ := getSolution_frame hs
        refine ⟨ts, hp.tstop.symm.trans hts, rfl, rfl, hns, fun hx => ?_⟩
        rcases hx with hx | hx
        · cases hx
        · exact absurd hn hx
  | loop p k hI h1 =>
    cases h1 with
    | pre h2 => obtain ⟨h3 | h3, -⟩ := preStep_ret h2 <;> cases h3
    | failed s1 s2 e h2 h3 h4 => obtain ⟨h5, -⟩ := stepFailed_spec h4; cases h5
    | post s1 s2 h2 h3 h4 =>
      obtain ⟨hp, -⟩ := loopAt_step hI h2 h3
      cases h4 with
      | root _ _ _ _ h5 => cases h5
      | stop s3 h5 h6 h7 =>
        have hp3 := hp.quiet (noRootAfter_frame h5).2
        cases stopTest2_cases h6 with
        | stopped _ s4 ts h8 h9 h10 h11 =>
          obtain ⟨hf, yy, yp, rfl⟩ := getSolution'_frame h11
          exact ⟨ts, hp3.tstop.symm.trans h9, rfl, rfl, h10, fun _ => rfl⟩

end

section
variable {ν : Type v} {n q : Nat} {K : Type u} [Field K] [LinearOrder K] [IsStrictOrderedRing K] [ExactParams K]
  [EpsLaws K]

theorem setTret_reach_ctl {cfg : Cfg ν n q K} (hl : NlsLegal cfg) (hm : 0 ≤ cfg.hmaxInv) {s : State ν n q K}
    (hs : Reach cfg s) (t : K) : CtlInv cfg { s with tret := t } :=
  (hs.ctl hl hm).of_frame hm (by frame_rfl)

/-! ## C35, C36 -/

/-- **C35, exact arithmetic.** In every history: if `solve(tout, Normal)` returns `Success`, then `tret = tout`, at least
one step has been taken, and the internal time has reached or passed `tout` in the direction of integration (that of the
last step), or `tout` is the time returned last. -/
theorem c35_reached (cfg : Cfg ν n q K) (hl : NlsLegal cfg) (hm : 0 ≤ cfg.hmaxInv) (rf sf : Nat) (s s' : State ν n q K)
    (hs : Reach cfg s) (tout tret : K)
    (h : exec cfg rf sf s (.solve tout tret .normal) = some (s', .solved (.ok .success))) :
    s'.tret = tout ∧ 0 < getNumSteps s' ∧
      (0 ≤ (getCurrentTime s' - tout) * getLastStep s' ∨ tout = s.tretlast) := by
  obtain ⟨h1, h2, h3⟩ := c35_normal_success cfg rf sf _ s' tout (exec_solve h)
  refine ⟨h1, h2, ?_⟩
  rcases h3 with h3 | ⟨-, h3, -⟩
  · left
    simp only [ex_le, decide_eq_true_eq] at h3
    have hu : 0 < s'.c.hh * s'.c.hused := ((Reach.call rf sf _ _ hs h).ctl hl hm).used h2
    have h3 : 0 ≤ (s'.e.tn - tout) * s'.c.hh := h3
    show 0 ≤ (s'.e.tn - tout) * s'.c.hused
    by_contra hc
    push Not at hc
    have h4 : (s'.e.tn - tout) * s'.c.hused * (s'.c.hh * s'.c.hused) < 0 := mul_neg_of_neg_of_pos hc hu
    have h5 : (s'.e.tn - tout) * s'.c.hused * (s'.c.hh * s'.c.hused) =
      (s'.e.tn - tout) * s'.c.hh * (s'.c.hused * s'.c.hused) := by ring
    rw [h5] at h4
    exact absurd h4 (not_lt.2 (mul_nonneg h3 (mul_self_nonneg _)))
  · right
    simpa using h3

/-- **C36, exact arithmetic.** If `solve(_, OneStep)` returns `Success` without having taken a step, then the internal
time had not been returned yet. -/
theorem c36_not_returned (cfg : Cfg ν n q K) (rf sf : Nat) (s s' : State ν n q K) (tout tret : K)
    (h : exec cfg rf sf s (.solve tout tret .oneStep) = some (s', .solved (.ok .success))) :
    s'.tret = getCurrentTime s' ∧
    (getNumSteps s' = getNumSteps s + 1 ∨
      getNumSteps s' = getNumSteps s ∧ getCurrentTime s' = getCurrentTime s ∧ s.tretlast ≠ getCurrentTime s) := by
  obtain ⟨h1, h2⟩ := c36_one_step cfg rf sf _ s' tout (exec_solve h)
  refine ⟨h1, ?_⟩
  rcases h2 with h2 | ⟨-, h2, h3, h4⟩
  · exact Or.inl h2
  · refine Or.inr ⟨h2, h3, fun he => ?_⟩
    have he : s.tretlast = s.e.tn := he
    rcases h4 with h4 | ⟨-, h4⟩
    · simp only [ex_lt, decide_eq_true_eq] at h4
      have h4 : 0 < (s.e.tn - s.tretlast) * s.c.hh := h4
      rw [he, sub_self, zero_mul] at h4
      exact lt_irrefl _ h4
    · simp only [ex_lt, ex_abs, ex_eps, ex_hundred, decide_eq_true_eq] at h4
      have h4 : (|s.e.tn| + |s.c.hh|) * ExactParams.eps * 100 < |s.e.tn - s.tretlast| := h4
      rw [he, sub_self, abs_zero] at h4
      have := EpsLaws.eps_pos (K := K)
      have h5 : 0 ≤ (|s.e.tn| + |s.c.hh|) * ExactParams.eps * 100 := by positivity
      linarith

/-! ## C40 -/

/-- **C40, never overshot.** In every history, every step attempted while a stop time is in force ends at or before it
(in the direction of the step); once a step has been taken, the internal time is not past the stop time. -/
theorem c40_never_past (cfg : Cfg ν n q K) (hl : NlsLegal cfg) (hm : 0 ≤ cfg.hmaxInv) (s : State ν n q K)
    (hs : Reach cfg s) :
    (∀ x ∈ s.g.atts, ∀ ts, x.stop = some ts → x.tnew = x.t0 + x.hh ∧ (x.tnew - ts) * x.hh ≤ 0) ∧
    (0 < getNumSteps s → ∀ ts, s.tstop = some ts → (getCurrentTime s - ts) * getCurrentStep s ≤ 0) :=
  ⟨fun x hx ts hts => ⟨((hs.ctl hl hm).atts x hx).2.1, ((hs.ctl hl hm).atts x hx).2.2.2 ts hts⟩, (hs.ctl hl hm).stop⟩

/-- The stop time is accepted by `get_solution`. -/
theorem stop_not_bad {cfg : Cfg ν n q K} {s : State ν n q K} (h : CtlInv cfg s) (hn : 0 < s.cnt.nst) {ts : K}
    (hts : s.tstop = some ts) : badTime s ts = false := by
  rw [← Bool.not_eq_true, badTime_iff]
  apply not_before_of
  have h1 := h.stop hn ts hts
  have h2 := h.used hn
  have e : (ts - (s.e.tn - s.c.hused)) * s.c.hh = -((s.e.tn - ts) * s.c.hh) + s.c.hh * s.c.hused := by ring
  rw [e]; linarith

/-- **C40, no `BadStopTime`.** In every history `solve` does not return `BadStopTime`: the internal time is never past
the stop time, and the solution at the stop time can be computed. -/
theorem c40_no_bad_stop_time (cfg : Cfg ν n q K) (hl : NlsLegal cfg) (hm : 0 ≤ cfg.hmaxInv) (rf sf : Nat)
    (s s' : State ν n q K) (hs : Reach cfg s) (tout tret : K) (task : Task) :
    exec cfg rf sf s (.solve tout tret task) ≠ some (s', .solved (.error (.ida .badStopTime))) := by
  intro h
  have hC := setTret_reach_ctl hl hm hs tret
  cases solve_outcome (exec_solve h) with
  | rejected e h0 h1 h2 => have := firstCall_error h1; subst this; cases h2
  | early h0 h1 =>
    have hfb := (begun_same { s with tret := tret } tout task).2.2.2
    cases h1 with
    | close e hq h2 h3 =>
      cases h3
      have := rCheck2_error h2
      cases this
    | root2 _ _ _ _ h2 => cases h2
    | root3 _ _ _ _ _ _ _ h2 => cases h2
    | pending _ _ _ ht _ _ _ _ h2 => cases h2
    | stop s1 h2 h3 _ =>
      have f1 := (noRootBefore_frame h2).1
      have hC1 : CtlInv cfg s1 :=
        ctlInv_micros hl hm hC (((Micros.frame hfb).tail (.perf _)).trans (Micros.frame f1))
      have hn : 0 < s1.cnt.nst := by
        rw [f1.cnt]; show 0 < (begun { s with tret := tret } tout task).cnt.nst; rw [hfb.cnt]; exact h0
      cases stopTest1_cases h3 with
      | past _ hp =>
        unfold pastStop at hp
        split at hp
        · rename_i ts hts
          simp only [ex_lt, decide_eq_true_eq] at hp
          exact absurd hp (not_lt.2 (hC1.stop hn ts hts))
        · cases hp
      | refused e h5 h6 => obtain ⟨-, h7, -⟩ := getSolution_error h6; cases h7
      | stopBad _ ts e e' h5 h6 h7 h8 =>
        obtain ⟨-, -, h9⟩ := getSolution_error h7
        rw [stop_not_bad hC1 hn h5] at h9
        cases h9
  | loop p k hI h1 =>
    cases h1 with
    | pre h2 => obtain ⟨h3 | h3, -⟩ := preStep_ret h2 <;> cases h3
    | failed s1 s2 e h2 h3 h4 =>
      obtain ⟨h5, -⟩ := stepFailed_spec h4
      cases h5
      have := step_failure_kind hl h3
      cases this
    | post s1 s2 h2 h3 h4 =>
      cases h4 with
      | root _ _ _ _ h5 => cases h5
      | stop s3 h5 h6 h7 => cases stopTest2_cases h6

/-- The internal time is within the roundoff allowance of `ts`. -/
def NearStop (s : State ν n q K) (ts : K) : Prop :=
  |getCurrentTime s - ts| ≤ 100 * ExactParams.eps * (|getCurrentTime s| + |getCurrentStep s|)

theorem nearStop_iff (s : State ν n q K) (ts : K) : nearStop s ts = true ↔ NearStop s ts := by
  unfold nearStop stopRoundoff NearStop
  simp only [ex_le, ex_abs, ex_hundred, ex_eps, decide_eq_true_eq]
  exact Iff.rfl

/-- **C40, not missed.** If a one-step call takes a step and returns `Success` with the stop time still in force, then
the internal time is not within roundoff of the stop time, for the step size used for the test. -/
theorem c40_one_step_not_missed (cfg : Cfg ν n q K) (rf sf : Nat) (s s' : State ν n q K) (tout tret : K)
    (h : exec cfg rf sf s (.solve tout tret .oneStep) = some (s', .solved (.ok .success)))
    (hn : getNumSteps s' ≠ getNumSteps s) (ts : K) (hts : s'.tstop = some ts) :
    s.tstop = some ts ∧ getCurrentTime s' ≠ ts ∧
    100 * ExactParams.eps * |getCurrentTime s'| < |getCurrentTime s' - ts| := by
  have key : ∀ x : State ν n q K, nearStop x ts = false → 100 * ExactParams.eps * |x.e.tn| < |x.e.tn - ts| := by
    intro x hx
    have h1 : ¬ NearStop x ts := by rw [← nearStop_iff, hx]; simp
    unfold NearStop at h1
    have h1 := not_le.1 h1
    have h2 : 100 * ExactParams.eps * |x.e.tn| ≤ 100 * ExactParams.eps * (|x.e.tn| + |x.c.hh|) := by
      have := EpsLaws.eps_pos (K := K)
      have : 0 ≤ |x.c.hh| := abs_nonneg _
      apply mul_le_mul_of_nonneg_left (by linarith) (by linarith)
    exact lt_of_le_of_lt h2 h1
  cases solve_outcome (exec_solve h) with
  | rejected e h0 h1 h2 => cases h2
  | early h0 h1 =>
    exfalso; apply hn
    have hc : (perfReset (begun { s with tret := tret } tout .oneStep)).cnt = s.cnt :=
      (begun_same { s with tret := tret } tout .oneStep).2.2.2.cnt
    cases h1 with
    | close _ _ _ h2 => cases h2
    | root2 _ _ _ _ h2 => cases h2
    | root3 _ _ _ _ _ _ _ h2 => cases h2
    | pending s1 s2 hq ht h2 h3 h4 h5 _ =>
      obtain ⟨hf, yy, yp, rfl⟩ := getSolution'_frame h5
      show s2.cnt.nst = _
      rw [(rCheck3_frame h4).cnt, (rCheck2_frame h2).cnt, hc]; rfl
    | stop s1 h2 h3 _ =>
      cases stopTest1_cases h3 with
      | pending s2 hg hs =>
        obtain ⟨hf, yy, yp, rfl⟩ := getSolution'_frame hs
        show s1.cnt.nst = _
        rw [(noRootBefore_frame h2).1.cnt, hc]; rfl
  | loop p k hI h1 =>
    cases h1 with
    | pre h2 => obtain ⟨h3 | h3, -⟩ := preStep_ret h2 <;> cases h3
    | failed s1 s2 e h2 h3 h4 => obtain ⟨h5, -⟩ := stepFailed_spec h4; cases h5
    | post s1 s2 h2 h3 h4 =>
      obtain ⟨hp, -⟩ := loopAt_step hI h2 h3
      cases h4 with
      | root _ _ _ _ h5 => cases h5
      | stop s3 h5 h6 h7 =>
        have hp3 := hp.quiet (noRootAfter_frame h5).2
        cases stopTest2_cases h6 with
        | oneClamp ts' h8 h9 =>
          have e1 : (clampToStop s3 ts').tstop = s3.tstop := (clampToStop_quiet _ _).tstop
          have e2 : some ts' = some ts := h8.symm.trans (e1.symm.trans hts)
          cases e2
          have e3 : (State.setTret (clampToStop s3 ts) s3.e.tn).e.tn = s3.e.tn := by
            show (clampToStop s3 ts).e.tn = _; rw [clampToStop_tn]
          have hk := key s3 h9
          refine ⟨hp3.tstop.symm.trans h8, ?_, ?_⟩
          · show (State.setTret (clampToStop s3 ts) s3.e.tn).e.tn ≠ ts
            rw [e3]
            intro he
            rw [he, sub_self, abs_zero] at hk
            have := EpsLaws.eps_pos (K := K)
            exact absurd hk (not_lt.2 (by positivity))
          · show 100 * ExactParams.eps * |(State.setTret (clampToStop s3 ts) s3.e.tn).e.tn| <
              |(State.setTret (clampToStop s3 ts) s3.e.tn).e.tn - ts|
            rw [e3]; exact hk
        | oneFree h8 =>
          have : s3.tstop = some ts := hts
          rw [h8] at this; cases this

/-- **C40, at the stop time.** In every history: a call made when the internal time is within roundoff of the stop time
takes no step.  It returns `TStop`, unless it returns a root or a time that has been reached already (`Success`), or
fails because `tout` or the roots are too far back. -/
theorem c40_no_step_at_stop (cfg : Cfg ν n q K) (hl : NlsLegal cfg) (hm : 0 ≤ cfg.hmaxInv) (rf sf : Nat)
    (s s' : State ν n q K) (hs : Reach cfg s) (hn : 0 < getNumSteps s) (ts : K) (hts : s.tstop = some ts)
    (hnear : NearStop s ts) (tout tret : K) (task : Task) (r : Except Err Status)
    (h : exec cfg rf sf s (.solve tout tret task) = some (s', .solved r)) :
    getNumSteps s' = getNumSteps s ∧ s'.g.atts = s.g.atts ∧
    (r = .ok .tstop ∨ r = .ok .success ∨ 0 < q ∧ (r = .ok .root ∨ r = .error (.ida .closeRoots)) ∨
      task = .normal ∧ r = .error (.ida .badTimeValue) ∧ BeforeLastStep s tout) ∧
    (task = .normal → r = .ok .success → tout = s.tretlast ∨ 0 ≤ (getCurrentTime s - tout) * getCurrentStep s) ∧
    (task = .oneStep → r = .ok .success → s.tretlast ≠ getCurrentTime s) := by
  have hC := setTret_reach_ctl hl hm hs tret
  have hE := exec_solve h
  cases solve_solveEnds hE with
  | rejected e h0 h1 h2 => exact absurd h0 (Nat.pos_iff_ne_zero.1 hn)
  | first s1 h0 h1 h2 => exact absurd h0 (Nat.pos_iff_ne_zero.1 hn)
  | later s1 h0 h1 h2 =>
    exfalso
    obtain ⟨s2, h3, h4⟩ := laterCall_ends.1 s1 h1
    have hi := noRootBefore_idle h3
    have ht : s2.tstop = s.tstop := ((begun_pending { s with tret := tret } tout task).quiet
      (p' := perfReset (begun { s with tret := tret } tout task)) (by quiet_rfl)).quiet (noRootBefore_frame h3).2 |>.tstop
    cases stopTest1_cases h4 with
    | clamp _ ts' g1 g2 _ _ =>
      rw [ht] at g1
      cases hts.symm.trans g1
      have : nearStop s ts = true := (nearStop_iff s ts).2 hnear
      unfold nearStop stopRoundoff at g2 this
      rw [hi.e, hi.c] at g2
      exact absurd (this.symm.trans g2) (by simp)
    | free _ g1 _ _ =>
      rw [ht] at g1
      cases hts.symm.trans g1
  | early h0 h1 =>
    have h1 := laterCall_ends.2 _ _ h1
    have hi := laterEnds_idle h1
    have hnst : getNumSteps s' = getNumSteps s := by show s'.cnt.nst = _; rw [hi.cnt]; rfl
    refine ⟨hnst, by rw [hi.g], ?_, ?_, ?_⟩
    · cases h1 with
      | close e hq h2 h3 => rw [h3, rCheck2_error h2]; exact Or.inr (Or.inr (Or.inl ⟨hq, Or.inr rfl⟩))
      | root2 _ hq _ _ h2 => exact Or.inr (Or.inr (Or.inl ⟨hq, Or.inl h2⟩))
      | root3 _ _ hq _ _ _ _ h2 => exact Or.inr (Or.inr (Or.inl ⟨hq, Or.inl h2⟩))
      | pending _ _ hq ht _ _ _ _ h2 => exact Or.inr (Or.inl h2)
      | stop s1 h2 h3 h4 =>
        have hi1 := noRootBefore_idle h2
        have hC1 : CtlInv cfg s1 := ctlInv_micros hl hm hC
          (((Micros.frame (begun_same { s with tret := tret } tout task).2.2.2).tail (.perf _)).trans
            (Micros.frame (noRootBefore_frame h2).1))
        have hn1 : 0 < s1.cnt.nst := by rw [hi1.cnt]; exact h0
        cases stopTest1_cases h3 with
        | past _ hp =>
          unfold pastStop at hp
          split at hp
          · rename_i ts hts
            simp only [ex_lt, decide_eq_true_eq] at hp
            exact absurd hp (not_lt.2 (hC1.stop hn1 ts hts))
          · cases hp
        | same _ => exact Or.inr (Or.inl rfl)
        | reached _ _ _ => exact Or.inr (Or.inl rfl)
        | refused e h5 h6 =>
          obtain ⟨-, h7, h8⟩ := getSolution_error h6
          refine Or.inr (Or.inr (Or.inr ⟨rfl, by rw [h7], ?_⟩))
          rw [badTime_iff] at h8
          unfold BeforeLastStep at h8 ⊢
          rw [hi1.e, hi1.c] at h8
          exact h8
        | pending _ _ _ => exact Or.inr (Or.inl rfl)
        | stopNormal _ _ _ _ _ _ => exact Or.inl rfl
        | stopOne _ _ _ _ _ _ => exact Or.inl rfl
        | stopBad _ ts e e' h5 h6 h7 h8 =>
          obtain ⟨-, -, h9⟩ := getSolution_error h7
          rw [stop_not_bad hC1 hn1 h5] at h9
          cases h9
        | clamp _ _ _ _ _ _ => exact absurd rfl h4
        | free _ _ _ _ => exact absurd rfl h4
    · intro ht hr
      subst ht hr
      rcases (c35_normal_success cfg rf sf _ s' tout hE).2.2 with h5 | ⟨-, h5, -⟩
      · right
        simp only [ex_le, decide_eq_true_eq] at h5
        unfold getCurrentTime getCurrentStep at h5
        rw [hi.e, hi.c] at h5
        exact h5
      · left; simpa using h5
    · intro ht hr
      subst ht hr
      rcases (c36_not_returned cfg rf sf s s' tout tret h).2 with h5 | ⟨-, -, h5⟩
      · omega
      · exact h5

end

/-! ## C41 -/

section
variable {ν : Type v} {n q : Nat} {K : Type u} [Scalar K]

/-- The weights used by the next step: computed from the current solution, except that the first step uses those of the
set-up. -/
def nextWeights (cfg : Cfg ν n q K) (s : State ν n q K) : Vec n K :=
  if 0 < getNumSteps s ∨ s.setupDone = false then cfg.ewtSet (s.h.phi 0) s.e.ewt else s.e.ewt

/-- Machine epsilon times the weighted norm of the current solution. -/
def accuracyProduct (cfg : Cfg ν n q K) (s : State ν n q K) : K :=
  Scalar.eps * wrmsNorm cfg.id (s.h.phi 0) (nextWeights cfg s) cfg.suppressalg

/-- The step loop started in `p` with a product above one. -/
theorem loop_accuracy {cfg : Cfg ν n q K} {rf sf : Nat} {p s' : State ν n q K} {tout : K} {task : Task}
    {r : Except Err Status} {w : Vec n K} (hw : w = if 0 < p.cnt.nst then cfg.ewtSet (p.h.phi 0) p.e.ewt else p.e.ewt)
    (hacc : Scalar.gt (Scalar.eps * wrmsNorm cfg.id (p.h.phi 0) w cfg.suppressalg) 1 = true)
    (h : solveLoop cfg rf tout task sf p 0 = .ret s' r) :
    PreSame p s' ∧ s'.tret = p.e.tn ∧
    (r = .error (.ida .tooMuchAccuracy) ∧
        s'.tolsf = Scalar.eps * wrmsNorm cfg.id (p.h.phi 0) w cfg.suppressalg * Scalar.ten ∨
      r = .error (.ida .illegalInput) ∧ 0 < p.cnt.nst ∧ ∃ i, Scalar.le (w i) 0 = true) := by
  cases sf with
  | zero => cases h
  | succ sf =>
    unfold solveLoop Flow.andThen solvePass at h
    have hp := preStep_cases cfg p 0
    cases hpre : preStep cfg p 0 with
    | panic => rw [hpre] at h; cases h
    | diverge => rw [hpre] at h; cases h
    | ret s1 r1 =>
      rw [hpre] at h hp
      cases h
      cases hp with
      | limit h1 h2 => omega
      | weights _ h1 h2 hs h3 h4 h5 h6 h7 =>
        rw [if_pos h2] at hw
        exact ⟨hs, h3, Or.inr ⟨rfl, h2, by rw [hw, ← h6]; exact h7⟩⟩
      | accuracy _ h1 hs hW h3 h4 h5 h6 =>
        have e : s'.e.ewt = w := by
          unfold WeightsReady at hW
          split at hW
          · rename_i h0; rw [if_pos h0] at hw; rw [hw]; exact hW.1
          · rename_i h0; rw [if_neg h0] at hw; rw [hw]; exact hW
        refine ⟨hs, h3, Or.inl ⟨rfl, ?_⟩⟩
        rw [h6]; unfold accuracy; rw [hs.h, e]
    | go s1 =>
      rw [hpre] at hp
      exfalso
      cases hp with
      | go _ h1 hs hW h2 h3 h4 h5 _ _ _ =>
        have e : s1.e.ewt = w := by
          unfold WeightsReady at hW
          split at hW
          · rename_i h0; rw [if_pos h0] at hw; rw [hw]; exact hW.1
          · rename_i h0; rw [if_neg h0] at hw; rw [hw]; exact hW
        unfold accuracy at h4
        rw [hs.h, e] at h4
        rw [h4] at hacc; cases hacc

theorem firstCall_weights {cfg : Cfg ν n q K} {s s' : State ν n q K} {tout : K} {r : Except Err Unit}
    (h : firstCall cfg s tout = .ret s' r) : s'.e.ewt = (initialSetup cfg s).e.ewt ∧ s'.m.nre = s.m.nre := by
  have h0 : (initialSetup cfg s).m.nre = s.m.nre := by unfold initialSetup; split <;> rfl
  have hr : ∀ x : State ν n q K, (firstReady cfg x).e.ewt = x.e.ewt ∧ (firstReady cfg x).m.nre = x.m.nre := by
    intro x
    unfold firstReady rCheck1 callRoot
    simp only
    split
    · split <;> exact ⟨rfl, rfl⟩
    · exact ⟨rfl, rfl⟩
  have hc : ∀ (x : State ν n q K) (ts : K), (clampToStop x ts).e.ewt = x.e.ewt ∧ (clampToStop x ts).m.nre = x.m.nre := by
    intro x ts; unfold clampToStop; split <;> exact ⟨rfl, rfl⟩
  rcases firstCall_cases h with ⟨-, h, -⟩ | ⟨-, h, -⟩ | ⟨hh, -, -, -, ⟨-, h, -⟩ | ⟨s1, h1, h, -⟩⟩ <;> subst h
  · exact ⟨rfl, h0⟩
  · exact ⟨rfl, h0⟩
  · exact ⟨rfl, h0⟩
  · rw [(hr s1).1, (hr s1).2, ← h0]
    unfold firstStop at h1
    split at h1
    · split at h1
      · cases h1
      · cases h1; exact hc _ _
    · cases h1; exact ⟨rfl, rfl⟩

/-- **C41, the first call.** Before the first step, if epsilon times the weighted norm of `y(0)` exceeds one: no step is
attempted and no residual is evaluated; the result is `TooMuchAccuracy` with the scale factor ten times the product,
unless the input is rejected (`IllegalInput`, C38). -/
theorem c41_first_call (cfg : Cfg ν n q K) (rf sf : Nat) (s s' : State ν n q K) (tout : K) (task : Task)
    (r : Except Err Status) (h0 : getNumSteps s = 0) (hacc : Scalar.gt (accuracyProduct cfg s) 1 = true)
    (h : solve cfg rf sf s tout task = .ret s' r) :
    s'.g.atts = s.g.atts ∧ getNumSteps s' = 0 ∧ getCurrentTime s' = getCurrentTime s ∧
    (r = .error (.ida .tooMuchAccuracy) ∧ getTolScaleFactor s' = accuracyProduct cfg s * Scalar.ten ∨
      r = .error (.ida .illegalInput) ∧
        ∃ e, firstCall cfg (begun s tout task) tout = .ret s' (.error e)) := by
  have hb := (begun_same s tout task).2.2.2
  have h0' : s.cnt.nst = 0 := h0
  cases solve_solveEnds h with
  | rejected e h1 h2 h3 =>
    have hS := firstCall_same h2
    refine ⟨by rw [hS.g, hb.g], ?_, ?_, Or.inr ⟨by rw [h3, firstCall_error h2], e, h2⟩⟩
    · show s'.cnt.nst = 0; rw [hS.cnt, hb.cnt]; exact h0
    · show s'.e.tn = s.e.tn; rw [hS.tn, hb.e]
  | first s1 h1 h2 h3 =>
    have hS := firstCall_same h2
    have hphi : (perfReset s1).h.phi 0 = s.h.phi 0 := by
      show s1.h.phi 0 = _; rw [hS.phi 0 (by omega), hb.h]
    have hn1 : (perfReset s1).cnt.nst = 0 := by show s1.cnt.nst = 0; rw [hS.cnt, hb.cnt]; exact h0
    have hw : nextWeights cfg s = (perfReset s1).e.ewt := by
      show _ = s1.e.ewt
      rw [(firstCall_weights h2).1]
      unfold nextWeights initialSetup
      have e1 : (begun s tout task).setupDone = s.setupDone := hb.setupDone
      cases hd : s.setupDone with
      | true =>
        rw [if_neg (by simp [h0]), e1, hd, if_pos rfl, hb.e]
      | false =>
        rw [if_pos (by simp), e1, hd, if_neg (by simp), hb.h, hb.e]
    obtain ⟨g1, g2, g3⟩ := loop_accuracy (w := nextWeights cfg s) (by rw [if_neg (by omega)]; exact hw)
      (by rw [hphi]; exact hacc) h3
    refine ⟨by rw [g1.g]; show s1.g.atts = _; rw [hS.g, hb.g], ?_, ?_, Or.inl ?_⟩
    · show s'.cnt.nst = 0; rw [g1.cnt]; exact hn1
    · show s'.e.tn = s.e.tn; rw [g1.tn]; show s1.e.tn = _; rw [hS.tn, hb.e]
    · rcases g3 with ⟨g3, g4⟩ | ⟨-, g4, -⟩
      · exact ⟨g3, by rw [hphi] at g4; exact g4⟩
      · omega
  | early h1 _ => omega
  | later s1 h1 _ _ => omega

/-- **C41, later calls.** If epsilon times the weighted norm of the current solution (with the weights the next step
would use) exceeds one: no step is attempted.  If moreover the weights are positive, there are no root functions and no
stop time, and `tout` is ahead of the internal time, which has been returned already, the result is `TooMuchAccuracy`
with the scale factor ten times the product. -/
theorem c41_later_call (cfg : Cfg ν n q K) (rf sf : Nat) (s s' : State ν n q K) (tout : K) (task : Task)
    (r : Except Err Status) (h0 : 0 < getNumSteps s) (hacc : Scalar.gt (accuracyProduct cfg s) 1 = true)
    (h : solve cfg rf sf s tout task = .ret s' r) :
    s'.g.atts = s.g.atts ∧ getNumSteps s' = getNumSteps s ∧ getCurrentTime s' = getCurrentTime s ∧
    ((∀ i, Scalar.le (nextWeights cfg s i) 0 = false) → q = 0 → s.tstop = none →
      (task = .normal → Scalar.ge ((getCurrentTime s - tout) * getCurrentStep s) 0 = false ∧
        Scalar.eqb tout s.tretlast = false) →
      (task = .oneStep → Scalar.gt ((getCurrentTime s - s.tretlast) * getCurrentStep s) 0 = false) →
      r = .error (.ida .tooMuchAccuracy) ∧ getTolScaleFactor s' = accuracyProduct cfg s * Scalar.ten ∧
        s'.tret = getCurrentTime s) := by
  have h0' : 0 < s.cnt.nst := h0
  cases solve_solveEnds h with
  | rejected e h1 h2 h3 => omega
  | first s1 h1 h2 h3 => omega
  | early h1 h2 =>
    have h2 := laterCall_ends.2 _ _ h2
    have hi := laterEnds_idle h2
    refine ⟨by rw [hi.g], by show s'.cnt.nst = _; rw [hi.cnt]; rfl, by show s'.e.tn = _; rw [hi.e]; rfl, ?_⟩
    intro hw hq hts hN hO
    exfalso
    have hb : Pending s tout task (perfReset (begun s tout task)) := (begun_pending s tout task).quiet (by quiet_rfl)
    cases h2 with
    | close _ h3 _ _ => omega
    | root2 _ h3 _ _ _ => omega
    | root3 _ _ h3 _ _ _ _ _ => omega
    | pending _ _ h3 _ _ _ _ _ _ => omega
    | stop s1 h3 h4 h5 =>
      have hi1 := noRootBefore_idle h3
      have hp := hb.quiet (noRootBefore_frame h3).2
      have hn : s1.tstop = none := hp.tstop.trans hts
      unfold getCurrentTime getCurrentStep at hN hO
      rw [← hi1.e, ← hi1.c, ← hp.tretlast] at hN hO
      cases stopTest1_cases h4 with
      | past _ g => unfold pastStop at g; rw [hn] at g; cases g
      | same g => rw [(hN rfl).2] at g; cases g
      | reached _ g _ => rw [(hN rfl).1] at g; cases g
      | refused _ g _ => rw [(hN rfl).1] at g; cases g
      | pending _ g _ => rw [hO rfl] at g; cases g
      | stopNormal _ _ _ g _ _ => rw [hn] at g; cases g
      | stopOne _ _ _ g _ _ => rw [hn] at g; cases g
      | stopBad _ _ _ _ g _ _ _ => rw [hn] at g; cases g
      | clamp _ _ g _ _ _ => rw [hn] at g; cases g
      | free _ _ _ _ => exact h5 rfl
  | later s1 h1 h2 h3 =>
    obtain ⟨s2, h4, h5⟩ := laterCall_ends.1 s1 h2
    have hi2 := noRootBefore_idle h4
    have hi : s1.cnt = s.cnt ∧ s1.e = s.e ∧ s1.h = s.h ∧ s1.g = s.g := by
      cases stopTest1_cases h5 with
      | clamp _ ts _ _ _ _ =>
        have hc : ∀ x : State ν n q K, (clampToStop x ts).e = x.e ∧ (clampToStop x ts).h = x.h := by
          intro x; unfold clampToStop; split <;> exact ⟨rfl, rfl⟩
        have hS := clampToStop_same s2 ts
        exact ⟨hS.cnt.trans hi2.cnt, (hc s2).1.trans hi2.e, (hc s2).2.trans hi2.h, hS.g.trans hi2.g⟩
      | free _ _ _ _ => exact ⟨hi2.cnt, hi2.e, hi2.h, hi2.g⟩
    obtain ⟨i1, i2, i3, i4⟩ := hi
    have hw : nextWeights cfg s = if 0 < s1.cnt.nst then cfg.ewtSet (s1.h.phi 0) s1.e.ewt else s1.e.ewt := by
      unfold nextWeights
      rw [if_pos (Or.inl h0), i1, if_pos h0', i2, i3]
    obtain ⟨g1, g2, g3⟩ := loop_accuracy hw (by rw [i3]; exact hacc) h3
    refine ⟨by rw [g1.g, i4], by show s'.cnt.nst = _; rw [g1.cnt, i1]; rfl,
      by show s'.e.tn = _; rw [g1.tn, i2]; rfl, ?_⟩
    intro hpos hq hts hN hO
    rcases g3 with ⟨g3, g4⟩ | ⟨-, -, i, g4⟩
    · exact ⟨g3, by rw [i3] at g4; exact g4, by rw [g2, i2]; rfl⟩
    · rw [hpos i] at g4; cases g4

/-- **C41, the result.** Whenever a call returns `TooMuchAccuracy`, epsilon times the weighted norm of the current
solution, with the weights in force, exceeds one, the scale factor is ten times that product, and `tret` is the internal
time. -/
theorem c41_result (cfg : Cfg ν n q K) (hl : NlsLegal cfg) (rf sf : Nat) (s s' : State ν n q K) (tout : K) (task : Task)
    (h : solve cfg rf sf s tout task = .ret s' (.error (.ida .tooMuchAccuracy))) :
    Scalar.gt (Scalar.eps * wrmsNorm cfg.id (s'.h.phi 0) s'.e.ewt cfg.suppressalg) 1 = true ∧
    getTolScaleFactor s' = Scalar.eps * wrmsNorm cfg.id (s'.h.phi 0) s'.e.ewt cfg.suppressalg * Scalar.ten ∧
    s'.tret = getCurrentTime s' := by
  cases solve_outcome h with
  | rejected e h0 h1 h2 => have := firstCall_error h1; subst this; cases h2
  | early h0 h1 =>
    exfalso
    cases h1 with
    | close e hq h2 h3 => cases h3; cases rCheck2_error h2
    | root2 _ _ _ _ h2 => cases h2
    | root3 _ _ _ _ _ _ _ h2 => cases h2
    | pending _ _ _ ht _ _ _ _ h2 => cases h2
    | stop s1 h2 h3 _ =>
      cases stopTest1_cases h3 with
      | refused e h5 h6 => obtain ⟨-, h7, -⟩ := getSolution_error h6; cases h7
      | stopBad _ ts e e' h5 h6 h7 h8 =>
        obtain ⟨-, h9, -⟩ := getSolution_error h7
        rcases h8 with h8 | h8
        · rw [h9] at h8; cases h8
        · cases h8
  | loop p k hI h1 =>
    cases h1 with
    | pre h2 =>
      have hp := preStep_cases cfg p k
      rw [h2] at hp
      cases hp with
      | accuracy _ h1 hs hW h3 h4 h5 h6 => exact ⟨h5, h6, h3.trans hs.tn.symm⟩
    | failed s1 s2 e h2 h3 h4 =>
      obtain ⟨h5, -⟩ := stepFailed_spec h4
      cases h5
      cases step_failure_kind hl h3
    | post s1 s2 h2 h3 h4 =>
      cases h4 with
      | root _ _ _ _ h5 => cases h5
      | stop s3 h5 h6 h7 => cases stopTest2_cases h6

end

/-! ## C42 -/

section
variable {ν : Type v} {n q : Nat} {K : Type u} [Field K] [LinearOrder K] [IsStrictOrderedRing K] [ExactParams K]
  [EpsLaws K]

theorem solutionAt_of {s s1 s2 : State ν n q K} {t : K} (h : getSolution s t = .ret s1 (.ok ())) (hm : s2.m = s1.m)
    (hh : s2.h = s.h) (he : s2.e = s.e) (hc : s2.c = s.c) : solutionAt s2 t = some (s2.m.yy, s2.m.yp) := by
  rw [getSolution_eq] at h
  unfold solutionAt
  have hb : badTime s2 t = badTime s t := by unfold badTime; rw [he, hc]
  split at h
  · cases h
  · rename_i h1
    split at h
    · rename_i h2
      cases h
      rw [getSolution_eq, hb, if_neg h1, hc, if_pos h2]
      simp only
      rw [hm]
      unfold setSol
      rw [hh, he, hc]
    · cases h

theorem getSolution_of' {s s1 : State ν n q K} {t : K} (h : getSolution' s t = some s1) (hb : badTime s t = false) :
    getSolution s t = .ret s1 (.ok ()) := by
  unfold getSolution' at h
  rw [getSolution_eq] at h ⊢
  rw [if_neg (by rw [hb]; simp)] at h ⊢
  split at h
  · rename_i s2 _ h1
    split at h1
    · cases h1; cases h; rw [if_pos (by assumption)]
    · cases h1
  · cases h

/-- **C42 (partial).** In every history (with any `get_solution` and `get_dky` calls in between): after
`solve(tout, Normal)` has returned `Success`, `get_yy` and `get_yp` are the values `get_solution(tout)` yields, if `tout`
is not the time returned last.

Missing: `tout` equal to the time returned last; there the vectors are left alone, and hold the solution at `tout` only
if nothing has changed them since (`c42_refuted`). -/
theorem c42_normal_partial (cfg : Cfg ν n q K) (hl : NlsLegal cfg) (hm : 0 ≤ cfg.hmaxInv) (rf sf : Nat)
    (s s' : State ν n q K) (hs : Reach cfg s) (tout tret : K)
    (h : exec cfg rf sf s (.solve tout tret .normal) = some (s', .solved (.ok .success))) (ht : tout ≠ s.tretlast) :
    solutionAt s' tout = some (s'.m.yy, s'.m.yp) := by
  have hC := setTret_reach_ctl hl hm hs tret
  cases solve_outcome (exec_solve h) with
  | rejected e h0 h1 h2 => cases h2
  | early h0 h1 =>
    have hb : Pending { s with tret := tret } tout .normal (perfReset (begun { s with tret := tret } tout .normal)) :=
      (begun_pending _ tout .normal).quiet (by quiet_rfl)
    cases h1 with
    | close _ _ _ h2 => cases h2
    | root2 _ _ _ _ h2 => cases h2
    | root3 _ _ _ _ _ _ _ h2 => cases h2
    | pending _ _ _ ht _ _ _ _ _ => cases ht
    | stop s1 h2 h3 _ =>
      have hp := hb.quiet (noRootBefore_frame h2).2
      cases stopTest1_cases h3 with
      | same he =>
        rw [hp.tretlast] at he
        exact absurd (by simpa using he) ht
      | reached s2 hg hs2 =>
        obtain ⟨-, yy, yp, rfl⟩ := getSolution_frame hs2
        exact solutionAt_of (s2 := State.setTret _ tout) hs2 rfl rfl rfl rfl
  | loop p k hI h1 =>
    cases h1 with
    | pre h2 => obtain ⟨h3 | h3, -⟩ := preStep_ret h2 <;> cases h3
    | failed s1 s2 e h2 h3 h4 => obtain ⟨h5, -⟩ := stepFailed_spec h4; cases h5
    | post s1 s2 h2 h3 h4 =>
      obtain ⟨-, -, -, hr⟩ := pass_reached hl hm (pass_start hl hm hC hI h2) h3
      have hr := hr (Or.inl rfl)
      cases h4 with
      | root _ _ _ _ h5 => cases h5
      | stop s3 h5 h6 h7 =>
        have hf := (noRootAfter_frame h5).1
        cases stopTest2_cases h6 with
        | reached _ h8 h9 =>
          have hb : badTime (s3.setTret tout) tout = false := by
            rw [← Bool.not_eq_true, badTime_iff]
            apply not_before_of
            show 0 ≤ (tout - (s3.e.tn - s3.c.hused)) * s3.c.hh
            rw [hf.e, hf.c]; exact hr.le
          have h10 := getSolution_of' h9 hb
          obtain ⟨-, yy, yp, rfl⟩ := getSolution_frame h10
          exact solutionAt_of h10 rfl rfl rfl rfl

/-- **C42 for `TStop`.** After `TStop`, in either mode, the vectors are the values `get_solution(tret)` yields. -/
theorem c42_tstop (cfg : Cfg ν n q K) (hl : NlsLegal cfg) (hm : 0 ≤ cfg.hmaxInv) (rf sf : Nat)
    (s s' : State ν n q K) (hs : Reach cfg s) (tout tret : K) (task : Task)
    (h : exec cfg rf sf s (.solve tout tret task) = some (s', .solved (.ok .tstop))) :
    solutionAt s' s'.tret = some (s'.m.yy, s'.m.yp) := by
  have hC := setTret_reach_ctl hl hm hs tret
  cases solve_outcome (exec_solve h) with
  | rejected e h0 h1 h2 => cases h2
  | early h0 h1 =>
    cases h1 with
    | close _ _ _ h2 => cases h2
    | root2 _ _ _ _ h2 => cases h2
    | root3 _ _ _ _ _ _ _ h2 => cases h2
    | pending _ _ _ _ _ _ _ _ h2 => cases h2
    | stop s1 h2 h3 _ =>
      cases stopTest1_cases h3 with
      | stopNormal s2 ts _ _ _ hs2 =>
        obtain ⟨-, yy, yp, rfl⟩ := getSolution_frame hs2
        exact solutionAt_of (s2 := { State.setTret _ ts with tstop := none }) hs2 rfl rfl rfl rfl
      | stopOne s2 ts _ _ _ hs2 =>
        obtain ⟨-, yy, yp, rfl⟩ := getSolution_frame hs2
        exact solutionAt_of (s2 := State.setTret _ ts) hs2 rfl rfl rfl rfl
  | loop p k hI h1 =>
    cases h1 with
    | pre h2 => obtain ⟨h3 | h3, -⟩ := preStep_ret h2 <;> cases h3
    | failed s1 s2 e h2 h3 h4 => obtain ⟨h5, -⟩ := stepFailed_spec h4; cases h5
    | post s1 s2 h2 h3 h4 =>
      obtain ⟨hC2, hn2, -⟩ := pass_reached hl hm (pass_start hl hm hC hI h2) h3
      cases h4 with
      | root _ _ _ _ h5 => cases h5
      | stop s3 h5 h6 h7 =>
        have hf := (noRootAfter_frame h5).1
        cases stopTest2_cases h6 with
        | stopped _ s4 ts h8 h9 h10 h11 =>
          have h12 := getSolution_of' h11 (stop_not_bad (hC2.of_frame hm hf) (by rw [hf.cnt]; exact hn2) h9)
          obtain ⟨-, yy, yp, rfl⟩ := getSolution_frame h12
          exact solutionAt_of (s2 := { State.setTret _ ts with tstop := none }) h12 rfl rfl rfl rfl

/-- **C42 for one-step mode.** Without root functions: if a call in one-step mode has taken a step and returned
`Success`, the vectors are the solution and the derivative accepted by the nonlinear solver in that step. -/
theorem c42_one_step (cfg : Cfg ν n 0 K) (rf sf : Nat) (s s' : State ν n 0 K) (tout tret : K)
    (h : exec cfg rf sf s (.solve tout tret .oneStep) = some (s', .solved (.ok .success)))
    (hn : getNumSteps s' ≠ getNumSteps s) :
    ∃ x l r, s'.g.atts = x :: l ∧ x.out = .accepted ∧ s'.m.yy = x.yy ∧ s'.m.yp = x.yp ∧
      x.tnew = getCurrentTime s' ∧ s'.g.acc = (getCurrentTime s', s'.m.yy) :: r := by
  cases solve_outcome (exec_solve h) with
  | rejected e h0 h1 h2 => cases h2
  | early h0 h1 =>
    exfalso; apply hn
    show s'.cnt.nst = _; rw [(laterEnds_idle h1).cnt]; rfl
  | loop p k hI h1 =>
    cases h1 with
    | pre h2 => obtain ⟨h3 | h3, -⟩ := preStep_ret h2 <;> cases h3
    | failed s1 s2 e h2 h3 h4 => obtain ⟨h5, -⟩ := stepFailed_spec h4; cases h5
    | post s1 s2 h2 h3 h4 =>
      obtain ⟨x, l, r, g1, g2, g3, g4, g5, g6⟩ := step_accepted h3
      cases h4 with
      | root _ _ _ _ h5 => cases h5
      | stop s3 h5 h6 h7 =>
        rcases h5 with ⟨-, rfl⟩ | ⟨h5, -⟩
        · cases stopTest2_cases h6 with
          | oneClamp ts h8 h9 =>
            unfold clampToStop
            split
            · exact ⟨x, l, r, g1, g2, g3.symm, g4.symm, g5, g6⟩
            · exact ⟨x, l, r, g1, g2, g3.symm, g4.symm, g5, g6⟩
          | oneFree h8 => exact ⟨x, l, r, g1, g2, g3.symm, g4.symm, g5, g6⟩
        · omega

end

/-! ## Concrete calls -/

section
open Verif.Witness

/-- A solver that always converges with a small correction; the user's first step is 1. -/
def smooth : Cfg Nat 1 0 ℚ := { scriptCfg (List.replicate 30 okSmall) with hin := 1 }

/-- `smooth`, but the weights are 10^20 once the solution has changed. -/
def strict : Cfg Nat 1 0 ℚ := { smooth with ewtSet := fun y _ _ => if y 0 = 1 then 1 else 10 ^ 20 }

theorem smooth_legal : NlsLegal smooth := by
  have := scriptCfg_legal (List.replicate 30 okSmall) (by
    intro p hp e he
    rw [List.eq_of_mem_replicate hp] at he; cases he)
  exact this

theorem smooth_new (ts : Option ℚ) : Reach smooth { script0 with tstop := ts } :=
  Reach.new (cfg := smooth) (0 : Nat) (fun _ => 1) (fun _ => -1) ts

/-- **C40: refutation of "cleared by the return".** The stop time is 1.  `solve(1, Normal)` returns `Success` at the
internal time 1, keeping the stop time.  From then on calls in one-step mode return `TStop` and do not clear the stop
time (`c40_no_step_at_stop`: they take no step either). -/
theorem c40_refuted : ∃ s1 s2 s3 : State Nat 1 0 ℚ,
    exec smooth 10 10 { script0 with tstop := some 1 } (.solve 1 0 .normal) = some (s1, .solved (.ok .success)) ∧
    s1.tstop = some 1 ∧ getCurrentTime s1 = 1 ∧
    exec smooth 10 10 s1 (.solve 2 0 .oneStep) = some (s2, .solved (.ok .tstop)) ∧
    s2.tstop = some 1 ∧ getCurrentTime s2 = 1 ∧
    exec smooth 10 10 s2 (.solve 2 0 .oneStep) = some (s3, .solved (.ok .tstop)) ∧
    s3.tstop = some 1 ∧ getCurrentTime s3 = 1 := by
  obtain ⟨s1, r1, s2, r2, s3, r3, h1, h2, h3, h4⟩ := exec_three (cfg := smooth) (rf := 10) (sf := 10)
    (a := .solve 1 0 .normal) (b := .solve 2 0 .oneStep) (c := .solve 2 0 .oneStep) (s := { script0 with tstop := some 1 })
    (P := fun s1 r1 s2 r2 s3 r3 => Res.isStatus .success r1 && Res.isStatus .tstop r2 && Res.isStatus .tstop r3 &&
      decide (s1.tstop = some 1 ∧ getCurrentTime s1 = 1 ∧ s2.tstop = some 1 ∧ getCurrentTime s2 = 1 ∧
        s3.tstop = some 1 ∧ getCurrentTime s3 = 1))
    (by decide +kernel)
  simp only [Bool.and_eq_true, decide_eq_true_eq, Res.isStatus_iff] at h4
  obtain ⟨⟨⟨rfl, rfl⟩, rfl⟩, g1, g2, g3, g4, g5, g6⟩ := h4
  exact ⟨s1, s2, s3, h1, g1, g2, h2, g3, g4, h3, g5, g6⟩

/-- **C42: refutation.** `solve(2, Normal)`, then `get_solution(3/2)`, then `solve(2, Normal)` again: the last call
returns `Success` with `tret = 2`, but `get_yy` is the solution at 3/2. -/
theorem c42_refuted : ∃ (s s' : State Nat 1 0 ℚ), Reach smooth s ∧
    exec smooth 10 10 s (.solve 2 0 .normal) = some (s', .solved (.ok .success)) ∧ s'.tret = 2 ∧
    ((solutionAt s' 2).map fun p => p.1 0) = some (-97 / 100) ∧ s'.m.yy 0 = -12 / 25 ∧
    ((solutionAt s' (3 / 2)).map fun p => p.1 0) = some (-12 / 25) := by
  obtain ⟨s1, r1, s2, r2, s3, r3, h1, h2, h3, h4⟩ := exec_three (cfg := smooth) (rf := 10) (sf := 10)
    (a := .solve 2 0 .normal) (b := .getSolution (3 / 2)) (c := .solve 2 0 .normal) (s := script0)
    (P := fun s1 r1 s2 r2 s3 r3 => Res.isStatus .success r3 &&
      decide (s3.tret = 2 ∧ ((solutionAt s3 2).map fun p => p.1 0) = some (-97 / 100) ∧ s3.m.yy 0 = -12 / 25 ∧
        ((solutionAt s3 (3 / 2)).map fun p => p.1 0) = some (-12 / 25)))
    (by decide +kernel)
  simp only [Bool.and_eq_true, decide_eq_true_eq, Res.isStatus_iff] at h4
  obtain ⟨rfl, g1, g2, g3, g4⟩ := h4
  exact ⟨s2, s3, .call _ _ _ _ (.call _ _ _ _ (smooth_new none) h1) h2, h3, g1, g2, g3, g4⟩

/-- C35, C36, C40: with the stop time 2, `solve(3, OneStep)` takes a step and returns `Success` at 1; again: `TStop` at
the stop time 2, which is cleared; again: a step beyond it.  `solve(3/2, Normal)` then returns an earlier time. -/
example : ((run smooth 10 10 [.solve 3 0 .oneStep] { script0 with tstop := some 2 }).map fun p =>
      (p.1.tret, getNumSteps p.1, p.1.tstop, getCurrentTime p.1)) = some (1, 1, some 2, 1) ∧
    ((run smooth 10 10 [.solve 3 0 .oneStep, .solve 3 0 .oneStep] { script0 with tstop := some 2 }).map fun p =>
      (p.1.tret, getNumSteps p.1, p.1.tstop, getCurrentTime p.1)) = some (2, 2, none, 2) ∧
    ((run smooth 10 10 [.solve 3 0 .oneStep, .solve 3 0 .oneStep, .solve (3 / 2) 0 .normal]
      { script0 with tstop := some 2 }).map fun p => (p.1.tret, getNumSteps p.1, p.1.tstop, getCurrentTime p.1)) =
      some (3 / 2, 2, none, 2) := by
  refine ⟨by decide +kernel, by decide +kernel, by decide +kernel⟩

/-- C41: `strict` accepts the first step (the product is tiny) and rejects the second. -/
example : Scalar.gt (accuracyProduct strict script0) 1 = false ∧
    ((run strict 10 10 [.solve 3 0 .oneStep] script0).map fun p =>
      (getNumSteps p.1, decide (1 < accuracyProduct strict p.1))) = some (1, true) ∧
    ((run strict 10 10 [.solve 3 0 .oneStep, .solve 3 0 .oneStep] script0).map fun p =>
      (getNumSteps p.1, p.1.g.atts.length, p.2.map (Res.isError .tooMuchAccuracy))) =
      some (1, 1, [false, true]) := by
  refine ⟨by decide +kernel, by decide +kernel, by decide +kernel⟩

end

end Verif.Props
