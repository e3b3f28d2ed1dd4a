import Verif.Proofs.Outcome
import Verif.Proofs.Control
import Verif.Proofs.Attempts
import Verif.Witness
import Verif.Props.Step
import Verif.Model.Io

/-!
# The driver `solve` (C35 - C38)

In `solve cfg rf sf s tout task = .ret s' r` the field `s.tret` is the content of the caller's variable before the call
and `s'.tret` its content afterwards.  `s.tretlast` is the time returned last (`c35_returned_last`).  The theorems of the
first part hold for every state and every scalar type (`Scalar` has no laws); `Scalar.ge a 0` is the test `a >= 0` of the
program.
-/

set_option autoImplicit false
set_option linter.unusedSectionVars false
set_option linter.unusedVariables false

namespace Verif.Props

open Verif Verif.Spec

universe u v

section
variable {ν : Type v} {n q : Nat} {K : Type u} [Scalar K]

theorem stepFailed_spec {s s' : State ν n q K} {e : Err} {r : Except Err Status} (h : stepFailed s e = .ret s' r) :
    r = .error e ∧ s'.cnt = s.cnt ∧ s'.e = s.e ∧
      ((s'.tret = s.tret ∧ s'.tretlast = s.tretlast) ∨ (s'.tret = s.e.tn ∧ s'.tretlast = s.e.tn)) := by
  unfold stepFailed at h
  split at h
  · rename_i s1 _ h1
    cases h
    obtain ⟨hf, yy, yp, rfl⟩ := getSolution_frame h1
    exact ⟨rfl, rfl, rfl, Or.inr ⟨rfl, rfl⟩⟩
  · rename_i s1 e1 h1
    cases h
    obtain ⟨rfl, -, -⟩ := getSolution_error h1
    exact ⟨rfl, rfl, rfl, Or.inl ⟨rfl, rfl⟩⟩
  · cases h
  · cases h

/-- What `Pre.ret` gives. -/
theorem preStep_ret {cfg : Cfg ν n q K} {p s' : State ν n q K} {k : Nat} {r : Except Err Status}
    (h : preStep cfg p k = .ret s' r) :
    (r = .error (.ida .illegalInput) ∨ r = .error (.ida .tooMuchAccuracy)) ∧ s'.cnt = p.cnt ∧ s'.e.tn = p.e.tn ∧
      s'.tret = p.e.tn ∧ s'.tretlast = p.e.tn := by
  have := preStep_cases cfg p k
  rw [h] at this
  cases this with
  | limit _ _ => exact ⟨Or.inl rfl, rfl, rfl, rfl, rfl⟩
  | weights _ _ _ hs h1 h2 _ _ _ => exact ⟨Or.inl rfl, hs.cnt, hs.tn, h1, h2⟩
  | accuracy _ _ hs _ h1 h2 _ _ => exact ⟨Or.inr rfl, hs.cnt, hs.tn, h1, h2⟩

/-- The time returned last: `solve` either leaves the caller's variable and the record of the time returned last alone,
or sets both to the same value.  (`get_solution` and `get_dky` do not touch the record.) -/
theorem c35_returned_last (cfg : Cfg ν n q K) (rf sf : Nat) (s s' : State ν n q K) (tout : K) (task : Task)
    (r : Except Err Status) (h : solve cfg rf sf s tout task = .ret s' r) :
    (s'.tret = s.tret ∧ s'.tretlast = s.tretlast ∧ ∃ e, r = .error e) ∨ s'.tret = s'.tretlast := by
  have stop1 : ∀ {s1 : State ν n q K}, Pending s tout task s1 → stopTest1 s1 tout task = .ret s' r →
      r ≠ .ok .continueSteps → (s'.tret = s.tret ∧ s'.tretlast = s.tretlast ∧ ∃ e, r = .error e) ∨ s'.tret = s'.tretlast := by
    intro s1 hp h1 hne
    cases stopTest1_cases h1 with
    | past _ _ => exact Or.inl ⟨hp.tret, hp.tretlast, _, rfl⟩
    | same _ => exact Or.inr rfl
    | reached _ _ _ => exact Or.inr rfl
    | refused _ _ _ => exact Or.inl ⟨hp.tret, hp.tretlast, _, rfl⟩
    | pending _ _ _ => exact Or.inr rfl
    | stopNormal _ _ _ _ _ _ => exact Or.inr rfl
    | stopOne _ _ _ _ _ _ => exact Or.inr rfl
    | stopBad _ _ _ _ _ _ _ _ => exact Or.inl ⟨hp.tret, hp.tretlast, _, rfl⟩
    | clamp _ _ _ _ _ _ => exact absurd rfl hne
    | free _ _ _ _ => exact absurd rfl hne
  cases solve_outcome h with
  | rejected e h0 h1 h2 =>
    have := (begun_pending s tout task).quiet (firstCall_quiet h1)
    exact Or.inl ⟨this.tret, this.tretlast, e, h2⟩
  | early h0 h1 =>
    have hb : Pending s tout task (perfReset (begun s tout task)) := (begun_pending s tout task).quiet (by quiet_rfl)
    cases h1 with
    | close e hq h2 h3 =>
      have := hb.quiet (rCheck2_quiet h2)
      exact Or.inl ⟨this.tret, this.tretlast, e, h3⟩
    | root2 s1 hq h2 h3 h4 => subst h3; exact Or.inr rfl
    | root3 s1 s2 hq h2 h3 h4 h5 h6 => subst h5; exact Or.inr rfl
    | pending s1 s2 hq ht h2 h3 h4 h5 h6 =>
      have := getSolution'_quiet h5
      exact Or.inr (this.tret.trans this.tretlast.symm)
    | stop s1 h2 h3 h4 => exact stop1 (hb.quiet (noRootBefore_frame h2).2) h3 h4
  | loop p k hI h1 =>
    cases h1 with
    | pre h2 => obtain ⟨-, -, -, h3, h4⟩ := preStep_ret h2; exact Or.inr (h3.trans h4.symm)
    | failed s1 s2 e h2 h3 h4 =>
      obtain ⟨h5, -⟩ := preStep_pending hI.pending h2
      have h6 := h5.quiet (step_quiet h3).1
      obtain ⟨h7, -, -, h8 | h8⟩ := stepFailed_spec h4
      · exact Or.inl ⟨h8.1.trans h6.tret, h8.2.trans h6.tretlast, e, h7⟩
      · exact Or.inr (h8.1.trans h8.2.symm)
    | post s1 s2 h2 h3 h4 =>
      cases h4 with
      | root s3 hq h5 h6 h7 => subst h6; exact Or.inr rfl
      | stop s3 h5 h6 h7 =>
        cases stopTest2_cases h6 with
        | reached _ h8 h9 => have := getSolution'_quiet h9; exact Or.inr (this.tret.trans this.tretlast.symm)
        | stopped _ _ _ _ _ _ _ => exact Or.inr rfl
        | clamp _ _ _ _ => exact absurd rfl h7
        | free _ _ => exact absurd rfl h7
        | oneClamp _ _ _ => exact Or.inr rfl
        | oneFree _ => exact Or.inr rfl

/-- `solve` never returns `ContinueSteps`. -/
theorem c35_no_continue (cfg : Cfg ν n q K) (rf sf : Nat) (s s' : State ν n q K) (tout : K) (task : Task) :
    solve cfg rf sf s tout task ≠ .ret s' (.ok .continueSteps) := by
  intro h
  cases solve_outcome h with
  | rejected e h0 h1 h2 => cases h2
  | early h0 h1 =>
    cases h1 with
    | close _ _ _ h2 => cases h2
    | root2 _ _ _ _ h2 => cases h2
    | root3 _ _ _ _ _ _ _ h2 => cases h2
    | pending _ _ _ _ _ _ _ _ h2 => cases h2
    | stop _ _ _ h2 => exact h2 rfl
  | loop p k hI h1 =>
    cases h1 with
    | pre h2 => obtain ⟨h3 | h3, -⟩ := preStep_ret h2 <;> cases h3
    | failed s1 s2 e h2 h3 h4 => obtain ⟨h5, -⟩ := stepFailed_spec h4; cases h5
    | post s1 s2 h2 h3 h4 =>
      cases h4 with
      | root _ _ _ _ h5 => cases h5
      | stop _ _ _ h5 => exact h5 rfl

/-- **C35.** If `solve(tout, Normal)` returns `Success`, then `tret` is `tout`, and either the test
"internal time at or past `tout` in the direction of the current step" holds, or this was not the first call and `tout`
equals the time returned last (and no step was taken).  In exact arithmetic: `c35_reached`. -/
theorem c35_normal_success (cfg : Cfg ν n q K) (rf sf : Nat) (s s' : State ν n q K) (tout : K)
    (h : solve cfg rf sf s tout .normal = .ret s' (.ok .success)) :
    s'.tret = tout ∧ 0 < getNumSteps s' ∧
    (Scalar.ge ((getCurrentTime s' - tout) * getCurrentStep s') 0 = true ∨
     0 < getNumSteps s ∧ Scalar.eqb tout s.tretlast = true ∧ getNumSteps s' = getNumSteps s) := by
  cases solve_outcome h with
  | rejected e h0 h1 h2 => cases h2
  | early h0 h1 =>
    have hb : Pending s tout .normal (perfReset (begun s tout .normal)) := (begun_pending s tout .normal).quiet (by quiet_rfl)
    have hc : (perfReset (begun s tout .normal)).cnt = s.cnt := (begun_same s tout .normal).2.2.2.cnt
    cases h1 with
    | close _ _ _ h2 => cases h2
    | root2 _ _ _ _ h2 => cases h2
    | root3 _ _ _ _ _ _ _ h2 => cases h2
    | pending _ _ _ ht _ _ _ _ _ => cases ht
    | stop s1 h2 h3 _ =>
      have hp := hb.quiet (noRootBefore_frame h2).2
      cases stopTest1_cases h3 with
      | same he =>
        rw [hp.tretlast] at he
        have hn : s1.cnt.nst = s.cnt.nst := by rw [(noRootBefore_frame h2).1.cnt, hc]
        exact ⟨rfl, lt_of_lt_of_eq h0 hn.symm, Or.inr ⟨h0, he, hn⟩⟩
      | reached s2 hg hs =>
        have hn : s1.cnt.nst = s.cnt.nst := by rw [(noRootBefore_frame h2).1.cnt, hc]
        obtain ⟨hf, yy, yp, rfl⟩ := getSolution_frame hs
        exact ⟨rfl, lt_of_lt_of_eq h0 hn.symm, Or.inl hg⟩
  | loop p k hI h1 =>
    cases h1 with
    | pre h2 => obtain ⟨h3 | h3, -⟩ := preStep_ret h2 <;> cases h3
    | failed s1 s2 e h2 h3 h4 => obtain ⟨h5, -⟩ := stepFailed_spec h4; cases h5
    | post s1 s2 h2 h3 h4 =>
      cases h4 with
      | root _ _ _ _ h5 => cases h5
      | stop s3 h5 h6 h7 =>
        cases stopTest2_cases h6 with
        | reached _ h8 h9 =>
          obtain ⟨hf, yy, yp, rfl⟩ := getSolution'_frame h9
          refine ⟨rfl, ?_, Or.inl h8⟩
          show 0 < s3.cnt.nst
          rw [(noRootAfter_frame h5).1.cnt, (loopAt_step hI h2 h3).2.1]; omega

/-! ## C36 -/

/-- **C36.** If `solve(tout, OneStep)` returns `Success`, then `tret` is the internal time, and either exactly one step
was taken, or none because the internal time was ahead of the time returned last: by the test of the program in the
direction of integration, or (with root functions, after a root was returned) by more than roundoff. -/
theorem c36_one_step (cfg : Cfg ν n q K) (rf sf : Nat) (s s' : State ν n q K) (tout : K)
    (h : solve cfg rf sf s tout .oneStep = .ret s' (.ok .success)) :
    s'.tret = getCurrentTime s' ∧
    (getNumSteps s' = getNumSteps s + 1 ∨
     0 < getNumSteps s ∧ getNumSteps s' = getNumSteps s ∧ getCurrentTime s' = getCurrentTime s ∧
      (Scalar.gt ((getCurrentTime s - s.tretlast) * getCurrentStep s) 0 = true ∨
       0 < q ∧ Scalar.gt (Scalar.abs (getCurrentTime s - s.tretlast))
        ((Scalar.abs (getCurrentTime s) + Scalar.abs (getCurrentStep s)) * Scalar.eps * Scalar.hundred) = true)) := by
  cases solve_outcome h with
  | rejected e h0 h1 h2 => cases h2
  | early h0 h1 =>
    have hb : Pending s tout .oneStep (perfReset (begun s tout .oneStep)) := (begun_pending s tout .oneStep).quiet (by quiet_rfl)
    have hfb : Frame s (begun s tout .oneStep) := (begun_same s tout .oneStep).2.2.2
    cases h1 with
    | close _ _ _ h2 => cases h2
    | root2 _ _ _ _ h2 => cases h2
    | root3 _ _ _ _ _ _ _ h2 => cases h2
    | pending s1 s2 hq ht h2 h3 h4 h5 _ =>
      obtain ⟨hf, yy, yp, rfl⟩ := getSolution'_frame h5
      have f1 := rCheck2_frame h2
      have f2 := rCheck3_frame h4
      have htn : s2.e = s.e := by rw [f2.e, f1.e]; exact hfb.e
      have hcn : s2.cnt = s.cnt := by rw [f2.cnt, f1.cnt]; exact hfb.cnt
      have hp := hb.quiet (rCheck2_quiet h2)
      have e1 : s1.e = s.e := by rw [f1.e]; exact hfb.e
      have e2 : s1.c = s.c := by rw [f1.c]; exact hfb.c
      refine ⟨rfl, Or.inr ⟨h0, by show s2.cnt.nst = _; rw [hcn]; rfl, by show s2.e.tn = _; rw [htn]; rfl,
        Or.inr ⟨hq, ?_⟩⟩⟩
      unfold farFromLast at h3
      rw [e1, e2, hp.tretlast] at h3
      exact h3
    | stop s1 h2 h3 _ =>
      have hp := hb.quiet (noRootBefore_frame h2).2
      have f1 := (noRootBefore_frame h2).1
      have e1 : s1.e = s.e := by rw [f1.e]; exact hfb.e
      have e2 : s1.c = s.c := by rw [f1.c]; exact hfb.c
      have e3 : s1.cnt = s.cnt := by rw [f1.cnt]; exact hfb.cnt
      cases stopTest1_cases h3 with
      | pending s2 hg hs =>
        obtain ⟨hf, yy, yp, rfl⟩ := getSolution'_frame hs
        refine ⟨rfl, Or.inr ⟨h0, by show s1.cnt.nst = _; rw [e3]; rfl, by show s1.e.tn = _; rw [e1]; rfl, Or.inl ?_⟩⟩
        rw [e1, e2, hp.tretlast] at hg
        exact hg
  | loop p k hI h1 =>
    have hk : k = 0 := by
      by_contra hc
      have := hI.again (by omega)
      cases this
    cases h1 with
    | pre h2 => obtain ⟨h3 | h3, -⟩ := preStep_ret h2 <;> cases h3
    | failed s1 s2 e h2 h3 h4 => obtain ⟨h5, -⟩ := stepFailed_spec h4; cases h5
    | post s1 s2 h2 h3 h4 =>
      obtain ⟨-, hn, -, -⟩ := loopAt_step hI h2 h3
      cases h4 with
      | root _ _ _ _ h5 => cases h5
      | stop s3 h5 h6 h7 =>
        have f3 := (noRootAfter_frame h5).1
        cases stopTest2_cases h6 with
        | oneClamp ts h8 h9 =>
          refine ⟨?_, Or.inl ?_⟩
          · show s3.e.tn = (clampToStop s3 ts).e.tn
            rw [clampToStop_tn]
          · show (clampToStop s3 ts).cnt.nst = _
            rw [(clampToStop_same s3 ts).cnt, f3.cnt, hn, hk]; rfl
        | oneFree h8 =>
          refine ⟨rfl, Or.inl ?_⟩
          show s3.cnt.nst = _
          rw [f3.cnt, hn, hk]; rfl

/-- The number of steps taken by a call. -/
theorem steps_taken {cfg : Cfg ν n q K} {rf sf : Nat} {s s' : State ν n q K} {tout : K} {task : Task}
    {r : Except Err Status} (h : solve cfg rf sf s tout task = .ret s' r) :
    ∃ k, s'.cnt.nst = s.cnt.nst + k ∧ (task = .oneStep → k ≤ 1) ∧ (0 < cfg.mxstep → k ≤ cfg.mxstep) ∧
      (0 < cfg.mxstep → k = cfg.mxstep → (∃ st, r = .ok st) ∨
        r = .error (.ida .illegalInput) ∧ s'.tret = s'.e.tn) := by
  have hfb : Frame s (begun s tout task) := (begun_same s tout task).2.2.2
  have zero : s'.cnt = s.cnt → ∃ k, s'.cnt.nst = s.cnt.nst + k ∧ (task = .oneStep → k ≤ 1) ∧
      (0 < cfg.mxstep → k ≤ cfg.mxstep) ∧ (0 < cfg.mxstep → k = cfg.mxstep → (∃ st, r = .ok st) ∨
        r = .error (.ida .illegalInput) ∧ s'.tret = s'.e.tn) :=
    fun hc => ⟨0, by rw [hc]; rfl, fun _ => by omega, fun _ => by omega, fun h1 h2 => by omega⟩
  cases solve_outcome h with
  | rejected e h0 h1 h2 => exact zero ((firstCall_cnt h1).trans hfb.cnt)
  | early h0 h1 =>
    have hc : (perfReset (begun s tout task)).cnt = s.cnt := hfb.cnt
    cases h1 with
    | close _ _ h2 _ => exact zero ((rCheck2_frame h2).cnt.trans hc)
    | root2 _ _ h2 h3 _ => subst h3; exact zero ((rCheck2_frame h2).cnt.trans hc)
    | root3 _ _ _ h2 _ h3 h4 _ => subst h4; exact zero (((rCheck3_frame h3).cnt.trans (rCheck2_frame h2).cnt).trans hc)
    | pending _ _ _ _ h2 _ h3 h4 _ =>
      obtain ⟨hf, yy, yp, rfl⟩ := getSolution'_frame h4
      exact zero (((rCheck3_frame h3).cnt.trans (rCheck2_frame h2).cnt).trans hc)
    | stop s1 h2 h3 h4 =>
      have hc1 : s1.cnt = s.cnt := (noRootBefore_frame h2).1.cnt.trans hc
      refine zero (Eq.trans ?_ hc1)
      cases stopTest1_cases h3 with
      | past _ _ => rfl
      | same _ => rfl
      | reached _ _ h5 => obtain ⟨-, yy, yp, rfl⟩ := getSolution_frame h5; rfl
      | refused _ _ _ => rfl
      | pending _ _ h5 => obtain ⟨-, yy, yp, rfl⟩ := getSolution'_frame h5; rfl
      | stopNormal _ _ _ _ _ h5 => obtain ⟨-, yy, yp, rfl⟩ := getSolution_frame h5; rfl
      | stopOne _ _ _ _ _ h5 => obtain ⟨-, yy, yp, rfl⟩ := getSolution_frame h5; rfl
      | stopBad _ _ _ _ _ _ _ _ => rfl
      | clamp _ _ _ _ _ _ => exact absurd rfl h4
      | free _ _ _ _ => exact absurd rfl h4
  | loop p k hI h1 =>
    have hk : task = .oneStep → k = 0 := by
      intro ht
      by_contra hc
      have := hI.again (by omega)
      rw [ht] at this; cases this
    cases h1 with
    | pre h2 =>
      have hp := preStep_cases cfg p k
      obtain ⟨h3, h4, h5, h6, -⟩ := preStep_ret h2
      refine ⟨k, by rw [h4, hI.nst], fun ht => by rw [hk ht]; omega, hI.limit, fun h7 h8 => Or.inr ⟨?_, h6.trans h5.symm⟩⟩
      rw [h2] at hp
      cases hp with
      | limit _ _ => rfl
      | weights _ h9 _ _ _ _ _ _ _ => have := h9 h7; omega
      | accuracy _ h9 _ _ _ _ _ _ => have := h9 h7; omega
    | failed s1 s2 e h2 h3 h4 =>
      obtain ⟨-, h5, h6, -⟩ := preStep_pending hI.pending h2
      obtain ⟨-, h7, -⟩ := stepFailed_spec h4
      refine ⟨k, by rw [h7, ((step_quiet h3).2.2 e rfl).1, h5, hI.nst], fun ht => by rw [hk ht]; omega, hI.limit,
        fun h8 h9 => ?_⟩
      have := h6 h8; omega
    | post s1 s2 h2 h3 h4 =>
      obtain ⟨-, hn, -, hlim⟩ := loopAt_step hI h2 h3
      have fin : s'.cnt = s2.cnt → (∃ st, r = .ok st) → ∃ k, s'.cnt.nst = s.cnt.nst + k ∧ (task = .oneStep → k ≤ 1) ∧
          (0 < cfg.mxstep → k ≤ cfg.mxstep) ∧ (0 < cfg.mxstep → k = cfg.mxstep → (∃ st, r = .ok st) ∨
            r = .error (.ida .illegalInput) ∧ s'.tret = s'.e.tn) :=
        fun hc ho => ⟨k + 1, by rw [hc, hn]; omega, fun ht => by rw [hk ht], fun h0 => hlim h0, fun _ _ => Or.inl ho⟩
      cases h4 with
      | root s3 _ h5 h6 h7 => subst h6; exact fin (rCheck3_frame h5).cnt ⟨_, h7⟩
      | stop s3 h5 h6 h7 =>
        have f3 := (noRootAfter_frame h5).1.cnt
        cases stopTest2_cases h6 with
        | reached _ _ h9 => obtain ⟨-, yy, yp, rfl⟩ := getSolution'_frame h9; exact fin f3 ⟨_, rfl⟩
        | stopped _ _ _ _ _ _ h9 => obtain ⟨-, yy, yp, rfl⟩ := getSolution'_frame h9; exact fin f3 ⟨_, rfl⟩
        | clamp _ _ _ _ => exact absurd rfl h7
        | free _ _ => exact absurd rfl h7
        | oneClamp ts _ _ => exact fin ((clampToStop_same s3 ts).cnt.trans f3) ⟨_, rfl⟩
        | oneFree _ => exact fin f3 ⟨_, rfl⟩

/-- **C36, every result.** In one-step mode a call takes at most one step, whatever it returns. -/
theorem c36_at_most_one (cfg : Cfg ν n q K) (rf sf : Nat) (s s' : State ν n q K) (tout : K) (r : Except Err Status)
    (h : solve cfg rf sf s tout .oneStep = .ret s' r) :
    getNumSteps s ≤ getNumSteps s' ∧ getNumSteps s' ≤ getNumSteps s + 1 := by
  obtain ⟨k, h1, h2, -⟩ := steps_taken h
  have := h2 rfl
  unfold getNumSteps
  omega

/-- **C36, the first call.** A first call that succeeds in one-step mode takes exactly one step. -/
theorem c36_first_call (cfg : Cfg ν n q K) (rf sf : Nat) (s s' : State ν n q K) (tout : K)
    (h0 : getNumSteps s = 0) (h : solve cfg rf sf s tout .oneStep = .ret s' (.ok .success)) : getNumSteps s' = 1 := by
  rcases (c36_one_step cfg rf sf s s' tout h).2 with h1 | ⟨h1, -⟩
  · omega
  · omega

/-! ## C37 -/

/-- **C37.** A call takes at most `mxstep` steps, in any mode and whatever it returns. -/
theorem c37_at_most_mxstep (cfg : Cfg ν n q K) (hm : 0 < cfg.mxstep) (rf sf : Nat) (s s' : State ν n q K) (tout : K)
    (task : Task) (r : Except Err Status) (h : solve cfg rf sf s tout task = .ret s' r) :
    getNumSteps s' ≤ getNumSteps s + cfg.mxstep := by
  obtain ⟨k, h1, -, h2, -⟩ := steps_taken h
  have := h2 hm
  unfold getNumSteps
  omega

/-- **C37, reaching the limit.** A call that has taken `mxstep` steps and does not end successfully with the last of them
returns an error (`IllegalInput`) with `tret` equal to the internal time. -/
theorem c37_limit (cfg : Cfg ν n q K) (hm : 0 < cfg.mxstep) (rf sf : Nat) (s s' : State ν n q K) (tout : K)
    (task : Task) (e : Err) (h : solve cfg rf sf s tout task = .ret s' (.error e))
    (hk : getNumSteps s' = getNumSteps s + cfg.mxstep) :
    e = .ida .illegalInput ∧ s'.tret = getCurrentTime s' := by
  obtain ⟨k, h1, -, -, h2⟩ := steps_taken h
  unfold getNumSteps at hk
  rcases h2 hm (by omega) with ⟨st, h3⟩ | ⟨h3, h4⟩
  · cases h3
  · cases h3; exact ⟨rfl, h4⟩

/-- **C37, termination.** If no internal step and no root search runs forever, then neither does `solve`: `mxstep + 1`
passes of its loop suffice.  (The steps return if the nonlinear solver does: C30.  For the root search see C46.) -/
theorem c37_terminates (cfg : Cfg ν n q K) (hm : 0 < cfg.mxstep) (rf sf : Nat) (hsf : cfg.mxstep < sf)
    (hs : ∀ s, step cfg s ≠ .diverge) (hr : ∀ s, 0 < q → rCheck3 cfg rf s ≠ .diverge) (s : State ν n q K) (tout : K)
    (task : Task) : solve cfg rf sf s tout task ≠ .diverge :=
  solve_noDiverge hm hsf s (fun p _ => hs p) tout task (fun s1 _ hq _ => hr s1 hq) (fun p2 _ _ hq => hr p2 hq)

/-- **C37, termination without root functions.** If the nonlinear solver follows the protocol and always returns, every
call of `solve` returns or panics. -/
theorem c37_terminates_no_roots (cfg : Cfg ν n 0 K) (hm : 0 < cfg.mxstep) (hl : NlsLegal cfg) (hn : NlsReturns cfg)
    (rf sf : Nat) (hsf : cfg.mxstep < sf) (s : State ν n 0 K) (tout : K) (task : Task) :
    solve cfg rf sf s tout task ≠ .diverge :=
  c37_terminates cfg hm rf sf hsf (fun s => (c30_attempts_bounded cfg hl s).1 hn) (fun _ h => absurd h (by omega)) s tout task

end

end Verif.Props
