import Verif.Proofs.FirstCall

/-! # The ways `solve` returns (any scalar type) -/

set_option autoImplicit false
set_option linter.unusedSectionVars false
set_option linter.unusedSimpArgs false
set_option linter.unusedVariables false

namespace Verif

open Relation Verif.Spec

universe u v

section
variable {ν : Type v} {n q : Nat} {K : Type u} [Scalar K]

/-! ## What does not touch the returned values -/

/-- `s'` has the returned values, the tolerance factor and the task of `s`. -/
structure Quiet (s s' : State ν n q K) : Prop where
  tretlast : s'.tretlast = s.tretlast
  tret : s'.tret = s.tret
  tolsf : s'.tolsf = s.tolsf
  toutc : s'.r.toutc = s.r.toutc
  taskc : s'.r.taskc = s.r.taskc
  tstop : s'.tstop = s.tstop

theorem Quiet.refl (s : State ν n q K) : Quiet s s := ⟨rfl, rfl, rfl, rfl, rfl, rfl⟩

theorem Quiet.trans {a b c : State ν n q K} (h : Quiet a b) (h' : Quiet b c) : Quiet a c :=
  ⟨h'.1.trans h.1, h'.2.trans h.2, h'.3.trans h.3, h'.4.trans h.4, h'.5.trans h.5, h'.6.trans h.6⟩

macro "quiet_rfl" : tactic => `(tactic| exact Quiet.mk rfl rfl rfl rfl rfl rfl)

theorem getSolution_quiet {s s' : State ν n q K} {t : K} {r : Except Err Unit} (h : getSolution s t = .ret s' r) :
    Quiet s s' := by
  obtain ⟨-, yy, yp, rfl⟩ := getSolution_frame h
  quiet_rfl

theorem getSolution'_quiet {s s' : State ν n q K} {t : K} (h : getSolution' s t = some s') : Quiet s s' := by
  obtain ⟨-, yy, yp, rfl⟩ := getSolution'_frame h
  quiet_rfl

theorem rCheck2_quiet {cfg : Cfg ν n q K} {s s' : State ν n q K} {r : Except Err RootStatus}
    (h : rCheck2 cfg s = .ret s' r) : Quiet s s' := by
  unfold rCheck2 callRoot at h
  split at h
  · cases h; exact .refl _
  · split at h
    · cases h
    · rename_i s1 h1
      refine (getSolution'_quiet h1).trans ?_
      simp only at h
      split at h
      · split at h
        · cases h
        · rename_i s2 h2
          have hf2 : Quiet s1 s2 := by
            split at h2
            · cases h2; quiet_rfl
            · refine Quiet.trans ?_ (getSolution'_quiet h2)
              quiet_rfl
          refine hf2.trans ?_
          split at h
          · cases h; quiet_rfl
          · split at h <;> (cases h; quiet_rfl)
      · cases h; quiet_rfl

theorem rootNarrow_quiet {s : State ν n q K} {a : Scan K} {tmid alph : K} {sp : Int} :
    (∀ s', rootNarrow s a tmid alph sp = .stop s' → Quiet s s') ∧
    (∀ s' l, rootNarrow s a tmid alph sp = .more s' l → Quiet s s') := by
  unfold rootNarrow
  simp only
  constructor
  · intro s' h
    split at h
    · split at h <;> cases h
      quiet_rfl
    · split at h
      · cases h; quiet_rfl
      · split at h <;> cases h
        quiet_rfl
  · intro s' l h
    split at h
    · split at h <;> cases h
      quiet_rfl
    · split at h
      · cases h
      · split at h <;> cases h
        quiet_rfl

theorem rootPass_quiet {cfg : Cfg ν n q K} {s : State ν n q K} {l : RfLoc K} :
    (∀ s', rootPass cfg s l = .stop s' → Quiet s s') ∧ (∀ s' l', rootPass cfg s l = .more s' l' → Quiet s s') := by
  unfold rootPass callRoot
  split
  · simp only
    split
    · simp
    · rename_i s1 h1
      have h1 := getSolution'_quiet h1
      constructor
      · intro s' h
        refine h1.trans (Quiet.trans ?_ (rootNarrow_quiet.1 s' h))
        quiet_rfl
      · intro s' l' h
        refine h1.trans (Quiet.trans ?_ (rootNarrow_quiet.2 s' l' h))
        quiet_rfl
  · simp

theorem rootLoop_quiet {cfg : Cfg ν n q K} (fuel : Nat) {s s' : State ν n q K} {l : RfLoc K} {r : Except Err Unit}
    (h : rootLoop cfg fuel s l = .ret s' r) : Quiet s s' := by
  induction fuel generalizing s l with
  | zero => cases h
  | succ fuel ih =>
    unfold rootLoop at h
    split at h
    · cases h; exact .refl _
    · split at h
      · cases h
      · rename_i h1
        cases h
        exact rootPass_quiet.1 _ h1
      · rename_i h1
        exact (rootPass_quiet.2 _ _ h1).trans (ih h)

theorem rootFind_quiet {cfg : Cfg ν n q K} {fuel : Nat} {s s' : State ν n q K} {r : Except Err RootStatus}
    (h : rootFind cfg fuel s = .ret s' r) : Quiet s s' := by
  unfold rootFind at h
  simp only at h
  split at h
  · split at h <;> (cases h; quiet_rfl)
  · rcases Out.bind_eq_ret h with ⟨s1, a, h1, h2⟩ | ⟨e, h1, h2⟩
    · cases h2
      exact (rootLoop_quiet _ h1).trans (by quiet_rfl)
    · exact rootLoop_quiet _ h1

theorem rCheck3_quiet {cfg : Cfg ν n q K} {fuel : Nat} {s s' : State ν n q K} {r : Except Err RootStatus}
    (h : rCheck3 cfg fuel s = .ret s' r) : Quiet s s' := by
  unfold rCheck3 callRoot at h
  simp only at h
  split at h
  · cases h
  · rename_i s1 h1
    have hq : Quiet s s1 := Quiet.trans (by quiet_rfl) (getSolution'_quiet h1)
    refine hq.trans ?_
    rcases Out.bind_eq_ret h with ⟨s2, a, h2, h3⟩ | ⟨e, h2, h3⟩
    · have hq2 : Quiet s1 s2 := Quiet.trans (by quiet_rfl) (rootFind_quiet h2)
      refine hq2.trans ?_
      split at h3
      · split at h3
        · cases h3
        · rename_i s3 h4
          cases h3
          exact Quiet.trans (by quiet_rfl) (getSolution'_quiet h4)
      · cases h3; quiet_rfl
    · exact absurd h2 rootFind_ok

theorem perfCheck_quiet {s s' : State ν n q K} (h : perfCheck s = some s') : Quiet s s' := by
  unfold perfCheck at h
  simp only at h
  split at h
  · cases h
  · split at h
    · cases h; exact .refl _
    · split at h
      · cases h
      · split at h
        · cases h; quiet_rfl
        · cases h; exact .refl _

theorem clampToStop_quiet (s : State ν n q K) (t : K) : Quiet s (clampToStop s t) := by
  unfold clampToStop; split <;> quiet_rfl

theorem afterTrial_quiet {cfg : Cfg ν n q K} {s s' : State ν n q K} {r : Except Err Unit} (h : AfterTrial cfg s s' r) :
    Quiet s s' := ⟨h.tretlast, h.tret, h.tolsf, by rw [h.r], by rw [h.r], h.tstop⟩

theorem completeStep_quiet {cfg : Cfg ν n q K} {s s' : State ν n q K} {a b : K} (h : completeStep cfg s a b = some s') :
    Quiet s s' := by
  have hr := (completeStep_eq h).r
  have ht := (completeStep_eq h).tstop
  unfold completeStep at h
  simp only at h
  split at h
  · cases h
  · split at h
    · cases h
    · rename_i s1 h1
      split at h
      · cases h
        obtain ⟨e1, -, -⟩ := chooseNext_eq h1
        rw [markPhase_eq] at e1
        refine ⟨?_, ?_, ?_, by rw [hr], by rw [hr], ht⟩ <;> (show _ = _; simp only; rw [e1])
      · cases h

theorem handled_quiet {cfg : Cfg ν n q K} {s s' : State ν n q K} {err : Err} {a b : K} {f f' : Fails}
    {r : Except Err Unit} (h : Handled cfg s a b f err s' f' r) : Quiet s s' := by
  cases h <;> quiet_rfl

theorem passFailed_quiet {cfg : Cfg ν n q K} {t0 : K} {s s4 : State ν n q K} {err : Err} {a b : K}
    (h : PassFailed cfg t0 s s4 err a b) : Quiet s s4 ∧ s4.cnt = s.cnt := by
  obtain ⟨s3, r, out, h1, -, -, rfl⟩ := h.tried
  have := afterTrial_quiet h1
  exact ⟨⟨this.1, this.2, this.3, this.4, this.5, this.6⟩, h1.cnt⟩

/-- One internal step: the returned values stay, and the number of steps grows by one if it is accepted. -/
theorem step_quiet {cfg : Cfg ν n q K} {s s' : State ν n q K} {r : Except Err Unit} (h : step cfg s = .ret s' r) :
    Quiet s s' ∧ (r = .ok () → s'.cnt.nst = s.cnt.nst + 1) ∧ 
    (∀ e, r = .error e → s'.cnt.nst = s.cnt.nst ∧ s'.e.tn = s.e.tn) := by
  have hi := firstStepInit_cnt s
  have h0 : Quiet s (firstStepInit s) := by unfold firstStepInit; split <;> quiet_rfl
  have := step_rule (cfg := cfg) (fun s1 _ => Quiet s s1 ∧ s1.cnt.nst = s.cnt.nst)
    (fun s1 => Quiet s s1 ∧ s1.cnt.nst = s.cnt.nst + 1) (fun s1 _ => Quiet s s1 ∧ s1.cnt.nst = s.cnt.nst ∧ s1.e.tn = s.e.tn)
    ⟨h0, by rw [hi.1]⟩
    (fun s1 f s' f' hI h => by
      obtain ⟨s4, err, a, b, s6, hp, hh, rfl⟩ := attempt_again h
      have hH := handleNFlag_handled hh
      obtain ⟨h4, h5⟩ := passFailed_quiet hp
      have h6 : ∀ t0, Quiet s4 (restored s4 t0) := fun _ => by quiet_rfl
      have h7 : Quiet s6 (if s6.cnt.nst = 0 then reset s6 else s6) := by
        split
        · quiet_rfl
        · exact .refl _
      refine ⟨hI.1.trans (h4.trans ((h6 _).trans ((handled_quiet hH).trans h7))), ?_⟩
      rw [(ite_reset_ctl s6 (s6.cnt.nst = 0)).2.1, (handled_ctl hH).2.2.1]
      show s4.cnt.nst = _
      rw [h5]; exact hI.2)
    (fun s1 f s2 ck a b s' hI h hc => by
      obtain ⟨s3, h3, -, -, -, -, rfl⟩ := attempt_done h
      have hq3 := afterTrial_quiet h3
      have hqc := completeStep_quiet hc
      have hC := completeStep_eq hc
      refine ⟨⟨?_, ?_, ?_, ?_, ?_, ?_⟩, ?_⟩
      · exact (hqc.tretlast.trans hq3.tretlast).trans hI.1.tretlast
      · exact (hqc.tret.trans hq3.tret).trans hI.1.tret
      · exact (hqc.tolsf.trans hq3.tolsf).trans hI.1.tolsf
      · exact (hqc.toutc.trans hq3.toutc).trans hI.1.toutc
      · exact (hqc.taskc.trans hq3.taskc).trans hI.1.taskc
      · exact (hqc.tstop.trans hq3.tstop).trans hI.1.tstop
      · show s'.cnt.nst = _
        rw [hC.nst]
        show s3.cnt.nst + 1 = _
        rw [h3.cnt, hI.2])
    (fun s1 f s' e hI h => by
      obtain ⟨s4, err, a, b, f', hp, hh⟩ := attempt_fail h
      have hH := handleNFlag_handled hh
      obtain ⟨h4, h5⟩ := passFailed_quiet hp
      have h6 : ∀ t0, Quiet s4 (restored s4 t0) := fun _ => by quiet_rfl
      refine ⟨hI.1.trans (h4.trans ((h6 _).trans (handled_quiet hH))), ?_, by rw [(handled_ctl hH).2.2.2.2.2.2.1]; rfl⟩
      rw [(handled_ctl hH).2.2.1]
      show s4.cnt.nst = _
      rw [h5]; exact hI.2) h
  rcases this with ⟨rfl, hx⟩ | ⟨e, rfl, hx⟩
  · exact ⟨hx.1, fun _ => hx.2, fun e he => by cases he⟩
  · exact ⟨hx.1, (fun h => by cases h), fun _ _ => hx.2⟩

/-! ## The sections of `solve` -/

/-- The state after the assignments at the beginning of `solve`. -/
def begun (s : State ν n q K) (tout : K) (task : Task) : State ν n q K :=
  { (if task = .normal then { s with r.toutc := tout } else s) with r.taskc := task }

theorem begun_same (s : State ν n q K) (tout : K) (task : Task) :
    begun s tout task = { s with r := (begun s tout task).r } ∧
    (begun s tout task).r = { s.r with toutc := (begun s tout task).r.toutc, taskc := task } ∧
    (task = .normal → (begun s tout task).r.toutc = tout) ∧ Frame s (begun s tout task) := by
  unfold begun
  split
  · exact ⟨rfl, rfl, fun _ => rfl, by frame_rfl⟩
  · rename_i h
    exact ⟨rfl, rfl, fun h' => absurd h' h, by frame_rfl⟩

/-- How a call of `solve` gets to its result. -/
inductive SolveEnds (cfg : Cfg ν n q K) (rf sf : Nat) (s : State ν n q K) (tout : K) (task : Task)
    (s' : State ν n q K) (r : Except Err Status) : Prop
  | rejected (e : Err) : s.cnt.nst = 0 → firstCall cfg (begun s tout task) tout = .ret s' (.error e) → r = .error e →
      SolveEnds cfg rf sf s tout task s' r
  | first (s1 : State ν n q K) : s.cnt.nst = 0 → firstCall cfg (begun s tout task) tout = .ret s1 (.ok ()) →
      solveLoop cfg rf tout task sf (perfReset s1) 0 = .ret s' r → SolveEnds cfg rf sf s tout task s' r
  | early : 0 < s.cnt.nst → laterCall cfg rf (perfReset (begun s tout task)) tout task = .ret s' r →
      SolveEnds cfg rf sf s tout task s' r
  | later (s1 : State ν n q K) : 0 < s.cnt.nst → laterCall cfg rf (perfReset (begun s tout task)) tout task = .go s1 →
      solveLoop cfg rf tout task sf s1 0 = .ret s' r → SolveEnds cfg rf sf s tout task s' r

/-- `solve` in terms of its sections. -/
theorem solve_eq (cfg : Cfg ν n q K) (rf sf : Nat) (s : State ν n q K) (tout : K) (task : Task) :
    solve cfg rf sf s tout task =
      if s.cnt.nst = 0 then
        (firstCall cfg (begun s tout task) tout).bind fun s1 _ => solveLoop cfg rf tout task sf (perfReset s1) 0
      else (laterCall cfg rf (perfReset (begun s tout task)) tout task).andThen fun s1 =>
        solveLoop cfg rf tout task sf s1 0 := by
  have hc : (begun s tout task).cnt = s.cnt := (begun_same s tout task).2.2.2.cnt
  have h0 : solve cfg rf sf s tout task =
      (if (begun s tout task).cnt.nst = 0 then firstCall cfg (begun s tout task) tout
        else .ret (begun s tout task) (.ok ())).bind fun s _ =>
      (if (perfReset s).cnt.nst > 0 then laterCall cfg rf (perfReset s) tout task else Flow.go (perfReset s)).andThen
        fun s => solveLoop cfg rf tout task sf s 0 := rfl
  rw [h0, hc]
  by_cases hn : s.cnt.nst = 0
  · rw [if_pos hn, if_pos hn]
    cases hf : firstCall cfg (begun s tout task) tout with
    | panic => rfl
    | diverge => rfl
    | ret s1 r1 =>
      cases r1 with
      | error e => rfl
      | ok a =>
        have hc1 : ¬ (perfReset s1).cnt.nst > 0 := by
          show ¬ s1.cnt.nst > 0
          rw [firstCall_cnt hf, hc]; omega
        simp only [Out.bind]
        rw [if_neg hc1]
        rfl
  · rw [if_neg hn, if_neg hn]
    have hc1 : (perfReset (begun s tout task)).cnt.nst > 0 := by
      show (begun s tout task).cnt.nst > 0
      rw [hc]; omega
    simp only [Out.bind]
    rw [if_pos hc1]

theorem solve_solveEnds {cfg : Cfg ν n q K} {rf sf : Nat} {s s' : State ν n q K} {tout : K} {task : Task}
    {r : Except Err Status} (h : solve cfg rf sf s tout task = .ret s' r) : SolveEnds cfg rf sf s tout task s' r := by
  rw [solve_eq] at h
  split at h
  · rename_i hn
    rcases Out.bind_eq_ret h with ⟨s1, a, h1, h2⟩ | ⟨e, h1, rfl⟩
    · exact .first s1 hn h1 h2
    · exact .rejected e hn h1 rfl
  · rename_i hn
    have hn : 0 < s.cnt.nst := by omega
    unfold Flow.andThen at h
    split at h
    · rename_i s1 h1
      exact .later s1 hn h1 h
    · rename_i h1
      cases h
      exact .early hn h1
    · cases h
    · cases h

/-- Induction rule for the step loop. -/
theorem solveLoop_rule {cfg : Cfg ν n q K} {rf : Nat} {tout : K} {task : Task} (I : State ν n q K → Nat → Prop)
    (Q : State ν n q K → Except Err Status → Prop)
    (hgo : ∀ s k s', I s k → solvePass cfg rf s tout task k = .go s' → I s' (k + 1))
    (hret : ∀ s k s' r, I s k → solvePass cfg rf s tout task k = .ret s' r → Q s' r) :
    ∀ (sf : Nat) (s : State ν n q K) (k : Nat), I s k → ∀ s' r, solveLoop cfg rf tout task sf s k = .ret s' r →
      Q s' r := by
  intro sf
  induction sf with
  | zero => intro s k _ s' r h; cases h
  | succ sf ih =>
    intro s k hI s' r h
    unfold solveLoop Flow.andThen at h
    split at h
    · rename_i s1 h1
      exact ih _ _ (hgo _ _ _ hI h1) _ _ h
    · rename_i h1
      cases h
      exact hret _ _ _ _ hI h1
    · cases h
    · cases h

/-- The root checks after a step found nothing. -/
def NoRootAfter (cfg : Cfg ν n q K) (rf : Nat) (s s' : State ν n q K) : Prop :=
  (q = 0 ∧ s' = s) ∨ (0 < q ∧ rCheck3 cfg rf s = .ret s' (.ok .continue_))

theorem noRootAfter_frame {cfg : Cfg ν n q K} {rf : Nat} {s s' : State ν n q K} (h : NoRootAfter cfg rf s s') :
    Frame s s' ∧ Quiet s s' := by
  rcases h with ⟨-, rfl⟩ | ⟨-, h⟩
  · exact ⟨.refl _, .refl _⟩
  · exact ⟨rCheck3_frame h, rCheck3_quiet h⟩

/-- The ways the checks after a step end. -/
inductive PostEnds (cfg : Cfg ν n q K) (rf : Nat) (s : State ν n q K) (tout : K) (task : Task) (s' : State ν n q K)
    (r : Except Err Status) : Prop
  | root (s1 : State ν n q K) : 0 < q → rCheck3 cfg rf s = .ret s1 (.ok .rootFound) →
      s' = State.setTret { s1 with r.irfnd := true } s1.r.tlo → r = .ok .root → PostEnds cfg rf s tout task s' r
  | stop (s1 : State ν n q K) : NoRootAfter cfg rf s s1 → stopTest2 s1 tout task = .ret s' r → r ≠ .ok .continueSteps →
      PostEnds cfg rf s tout task s' r

theorem ofStop_ret {S : Type u} {o : Out S Status} {s' : S} {r : Except Err Status} (h : Flow.ofStop o = .ret s' r) :
    o = .ret s' r ∧ r ≠ .ok .continueSteps := by
  unfold Flow.ofStop at h
  split at h <;> cases h
  rename_i hne
  exact ⟨rfl, fun hr => hne hr⟩

theorem ofStop_go {S : Type u} {o : Out S Status} {s' : S} (h : Flow.ofStop o = .go s') :
    o = .ret s' (.ok .continueSteps) := by
  unfold Flow.ofStop at h
  split at h <;> cases h
  rfl

theorem postStep_ends {cfg : Cfg ν n q K} {rf : Nat} {s : State ν n q K} {tout : K} {task : Task} :
    (∀ s', postStep cfg rf s tout task = .go s' →
      ∃ s1, NoRootAfter cfg rf s s1 ∧ stopTest2 s1 tout task = .ret s' (.ok .continueSteps)) ∧
    (∀ s' r, postStep cfg rf s tout task = .ret s' r → PostEnds cfg rf s tout task s' r) := by
  unfold postStep
  split
  · rename_i hq
    split
    · simp
    · simp
    · rename_i h; exact absurd h rCheck3_ok
    · rename_i s1 h1
      refine ⟨by simp, ?_⟩
      intro s' r h
      cases h
      exact .root s1 hq h1 rfl rfl
    · rename_i s1 h1
      refine ⟨fun s' h => ⟨s1, Or.inr ⟨hq, h1⟩, ofStop_go h⟩, fun s' r h => ?_⟩
      obtain ⟨h2, h3⟩ := ofStop_ret h
      exact .stop s1 (Or.inr ⟨hq, h1⟩) h2 h3
  · rename_i hq
    refine ⟨fun s' h => ⟨s, Or.inl ⟨by omega, rfl⟩, ofStop_go h⟩, fun s' r h => ?_⟩
    obtain ⟨h2, h3⟩ := ofStop_ret h
    exact .stop s (Or.inl ⟨by omega, rfl⟩) h2 h3

/-- The ways a pass of the step loop ends the call. -/
inductive PassEnds (cfg : Cfg ν n q K) (rf : Nat) (s : State ν n q K) (tout : K) (task : Task) (k : Nat)
    (s' : State ν n q K) (r : Except Err Status) : Prop
  | pre : preStep cfg s k = .ret s' r → PassEnds cfg rf s tout task k s' r
  | failed (s1 s2 : State ν n q K) (e : Err) : preStep cfg s k = .go s1 → step cfg s1 = .ret s2 (.error e) →
      stepFailed s2 e = .ret s' r → PassEnds cfg rf s tout task k s' r
  | post (s1 s2 : State ν n q K) : preStep cfg s k = .go s1 → step cfg s1 = .ret s2 (.ok ()) →
      PostEnds cfg rf s2 tout task s' r → PassEnds cfg rf s tout task k s' r

theorem solvePass_ends {cfg : Cfg ν n q K} {rf : Nat} {s : State ν n q K} {tout : K} {task : Task} {k : Nat} :
    (∀ s', solvePass cfg rf s tout task k = .go s' → ∃ s1 s2 s3, preStep cfg s k = .go s1 ∧
      step cfg s1 = .ret s2 (.ok ()) ∧ NoRootAfter cfg rf s2 s3 ∧
      stopTest2 s3 tout task = .ret s' (.ok .continueSteps)) ∧
    (∀ s' r, solvePass cfg rf s tout task k = .ret s' r → PassEnds cfg rf s tout task k s' r) := by
  unfold solvePass
  cases hpre : preStep cfg s k with
  | panic => simp
  | diverge => simp
  | ret s1 r1 =>
    refine ⟨by simp, fun s' r h => ?_⟩
    cases h
    exact .pre hpre
  | go s1 =>
    simp only
    cases hstep : step cfg s1 with
    | panic => simp
    | diverge => simp
    | ret s2 r2 =>
      cases r2 with
      | error e =>
        simp only
        exact ⟨fun s' h => absurd h stepFailed_go, fun s' r h => .failed s1 s2 e hpre hstep h⟩
      | ok a =>
        simp only
        constructor
        · intro s' h
          obtain ⟨s3, h3, h4⟩ := postStep_ends.1 s' h
          exact ⟨s1, s2, s3, rfl, hstep, h3, h4⟩
        · intro s' r h
          exact .post s1 s2 hpre hstep (postStep_ends.2 s' r h)

/-- "The internal time is distinct from the time returned last." -/
def farFromLast (s : State ν n q K) : Bool :=
  Scalar.gt (Scalar.abs (s.e.tn - s.tretlast)) ((Scalar.abs s.e.tn + Scalar.abs s.c.hh) * Scalar.eps * Scalar.hundred)

/-- The root checks at the beginning of a later call found nothing. -/
def NoRootBefore (cfg : Cfg ν n q K) (rf : Nat) (s : State ν n q K) (task : Task) (s' : State ν n q K) : Prop :=
  (q = 0 ∧ s' = s) ∨
  (0 < q ∧ rCheck2 cfg s = .ret s' (.ok .continue_) ∧ farFromLast s' = false) ∨
  (0 < q ∧ ∃ s1 s2, rCheck2 cfg s = .ret s1 (.ok .continue_) ∧ farFromLast s1 = true ∧
    rCheck3 cfg rf s1 = .ret s2 (.ok .continue_) ∧ (task = .oneStep → s.r.irfnd = false) ∧
    s' = { s2 with r.irfnd := false })

theorem noRootBefore_frame {cfg : Cfg ν n q K} {rf : Nat} {s s' : State ν n q K} {task : Task}
    (h : NoRootBefore cfg rf s task s') : Frame s s' ∧ Quiet s s' := by
  rcases h with ⟨-, rfl⟩ | ⟨-, h, -⟩ | ⟨-, s1, s2, h1, -, h2, -, rfl⟩
  · exact ⟨.refl _, .refl _⟩
  · exact ⟨rCheck2_frame h, rCheck2_quiet h⟩
  · exact ⟨(rCheck2_frame h1).trans ((rCheck3_frame h2).trans (by frame_rfl)),
      (rCheck2_quiet h1).trans ((rCheck3_quiet h2).trans (by quiet_rfl))⟩

/-- The ways the checks at the beginning of a later call end it. -/
inductive LaterEnds (cfg : Cfg ν n q K) (rf : Nat) (s : State ν n q K) (tout : K) (task : Task) (s' : State ν n q K)
    (r : Except Err Status) : Prop
  /-- the last root is too close to another one -/
  | close (e : Err) : 0 < q → rCheck2 cfg s = .ret s' (.error e) → r = .error e → LaterEnds cfg rf s tout task s' r
  /-- another root right behind the last one -/
  | root2 (s1 : State ν n q K) : 0 < q → rCheck2 cfg s = .ret s1 (.ok .rootFound) → s' = s1.setTret s1.r.tlo →
      r = .ok .root → LaterEnds cfg rf s tout task s' r
  /-- a root in the rest of the last step -/
  | root3 (s1 s2 : State ν n q K) : 0 < q → rCheck2 cfg s = .ret s1 (.ok .continue_) → farFromLast s1 = true →
      rCheck3 cfg rf s1 = .ret s2 (.ok .rootFound) → s' = State.setTret { s2 with r.irfnd := true } s2.r.tlo →
      r = .ok .root → LaterEnds cfg rf s tout task s' r
  /-- no further root, so the end of the last step is returned now -/
  | pending (s1 s2 : State ν n q K) : 0 < q → task = .oneStep → rCheck2 cfg s = .ret s1 (.ok .continue_) →
      farFromLast s1 = true → rCheck3 cfg rf s1 = .ret s2 (.ok .continue_) →
      getSolution' (State.setTret { s2 with r.irfnd := false } s2.e.tn) s2.e.tn = some s' → r = .ok .success →
      LaterEnds cfg rf s tout task s' r
  | stop (s1 : State ν n q K) : NoRootBefore cfg rf s task s1 → stopTest1 s1 tout task = .ret s' r →
      r ≠ .ok .continueSteps → LaterEnds cfg rf s tout task s' r

theorem laterCall_ends {cfg : Cfg ν n q K} {rf : Nat} {s : State ν n q K} {tout : K} {task : Task} :
    (∀ s', laterCall cfg rf s tout task = .go s' →
      ∃ s1, NoRootBefore cfg rf s task s1 ∧ stopTest1 s1 tout task = .ret s' (.ok .continueSteps)) ∧
    (∀ s' r, laterCall cfg rf s tout task = .ret s' r → LaterEnds cfg rf s tout task s' r) := by
  have fin : ∀ s1, NoRootBefore cfg rf s task s1 →
      (∀ s', Flow.ofStop (stopTest1 s1 tout task) = .go s' →
        ∃ s1, NoRootBefore cfg rf s task s1 ∧ stopTest1 s1 tout task = .ret s' (.ok .continueSteps)) ∧
      (∀ s' r, Flow.ofStop (stopTest1 s1 tout task) = .ret s' r → LaterEnds cfg rf s tout task s' r) := by
    intro s1 h1
    refine ⟨fun s' h => ⟨s1, h1, ofStop_go h⟩, fun s' r h => ?_⟩
    obtain ⟨h2, h3⟩ := ofStop_ret h
    exact .stop s1 h1 h2 h3
  unfold laterCall
  by_cases hq : q > 0
  · rw [if_pos hq]
    unfold rootChecks
    simp only
    cases h2 : rCheck2 cfg s with
    | panic => simp
    | diverge => simp
    | ret s1 r1 =>
      cases r1 with
      | error e =>
        refine ⟨by simp, fun s' r h => ?_⟩
        cases h
        exact .close e hq h2 rfl
      | ok st =>
        cases st with
        | rootFound =>
          refine ⟨by simp, fun s' r h => ?_⟩
          cases h
          exact .root2 s1 hq h2 rfl rfl
        | continue_ =>
          simp only
          cases hfar : farFromLast s1 with
          | false =>
            have hfar' := hfar
            unfold farFromLast at hfar'
            rw [hfar']
            exact fin s1 (Or.inr (Or.inl ⟨hq, h2, hfar⟩))
          | true =>
            have hfar' := hfar
            unfold farFromLast at hfar'
            rw [hfar']
            simp only [if_true]
            cases h3 : rCheck3 cfg rf s1 with
            | panic => simp
            | diverge => simp
            | ret s2 r2 =>
              cases r2 with
              | error e => exact absurd h3 rCheck3_ok
              | ok st2 =>
                cases st2 with
                | rootFound =>
                  refine ⟨by simp, fun s' r h => ?_⟩
                  cases h
                  exact .root3 s1 s2 hq h2 hfar h3 rfl rfl
                | continue_ =>
                  simp only
                  by_cases hp : task = .oneStep ∧ s.r.irfnd = true
                  · rw [if_pos hp]
                    cases h4 : getSolution' (State.setTret { s2 with r.irfnd := false } s2.e.tn) s2.e.tn with
                    | none => simp
                    | some s3 =>
                      refine ⟨by simp, fun s' r h => ?_⟩
                      cases h
                      exact .pending s1 s2 hq hp.1 h2 hfar h3 h4 rfl
                  · rw [if_neg hp]
                    refine fin _ (Or.inr (Or.inr ⟨hq, s1, s2, h2, hfar, h3, ?_, rfl⟩))
                    intro ht
                    by_contra hi
                    exact hp ⟨ht, by simpa using hi⟩
  · rw [if_neg hq]
    exact fin s (Or.inl ⟨by omega, rfl⟩)

/-! ## The stopping tests -/

/-- What `stop_test1` does. -/
inductive Stop1 (s : State ν n q K) (tout : K) : Task → State ν n q K → Except Err Status → Prop
  | past (task : Task) : pastStop s = true → Stop1 s tout task s (.error (.ida .badStopTime))
  | same : Scalar.eqb tout s.tretlast = true → Stop1 s tout .normal (s.setTret tout) (.ok .success)
  | reached (s1 : State ν n q K) : Scalar.ge ((s.e.tn - tout) * s.c.hh) 0 = true → getSolution s tout = .ret s1 (.ok ()) →
      Stop1 s tout .normal (s1.setTret tout) (.ok .success)
  | refused (e : Err) : Scalar.ge ((s.e.tn - tout) * s.c.hh) 0 = true → getSolution s tout = .ret s (.error e) →
      Stop1 s tout .normal s (.error e)
  | pending (s1 : State ν n q K) : Scalar.gt ((s.e.tn - s.tretlast) * s.c.hh) 0 = true → getSolution' s s.e.tn = some s1 →
      Stop1 s tout .oneStep (s1.setTret s.e.tn) (.ok .success)
  | stopNormal (s1 : State ν n q K) (ts : K) : Scalar.ge ((s.e.tn - tout) * s.c.hh) 0 = false → s.tstop = some ts →
      nearStop s ts = true → getSolution s ts = .ret s1 (.ok ()) →
      Stop1 s tout .normal { s1.setTret ts with tstop := none } (.ok .tstop)
  | stopOne (s1 : State ν n q K) (ts : K) : Scalar.gt ((s.e.tn - s.tretlast) * s.c.hh) 0 = false → s.tstop = some ts →
      nearStop s ts = true → getSolution s ts = .ret s1 (.ok ()) → Stop1 s tout .oneStep (s1.setTret ts) (.ok .tstop)
  | stopBad (task : Task) (ts : K) (e e' : Err) : s.tstop = some ts → nearStop s ts = true →
      getSolution s ts = .ret s (.error e) → (e' = e ∨ e' = .ida .badStopTime) → Stop1 s tout task s (.error e')
  | clamp (task : Task) (ts : K) : s.tstop = some ts → nearStop s ts = false →
      (task = .normal → Scalar.ge ((s.e.tn - tout) * s.c.hh) 0 = false ∧ Scalar.eqb tout s.tretlast = false) →
      (task = .oneStep → Scalar.gt ((s.e.tn - s.tretlast) * s.c.hh) 0 = false) →
      Stop1 s tout task (clampToStop s ts) (.ok .continueSteps)
  | free (task : Task) : s.tstop = none →
      (task = .normal → Scalar.ge ((s.e.tn - tout) * s.c.hh) 0 = false ∧ Scalar.eqb tout s.tretlast = false) →
      (task = .oneStep → Scalar.gt ((s.e.tn - s.tretlast) * s.c.hh) 0 = false) →
      Stop1 s tout task s (.ok .continueSteps)

theorem getSolution_error {s s' : State ν n q K} {t : K} {e : Err} (h : getSolution s t = .ret s' (.error e)) :
    s' = s ∧ e = .ida .badTimeValue ∧ badTime s t = true := by
  rw [getSolution_eq] at h
  split at h
  · rename_i hb
    cases h; exact ⟨rfl, rfl, hb⟩
  · split at h <;> cases h

theorem getSolution_success {s s' : State ν n q K} {t : K} (h : getSolution s t = .ret s' (.ok ())) :
    s' = setSol s t ∧ badTime s t = false := by
  rw [getSolution_eq] at h
  split at h
  · cases h
  · rename_i hb
    split at h <;> cases h
    exact ⟨rfl, by simpa using hb⟩

theorem stopTest1_cases {s s' : State ν n q K} {tout : K} {task : Task} {r : Except Err Status}
    (h : stopTest1 s tout task = .ret s' r) : Stop1 s tout task s' r := by
  unfold stopTest1 at h
  split at h
  · rename_i hp
    cases h; exact .past task hp
  · split at h
    · split at h
      · rename_i he
        cases h; exact .same he
      · rename_i he
        have he : Scalar.eqb tout s.tretlast = false := by simpa using he
        split at h
        · rename_i hg
          rcases Out.bind_eq_ret h with ⟨s1, a, h1, h2⟩ | ⟨e, h1, h2⟩
          · cases h2; exact .reached s1 hg h1
          · subst h2
            obtain ⟨rfl, -, -⟩ := getSolution_error h1
            exact .refused e hg h1
        · rename_i hg
          have hg : Scalar.ge ((s.e.tn - tout) * s.c.hh) 0 = false := by simpa using hg
          split at h
          · rename_i ts hts
            split at h
            · rename_i hne
              split at h
              · rename_i s1 _ h1
                cases h
                exact .stopNormal s1 ts hg hts hne h1
              · rename_i s1 e h1
                cases h
                obtain ⟨rfl, -, -⟩ := getSolution_error h1
                exact .stopBad _ ts e _ hts hne h1 (Or.inr rfl)
              · cases h
              · cases h
            · rename_i hne
              cases h
              exact .clamp _ ts hts (by simpa [nearStop] using hne) (fun _ => ⟨hg, he⟩) (fun h => by cases h)
          · rename_i hts
            cases h
            exact .free _ hts (fun _ => ⟨hg, he⟩) (fun h => by cases h)
    · split at h
      · rename_i hg
        split at h
        · cases h
        · rename_i s1 h1
          cases h
          have : s1.e.tn = s.e.tn := by rw [(getSolution'_frame h1).1.e]
          rw [this]
          exact .pending s1 hg h1
      · rename_i hg
        have hg : Scalar.gt ((s.e.tn - s.tretlast) * s.c.hh) 0 = false := by simpa using hg
        split at h
        · rename_i ts hts
          split at h
          · rename_i hne
            rcases Out.bind_eq_ret h with ⟨s1, a, h1, h2⟩ | ⟨e, h1, h2⟩
            · cases h2
              exact .stopOne s1 ts hg hts hne h1
            · subst h2
              obtain ⟨rfl, -, -⟩ := getSolution_error h1
              exact .stopBad _ ts e e hts hne h1 (Or.inl rfl)
          · rename_i hne
            cases h
            exact .clamp _ ts hts (by simpa [nearStop] using hne) (fun h => by cases h) (fun _ => hg)
        · rename_i hts
          cases h
          exact .free _ hts (fun h => by cases h) (fun _ => hg)

/-- What `stop_test2` does. -/
inductive Stop2 (s : State ν n q K) (tout : K) : Task → State ν n q K → Except Err Status → Prop
  | reached (s1 : State ν n q K) : Scalar.ge ((s.e.tn - tout) * s.c.hh) 0 = true →
      getSolution' (s.setTret tout) tout = some s1 → Stop2 s tout .normal s1 (.ok .success)
  | stopped (task : Task) (s1 : State ν n q K) (ts : K) :
      (task = .normal → Scalar.ge ((s.e.tn - tout) * s.c.hh) 0 = false) → s.tstop = some ts → nearStop s ts = true →
      getSolution' s ts = some s1 → Stop2 s tout task { s1.setTret ts with tstop := none } (.ok .tstop)
  | clamp (ts : K) : Scalar.ge ((s.e.tn - tout) * s.c.hh) 0 = false → s.tstop = some ts → nearStop s ts = false →
      Stop2 s tout .normal (clampToStop s ts) (.ok .continueSteps)
  | free : Scalar.ge ((s.e.tn - tout) * s.c.hh) 0 = false → s.tstop = none → Stop2 s tout .normal s (.ok .continueSteps)
  | oneClamp (ts : K) : s.tstop = some ts → nearStop s ts = false →
      Stop2 s tout .oneStep ((clampToStop s ts).setTret s.e.tn) (.ok .success)
  | oneFree : s.tstop = none → Stop2 s tout .oneStep (s.setTret s.e.tn) (.ok .success)

theorem clampToStop_tn (s : State ν n q K) (ts : K) : (clampToStop s ts).e = s.e := by
  unfold clampToStop; split <;> rfl

theorem stopTest2_cases {s s' : State ν n q K} {tout : K} {task : Task} {r : Except Err Status}
    (h : stopTest2 s tout task = .ret s' r) : Stop2 s tout task s' r := by
  unfold stopTest2 at h
  split at h
  · split at h
    · rename_i hg
      split at h
      · cases h
      · rename_i s1 h1
        cases h; exact .reached _ hg h1
    · rename_i hg
      have hg : Scalar.ge ((s.e.tn - tout) * s.c.hh) 0 = false := by simpa using hg
      split at h
      · rename_i ts hts
        split at h
        · rename_i hne
          split at h
          · cases h
          · rename_i s1 h1
            cases h; exact .stopped _ s1 ts (fun _ => hg) hts hne h1
        · rename_i hne
          cases h; exact .clamp ts hg hts (by simpa [nearStop] using hne)
      · rename_i hts
        cases h; exact .free hg hts
  · split at h
    · rename_i ts hts
      split at h
      · rename_i hne
        split at h
        · cases h
        · rename_i s1 h1
          cases h; exact .stopped _ s1 ts (fun h => by cases h) hts hne h1
      · rename_i hne
        cases h
        have := Stop2.oneClamp (s := s) (tout := tout) ts hts (by simpa [nearStop] using hne)
        rw [← clampToStop_tn s ts] at this
        exact this
    · rename_i hts
      cases h; exact .oneFree hts

/-- The product tested by the accuracy check. -/
def accuracy (cfg : Cfg ν n q K) (s : State ν n q K) : K :=
  Scalar.eps * wrmsNorm cfg.id (s.h.phi 0) s.e.ewt cfg.suppressalg

/-- Fields the tests at the top of the loop do not change. -/
structure PreSame (s s' : State ν n q K) : Prop where
  cnt : s'.cnt = s.cnt
  tn : s'.e.tn = s.e.tn
  c : s'.c = s.c
  h : s'.h = s.h
  g : s'.g = s.g
  tstop : s'.tstop = s.tstop
  log : s'.m.log = s.m.log
  r : s'.r = s.r

/-- The weights are those of the current solution and positive, if steps have been taken. -/
def WeightsReady (cfg : Cfg ν n q K) (s s' : State ν n q K) : Prop :=
  if 0 < s.cnt.nst then s'.e.ewt = cfg.ewtSet (s.h.phi 0) s.e.ewt ∧ ∀ i, Scalar.le (s'.e.ewt i) 0 = false
  else s'.e.ewt = s.e.ewt

/-- What the tests at the top of the step loop do. -/
inductive Pre (cfg : Cfg ν n q K) (s : State ν n q K) (k : Nat) : Flow (State ν n q K) → Prop
  | limit : 0 < cfg.mxstep → cfg.mxstep ≤ k → Pre cfg s k (.ret (s.setTret s.e.tn) (.error (.ida .illegalInput)))
  | weights (s' : State ν n q K) : (0 < cfg.mxstep → k < cfg.mxstep) → 0 < s.cnt.nst → PreSame s s' →
      s'.tret = s.e.tn → s'.tretlast = s.e.tn → s'.tolsf = s.tolsf →
      s'.e.ewt = cfg.ewtSet (s.h.phi 0) s.e.ewt → (∃ i, Scalar.le (s'.e.ewt i) 0 = true) →
      Pre cfg s k (.ret s' (.error (.ida .illegalInput)))
  | accuracy (s' : State ν n q K) : (0 < cfg.mxstep → k < cfg.mxstep) → PreSame s s' → WeightsReady cfg s s' →
      s'.tret = s.e.tn → s'.tretlast = s.e.tn → Scalar.gt (accuracy cfg s') 1 = true →
      s'.tolsf = accuracy cfg s' * Scalar.ten → Pre cfg s k (.ret s' (.error (.ida .tooMuchAccuracy)))
  | go (s' : State ν n q K) : (0 < cfg.mxstep → k < cfg.mxstep) → PreSame s s' → WeightsReady cfg s s' →
      s'.tret = s.tret → s'.tretlast = s.tretlast → Scalar.gt (Verif.accuracy cfg s') 1 = false →
      s'.tolsf = Verif.accuracy cfg s' → s'.m = s.m → s'.nls = s.nls → s'.ee = s.ee → Pre cfg s k (.go s')
  | panic : Pre cfg s k .panic

theorem perfCheck_eq {s s' : State ν n q K} (h : perfCheck s = some s') : s' = { s with perf := s'.perf } := by
  unfold perfCheck at h
  simp only at h
  split at h
  · cases h
  · split at h
    · cases h; rfl
    · split at h
      · cases h
      · split at h <;> (cases h; rfl)

theorem preStep_cases (cfg : Cfg ν n q K) (s : State ν n q K) (k : Nat) : Pre cfg s k (preStep cfg s k) := by
  unfold preStep
  split
  · rename_i h
    exact .limit h.1 h.2
  · rename_i h
    have hk : 0 < cfg.mxstep → k < cfg.mxstep := fun h0 => by
      by_contra hc
      exact h ⟨h0, by omega⟩
    cases hp : perfCheck s with
    | none => exact .panic
    | some s1 =>
      simp only
      have e1 := perfCheck_eq hp
      have hc1 : s1.cnt = s.cnt := by rw [e1]
      by_cases hn : s1.cnt.nst > 0
      · have hn0 : 0 < s.cnt.nst := by rw [← hc1]; exact hn
        simp only [if_pos hn, decide_eq_true hn, Bool.true_and]
        obtain ⟨s2, hs2⟩ : ∃ s2 : State ν n q K, ({ s1 with e.ewt := cfg.ewtSet (s1.h.phi 0) s1.e.ewt } : State ν n q K) = s2 :=
          ⟨_, rfl⟩
        have hw : s2.e.ewt = cfg.ewtSet (s.h.phi 0) s.e.ewt := by rw [← hs2]; simp only; rw [e1]
        have hsame : PreSame s s2 := by rw [← hs2, e1]; exact ⟨rfl, rfl, rfl, rfl, rfl, rfl, rfl, rfl⟩
        have ht2 : s2.tolsf = s.tolsf ∧ s2.tret = s.tret ∧ s2.tretlast = s.tretlast ∧ s2.m = s.m ∧ s2.nls = s.nls ∧
            s2.ee = s.ee := by rw [← hs2, e1]; exact ⟨rfl, rfl, rfl, rfl, rfl, rfl⟩
        have hm2 : s2.cnt.nst > 0 := by rw [← hs2]; exact hn
        have hx : (match
            (if (Fin.foldl n (fun b i => b || Scalar.le (s2.e.ewt i) 0) false) = true then
              match getSolution' s2 s2.e.tn with
              | none => Flow.panic
              | some s => .ret (s.setTret s.e.tn) (.error (.ida .illegalInput))
            else
              if Scalar.gt (accuracy cfg s2) 1 = true then
                match (if (({ s2 with tolsf := accuracy cfg s2 * Scalar.ten } : State ν n q K).setTret s2.e.tn).cnt.nst > 0 then
                  getSolution' (({ s2 with tolsf := accuracy cfg s2 * Scalar.ten } : State ν n q K).setTret s2.e.tn) s2.e.tn
                  else some (({ s2 with tolsf := accuracy cfg s2 * Scalar.ten } : State ν n q K).setTret s2.e.tn)) with
                | none => .panic
                | some s => .ret s (.error (.ida .tooMuchAccuracy))
              else .go { s2 with tolsf := accuracy cfg s2 } : Flow (State ν n q K)) with | f => Pre cfg s k f) := by
          show Pre cfg s k _
          split
          · rename_i hbad
            cases hg : getSolution' s2 s2.e.tn with
            | none => exact .panic
            | some s3 =>
              obtain ⟨-, yy, yp, rfl⟩ := getSolution'_frame hg
              refine .weights _ hk hn0 ?_ ?_ ?_ ?_ ?_ ((foldl_or _).1 hbad)
              · exact ⟨hsame.1, hsame.2, hsame.3, hsame.4, hsame.5, hsame.6, hsame.7, hsame.8⟩
              · exact hsame.tn
              · exact hsame.tn
              · exact ht2.1
              · exact hw
          · rename_i hbad
            have hpos : ∀ i, Scalar.le (s2.e.ewt i) 0 = false := by
              intro i
              by_contra hc
              exact hbad ((foldl_or _).2 ⟨i, by simpa using hc⟩)
            have hready : ∀ s' : State ν n q K, s'.e.ewt = s2.e.ewt → WeightsReady cfg s s' := by
              intro s' h'
              unfold WeightsReady
              rw [if_pos hn0, h']
              exact ⟨hw, hpos⟩
            split
            · rename_i hacc
              rw [if_pos (show (({ s2 with tolsf := accuracy cfg s2 * Scalar.ten } : State ν n q K).setTret
                s2.e.tn).cnt.nst > 0 from hm2)]
              cases hg : getSolution' (({ s2 with tolsf := accuracy cfg s2 * Scalar.ten } : State ν n q K).setTret s2.e.tn)
                s2.e.tn with
              | none => exact .panic
              | some s3 =>
                obtain ⟨-, yy, yp, rfl⟩ := getSolution'_frame hg
                refine .accuracy _ hk ?_ (hready _ rfl) ?_ ?_ hacc rfl
                · exact ⟨hsame.1, hsame.2, hsame.3, hsame.4, hsame.5, hsame.6, hsame.7, hsame.8⟩
                · exact hsame.tn
                · exact hsame.tn
            · rename_i hacc
              refine .go _ hk ?_ (hready _ rfl) ht2.2.1 ht2.2.2.1 (Bool.eq_false_iff.2 hacc) rfl ht2.2.2.2.1 ht2.2.2.2.2.1
                ht2.2.2.2.2.2
              exact ⟨hsame.1, hsame.2, hsame.3, hsame.4, hsame.5, hsame.6, hsame.7, hsame.8⟩
        rw [← hs2] at hx
        exact hx
      · have hn0 : ¬ 0 < s.cnt.nst := by rw [← hc1]; exact hn
        simp only [if_neg hn, decide_eq_false hn, Bool.false_and, Bool.false_eq_true, if_false]
        have hready : ∀ s' : State ν n q K, s'.e.ewt = s1.e.ewt → WeightsReady cfg s s' := by
          intro s' h'
          unfold WeightsReady
          rw [if_neg hn0, h', e1]
        split
        · rename_i hacc
          rw [if_neg (show ¬ (({ s1 with tolsf := Scalar.eps * wrmsNorm cfg.id (s1.h.phi 0) s1.e.ewt cfg.suppressalg * Scalar.ten }
            : State ν n q K).setTret s1.e.tn).cnt.nst > 0 from hn)]
          refine .accuracy _ hk ?_ (hready _ rfl) ?_ ?_ hacc rfl
          · rw [e1]; exact ⟨rfl, rfl, rfl, rfl, rfl, rfl, rfl, rfl⟩
          · rw [e1]; rfl
          · rw [e1]; rfl
        · rename_i hacc
          refine .go _ hk ?_ (hready _ rfl) ?_ ?_ (Bool.eq_false_iff.2 hacc) rfl ?_ ?_ ?_
          · rw [e1]; exact ⟨rfl, rfl, rfl, rfl, rfl, rfl, rfl, rfl⟩
          all_goals (rw [e1])

end

end Verif
