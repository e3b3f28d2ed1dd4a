import Verif.Spec.WithRoots
import Verif.Proofs.Outputs
import Verif.Proofs.Outcome

/-!
# Internal steps do not depend on the root functions (any scalar type)
-/

set_option autoImplicit false
set_option linter.unusedSectionVars false
set_option linter.unusedSimpArgs false
set_option linter.unusedVariables false

namespace Verif

open Verif.Spec Relation

universe u v w x

section
variable {ν : Type v} {n q q' : Nat} {K : Type u} [Scalar K]

/-- The state with the data `r` of another root search. -/
def State.reroot (s : State ν n q K) (r : RootSt q' K) : State ν n q' K where
  setupDone := s.setupDone
  h := s.h
  c := s.c
  e := s.e
  m := s.m
  delta := s.delta
  ee := s.ee
  cnt := s.cnt
  r := r
  perf := s.perf
  nls := s.nls
  tstop := s.tstop
  h0u := s.h0u
  tretlast := s.tretlast
  epsNewt := s.epsNewt
  tolsf := s.tolsf
  tret := s.tret
  g := s.g

/-- A function applied to the state an outcome leaves. -/
def Out.onS {S S' : Type w} {α : Type x} (f : S → S') : Out S α → Out S' α
  | .ret s r => .ret (f s) r
  | .panic => .panic
  | .diverge => .diverge

theorem Out.onS_ret {S S' : Type w} {α : Type x} {f : S → S'} {o : Out S α} {s' : S'} {r : Except Err α}
    (h : o.onS f = .ret s' r) : ∃ s, o = .ret s r ∧ s' = f s := by
  cases o with
  | ret s r' => cases h; exact ⟨s, rfl, rfl⟩
  | panic => cases h
  | diverge => cases h

section
variable (cfg : Cfg ν n q K) (ρ : K → Vec n K → Vec n K → Vec q' K → Vec q' K) (dir : Fin q' → Nat) (s : State ν n q K)
  (r : RootSt q' K)

local notation "cfg'" => cfg.withRoots ρ dir

theorem firstStepInit_reroot : firstStepInit (s.reroot r) = (firstStepInit s).reroot r := by
  unfold firstStepInit
  by_cases h : s.cnt.nst = 0
  · rw [if_pos h, if_pos (show (s.reroot r).cnt.nst = 0 from h)]; rfl
  · rw [if_neg h, if_neg (show ¬ (s.reroot r).cnt.nst = 0 from h)]

theorem setCoeffs_reroot : setCoeffs (s.reroot r) = (setCoeffs s).map fun p => (p.1.reroot r, p.2) := by
  unfold setCoeffs
  by_cases hk : s.c.kk < mxordp1
  · rw [if_pos hk, if_pos (show (s.reroot r).c.kk < mxordp1 from hk)]; rfl
  · rw [if_neg hk, if_neg (show ¬ (s.reroot r).c.kk < mxordp1 from hk)]; rfl

theorem advanceTime_reroot : advanceTime (s.reroot r) = (advanceTime s).reroot r := rfl

theorem predict_reroot : predict (s.reroot r) = (predict s).map (·.reroot r) := by
  unfold predict
  by_cases hk : s.c.kk < mxordp1
  · rw [if_pos hk, if_pos (show (s.reroot r).c.kk < mxordp1 from hk)]; rfl
  · rw [if_neg hk, if_neg (show ¬ (s.reroot r).c.kk < mxordp1 from hk)]; rfl

theorem nlsPrepare_reroot : nlsPrepare (s.reroot r) = nlsPrepare s := rfl

theorem nonlinearSolve_reroot : nonlinearSolve cfg' (s.reroot r) = (nonlinearSolve cfg s).onS (·.reroot r) := by
  unfold nonlinearSolve
  simp only [nlsPrepare_reroot]
  show (match cfg.nls.solve s.nls s.e (nlsPrepare s).1 vzero s.ee s.e.ewt s.epsNewt (nlsPrepare s).2 with
    | .panic => _ | .diverge => _ | .ret N m ee r => _) = _
  cases cfg.nls.solve s.nls s.e (nlsPrepare s).1 vzero s.ee s.e.ewt s.epsNewt (nlsPrepare s).2 with
  | panic => rfl
  | diverge => rfl
  | ret N m ee r' =>
    cases r' with
    | error e => rfl
    | ok u =>
      simp only
      by_cases h : cfg.constraintsSet = true
      · rw [if_pos h, if_pos (show (cfg.withRoots ρ dir).constraintsSet = true from h)]; rfl
      · rw [if_neg h, if_neg (show ¬ (cfg.withRoots ρ dir).constraintsSet = true from h)]; rfl

theorem testError_reroot (ck : K) : testError cfg' (s.reroot r) ck = (testError cfg s ck).map fun p => (p.1.reroot r, p.2) := by
  unfold testError
  by_cases hk : s.c.kk < mxordp1
  · rw [if_pos hk, if_pos (show (s.reroot r).c.kk < mxordp1 from hk)]; rfl
  · rw [if_neg hk, if_neg (show ¬ (s.reroot r).c.kk < mxordp1 from hk)]; rfl

/-- A function applied to the state a trial leaves. -/
def Trial.onS {S S' : Type w} (f : S → S') : Trial S K → Trial S' K
  | .nlsFail s ck e => .nlsFail (f s) ck e
  | .tested s ck t => .tested (f s) ck t
  | .panic => .panic
  | .diverge => .diverge

theorem trial_reroot : trial cfg' (s.reroot r) = (trial cfg s).onS (·.reroot r) := by
  unfold trial
  rw [setCoeffs_reroot]
  cases setCoeffs s with
  | none => rfl
  | some p =>
    obtain ⟨s, ck⟩ := p
    simp only [Option.map_some]
    rw [advanceTime_reroot, predict_reroot]
    cases predict (advanceTime s) with
    | none => rfl
    | some s =>
      simp only [Option.map_some]
      rw [nonlinearSolve_reroot]
      cases nonlinearSolve cfg s with
      | panic => rfl
      | diverge => rfl
      | ret s r' =>
        cases r' with
        | error e => rfl
        | ok u =>
          simp only [Out.onS]
          rw [testError_reroot]
          cases testError cfg s ck with
          | none => rfl
          | some p => rfl

theorem restore_reroot (t : K) : restore (s.reroot r) t = (restore s t).map (·.reroot r) := by
  unfold restore
  by_cases hk : s.c.kk < mxordp1
  · rw [if_pos hk, if_pos (show (s.reroot r).c.kk < mxordp1 from hk)]; rfl
  · rw [if_neg hk, if_neg (show ¬ (s.reroot r).c.kk < mxordp1 from hk)]; rfl

theorem handleNFlag_reroot (e : Err) (a b : K) (f : Fails) :
    handleNFlag cfg' (s.reroot r) e a b f = (handleNFlag cfg s e a b f).map fun p => (p.1.reroot r, p.2) := by
  unfold handleNFlag
  cases e with
  | other m => rfl
  | nl e => rfl
  | ida e =>
    cases e with
    | testFail =>
      by_cases h1 : f.nef + 1 = 1
      · simp only [if_pos h1]; rfl
      · simp only [if_neg h1]
        by_cases h2 : f.nef + 1 = 2
        · simp only [if_pos h2]; rfl
        · simp only [if_neg h2]
          by_cases h3 : f.nef + 1 < cfg.maxnef
          · simp only [if_pos h3, if_pos (show f.nef + 1 < (cfg.withRoots ρ dir).maxnef from h3)]; rfl
          · simp only [if_neg h3, if_neg (show ¬ f.nef + 1 < (cfg.withRoots ρ dir).maxnef from h3)]; rfl
    | recoverableFail rec =>
      by_cases h1 : f.ncf + 1 < cfg.maxncf
      · simp only [if_pos h1, if_pos (show f.ncf + 1 < (cfg.withRoots ρ dir).maxncf from h1)]; rfl
      · simp only [if_neg h1, if_neg (show ¬ f.ncf + 1 < (cfg.withRoots ρ dir).maxncf from h1)]; rfl
    | _ => rfl

theorem reset_reroot : reset (s.reroot r) = (reset s).reroot r := rfl

/-- A function applied to the state a pass of the attempt loop leaves. -/
def Attempt.onS {S S' : Type w} (f : S → S') : Attempt S K → Attempt S' K
  | .done s a b c => .done (f s) a b c
  | .again s g => .again (f s) g
  | .fail s e => .fail (f s) e
  | .panic => .panic
  | .diverge => .diverge

theorem attemptFailed_reroot (t : K) (e : Err) (a b : K) (f : Fails) :
    attemptFailed cfg' t (s.reroot r) e a b f = (attemptFailed cfg t s e a b f).onS (·.reroot r) := by
  unfold attemptFailed
  rw [restore_reroot]
  cases restore s t with
  | none => rfl
  | some s =>
    simp only [Option.map_some]
    rw [handleNFlag_reroot]
    cases handleNFlag cfg s e a b f with
    | none => rfl
    | some p =>
      obtain ⟨s, f, r'⟩ := p
      cases r' with
      | error e => rfl
      | ok u =>
        simp only [Option.map_some]
        by_cases h : s.cnt.nst = 0
        · rw [if_pos h, if_pos (show (s.reroot r).cnt.nst = 0 from h), reset_reroot]; rfl
        · rw [if_neg h, if_neg (show ¬ (s.reroot r).cnt.nst = 0 from h)]; rfl

theorem attempt_reroot (t : K) (f : Fails) : attempt cfg' t (s.reroot r) f = (attempt cfg t s f).onS (·.reroot r) := by
  unfold attempt
  rw [trial_reroot]
  cases trial cfg s with
  | panic => rfl
  | diverge => rfl
  | nlsFail s ck e => exact attemptFailed_reroot cfg ρ dir (s.note t ck (.nlsFail e)) r t e _ _ f
  | tested s ck p =>
    simp only [Trial.onS]
    by_cases h : p.passed = true
    · rw [if_pos h, if_pos h]; rfl
    · rw [if_neg h, if_neg h]; exact attemptFailed_reroot cfg ρ dir (s.note t ck .testFail) r t _ _ _ f

theorem markPhase_reroot : markPhase cfg' (s.reroot r) = (markPhase cfg s).reroot r := by
  unfold markPhase
  by_cases h : s.c.knew = s.c.kk - 1 ∨ s.c.kk = cfg.maxord
  · rw [if_pos h, if_pos (show (s.reroot r).c.knew = (s.reroot r).c.kk - 1 ∨ (s.reroot r).c.kk = (cfg.withRoots ρ dir).maxord from h)]
    rfl
  · rw [if_neg h, if_neg (show ¬ ((s.reroot r).c.knew = (s.reroot r).c.kk - 1 ∨
      (s.reroot r).c.kk = (cfg.withRoots ρ dir).maxord) from h)]

theorem chooseNext_reroot (d : Bool) (a b : K) : chooseNext cfg' (s.reroot r) d a b = (chooseNext cfg s d a b).map (·.reroot r) := by
  unfold chooseNext
  rw [show orderAction (cfg.withRoots ρ dir) (s.reroot r) d a b = orderAction cfg s d a b from rfl]
  by_cases h : s.c.phase = 0
  · rw [if_pos h, if_pos (show (s.reroot r).c.phase = 0 from h)]
    by_cases h' : s.cnt.nst > 1
    · rw [if_pos h', if_pos (show (s.reroot r).cnt.nst > 1 from h')]; rfl
    · rw [if_neg h', if_neg (show ¬ (s.reroot r).cnt.nst > 1 from h')]; rfl
  · rw [if_neg h, if_neg (show ¬ (s.reroot r).c.phase = 0 from h)]
    cases orderAction cfg s d a b with
    | none => rfl
    | some p => rfl

theorem completeStep_reroot (a b : K) : completeStep cfg' (s.reroot r) a b = (completeStep cfg s a b).map (·.reroot r) := by
  unfold completeStep
  show (if s.c.kk = 0 then none else
    match chooseNext (cfg.withRoots ρ dir) (markPhase (cfg.withRoots ρ dir)
      (State.reroot { s with cnt.nst := s.cnt.nst + 1, c.kused := s.c.kk, c.hused := s.c.hh } r))
      (decide (s.c.kk = s.c.kused + 1)) a b with
    | none => none
    | some t =>
      if s.c.kk < mxordp1 ∧ (s.c.kk < cfg.maxord → s.c.kk + 1 < mxordp1) then
        some { t with h.phi := updatePhi cfg.maxord s.c.kk t.ee t.h.phi }
      else none) = _
  rw [markPhase_reroot, chooseNext_reroot]
  by_cases h : s.c.kk = 0
  · simp only [if_pos h]; rfl
  · simp only [if_neg h]
    cases chooseNext cfg (markPhase cfg { s with cnt.nst := s.cnt.nst + 1, c.kused := s.c.kk, c.hused := s.c.hh })
      (decide (s.c.kk = s.c.kused + 1)) a b with
    | none => rfl
    | some t =>
      simp only [Option.map_some]
      by_cases h : s.c.kk < mxordp1 ∧ (s.c.kk < cfg.maxord → s.c.kk + 1 < mxordp1)
      · simp only [if_pos h]; rfl
      · simp only [if_neg h]; rfl

theorem stepLoop_reroot (t : K) (fuel : Nat) : ∀ (s : State ν n q K) (f : Fails),
    stepLoop cfg' t fuel (s.reroot r) f = (stepLoop cfg t fuel s f).onS (·.reroot r) := by
  induction fuel with
  | zero => intro s f; rfl
  | succ fuel ih =>
    intro s f
    unfold stepLoop
    rw [attempt_reroot]
    cases attempt cfg t s f with
    | panic => rfl
    | diverge => rfl
    | again s f => exact ih _ _
    | fail s e => rfl
    | done s a b c =>
      simp only [Attempt.onS]
      rw [completeStep_reroot]
      cases completeStep cfg s b c with
      | none => rfl
      | some s => rfl

/-- An internal step does not depend on the root functions. -/
theorem step_reroot : step cfg' (s.reroot r) = (step cfg s).onS (·.reroot r) := by
  unfold step
  rw [firstStepInit_reroot]
  exact stepLoop_reroot cfg ρ dir r _ _ _ _

theorem advance_reroot : advance cfg' (s.reroot r) = (advance cfg s).map (·.reroot r) := by
  unfold advance
  rw [show (s.reroot r).fresh (cfg.withRoots ρ dir) = (s.fresh cfg).reroot r from rfl, step_reroot]
  cases step cfg (s.fresh cfg) <;> rfl

theorem advanceOk_reroot : advanceOk cfg' (s.reroot r) = (advanceOk cfg s).map (·.reroot r) := by
  unfold advanceOk
  rw [show (s.reroot r).fresh (cfg.withRoots ρ dir) = (s.fresh cfg).reroot r from rfl, step_reroot]
  cases step cfg (s.fresh cfg) with
  | ret s r' => cases r' <;> rfl
  | panic => rfl
  | diverge => rfl

theorem iter_reroot {S S' : Type w} {f : S → Option S} {f' : S' → Option S'} {g : S → S'} (h : ∀ s, f' (g s) = (f s).map g) (k : Nat)
    (s : S) : iter f' k (g s) = (iter f k s).map g := by
  induction k with
  | zero => rfl
  | succ k ih =>
    simp only [iter]
    rw [ih]
    cases iter f k s with
    | none => rfl
    | some t => exact h t

end

/-! ## The first call -/

theorem Sim.of_simW {s s' : State ν n q K} (h : SimW s s') (he : s'.e = s.e) : Sim s s' := by
  obtain ⟨w, k, rfl⟩ := h
  have : w = s.e.ewt := congrArg Env.ewt he
  subst this
  exact ⟨k, rfl⟩

theorem Sim.trans {s s' s'' : State ν n q K} (h : Sim s s') (h' : Sim s' s'') : Sim s s'' := by
  obtain ⟨k, rfl⟩ := h; obtain ⟨k', rfl⟩ := h'; exact ⟨k', rfl⟩

/-- The state from which the first step starts, without the initialisation of the root search. -/
def readied (cfg : Cfg ν n q K) (s : State ν n q K) (tout : K) : State ν n q K :=
  let s := initialSetup cfg s
  let s := { s with c.hh := firstStepSize cfg s tout (Scalar.abs (tout - s.e.tn)) }
  { s with
    h0u := s.c.hh
    c.kk := 0
    c.kused := 0
    h.phi := upd s.h.phi 1 (vscale s.c.hh (s.h.phi 1))
    epsNewt := cfg.epcon
    e.toldel := Scalar.pt0001 * cfg.epcon }

theorem rCheck1_sim (cfg : Cfg ν n q K) (s : State ν n q K) : Sim s (rCheck1 cfg s) := by
  refine ⟨(rCheck1 cfg s).skin, ?_⟩
  unfold rCheck1 callRoot
  simp only
  split <;> rfl

theorem firstReady_sim (cfg : Cfg ν n q K) (s : State ν n q K) :
    Sim { s with
      h0u := s.c.hh
      c.kk := 0
      c.kused := 0
      h.phi := upd s.h.phi 1 (vscale s.c.hh (s.h.phi 1))
      epsNewt := cfg.epcon
      e.toldel := Scalar.pt0001 * cfg.epcon } (firstReady cfg s) := by
  unfold firstReady
  simp only
  split
  · obtain ⟨k, hk⟩ := rCheck1_sim cfg { s with h0u := s.c.hh, c.kk := 0, c.kused := 0 }
    rw [hk]
    exact ⟨k, rfl⟩
  · exact ⟨s.skin, rfl⟩

theorem firstCall_sim {cfg : Cfg ν n q K} {s s' : State ν n q K} {tout : K}
    (hs : ∀ T, s.tstop = some T →
      Scalar.gt (((readied cfg s tout).e.tn + (readied cfg s tout).c.hh - T) * (readied cfg s tout).c.hh) 0 = false)
    (h : firstCall cfg s tout = .ret s' (.ok ())) : Sim (readied cfg s tout) s' := by
  have hi : (initialSetup cfg s).tstop = s.tstop := by unfold initialSetup; split <;> rfl
  rcases firstCall_cases h with ⟨-, -, h⟩ | ⟨-, -, h⟩ | ⟨hh, e1, -, -, ⟨-, -, h⟩ | ⟨s1, h1, h, -⟩⟩
  · cases h
  · cases h
  · cases h
  · subst e1
    unfold firstStop at h1
    rw [show ({ initialSetup cfg s with
      c.hh := firstStepSize cfg (initialSetup cfg s) tout (Scalar.abs (tout - (initialSetup cfg s).e.tn)) } : State ν n q K).tstop =
        s.tstop from hi] at h1
    cases hT : s.tstop with
    | none =>
      rw [hT] at h1
      cases h1
      subst h
      exact firstReady_sim cfg _
    | some T =>
      rw [hT] at h1
      simp only at h1
      split at h1
      · cases h1
      · unfold clampToStop at h1
        have := hs T hT
        rw [if_neg (by rw [Bool.not_eq_true]; exact this)] at h1
        cases h1
        subst h
        exact firstReady_sim cfg _

/-- A call of `solve` from a state without steps that ends with steps: what happens up to the end of the first step. -/
theorem solveLoop_begins {cfg : Cfg ν n q K} {rf : Nat} {tout : K} {task : Task} (sf : Nat) {s s' : State ν n q K}
    {nstloc : Nat} {r : Except Err Status} (hn : s.cnt.nst = 0)
    (h : solveLoop cfg rf tout task sf s nstloc = .ret s' r) (hn' : 0 < s'.cnt.nst) :
    ∃ s2 s3, Frame s s2 ∧ step cfg s2 = .ret s3 (.ok ()) ∧ Ends cfg s3 s' r := by
  cases sf with
  | zero => cases h
  | succ sf =>
    unfold solveLoop Flow.andThen solvePass at h
    have hp := preStep_micro (cfg := cfg) (s := s) (nstloc := nstloc)
    cases hpre : preStep cfg s nstloc with
    | go s2 =>
      rw [hpre] at h
      simp only at h
      obtain ⟨-, hc2, -, hf2, -⟩ := hp.1 s2 hpre
      have hf2 := hf2 hn
      cases hstep : step cfg s2 with
      | panic => rw [hstep] at h; cases h
      | diverge => rw [hstep] at h; cases h
      | ret s3 r3 =>
        rw [hstep] at h
        cases r3 with
        | error e =>
          simp only at h
          cases hsf : stepFailed s3 e with
          | go s4 => exact absurd hsf stepFailed_go
          | panic => rw [hsf] at h; cases h
          | diverge => rw [hsf] at h; cases h
          | ret s4 r4 =>
            rw [hsf] at h
            cases h
            obtain ⟨hfr, rfl⟩ := stepFailed_frame hsf
            have := (step_quiet hstep).2.2 e rfl
            rw [hfr.cnt, this.1, hf2.cnt, hn] at hn'
            omega
        | ok u =>
          simp only at h
          have hn2 := step_nst hstep
          have hpo := postStep_ok (cfg := cfg) (rf := rf) (tout := tout) (task := task) hn2
          refine ⟨s2, s3, hf2, hstep, ?_⟩
          cases hps : postStep cfg rf s3 tout task with
          | panic => rw [hps] at h; cases h
          | diverge => rw [hps] at h; cases h
          | go s4 =>
            rw [hps] at h
            simp only at h
            obtain ⟨hm3, hr3⟩ := hpo.go s4 hps
            exact Ends.prepend hm3 (solveLoop_ends sf (micros_nst_pos hm3 hn2) hr3 h)
          | ret s4 r4 =>
            rw [hps] at h
            cases h
            obtain ⟨hm3, hb⟩ := hpo.ret _ _ hps
            exact .clean hm3 hb
    | panic => rw [hpre] at h; cases h
    | diverge => rw [hpre] at h; cases h
    | ret s2 r2 =>
      rw [hpre] at h
      cases h
      obtain ⟨-, hf2, hb, -⟩ := hp.2 _ _ hpre
      rw [(hf2 hn).cnt, hn] at hn'
      omega

theorem readied_begun (cfg : Cfg ν n q K) (s : State ν n q K) (tout : K) (task : Task) :
    readied cfg (begun s tout task) tout = { readied cfg s tout with r := (begun s tout task).r } := by
  rw [(begun_same s tout task).1]
  unfold readied initialSetup
  by_cases h : s.setupDone = true
  · simp only [h, if_true]; rfl
  · simp only [h]; rfl

theorem solve_begins {cfg : Cfg ν n q K} {rf sf : Nat} {s s' : State ν n q K} {tout : K} {task : Task}
    {r : Except Err Status} (hs : ∀ T, s.tstop = some T →
      Scalar.gt (((readied cfg s tout).e.tn + (readied cfg s tout).c.hh - T) * (readied cfg s tout).c.hh) 0 = false)
    (hn : s.cnt.nst = 0) (h : solve cfg rf sf s tout task = .ret s' r) (hn' : 0 < s'.cnt.nst) :
    ∃ s2 s3, Sim (readied cfg (begun s tout task) tout) s2 ∧ step cfg s2 = .ret s3 (.ok ()) ∧ Ends cfg s3 s' r := by
  obtain ⟨b1, -, -, hf0⟩ := begun_same s tout task
  have h' : ((if (begun s tout task).cnt.nst = 0 then firstCall cfg (begun s tout task) tout else
      .ret (begun s tout task) (.ok ())).bind fun s _ =>
    (if (perfReset s).cnt.nst > 0 then laterCall cfg rf (perfReset s) tout task else Flow.go (perfReset s)).andThen fun s =>
      solveLoop cfg rf tout task sf s 0) = .ret s' r := h
  have hb : (begun s tout task).cnt.nst = 0 := by rw [hf0.cnt]; exact hn
  rw [if_pos hb] at h'
  rcases Out.bind_eq_ret h' with ⟨s1, a, h1, h2⟩ | ⟨e, h1, rfl⟩
  · have hc1 : ¬ (perfReset s1).cnt.nst > 0 := by
      show ¬ s1.cnt.nst > 0
      rw [firstCall_cnt h1]; omega
    rw [if_neg hc1] at h2
    obtain ⟨s2, s3, f1, f2, f3⟩ := solveLoop_begins sf (show (perfReset s1).cnt.nst = 0 by omega) h2 hn'
    refine ⟨s2, s3, ?_, f2, f3⟩
    have g1 := firstCall_sim (by
      rw [hf0.tstop, show readied cfg (begun s tout task) tout =
        { readied cfg s tout with r := (begun s tout task).r } from readied_begun cfg s tout task]; exact hs) h1
    have g2 : Sim s1 (perfReset s1) := ⟨(perfReset s1).skin, rfl⟩
    exact (g1.trans g2).trans (.of_simW (frame_wear f1) f1.e)
  · have := firstCall_cnt h1
    rw [this] at hn'
    omega

section
variable {cfg : Cfg ν n q K} (hb : NlsBlind cfg) (hw : FreshWeights cfg)
include hb hw

theorem ends_nth {s s' s0 : State ν n q K} {k : Nat} {r : Except Err Status} (hn : 0 < s.cnt.nst) (hs : s.tstop = none)
    (h0 : Nth cfg (advance cfg) k s0 s) (h : Ends cfg s s' r) :
    (∃ k, Nth cfg (advance cfg) k s0 s') ∧ 0 < s'.cnt.nst ∧ s'.tstop = none := by
  have hm : ∀ {s1 : State ν n q K}, Micros cfg s s1 → (∃ k, Nth cfg (advance cfg) k s0 s1) ∧ 0 < s1.cnt.nst ∧ s1.tstop = none := by
    intro s1 h1
    obtain ⟨⟨k', t, h2, h3⟩, h4, h5⟩ := micros_nth hb hw (k := 0) hn hs ⟨s, rfl, .refl s⟩ h1
    exact ⟨⟨k + k', nth_trans hb hw h0 ⟨t, iter_ok h2, h3⟩⟩, h4, h5⟩
  cases h with
  | clean h3 _ => exact hm h3
  | failed s1 s2 e h3 h4 h5 _ =>
    obtain ⟨⟨k, h6⟩, h7, h8⟩ := hm h3
    have h9 := frame_wear h5
    cases h4 with
    | firstStep _ _ h7 _ _ _ => omega
    | step _ _ _ h10 h11 =>
      have hq := step_quiet h10
      have h12 : advance cfg s1 = some s2 := by unfold advance; rw [weighed_fresh hw h11, h10]
      refine ⟨⟨k + 1, nth_trans hb hw h6 ⟨s2, ?_, h9⟩⟩, ?_, ?_⟩
      · simpa [iter] using h12
      · rw [h9.nst, (hq.2.2 e rfl).1]; exact h7
      · rw [h9.tstop, hq.1.tstop]; exact h8

theorem ends_nthOk {s s' s0 : State ν n q K} {k : Nat} {r : Except Err Status} (hn : 0 < s.cnt.nst) (hs : s.tstop = none)
    (h0 : Nth cfg (advanceOk cfg) k s0 s) (h : Ends cfg s s' r) (hr : ∀ e, r = .error e → e.isStepFailure = false) :
    (∃ k, Nth cfg (advanceOk cfg) k s0 s') ∧ 0 < s'.cnt.nst ∧ s'.tstop = none := by
  cases h with
  | clean h3 _ => exact micros_nth hb hw hn hs h0 h3
  | failed s1 s2 e h3 h4 _ h5 =>
    obtain ⟨-, h6, -⟩ := micros_nth hb hw hn hs h0 h3
    cases h4 with
    | firstStep _ _ h7 _ _ _ => omega
    | step _ _ _ h7 _ =>
      have := step_error_isStepFailure h7
      rw [hr e h5] at this
      cases this

theorem later_nth_from {s0 s1 s : State ν n q K} {k : Nat} (h0 : Nth cfg (advance cfg) k s0 s1) (hn : 0 < s1.cnt.nst)
    (hs : s1.tstop = none) (h : Later cfg s1 s) : ∃ k, Nth cfg (advance cfg) k s0 s := by
  obtain ⟨⟨k', h1⟩, -, -⟩ := later_nth hb hw hn hs h
  exact ⟨_, nth_trans hb hw h0 h1⟩

theorem laterOk_nth_from {s0 s1 s : State ν n q K} {k : Nat} (h0 : Nth cfg (advanceOk cfg) k s0 s1) (hn : 0 < s1.cnt.nst)
    (hs : s1.tstop = none) (h : LaterOk cfg s1 s) :
    (∃ k, Nth cfg (advanceOk cfg) k s0 s) ∧ 0 < s.cnt.nst ∧ s.tstop = none := by
  induction h with
  | refl => exact ⟨⟨k, h0⟩, hn, hs⟩
  | call rf sf op r _ he hr ih =>
    obtain ⟨⟨k, h1⟩, h2, h3⟩ := ih
    exact exec_nthOk hb hw h2 h3 h1 he hr

/-- The first call of a new solver, if it takes steps. -/
theorem first_begins {rf sf : Nat} {nls0 : ν} {yy0 yp0 : Vec n K} {tout tret : K} {task : Task} {s : State ν n q K} {r : Res n K}
    (h : exec cfg rf sf (State.new nls0 yy0 yp0) (.solve tout tret task) = some (s, r)) (hn : 0 < s.cnt.nst) :
    ∃ t, step cfg (readied cfg (State.new nls0 yy0 yp0) tout) = .ret t (.ok ()) ∧ t.cnt.nst = 1 ∧ t.tstop = none ∧
      (∃ k, Nth cfg (advance cfg) k t s) ∧ s.tstop = none ∧
      ((∀ e, r = .solved (.error e) → e.isStepFailure = false) → ∃ k, Nth cfg (advanceOk cfg) k t s) := by
  unfold exec at h
  simp only at h
  split at h
  · rename_i r' h1
    cases h
    obtain ⟨s2, s3, g1, g2, g3⟩ := solve_begins (fun T hT => by cases hT) (by rfl) h1 hn
    have g4 : Sim (readied cfg (State.new nls0 yy0 yp0) tout) s2 := by
      refine Sim.trans ?_ g1
      refine ⟨(readied cfg (begun { (State.new nls0 yy0 yp0 : State ν n q K) with tret := tret } tout task) tout).skin, ?_⟩
      unfold begun
      split <;> rfl
    obtain ⟨k, rfl⟩ := g4
    have g5 := step_wear hb (readied cfg (State.new nls0 yy0 yp0) tout) k
    rw [g2] at g5
    generalize hre : step cfg (readied cfg (State.new nls0 yy0 yp0) tout) = o at g5
    cases g5 with
    | ret t _ _ hsim =>
      have hq := step_quiet hre
      have n1 : t.cnt.nst = 1 := hq.2.1 rfl
      have t1 : t.tstop = none := hq.1.tstop
      have n3 : s3.cnt.nst = 1 := by rw [hsim.weaken.nst]; exact n1
      have t3 : s3.tstop = none := by rw [hsim.weaken.tstop]; exact t1
      obtain ⟨e1, -, e2⟩ := ends_nth hb hw (k := 0) (by omega) t3 ⟨t, rfl, hsim.weaken⟩ g3
      refine ⟨t, rfl, n1, t1, e1, e2, fun hr => ?_⟩
      exact (ends_nthOk hb hw (k := 0) (by omega) t3 ⟨t, rfl, hsim.weaken⟩ g3 (fun e he => hr e (by rw [he]))).1
  · cases h

end

/-! ## Two solvers that differ in the root functions -/

/-- States of solvers with different root functions that differ in the weights and in parts a step does not read only. -/
def SimR (s : State ν n q K) (s' : State ν n q' K) : Prop := ∃ r, SimW (s.reroot r) s'

section
variable {cfg : Cfg ν n q K} (hb : NlsBlind cfg) (hw : FreshWeights cfg)
  {ρ : K → Vec n K → Vec n K → Vec q' K → Vec q' K} {dir : Fin q' → Nat}
include hb hw

theorem readied_reroot (nls0 : ν) (yy0 yp0 : Vec n K) (tout : K) :
    readied (cfg.withRoots ρ dir) (State.new nls0 yy0 yp0) tout =
      (readied cfg (State.new nls0 yy0 yp0) tout).reroot (State.new nls0 yy0 yp0 : State ν n q' K).r := rfl

/-- The common first step. -/
theorem first_common {nls0 : ν} {yy0 yp0 : Vec n K} {tout tr tr' : K} {task task' : Task} {rf sf rf' sf' : Nat}
    {a : State ν n q K} {b : State ν n q' K} {r r' : Res n K}
    (ha : exec cfg rf sf (State.new nls0 yy0 yp0) (.solve tout tr task) = some (a, r))
    (hb' : exec (cfg.withRoots ρ dir) rf' sf' (State.new nls0 yy0 yp0) (.solve tout tr' task') = some (b, r'))
    (na : 0 < a.cnt.nst) (nb : 0 < b.cnt.nst) :
    ∃ (t : State ν n q K) (w : RootSt q' K), t.cnt.nst = 1 ∧ a.tstop = none ∧ b.tstop = none ∧
      (∃ k, Nth cfg (advance cfg) k t a) ∧
      (∃ k, Nth (cfg.withRoots ρ dir) (advance (cfg.withRoots ρ dir)) k (t.reroot w) b) ∧
      ((∀ e, r = .solved (.error e) → e.isStepFailure = false) → ∃ k, Nth cfg (advanceOk cfg) k t a) ∧
      ((∀ e, r' = .solved (.error e) → e.isStepFailure = false) →
        ∃ k, Nth (cfg.withRoots ρ dir) (advanceOk (cfg.withRoots ρ dir)) k (t.reroot w) b) := by
  obtain ⟨t, h1, h2, h3, h4, h5, h6⟩ := first_begins hb hw ha na
  obtain ⟨t', g1, g2, g3, g4, g5, g6⟩ := first_begins (cfg := cfg.withRoots ρ dir) hb hw hb' nb
  rw [readied_reroot hb hw, step_reroot, h1] at g1
  cases g1
  exact ⟨t, _, h2, h5, g5, h4, g4, h6, g6⟩

/-- Two points of the line: equal, or one after the other. -/
theorem nth_total {t a : State ν n q K} {w : RootSt q' K} {b : State ν n q' K} {j k : Nat} (hn : 0 < t.cnt.nst)
    (h1 : Nth cfg (advance cfg) j t a) (h2 : Nth (cfg.withRoots ρ dir) (advance (cfg.withRoots ρ dir)) k (t.reroot w) b) :
    SimR a b ∨ (∃ l, l ≠ [] ∧ b.g.atts = l ++ a.g.atts ∧ a.g.acc <:+ b.g.acc) ∨
    (∃ l, l ≠ [] ∧ a.g.atts = l ++ b.g.atts ∧ b.g.acc <:+ a.g.acc) := by
  obtain ⟨x, e1, e2⟩ := h1
  obtain ⟨y', f1, f2⟩ := h2
  rw [iter_reroot (g := fun s => State.reroot s w) (fun s => advance_reroot cfg ρ dir s w)] at f1
  obtain ⟨y, f3, rfl⟩ := Option.map_eq_some_iff.1 f1
  clear f1
  have e2g := e2.g
  have f2g : b.g = y.g := f2.g
  rcases Nat.lt_trichotomy j k with h | h | h
  · right; left
    obtain ⟨-, -, ⟨l, g1, g2⟩, g3⟩ := iter_grows hn e1 (b := k - j) (by rw [Nat.add_sub_cancel' h.le]; exact f3)
    refine ⟨l, ?_, by rw [f2g, e2g]; exact g1, by rw [f2g, e2g]; exact g3⟩
    rintro rfl; simp at g2; omega
  · left
    subst h
    rw [e1] at f3; cases f3
    obtain ⟨w1, k1, rfl⟩ := e2
    refine ⟨w, SimW.trans ?_ f2⟩
    exact ⟨x.e.ewt, (x.reroot w).skin, rfl⟩
  · right; right
    obtain ⟨-, -, ⟨l, g1, g2⟩, g3⟩ := iter_grows hn f3 (b := j - k) (by rw [Nat.add_sub_cancel' h.le]; exact e1)
    refine ⟨l, ?_, by rw [f2g, e2g]; exact g1, by rw [f2g, e2g]; exact g3⟩
    rintro rfl; simp at g2; omega

theorem nthOk_same {t a : State ν n q K} {w : RootSt q' K} {b : State ν n q' K} {j k : Nat}
    (h1 : Nth cfg (advanceOk cfg) j t a) (h2 : Nth (cfg.withRoots ρ dir) (advanceOk (cfg.withRoots ρ dir)) k (t.reroot w) b)
    (he : a.cnt.nst = b.cnt.nst) : SimR a b := by
  obtain ⟨x, e1, e2⟩ := h1
  obtain ⟨y, f1, f2⟩ := h2
  have n1 := iter_nst e1
  have n2 : y.cnt.nst = t.cnt.nst + k := iter_nst f1
  have : j = k := by have := e2.nst; have := f2.nst; omega
  subst this
  rw [iter_reroot (g := fun s => State.reroot s w) (fun s => advanceOk_reroot cfg ρ dir s w), e1] at f1
  cases f1
  obtain ⟨w1, k1, rfl⟩ := e2
  refine ⟨w, SimW.trans ?_ f2⟩
  exact ⟨x.e.ewt, (x.reroot w).skin, rfl⟩

end

end

end Verif
