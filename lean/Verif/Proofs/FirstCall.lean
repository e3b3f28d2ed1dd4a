import Verif.Proofs.NoPanic
import Verif.Proofs.Nls

/-! # The first call of `solve`, the memory of the nonlinear problem, and the log of user calls (any scalar type) -/

set_option autoImplicit false
set_option linter.unusedSectionVars false
set_option linter.unusedSimpArgs false
set_option linter.unusedVariables false

namespace Verif

open Relation Verif.Spec

universe u v

section
variable {ν : Type v} {n q : Nat} {K : Type u} [Scalar K]

/-- How a call of `solve` made before any step was accepted can end. -/
inductive FirstEnds (cfg : Cfg ν n q K) (s : State ν n q K) (tout : K) (s' : State ν n q K) (r : Except Err Status) : Prop
  /-- the first-call block rejects the input -/
  | rejected (e : Err) : firstCall cfg s tout = .ret s' (.error e) → r = .error e → FirstEnds cfg s tout s' r
  /-- the tests before the first step return an error -/
  | noStep (s1 : State ν n q K) (e : Err) : firstCall cfg s tout = .ret s1 (.ok ()) → Frame (perfReset s1) s' →
      r = .error e → e.isStepFailure = false →
      Scalar.gt (Scalar.eps * wrmsNorm cfg.id (s1.h.phi 0) s1.e.ewt cfg.suppressalg) 1 = true → FirstEnds cfg s tout s' r
  /-- the first step fails -/
  | failed (s1 s2 s3 : State ν n q K) (e : Err) : firstCall cfg s tout = .ret s1 (.ok ()) → Frame (perfReset s1) s2 →
      step cfg s2 = .ret s3 (.error e) → Frame s3 s' → r = .error e → FirstEnds cfg s tout s' r
  /-- the first step is accepted -/
  | stepped (s1 s2 s3 : State ν n q K) : firstCall cfg s tout = .ret s1 (.ok ()) → Frame (perfReset s1) s2 →
      step cfg s2 = .ret s3 (.ok ()) → Ends cfg s3 s' r → FirstEnds cfg s tout s' r

/-- Before the first step the tests of the step loop can only object to the tolerances. -/
theorem preStep_zero {cfg : Cfg ν n q K} {s s' : State ν n q K} {r : Except Err Status} (hn : s.cnt.nst = 0)
    (h : preStep cfg s 0 = .ret s' r) :
    Scalar.gt (Scalar.eps * wrmsNorm cfg.id (s.h.phi 0) s.e.ewt cfg.suppressalg) 1 = true := by
  unfold preStep at h
  rw [if_neg (by omega)] at h
  split at h
  · cases h
  · rename_i s1 h1
    have hf := perfCheck_frame h1
    have hs1 : s1.cnt = s.cnt ∧ s1.h = s.h ∧ s1.e = s.e := ⟨hf.cnt, hf.h, hf.e⟩
    have hn1 : ¬ s1.cnt.nst > 0 := by rw [hs1.1]; omega
    simp only [if_neg hn1, decide_eq_false hn1, Bool.false_and, Bool.false_eq_true, if_false] at h
    split at h
    · rename_i h2
      rw [hs1.2.1, hs1.2.2] at h2; exact h2
    · cases h

theorem solveLoop_firstEnds {cfg : Cfg ν n q K} {rf : Nat} {tout : K} {task : Task} (sf : Nat)
    {s0 s1 s s' : State ν n q K} {r : Except Err Status} (hn : s0.cnt.nst = 0)
    (hfc : firstCall cfg s0 tout = .ret s1 (.ok ())) (hf : Frame (perfReset s1) s)
    (h : solveLoop cfg rf tout task sf s 0 = .ret s' r) : FirstEnds cfg s0 tout s' r := by
  have hc : s.cnt.nst = 0 := by rw [hf.cnt]; show s1.cnt.nst = 0; rw [firstCall_cnt hfc]; exact hn
  cases sf with
  | zero => cases h
  | succ sf =>
    unfold solveLoop Flow.andThen solvePass at h
    have hp := preStep_micro (cfg := cfg) (s := s) (nstloc := 0)
    cases hpre : preStep cfg s 0 with
    | go s2 =>
      rw [hpre] at h
      simp only at h
      obtain ⟨-, hc2, -, hf2, -⟩ := hp.1 s2 hpre
      have hf2 := hf.trans (hf2 hc)
      cases hstep : step cfg s2 with
      | panic => rw [hstep] at h; cases h
      | diverge => rw [hstep] at h; cases h
      | ret s3 r3 =>
        rw [hstep] at h
        cases r3 with
        | error e =>
          simp only at h
          cases hsf : stepFailed s3 e with
          | go s4 => exact absurd hsf stepFailed_go
          | panic => rw [hsf] at h; cases h
          | diverge => rw [hsf] at h; cases h
          | ret s4 r4 =>
            rw [hsf] at h
            cases h
            obtain ⟨hfr, rfl⟩ := stepFailed_frame hsf
            exact .failed s1 s2 s3 e hfc hf2 hstep hfr rfl
        | ok u =>
          simp only at h
          refine .stepped s1 s2 s3 hfc hf2 hstep ?_
          have hn2 := step_nst hstep
          have hpo := postStep_ok (cfg := cfg) (rf := rf) (tout := tout) (task := task) hn2
          cases hps : postStep cfg rf s3 tout task with
          | panic => rw [hps] at h; cases h
          | diverge => rw [hps] at h; cases h
          | go s4 =>
            rw [hps] at h
            simp only at h
            obtain ⟨hm3, hr3⟩ := hpo.go s4 hps
            exact Ends.prepend hm3 (solveLoop_ends sf (micros_nst_pos hm3 hn2) hr3 h)
          | ret s4 r4 =>
            rw [hps] at h
            cases h
            obtain ⟨hm3, hb⟩ := hpo.ret _ _ hps
            exact .clean hm3 hb
    | panic => rw [hpre] at h; cases h
    | diverge => rw [hpre] at h; cases h
    | ret s2 r2 =>
      rw [hpre] at h
      cases h
      obtain ⟨-, hf2, hb, e, he⟩ := hp.2 _ _ hpre
      refine .noStep s1 e hfc (hf.trans (hf2 hc)) he (hb e he) ?_
      have := preStep_zero hc hpre
      rw [hf.h, hf.e] at this; exact this

/-- A call of `solve` before any step was accepted. -/
theorem solve_first {cfg : Cfg ν n q K} {rf sf : Nat} {s s' : State ν n q K} {tout : K} {task : Task}
    {r : Except Err Status} (hn : s.cnt.nst = 0) (h : solve cfg rf sf s tout task = .ret s' r) :
    ∃ s0, Frame s s0 ∧ s0.m = s.m ∧ FirstEnds cfg s0 tout s' r := by
  unfold solve at h
  simp only at h
  obtain ⟨s0, hs0, hf0, hm0⟩ : ∃ s0 : State ν n q K,
      ({ (if task = .normal then { s with r.toutc := tout } else s) with
          r.taskc := task } : State ν n q K) = s0 ∧ Frame s s0 ∧ s0.m = s.m := by
    refine ⟨_, rfl, ?_, ?_⟩
    · split <;> frame_rfl
    · split <;> rfl
  have hcnt : (if task = .normal then ({ s with r.toutc := tout } : State ν n q K) else s).cnt = s0.cnt := by
    rw [← hs0]
  rw [hs0, hcnt] at h
  refine ⟨s0, hf0, hm0, ?_⟩
  have hn : s0.cnt.nst = 0 := by rw [hf0.cnt]; exact hn
  rw [if_pos hn] at h
  rcases Out.bind_eq_ret h with ⟨s1, a, h1, h2⟩ | ⟨e, h1, rfl⟩
  · have hc1 : ¬ (perfReset s1).cnt.nst > 0 := by
      show ¬ s1.cnt.nst > 0
      rw [firstCall_cnt h1]; omega
    rw [if_neg hc1] at h2
    exact solveLoop_firstEnds sf hn h1 (Frame.refl _) h2
  · exact .rejected e h1 rfl

/-! ## The problem memory after an attempt -/

/-- The memory `m'` and solver object `N'` after an attempt that starts in `s`. -/
def MemAfter (cfg : Cfg ν n q K) (s : State ν n q K) (N' : ν) (m' : Mem n K) : Prop :=
  ∃ m1 ee r, nlsCall cfg s = .ret N' m1 ee r ∧
    m' = { m1 with yy := vadd (predY s) ee, yp := scaledAdd (predYp s) (leadCoef s) ee }

theorem handleNFlag_m {cfg : Cfg ν n q K} {s s' : State ν n q K} {err : Err} {a b : K} {f f' : Fails}
    {r : Except Err Unit} (h : handleNFlag cfg s err a b f = some (s', f', r)) :
    s'.m = s.m ∧ s'.nls = s.nls ∧ s'.setupDone = s.setupDone ∧ s'.epsNewt = s.epsNewt ∧ s'.r = s.r ∧ s'.ee = s.ee := by
  have := handleNFlag_handled h
  cases this <;> exact ⟨rfl, rfl, rfl, rfl, rfl, rfl⟩

theorem passFailed_m {cfg : Cfg ν n q K} {t0 : K} {s s4 : State ν n q K} {err : Err} {a b : K}
    (h : PassFailed cfg t0 s s4 err a b) : MemAfter cfg s s4.nls s4.m ∧ s4.epsNewt = s.epsNewt ∧ s4.r = s.r := by
  obtain ⟨s3, r, out, h1, -, -, rfl⟩ := h.tried
  obtain ⟨m, h2, h3⟩ := h1.solve
  exact ⟨⟨m, s3.ee, r, h2, h3⟩, h1.epsNewt, h1.r⟩

theorem attempt_again_m {cfg : Cfg ν n q K} {t0 : K} {s s' : State ν n q K} {f f' : Fails}
    (h : attempt cfg t0 s f = .again s' f') :
    MemAfter cfg s s'.nls s'.m ∧ s'.epsNewt = s.epsNewt ∧ s'.r = s.r := by
  obtain ⟨s4, err, a, b, s6, h1, h2, rfl⟩ := attempt_again h
  obtain ⟨h3, h4, h5⟩ := passFailed_m h1
  obtain ⟨e1, e2, e3, e4, e5, -⟩ := handleNFlag_m h2
  have : ∀ p : Prop, [Decidable p] → (if p then reset s6 else s6).m = s6.m ∧ (if p then reset s6 else s6).nls = s6.nls ∧
      (if p then reset s6 else s6).epsNewt = s6.epsNewt ∧ (if p then reset s6 else s6).r = s6.r := by
    intro p _; split <;> exact ⟨rfl, rfl, rfl, rfl⟩
  obtain ⟨g1, g2, g3, g4⟩ := this (s6.cnt.nst = 0)
  rw [g1, g2, g3, g4, e1, e2, e4, e5]
  exact ⟨h3, h4, h5⟩

theorem attempt_fail_m {cfg : Cfg ν n q K} {t0 : K} {s s' : State ν n q K} {f : Fails} {e : Err}
    (h : attempt cfg t0 s f = .fail s' e) :
    MemAfter cfg s s'.nls s'.m ∧ s'.epsNewt = s.epsNewt ∧ s'.r = s.r := by
  obtain ⟨s4, err, a, b, f', h1, h2⟩ := attempt_fail h
  obtain ⟨h3, h4, h5⟩ := passFailed_m h1
  obtain ⟨e1, e2, e3, e4, e5, -⟩ := handleNFlag_m h2
  rw [e1, e2, e4, e5]
  exact ⟨h3, h4, h5⟩

theorem attempt_done_m {cfg : Cfg ν n q K} {t0 : K} {s s' : State ν n q K} {f : Fails} {ck a b : K}
    (h : attempt cfg t0 s f = .done s' ck a b) :
    MemAfter cfg s s'.nls s'.m ∧ s'.epsNewt = s.epsNewt ∧ s'.r = s.r := by
  obtain ⟨s3, h1, -, -, -, -, rfl⟩ := attempt_done h
  obtain ⟨m, h2, h3⟩ := h1.solve
  exact ⟨⟨m, s3.ee, .ok (), h2, h3⟩, h1.epsNewt, h1.r⟩

/-! ## Counting root-function calls -/

/-- The number of calls of the root function so far. -/
def rootCalls (m : Mem n K) : Nat := m.log.countP UCall.isRoot

/-- The nonlinear solver makes no root-function calls. -/
def NlsNoRoot (cfg : Cfg ν n q K) : Prop :=
  ∀ N e m y0 y w tol call N' m' ee r, cfg.nls.solve N e m y0 y w tol call = .ret N' m' ee r →
    rootCalls m' = rootCalls m

theorem nlsPrepare_log (s : State ν n q K) : (nlsPrepare s).1.log = s.m.log := by
  unfold nlsPrepare
  simp only
  split <;> split <;> rfl

theorem memAfter_root {cfg : Cfg ν n q K} (hr : NlsNoRoot cfg) {s : State ν n q K} {N' : ν} {m' : Mem n K}
    (h : MemAfter cfg s N' m') : rootCalls m' = rootCalls s.m := by
  obtain ⟨m1, ee, r, h1, rfl⟩ := h
  have := hr _ _ _ _ _ _ _ _ _ _ _ _ h1
  show rootCalls m1 = _
  rw [this]
  unfold rootCalls
  rw [nlsPrepare_log]
  rfl

theorem step_root {cfg : Cfg ν n q K} (hr : NlsNoRoot cfg) {s s' : State ν n q K} {r : Except Err Unit}
    (h : step cfg s = .ret s' r) : rootCalls s'.m = rootCalls s.m ∧ s'.r = s.r := by
  have hi := firstStepInit_cnt s
  have := step_rule (cfg := cfg) (fun s1 _ => rootCalls s1.m = rootCalls s.m ∧ s1.r = s.r)
    (fun s1 => rootCalls s1.m = rootCalls s.m ∧ s1.r = s.r) (fun s1 _ => rootCalls s1.m = rootCalls s.m ∧ s1.r = s.r)
    ⟨by rw [hi.2.2.2.2.2.2.2.2], hi.2.2.2.2.2.2.2.1⟩
    (fun s1 f s' f' hI h => by
      obtain ⟨h1, -, h2⟩ := attempt_again_m h
      exact ⟨(memAfter_root hr h1).trans hI.1, h2.trans hI.2⟩)
    (fun s1 f s2 ck a b s' hI h hc => by
      obtain ⟨h1, -, h2⟩ := attempt_done_m h
      have hC := completeStep_eq hc
      refine ⟨?_, ?_⟩
      · show rootCalls s'.m = _
        rw [hC.m]; exact (memAfter_root hr h1).trans hI.1
      · show s'.r = _
        rw [hC.r]; exact h2.trans hI.2)
    (fun s1 f s' e hI h => by
      obtain ⟨h1, -, h2⟩ := attempt_fail_m h
      exact ⟨(memAfter_root hr h1).trans hI.1, h2.trans hI.2⟩) h
  rcases this with ⟨-, h⟩ | ⟨e, -, h⟩ <;> exact h

/-- Between `s` and `s'` every root-function call was counted exactly once. -/
def RootCounted (s s' : State ν n q K) : Prop := s'.r.nge + rootCalls s.m = s.r.nge + rootCalls s'.m

theorem RootCounted.of_eq {s s' : State ν n q K} (hm : rootCalls s'.m = rootCalls s.m) (hr : s'.r.nge = s.r.nge) :
    RootCounted s s' := by unfold RootCounted; rw [hm, hr]

theorem RootCounted.trans {a b c : State ν n q K} (h : RootCounted a b) (h' : RootCounted b c) : RootCounted a c := by
  unfold RootCounted at *; omega

theorem rootCounted_frame {s s' : State ν n q K} (hf : Frame s s') : RootCounted s s' := by
  obtain ⟨l, h1, h2, h3⟩ := hf.log
  unfold RootCounted rootCalls
  rw [h1, h3, List.countP_append, List.countP_eq_length.2 h2]
  omega

theorem rootCounted_step {cfg : Cfg ν n q K} (hr : NlsNoRoot cfg) {s s' : State ν n q K} {r : Except Err Unit}
    (h : step cfg s = .ret s' r) : RootCounted s s' :=
  .of_eq (step_root hr h).1 (by rw [(step_root hr h).2])

theorem clampToStop_m (s : State ν n q K) (ts : K) : (clampToStop s ts).m = s.m ∧ (clampToStop s ts).r = s.r := by
  unfold clampToStop; split <;> exact ⟨rfl, rfl⟩

theorem rootCounted_micro {cfg : Cfg ν n q K} (hr : NlsNoRoot cfg) {s s' : State ν n q K} (hn : 0 < s.cnt.nst)
    (h : Micro cfg s s') : RootCounted s s' := by
  cases h with
  | frame hf => exact rootCounted_frame hf
  | perf => exact .of_eq rfl rfl
  | clear => exact .of_eq rfl rfl
  | clamp ts _ _ _ => exact .of_eq (by rw [(clampToStop_m s ts).1]) (by rw [(clampToStop_m s ts).2])
  | ewt _ => exact .of_eq rfl rfl
  | first _ _ h0 _ => omega
  | firstStep _ h0 _ _ _ => omega
  | step _ _ hs => exact rootCounted_step hr hs

theorem rootCounted_micros {cfg : Cfg ν n q K} (hr : NlsNoRoot cfg) {s s' : State ν n q K} (hn : 0 < s.cnt.nst)
    (h : Micros cfg s s') : RootCounted s s' := by
  induction h with
  | refl => exact .of_eq rfl rfl
  | tail hab hbc ih => exact ih.trans (rootCounted_micro hr (micros_nst_pos hab hn) hbc)

theorem rootCounted_ends {cfg : Cfg ν n q K} (hr : NlsNoRoot cfg) {s s' : State ν n q K} (hn : 0 < s.cnt.nst)
    {α : Type} {r : Except Err α} (h : Ends cfg s s' r) : RootCounted s s' := by
  cases h with
  | clean h1 _ => exact rootCounted_micros hr hn h1
  | failed s1 s2 e h1 h2 h3 _ =>
    refine ((rootCounted_micros hr hn h1).trans ?_).trans (rootCounted_frame h3)
    cases h2 with
    | firstStep _ _ h0 _ _ _ => have := micros_nst_pos h1 hn; omega
    | step _ _ _ hs => exact rootCounted_step hr hs

theorem rCheck1_log (cfg : Cfg ν n q K) (s : State ν n q K) :
    (rCheck1 cfg s).r.nge + rootCalls s.m = rootCalls (rCheck1 cfg s).m := by
  have h : ∃ l : List (UCall n K), (rCheck1 cfg s).m.log = l ++ s.m.log ∧ l.countP UCall.isRoot = (rCheck1 cfg s).r.nge := by
    unfold rCheck1 callRoot
    simp only
    split
    · exact ⟨[_, _], rfl, rfl⟩
    · exact ⟨[_], rfl, rfl⟩
  obtain ⟨l, h1, h2⟩ := h
  unfold rootCalls
  rw [h1, List.countP_append, h2]

/-- The first-call block, if no root-function call has been counted so far. -/
theorem rootCounted_firstCall {cfg : Cfg ν n q K} {s s' : State ν n q K} {tout : K} {r : Except Err Unit}
    (h0 : s.r.nge = 0) (h : firstCall cfg s tout = .ret s' r) : RootCounted s s' := by
  have hi : (initialSetup cfg s).m = s.m ∧ (initialSetup cfg s).r = s.r := by
    unfold initialSetup; split <;> exact ⟨rfl, rfl⟩
  have hq : ∀ s : State ν n q K, s.r.nge = 0 → RootCounted s (firstReady cfg s) := by
    intro s h0
    unfold firstReady
    by_cases hq : q > 0
    · simp only [if_pos hq]
      have := rCheck1_log cfg { s with h0u := s.c.hh, c.kk := 0, c.kused := 0 }
      show (rCheck1 cfg _).r.nge + rootCalls s.m = s.r.nge + rootCalls (rCheck1 cfg _).m
      rw [h0, Nat.zero_add]
      exact this
    · simp only [if_neg hq]
      exact .of_eq rfl rfl
  rcases firstCall_cases h with ⟨-, rfl, -⟩ | ⟨-, rfl, -⟩ | ⟨hh, -, -, -, ⟨-, rfl, -⟩ | ⟨s1, h1, rfl, -⟩⟩
  · exact .of_eq (by rw [hi.1]) (by rw [hi.2])
  · exact .of_eq (by rw [← hi.1]) (by rw [← hi.2])
  · exact .of_eq (by rw [← hi.1]) (by rw [← hi.2])
  · have h2 : s1.m = s.m ∧ s1.r = s.r := by
      unfold firstStop at h1
      split at h1
      · split at h1
        · cases h1
        · cases h1
          exact ⟨(clampToStop_m _ _).1.trans hi.1, (clampToStop_m _ _).2.trans hi.2⟩
      · cases h1; exact hi
    exact (RootCounted.of_eq (s := s) (s' := s1) (by rw [h2.1]) (by rw [h2.2])).trans (hq s1 (by rw [h2.2]; exact h0))

/-- **Root-function calls are counted exactly** by every call that starts when a step has been accepted or when no root
function call has been made yet. -/
theorem exec_rootCounted {cfg : Cfg ν n q K} (hr : NlsNoRoot cfg) {rf sf : Nat} {s s' : State ν n q K} {op : Op K}
    {r : Res n K} (hs : 0 < s.cnt.nst ∨ s.r.nge = 0) (h : exec cfg rf sf s op = some (s', r)) : RootCounted s s' := by
  by_cases hn : 0 < s.cnt.nst
  · rcases exec_ends h with ⟨r', -, hend⟩ | ⟨-, hm⟩
    · exact rootCounted_ends hr hn hend
    · exact rootCounted_micros hr hn hm
  · have h0 : s.r.nge = 0 := hs.resolve_left hn
    have hn : s.cnt.nst = 0 := by omega
    cases op with
    | solve tout tret task =>
      unfold exec at h
      simp only at h
      split at h
      · rename_i h1
        cases h
        obtain ⟨s0, hf, hm, hfe⟩ := solve_first (s := { s with tret := tret }) hn h1
        have hs0 : RootCounted s s0 := (RootCounted.of_eq (s := s) (s' := { s with tret := tret }) rfl rfl).trans
          (rootCounted_frame hf)
        have h00 : s0.r.nge = 0 := by
          unfold RootCounted at hs0; rw [hm] at hs0; simp only at hs0; omega
        refine hs0.trans ?_
        cases hfe with
        | rejected e h1 _ => exact rootCounted_firstCall h00 h1
        | noStep s1 e h1 h2 _ _ _ =>
          exact ((rootCounted_firstCall h00 h1).trans (.of_eq (s' := perfReset s1) rfl rfl)).trans (rootCounted_frame h2)
        | failed s1 s2 s3 e h1 h2 h3 h4 _ =>
          exact (((rootCounted_firstCall h00 h1).trans (.of_eq (s' := perfReset s1) rfl rfl)).trans
            (rootCounted_frame h2)).trans ((rootCounted_step hr h3).trans (rootCounted_frame h4))
        | stepped s1 s2 s3 h1 h2 h3 h4 =>
          exact (((rootCounted_firstCall h00 h1).trans (.of_eq (s' := perfReset s1) rfl rfl)).trans
            (rootCounted_frame h2)).trans ((rootCounted_step hr h3).trans (rootCounted_ends hr (step_nst h3) h4))
      · cases h
    | getSolution t =>
      unfold exec at h
      simp only at h
      split at h
      · rename_i h1
        cases h
        exact rootCounted_frame (getSolution_frame h1).1
      · cases h
    | getDky t k =>
      unfold exec at h
      simp only at h
      split at h
      · rename_i h1
        cases h
        have : s' = s := by
          unfold getDky at h1
          split at h1
          · cases h1; rfl
          · split at h1
            · cases h1; rfl
            · split at h1
              · cases h1; rfl
              · cases h1
        rw [this]
        exact .of_eq rfl rfl
      · cases h

/-! ## Callbacks and the log -/

def UCall.isRes : UCall n K → Bool
  | .res _ _ _ => true
  | _ => false

def UCall.isJac : UCall n K → Bool
  | .jac _ _ _ _ _ => true
  | _ => false

/-- The log and the counters after a sequence of callback invocations. -/
structure CallsLog (e : Env n K) (m m' : Mem n K) (l : List (UCall n K)) : Prop where
  log : m'.log = l ++ m.log
  res : ∀ t yy yp, UCall.res t yy yp ∈ l → t = e.tn ∧ ∃ c : Vec n K, yy = vadd e.yypredict c ∧
    yp = scaledAdd e.yppredict e.cj c
  jac : ∀ t cj yy yp rr, UCall.jac t cj yy yp rr ∈ l → t = 0 ∧ cj = e.cj
  root : ∀ x ∈ l, x.isRoot = false
  nre : m'.nre = m.nre + l.countP UCall.isRes
  nje : m'.nje = m.nje + l.countP UCall.isJac

theorem CallsLog.silent {e : Env n K} {m m1 m' : Mem n K} {l : List (UCall n K)} (h : CallsLog e m m1 l)
    (h1 : m'.log = m1.log) (h2 : m'.nre = m1.nre) (h3 : m'.nje = m1.nje) : CallsLog e m m' l :=
  ⟨h1.trans h.log, h.res, h.jac, h.root, h2.trans h.nre, h3.trans h.nje⟩

theorem lsSetup_log {P : Problem n q K} {e : Env n K} {m m' : Mem n K} {yy yp r : Vec n K}
    (h : lsSetup P e m yy yp r = some m') :
    m'.nre = m.nre ∧ m'.nsetups = m.nsetups ∧ m'.yy = m.yy ∧ m'.yp = m.yp ∧
    ((n = 0 ∧ m'.log = m.log ∧ m'.nje = m.nje) ∨
     (n ≠ 0 ∧ m'.log = .jac 0 e.cj yy yp r :: m.log ∧ m'.nje = m.nje + 1)) := by
  unfold lsSetup at h
  simp only at h
  by_cases hn : n = 0
  · simp only [if_pos hn] at h
    split at h
    · cases h; exact ⟨rfl, rfl, rfl, rfl, Or.inl ⟨hn, rfl, rfl⟩⟩
    · cases h
    · cases h
  · simp only [if_neg hn] at h
    split at h
    · cases h; exact ⟨rfl, rfl, rfl, rfl, Or.inr ⟨hn, rfl, rfl⟩⟩
    · cases h
    · cases h

theorem calls_log {P : Problem n q K} {e : Env n K} {m m' : Mem n K} {t : List (Event (Vec n K))}
    (h : Calls (idaNLProblem P e) m t m') : ∃ l, CallsLog e m m' l := by
  induction h with
  | nil => exact ⟨[], rfl, by simp, by simp, by simp, by simp, by simp⟩
  | @sys l1 m1 y b _ ih =>
    obtain ⟨l, h⟩ := ih
    refine ⟨.res e.tn (vadd e.yypredict y) (scaledAdd e.yppredict e.cj y) :: l, ?_, ?_, ?_, ?_, ?_, ?_⟩
    · show _ :: m1.log = _; rw [h.log]; rfl
    · intro t yy yp hx
      rcases List.mem_cons.1 hx with hx | hx
      · cases hx; exact ⟨rfl, y, rfl, rfl⟩
      · exact h.res t yy yp hx
    · intro t cj yy yp rr hx
      rcases List.mem_cons.1 hx with hx | hx
      · cases hx
      · exact h.jac t cj yy yp rr hx
    · intro x hx
      rcases List.mem_cons.1 hx with hx | hx
      · rw [hx]; rfl
      · exact h.root x hx
    · show m1.nre + 1 = _; rw [h.nre, List.countP_cons]; simp [UCall.isRes]; omega
    · show m1.nje = _; rw [h.nje, List.countP_cons]; simp [UCall.isJac]
  | @setup l1 m1 y f j _ ih =>
    obtain ⟨l, h⟩ := ih
    show ∃ l, CallsLog e m (match idaSetup P e m1 f with
      | none => ((m1, Cb.panic) : Mem n K × Cb Bool)
      | some m => (m, .ok true)).1 l
    unfold idaSetup
    cases hs : lsSetup P e { m1 with nsetups := m1.nsetups + 1 } m1.yy m1.yp f with
    | none => exact ⟨l, h⟩
    | some m2 =>
      simp only
      obtain ⟨h1, -, -, -, h2⟩ := lsSetup_log hs
      rcases h2 with ⟨-, h2, h3⟩ | ⟨-, h2, h3⟩
      · exact ⟨l, h.silent h2 h1 h3⟩
      · refine ⟨.jac 0 e.cj m1.yy m1.yp f :: l, ?_, ?_, ?_, ?_, ?_, ?_⟩
        · show m2.log = _
          rw [h2]; show _ :: m1.log = _; rw [h.log]; rfl
        · intro t yy yp hx
          rcases List.mem_cons.1 hx with hx | hx
          · cases hx
          · exact h.res t yy yp hx
        · intro t cj yy yp rr hx
          rcases List.mem_cons.1 hx with hx | hx
          · cases hx; exact ⟨rfl, rfl⟩
          · exact h.jac t cj yy yp rr hx
        · intro x hx
          rcases List.mem_cons.1 hx with hx | hx
          · rw [hx]; rfl
          · exact h.root x hx
        · show m2.nre = _; rw [h1]; show m1.nre = _; rw [h.nre, List.countP_cons]; simp [UCall.isRes]
        · show m2.nje = _; rw [h3]; show m1.nje + 1 = _; rw [h.nje, List.countP_cons]; simp [UCall.isJac]; omega
  | @solve l1 m1 y b _ ih =>
    obtain ⟨l, h⟩ := ih
    show ∃ l, CallsLog e m (match lsSolve m1 b with
      | none => ((m1, b, Cb.panic) : Mem n K × Vec n K × Cb Unit)
      | some (m, b) => (m, b, .ok ())).1 l
    unfold lsSolve
    split
    · exact ⟨l, h⟩
    · rename_i hs
      split at hs
      · cases hs
      · cases hs; exact ⟨l, h.silent rfl rfl rfl⟩
  | @ctest l1 m1 vw y d tol w _ ih =>
    obtain ⟨l, h⟩ := ih
    refine ⟨l, ?_⟩
    show CallsLog e m (idaCtest e m1 vw d tol w).1 l
    unfold idaCtest
    simp only
    split
    · split <;> exact h.silent rfl rfl rfl
    · split
      · exact h
      · exact h.silent rfl rfl rfl

theorem nlsUses_noRoot {cfg : Cfg ν n q K} (h : NlsUses cfg) : NlsNoRoot cfg := by
  intro N e m y0 y w tol call N' m' ee r hs
  obtain ⟨t, ht⟩ := h _ _ _ _ _ _ _ _ _ _ _ _ hs
  obtain ⟨l, hl⟩ := calls_log ht
  unfold rootCalls
  rw [hl.log, List.countP_append, List.countP_eq_zero.2 (fun x hx => by rw [hl.root x hx]; simp), Nat.zero_add]

end

end Verif
