import Verif.Proofs.Frame
import Verif.Spec.Reach
import Mathlib.Logic.Relation

/-!
# `solve` as a sequence of small transitions (any scalar type)

Every call of `solve` is a sequence of `Micro` transitions, possibly followed by one failed step.
-/

set_option autoImplicit false
set_option linter.unusedSectionVars false
set_option linter.unusedSimpArgs false
set_option linter.unusedVariables false

namespace Verif

open Relation

universe u v

section
variable {ν : Type v} {n q : Nat} {K : Type u} [Scalar K]

/-- The next step respects the stop time: either it does not pass it, or it was just clamped. -/
def StopReady (s : State ν n q K) : Prop :=
  ∀ ts, s.tstop = some ts →
    Scalar.gt ((s.e.tn + s.c.hh - ts) * s.c.hh) 0 = false ∨ s.c.hh = (ts - s.e.tn) * (1 - Scalar.four * Scalar.eps)

/-- "The internal time is within roundoff of the stop time." -/
def nearStop (s : State ν n q K) (ts : K) : Bool := Scalar.le (Scalar.abs (s.e.tn - ts)) (stopRoundoff s)

/-- The weights are those of the last accepted solution and positive, and the accuracy test has been passed. -/
structure Weighed (cfg : Cfg ν n q K) (s : State ν n q K) : Prop where
  ewt : ∃ w, s.e.ewt = cfg.ewtSet (s.h.phi 0) w
  pos : ∀ i, Scalar.le (s.e.ewt i) 0 = false
  acc : Scalar.gt (Scalar.eps * wrmsNorm cfg.id (s.h.phi 0) s.e.ewt cfg.suppressalg) 1 = false

/-- Small transitions of a call without step failure. -/
inductive Micro (cfg : Cfg ν n q K) : State ν n q K → State ν n q K → Prop
  | frame {s s' : State ν n q K} : Frame s s' → Micro cfg s s'
  | perf (s : State ν n q K) : Micro cfg s (perfReset s)
  | clear (s : State ν n q K) : Micro cfg s { s with tstop := none }
  | clamp {s : State ν n q K} (ts : K) : 0 < s.cnt.nst → s.tstop = some ts → nearStop s ts = false →
      Micro cfg s (clampToStop s ts)
  | ewt (s : State ν n q K) : 0 < s.cnt.nst → Micro cfg s { s with e.ewt := cfg.ewtSet (s.h.phi 0) s.e.ewt }
  | first {s s' : State ν n q K} (tout : K) (r : Except Err Unit) : s.cnt.nst = 0 →
      firstCall cfg s tout = .ret s' r → Micro cfg s s'
  | firstStep {s s1 s2 s' : State ν n q K} (tout : K) : s.cnt.nst = 0 → firstCall cfg s tout = .ret s1 (.ok ()) →
      Frame (perfReset s1) s2 → step cfg s2 = .ret s' (.ok ()) → Micro cfg s s'
  | step {s s' : State ν n q K} : 0 < s.cnt.nst → StopReady s → step cfg s = .ret s' (.ok ()) → Weighed cfg s → Micro cfg s s'

/-- A failed internal step. -/
inductive MicroFail (cfg : Cfg ν n q K) : State ν n q K → Err → State ν n q K → Prop
  | firstStep {s s1 s2 s' : State ν n q K} (tout : K) (e : Err) : s.cnt.nst = 0 →
      firstCall cfg s tout = .ret s1 (.ok ()) → Frame (perfReset s1) s2 → Verif.step cfg s2 = .ret s' (.error e) →
      MicroFail cfg s e s'
  | step {s s' : State ν n q K} (e : Err) : 0 < s.cnt.nst → StopReady s → Verif.step cfg s = .ret s' (.error e) →
      Weighed cfg s → MicroFail cfg s e s'

abbrev Micros (cfg : Cfg ν n q K) := ReflTransGen (Micro cfg)

theorem Micros.frame {cfg : Cfg ν n q K} {s s' : State ν n q K} (h : Frame s s') : Micros cfg s s' :=
  ReflTransGen.single (.frame h)

theorem stopReady_frame {s s' : State ν n q K} (h : Frame s s') (hs : StopReady s) : StopReady s' := by
  unfold StopReady at *
  rw [h.tstop, h.e, h.c]; exact hs

theorem clampToStop_ready (s : State ν n q K) (ts : K) (h : s.tstop = some ts) : StopReady (clampToStop s ts) := by
  unfold StopReady clampToStop
  intro ts' h'
  split at h' <;> (rw [h] at h'; cases h')
  · rename_i hc
    rw [if_pos hc]; exact Or.inr rfl
  · rename_i hc
    rw [if_neg hc]; exact Or.inl (by simpa using hc)

/-- Outcome of a section that ends the call with something other than a failed step. -/
def Benign {α : Type v} (r : Except Err α) : Prop := ∀ e, r = .error e → e.isStepFailure = false

theorem benign_ok {α : Type v} (a : α) : Benign (Except.ok a : Except Err α) := fun e he => by cases he
theorem benign_err {α : Type v} {e : Err} (h : e.isStepFailure = false) : Benign (.error e : Except Err α) := by
  intro e' he; cases he; exact h

theorem setTret_frame (s : State ν n q K) (t : K) : Frame s (s.setTret t) := by frame_rfl

theorem stopTest1_micro {cfg : Cfg ν n q K} {s s' : State ν n q K} {tout : K} {task : Task} {r : Except Err Status}
    (hn : 0 < s.cnt.nst) (h : stopTest1 s tout task = .ret s' r) :
    Micros cfg s s' ∧ Benign r ∧ (r = .ok .continueSteps → StopReady s') := by
  unfold stopTest1 at h
  split at h
  · cases h
    refine ⟨.refl, ?_, by simp⟩
    intro e he; cases he; rfl
  · split at h
    · -- normal
      split at h
      · cases h
        exact ⟨.frame (setTret_frame _ _), benign_ok _, by simp⟩
      · split at h
        · rcases Out.bind_eq_ret h with ⟨s1, a, h1, h2⟩ | ⟨e, h1, h2⟩
          · cases h2
            exact ⟨.frame ((getSolution_frame h1).1.trans (setTret_frame _ _)), benign_ok _, by simp⟩
          · subst h2
            refine ⟨.frame (getSolution_frame h1).1, ?_, by simp⟩
            intro e' he
            cases he
            rw [getSolution_eq] at h1
            split at h1
            · cases h1; rfl
            · split at h1 <;> cases h1
        · split at h
          · rename_i ts hts
            split at h
            · split at h
              · rename_i h1
                cases h
                refine ⟨?_, benign_ok _, by simp⟩
                refine ReflTransGen.tail (Micros.frame ((getSolution_frame h1).1.trans (setTret_frame _ ts))) ?_
                exact .clear _
              · rename_i h1
                cases h
                refine ⟨.frame (getSolution_frame h1).1, benign_err rfl, by simp⟩
              · cases h
              · cases h
            · rename_i hne
              cases h
              refine ⟨.single (.clamp ts hn hts (by simpa [nearStop] using hne)), benign_ok _, ?_⟩
              intro _; exact clampToStop_ready s ts hts
          · rename_i hts
            cases h
            refine ⟨.refl, benign_ok _, ?_⟩
            intro _ ts hts'; rw [hts] at hts'; cases hts'
    · -- oneStep
      split at h
      · split at h
        · cases h
        · rename_i s1 h1
          cases h
          exact ⟨.frame ((getSolution'_frame h1).1.trans (setTret_frame _ _)), benign_ok _, by simp⟩
      · split at h
        · rename_i ts hts
          split at h
          · rcases Out.bind_eq_ret h with ⟨s1, a, h1, h2⟩ | ⟨e, h1, h2⟩
            · cases h2
              exact ⟨.frame ((getSolution_frame h1).1.trans (setTret_frame _ _)), benign_ok _, by simp⟩
            · subst h2
              refine ⟨.frame (getSolution_frame h1).1, ?_, by simp⟩
              intro e' he
              cases he
              rw [getSolution_eq] at h1
              split at h1
              · cases h1; rfl
              · split at h1 <;> cases h1
          · rename_i hne
            cases h
            refine ⟨.single (.clamp ts hn hts (by simpa [nearStop] using hne)), benign_ok _, ?_⟩
            intro _; exact clampToStop_ready s ts hts
        · rename_i hts
          cases h
          refine ⟨.refl, benign_ok _, ?_⟩
          intro _ ts hts'; rw [hts] at hts'; cases hts'

theorem stopTest2_micro {cfg : Cfg ν n q K} {s s' : State ν n q K} {tout : K} {task : Task} {r : Except Err Status}
    (hn : 0 < s.cnt.nst) (h : stopTest2 s tout task = .ret s' r) :
    Micros cfg s s' ∧ Benign r ∧ (r = .ok .continueSteps → StopReady s') := by
  unfold stopTest2 at h
  split at h
  · -- normal
    split at h
    · split at h
      · cases h
      · rename_i s1 h1
        cases h
        exact ⟨.frame ((setTret_frame _ _).trans (getSolution'_frame h1).1), benign_ok _, by simp⟩
    · split at h
      · rename_i ts hts
        split at h
        · split at h
          · cases h
          · rename_i s1 h1
            cases h
            refine ⟨?_, benign_ok _, by simp⟩
            refine ReflTransGen.tail (Micros.frame ((getSolution'_frame h1).1.trans (setTret_frame _ ts))) ?_
            exact .clear _
        · rename_i hne
          cases h
          refine ⟨.single (.clamp ts hn hts (by simpa [nearStop] using hne)), benign_ok _, ?_⟩
          intro _; exact clampToStop_ready s ts hts
      · rename_i hts
        cases h
        refine ⟨.refl, benign_ok _, ?_⟩
        intro _ ts hts'; rw [hts] at hts'; cases hts'
  · split at h
    · rename_i ts hts
      split at h
      · split at h
        · cases h
        · rename_i s1 h1
          cases h
          refine ⟨?_, benign_ok _, by simp⟩
          refine ReflTransGen.tail (Micros.frame ((getSolution'_frame h1).1.trans (setTret_frame _ ts))) ?_
          exact .clear _
      · rename_i hne
        cases h
        refine ⟨?_, benign_ok _, by simp⟩
        exact ReflTransGen.tail (.single (.clamp ts hn hts (by simpa [nearStop] using hne))) (.frame (setTret_frame _ _))
    · cases h
      exact ⟨.frame (setTret_frame _ _), benign_ok _, by simp⟩

theorem perfCheck_frame {s s' : State ν n q K} (h : perfCheck s = some s') : Frame s s' := by
  unfold perfCheck at h
  simp only at h
  split at h
  · cases h
  · split at h
    · cases h; exact Frame.refl _
    · split at h
      · cases h
      · split at h
        · cases h; frame_rfl
        · cases h; exact Frame.refl _

theorem foldl_or {m : Nat} (f : Fin m → Bool) :
    Fin.foldl m (fun b i => b || f i) false = true ↔ ∃ i, f i = true := by
  have key : ∀ (m : Nat) (f : Fin m → Bool) (b : Bool),
      Fin.foldl m (fun b i => b || f i) b = true ↔ b = true ∨ ∃ i, f i = true := by
    intro m
    induction m with
    | zero => intro f b; simp
    | succ m ih =>
      intro f b
      rw [Fin.foldl_succ, ih]
      simp only [Bool.or_eq_true]
      constructor
      · rintro ((h | h) | ⟨i, h⟩)
        · exact Or.inl h
        · exact Or.inr ⟨0, h⟩
        · exact Or.inr ⟨i.succ, h⟩
      · rintro (h | ⟨i, h⟩)
        · exact Or.inl (Or.inl h)
        · refine Fin.cases (fun h => Or.inl (Or.inr h)) (fun i h => Or.inr ⟨i, h⟩) i h
  rw [key]; simp

/-- The tests at the top of the step loop. -/
theorem preStep_micro {cfg : Cfg ν n q K} {s : State ν n q K} {nstloc : Nat} :
    (∀ s', preStep cfg s nstloc = .go s' → Micros cfg s s' ∧ s'.cnt = s.cnt ∧ (StopReady s → StopReady s') ∧
      (s.cnt.nst = 0 → Frame s s') ∧ (0 < s.cnt.nst → Weighed cfg s')) ∧
    (∀ s' r, preStep cfg s nstloc = .ret s' r → Micros cfg s s' ∧ (s.cnt.nst = 0 → Frame s s') ∧ Benign r ∧
      ∃ e, r = .error e) := by
  unfold preStep
  split
  · refine ⟨by simp, ?_⟩
    intro s' r h
    cases h
    refine ⟨.frame (setTret_frame _ _), fun _ => setTret_frame _ _, ?_, _, rfl⟩
    intro e he; cases he; rfl
  · split
    · simp
    · rename_i s1 h1
      have hf := perfCheck_frame h1
      by_cases hn : s1.cnt.nst > 0
      · have hn0 : s.cnt.nst ≠ 0 := by rw [← hf.cnt]; omega
        have hm : Micros cfg s { s1 with e.ewt := cfg.ewtSet (s1.h.phi 0) s1.e.ewt } :=
          ReflTransGen.tail (Micros.frame hf) (.ewt s1 hn)
        have hr : StopReady s → StopReady { s1 with e.ewt := cfg.ewtSet (s1.h.phi 0) s1.e.ewt } := fun h =>
          (show StopReady s1 from stopReady_frame hf h)
        simp only [if_pos hn]
        have hc2 : s1.cnt = s.cnt := hf.cnt
        split
        · split
          · simp
          · rename_i s3 h3
            refine ⟨by simp, ?_⟩
            intro s' r h
            cases h
            refine ⟨hm.tail (.frame ((getSolution'_frame h3).1.trans (setTret_frame _ _))), fun h => absurd h hn0, ?_, _, rfl⟩
            intro e he; cases he; rfl
        · rename_i hbad
          split
          · split
            · simp
            · rename_i s3 h3
              refine ⟨by simp, ?_⟩
              intro s' r h
              cases h
              refine ⟨hm.tail (.frame ?_), fun h => absurd h hn0, ?_, _, rfl⟩
              · split at h3
                · exact Frame.trans (by frame_rfl) (getSolution'_frame h3).1
                · cases h3; frame_rfl
              · intro e he; cases he; rfl
          · rename_i hacc
            refine ⟨?_, by simp⟩
            intro s' h
            cases h
            refine ⟨hm.tail (.frame (by frame_rfl)), hc2, hr, fun h => absurd h hn0, fun _ => ⟨⟨_, rfl⟩, ?_, by simpa using hacc⟩⟩
            intro i
            by_contra hc
            exact hbad (by
              simp only [decide_eq_true hn, Bool.true_and]
              exact (foldl_or _).2 ⟨i, by simpa using hc⟩)
      · simp only [if_neg hn, decide_eq_false hn, Bool.false_and, Bool.false_eq_true, if_false]
        split
        · split
          · simp
          rename_i s3 h3
          split at h3
          · rename_i hx; exact absurd hx hn
          cases h3
          refine ⟨by simp, ?_⟩
          intro s' r h
          cases h
          have : Frame s (State.setTret { s1 with tolsf := Scalar.eps * wrmsNorm cfg.id (s1.h.phi 0) s1.e.ewt cfg.suppressalg * Scalar.ten } s1.e.tn) :=
            hf.trans (by frame_rfl)
          refine ⟨.frame this, fun _ => this, ?_, _, rfl⟩
          intro e he; cases he; rfl
        · refine ⟨?_, by simp⟩
          intro s' h
          cases h
          have : Frame s { s1 with tolsf := Scalar.eps * wrmsNorm cfg.id (s1.h.phi 0) s1.e.ewt cfg.suppressalg } :=
            hf.trans (by frame_rfl)
          exact ⟨.frame this, hf.cnt, fun h => stopReady_frame this h, fun _ => this, fun h => by rw [hf.cnt] at hn; omega⟩

/-- What a section of `solve` after the first-call block may do. -/
structure FlowOk (cfg : Cfg ν n q K) (s : State ν n q K) (f : Flow (State ν n q K)) : Prop where
  go : ∀ s', f = .go s' → Micros cfg s s' ∧ StopReady s'
  ret : ∀ s' r, f = .ret s' r → Micros cfg s s' ∧ Benign r

theorem ofStop_ok {cfg : Cfg ν n q K} {s : State ν n q K} {o : Out (State ν n q K) Status}
    (h : ∀ s' r, o = .ret s' r → Micros cfg s s' ∧ Benign r ∧ (r = .ok .continueSteps → StopReady s')) :
    FlowOk cfg s (Flow.ofStop o) := by
  constructor
  · intro s' h'
    unfold Flow.ofStop at h'
    split at h' <;> cases h'
    have := h _ _ rfl
    exact ⟨this.1, this.2.2 rfl⟩
  · intro s' r h'
    unfold Flow.ofStop at h'
    split at h' <;> cases h'
    have := h _ _ rfl
    exact ⟨this.1, this.2.1⟩

theorem FlowOk.of_frame {cfg : Cfg ν n q K} {s s1 : State ν n q K} {f : Flow (State ν n q K)} (hf : Frame s s1)
    (h : FlowOk cfg s1 f) : FlowOk cfg s f :=
  ⟨fun s' e => ⟨(ReflTransGen.single (.frame hf)).trans (h.go s' e).1, (h.go s' e).2⟩,
   fun s' r e => ⟨(ReflTransGen.single (.frame hf)).trans (h.ret s' r e).1, (h.ret s' r e).2⟩⟩

theorem rCheck2_error {cfg : Cfg ν n q K} {s s' : State ν n q K} {e : Err}
    (h : rCheck2 cfg s = .ret s' (.error e)) : e = .ida .closeRoots := by
  unfold rCheck2 callRoot at h
  split at h
  · cases h
  · split at h
    · cases h
    · simp only at h
      split at h
      · split at h
        · cases h
        · split at h
          · cases h; rfl
          · split at h <;> cases h
      · cases h

theorem rootLoop_ok {cfg : Cfg ν n q K} (fuel : Nat) {s s' : State ν n q K} {l : RfLoc K} {e : Err} :
    rootLoop cfg fuel s l ≠ .ret s' (.error e) := by
  induction fuel generalizing s l with
  | zero => intro h; cases h
  | succ fuel ih =>
    intro h
    unfold rootLoop at h
    split at h
    · cases h
    · split at h
      · cases h
      · cases h
      · exact ih h

theorem rootFind_ok {cfg : Cfg ν n q K} {fuel : Nat} {s s' : State ν n q K} {e : Err} :
    rootFind cfg fuel s ≠ .ret s' (.error e) := by
  intro h
  unfold rootFind at h
  simp only at h
  split at h
  · split at h <;> cases h
  · rcases Out.bind_eq_ret h with ⟨s1, a, h1, h2⟩ | ⟨e, h1, h2⟩
    · cases h2
    · exact rootLoop_ok _ h1

theorem rCheck3_ok {cfg : Cfg ν n q K} {fuel : Nat} {s s' : State ν n q K} {e : Err} :
    rCheck3 cfg fuel s ≠ .ret s' (.error e) := by
  intro h
  unfold rCheck3 callRoot at h
  simp only at h
  split at h
  · cases h
  · rcases Out.bind_eq_ret h with ⟨s1, a, h1, h2⟩ | ⟨e, h1, h2⟩
    · split at h2
      · split at h2 <;> cases h2
      · cases h2
    · exact rootFind_ok h1

theorem rootChecks_frame {cfg : Cfg ν n q K} {rf : Nat} {s : State ν n q K} {task : Task} :
    (∀ s', rootChecks cfg rf s task = .go s' → Frame s s') ∧
    (∀ s' r, rootChecks cfg rf s task = .ret s' r → Frame s s' ∧ Benign r) := by
  unfold rootChecks
  simp only
  split
  · simp
  · simp
  · rename_i s1 e h1
    refine ⟨by simp, ?_⟩
    intro s' r h
    cases h
    refine ⟨rCheck2_frame h1, ?_⟩
    intro e he; cases he; rw [rCheck2_error h1]; rfl
  · rename_i s1 h1
    refine ⟨by simp, ?_⟩
    intro s' r h
    cases h
    exact ⟨(rCheck2_frame h1).trans (setTret_frame _ _), benign_ok _⟩
  · rename_i s1 h1
    have hf := rCheck2_frame h1
    split
    · split
      · simp
      · simp
      · rename_i h2
        exact absurd h2 rCheck3_ok
      · rename_i s2 h2
        have hf2 := hf.trans (rCheck3_frame h2)
        split
        · split
          · simp
          · rename_i s3 h3
            refine ⟨by simp, ?_⟩
            intro s' r h
            cases h
            refine ⟨hf2.trans (Frame.trans ?_ (getSolution'_frame h3).1), benign_ok _⟩
            frame_rfl
        · refine ⟨?_, by simp⟩
          intro s' h
          cases h
          exact hf2.trans (by frame_rfl)
      · rename_i s2 h2
        refine ⟨by simp, ?_⟩
        intro s' r h
        cases h
        refine ⟨(hf.trans (rCheck3_frame h2)).trans ?_, benign_ok _⟩
        frame_rfl
    · refine ⟨?_, by simp⟩
      intro s' h
      cases h
      exact hf

theorem laterCall_ok {cfg : Cfg ν n q K} {rf : Nat} {s : State ν n q K} {tout : K} {task : Task}
    (hn : 0 < s.cnt.nst) : FlowOk cfg s (laterCall cfg rf s tout task) := by
  unfold laterCall
  have key : ∀ f : Flow (State ν n q K), (∀ s', f = .go s' → Frame s s') →
      (∀ s' r, f = .ret s' r → Frame s s' ∧ Benign r) →
      FlowOk cfg s (match f with
        | .go s => Flow.ofStop (stopTest1 s tout task)
        | r => r) := by
    intro f hgo hret
    cases f with
    | go s1 =>
      have hf := hgo s1 rfl
      refine FlowOk.of_frame hf (ofStop_ok fun s' r h => stopTest1_micro (by rw [hf.cnt]; exact hn) h)
    | ret s1 r1 =>
      refine ⟨by simp, ?_⟩
      intro s' r h
      cases h
      exact ⟨.frame (hret _ _ rfl).1, (hret _ _ rfl).2⟩
    | panic => exact ⟨by simp, by simp⟩
    | diverge => exact ⟨by simp, by simp⟩
  refine key _ ?_ ?_
  · intro s' h
    split at h
    · exact rootChecks_frame.1 s' h
    · cases h; exact Frame.refl _
  · intro s' r h
    split at h
    · exact rootChecks_frame.2 s' r h
    · cases h

theorem postStep_ok {cfg : Cfg ν n q K} {rf : Nat} {s : State ν n q K} {tout : K} {task : Task}
    (hn : 0 < s.cnt.nst) : FlowOk cfg s (postStep cfg rf s tout task) := by
  unfold postStep
  split
  · split
    · exact ⟨by simp, by simp⟩
    · exact ⟨by simp, by simp⟩
    · rename_i h
      exact absurd h rCheck3_ok
    · rename_i s1 h1
      refine ⟨by simp, ?_⟩
      intro s' r h
      cases h
      refine ⟨.frame ((rCheck3_frame h1).trans ?_), benign_ok _⟩
      frame_rfl
    · rename_i s1 h1
      have hf := rCheck3_frame h1
      exact FlowOk.of_frame hf (ofStop_ok fun s' r h => stopTest2_micro (by rw [hf.cnt]; exact hn) h)
  · exact ofStop_ok fun s' r h => stopTest2_micro hn h

/-- Result of the part of a call after the first-call block. -/
inductive Ends (cfg : Cfg ν n q K) (s s' : State ν n q K) {α : Type} (r : Except Err α) : Prop
  /-- no step failed -/
  | clean : Micros cfg s s' → Benign r → Ends cfg s s' r
  /-- the last step failed, and that is the error returned -/
  | failed (s1 s2 : State ν n q K) (e : Err) : Micros cfg s s1 → MicroFail cfg s1 e s2 → Frame s2 s' →
      r = .error e → Ends cfg s s' r

theorem Ends.prepend {cfg : Cfg ν n q K} {s0 s s' : State ν n q K} {α : Type} {r : Except Err α}
    (h0 : Micros cfg s0 s) (h : Ends cfg s s' r) : Ends cfg s0 s' r := by
  cases h with
  | clean hm hb => exact .clean (h0.trans hm) hb
  | failed s1 s2 e hm hf hfr hr => exact .failed s1 s2 e (h0.trans hm) hf hfr hr

theorem stepFailed_frame {s s' : State ν n q K} {e : Err} {r : Except Err Status}
    (h : stepFailed s e = .ret s' r) : Frame s s' ∧ r = .error e := by
  unfold stepFailed at h
  split at h
  · rename_i h1
    cases h; exact ⟨(getSolution_frame h1).1.trans (setTret_frame _ _), rfl⟩
  · rename_i h1
    cases h; exact ⟨(getSolution_frame h1).1, rfl⟩
  · cases h
  · cases h

theorem stepFailed_go {s s' : State ν n q K} {e : Err} : stepFailed s e ≠ .go s' := by
  intro h
  unfold stepFailed at h
  split at h <;> cases h

theorem chooseNext_nst {cfg : Cfg ν n q K} {s s' : State ν n q K} {k : Bool} {a b : K}
    (h : chooseNext cfg s k a b = some s') : s'.cnt = s.cnt := by
  unfold chooseNext at h
  split at h
  · split at h <;> (cases h; rfl)
  · split at h
    · cases h
    · cases h; rfl

theorem markPhase_cnt {cfg : Cfg ν n q K} {s : State ν n q K} : (markPhase cfg s).cnt = s.cnt := by
  unfold markPhase; split <;> rfl

theorem completeStep_nst {cfg : Cfg ν n q K} {s s' : State ν n q K} {a b : K} (h : completeStep cfg s a b = some s') :
    s'.cnt.nst = s.cnt.nst + 1 := by
  unfold completeStep at h
  simp only at h
  split at h
  · cases h
  · split at h
    · cases h
    · rename_i s1 h1
      split at h
      · cases h
        show s1.cnt.nst = _
        rw [chooseNext_nst h1, markPhase_cnt]
      · cases h

theorem stepLoop_nst {cfg : Cfg ν n q K} {t0 : K} (fuel : Nat) {s s' : State ν n q K} {f : Fails}
    (h : stepLoop cfg t0 fuel s f = .ret s' (.ok ())) : 0 < s'.cnt.nst := by
  induction fuel generalizing s f with
  | zero => cases h
  | succ fuel ih =>
    unfold stepLoop at h
    split at h
    · cases h
    · cases h
    · cases h
    · exact ih h
    · split at h
      · cases h
      · rename_i h1
        cases h
        have := completeStep_nst h1
        simp only; omega

theorem step_nst {cfg : Cfg ν n q K} {s s' : State ν n q K} (h : step cfg s = .ret s' (.ok ())) : 0 < s'.cnt.nst :=
  stepLoop_nst _ h

/-- A pass of the step loop from a state in which steps have already been taken. -/
theorem solveLoop_ends {cfg : Cfg ν n q K} {rf : Nat} {tout : K} {task : Task} (sf : Nat) {s s' : State ν n q K}
    {nstloc : Nat} {r : Except Err Status} (hn : 0 < s.cnt.nst) (hr : StopReady s)
    (h : solveLoop cfg rf tout task sf s nstloc = .ret s' r) : Ends cfg s s' r := by
  induction sf generalizing s nstloc with
  | zero => cases h
  | succ sf ih =>
    unfold solveLoop Flow.andThen solvePass at h
    have hp := preStep_micro (cfg := cfg) (s := s) (nstloc := nstloc)
    cases hpre : preStep cfg s nstloc with
    | go s1 =>
      rw [hpre] at h
      simp only at h
      obtain ⟨hm, hc, hsr, -, hwt⟩ := hp.1 s1 hpre
      have hn1 : 0 < s1.cnt.nst := by rw [hc]; exact hn
      cases hstep : step cfg s1 with
      | panic => rw [hstep] at h; cases h
      | diverge => rw [hstep] at h; cases h
      | ret s2 r2 =>
        rw [hstep] at h
        cases r2 with
        | error e =>
          simp only at h
          cases hsf : stepFailed s2 e with
          | go s3 => exact absurd hsf stepFailed_go
          | panic => rw [hsf] at h; cases h
          | diverge => rw [hsf] at h; cases h
          | ret s3 r3 =>
            rw [hsf] at h
            cases h
            obtain ⟨hfr, rfl⟩ := stepFailed_frame hsf
            exact .failed s1 s2 e hm (.step e hn1 (hsr hr) hstep (hwt hn)) hfr rfl
        | ok u =>
          simp only at h
          have hm2 : Micros cfg s s2 := hm.tail (.step hn1 (hsr hr) hstep (hwt hn))
          have hn2 := step_nst hstep
          have hpo := postStep_ok (cfg := cfg) (rf := rf) (tout := tout) (task := task) hn2
          cases hps : postStep cfg rf s2 tout task with
          | panic => rw [hps] at h; cases h
          | diverge => rw [hps] at h; cases h
          | go s3 =>
            rw [hps] at h
            simp only at h
            obtain ⟨hm3, hr3⟩ := hpo.go s3 hps
            have hn3 : 0 < s3.cnt.nst := by
              have : ∀ a b : State ν n q K, Micros cfg a b → 0 < a.cnt.nst → 0 < b.cnt.nst := by
                intro a b hab ha
                induction hab with
                | refl => exact ha
                | tail _ hbc ihb =>
                  cases hbc with
                  | frame hf => rw [hf.cnt]; exact ihb
                  | perf => exact ihb
                  | clear => exact ihb
                  | clamp ts _ _ _ => unfold clampToStop; split <;> exact ihb
                  | ewt _ => exact ihb
                  | first _ _ h0 _ => omega
                  | firstStep _ h0 _ _ _ => omega
                  | step _ _ h1 _ => exact step_nst h1
              exact this _ _ hm3 hn2
            exact Ends.prepend (hm2.trans hm3) (ih hn3 hr3 h)
          | ret s3 r3 =>
            rw [hps] at h
            cases h
            obtain ⟨hm3, hb⟩ := hpo.ret _ _ hps
            exact .clean (hm2.trans hm3) hb
    | panic => rw [hpre] at h; cases h
    | diverge => rw [hpre] at h; cases h
    | ret s1 r1 =>
      rw [hpre] at h
      cases h
      obtain ⟨hm, -, hb, -⟩ := hp.2 _ _ hpre
      exact .clean hm hb

theorem micros_nst_pos {cfg : Cfg ν n q K} {a b : State ν n q K} (hab : Micros cfg a b) (ha : 0 < a.cnt.nst) :
    0 < b.cnt.nst := by
  induction hab with
  | refl => exact ha
  | tail _ hbc ihb =>
    cases hbc with
    | frame hf => rw [hf.cnt]; exact ihb
    | perf => exact ihb
    | clear => exact ihb
    | clamp ts _ _ _ => unfold clampToStop; split <;> exact ihb
    | ewt _ => exact ihb
    | first _ _ h0 _ => omega
    | firstStep _ h0 _ _ _ => omega
    | step _ _ h1 _ => exact step_nst h1

/-- The three ways the first-call block can fail, and how it succeeds. -/
theorem firstCall_cases {cfg : Cfg ν n q K} {s s' : State ν n q K} {tout : K} {r : Except Err Unit}
    (h : firstCall cfg s tout = .ret s' r) :
    (tooClose (initialSetup cfg s) tout = true ∧ s' = initialSetup cfg s ∧ r = .error (.ida .illegalInput)) ∨
    (wrongWay cfg (initialSetup cfg s) tout = true ∧ s' = { initialSetup cfg s with c.hh := cfg.hin } ∧
      r = .error (.ida .illegalInput)) ∨
    (∃ hh, hh = firstStepSize cfg (initialSetup cfg s) tout (Scalar.abs (tout - (initialSetup cfg s).e.tn)) ∧
      tooClose (initialSetup cfg s) tout = false ∧ wrongWay cfg (initialSetup cfg s) tout = false ∧
      ((firstStop { initialSetup cfg s with c.hh := hh } = none ∧ s' = { initialSetup cfg s with c.hh := hh } ∧
        r = .error (.ida .illegalInput)) ∨
       ∃ s1, firstStop { initialSetup cfg s with c.hh := hh } = some s1 ∧ s' = firstReady cfg s1 ∧ r = .ok ())) := by
  unfold firstCall at h
  simp only at h
  split at h
  · rename_i h1
    cases h; exact Or.inl ⟨h1, rfl, rfl⟩
  · rename_i h1
    split at h
    · rename_i h2
      cases h; exact Or.inr (Or.inl ⟨h2, rfl, rfl⟩)
    · rename_i h2
      refine Or.inr (Or.inr ⟨_, rfl, by simpa using h1, by rw [← Bool.not_eq_true]; exact h2, ?_⟩)
      split at h
      · rename_i h3
        cases h
        exact Or.inl ⟨h3, rfl, rfl⟩
      · rename_i s1 h3
        cases h
        exact Or.inr ⟨s1, h3, rfl, rfl⟩

theorem firstCall_error {cfg : Cfg ν n q K} {s s' : State ν n q K} {tout : K} {e : Err}
    (h : firstCall cfg s tout = .ret s' (.error e)) : e = .ida .illegalInput := by
  rcases firstCall_cases h with ⟨-, -, h⟩ | ⟨-, -, h⟩ | ⟨hh, -, -, -, ⟨-, -, h⟩ | ⟨s1, -, -, h⟩⟩ <;> cases h <;> rfl

theorem initialSetup_cnt (cfg : Cfg ν n q K) (s : State ν n q K) : (initialSetup cfg s).cnt = s.cnt := by
  unfold initialSetup; split <;> rfl

theorem rCheck1_same (cfg : Cfg ν n q K) (s : State ν n q K) :
    (rCheck1 cfg s).h = s.h ∧ (rCheck1 cfg s).c = s.c ∧ (rCheck1 cfg s).e = s.e ∧ (rCheck1 cfg s).cnt = s.cnt ∧
    (rCheck1 cfg s).g = s.g ∧ (rCheck1 cfg s).tstop = s.tstop ∧ (rCheck1 cfg s).m.core = s.m.core ∧
    (rCheck1 cfg s).nls = s.nls ∧ (rCheck1 cfg s).ee = s.ee ∧ (rCheck1 cfg s).delta = s.delta ∧
    (rCheck1 cfg s).h0u = s.h0u ∧ (rCheck1 cfg s).setupDone = s.setupDone ∧ (rCheck1 cfg s).epsNewt = s.epsNewt := by
  unfold rCheck1 callRoot
  simp only
  split <;> exact ⟨rfl, rfl, rfl, rfl, rfl, rfl, rfl, rfl, rfl, rfl, rfl, rfl, rfl⟩

theorem firstReady_cnt (cfg : Cfg ν n q K) (s : State ν n q K) : (firstReady cfg s).cnt = s.cnt := by
  unfold firstReady
  simp only
  split
  · exact (rCheck1_same cfg _).2.2.2.1
  · rfl

theorem firstStop_cnt {s s' : State ν n q K} (h : firstStop s = some s') : s'.cnt = s.cnt := by
  unfold firstStop at h
  split at h
  · split at h
    · cases h
    · cases h; unfold clampToStop; split <;> rfl
  · cases h; rfl

theorem firstCall_cnt {cfg : Cfg ν n q K} {s s' : State ν n q K} {tout : K} {r : Except Err Unit}
    (h : firstCall cfg s tout = .ret s' r) : s'.cnt = s.cnt := by
  rcases firstCall_cases h with ⟨-, h, -⟩ | ⟨-, h, -⟩ | ⟨hh, -, -, -, ⟨-, h, -⟩ | ⟨s1, h1, h, -⟩⟩ <;> subst h
  · exact initialSetup_cnt cfg s
  · exact initialSetup_cnt cfg s
  · exact initialSetup_cnt cfg s
  · rw [firstReady_cnt, firstStop_cnt h1]; exact initialSetup_cnt cfg s

/-- The step loop directly after the first-call block. -/
theorem solveLoop_first {cfg : Cfg ν n q K} {rf : Nat} {tout : K} {task : Task} (sf : Nat) {s0 s1 s s' : State ν n q K}
    {nstloc : Nat} {r : Except Err Status} (hn : s0.cnt.nst = 0) (hfc : firstCall cfg s0 tout = .ret s1 (.ok ()))
    (hf : Frame (perfReset s1) s) (h : solveLoop cfg rf tout task sf s nstloc = .ret s' r) : Ends cfg s0 s' r := by
  have hc : s.cnt.nst = 0 := by rw [hf.cnt]; show s1.cnt.nst = 0; rw [firstCall_cnt hfc]; exact hn
  cases sf with
  | zero => cases h
  | succ sf =>
    unfold solveLoop Flow.andThen solvePass at h
    have hp := preStep_micro (cfg := cfg) (s := s) (nstloc := nstloc)
    cases hpre : preStep cfg s nstloc with
    | go s2 =>
      rw [hpre] at h
      simp only at h
      obtain ⟨-, hc2, -, hf2, -⟩ := hp.1 s2 hpre
      have hf2 := hf.trans (hf2 hc)
      cases hstep : step cfg s2 with
      | panic => rw [hstep] at h; cases h
      | diverge => rw [hstep] at h; cases h
      | ret s3 r3 =>
        rw [hstep] at h
        cases r3 with
        | error e =>
          simp only at h
          cases hsf : stepFailed s3 e with
          | go s4 => exact absurd hsf stepFailed_go
          | panic => rw [hsf] at h; cases h
          | diverge => rw [hsf] at h; cases h
          | ret s4 r4 =>
            rw [hsf] at h
            cases h
            obtain ⟨hfr, rfl⟩ := stepFailed_frame hsf
            exact .failed s0 s3 e .refl (.firstStep tout e hn hfc hf2 hstep) hfr rfl
        | ok u =>
          simp only at h
          have hm2 : Micros cfg s0 s3 := .single (.firstStep tout hn hfc hf2 hstep)
          have hn2 := step_nst hstep
          have hpo := postStep_ok (cfg := cfg) (rf := rf) (tout := tout) (task := task) hn2
          cases hps : postStep cfg rf s3 tout task with
          | panic => rw [hps] at h; cases h
          | diverge => rw [hps] at h; cases h
          | go s4 =>
            rw [hps] at h
            simp only at h
            obtain ⟨hm3, hr3⟩ := hpo.go s4 hps
            exact Ends.prepend (hm2.trans hm3) (solveLoop_ends sf (micros_nst_pos hm3 hn2) hr3 h)
          | ret s4 r4 =>
            rw [hps] at h
            cases h
            obtain ⟨hm3, hb⟩ := hpo.ret _ _ hps
            exact .clean (hm2.trans hm3) hb
    | panic => rw [hpre] at h; cases h
    | diverge => rw [hpre] at h; cases h
    | ret s2 r2 =>
      rw [hpre] at h
      cases h
      obtain ⟨-, hf2, hb, -⟩ := hp.2 _ _ hpre
      exact .clean (ReflTransGen.tail (ReflTransGen.tail (.single (.first tout _ hn hfc)) (.perf s1))
        (.frame (hf.trans (hf2 hc)))) hb

/-- Every call of `solve` that returns is a sequence of small transitions, possibly ending with a failed step. -/
theorem solve_ends {cfg : Cfg ν n q K} {rf sf : Nat} {s s' : State ν n q K} {tout : K} {task : Task}
    {r : Except Err Status} (h : solve cfg rf sf s tout task = .ret s' r) : Ends cfg s s' r := by
  unfold solve at h
  simp only at h
  obtain ⟨s0, hs0, hf0⟩ : ∃ s0 : State ν n q K,
      ({ (if task = .normal then { s with r.toutc := tout } else s) with
          r.taskc := task } : State ν n q K) = s0 ∧ Frame s s0 := by
    refine ⟨_, rfl, ?_⟩
    split <;> frame_rfl
  have hcnt : (if task = .normal then ({ s with r.toutc := tout } : State ν n q K) else s).cnt = s0.cnt := by
    rw [← hs0]
  rw [hs0, hcnt] at h
  refine Ends.prepend (Micros.frame hf0) ?_
  by_cases hn : s0.cnt.nst = 0
  · rw [if_pos hn] at h
    rcases Out.bind_eq_ret h with ⟨s1, a, h1, h2⟩ | ⟨e, h1, rfl⟩
    · have hc1 : ¬ (perfReset s1).cnt.nst > 0 := by
        show ¬ s1.cnt.nst > 0
        rw [firstCall_cnt h1]; omega
      rw [if_neg hc1] at h2
      exact solveLoop_first sf hn h1 (Frame.refl _) h2
    · refine .clean (.single (.first tout _ hn h1)) (benign_err ?_)
      rw [firstCall_error h1]; rfl
  · rw [if_neg hn] at h
    have hp : 0 < s0.cnt.nst := Nat.pos_of_ne_zero hn
    simp only [Out.bind] at h
    have hc1 : (perfReset s0).cnt.nst > 0 := hp
    rw [if_pos hc1] at h
    refine Ends.prepend (ReflTransGen.single (.perf s0)) ?_
    have hl := laterCall_ok (cfg := cfg) (rf := rf) (s := perfReset s0) (tout := tout) (task := task) hp
    unfold Flow.andThen at h
    split at h
    · rename_i s1 h1
      obtain ⟨hm, hr⟩ := hl.go _ h1
      exact Ends.prepend hm (solveLoop_ends sf (micros_nst_pos hm hp) hr h)
    · rename_i h1
      cases h
      obtain ⟨hm, hb⟩ := hl.ret _ _ h1
      exact .clean hm hb
    · cases h
    · cases h

/-- The public calls. -/
theorem exec_ends {cfg : Cfg ν n q K} {rf sf : Nat} {s s' : State ν n q K} {op : Op K} {r : Res n K}
    (h : exec cfg rf sf s op = some (s', r)) :
    (∃ r', r = .solved r' ∧ Ends cfg s s' r') ∨ ((∀ r', r ≠ .solved r') ∧ Micros cfg s s') := by
  cases op with
  | solve tout tret task =>
    unfold exec at h
    simp only at h
    split at h
    · rename_i h1
      cases h
      exact Or.inl ⟨_, rfl, Ends.prepend (Micros.frame (by frame_rfl)) (solve_ends h1)⟩
    · cases h
  | getSolution t =>
    unfold exec at h
    simp only at h
    split at h
    · rename_i h1
      cases h
      exact Or.inr ⟨by simp, Micros.frame (getSolution_frame h1).1⟩
    · cases h
  | getDky t k =>
    unfold exec at h
    simp only at h
    split at h
    · rename_i h1
      cases h
      refine Or.inr ⟨by simp, Micros.frame ?_⟩
      unfold getDky at h1
      split at h1
      · cases h1; exact Frame.refl _
      · split at h1
        · cases h1; exact Frame.refl _
        · split at h1
          · cases h1; exact Frame.refl _
          · cases h1
    · cases h

end

end Verif
