import Verif.Spec.Answers
import Verif.Proofs.RootInv
import Verif.Proofs.Outcome

/-!
# The solver depends on the user's functions only through the answers to its calls (any scalar type)
-/

set_option autoImplicit false
set_option linter.unusedSectionVars false
set_option linter.unusedSimpArgs false
set_option linter.unusedVariables false

namespace Verif

open Verif.Spec

universe u v w x

/-! ## Newton's method -/

section
variable {σ : Type u} {V : Type v} {K : Type w} {γ : Type x} [Add V] [Neg V]

/-- The callbacks of `Q` only append to the log, and those of `Q'` behave in the same way as long as the log stays in `A`. -/
structure SameOps (A : γ → Prop) (lg : σ → List γ) (Q Q' : NLProblem σ V K) : Prop where
  sys : ∀ s y b, (Q.sys s y b).2.2 ≠ .panic →
    lg s ⊆ lg (Q.sys s y b).1 ∧ ((∀ c ∈ lg (Q.sys s y b).1, A c) → Q'.sys s y b = Q.sys s y b)
  setup : ∀ s y f j, (Q.setup s y f j).2 ≠ .panic →
    lg s ⊆ lg (Q.setup s y f j).1 ∧ ((∀ c ∈ lg (Q.setup s y f j).1, A c) → Q'.setup s y f j = Q.setup s y f j)
  solve : ∀ s y b, (Q.solve s y b).2.2 ≠ .panic →
    lg s ⊆ lg (Q.solve s y b).1 ∧ Q'.solve s y b = Q.solve s y b
  ctest : ∀ s v y d tol w, (Q.ctest s v y d tol w).2 ≠ .panic →
    lg s ⊆ lg (Q.ctest s v y d tol w).1 ∧ Q'.ctest s v y d tol w = Q.ctest s v y d tol w

variable {A : γ → Prop} {lg : σ → List γ} {Q Q' : NLProblem σ V K} (H : SameOps A lg Q Q')
include H

theorem newtonInner_answers (tol : K) (w : V) (fuel : Nat) : ∀ (N : Newton V) (s : σ) (y : V) (N' : Newton V) (s' : σ) (y' : V)
    (r : Except Err Unit), newtonInner Q tol w fuel N s y = .done N' s' y' r →
    lg s ⊆ lg s' ∧ ((∀ c ∈ lg s', A c) → newtonInner Q' tol w fuel N s y = .done N' s' y' r) := by
  induction fuel with
  | zero => intro N s y N' s' y' r h; cases h
  | succ fuel ih =>
    intro N s y N' s' y' r h
    simp only [newtonInner] at h ⊢
    have h1 := H.solve s y (-N.delta)
    generalize Q.solve s y (-N.delta) = o at h h1
    obtain ⟨s1, d, c⟩ := o
    cases c with
    | panic => cases h
    | err e =>
      obtain ⟨h1, h2⟩ := h1 (by simp)
      rw [h2]
      cases h
      exact ⟨h1, fun _ => rfl⟩
    | ok _ =>
      obtain ⟨h1, h2⟩ := h1 (by simp)
      rw [h2]
      simp only at h ⊢
      have h3 := H.ctest s1 (Newton.view { N with niters := N.niters + 1, delta := d }) (y + d) d tol w
      generalize Q.ctest s1 _ (y + d) d tol w = o at h h3
      obtain ⟨s2, c⟩ := o
      cases c with
      | panic => cases h
      | err e =>
        obtain ⟨h3, h4⟩ := h3 (by simp)
        rw [h4]
        cases h
        exact ⟨fun _ hx => h3 (h1 hx), fun _ => rfl⟩
      | ok b =>
        obtain ⟨h3, h4⟩ := h3 (by simp)
        rw [h4]
        cases b with
        | true =>
          cases h
          exact ⟨fun _ hx => h3 (h1 hx), fun _ => rfl⟩
        | false =>
          simp only at h ⊢
          by_cases hm : N.curiter + 1 ≥ N.maxiters
          · rw [if_pos hm] at h ⊢
            cases h
            exact ⟨fun _ hx => h3 (h1 hx), fun _ => rfl⟩
          · rw [if_neg hm] at h ⊢
            have h5 := H.sys s2 (y + d) d
            generalize Q.sys s2 (y + d) d = o at h h5
            obtain ⟨s3, d', c⟩ := o
            cases c with
            | panic => cases h
            | err e =>
              obtain ⟨h5, h6⟩ := h5 (by simp)
              cases h
              exact ⟨fun _ hx => h5 (h3 (h1 hx)), fun ha => by rw [h6 ha]⟩
            | ok _ =>
              obtain ⟨h5, h6⟩ := h5 (by simp)
              obtain ⟨h7, h8⟩ := ih _ _ _ _ _ _ _ h
              exact ⟨fun _ hx => h7 (h5 (h3 (h1 hx))), fun ha => by rw [h6 (fun c hc => ha c (h7 hc))]; exact h8 ha⟩

theorem newtonAttempt_answers {y0 : V} {tol : K} {w : V} {call jbad : Bool} {N : Newton V} {s : σ} {y : V} {N' : Newton V}
    {s' : σ} {y' : V} {r : Except Err Unit} (h : newtonAttempt Q y0 tol w call jbad N s y = .done N' s' y' r) :
    lg s ⊆ lg s' ∧ ((∀ c ∈ lg s', A c) → newtonAttempt Q' y0 tol w call jbad N s y = .done N' s' y' r) := by
  unfold newtonAttempt at h ⊢
  have h1 := H.sys s y0 N.delta
  generalize Q.sys s y0 N.delta = o at h h1
  obtain ⟨s1, d, c⟩ := o
  cases c with
  | panic => cases h
  | err e =>
    obtain ⟨h1, h2⟩ := h1 (by simp)
    cases h
    exact ⟨h1, fun ha => by rw [h2 ha]⟩
  | ok _ =>
    obtain ⟨h1, h2⟩ := h1 (by simp)
    simp only at h
    cases call with
    | false =>
      simp only [Bool.false_eq_true, if_false] at h ⊢
      obtain ⟨h3, h4⟩ := newtonInner_answers H _ _ _ _ _ _ _ _ _ _ h
      exact ⟨fun _ hx => h3 (h1 hx), fun ha => by rw [h2 (fun c hc => ha c (h3 hc))]; exact h4 ha⟩
    | true =>
      simp only [if_true] at h ⊢
      have h3 := H.setup s1 y0 d jbad
      generalize Q.setup s1 y0 d jbad = o at h h3
      obtain ⟨s2, c⟩ := o
      cases c with
      | panic => cases h
      | err e =>
        obtain ⟨h3, h4⟩ := h3 (by simp)
        cases h
        exact ⟨fun _ hx => h3 (h1 hx), fun ha => by rw [h2 (fun c hc => ha c (h3 hc))]; simp only; rw [h4 ha]⟩
      | ok b =>
        obtain ⟨h3, h4⟩ := h3 (by simp)
        obtain ⟨h5, h6⟩ := newtonInner_answers H _ _ _ _ _ _ _ _ _ _ h
        exact ⟨fun _ hx => h5 (h3 (h1 hx)), fun ha => by
          rw [h2 (fun c hc => ha c (h5 (h3 hc)))]; simp only; rw [h4 (fun c hc => ha c (h5 hc))]; exact h6 ha⟩

theorem newtonOuter_answers {y0 : V} {tol : K} {w : V} (fuel : Nat) : ∀ (call jbad : Bool) (N : Newton V) (s : σ) (y : V)
    (N' : Newton V) (s' : σ) (y' : V) (r : Except Err Unit),
    newtonOuter Q y0 tol w fuel call jbad N s y = .done N' s' y' r →
    lg s ⊆ lg s' ∧ ((∀ c ∈ lg s', A c) → newtonOuter Q' y0 tol w fuel call jbad N s y = .done N' s' y' r) := by
  induction fuel with
  | zero => intro _ _ _ _ _ _ _ _ _ h; cases h
  | succ fuel ih =>
    intro call jbad N s y N' s' y' r h
    unfold newtonOuter at h ⊢
    have h1 := fun N' s' y' r => newtonAttempt_answers H (y0 := y0) (tol := tol) (w := w) (call := call) (jbad := jbad) (N := N)
      (s := s) (y := y) (N' := N') (s' := s') (y' := y') (r := r)
    generalize newtonAttempt Q y0 tol w call jbad N s y = o at h h1
    cases o with
    | panic => cases h
    | diverge => cases h
    | done N1 s1 y1 r1 =>
      replace h1 := h1 _ _ _ _ rfl
      obtain ⟨h1, h2⟩ := h1
      cases r1 with
      | ok u =>
        cases h
        exact ⟨h1, fun ha => by rw [h2 ha]⟩
      | error e =>
        simp only at h
        split at h
        · rename_i hc
          split at h
          · rename_i hj
            obtain ⟨h3, h4⟩ := ih _ _ _ _ _ _ _ _ _ h
            exact ⟨fun _ hx => h3 (h1 hx), fun ha => by
              rw [h2 (fun c hc => ha c (h3 hc))]; simp only; rw [if_pos hc, if_pos hj]; exact h4 ha⟩
          · rename_i hj
            obtain ⟨h3, h4⟩ := ih _ _ _ _ _ _ _ _ _ h
            exact ⟨fun _ hx => h3 (h1 hx), fun ha => by
              rw [h2 (fun c hc => ha c (h3 hc))]; simp only; rw [if_pos hc, if_neg hj]; exact h4 ha⟩
        · rename_i hc
          cases h
          exact ⟨h1, fun ha => by rw [h2 ha]; simp only; rw [if_neg hc]⟩

end

/-! ## The problem handed to Newton's method -/

section
variable {ν : Type v} {n q : Nat} {K : Type u} [Scalar K] {A : UCall n K → Prop}

theorem ida_sameOps {P P' : Problem n q K} (hP : SameAnswers A P P') (e : Env n K) :
    SameOps A Mem.log (idaNLProblem P e) (idaNLProblem P' e) := by
  refine ⟨?_, ?_, ?_, ?_⟩
  · intro m y b _
    refine ⟨fun _ hx => List.mem_cons_of_mem _ hx, fun ha => ?_⟩
    have h1 := hP.res e.tn (vadd e.yypredict y) (scaledAdd e.yppredict e.cj y) b (ha _ List.mem_cons_self)
    show ((idaSys P' e m y b).1, (idaSys P' e m y b).2, _) = ((idaSys P e m y b).1, (idaSys P e m y b).2, _)
    unfold idaSys
    simp only [h1]
  · intro m y f j h
    have key : ∀ m', idaSetup P e m f = some m' → m.log ⊆ m'.log ∧ ((∀ c ∈ m'.log, A c) → idaSetup P' e m f = some m') := by
      intro m' h
      unfold idaSetup lsSetup at h ⊢
      simp only at h ⊢
      by_cases hn : n = 0
      · simp only [if_pos hn] at h ⊢
        refine ⟨?_, fun _ => h⟩
        split at h
        · cases h
        · rename_i h1
          split at h1
          · cases h1; cases h; exact fun _ hx => hx
          · cases h1
          · cases h1
      · simp only [if_neg hn] at h ⊢
        have hl : m'.log = .jac 0 e.cj m.yy m.yp f :: m.log := by
          split at h
          · cases h
          · rename_i h1
            split at h1
            · cases h1; cases h; rfl
            · cases h1
            · cases h1
        refine ⟨by rw [hl]; exact fun _ hx => List.mem_cons_of_mem _ hx, fun ha => ?_⟩
        rw [hP.jac 0 e.cj m.yy m.yp f (fun _ _ => 0) (ha _ (by rw [hl]; exact List.mem_cons_self))]
        exact h
    unfold idaNLProblem at h ⊢
    simp only at h ⊢
    cases hs : idaSetup P e m f with
    | none => rw [hs] at h; exact absurd rfl h
    | some m' =>
      obtain ⟨k1, k2⟩ := key m' hs
      simp only
      exact ⟨k1, fun ha => by rw [k2 ha]⟩
  · intro m y b h
    refine ⟨?_, rfl⟩
    unfold idaNLProblem lsSolve at h ⊢
    simp only at h ⊢
    cases hs : denseSolve n m.matJ m.piv b.toFun with
    | none => rw [hs] at h; exact absurd rfl h
    | some x => exact fun _ hx => hx
  · intro m v y d tol w h
    refine ⟨?_, rfl⟩
    show m.log ⊆ (idaCtest e m v d tol w).1.log
    unfold idaCtest
    simp only
    split
    · split <;> exact fun _ hx => hx
    · split <;> exact fun _ hx => hx

/-- The nonlinear solvers behave in the same way as long as the log stays in `A`. -/
def SameNls (A : UCall n K → Prop) (S S' : NlSolver ν n K) : Prop :=
  ∀ N e m y0 y w tol call N' m' ee r, S.solve N e m y0 y w tol call = .ret N' m' ee r → (∀ c ∈ m'.log, A c) →
    S'.solve N e m y0 y w tol call = .ret N' m' ee r

theorem newton_sameNls {P P' : Problem n q K} (hP : SameAnswers A P P') (fuel : Nat) :
    SameNls A (newtonNls P fuel) (newtonNls P' fuel) := by
  intro N e m y0 y w tol call N' m' ee r h ha
  unfold newtonNls at h ⊢
  simp only at h ⊢
  split at h
  · rename_i h1
    cases h
    have h2 := (newtonOuter_answers (ida_sameOps hP e) _ _ _ _ _ _ _ _ _ _ h1).2 ha
    unfold newtonSolve
    rw [h2]
  · cases h
  · cases h

end

/-! ## The integrator -/

section
variable {ν : Type v} {n q : Nat} {K : Type u} [Scalar K]

theorem getSolution'_log {s s' : State ν n q K} {t : K} (h : getSolution' s t = some s') : s'.m.log = s.m.log := by
  obtain ⟨hf, yy, yp, e⟩ := getSolution'_frame h
  rw [e]

theorem getSolution_log {s s' : State ν n q K} {t : K} {r : Except Err Unit} (h : getSolution s t = .ret s' r) :
    s'.m.log = s.m.log := by
  obtain ⟨hf, yy, yp, e⟩ := getSolution_frame h
  rw [e]

theorem clampToStop_log (s : State ν n q K) (ts : K) : (clampToStop s ts).m.log = s.m.log := by
  unfold clampToStop; split <;> rfl

theorem stopTest1_log {s s' : State ν n q K} {tout : K} {task : Task} {r : Except Err Status}
    (h : stopTest1 s tout task = .ret s' r) : s'.m.log = s.m.log := by
  unfold stopTest1 at h
  split at h
  · cases h; rfl
  · split at h
    · split at h
      · cases h; rfl
      · split at h
        · rcases Out.bind_eq_ret h with ⟨s1, a, h1, h2⟩ | ⟨e, h1, h2⟩
          · cases h2; exact (getSolution_log h1 :)
          · exact getSolution_log h1
        · split at h
          · split at h
            · split at h
              · rename_i h1; cases h; exact (getSolution_log h1 :)
              · rename_i h1; cases h; exact (getSolution_log h1 :)
              · cases h
              · cases h
            · cases h; exact clampToStop_log _ _
          · cases h; rfl
    · split at h
      · split at h
        · cases h
        · rename_i h1; cases h; exact (getSolution'_log h1 :)
      · split at h
        · split at h
          · rcases Out.bind_eq_ret h with ⟨s1, a, h1, h2⟩ | ⟨e, h1, h2⟩
            · cases h2; exact (getSolution_log h1 :)
            · exact getSolution_log h1
          · cases h; exact clampToStop_log _ _
        · cases h; rfl

theorem stopTest2_log {s s' : State ν n q K} {tout : K} {task : Task} {r : Except Err Status}
    (h : stopTest2 s tout task = .ret s' r) : s'.m.log = s.m.log := by
  unfold stopTest2 at h
  split at h
  · split at h
    · split at h
      · cases h
      · rename_i h1; cases h; exact (getSolution'_log h1 :)
    · split at h
      · split at h
        · split at h
          · cases h
          · rename_i h1; cases h; exact (getSolution'_log h1 :)
        · cases h; exact clampToStop_log _ _
      · cases h; rfl
  · split at h
    · split at h
      · split at h
        · cases h
        · rename_i h1; cases h; exact (getSolution'_log h1 :)
      · cases h; exact clampToStop_log _ _
    · cases h; rfl

/-- The state a section of `solve` leaves. -/
def Flow.st {S : Type u} : Flow S → Option S
  | .go s => some s
  | .ret s _ => some s
  | _ => none

theorem ofStop_st {S : Type u} {o : Out S Status} {s' : S} (h : (Flow.ofStop o).st = some s') : ∃ r, o = .ret s' r := by
  cases o with
  | panic => cases h
  | diverge => cases h
  | ret s r =>
    refine ⟨r, ?_⟩
    have : s = s' := by
      cases r with
      | error e => exact Option.some.inj h
      | ok a => cases a <;> exact Option.some.inj h
    rw [this]

/-- `solve` after the registration of its arguments. -/
def solveCore (cfg : Cfg ν n q K) (rf sf : Nat) (s : State ν n q K) (tout : K) (task : Task) : Out (State ν n q K) Status :=
  (if s.cnt.nst = 0 then firstCall cfg s tout else .ret s (.ok ())).bind fun s _ =>
    let s := perfReset s
    (if s.cnt.nst > 0 then laterCall cfg rf s tout task else Flow.go s).andThen fun s =>
      solveLoop cfg rf tout task sf s 0

/-- The registration of the arguments of `solve`. -/
def solveHead (s : State ν n q K) (tout : K) (task : Task) : State ν n q K :=
  let s := if task = .normal then { s with r.toutc := tout } else s
  { s with r.taskc := task }

theorem solve_core (cfg : Cfg ν n q K) (rf sf : Nat) (s : State ν n q K) (tout : K) (task : Task) :
    solve cfg rf sf s tout task = solveCore cfg rf sf (solveHead s tout task) tout task := rfl

theorem solveHead_log (s : State ν n q K) (tout : K) (task : Task) : (solveHead s tout task).m.log = s.m.log := by
  unfold solveHead
  simp only
  split <;> rfl

theorem getDky_state {s s' : State ν n q K} {t : K} {k : Nat} {r : Except Err (Vec n K)} (h : getDky s t k = .ret s' r) :
    s' = s := by
  unfold getDky at h
  split at h
  · cases h; rfl
  · split at h
    · cases h; rfl
    · split at h
      · cases h; rfl
      · cases h

/-- The same solver with another problem and another nonlinear solver. -/
def Cfg.swap (cfg : Cfg ν n q K) (P' : Problem n q K) (S' : NlSolver ν n K) : Cfg ν n q K := { cfg with prob := P', nls := S' }

/-- All calls made so far are in `A`. -/
def In (A : UCall n K → Prop) (s : State ν n q K) : Prop := ∀ c ∈ s.m.log, A c

theorem In.of_sub {A : UCall n K → Prop} {s s' : State ν n q K} (h : In A s') (hs : s.m.log ⊆ s'.m.log) : In A s :=
  fun c hc => h c (hs hc)

variable {cfg : Cfg ν n q K} {P' : Problem n q K} {S' : NlSolver ν n K} {A : UCall n K → Prop}

theorem Frame.logSub {s s' : State ν n q K} (h : Frame s s') : s.m.log ⊆ s'.m.log := by
  obtain ⟨l, h1, -⟩ := h.log
  rw [h1]; exact fun _ hx => List.mem_append_right _ hx

theorem nonlinearSolve_same (hN : SameNls A cfg.nls S') {s s' : State ν n q K} {r : Except Err Unit}
    (h : nonlinearSolve cfg s = .ret s' r) (ha : In A s') : nonlinearSolve (cfg.swap P' S') s = .ret s' r := by
  unfold nonlinearSolve at h ⊢
  simp only at h ⊢
  split at h
  · cases h
  · cases h
  · rename_i N m ee r' h1
    have h2 := hN _ _ _ _ _ _ _ _ _ _ _ _ h1
    have h3 : ∀ c ∈ m.log, A c := by
      split at h
      · cases h; exact ha
      · split at h
        · cases h
        · cases h; exact ha
    have h4 := h2 h3
    simp only [Cfg.swap]
    rw [h4]
    exact h

/-- The state a trial leaves. -/
def Trial.st {S : Type u} {K : Type v} : Trial S K → Option S
  | .nlsFail s _ _ => some s
  | .tested s _ _ => some s
  | _ => none

theorem testError_m {s s' : State ν n q K} {ck : K} {t : TestRes K} (h : testError cfg s ck = some (s', t)) : s'.m = s.m := by
  unfold testError at h
  simp only at h
  split at h
  · cases h; rfl
  · cases h

theorem trial_same (hN : SameNls A cfg.nls S') {s s' : State ν n q K} (h : (trial cfg s).st = some s') (ha : In A s') :
    trial (cfg.swap P' S') s = trial cfg s := by
  unfold trial at h ⊢
  cases hs : setCoeffs s with
  | none => rfl
  | some p =>
    obtain ⟨s1, ck⟩ := p
    rw [hs] at h
    simp only at h ⊢
    cases hp : predict (advanceTime s1) with
    | none => rfl
    | some s2 =>
      rw [hp] at h
      simp only at h ⊢
      cases hn : nonlinearSolve cfg s2 with
      | panic => rw [hn] at h; cases h
      | diverge => rw [hn] at h; cases h
      | ret s3 r =>
        rw [hn] at h
        cases r with
        | error e =>
          simp only [Trial.st, Option.some.injEq] at h
          subst h
          rw [nonlinearSolve_same hN hn ha]
        | ok u =>
          simp only at h ⊢
          cases ht : testError cfg s3 ck with
          | none => rw [ht] at h; cases h
          | some p =>
            obtain ⟨s4, t⟩ := p
            rw [ht] at h
            simp only [Trial.st, Option.some.injEq] at h
            subst h
            rw [nonlinearSolve_same hN hn (by unfold In; rw [← testError_m ht]; exact ha)]
            show (match testError cfg s3 ck with | none => _ | some (s, t) => _) = _
            rw [ht]

/-- The state a pass of the attempt loop leaves. -/
def Attempt.st {S : Type u} {K : Type v} : Attempt S K → Option S
  | .done s _ _ _ => some s
  | .again s _ => some s
  | .fail s _ => some s
  | _ => none

theorem attemptFailed_m {t : K} {s s' : State ν n q K} {e : Err} {a b : K} {f : Fails}
    (h : (attemptFailed cfg t s e a b f).st = some s') : s'.m = s.m := by
  unfold attemptFailed at h
  split at h
  · cases h
  · rename_i s1 h1
    have e1 : s1.m = s.m := by
      unfold restore at h1
      simp only at h1
      split at h1
      · cases h1; rfl
      · cases h1
    have key : ∀ s2 f2 r2, handleNFlag cfg s1 e a b f = some (s2, f2, r2) → s2.m = s1.m := by
      intro s2 f2 r2 h2
      unfold handleNFlag at h2
      simp only at h2
      repeat' split at h2
      all_goals first | (cases h2; rfl) | cases h2
    split at h
    · cases h
    · rename_i s2 f2 h2
      simp only [Attempt.st, Option.some.injEq] at h
      rw [← h, ← e1, ← key _ _ _ h2]
      split <;> rfl
    · rename_i s2 f2 e2 h2
      simp only [Attempt.st, Option.some.injEq] at h
      rw [← h, ← e1, ← key _ _ _ h2]

theorem attempt_same (hN : SameNls A cfg.nls S') {t : K} {s s' : State ν n q K} {f : Fails}
    (h : (attempt cfg t s f).st = some s') (ha : In A s') : attempt (cfg.swap P' S') t s f = attempt cfg t s f := by
  unfold attempt at h ⊢
  cases ht : trial cfg s with
  | panic => rw [ht] at h; cases h
  | diverge => rw [ht] at h; cases h
  | nlsFail s1 ck e =>
    rw [ht] at h
    have e1 := attemptFailed_m h
    rw [trial_same hN (s' := s1) (by rw [ht]; rfl) (by unfold In at ha; rw [e1] at ha; exact ha), ht]
    rfl
  | tested s1 ck p =>
    rw [ht] at h
    simp only at h
    have e1 : s'.m = s1.m := by
      split at h
      · simp only [Attempt.st, Option.some.injEq] at h; rw [← h]; rfl
      · have := attemptFailed_m h; exact this
    rw [trial_same hN (s' := s1) (by rw [ht]; rfl) (by unfold In at ha; rw [e1] at ha; exact ha), ht]
    rfl

theorem attempt_log (hk : NlsKeepsLog cfg) {t : K} {s s' : State ν n q K} {f : Fails}
    (h : (attempt cfg t s f).st = some s') : s.m.log ⊆ s'.m.log := by
  cases ha : attempt cfg t s f with
  | panic => rw [ha] at h; cases h
  | diverge => rw [ha] at h; cases h
  | done s1 ck a b =>
    rw [ha] at h; cases h
    exact memAfter_log hk (attempt_done_m ha).1
  | again s1 g =>
    rw [ha] at h; cases h
    exact memAfter_log hk (attempt_again_m ha).1
  | fail s1 e =>
    rw [ha] at h; cases h
    exact memAfter_log hk (attempt_fail_m ha).1

theorem stepLoop_same (hk : NlsKeepsLog cfg) (hN : SameNls A cfg.nls S') (t : K) (fuel : Nat) :
    ∀ (s : State ν n q K) (f : Fails) (s' : State ν n q K) (r : Except Err Unit), stepLoop cfg t fuel s f = .ret s' r →
    s.m.log ⊆ s'.m.log ∧ (In A s' → stepLoop (cfg.swap P' S') t fuel s f = .ret s' r) := by
  induction fuel with
  | zero => intro s f s' r h; cases h
  | succ fuel ih =>
    intro s f s' r h
    unfold stepLoop at h ⊢
    have h1 := fun s1 => attempt_log hk (t := t) (s := s) (s' := s1) (f := f)
    have h2 := fun s1 => attempt_same (P' := P') hN (t := t) (s := s) (s' := s1) (f := f)
    cases ho : attempt cfg t s f with
    | panic => rw [ho] at h; cases h
    | diverge => rw [ho] at h; cases h
    | fail s1 e =>
      rw [ho] at h h1 h2
      cases h
      exact ⟨h1 _ rfl, fun ha => by rw [h2 _ rfl ha]⟩
    | again s1 g =>
      rw [ho] at h h1 h2
      obtain ⟨h3, h4⟩ := ih _ _ _ _ h
      exact ⟨fun _ hx => h3 (h1 _ rfl hx), fun ha => by rw [h2 _ rfl (ha.of_sub h3)]; exact h4 ha⟩
    | done s1 ck a b =>
      rw [ho] at h h1 h2
      simp only at h
      cases hc : completeStep cfg s1 a b with
      | none => rw [hc] at h; cases h
      | some s2 =>
        rw [hc] at h
        cases h
        have e1 := (completeStep_eq hc).m
        refine ⟨fun _ hx => ?_, fun ha => ?_⟩
        · show _ ∈ s2.m.log
          rw [e1]; exact h1 _ rfl hx
        · rw [h2 _ rfl (fun c hc' => ha c (by show _ ∈ s2.m.log; rw [e1]; exact hc'))]
          show (match completeStep cfg s1 a b with | none => _ | some s => _) = _
          rw [hc]

theorem step_same (hk : NlsKeepsLog cfg) (hN : SameNls A cfg.nls S') {s s' : State ν n q K} {r : Except Err Unit}
    (h : step cfg s = .ret s' r) : s.m.log ⊆ s'.m.log ∧ (In A s' → step (cfg.swap P' S') s = .ret s' r) := by
  unfold step at h ⊢
  obtain ⟨h1, h2⟩ := stepLoop_same (P' := P') hk hN _ _ _ _ _ _ h
  refine ⟨?_, h2⟩
  rw [← (firstStepInit_cnt s).2.2.2.2.2.2.2.2]
  exact h1

/-! ## Root functions -/

variable (hR : ∀ t y yp buf, A (.root t y yp) → P'.root t y yp buf = cfg.prob.root t y yp buf)
include hR

theorem callRoot_same (s : State ν n q K) {t : K} {yy yp : Vec n K} (buf : Vec q K) (h : A (.root t yy yp)) :
    callRoot (cfg.swap P' S') s t yy yp buf = callRoot cfg s t yy yp buf := by
  unfold callRoot
  exact congrArg (Prod.mk _) (hR _ _ _ _ h)

theorem rCheck1_answers (s : State ν n q K) : s.m.log ⊆ (rCheck1 cfg s).m.log ∧
    (In A (rCheck1 cfg s) → rCheck1 (cfg.swap P' S') s = rCheck1 cfg s) := by
  have hl : ∃ l, (rCheck1 cfg s).m.log = l ++ .root s.e.tn (s.h.phi 0) (s.h.phi 1) :: s.m.log := by
    unfold rCheck1 callRoot
    simp only
    split
    · exact ⟨[_], rfl⟩
    · exact ⟨[], rfl⟩
  obtain ⟨l, hl⟩ := hl
  refine ⟨fun _ hx => by rw [hl]; exact List.mem_append_right _ (List.mem_cons_of_mem _ hx), fun ha => ?_⟩
  have a1 : A (.root s.e.tn (s.h.phi 0) (s.h.phi 1)) := ha _ (by rw [hl]; simp)
  unfold rCheck1 at ha ⊢
  simp only at ha ⊢
  rw [callRoot_same hR _ _ a1]
  generalize callRoot cfg _ s.e.tn (s.h.phi 0) (s.h.phi 1) s.r.glo = p at ha ⊢
  obtain ⟨s1, glo⟩ := p
  simp only at ha ⊢
  split
  · rename_i hz
    rw [if_pos hz] at ha
    have a2 := ha _ List.mem_cons_self
    rw [callRoot_same hR _ _ a2]
  · rfl

theorem rootPass_answers (s : State ν n q K) (l : RfLoc K) :
    (∀ s', rootPass cfg s l = .stop s' → s.m.log ⊆ s'.m.log ∧
      (In A s' → rootPass (cfg.swap P' S') s l = .stop s')) ∧
    (∀ s' l', rootPass cfg s l = .more s' l' → s.m.log ⊆ s'.m.log ∧
      (In A s' → rootPass (cfg.swap P' S') s l = .more s' l')) := by
  have key : ∀ s', (rootPass cfg s l = .stop s' ∨ ∃ l', rootPass cfg s l = .more s' l') → In A s' →
      rootPass (cfg.swap P' S') s l = rootPass cfg s l := by
    intro s' h ha
    unfold rootPass at h ⊢
    by_cases hi : l.imax < q
    · simp only [dif_pos hi] at h ⊢
      split at h
      · rcases h with h | ⟨l', h⟩ <;> cases h
      · rename_i s1 h1
        have hl : s'.m.log = .root (trialPoint s.r.thi s.r.tlo s.r.ttol (s.r.ghi ⟨l.imax, hi⟩) (s.r.glo ⟨l.imax, hi⟩) (nextAlph l))
            s1.m.yy s1.m.yp :: s1.m.log := by
          unfold rootNarrow callRoot at h
          simp only at h
          repeat' split at h
          all_goals rcases h with h | ⟨l', h⟩
          all_goals first | (cases h; rfl) | cases h
        rw [callRoot_same hR _ _ (ha _ (by rw [hl]; exact List.mem_cons_self))]
        rfl
    · simp only [dif_neg hi] at h ⊢
  exact ⟨fun s' h => ⟨(rootPass_frame.1 h).logSub, fun ha => by rw [key s' (Or.inl h) ha]; exact h⟩,
    fun s' l' h => ⟨(rootPass_frame.2 l' h).logSub, fun ha => by rw [key s' (Or.inr ⟨l', h⟩) ha]; exact h⟩⟩

theorem rootLoop_answers (fuel : Nat) : ∀ (s : State ν n q K) (l : RfLoc K) (s' : State ν n q K) (r : Except Err Unit),
    rootLoop cfg fuel s l = .ret s' r → In A s' → rootLoop (cfg.swap P' S') fuel s l = .ret s' r := by
  induction fuel with
  | zero => intro s l s' r h; cases h
  | succ fuel ih =>
    intro s l s' r h ha
    unfold rootLoop at h ⊢
    split at h
    · rename_i hb
      rw [if_pos hb]; exact h
    · rename_i hb
      rw [if_neg hb]
      split at h
      · cases h
      · rename_i s1 h1
        cases h
        rw [((rootPass_answers hR s l).1 _ h1).2 ha]
      · rename_i s1 l1 h1
        rw [((rootPass_answers hR s l).2 _ _ h1).2 (ha.of_sub (rootLoop_frame _ h).logSub)]
        exact ih _ _ _ _ h ha

theorem rootFind_answers {fuel : Nat} {s s' : State ν n q K} {r : Except Err RootStatus} (h : rootFind cfg fuel s = .ret s' r)
    (ha : In A s') : rootFind (cfg.swap P' S') fuel s = .ret s' r := by
  unfold rootFind at h ⊢
  simp only at h ⊢
  rw [show scan1 (cfg.swap P' S') s.r.gactive s.r.glo s.r.ghi = scan1 cfg s.r.gactive s.r.glo s.r.ghi from rfl]
  split at h
  · rename_i hz
    rw [if_pos hz]; exact h
  · rename_i hz
    rw [if_neg hz]
    rcases Out.bind_eq_ret h with ⟨s1, a, h1, h2⟩ | ⟨e, h1, h2⟩
    · cases h2
      rw [rootLoop_answers hR _ _ _ _ _ h1 ha]; rfl
    · subst h2
      rw [rootLoop_answers hR _ _ _ _ _ h1 ha]; rfl

theorem rCheck3_answers {fuel : Nat} {s s' : State ν n q K} {r : Except Err RootStatus} (h : rCheck3 cfg fuel s = .ret s' r) :
    s.m.log ⊆ s'.m.log ∧ (In A s' → rCheck3 (cfg.swap P' S') fuel s = .ret s' r) := by
  refine ⟨(rCheck3_frame h).logSub, fun ha => ?_⟩
  unfold rCheck3 at h ⊢
  simp only at h ⊢
  split at h
  · cases h
  · rename_i s1 h1
    have hsub : ∀ (s5 : State ν n q K) (r5 : Except Err RootStatus),
        rootFind cfg fuel { (callRoot cfg s1 s1.r.thi s1.m.yy s1.m.yp s1.r.ghi).1 with
          r.ghi := (callRoot cfg s1 s1.r.thi s1.m.yy s1.m.yp s1.r.ghi).2
          r.nge := s1.r.nge + 1
          r.ttol := rootTol s1 } = .ret s5 r5 → s5.m.log ⊆ s'.m.log → _ := fun s5 r5 h5 hs =>
      callRoot_same (S' := S') hR s1 s1.r.ghi (t := s1.r.thi) (yy := s1.m.yy) (yp := s1.m.yp)
        (ha _ (hs ((rootFind_frame h5).logSub List.mem_cons_self)))
    rcases Out.bind_eq_ret h with ⟨s2, a, h2, h3⟩ | ⟨e, h2, h3⟩
    · have hs : s2.m.log ⊆ s'.m.log := by
        split at h3
        · split at h3
          · cases h3
          · rename_i h4
            obtain ⟨hf, yy, yp, e⟩ := getSolution'_frame h4
            cases h3
            exact hf.logSub
        · cases h3; exact fun _ hx => hx
      have e1 := hsub _ _ h2 hs
      rw [e1]
      have e2 := rootFind_answers (S' := S') hR h2 (ha.of_sub hs)
      exact (congrArg (fun o => Out.bind o _) e2).trans h3
    · subst h3
      have e1 := hsub _ _ h2 (fun _ hx => hx)
      rw [e1]
      have e2 := rootFind_answers (S' := S') hR h2 ha
      exact congrArg (fun o => Out.bind o _) e2

theorem rCheck2_answers {s s' : State ν n q K} {r : Except Err RootStatus} (h : rCheck2 cfg s = .ret s' r) :
    s.m.log ⊆ s'.m.log ∧ (In A s' → rCheck2 (cfg.swap P' S') s = .ret s' r) := by
  refine ⟨(rCheck2_frame h).logSub, fun ha => ?_⟩
  unfold rCheck2 at h ⊢
  split at h
  · rename_i hi
    rw [if_pos hi]; exact h
  · rename_i hi
    rw [if_neg hi]
    split at h
    · cases h
    · rename_i s1 h1
      have e1 : In A s' → A (.root s1.r.tlo s1.m.yy s1.m.yp) := by
        intro ha
        simp only at h
        split at h
        · split at h
          · cases h
          · rename_i s2 h2
            have hs : (callRoot cfg s1 s1.r.tlo s1.m.yy s1.m.yp s1.r.glo).1.m.log ⊆ s2.m.log := by
              split at h2
              · cases h2; exact fun _ hx => hx
              · obtain ⟨hf, yy, yp, e⟩ := getSolution'_frame h2
                exact hf.logSub
            have hs2 : s2.m.log ⊆ s'.m.log := by
              split at h
              · cases h; exact fun _ hx => List.mem_cons_of_mem _ hx
              · split at h
                · cases h; exact fun _ hx => List.mem_cons_of_mem _ hx
                · cases h; exact fun _ hx => List.mem_cons_of_mem _ hx
            exact ha _ (hs2 (hs List.mem_cons_self))
        · cases h
          exact ha _ List.mem_cons_self
      have e2 := callRoot_same (S' := S') hR s1 s1.r.glo (e1 ha)
      simp only at h ⊢
      rw [e2]
      generalize callRoot cfg s1 s1.r.tlo s1.m.yy s1.m.yp s1.r.glo = p at h ⊢
      obtain ⟨s2, glo⟩ := p
      simp only at h ⊢
      split at h
      · rename_i hz
        rw [if_pos hz]
        split at h
        · cases h
        · rename_i s3 h3
          have e3 : A (.root (s2.r.tlo + rootTol s2 * Scalar.signum s2.c.hh) s3.m.yy s3.m.yp) := by
            split at h
            · cases h; exact ha _ List.mem_cons_self
            · split at h
              · cases h; exact ha _ List.mem_cons_self
              · cases h; exact ha _ List.mem_cons_self
          rw [callRoot_same (S' := S') hR s3 s3.r.ghi ?_]
          · exact h
          · exact e3
      · rename_i hz
        rw [if_neg hz]
        exact h

theorem firstCall_answers {s s' : State ν n q K} {tout : K} {r : Except Err Unit} (h : firstCall cfg s tout = .ret s' r) :
    s.m.log ⊆ s'.m.log ∧ (In A s' → firstCall (cfg.swap P' S') s tout = .ret s' r) := by
  have hi : (initialSetup cfg s).m.log = s.m.log := by unfold initialSetup; split <;> rfl
  rw [← hi]
  unfold firstCall at h ⊢
  rw [show initialSetup (cfg.swap P' S') s = initialSetup cfg s from rfl]
  generalize initialSetup cfg s = s0 at h ⊢
  simp only at h ⊢
  split at h
  · rename_i hc
    rw [if_pos hc]
    cases h
    exact ⟨fun _ hx => hx, fun _ => rfl⟩
  · rename_i hc
    rw [if_neg hc]
    rw [show ∀ s : State ν n q K, wrongWay (cfg.swap P' S') s tout = wrongWay cfg s tout from fun _ => rfl,
      show (cfg.swap P' S').hin = cfg.hin from rfl]
    split at h
    · rename_i hw
      rw [if_pos hw]
      cases h
      exact ⟨fun _ hx => hx, fun _ => rfl⟩
    · rename_i hw
      rw [if_neg hw]
      rw [show ∀ (s : State ν n q K) (td : K), firstStepSize (cfg.swap P' S') s tout td = firstStepSize cfg s tout td from
        fun _ _ => rfl]
      split at h
      · cases h
        exact ⟨fun _ hx => hx, fun _ => rfl⟩
      · rename_i s1 h1
        cases h
        have hl : s1.m.log = s0.m.log := by
          unfold firstStop at h1
          split at h1
          · split at h1
            · cases h1
            · cases h1; exact clampToStop_log _ _
          · cases h1; rfl
        rw [← hl]
        unfold firstReady
        by_cases hq : q > 0
        · simp only [if_pos hq]
          obtain ⟨e1, e2⟩ := rCheck1_answers (S' := S') hR { s1 with h0u := s1.c.hh, c.kk := 0, c.kused := 0 }
          refine ⟨e1, fun ha => ?_⟩
          rw [e2 ha]
          rfl
        · simp only [if_neg hq]
          exact ⟨fun _ hx => hx, fun _ => rfl⟩

theorem rootChecks_answers {rf : Nat} {s s' : State ν n q K} {task : Task}
    (h : (rootChecks cfg rf s task).st = some s') :
    s.m.log ⊆ s'.m.log ∧ (In A s' → rootChecks (cfg.swap P' S') rf s task = rootChecks cfg rf s task) := by
  unfold rootChecks at h ⊢
  simp only at h ⊢
  cases h2 : rCheck2 cfg s with
  | panic => rw [h2] at h; cases h
  | diverge => rw [h2] at h; cases h
  | ret s1 r1 =>
    rw [h2] at h
    obtain ⟨e1, e2⟩ := rCheck2_answers (S' := S') hR h2
    cases r1 with
    | error e =>
      have : s1 = s' := Option.some.inj h
      subst this
      exact ⟨e1, fun ha => by rw [e2 ha]⟩
    | ok a =>
      cases a with
      | rootFound =>
        have : s1.setTret s1.r.tlo = s' := Option.some.inj h
        subst this
        exact ⟨e1, fun ha => by rw [e2 ha]⟩
      | continue_ =>
        simp only at h ⊢
        split at h
        · rename_i hc
          rw [if_pos hc]
          cases h3 : rCheck3 cfg rf s1 with
          | panic => rw [h3] at h; cases h
          | diverge => rw [h3] at h; cases h
          | ret s2 r2 =>
            rw [h3] at h
            obtain ⟨e3, e4⟩ := rCheck3_answers (S' := S') hR h3
            have fin : s2.m.log = s'.m.log → s.m.log ⊆ s'.m.log ∧ (In A s' →
                In A s1 ∧ In A s2) := by
              intro e
              refine ⟨fun x hx => e ▸ e3 (e1 hx), fun ha => ?_⟩
              have h2 : In A s2 := fun c hc => ha c (e ▸ hc)
              exact ⟨h2.of_sub e3, h2⟩
            have done : s2.m.log = s'.m.log → s.m.log ⊆ s'.m.log ∧ (In A s' →
                rCheck2 (cfg.swap P' S') s = .ret s1 (.ok .continue_) ∧ rCheck3 (cfg.swap P' S') rf s1 = .ret s2 r2) :=
              fun e => ⟨(fin e).1, fun ha => ⟨e2 ((fin e).2 ha).1, e4 ((fin e).2 ha).2⟩⟩
            have hl : s2.m.log = s'.m.log := by
              cases r2 with
              | error e => exact congrArg (·.m.log) (Option.some.inj h)
              | ok b =>
                cases b with
                | rootFound => exact (congrArg (·.m.log) (Option.some.inj h) :)
                | continue_ =>
                  simp only at h
                  split at h
                  · split at h
                    · cases h
                    · rename_i h5
                      rw [← Option.some.inj h]
                      exact (getSolution'_log h5 :).symm
                  · exact (congrArg (·.m.log) (Option.some.inj h) :)
            refine ⟨(done hl).1, fun ha => ?_⟩
            obtain ⟨f1, f2⟩ := (done hl).2 ha
            rw [f1]
            simp only
            rw [if_pos hc, f2]
        · rename_i hc
          have : s1 = s' := Option.some.inj h
          subst this
          refine ⟨e1, fun ha => ?_⟩
          rw [e2 ha]
          simp only
          rw [if_neg hc, if_neg hc]

theorem laterCall_answers {rf : Nat} {s s' : State ν n q K} {tout : K} {task : Task}
    (h : (laterCall cfg rf s tout task).st = some s') :
    s.m.log ⊆ s'.m.log ∧ (In A s' → laterCall (cfg.swap P' S') rf s tout task = laterCall cfg rf s tout task) := by
  unfold laterCall at h ⊢
  by_cases hq : q > 0
  · simp only [if_pos hq] at h ⊢
    cases h1 : rootChecks cfg rf s task with
    | panic => rw [h1] at h; cases h
    | diverge => rw [h1] at h; cases h
    | ret s1 r =>
      rw [h1] at h
      have : s1 = s' := Option.some.inj h
      subst this
      obtain ⟨e1, e2⟩ := rootChecks_answers (S' := S') hR (rf := rf) (s := s) (task := task) (s' := s1) (by rw [h1]; rfl)
      exact ⟨e1, fun ha => by rw [e2 ha, h1]⟩
    | go s1 =>
      rw [h1] at h
      obtain ⟨e1, e2⟩ := rootChecks_answers (S' := S') hR (rf := rf) (s := s) (task := task) (s' := s1) (by rw [h1]; rfl)
      obtain ⟨r, e3⟩ := ofStop_st h
      have e4 := stopTest1_log e3
      refine ⟨by rw [e4]; exact e1, fun ha => ?_⟩
      rw [e2 (fun c hc => ha c (e4 ▸ hc)), h1]
  · simp only [if_neg hq] at h ⊢
    obtain ⟨r, e3⟩ := ofStop_st h
    have e4 := stopTest1_log e3
    exact ⟨by rw [e4]; exact fun _ hx => hx, fun _ => trivial⟩

theorem postStep_answers {rf : Nat} {s s' : State ν n q K} {tout : K} {task : Task}
    (h : (postStep cfg rf s tout task).st = some s') :
    s.m.log ⊆ s'.m.log ∧ (In A s' → postStep (cfg.swap P' S') rf s tout task = postStep cfg rf s tout task) := by
  unfold postStep at h ⊢
  by_cases hq : q > 0
  · simp only [if_pos hq] at h ⊢
    cases h3 : rCheck3 cfg rf s with
    | panic => rw [h3] at h; cases h
    | diverge => rw [h3] at h; cases h
    | ret s1 r1 =>
      rw [h3] at h
      obtain ⟨e1, e2⟩ := rCheck3_answers (S' := S') hR h3
      have hl : s1.m.log = s'.m.log := by
        cases r1 with
        | error e => exact congrArg (·.m.log) (Option.some.inj h)
        | ok b =>
          cases b with
          | rootFound => exact (congrArg (·.m.log) (Option.some.inj h) :)
          | continue_ =>
            obtain ⟨r, e3⟩ := ofStop_st h
            exact (stopTest2_log e3).symm
      refine ⟨fun x hx => hl ▸ e1 hx, fun ha => ?_⟩
      rw [e2 (fun c hc => ha c (hl ▸ hc))]
  · simp only [if_neg hq] at h ⊢
    obtain ⟨r, e3⟩ := ofStop_st h
    have e4 := stopTest2_log e3
    exact ⟨by rw [e4]; exact fun _ hx => hx, fun _ => trivial⟩

theorem preStep_log {s s' : State ν n q K} {k : Nat} (h : (preStep cfg s k).st = some s') : s'.m.log = s.m.log := by
  unfold preStep at h
  split at h
  · exact (congrArg (·.m.log) (Option.some.inj h) :).symm
  · split at h
    · cases h
    · rename_i s1 h1
      have hl : s1.m.log = s.m.log := by
        unfold perfCheck at h1
        split at h1
        · cases h1
        · simp only at h1
          split at h1
          · cases h1; rfl
          · split at h1
            · cases h1
            · split at h1 <;> (cases h1; rfl)
      have hw : ∀ (b : Prop) [Decidable b] (x : State ν n q K), x.m.log = s1.m.log →
          (if b then x else s1).m.log = s1.m.log := by
        intro b _ x hx
        split
        · exact hx
        · rfl
      simp only at h
      generalize he : (if s1.cnt.nst > 0 then { s1 with e.ewt := cfg.ewtSet (s1.h.phi 0) s1.e.ewt } else s1) = s2 at h
      have hl2 : s2.m.log = s.m.log := by
        rw [← he, ← hl]
        exact hw _ _ rfl
      split at h
      · split at h
        · cases h
        · rename_i h3
          rw [← Option.some.inj h, ← hl2]
          exact (getSolution'_log h3 :)
      · split at h
        · split at h
          · cases h
          · rename_i h3
            rw [← Option.some.inj h, ← hl2]
            split at h3
            · exact (getSolution'_log h3 :)
            · exact (congrArg (·.m.log) (Option.some.inj h3) :).symm
        · rw [← Option.some.inj h, ← hl2]

theorem stepFailed_log {s s' : State ν n q K} {e : Err} (h : (stepFailed s e).st = some s') : s'.m.log = s.m.log := by
  unfold stepFailed at h
  split at h
  · rename_i h1
    rw [← Option.some.inj h]
    exact (getSolution_log h1 :)
  · rename_i h1
    rw [← Option.some.inj h]
    exact (getSolution_log h1 :)
  · cases h
  · cases h

variable (hk : NlsKeepsLog cfg) (hN : SameNls A cfg.nls S')
include hk hN

theorem solvePass_answers {rf : Nat} {s s' : State ν n q K} {tout : K} {task : Task} {k : Nat}
    (h : (solvePass cfg rf s tout task k).st = some s') :
    s.m.log ⊆ s'.m.log ∧ (In A s' → solvePass (cfg.swap P' S') rf s tout task k = solvePass cfg rf s tout task k) := by
  unfold solvePass at h ⊢
  rw [show preStep (cfg.swap P' S') s k = preStep cfg s k from rfl]
  cases h1 : preStep cfg s k with
  | panic => rw [h1] at h; cases h
  | diverge => rw [h1] at h; cases h
  | ret s1 r =>
    rw [h1] at h
    have : s1 = s' := Option.some.inj h
    subst this
    have hl := preStep_log hR (s := s) (k := k) (s' := s1) (by rw [h1]; rfl)
    exact ⟨by rw [hl]; exact fun _ hx => hx, fun _ => rfl⟩
  | go s1 =>
    rw [h1] at h
    have hl := preStep_log hR (s := s) (k := k) (s' := s1) (by rw [h1]; rfl)
    simp only at h ⊢
    rw [← hl]
    cases h2 : step cfg s1 with
    | panic => rw [h2] at h; cases h
    | diverge => rw [h2] at h; cases h
    | ret s2 r =>
      rw [h2] at h
      obtain ⟨e1, e2⟩ := step_same (P' := P') hk hN h2
      cases r with
      | error e =>
        have hf := stepFailed_log hR h
        refine ⟨by rw [hf]; exact e1, fun ha => ?_⟩
        rw [e2 (fun c hc => ha c (hf ▸ hc))]
      | ok a =>
        obtain ⟨e3, e4⟩ := postStep_answers (S' := S') hR h
        refine ⟨fun x hx => e3 (e1 hx), fun ha => ?_⟩
        rw [e2 (ha.of_sub e3)]
        exact e4 ha

theorem solveLoop_answers {rf : Nat} {tout : K} {task : Task} (sf : Nat) :
    ∀ (s s' : State ν n q K) (k : Nat) (r : Except Err Status), solveLoop cfg rf tout task sf s k = .ret s' r →
      s.m.log ⊆ s'.m.log ∧ (In A s' → solveLoop (cfg.swap P' S') rf tout task sf s k = .ret s' r) := by
  induction sf with
  | zero => intro s s' k r h; cases h
  | succ sf ih =>
    intro s s' k r h
    unfold solveLoop at h ⊢
    cases h1 : solvePass cfg rf s tout task k with
    | panic => rw [h1] at h; cases h
    | diverge => rw [h1] at h; cases h
    | ret s1 r1 =>
      rw [h1] at h
      cases h
      obtain ⟨e1, e2⟩ := solvePass_answers hR hk hN (rf := rf) (s := s) (tout := tout) (task := task) (k := k) (s' := s')
        (by rw [h1]; rfl)
      refine ⟨e1, fun ha => ?_⟩
      rw [e2 ha, h1]
      rfl
    | go s1 =>
      rw [h1] at h
      obtain ⟨e1, e2⟩ := solvePass_answers hR hk hN (rf := rf) (s := s) (tout := tout) (task := task) (k := k) (s' := s1)
        (by rw [h1]; rfl)
      obtain ⟨e3, e4⟩ := ih s1 s' (k + 1) r h
      refine ⟨fun x hx => e3 (e1 hx), fun ha => ?_⟩
      rw [e2 (ha.of_sub e3), h1]
      exact e4 ha

theorem solveCore_answers {rf sf : Nat} {s0 s' : State ν n q K} {tout : K} {task : Task} {r : Except Err Status}
    (h : solveCore cfg rf sf s0 tout task = .ret s' r) :
    s0.m.log ⊆ s'.m.log ∧ (In A s' → solveCore (cfg.swap P' S') rf sf s0 tout task = .ret s' r) := by
  unfold solveCore at h ⊢
  simp only at h ⊢
  have tail : ∀ s1 : State ν n q K,
      ((if (perfReset s1).cnt.nst > 0 then laterCall cfg rf (perfReset s1) tout task else Flow.go (perfReset s1)).andThen
        fun s => solveLoop cfg rf tout task sf s 0) = .ret s' r →
      s1.m.log ⊆ s'.m.log ∧ (In A s' →
        ((if (perfReset s1).cnt.nst > 0 then laterCall (cfg.swap P' S') rf (perfReset s1) tout task
          else Flow.go (perfReset s1)).andThen fun s => solveLoop (cfg.swap P' S') rf tout task sf s 0) = .ret s' r) := by
    intro s1 h1
    split at h1
    · rename_i hn
      rw [if_pos hn]
      cases h2 : laterCall cfg rf (perfReset s1) tout task with
      | panic => rw [h2] at h1; cases h1
      | diverge => rw [h2] at h1; cases h1
      | ret s2 r2 =>
        rw [h2] at h1
        cases h1
        obtain ⟨e1, e2⟩ := laterCall_answers (S' := S') hR (rf := rf) (s := perfReset s1) (tout := tout) (task := task)
          (s' := s') (by rw [h2]; rfl)
        exact ⟨e1, fun ha => by rw [e2 ha, h2]; rfl⟩
      | go s2 =>
        rw [h2] at h1
        obtain ⟨e1, e2⟩ := laterCall_answers (S' := S') hR (rf := rf) (s := perfReset s1) (tout := tout) (task := task)
          (s' := s2) (by rw [h2]; rfl)
        obtain ⟨e3, e4⟩ := solveLoop_answers hR hk hN _ _ _ _ _ h1
        refine ⟨fun x hx => e3 (e1 hx), fun ha => ?_⟩
        rw [e2 (ha.of_sub e3), h2]
        exact e4 ha
    · rename_i hn
      rw [if_neg hn]
      exact solveLoop_answers hR hk hN _ _ _ _ _ h1
  by_cases hn : s0.cnt.nst = 0
  · rw [if_pos hn] at h ⊢
    rcases Out.bind_eq_ret h with ⟨s1, a, h1, h2⟩ | ⟨e, h1, h2⟩
    · obtain ⟨e1, e2⟩ := firstCall_answers (S' := S') hR h1
      obtain ⟨e3, e4⟩ := tail s1 h2
      refine ⟨fun x hx => e3 (e1 hx), fun ha => ?_⟩
      rw [e2 (ha.of_sub e3)]
      exact e4 ha
    · subst h2
      obtain ⟨e1, e2⟩ := firstCall_answers (S' := S') hR h1
      refine ⟨e1, fun ha => ?_⟩
      rw [e2 ha]
      rfl
  · rw [if_neg hn] at h ⊢
    exact tail s0 h

theorem solve_answers {rf sf : Nat} {s s' : State ν n q K} {tout : K} {task : Task} {r : Except Err Status}
    (h : solve cfg rf sf s tout task = .ret s' r) :
    s.m.log ⊆ s'.m.log ∧ (In A s' → solve (cfg.swap P' S') rf sf s tout task = .ret s' r) := by
  rw [solve_core] at h ⊢
  rw [← solveHead_log s tout task]
  exact solveCore_answers hR hk hN h

theorem exec_answers {rf sf : Nat} {s s' : State ν n q K} {op : Op K} {r : Res n K} (h : exec cfg rf sf s op = some (s', r)) :
    s.m.log ⊆ s'.m.log ∧ (In A s' → exec (cfg.swap P' S') rf sf s op = some (s', r)) := by
  unfold exec at h ⊢
  split at h
  · split at h
    · rename_i h1
      cases h
      obtain ⟨e1, e2⟩ := solve_answers hR hk hN h1
      exact ⟨e1, fun ha => by rw [e2 ha]⟩
    · cases h
  · split at h
    · rename_i h1
      cases h
      exact ⟨by rw [getSolution_log h1]; exact fun _ hx => hx, fun _ => rfl⟩
    · cases h
  · split at h
    · rename_i h1
      cases h
      have e := getDky_state h1
      exact ⟨by rw [e]; exact fun _ hx => hx, fun _ => rfl⟩
    · cases h

/-- The other problem gives the same session. -/
theorem Spec.Session.swap {s0 s : State ν n q K} {l : List (Nat × Nat × Op K × Res n K)} (h : Session cfg s0 l s) :
    In A s → Session (cfg.swap P' S') s0 l s := by
  induction h with
  | nil => exact fun _ => .nil
  | call rf sf op r h1 h2 ih =>
    intro ha
    obtain ⟨e1, e2⟩ := exec_answers hR hk hN h2
    exact .call rf sf op r (ih (ha.of_sub e1)) (e2 ha)

end

end Verif
