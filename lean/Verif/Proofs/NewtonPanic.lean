import Verif.Proofs.NewtonLog
import Verif.Proofs.Outcome

/-! # When a call of the standard solver stack panics (exact arithmetic) -/

set_option autoImplicit false
set_option linter.unusedSectionVars false
set_option linter.unusedSimpArgs false
set_option linter.unusedVariables false

namespace Verif

open Verif.Spec Verif.Props

universe u v

section
variable {n q : Nat} {K : Type u} [Field K] [LinearOrder K] [IsStrictOrderedRing K] [ExactParams K]

/-- The memory holds the factors of some matrix. -/
def Usable (m : Mem n K) : Prop := ∃ A p0, denseSetup n A p0 = .ok m.matJ m.piv

theorem Usable.congr {m m' : Mem n K} (h : Usable m) (h1 : m'.matJ = m.matJ) (h2 : m'.piv = m.piv) : Usable m' := by
  unfold Usable; rw [h1, h2]; exact h

theorem Factored.usable {P : Problem n q K} {m : Mem n K} (h : Factored P m) : Usable m := by
  obtain ⟨t, y, yp, r, p0, -, h1⟩ := h.fact
  exact ⟨_, _, h1⟩

/-- A Jacobian with the leading coefficient `cj` is singular somewhere. -/
def SingularAt (P : Problem n q K) (cj : K) : Prop :=
  ∃ y yp r, (asMatrix n (P.jac 0 cj y yp r (fun _ _ => 0))).det = 0

theorem lsSolve_usable (hn : 0 < n) {m : Mem n K} (h : Usable m) (b : Vec n K) :
    ∃ m' d, lsSolve m b = some (m', d) ∧ Usable m' := by
  obtain ⟨A, p0, h1⟩ := h
  obtain ⟨x, h2, -⟩ := Props.c01_dense_solve_correct hn A p0 h1 b.toFun
  unfold lsSolve
  rw [h2]
  exact ⟨_, _, rfl, A, p0, h1⟩

theorem idaCtest_usable {e : Env n K} {m : Mem n K} (h : Usable m) (vw : NlsView) (del : Vec n K) (tol : K)
    (w : Vec n K) : Usable (idaCtest e m vw del tol w).1 ∧ (idaCtest e m vw del tol w).2 ≠ .panic := by
  unfold idaCtest
  simp only
  split
  · split
    · exact ⟨h.congr rfl rfl, by simp⟩
    · exact ⟨h.congr rfl rfl, by simp⟩
  · split
    · exact ⟨h, by simp⟩
    · exact ⟨h.congr rfl rfl, by simp⟩

theorem newtonInner_usable {P : Problem n q K} {e : Env n K} (hn : 0 < n) (tol : K) (w : Vec n K) (fuel : Nat)
    {N : Newton (Vec n K)} {m : Mem n K} {y : Vec n K} (h : Usable m) :
    newtonInner (idaNLProblem P e) tol w fuel N m y ≠ .panic ∧
    ∀ N' m' y' r, newtonInner (idaNLProblem P e) tol w fuel N m y = .done N' m' y' r → Usable m' := by
  induction fuel generalizing N m y with
  | zero => exact ⟨by simp [newtonInner], by simp [newtonInner]⟩
  | succ fuel ih =>
    unfold newtonInner
    simp only
    obtain ⟨m1, d, h1, h2⟩ := lsSolve_usable hn h (-N.delta)
    have hsol : (idaNLProblem P e).solve m y (-N.delta) = (m1, d, .ok ()) := by
      show (match lsSolve m (-N.delta) with
        | none => (m, -N.delta, Cb.panic)
        | some (m, b) => (m, b, .ok ())) = _
      rw [h1]
    rw [hsol]
    simp only
    have hct : ∀ vw, Usable ((idaNLProblem P e).ctest m1 vw (y + d) d tol w).1 ∧
        ((idaNLProblem P e).ctest m1 vw (y + d) d tol w).2 ≠ .panic := fun vw => idaCtest_usable h2 vw d tol w
    generalize (Newton.view _ : NlsView) = vw
    have hv := hct vw
    cases hc : (idaNLProblem P e).ctest m1 vw (y + d) d tol w with
    | mk m2 c =>
      rw [hc] at hv
      cases c with
      | panic => exact absurd rfl hv.2
      | err er =>
        simp only
        refine ⟨by simp, fun N' m' y' r hd => ?_⟩
        cases hd
        exact hv.1
      | ok b =>
        cases b with
        | true =>
          simp only
          refine ⟨by simp, fun N' m' y' r hd => ?_⟩
          cases hd
          exact hv.1
        | false =>
          simp only
          split
          · refine ⟨by simp, fun N' m' y' r hd => ?_⟩
            cases hd
            exact hv.1
          · exact ih (Usable.congr hv.1 rfl rfl)

theorem idaSetup_cases {P : Problem n q K} (hn : 0 < n) (e : Env n K) (m : Mem n K) (F : Vec n K) :
    (idaSetup P e m F = none ∧ SingularAt P e.cj) ∨ ∃ m', idaSetup P e m F = some m' ∧ Usable m' := by
  unfold idaSetup lsSetup
  simp only
  rw [if_neg (by omega : n ≠ 0)]
  simp only
  cases hd : denseSetup n (P.jac 0 e.cj m.yy m.yp F (fun _ _ => 0)) m.piv with
  | ok a p => exact Or.inr ⟨_, rfl, _, _, hd⟩
  | err c a p =>
    exact Or.inl ⟨rfl, m.yy, m.yp, F, ((Props.c02_dense_setup_ok_iff n _ m.piv).2).1 ⟨_, _, _, hd⟩⟩
  | panic => exact absurd hd (by
      intro hd
      by_cases h0 : (asMatrix n (P.jac 0 e.cj m.yy m.yp F (fun _ _ => 0))).det = 0
      · obtain ⟨c, M, p, h1⟩ := ((Props.c02_dense_setup_ok_iff n _ m.piv).2).2 h0
        rw [hd] at h1
        cases h1
      · obtain ⟨M, p, h1⟩ := ((Props.c02_dense_setup_ok_iff n _ m.piv).1).2 h0
        rw [hd] at h1
        cases h1)

theorem newtonAttempt_usable {P : Problem n q K} {e : Env n K} (hn : 0 < n) (tol : K) (w : Vec n K) {c jb : Bool}
    {N : Newton (Vec n K)} {m : Mem n K} {y : Vec n K} (h : c = false → Usable m) :
    (newtonAttempt (idaNLProblem P e) vzero tol w c jb N m y = .panic → SingularAt P e.cj) ∧
    ∀ N' m' y' r, newtonAttempt (idaNLProblem P e) vzero tol w c jb N m y = .done N' m' y' r → Usable m' := by
  unfold newtonAttempt
  simp only [idaNLProblem]
  cases c with
  | false =>
    simp only [Bool.false_eq_true, if_false]
    have hu : Usable (idaSys P e m vzero N.delta).1 := (h rfl).congr rfl rfl
    obtain ⟨h1, h2⟩ := newtonInner_usable (P := P) (e := e) hn tol w (N.maxiters + 1)
      (N := { N with delta := (idaSys P e m vzero N.delta).2, curiter := 0 }) (y := vzero) hu
    exact ⟨fun hp => absurd hp h1, h2⟩
  | true =>
    simp only [if_true]
    rcases idaSetup_cases (P := P) hn e (idaSys P e m vzero N.delta).1 (idaSys P e m vzero N.delta).2 with
      ⟨h1, h2⟩ | ⟨m1, h1, h2⟩
    · rw [h1]
      exact ⟨fun _ => h2, fun N' m' y' r hd => by cases hd⟩
    · rw [h1]
      obtain ⟨h3, h4⟩ := newtonInner_usable (P := P) (e := e) hn tol w (N.maxiters + 1)
        (N := { N with delta := (idaSys P e m vzero N.delta).2, jcur := true, curiter := 0 }) (y := vzero) h2
      exact ⟨fun hp => absurd hp h3, h4⟩

theorem newtonOuter_panic {P : Problem n q K} {e : Env n K} (hn : 0 < n) (tol : K) (w : Vec n K) (fuel : Nat) {c jb : Bool}
    {N : Newton (Vec n K)} {m : Mem n K} {y : Vec n K} (h : c = false → Usable m)
    (hp : newtonOuter (idaNLProblem P e) vzero tol w fuel c jb N m y = .panic) : SingularAt P e.cj := by
  induction fuel generalizing c jb N m y with
  | zero => cases hp
  | succ fuel ih =>
    unfold newtonOuter at hp
    obtain ⟨h1, h2⟩ := newtonAttempt_usable (P := P) (e := e) hn tol w (jb := jb) (N := N) (y := y) h
    cases ha : newtonAttempt (idaNLProblem P e) vzero tol w c jb N m y with
    | panic => exact h1 ha
    | diverge => rw [ha] at hp; cases hp
    | done N' m' y' r =>
      have hu := h2 _ _ _ _ ha
      rw [ha] at hp
      cases r with
      | ok u => cases hp
      | error er =>
        simp only at hp
        split at hp
        · split at hp
          · exact ih (fun _ => hu) hp
          · exact ih (fun _ => hu) hp
        · cases hp

/-- A panic of the nonlinear solve: the Jacobian is singular for the leading coefficient of the attempt. -/
theorem newton_panic {P : Problem n q K} {tol : TolControl n K} {fuel : Nat} (hn : 0 < n)
    {s : State (Newton (Vec n K)) n q K} (hI : LogInv (StoryInv P) s)
    (h : nlsCall (Cfg.newton P tol fuel) s = .panic) : SingularAt P (leadCoef s) := by
  have h5 : (newtonNls P fuel).solve s.nls (tried s).e (nlsPrepare (tried s)).1 vzero s.ee s.e.ewt s.epsNewt
    (nlsPrepare (tried s)).2 = .panic := h
  unfold newtonNls at h5
  simp only at h5
  split at h5
  · cases h5
  · rename_i h6
    unfold newtonSolve at h6
    obtain ⟨e1, e2, e3, e4, e5, e6⟩ := nlsPrepare_eq (tried s)
    refine newtonOuter_panic (e := (tried s).e) hn _ _ _ (fun hc => ?_) h6
    obtain ⟨hn0, -, -⟩ := e6 hc
    exact (hI.1.fact (hI.2 (Nat.pos_of_ne_zero hn0))).usable.congr e2 e3
  · cases h5

end

section
variable {ν : Type v} {n q : Nat} {K : Type u} [Field K] [LinearOrder K] [IsStrictOrderedRing K] [ExactParams K]
  [EpsLaws K]

theorem same_sign {d a b : K} (h1 : 0 < d * a) (h2 : 0 < a * b) : 0 < d * b := by
  have h := mul_pos h1 h2
  have e : d * a * (a * b) = d * b * (a * a) := by ring
  rw [e] at h
  exact pos_left_of_mul_pos h (mul_self_nonneg a)

/-- The step loop of a call that integrates in the direction of `d`. -/
structure Going (cfg : Cfg ν n q K) (rf : Nat) (s : State ν n q K) (tout : K) (task : Task) (d : K) (p : State ν n q K)
    (k : Nat) : Prop where
  at_ : LoopAt cfg rf s tout task p k
  ctl0 : CtlInv cfg s
  ctl : CtlInv cfg p
  dir : 0 < d * p.c.hh

/-- Before a step. -/
structure GoStep (cfg : Cfg ν n q K) (d : K) (p : State ν n q K) : Prop where
  ctl : CtlInv cfg p
  dir : 0 < d * p.c.hh
  hmax : |p.c.hh| * cfg.hmaxInv ≤ 1
  within : Within p.tstop p.e.tn p.c.hh

theorem Going.ready {cfg : Cfg ν n q K} {rf : Nat} {s p p1 : State ν n q K} {tout d : K} {task : Task} {k : Nat}
    (hl : NlsLegal cfg) (hm : 0 ≤ cfg.hmaxInv) (h : Going cfg rf s tout task d p k) (hp : preStep cfg p k = .go p1) :
    GoStep cfg d p1 := by
  obtain ⟨m1, m2, m3, m4, -⟩ := preStep_micro.1 p1 hp
  rcases Nat.eq_zero_or_pos p.cnt.nst with h0 | h0
  · have hn := h.at_.nst
    have hk : k = 0 := by omega
    have hs0 : s.cnt.nst = 0 := by omega
    obtain ⟨s1, h1, h2⟩ := h.at_.first hs0 hk
    have hf := m4 h0
    have hb := (begun_same s tout task).2.2.2
    have hF : Frame (perfReset s1) p1 := by rw [← h2]; exact hf
    obtain ⟨g1, -, g3, g4, -, -⟩ := firstStep_start hm (h.ctl0.of_frame hm hb) (by rw [hb.cnt]; exact hs0) h1 hF
    exact ⟨g1, by rw [hf.c]; exact h.dir, g3, g4⟩
  · obtain ⟨c1, c2⟩ := onward_micros hl hm h.ctl h0 m1
    have hn1 : 0 < p1.cnt.nst := c2.nst
    exact ⟨c1, same_sign h.dir c2.dir, c1.hmax hn1, (m3 (h.at_.ready h0).2).within⟩

theorem Going.next {cfg : Cfg ν n q K} {rf : Nat} {s p p' : State ν n q K} {tout d : K} {task : Task} {k : Nat}
    (hl : NlsLegal cfg) (hm : 0 ≤ cfg.hmaxInv) (h : Going cfg rf s tout task d p k)
    (hp : solvePass cfg rf p tout task k = .go p') : Going cfg rf s tout task d p' (k + 1) := by
  have hat := loopAt_next h.at_ hp
  unfold solvePass at hp
  cases hpre : preStep cfg p k with
  | panic => rw [hpre] at hp; cases hp
  | diverge => rw [hpre] at hp; cases hp
  | ret s1 r1 => rw [hpre] at hp; cases hp
  | go p1 =>
    rw [hpre] at hp
    simp only at hp
    have hR := h.ready hl hm hpre
    cases hst : step cfg p1 with
    | panic => rw [hst] at hp; cases hp
    | diverge => rw [hst] at hp; cases hp
    | ret p2 r2 =>
      rw [hst] at hp
      cases r2 with
      | error e => exact absurd hp stepFailed_go
      | ok u =>
        have h0 : p1.c.hh ≠ 0 := right_ne_zero_of_mul hR.dir.ne'
        rcases step_ctl hl hm hR.hmax hR.within hst with ⟨-, hD⟩ | ⟨e, he, -⟩
        · have hc2 := ctlInv_done hm hR.ctl h0 hR.hmax hR.within hD
          obtain ⟨o1, o2, -⟩ := onward_done h0 hD
          have hM := ((postStep_ok (cfg := cfg) (rf := rf) (tout := tout) (task := task) o1).go _ hp).1
          obtain ⟨c1, c2⟩ := onward_micros hl hm hc2 o1 hM
          exact ⟨hat, h.ctl0, c1, same_sign (same_sign hR.dir o2) c2.dir⟩
        · cases he

/-- The direction of a call: that of the output time in the first call, that of the steps made so far afterwards. -/
def callDir (s : State ν n q K) (tout : K) : K := if s.cnt.nst = 0 then tout - s.e.tn else s.c.hh

theorem going_first {cfg : Cfg ν n q K} {rf : Nat} {s s1 : State ν n q K} {tout : K} {task : Task}
    (hl : NlsLegal cfg) (hm : 0 ≤ cfg.hmaxInv) (hC : CtlInv cfg s) (h0 : s.cnt.nst = 0)
    (h : firstCall cfg (begun s tout task) tout = .ret s1 (.ok ())) :
    Going cfg rf s tout task (callDir s tout) (perfReset s1) 0 := by
  have hb := (begun_same s tout task).2.2.2
  obtain ⟨g1, g2, -, -, -, g5⟩ := firstStep_start hm (hC.of_frame hm hb) (by rw [hb.cnt]; exact h0) h
    (s2 := perfReset s1) (Frame.refl _)
  refine ⟨loopAt_first h0 h, hC, g1, ?_⟩
  unfold callDir
  rw [if_pos h0]
  rw [g5, hb.e] at g2
  exact g2

theorem going_later {cfg : Cfg ν n q K} {rf : Nat} {s s1 : State ν n q K} {tout : K} {task : Task}
    (hl : NlsLegal cfg) (hm : 0 ≤ cfg.hmaxInv) (hC : CtlInv cfg s) (h0 : 0 < s.cnt.nst)
    (h : laterCall cfg rf (perfReset (begun s tout task)) tout task = .go s1) :
    Going cfg rf s tout task (callDir s tout) s1 0 := by
  have hat := loopAt_later h0 h
  have hM := (hat.ready (by rw [hat.nst]; omega)).1
  obtain ⟨c1, c2⟩ := onward_micros hl hm hC h0 hM
  refine ⟨hat, hC, c1, ?_⟩
  unfold callDir
  rw [if_neg (by omega)]
  exact c2.dir

end

section
variable {n q : Nat} {K : Type u} [Field K] [LinearOrder K] [IsStrictOrderedRing K] [ExactParams K] [EpsLaws K]

/-- A panic of a step: the Jacobian is singular for a leading coefficient `H_k / h` with `1 ≤ k ≤ 5` and `h` in the
direction of the step. -/
theorem newton_step_panic {P : Problem n q K} {tol : TolControl n K} {fuel : Nat} (hn : 0 < n)
    {p : State (Newton (Vec n K)) n q K} (hI : LogInv (StoryInv P) p) (hS : Sane (Cfg.newton P tol fuel) p) {d : K}
    (hR : GoStep (Cfg.newton P tol fuel) d p) (h : step (Cfg.newton P tol fuel) p = .panic) :
    ∃ k hh, 1 ≤ k ∧ k ≤ 5 ∧ 0 < d * hh ∧ SingularAt P (harmonicSum K k / hh) := by
  have hl := newton_legal P tol fuel
  obtain ⟨s1, ⟨h1, h2⟩, h3, h4⟩ := step_panic (cfg := Cfg.newton P tol fuel)
    (fun s => CtlLoop p s ∧ LogInv (StoryInv P) s) hl rfl (show 1 ≤ 5 by decide) (show 5 < 6 by decide)
    (fun a f a' f' ha hA => by
      obtain ⟨err, x, y, s5, s6, g1, g2, rfl⟩ := attempt_again' hl hA
      refine ⟨(ctlLoop_handled hR.within ha.1 g1 g2).of_reset _, ?_⟩
      have hatt := attempt_again_attempted hA
      refine ⟨storyInv_attempted ha.2.1 ha.2.2 hatt, fun _ => ?_⟩
      obtain ⟨t0, m1, ee, r, out, -, -, g, -⟩ := hatt
      rw [g]
      simp)
    hS.ord ⟨ctlLoop_init p, by
      have hi := firstStepInit_cnt p
      have hmm : (firstStepInit p).m = p.m := by unfold firstStepInit; split <;> rfl
      unfold LogInv
      rw [hmm, hi.2.1, hi.1]
      exact hI⟩ h
  obtain ⟨c, c1, c2, c3⟩ := h1.hh
  refine ⟨s1.c.kk, s1.c.hh, h3.kk1, h3.kkm, ?_, ?_⟩
  · rw [c3]
    have := mul_pos c1 hR.dir
    linarith [this, mul_left_comm c d p.c.hh]
  · rw [← leadCoef_eq]
    exact newton_panic hn h2 h4

theorem newton_solve_panic {P : Problem n q K} {tol : TolControl n K} {fuel : Nat} (hn : 0 < n) {rf sf : Nat}
    {s : State (Newton (Vec n K)) n q K} {tout : K} {task : Task} (hC : CtlInv (Cfg.newton P tol fuel) s)
    (hS : Sane (Cfg.newton P tol fuel) s) (hL : LogInv (StoryInv P) s)
    (h : solve (Cfg.newton P tol fuel) rf sf s tout task = .panic) :
    ∃ k hh, 1 ≤ k ∧ k ≤ 5 ∧ 0 < callDir s tout * hh ∧ SingularAt P (harmonicSum K k / hh) := by
  by_contra hno
  have hl := newton_legal P tol fuel
  have hm : (0 : K) ≤ (Cfg.newton P tol fuel).hmaxInv := le_refl _
  have hm1 : 1 ≤ (Cfg.newton P tol fuel).maxord := show 1 ≤ 5 by decide
  have hm5 : (Cfg.newton P tol fuel).maxord ≤ 5 := show 5 ≤ 5 by decide
  have hatt : ∀ s s' : State (Newton (Vec n K)) n q K, StoryInv P s.m s.g.atts → (0 < s.cnt.nst → s.g.atts ≠ []) →
      Attempted (Cfg.newton P tol fuel) s s' → StoryInv P s'.m s'.g.atts := fun _ _ a b c => storyInv_attempted a b c
  have hb := (begun_same s tout task).2.2.2
  have key : ∀ p, Going (Cfg.newton P tol fuel) rf s tout task (callDir s tout) p 0 → Sane (Cfg.newton P tol fuel) p →
      LogInv (StoryInv P) p → solveLoop (Cfg.newton P tol fuel) rf tout task sf p 0 ≠ .panic := by
    intro p hg hs hi
    refine solveLoop_noPanic hl hm1 hm5 (fun p k => Going (Cfg.newton P tol fuel) rf s tout task (callDir s tout) p k ∧
      Sane (Cfg.newton P tol fuel) p ∧ LogInv (StoryInv P) p) (fun p k hI => hI.2.1) ?_ ?_ sf ⟨hg, hs, hi⟩
    · intro p k p1 hI hpre hst
      have hM := (preStep_micro.1 p1 hpre).1
      exact hno (newton_step_panic hn (hI.2.2.micros storyInv_root hatt hM) (hI.2.1.micros hl hm1 hM)
        (hI.1.ready hl hm hpre) hst)
    · intro p k p' hI hp
      refine ⟨hI.1.next hl hm hp, hI.2.1.pass hl hm1 hp, ?_⟩
      have hat := loopAt_next hI.1.at_ hp
      have hM := (hat.ready (by rw [hat.nst]; omega)).1
      exact hL.micros storyInv_root hatt hM
  rw [solve_eq] at h
  have hs0 : Sane (Cfg.newton P tol fuel) (begun s tout task) := hS.micros hl hm1 (Micros.frame hb)
  have hl0 : LogInv (StoryInv P) (begun s tout task) := hL.frame storyInv_root hb
  split at h
  · rename_i h0
    refine bind_noPanic (firstCall_noPanic (cfg := Cfg.newton P tol fuel)).1 ?_ h
    intro s1 _ h1
    have hx : LogInv (StoryInv P) s1 := hl0.firstCall storyInv_root h1
    refine key _ (going_first hl hm hC h0 h1) ?_ hx
    exact ⟨ordInv_perf (ordInv_first (by rw [hb.cnt]; exact h0) h1 hs0.ord), perfReset_ok _⟩
  · rename_i h0
    have hp : 0 < s.cnt.nst := Nat.pos_of_ne_zero h0
    have hp' : 0 < (perfReset (begun s tout task)).cnt.nst := by
      show 0 < (begun s tout task).cnt.nst; rw [hb.cnt]; exact hp
    have hs2 : Sane (Cfg.newton P tol fuel) (perfReset (begun s tout task)) := hs0.micros hl hm1 (.single (.perf _))
    unfold Flow.andThen at h
    split at h
    · rename_i s3 h3
      have hM := ((laterCall_ok (cfg := Cfg.newton P tol fuel) (rf := rf) (tout := tout) (task := task) hp').go _ h3).1
      exact key _ (going_later hl hm hC hp h3) (hs2.micros hl hm1 hM)
        (LogInv.micros storyInv_root hatt (s := perfReset (begun s tout task)) hl0 hM) h
    · cases h
    · rename_i h3
      exact laterCall_noPanic (hs2.kused5 hm5) h3
    · cases h

end

end Verif
