import Verif.Proofs.CallLog
import Verif.Proofs.Nls
import Verif.Proofs.Outcome
import Verif.Proofs.NoPanic
import Verif.Proofs.RoundSolve

/-! # Where a call can panic with the standard solver stack (any scalar type) -/

set_option autoImplicit false
set_option linter.unusedSectionVars false
set_option linter.unusedSimpArgs false
set_option linter.unusedVariables false

namespace Verif.PanicAny

open Verif.Spec Verif.Proofs

universe u v

section
variable {n q : Nat} {K : Type u} [Scalar K]

/-- The factorization of a square matrix succeeds with pivots in range or fails. -/
theorem rfLoop_any (A : Mat K) {p0 : Nat → Nat} (h0 : ∀ t, t < n → p0 t < n) (c : Nat) (hc : c ≤ n) :
    (∃ M p, rfLoop n n A p0 c = .ok M p ∧ ∀ t, t < n → p t < n) ∨ ∃ col M p, rfLoop n n A p0 c = .err col M p := by
  induction c with
  | zero => exact Or.inl ⟨A, p0, rfl, h0⟩
  | succ c ih =>
    simp only [rfLoop]
    rcases ih (by omega) with ⟨M, p, h, hp⟩ | ⟨col, M, p, h⟩
    · rw [h]
      simp only [rfStep]
      have hr := pivotSearch_range M n c (by omega)
      rw [if_neg (by simp; omega)]
      split
      · exact Or.inr ⟨_, _, _, rfl⟩
      · refine Or.inl ⟨_, _, rfl, fun t ht => ?_⟩
        unfold upd
        split
        · exact hr.2
        · exact hp t ht
    · rw [h]; exact Or.inr ⟨col, M, p, rfl⟩

theorem setup_any (A : Mat K) {p0 : Nat → Nat} (h0 : ∀ t, t < n → p0 t < n) :
    (∃ M p, denseSetup n A p0 = .ok M p ∧ ∀ t, t < n → p t < n) ∨ ∃ col M p, denseSetup n A p0 = .err col M p := by
  unfold denseSetup denseGetRf
  rw [if_neg (lt_irrefl n)]
  exact rfLoop_any A h0 n (le_refl n)

/-- The stored pivots are row numbers. -/
def PivIn (m : Mem n K) : Prop := ∀ t, t < n → m.piv t < n

/-- The factorization of a Jacobian with the leading coefficient `cj` fails. -/
def FailsAt (P : Problem n q K) (cj : K) : Prop :=
  ∃ (y yp r : Vec n K) (p0 : Nat → Nat) (col : Nat) (M : Mat K) (p : Nat → Nat),
    denseSetup n (P.jac 0 cj y yp r (fun _ _ => 0)) p0 = .err col M p

theorem PivIn.congr {m m' : Mem n K} (h : PivIn m) (h2 : m'.piv = m.piv) : PivIn m' := by
  unfold PivIn; rw [h2]; exact h

theorem lsSolve_any (hn : 0 < n) {m : Mem n K} (h : PivIn m) (b : Vec n K) :
    ∃ m' d, lsSolve m b = some (m', d) ∧ PivIn m' := by
  unfold lsSolve denseSolve denseGetRs
  rw [permuteB_eq' m.piv b.toFun n (le_refl n) h]
  simp only
  rw [if_neg (by omega)]
  exact ⟨_, _, rfl, h⟩

theorem idaCtest_any {e : Env n K} {m : Mem n K} (h : PivIn m) (vw : NlsView) (del : Vec n K) (tol : K)
    (w : Vec n K) : PivIn (idaCtest e m vw del tol w).1 ∧ (idaCtest e m vw del tol w).2 ≠ .panic := by
  unfold idaCtest
  simp only
  split
  · split
    · exact ⟨h.congr rfl, by simp⟩
    · exact ⟨h.congr rfl, by simp⟩
  · split
    · exact ⟨h, by simp⟩
    · exact ⟨h.congr rfl, by simp⟩

theorem newtonInner_any {P : Problem n q K} {e : Env n K} (hn : 0 < n) (tol : K) (w : Vec n K) (fuel : Nat)
    {N : Newton (Vec n K)} {m : Mem n K} {y : Vec n K} (h : PivIn m) :
    newtonInner (idaNLProblem P e) tol w fuel N m y ≠ .panic ∧
    ∀ N' m' y' r, newtonInner (idaNLProblem P e) tol w fuel N m y = .done N' m' y' r → PivIn m' := by
  induction fuel generalizing N m y with
  | zero => exact ⟨by simp [newtonInner], by simp [newtonInner]⟩
  | succ fuel ih =>
    unfold newtonInner
    simp only
    obtain ⟨m1, d, h1, h2⟩ := lsSolve_any hn h (-N.delta)
    have hsol : (idaNLProblem P e).solve m y (-N.delta) = (m1, d, .ok ()) := by
      show (match lsSolve m (-N.delta) with
        | none => (m, -N.delta, Cb.panic)
        | some (m, b) => (m, b, .ok ())) = _
      rw [h1]
    rw [hsol]
    simp only
    have hct : ∀ vw, PivIn ((idaNLProblem P e).ctest m1 vw (y + d) d tol w).1 ∧
        ((idaNLProblem P e).ctest m1 vw (y + d) d tol w).2 ≠ .panic := fun vw => idaCtest_any h2 vw d tol w
    generalize (Newton.view _ : NlsView) = vw
    have hv := hct vw
    cases hc : (idaNLProblem P e).ctest m1 vw (y + d) d tol w with
    | mk m2 c =>
      rw [hc] at hv
      cases c with
      | panic => exact absurd rfl hv.2
      | err er =>
        simp only
        refine ⟨by simp, fun N' m' y' r hd => ?_⟩
        cases hd
        exact hv.1
      | ok b =>
        cases b with
        | true =>
          simp only
          refine ⟨by simp, fun N' m' y' r hd => ?_⟩
          cases hd
          exact hv.1
        | false =>
          simp only
          split
          · refine ⟨by simp, fun N' m' y' r hd => ?_⟩
            cases hd
            exact hv.1
          · exact ih (PivIn.congr hv.1 rfl)

theorem idaSetup_any {P : Problem n q K} (hn : 0 < n) (e : Env n K) {m : Mem n K} (F : Vec n K) (h : PivIn m) :
    (idaSetup P e m F = none ∧ FailsAt P e.cj) ∨ ∃ m', idaSetup P e m F = some m' ∧ PivIn m' := by
  unfold idaSetup lsSetup
  simp only
  rw [if_neg (by omega : n ≠ 0)]
  simp only
  rcases setup_any (P.jac 0 e.cj m.yy m.yp F (fun _ _ => 0)) h with ⟨M, p, h1, h2⟩ | ⟨c, M, p, h1⟩
  · rw [h1]; exact Or.inr ⟨_, rfl, h2⟩
  · rw [h1]; exact Or.inl ⟨rfl, m.yy, m.yp, F, _, _, _, _, h1⟩

theorem newtonAttempt_any {P : Problem n q K} {e : Env n K} (hn : 0 < n) (tol : K) (w : Vec n K) {c jb : Bool}
    {N : Newton (Vec n K)} {m : Mem n K} {y : Vec n K} (h : PivIn m) :
    (newtonAttempt (idaNLProblem P e) vzero tol w c jb N m y = .panic → FailsAt P e.cj) ∧
    ∀ N' m' y' r, newtonAttempt (idaNLProblem P e) vzero tol w c jb N m y = .done N' m' y' r → PivIn m' := by
  unfold newtonAttempt
  simp only [idaNLProblem]
  have hu : PivIn (idaSys P e m vzero N.delta).1 := h.congr rfl
  cases c with
  | false =>
    simp only [Bool.false_eq_true, if_false]
    obtain ⟨h1, h2⟩ := newtonInner_any (P := P) (e := e) hn tol w (N.maxiters + 1)
      (N := { N with delta := (idaSys P e m vzero N.delta).2, curiter := 0 }) (y := vzero) hu
    exact ⟨fun hp => absurd hp h1, h2⟩
  | true =>
    simp only [if_true]
    rcases idaSetup_any (P := P) hn e (idaSys P e m vzero N.delta).2 hu with ⟨h1, h2⟩ | ⟨m1, h1, h2⟩
    · rw [h1]
      exact ⟨fun _ => h2, fun N' m' y' r hd => by cases hd⟩
    · rw [h1]
      obtain ⟨h3, h4⟩ := newtonInner_any (P := P) (e := e) hn tol w (N.maxiters + 1)
        (N := { N with delta := (idaSys P e m vzero N.delta).2, jcur := true, curiter := 0 }) (y := vzero) h2
      exact ⟨fun hp => absurd hp h3, h4⟩

theorem newtonOuter_any {P : Problem n q K} {e : Env n K} (hn : 0 < n) (tol : K) (w : Vec n K) (fuel : Nat) {c jb : Bool}
    {N : Newton (Vec n K)} {m : Mem n K} {y : Vec n K} (h : PivIn m) :
    (newtonOuter (idaNLProblem P e) vzero tol w fuel c jb N m y = .panic → FailsAt P e.cj) ∧
    ∀ N' m' y' r, newtonOuter (idaNLProblem P e) vzero tol w fuel c jb N m y = .done N' m' y' r → PivIn m' := by
  induction fuel generalizing c jb N m y with
  | zero => exact ⟨fun hp => by (cases hp), fun N' m' y' r hd => by (cases hd)⟩
  | succ fuel ih =>
    unfold newtonOuter
    obtain ⟨h1, h2⟩ := newtonAttempt_any (P := P) (e := e) hn tol w (c := c) (jb := jb) (N := N) (y := y) h
    cases ha : newtonAttempt (idaNLProblem P e) vzero tol w c jb N m y with
    | panic => exact ⟨fun _ => h1 ha, fun N' m' y' r hd => by cases hd⟩
    | diverge => exact ⟨fun hp => by (cases hp), fun N' m' y' r hd => by (cases hd)⟩
    | done N' m' y' r =>
      have hu := h2 _ _ _ _ ha
      cases r with
      | ok u => exact ⟨fun hp => by (cases hp), fun N' m' y' r hd => by (cases hd; exact hu)⟩
      | error er =>
        simp only
        split
        · split
          · exact ih hu
          · exact ih hu
        · exact ⟨fun hp => by (cases hp), fun N' m' y' r hd => by (cases hd; exact hu)⟩

theorem nlsPrepare_piv {ν : Type v} (s : State ν n q K) : (nlsPrepare s).1.piv = s.m.piv := by
  unfold nlsPrepare
  by_cases hn : s.cnt.nst = 0
  · simp only [hn, decide_true, if_true, Bool.true_or]
    split <;> rfl
  · simp only [hn, decide_false, Bool.false_eq_true, if_false, Bool.false_or]
    split <;> rfl

/-- The invariant in the form of `LogInv`. -/
def PivInv (m : Mem n K) (_ : List (Att n K)) : Prop := PivIn m

theorem nlsCall_any {P : Problem n q K} {tol : TolControl n K} {fuel : Nat} (hn : 0 < n)
    {s : State (Newton (Vec n K)) n q K} (hI : PivIn s.m) :
    (nlsCall (Cfg.newton P tol fuel) s = .panic → FailsAt P (leadCoef s)) ∧
    ∀ N m ee r, nlsCall (Cfg.newton P tol fuel) s = .ret N m ee r → PivIn m := by
  have h0 : PivIn (nlsPrepare (tried s)).1 := PivIn.congr (m := s.m) hI (nlsPrepare_piv (tried s))
  obtain ⟨h1, h2⟩ := newtonOuter_any (P := P) (e := (tried s).e) hn s.epsNewt s.e.ewt fuel
    (c := (nlsPrepare (tried s)).2) (jb := false) (N := s.nls) (y := s.ee) h0
  have e : nlsCall (Cfg.newton P tol fuel) s = (newtonNls P fuel).solve s.nls (tried s).e (nlsPrepare (tried s)).1 vzero
    s.ee s.e.ewt s.epsNewt (nlsPrepare (tried s)).2 := rfl
  rw [e]
  unfold newtonNls newtonSolve
  simp only
  split
  · rename_i h6
    refine ⟨fun hp => by (cases hp), fun N m ee r hr => ?_⟩
    cases hr
    exact h2 _ _ _ _ h6
  · rename_i h6
    exact ⟨fun _ => h1 h6, fun N m ee r hr => by (cases hr)⟩
  · exact ⟨fun hp => by (cases hp), fun N m ee r hr => by (cases hr)⟩

theorem pivInv_attempted {P : Problem n q K} {tol : TolControl n K} {fuel : Nat} (hn : 0 < n)
    {s s' : State (Newton (Vec n K)) n q K} (hI : PivInv s.m s.g.atts)
    (h : Attempted (Cfg.newton P tol fuel) s s') : PivInv s'.m s'.g.atts := by
  obtain ⟨t0, m1, ee, r, out, h1, h2, h3, h4⟩ := h
  have := (nlsCall_any hn hI).2 _ _ _ _ h1
  show PivIn s'.m
  rw [h2]
  exact this.congr rfl

theorem pivInv_root (m m' : Mem n K) (a : List (Att n K)) (l : List (UCall n K)) (hI : PivInv m a)
    (h1 : m'.core = m.core) (h2 : m'.log = l ++ m.log) (h3 : ∀ x ∈ l, x.isRoot = true) : PivInv m' a :=
  PivIn.congr (m := m) hI (by have := congrArg Mem.piv h1; exact this)

theorem reach_piv {P : Problem n q K} {tol : TolControl n K} {fuel : Nat} (hn : 0 < n)
    {s : State (Newton (Vec n K)) n q K} (h : Reach (Cfg.newton P tol fuel) s) : LogInv PivInv s :=
  Reach.logInv2 pivInv_root (fun _ _ hI _ hA => pivInv_attempted hn hI hA) (fun _ _ _ t _ => hn) h

/-- A panic of a step comes from a failed factorization in one of its attempts. -/
theorem step_any {P : Problem n q K} {tol : TolControl n K} {fuel : Nat} (hn : 0 < n)
    {p : State (Newton (Vec n K)) n q K} (I : State (Newton (Vec n K)) n q K → Prop) (h0 : I (firstStepInit p))
    (hI : ∀ a f b f', I a → attempt (Cfg.newton P tol fuel) p.e.tn a f = .again b f' → I b)
    (hL : LogInv PivInv p) (hS : Sane (Cfg.newton P tol fuel) p) (h : step (Cfg.newton P tol fuel) p = .panic) :
    ∃ s1, I s1 ∧ 1 ≤ s1.c.kk ∧ s1.c.kk ≤ 5 ∧ FailsAt P (leadCoef s1) := by
  have hl := newton_legal P tol fuel
  obtain ⟨s1, ⟨h1, h2⟩, h3, h4⟩ := step_panic (cfg := Cfg.newton P tol fuel)
    (fun s => I s ∧ LogInv PivInv s) hl rfl (show 1 ≤ 5 by decide) (show 5 < 6 by decide)
    (fun a f a' f' ha hA => by
      refine ⟨hI _ _ _ _ ha.1 hA, ?_⟩
      have hatt := attempt_again_attempted hA
      refine ⟨pivInv_attempted hn ha.2.1 hatt, fun _ => ?_⟩
      obtain ⟨t0, m1, ee, r, out, -, -, g, -⟩ := hatt
      rw [g]
      simp)
    hS.ord ⟨h0, by
      have hi := firstStepInit_cnt p
      have hmm : (firstStepInit p).m = p.m := by unfold firstStepInit; split <;> rfl
      unfold LogInv
      rw [hmm, hi.2.1, hi.1]
      exact hL⟩ h
  exact ⟨s1, h1, h3.kk1, h3.kkm, (nlsCall_any hn h2.1).1 h4⟩

/-- A call that panics: some step of its loop does. -/
theorem solve_any {P : Problem n q K} {tol : TolControl n K} {fuel : Nat} (hn : 0 < n) {rf sf : Nat}
    {s : State (Newton (Vec n K)) n q K} {tout : K} {task : Task} (I : State (Newton (Vec n K)) n q K → Nat → Prop)
    (hfirst : ∀ s1, s.cnt.nst = 0 → firstCall (Cfg.newton P tol fuel) (begun s tout task) tout = .ret s1 (.ok ()) →
      I (perfReset s1) 0)
    (hlater : ∀ s1, 0 < s.cnt.nst → laterCall (Cfg.newton P tol fuel) rf (perfReset (begun s tout task)) tout task = .go s1 →
      I s1 0)
    (hnext : ∀ p k p', I p k → LoopAt (Cfg.newton P tol fuel) rf s tout task p k →
      solvePass (Cfg.newton P tol fuel) rf p tout task k = .go p' → I p' (k + 1))
    (hS : Sane (Cfg.newton P tol fuel) s) (hL : LogInv PivInv s)
    (h : solve (Cfg.newton P tol fuel) rf sf s tout task = .panic) :
    ∃ p k p1, I p k ∧ LoopAt (Cfg.newton P tol fuel) rf s tout task p k ∧ preStep (Cfg.newton P tol fuel) p k = .go p1 ∧
      LogInv PivInv p1 ∧ Sane (Cfg.newton P tol fuel) p1 ∧ step (Cfg.newton P tol fuel) p1 = .panic := by
  by_contra hno
  have hl := newton_legal P tol fuel
  have hm1 : 1 ≤ (Cfg.newton P tol fuel).maxord := show 1 ≤ 5 by decide
  have hm5 : (Cfg.newton P tol fuel).maxord ≤ 5 := show 5 ≤ 5 by decide
  have hatt : ∀ s s' : State (Newton (Vec n K)) n q K, PivInv s.m s.g.atts → (0 < s.cnt.nst → s.g.atts ≠ []) →
      Attempted (Cfg.newton P tol fuel) s s' → PivInv s'.m s'.g.atts := fun _ _ a b c => pivInv_attempted hn a c
  have hb := (begun_same s tout task).2.2.2
  have key : ∀ p, I p 0 → LoopAt (Cfg.newton P tol fuel) rf s tout task p 0 → Sane (Cfg.newton P tol fuel) p →
      LogInv PivInv p → solveLoop (Cfg.newton P tol fuel) rf tout task sf p 0 ≠ .panic := by
    intro p hg ha hs hi
    refine solveLoop_noPanic hl hm1 hm5 (fun p k => I p k ∧ LoopAt (Cfg.newton P tol fuel) rf s tout task p k ∧
      Sane (Cfg.newton P tol fuel) p ∧ LogInv PivInv p) (fun p k hI => hI.2.2.1) ?_ ?_ sf ⟨hg, ha, hs, hi⟩
    · intro p k p1 hI hpre hst
      have hM := (preStep_micro.1 p1 hpre).1
      exact hno ⟨p, k, p1, hI.1, hI.2.1, hpre, hI.2.2.2.micros pivInv_root hatt hM, hI.2.2.1.micros hl hm1 hM, hst⟩
    · intro p k p' hI hp
      have hat := loopAt_next hI.2.1 hp
      refine ⟨hnext _ _ _ hI.1 hI.2.1 hp, hat, hI.2.2.1.pass hl hm1 hp, ?_⟩
      have hM := (hat.ready (by rw [hat.nst]; omega)).1
      exact hL.micros pivInv_root hatt hM
  rw [solve_eq] at h
  have hs0 : Sane (Cfg.newton P tol fuel) (begun s tout task) := hS.micros hl hm1 (Micros.frame hb)
  have hl0 : LogInv PivInv (begun s tout task) := hL.frame pivInv_root hb
  split at h
  · rename_i h0
    refine bind_noPanic (firstCall_noPanic (cfg := Cfg.newton P tol fuel)).1 ?_ h
    intro s1 _ h1
    have hx : LogInv PivInv s1 := hl0.firstCall pivInv_root h1
    refine key _ (hfirst _ h0 h1) (loopAt_first h0 h1) ?_ hx
    exact ⟨ordInv_perf (ordInv_first (by rw [hb.cnt]; exact h0) h1 hs0.ord), perfReset_ok _⟩
  · rename_i h0
    have hp : 0 < s.cnt.nst := Nat.pos_of_ne_zero h0
    have hp' : 0 < (perfReset (begun s tout task)).cnt.nst := by
      show 0 < (begun s tout task).cnt.nst; rw [hb.cnt]; exact hp
    have hs2 : Sane (Cfg.newton P tol fuel) (perfReset (begun s tout task)) := hs0.micros hl hm1 (.single (.perf _))
    unfold Flow.andThen at h
    split at h
    · rename_i s3 h3
      have hM := ((laterCall_ok (cfg := Cfg.newton P tol fuel) (rf := rf) (tout := tout) (task := task) hp').go _ h3).1
      exact key _ (hlater _ hp h3) (loopAt_later hp h3) (hs2.micros hl hm1 hM)
        (LogInv.micros pivInv_root hatt (s := perfReset (begun s tout task)) hl0 hM) h
    · cases h
    · rename_i h3
      exact laterCall_noPanic (hs2.kused5 hm5) h3
    · cases h

end
end Verif.PanicAny
