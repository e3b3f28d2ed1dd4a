import Verif.Proofs.Cost

/-! # The work done in a history -/

set_option autoImplicit false
set_option linter.unusedSectionVars false
set_option linter.unusedSimpArgs false
set_option linter.unusedVariables false

namespace Verif

open Verif.Spec Verif.Props

universe u v

section
variable {n q : Nat} {K : Type u} [Scalar K] {P : Problem n q K} {tol : TolControl n K} {fuel : Nat}

/-- Counters of the solver object and the problem memory, and the number of attempts. -/
structure Work (P : Problem n q K) (N : Newton (Vec n K)) (m : Mem n K) (a : Nat) : Prop where
  niters : N.niters = m.nre
  jcur : N.jcur = false
  maxiters : N.maxiters = 4
  setups : n ≠ 0 → m.nje = m.nsetups
  jac : m.nje ≤ m.nre
  res : a ≤ m.nre
  pureJac : n ≠ 0 → ResIsFunction P → m.nje ≤ a
  pureRes : n ≠ 0 → ResIsFunction P → m.nre ≤ 8 * a

def WorkInv (P : Problem n q K) (s : State (Newton (Vec n K)) n q K) : Prop := Work P s.nls s.m s.g.atts.length

theorem Work.congr {N N' : Newton (Vec n K)} {m m' : Mem n K} {a a' : Nat} (h : Work P N m a) (h1 : N' = N)
    (h2 : m'.core = m.core) (h3 : a' = a) : Work P N' m' a' := by
  subst h1 h3
  have e1 : m'.nre = m.nre := by have := congrArg Mem.nre h2; exact this
  have e2 : m'.nje = m.nje := by have := congrArg Mem.nje h2; exact this
  have e3 : m'.nsetups = m.nsetups := by have := congrArg Mem.nsetups h2; exact this
  obtain ⟨a1, a2, a3, a4, a5, a6, a7, a8⟩ := h
  exact ⟨by rw [e1]; exact a1, a2, a3, by rw [e2, e3]; exact a4, by rw [e1, e2]; exact a5, by rw [e1]; exact a6,
    by rw [e2]; exact a7, by rw [e1]; exact a8⟩

theorem nlsPrepare_cnt (s : State (Newton (Vec n K)) n q K) :
    (nlsPrepare s).1.nre = s.m.nre ∧ (nlsPrepare s).1.nje = s.m.nje ∧ (nlsPrepare s).1.nsetups = s.m.nsetups := by
  unfold nlsPrepare
  simp only
  split <;> split <;> exact ⟨rfl, rfl, rfl⟩

theorem newtonNls_done {e : Env n K} {N N' : Newton (Vec n K)} {m m' : Mem n K} {y0 y w ee : Vec n K} {t : K} {c : Bool}
    {r : Except Err Unit} (h : (newtonNls P fuel).solve N e m y0 y w t c = .ret N' m' ee r) :
    newtonOuter (idaNLProblem P e) y0 t w fuel c false N m y = .done N' m' ee r := by
  unfold newtonNls newtonSolve at h
  simp only at h
  split at h
  · cases h; assumption
  · cases h
  · cases h

theorem Work.attempted {s s' : State (Newton (Vec n K)) n q K} (hI : WorkInv P s)
    (h : Attempted (Cfg.newton P tol fuel) s s') : WorkInv P s' := by
  obtain ⟨t0, m1, ee, r, out, h1, h2, h3, -⟩ := h
  have h4 := newtonNls_done (P := P) (fuel := fuel) h1
  have hc := newtonOuter_cost _ h4
  obtain ⟨k1, k2, k3⟩ := nlsPrepare_cnt (tried s)
  have k1' : (nlsPrepare (tried s)).1.nre = s.m.nre := k1
  have k2' : (nlsPrepare (tried s)).1.nje = s.m.nje := k2
  have k3' : (nlsPrepare (tried s)).1.nsetups = s.m.nsetups := k3
  obtain ⟨a1, a2, a3, a4, a5, a6, a7, a8⟩ := hI
  obtain ⟨b1, b2, b3, b4, b5, b6⟩ := hc
  rw [k1', k2'] at b5
  rw [k1'] at b1 b4
  have hw : Work P s'.nls m1 (s.g.atts.length + 1) := by
    refine ⟨by omega, b6, b3.trans a3, fun hn => ?_, by omega, by omega, fun hn hP => ?_, fun hn hP => ?_⟩
    · have e1 := b2 hn
      have e2 := a4 hn
      rw [k2', k3'] at e1
      omega
    · have e1 := (newtonOuter_pure hn hP _ a2 h4).nje
      rw [k2'] at e1
      have := a7 hn hP
      omega
    · have e1 := (newtonOuter_pure hn hP _ a2 h4).nre
      rw [k1', a3] at e1
      have := a8 hn hP
      omega
  unfold WorkInv
  rw [h2, h3]
  exact hw.congr rfl rfl rfl

theorem step_work {s s' : State (Newton (Vec n K)) n q K} {r : Except Err Unit} (hs : WorkInv P s)
    (h : step (Cfg.newton P tol fuel) s = .ret s' r) : WorkInv P s' := by
  have hi := firstStepInit_cnt s
  have := step_rule (cfg := Cfg.newton P tol fuel) (fun s1 _ => WorkInv P s1) (fun s1 => WorkInv P s1)
    (fun s1 _ => WorkInv P s1)
    (by
      have : (firstStepInit s).nls = s.nls := by unfold firstStepInit; split <;> rfl
      unfold WorkInv
      rw [hi.2.2.2.2.2.2.2.2, hi.2.1, this]; exact hs)
    (fun s1 f s' f' hI h => Work.attempted hI (attempt_again_attempted h))
    (fun s1 f s2 ck a b s' hI h hc => by
      have hC := completeStep_eq hc
      have h1 := Work.attempted hI (attempt_done_attempted h)
      show Work P s'.nls s'.m s'.g.atts.length
      rw [hC.m, hC.g, hC.nls]; exact h1)
    (fun s1 f s' e hI h => Work.attempted hI (attempt_fail_attempted h)) h
  rcases this with ⟨-, h⟩ | ⟨e, -, h⟩ <;> exact h

theorem WorkInv.frame {s s' : State (Newton (Vec n K)) n q K} (hI : WorkInv P s) (hf : Frame s s') : WorkInv P s' :=
  Work.congr hI hf.nls hf.m (by rw [hf.g])

theorem WorkInv.firstCall {s s' : State (Newton (Vec n K)) n q K} {tout : K} {r : Except Err Unit} (hI : WorkInv P s)
    (hf : firstCall (Cfg.newton P tol fuel) s tout = .ret s' r) : WorkInv P s' :=
  Work.congr hI (firstCall_eps hf).1 (firstCall_log hf).1 (by rw [(firstCall_same hf).2])

theorem WorkInv.micro {s s' : State (Newton (Vec n K)) n q K} (hI : WorkInv P s) (hm : Micro (Cfg.newton P tol fuel) s s') :
    WorkInv P s' := by
  cases hm with
  | frame hf => exact hI.frame hf
  | perf => exact hI
  | clear => exact hI
  | clamp ts h1 h2 h3 => unfold clampToStop; split <;> exact hI
  | ewt h => exact hI
  | first tout r h1 h2 => exact hI.firstCall h2
  | firstStep tout h1 h2 h3 h4 =>
    have h5 := hI.firstCall h2
    exact step_work (WorkInv.frame (s := perfReset _) h5 h3) h4
  | step h1 h2 h3 => exact step_work hI h3

theorem WorkInv.fail {s s' : State (Newton (Vec n K)) n q K} {e : Err} (hI : WorkInv P s)
    (hm : MicroFail (Cfg.newton P tol fuel) s e s') : WorkInv P s' := by
  cases hm with
  | firstStep tout _ h1 h2 h3 h4 =>
    have h5 := hI.firstCall h2
    exact step_work (WorkInv.frame (s := perfReset _) h5 h3) h4
  | step _ h1 h2 h3 => exact step_work hI h3

theorem workInv_new (y0 yp0 : Vec n K) (ts : Option K) :
    WorkInv P { (State.new newton0 y0 yp0 : State (Newton (Vec n K)) n q K) with tstop := ts } :=
  ⟨rfl, rfl, rfl, fun _ => rfl, le_refl _, le_refl _, fun _ _ => le_refl _, fun _ _ => le_refl _⟩

theorem workInv_later {y0 yp0 : Vec n K} {ts : Option K} {s : State (Newton (Vec n K)) n q K}
    (h : Later (Cfg.newton P tol fuel) { State.new newton0 y0 yp0 with tstop := ts } s) : WorkInv P s :=
  Later.inv (WorkInv P) (workInv_new y0 yp0 ts) (fun _ _ h1 h2 => h1.micro h2) (fun _ _ _ h1 h2 => h1.fail h2) h

/-- The counter of nonlinear iterations kept by the integrator itself is never changed. -/
theorem nni_later {y0 yp0 : Vec n K} {ts : Option K} {s : State (Newton (Vec n K)) n q K}
    (h : Later (Cfg.newton P tol fuel) { State.new newton0 y0 yp0 with tstop := ts } s) : s.cnt.nni = 0 := by
  have hl := newton_legal P tol fuel
  have hs : ∀ {s s' : State (Newton (Vec n K)) n q K} {r : Except Err Unit}, s.cnt.nni = 0 →
      step (Cfg.newton P tol fuel) s = .ret s' r → s'.cnt.nni = 0 := by
    intro s s' r h0 h
    rw [(cntLe_step hl h).1.nni]; exact h0
  have hm : ∀ s s' : State (Newton (Vec n K)) n q K, s.cnt.nni = 0 → Micro (Cfg.newton P tol fuel) s s' → s'.cnt.nni = 0 := by
    intro s s' h0 h
    cases h with
    | frame hf => rw [hf.cnt]; exact h0
    | perf => exact h0
    | clear => exact h0
    | clamp ts _ _ _ => unfold clampToStop; split <;> exact h0
    | ewt _ => exact h0
    | first _ _ _ hf => rw [(firstCall_same hf).cnt]; exact h0
    | firstStep tout h1 h2 h3 h4 =>
      have h5 : _ = s.cnt := (firstCall_same h2).cnt
      refine hs ?_ h4
      rw [h3.cnt]
      exact (congrArg Counters.nni h5).trans h0
    | step _ _ h => exact hs h0 h
  refine Later.inv (fun s => s.cnt.nni = 0) rfl hm ?_ h
  intro s e s' h0 h
  cases h with
  | firstStep tout _ h1 h2 h3 h4 =>
      have h5 : _ = s.cnt := (firstCall_same h2).cnt
      refine hs ?_ h4
      rw [h3.cnt]
      exact (congrArg Counters.nni h5).trans h0
  | step _ _ _ h => exact hs h0 h

theorem newton_testFail {t0 : K} {s s4 : State (Newton (Vec n K)) n q K} {err : Err} {a b : K}
    (h : PassFailed (Cfg.newton P tol fuel) t0 s s4 err a b) : err = .ida .testFail ∧ s4.cnt = s.cnt := by
  obtain ⟨s3, r1, out, hA, hV, -, rfl⟩ := h.tried
  obtain ⟨m, hc, -⟩ := hA.solve
  have hr : r1 = .ok () := by
    cases r1 with
    | ok u => rfl
    | error err => exact absurd hc (newton_no_error P fuel)
  subst hr
  refine ⟨?_, hA.cnt⟩
  rcases hV with ⟨h1, -⟩ | h1
  · cases h1
  · exact h1.2.1

theorem handled_ncfn {cfg : Cfg (Newton (Vec n K)) n q K} {s s' : State (Newton (Vec n K)) n q K} {a b : K} {f f' : Fails}
    {err : Err} {r : Except Err Unit} (h : Handled cfg s a b f err s' f' r) (he : err = .ida .testFail) :
    s'.cnt.ncfn = s.cnt.ncfn := by
  subst he
  cases h with
  | hard _ hne => exact absurd rfl (hne _)
  | _ => rfl

/-- With Newton's method no attempt ends with a failure of the nonlinear solver. -/
theorem ncfn_later {y0 yp0 : Vec n K} {ts : Option K} {s : State (Newton (Vec n K)) n q K}
    (h : Later (Cfg.newton P tol fuel) { State.new newton0 y0 yp0 with tstop := ts } s) : s.cnt.ncfn = 0 := by
  have hs : ∀ {s s' : State (Newton (Vec n K)) n q K} {r : Except Err Unit}, s.cnt.ncfn = 0 →
      step (Cfg.newton P tol fuel) s = .ret s' r → s'.cnt.ncfn = 0 := by
    intro s s' r h0 h
    have := step_rule (cfg := Cfg.newton P tol fuel) (fun s1 _ => s1.cnt.ncfn = 0) (fun s1 => s1.cnt.ncfn = 0)
      (fun s1 _ => s1.cnt.ncfn = 0) (by rw [(firstStepInit_cnt s).1]; exact h0)
      (fun s1 f s' f' hI h => by
        obtain ⟨s4, err, a, b, s6, h1, h2, rfl⟩ := attempt_again h
        obtain ⟨e1, e2⟩ := newton_testFail h1
        have e3 := handled_ncfn (handleNFlag_handled h2) e1
        rw [(ite_reset_ctl s6 (s6.cnt.nst = 0)).2.1, e3]
        show s4.cnt.ncfn = 0
        rw [e2]; exact hI)
      (fun s1 f s2 ck a b s' hI h hc => by
        have hC := completeStep_eq hc
        obtain ⟨s3, h1, -, -, -, -, rfl⟩ := attempt_done h
        show s'.cnt.ncfn = 0
        rw [hC.nst]
        show s3.cnt.ncfn = 0
        rw [h1.cnt]; exact hI)
      (fun s1 f s' e hI h => by
        obtain ⟨s4, err, a, b, f', h1, h2⟩ := attempt_fail h
        obtain ⟨e1, e2⟩ := newton_testFail h1
        have e3 := handled_ncfn (handleNFlag_handled h2) e1
        rw [e3]
        show s4.cnt.ncfn = 0
        rw [e2]; exact hI) h
    rcases this with ⟨-, h⟩ | ⟨e, -, h⟩ <;> exact h
  have hm : ∀ s s' : State (Newton (Vec n K)) n q K, s.cnt.ncfn = 0 → Micro (Cfg.newton P tol fuel) s s' → s'.cnt.ncfn = 0 := by
    intro s s' h0 h
    cases h with
    | frame hf => rw [hf.cnt]; exact h0
    | perf => exact h0
    | clear => exact h0
    | clamp ts _ _ _ => unfold clampToStop; split <;> exact h0
    | ewt _ => exact h0
    | first _ _ _ hf => rw [(firstCall_same hf).cnt]; exact h0
    | firstStep tout h1 h2 h3 h4 =>
      have h5 : _ = s.cnt := (firstCall_same h2).cnt
      refine hs ?_ h4
      rw [h3.cnt]
      exact (congrArg Counters.ncfn h5).trans h0
    | step _ _ h => exact hs h0 h
  refine Later.inv (fun s => s.cnt.ncfn = 0) rfl hm ?_ h
  intro s e s' h0 h
  cases h with
  | firstStep tout _ h1 h2 h3 h4 =>
    have h5 : _ = s.cnt := (firstCall_same h2).cnt
    refine hs ?_ h4
    rw [h3.cnt]
    exact (congrArg Counters.ncfn h5).trans h0
  | step _ _ _ h => exact hs h0 h

/-- Every attempt has one of the three outcomes. -/
theorem attempts_count {cfg : Cfg (Newton (Vec n K)) n q K} (hl : NlsLegal cfg) {s : State (Newton (Vec n K)) n q K}
    (h : Reach cfg s) : attempts s = s.g.atts.length := by
  have hc := h.count hl
  have e1 : getNumSteps s = _ := hc.nst
  have e2 : getNumErrTestFails s = _ := hc.netf
  have e3 : getNumNonlinSolvConvFails s = _ := hc.ncfn
  unfold attempts
  rw [e1, e2, e3]
  clear hc e1 e2 e3
  induction s.g.atts with
  | nil => rfl
  | cons x l ih =>
    simp only [List.countP_cons, List.length_cons]
    rw [← ih]
    cases hx : x.out <;> simp [hx, Att.nlsFailed] <;> omega

/-! ## The number of passes allowed -/

theorem attempt_nls {ν : Type v} {cfg : Cfg ν n q K} {nls' : NlSolver ν n K} {t0 : K} {s : State ν n q K} {f : Fails}
    (h : nlsCall { cfg with nls := nls' } s = nlsCall cfg s) :
    attempt { cfg with nls := nls' } t0 s f = attempt cfg t0 s f := by
  have ht : trial { cfg with nls := nls' } s = trial cfg s := by
    rw [trial_eq, trial_eq, h]
    rfl
  unfold attempt
  rw [ht]
  rfl

theorem stepLoop_nls {ν : Type v} {cfg : Cfg ν n q K} {nls' : NlSolver ν n K} {t0 : K} (I : State ν n q K → Prop)
    (hI : ∀ s f s' f', I s → attempt cfg t0 s f = .again s' f' → I s')
    (heq : ∀ s, I s → nlsCall { cfg with nls := nls' } s = nlsCall cfg s) (fl : Nat) {s : State ν n q K} {f : Fails} (hs : I s) :
    stepLoop { cfg with nls := nls' } t0 fl s f = stepLoop cfg t0 fl s f := by
  induction fl generalizing s f with
  | zero => rfl
  | succ fl ih =>
    unfold stepLoop
    rw [attempt_nls (heq s hs)]
    cases ha : attempt cfg t0 s f with
    | panic => rfl
    | diverge => rfl
    | fail s e => rfl
    | again s1 f1 => exact ih (hI _ _ _ _ hs ha)
    | done s1 a b c => rfl

section
variable (hn : n ≠ 0) (hP : ResIsFunction P) (hf : 2 ≤ fuel)
include hn hP hf

theorem newtonNls_fuel {e : Env n K} {N : Newton (Vec n K)} {m : Mem n K} {y0 y w : Vec n K} {t : K} {c : Bool}
    (hN : N.jcur = false) :
    (newtonNls P fuel).solve N e m y0 y w t c = (newtonNls P 2).solve N e m y0 y w t c := by
  unfold newtonNls
  simp only
  rw [newtonSolve_fuel hn hP fuel hf hN]

theorem step_fuel {s : State (Newton (Vec n K)) n q K} (hs : WorkInv P s) :
    step (Cfg.newton P tol fuel) s = step (Cfg.newton P tol 2) s := by
  have hi := firstStepInit_cnt s
  refine stepLoop_nls (cfg := Cfg.newton P tol 2) (nls' := newtonNls P fuel) (WorkInv P)
    (fun s f s' f' h1 h2 => Work.attempted h1 (attempt_again_attempted h2)) ?_ _ ?_
  · intro s h1
    exact newtonNls_fuel hn hP hf h1.jcur
  · have : (firstStepInit s).nls = s.nls := by unfold firstStepInit; split <;> rfl
    unfold WorkInv
    rw [hi.2.2.2.2.2.2.2.2, hi.2.1, this]; exact hs

end

theorem rootLoop_nls {ν : Type v} {cfg : Cfg ν n q K} {nls' : NlSolver ν n K} (rf : Nat) (s : State ν n q K) (l : RfLoc K) :
    rootLoop { cfg with nls := nls' } rf s l = rootLoop cfg rf s l := by
  induction rf generalizing s l with
  | zero => rfl
  | succ rf ih =>
    unfold rootLoop
    have h : rootPass { cfg with nls := nls' } s l = rootPass cfg s l := rfl
    rw [h]
    split
    · rfl
    · cases rootPass cfg s l <;> first | rfl | exact ih _ _

theorem rCheck3_nls {ν : Type v} {cfg : Cfg ν n q K} {nls' : NlSolver ν n K} (rf : Nat) (s : State ν n q K) :
    rCheck3 { cfg with nls := nls' } rf s = rCheck3 cfg rf s := by
  have h : rootLoop { cfg with nls := nls' } rf = rootLoop cfg rf := by
    funext s l; exact rootLoop_nls rf s l
  have h1 : rootFind { cfg with nls := nls' } rf = rootFind cfg rf := by
    funext s
    unfold rootFind
    rw [h]
    rfl
  unfold rCheck3
  rw [h1]
  rfl

theorem postStep_nls {ν : Type v} {cfg : Cfg ν n q K} {nls' : NlSolver ν n K} (rf : Nat) (s : State ν n q K) (tout : K)
    (task : Task) : postStep { cfg with nls := nls' } rf s tout task = postStep cfg rf s tout task := by
  unfold postStep
  rw [rCheck3_nls]

theorem laterCall_nls {ν : Type v} {cfg : Cfg ν n q K} {nls' : NlSolver ν n K} (rf : Nat) (s : State ν n q K) (tout : K)
    (task : Task) : laterCall { cfg with nls := nls' } rf s tout task = laterCall cfg rf s tout task := by
  have h : rCheck3 { cfg with nls := nls' } rf = rCheck3 cfg rf := by
    funext s; exact rCheck3_nls rf s
  have h1 : rootChecks { cfg with nls := nls' } rf s task = rootChecks cfg rf s task := by
    unfold rootChecks
    rw [h]
    rfl
  unfold laterCall
  rw [h1]

theorem solveLoop_nls {ν : Type v} {cfg : Cfg ν n q K} {nls' : NlSolver ν n K} {rf : Nat} {tout : K} {task : Task}
    (I : State ν n q K → Nat → Prop)
    (hs : ∀ p k p1, I p k → preStep cfg p k = .go p1 → step { cfg with nls := nls' } p1 = step cfg p1)
    (hnext : ∀ p k p', I p k → solvePass cfg rf p tout task k = .go p' → I p' (k + 1)) (sf : Nat) {p : State ν n q K} {k : Nat}
    (hI : I p k) : solveLoop { cfg with nls := nls' } rf tout task sf p k = solveLoop cfg rf tout task sf p k := by
  induction sf generalizing p k with
  | zero => rfl
  | succ sf ih =>
    have hpass : solvePass { cfg with nls := nls' } rf p tout task k = solvePass cfg rf p tout task k := by
      unfold solvePass
      have hpre : preStep { cfg with nls := nls' } p k = preStep cfg p k := rfl
      rw [hpre]
      cases hp : preStep cfg p k with
      | panic => rfl
      | diverge => rfl
      | ret s r => rfl
      | go p1 =>
        simp only
        rw [hs p k p1 hI hp]
        cases step cfg p1 with
        | panic => rfl
        | diverge => rfl
        | ret p2 r =>
          cases r with
          | error e => rfl
          | ok u => exact postStep_nls rf p2 tout task
    unfold solveLoop Flow.andThen
    rw [hpass]
    cases hp : solvePass cfg rf p tout task k with
    | go p' => exact ih (hnext p k p' hI hp)
    | ret s' r => rfl
    | panic => rfl
    | diverge => rfl

/-- A call depends on the nonlinear solver through its steps only. -/
theorem solve_nls {ν : Type v} {cfg : Cfg ν n q K} {nls' : NlSolver ν n K} {rf sf : Nat} {s : State ν n q K}
    (hs : ∀ p, Micros cfg s p → step { cfg with nls := nls' } p = step cfg p) (tout : K) (task : Task) :
    solve { cfg with nls := nls' } rf sf s tout task = solve cfg rf sf s tout task := by
  have key : ∀ p, LoopAt cfg rf s tout task p 0 →
      solveLoop { cfg with nls := nls' } rf tout task sf p 0 = solveLoop cfg rf tout task sf p 0 := fun p hI =>
    solveLoop_nls (LoopAt cfg rf s tout task)
      (fun p k p1 hI hp => hs p1 (hI.micros.trans (preStep_micro.1 p1 hp).1)) (fun p k p' hI hp => loopAt_next hI hp) sf hI
  rw [solve_eq, solve_eq]
  split
  · rename_i h0
    have h1 : firstCall { cfg with nls := nls' } (begun s tout task) tout = firstCall cfg (begun s tout task) tout := rfl
    rw [h1]
    cases hf : firstCall cfg (begun s tout task) tout with
    | panic => rfl
    | diverge => rfl
    | ret s1 r1 =>
      cases r1 with
      | error e => rfl
      | ok a => exact key _ (loopAt_first h0 hf)
  · rename_i h0
    rw [laterCall_nls]
    cases hl : laterCall cfg rf (perfReset (begun s tout task)) tout task with
    | panic => rfl
    | diverge => rfl
    | ret s1 r1 => rfl
    | go s1 => exact key _ (loopAt_later (by omega) hl)

theorem solve_fuel (hn : n ≠ 0) (hP : ResIsFunction P) (hf : 2 ≤ fuel) {rf sf : Nat} {s : State (Newton (Vec n K)) n q K}
    (hs : WorkInv P s) (tout : K) (task : Task) :
    solve (Cfg.newton P tol fuel) rf sf s tout task = solve (Cfg.newton P tol 2) rf sf s tout task := by
  refine solve_nls (cfg := Cfg.newton P tol 2) (nls' := newtonNls P fuel) (fun p hp => ?_) tout task
  refine step_fuel hn hP hf ?_
  exact hp.inv (fun _ _ h1 h2 => WorkInv.micro h1 h2) hs

theorem exec_fuel (hn : n ≠ 0) (hP : ResIsFunction P) (hf : 2 ≤ fuel) {rf sf : Nat} {s : State (Newton (Vec n K)) n q K}
    (hs : WorkInv P s) (op : Op K) :
    exec (Cfg.newton P tol fuel) rf sf s op = exec (Cfg.newton P tol 2) rf sf s op := by
  cases op with
  | solve tout tret task =>
    unfold exec
    have h1 : WorkInv P { s with tret := tret } := hs
    simp only
    rw [solve_fuel hn hP hf h1]
  | getSolution t => rfl
  | getDky t k => rfl

end

end Verif
