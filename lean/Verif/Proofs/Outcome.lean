import Verif.Proofs.Solve

/-! # The outcome of a call of `solve` -/

set_option autoImplicit false
set_option linter.unusedSectionVars false
set_option linter.unusedSimpArgs false
set_option linter.unusedVariables false

namespace Verif

universe u v

section
variable {ν : Type v} {n q : Nat} {K : Type u} [Scalar K]

theorem rCheck1_quiet (cfg : Cfg ν n q K) (s : State ν n q K) : Quiet s (rCheck1 cfg s) := by
  unfold rCheck1 callRoot
  simp only
  split <;> quiet_rfl

theorem firstReady_quiet (cfg : Cfg ν n q K) (s : State ν n q K) : Quiet s (firstReady cfg s) := by
  unfold firstReady
  simp only
  split
  · have h := rCheck1_quiet cfg { s with h0u := s.c.hh, c.kk := 0, c.kused := 0 }
    exact ⟨h.1, h.2, h.3, h.4, h.5, h.6⟩
  · quiet_rfl

theorem firstStop_quiet {s s' : State ν n q K} (h : firstStop s = some s') : Quiet s s' := by
  unfold firstStop at h
  split at h
  · split at h
    · cases h
    · cases h; exact clampToStop_quiet _ _
  · cases h; exact .refl _

theorem initialSetup_quiet (cfg : Cfg ν n q K) (s : State ν n q K) : Quiet s (initialSetup cfg s) := by
  unfold initialSetup; split <;> quiet_rfl

theorem firstCall_quiet {cfg : Cfg ν n q K} {s s' : State ν n q K} {tout : K} {r : Except Err Unit}
    (h : firstCall cfg s tout = .ret s' r) : Quiet s s' := by
  have h0 := initialSetup_quiet cfg s
  rcases firstCall_cases h with ⟨-, h, -⟩ | ⟨-, h, -⟩ | ⟨hh, -, -, -, ⟨-, h, -⟩ | ⟨s1, h1, h, -⟩⟩ <;> subst h
  · exact h0
  · exact h0.trans (by quiet_rfl)
  · exact h0.trans (by quiet_rfl)
  · exact (h0.trans (by quiet_rfl)).trans ((firstStop_quiet h1).trans (firstReady_quiet cfg s1))

/-- What a call keeps until it returns: the values returned last, and the stop time; its arguments are known. -/
structure Pending (s : State ν n q K) (tout : K) (task : Task) (p : State ν n q K) : Prop where
  tretlast : p.tretlast = s.tretlast
  tret : p.tret = s.tret
  tstop : p.tstop = s.tstop
  toutc : task = .normal → p.r.toutc = tout
  taskc : p.r.taskc = task

theorem Pending.quiet {s p p' : State ν n q K} {tout : K} {task : Task} (h : Pending s tout task p) (hq : Quiet p p') :
    Pending s tout task p' :=
  ⟨hq.tretlast.trans h.tretlast, hq.tret.trans h.tret, hq.tstop.trans h.tstop,
    fun ht => hq.toutc.trans (h.toutc ht), hq.taskc.trans h.taskc⟩

theorem begun_pending (s : State ν n q K) (tout : K) (task : Task) : Pending s tout task (begun s tout task) := by
  unfold begun
  split
  · exact ⟨rfl, rfl, rfl, fun _ => rfl, rfl⟩
  · rename_i h
    exact ⟨rfl, rfl, rfl, fun h' => absurd h' h, rfl⟩

/-- `p` is the state after the stopping tests have decided to go on, in `p0`: with a stop time, the internal time is not
near it, and the step size is limited. -/
def Tested (p0 : State ν n q K) (tout : K) (task : Task) (p : State ν n q K) : Prop :=
  (task = .normal → Scalar.ge ((p0.e.tn - tout) * p0.c.hh) 0 = false) ∧
  (p0.tstop = none ∧ p = p0 ∨ ∃ ts, p0.tstop = some ts ∧ nearStop p0 ts = false ∧ p = clampToStop p0 ts)

/-- What is known of the state `p` at the beginning of pass `k` of the step loop of a call from `s`. -/
structure LoopAt (cfg : Cfg ν n q K) (rf : Nat) (s : State ν n q K) (tout : K) (task : Task) (p : State ν n q K) (k : Nat) :
    Prop where
  pending : Pending s tout task p
  nst : p.cnt.nst = s.cnt.nst + k
  again : 0 < k → task = .normal
  limit : 0 < cfg.mxstep → k ≤ cfg.mxstep
  ready : 0 < p.cnt.nst → Micros cfg s p ∧ StopReady p
  first : s.cnt.nst = 0 → k = 0 → ∃ s1, firstCall cfg (begun s tout task) tout = .ret s1 (.ok ()) ∧ p = perfReset s1
  later : 0 < s.cnt.nst → k = 0 → ∃ s1, NoRootBefore cfg rf (perfReset (begun s tout task)) task s1 ∧
    stopTest1 s1 tout task = .ret p (.ok .continueSteps)
  tested : 0 < p.cnt.nst → ∃ p0, Micros cfg s p0 ∧ 0 < p0.cnt.nst ∧ Tested p0 tout task p

theorem preStep_pending {cfg : Cfg ν n q K} {s p p' : State ν n q K} {tout : K} {task : Task} {k : Nat}
    (h : Pending s tout task p) (hp : preStep cfg p k = .go p') :
    Pending s tout task p' ∧ p'.cnt = p.cnt ∧ (0 < cfg.mxstep → k < cfg.mxstep) ∧ p'.e.tn = p.e.tn := by
  have := preStep_cases cfg p k
  rw [hp] at this
  cases this with
  | go _ hk hs hw h1 h2 h3 h4 h5 h6 h7 =>
    exact ⟨⟨h2.trans h.tretlast, h1.trans h.tret, hs.tstop.trans h.tstop, fun ht => by rw [hs.r]; exact h.toutc ht,
      by rw [hs.r]; exact h.taskc⟩, hs.cnt, hk, hs.tn⟩

/-- A pass of the step loop up to the accepted step. -/
theorem loopAt_step {cfg : Cfg ν n q K} {rf : Nat} {s p p1 p2 : State ν n q K} {tout : K} {task : Task} {k : Nat}
    (h : LoopAt cfg rf s tout task p k) (hp : preStep cfg p k = .go p1) (hs : step cfg p1 = .ret p2 (.ok ())) :
    Pending s tout task p2 ∧ p2.cnt.nst = s.cnt.nst + k + 1 ∧ Micros cfg s p2 ∧ (0 < cfg.mxstep → k < cfg.mxstep) := by
  obtain ⟨h1, h2, h3, -⟩ := preStep_pending h.pending hp
  obtain ⟨h4, h5, -⟩ := step_quiet hs
  obtain ⟨m1, m2, m3, m4, m5⟩ := preStep_micro.1 p1 hp
  refine ⟨h1.quiet h4, by rw [h5 rfl, h2, h.nst], ?_, h3⟩
  by_cases hn : p.cnt.nst = 0
  · have hk : k = 0 := by have := h.nst; omega
    have hs0 : s.cnt.nst = 0 := by have := h.nst; omega
    obtain ⟨s1, hf, rfl⟩ := h.first hs0 hk
    have hb := (begun_same s tout task).2.2.2
    exact (Micros.frame hb).trans (.single (.firstStep tout (by rw [hb.cnt]; exact hs0) hf (m4 hn) hs))
  · have hn : 0 < p.cnt.nst := by omega
    obtain ⟨r1, r2⟩ := h.ready hn
    exact (r1.trans m1).tail (.step (by rw [h2]; exact hn) (m3 r2) hs (m5 hn))

theorem loopAt_next {cfg : Cfg ν n q K} {rf : Nat} {s p p' : State ν n q K} {tout : K} {task : Task} {k : Nat}
    (h : LoopAt cfg rf s tout task p k) (hp : solvePass cfg rf p tout task k = .go p') :
    LoopAt cfg rf s tout task p' (k + 1) := by
  obtain ⟨p1, p2, p3, h1, h2, h3, h4⟩ := solvePass_ends.1 p' hp
  obtain ⟨a1, a2, a3, a4⟩ := loopAt_step h h1 h2
  obtain ⟨b1, b2⟩ := noRootAfter_frame h3
  have hn3 : 0 < p3.cnt.nst := by rw [b1.cnt, a2]; omega
  obtain ⟨c1, -, c3⟩ := stopTest2_micro (cfg := cfg) hn3 h4
  have hq : Quiet p3 p' ∧ p'.cnt = p3.cnt ∧ task = .normal := by
    cases stopTest2_cases h4 with
    | clamp ts _ _ _ => exact ⟨clampToStop_quiet _ _, (clampToStop_same _ ts).cnt, rfl⟩
    | free _ _ => exact ⟨.refl _, rfl, rfl⟩
  obtain ⟨q1, q2, q3⟩ := hq
  refine ⟨(a1.quiet b2).quiet q1, by rw [q2, b1.cnt, a2]; omega, fun _ => q3, fun h0 => a4 h0, ?_, ?_, ?_, ?_⟩
  · intro _
    exact ⟨(a3.trans (Micros.frame b1)).trans c1, c3 rfl⟩
  · intro _ h0; omega
  · intro _ h0; omega
  · intro _
    refine ⟨p3, a3.trans (Micros.frame b1), hn3, ?_⟩
    cases stopTest2_cases h4 with
    | clamp ts g1 g2 g3 => exact ⟨fun _ => g1, Or.inr ⟨ts, g2, g3, rfl⟩⟩
    | free g1 g2 => exact ⟨fun _ => g1, Or.inl ⟨g2, rfl⟩⟩

theorem loopAt_first {cfg : Cfg ν n q K} {rf : Nat} {s s1 : State ν n q K} {tout : K} {task : Task}
    (h0 : s.cnt.nst = 0) (h : firstCall cfg (begun s tout task) tout = .ret s1 (.ok ())) :
    LoopAt cfg rf s tout task (perfReset s1) 0 := by
  have hc : (perfReset s1).cnt.nst = 0 := by
    show s1.cnt.nst = 0
    rw [firstCall_cnt h, (begun_same s tout task).2.2.2.cnt]; exact h0
  refine ⟨((begun_pending s tout task).quiet (firstCall_quiet h)).quiet (by quiet_rfl), by rw [hc]; omega,
    fun h => by omega, fun _ => by omega, fun h => by omega, fun _ _ => ⟨s1, h, rfl⟩, fun h => by omega, fun h => by omega⟩

theorem loopAt_later {cfg : Cfg ν n q K} {rf : Nat} {s s1 : State ν n q K} {tout : K} {task : Task}
    (h0 : 0 < s.cnt.nst) (h : laterCall cfg rf (perfReset (begun s tout task)) tout task = .go s1) :
    LoopAt cfg rf s tout task s1 0 := by
  have hb := (begun_same s tout task).2.2.2
  have hc : (perfReset (begun s tout task)).cnt.nst = s.cnt.nst := by show (begun s tout task).cnt.nst = _; rw [hb.cnt]
  obtain ⟨s2, h1, h2⟩ := laterCall_ends.1 s1 h
  obtain ⟨b1, b2⟩ := noRootBefore_frame h1
  have hq : Quiet s2 s1 ∧ s1.cnt = s2.cnt := by
    cases stopTest1_cases h2 with
    | clamp _ ts _ _ _ => exact ⟨clampToStop_quiet _ _, (clampToStop_same _ ts).cnt⟩
    | free _ _ _ => exact ⟨.refl _, rfl⟩
  have hok := (laterCall_ok (cfg := cfg) (rf := rf) (tout := tout) (task := task) (by rw [hc]; exact h0)).go s1 h
  refine ⟨((((begun_pending s tout task).quiet (p' := perfReset (begun s tout task)) (by quiet_rfl))).quiet b2).quiet hq.1,
    by rw [hq.2, b1.cnt, hc]; omega, fun h => by omega, fun _ => by omega, fun _ => ⟨?_, hok.2⟩, fun h => by omega,
    fun _ _ => ⟨s2, h1, h2⟩, fun _ => ⟨s2, ((Micros.frame hb).tail (.perf _)).trans (Micros.frame b1), by rw [b1.cnt, hc]; exact h0, ?_⟩⟩
  · exact ((Micros.frame hb).tail (.perf _)).trans hok.1
  · cases stopTest1_cases h2 with
    | clamp _ ts g1 g2 g3 g4 => exact ⟨fun ht => (g3 ht).1, Or.inr ⟨ts, g1, g2, rfl⟩⟩
    | free _ g1 g2 g3 => exact ⟨fun ht => (g2 ht).1, Or.inl ⟨g1, rfl⟩⟩

/-- What a returning call of `solve` did last. -/
inductive Outcome (cfg : Cfg ν n q K) (rf : Nat) (s : State ν n q K) (tout : K) (task : Task) (s' : State ν n q K)
    (r : Except Err Status) : Prop
  | rejected (e : Err) : s.cnt.nst = 0 → firstCall cfg (begun s tout task) tout = .ret s' (.error e) → r = .error e →
      Outcome cfg rf s tout task s' r
  | early : 0 < s.cnt.nst → LaterEnds cfg rf (perfReset (begun s tout task)) tout task s' r →
      Outcome cfg rf s tout task s' r
  | loop (p : State ν n q K) (k : Nat) : LoopAt cfg rf s tout task p k → PassEnds cfg rf p tout task k s' r →
      Outcome cfg rf s tout task s' r

theorem solve_outcome {cfg : Cfg ν n q K} {rf sf : Nat} {s s' : State ν n q K} {tout : K} {task : Task}
    {r : Except Err Status} (h : solve cfg rf sf s tout task = .ret s' r) : Outcome cfg rf s tout task s' r := by
  have key : ∀ sf p, LoopAt cfg rf s tout task p 0 → solveLoop cfg rf tout task sf p 0 = .ret s' r →
      Outcome cfg rf s tout task s' r := fun sf p hI h =>
    solveLoop_rule (fun p k => LoopAt cfg rf s tout task p k) (fun s' r => Outcome cfg rf s tout task s' r)
      (fun p k p' hI hp => loopAt_next hI hp)
      (fun p k s' r hI hp => .loop p k hI (solvePass_ends.2 s' r hp)) sf p 0 hI s' r h
  cases solve_solveEnds h with
  | rejected e h0 h1 h2 => exact .rejected e h0 h1 h2
  | first s1 h0 h1 h2 => exact key sf _ (loopAt_first h0 h1) h2
  | early h0 h1 => exact .early h0 (laterCall_ends.2 _ _ h1)
  | later s1 h0 h1 h2 => exact key sf _ (loopAt_later h0 h1) h2

/-! ## Sections that never run forever -/

theorem getSolution_noDiverge (s : State ν n q K) (t : K) : getSolution s t ≠ .diverge := by
  rw [getSolution_eq]
  split
  · simp
  · split <;> simp

theorem stopTest1_noDiverge (s : State ν n q K) (tout : K) (task : Task) : stopTest1 s tout task ≠ .diverge := by
  unfold stopTest1
  split
  · simp
  · split
    · split
      · simp
      · split
        · cases h : getSolution s tout with
          | diverge => exact absurd h (getSolution_noDiverge s tout)
          | panic => simp [Out.bind]
          | ret s1 r => cases r <;> simp [Out.bind]
        · split
          · rename_i ts _
            split
            · cases h : getSolution s ts with
              | diverge => exact absurd h (getSolution_noDiverge s ts)
              | panic => simp
              | ret s1 r => cases r <;> simp
            · simp
          · simp
    · split
      · split <;> simp
      · split
        · rename_i ts _
          split
          · cases h : getSolution s ts with
            | diverge => exact absurd h (getSolution_noDiverge s ts)
            | panic => simp [Out.bind]
            | ret s1 r => cases r <;> simp [Out.bind]
          · simp
        · simp

theorem stopTest2_noDiverge (s : State ν n q K) (tout : K) (task : Task) : stopTest2 s tout task ≠ .diverge := by
  unfold stopTest2
  split
  · split
    · split <;> simp
    · split
      · split
        · split <;> simp
        · simp
      · simp
  · split
    · split
      · split <;> simp
      · simp
    · simp

theorem ofStop_noDiverge {S : Type u} {o : Out S Status} (h : o ≠ .diverge) : Flow.ofStop o ≠ .diverge := by
  unfold Flow.ofStop
  split
  · simp
  · simp
  · simp
  · exact absurd rfl h

theorem preStep_noDiverge (cfg : Cfg ν n q K) (s : State ν n q K) (k : Nat) : preStep cfg s k ≠ .diverge := by
  intro h
  have := preStep_cases cfg s k
  rw [h] at this
  cases this

theorem stepFailed_noDiverge (s : State ν n q K) (e : Err) : stepFailed s e ≠ .diverge := by
  unfold stepFailed
  cases h : getSolution s s.e.tn with
  | diverge => exact absurd h (getSolution_noDiverge s _)
  | panic => simp
  | ret s1 r => cases r <;> simp

theorem rCheck2_noDiverge (cfg : Cfg ν n q K) (s : State ν n q K) : rCheck2 cfg s ≠ .diverge := by
  unfold rCheck2 callRoot
  split
  · simp
  · split
    · simp
    · simp only
      split
      · split
        · simp
        · split
          · simp
          · split <;> simp
      · simp

theorem firstCall_noDiverge (cfg : Cfg ν n q K) (s : State ν n q K) (tout : K) : firstCall cfg s tout ≠ .diverge := by
  unfold firstCall
  simp only
  split
  · simp
  · split
    · simp
    · split <;> simp

theorem postStep_noDiverge {cfg : Cfg ν n q K} {rf : Nat} {s : State ν n q K} (hr : 0 < q → rCheck3 cfg rf s ≠ .diverge)
    (tout : K) (task : Task) : postStep cfg rf s tout task ≠ .diverge := by
  unfold postStep
  split
  · rename_i hq
    split
    · simp
    · rename_i h; exact absurd h (hr hq)
    · simp
    · simp
    · exact ofStop_noDiverge (stopTest2_noDiverge _ _ _)
  · exact ofStop_noDiverge (stopTest2_noDiverge _ _ _)

theorem laterCall_noDiverge {cfg : Cfg ν n q K} {rf : Nat} {s : State ν n q K}
    (hr : ∀ s1, 0 < q → rCheck2 cfg s = .ret s1 (.ok .continue_) → rCheck3 cfg rf s1 ≠ .diverge)
    (tout : K) (task : Task) : laterCall cfg rf s tout task ≠ .diverge := by
  unfold laterCall
  by_cases hq : q > 0
  · rw [if_pos hq]
    unfold rootChecks
    simp only
    cases h2 : rCheck2 cfg s with
    | panic => simp
    | diverge => exact absurd h2 (rCheck2_noDiverge cfg s)
    | ret s1 r1 =>
      cases r1 with
      | error e => simp
      | ok st =>
        cases st with
        | rootFound => simp
        | continue_ =>
          have h3 := hr s1 hq h2
          simp only
          by_cases hfar : Scalar.gt (Scalar.abs (s1.e.tn - s1.tretlast))
              ((Scalar.abs s1.e.tn + Scalar.abs s1.c.hh) * Scalar.eps * Scalar.hundred) = true
          · rw [if_pos hfar]
            cases h4 : rCheck3 cfg rf s1 with
            | panic => simp
            | diverge => exact absurd h4 h3
            | ret s2 r2 =>
              cases r2 with
              | error e => simp
              | ok st2 =>
                cases st2 with
                | rootFound => simp
                | continue_ =>
                  simp only
                  by_cases hp : task = .oneStep ∧ s.r.irfnd = true
                  · rw [if_pos hp]
                    cases h5 : getSolution' (State.setTret { s2 with r.irfnd := false } s2.e.tn) s2.e.tn with
                    | none => simp
                    | some s3 => simp
                  · rw [if_neg hp]
                    exact ofStop_noDiverge (stopTest1_noDiverge _ _ _)
          · rw [if_neg hfar]
            exact ofStop_noDiverge (stopTest1_noDiverge _ _ _)
  · rw [if_neg hq]
    exact ofStop_noDiverge (stopTest1_noDiverge _ _ _)

/-- The step loop does not run forever if no step and no root search in it does. -/
theorem solveLoop_noDiverge {cfg : Cfg ν n q K} {rf : Nat} {tout : K} {task : Task}
    (I : State ν n q K → Nat → Prop) (hs : ∀ p k p1, I p k → preStep cfg p k = .go p1 → step cfg p1 ≠ .diverge)
    (hlim : ∀ p k, I p k → k ≤ cfg.mxstep)
    (hnext : ∀ p k p', I p k → solvePass cfg rf p tout task k = .go p' → I p' (k + 1))
    (hr : ∀ p k p1 p2, I p k → preStep cfg p k = .go p1 → step cfg p1 = .ret p2 (.ok ()) →
      0 < q → rCheck3 cfg rf p2 ≠ .diverge) :
    ∀ (sf : Nat) (p : State ν n q K) (k : Nat), I p k → cfg.mxstep < sf + k →
      solveLoop cfg rf tout task sf p k ≠ .diverge := by
  intro sf
  induction sf with
  | zero =>
    intro p k hI hk
    have := hlim p k hI
    omega
  | succ sf ih =>
    intro p k hI hk
    unfold solveLoop Flow.andThen
    cases hp : solvePass cfg rf p tout task k with
    | go p' => exact ih p' (k + 1) (hnext p k p' hI hp) (by omega)
    | ret s' r => simp
    | panic => simp
    | diverge =>
      exfalso
      unfold solvePass at hp
      cases hpre : preStep cfg p k with
      | panic => rw [hpre] at hp; cases hp
      | diverge => exact preStep_noDiverge cfg p k hpre
      | ret s1 r1 => rw [hpre] at hp; cases hp
      | go p1 =>
        rw [hpre] at hp
        simp only at hp
        cases hst : step cfg p1 with
        | panic => rw [hst] at hp; cases hp
        | diverge => exact hs p k p1 hI hpre hst
        | ret p2 r2 =>
          rw [hst] at hp
          cases r2 with
          | error e => exact stepFailed_noDiverge p2 e hp
          | ok a => exact postStep_noDiverge (hr p k p1 p2 hI hpre hst) tout task hp

/-- The states in which a call begins its steps. -/
theorem LoopAt.micros {cfg : Cfg ν n q K} {rf : Nat} {s p : State ν n q K} {tout : K} {task : Task} {k : Nat}
    (h : LoopAt cfg rf s tout task p k) : Micros cfg s p := by
  rcases Nat.eq_zero_or_pos p.cnt.nst with h0 | h0
  · have hn := h.nst
    have hs0 : s.cnt.nst = 0 := by omega
    obtain ⟨s1, h1, rfl⟩ := h.first hs0 (by omega)
    have hb := (begun_same s tout task).2.2.2
    refine Relation.ReflTransGen.tail (Relation.ReflTransGen.tail (Micros.frame hb) (.first tout _ (by rw [hb.cnt]; exact hs0) h1)) (.perf _)
  · exact (h.ready h0).1

/-- `solve` does not run forever if no step and no root search in it does. -/
theorem solve_noDiverge {cfg : Cfg ν n q K} {rf sf : Nat} (hm : 0 < cfg.mxstep) (hsf : cfg.mxstep < sf)
    (s : State ν n q K) (hs : ∀ p, Micros cfg s p → step cfg p ≠ .diverge) (tout : K) (task : Task)
    (hr2 : ∀ s1, 0 < s.cnt.nst → 0 < q → Frame (perfReset (begun s tout task)) s1 → rCheck3 cfg rf s1 ≠ .diverge)
    (hr : ∀ p2, Micros cfg s p2 → 0 < p2.cnt.nst → 0 < q → rCheck3 cfg rf p2 ≠ .diverge) :
    solve cfg rf sf s tout task ≠ .diverge := by
  have key : ∀ p, LoopAt cfg rf s tout task p 0 → solveLoop cfg rf tout task sf p 0 ≠ .diverge := fun p hI =>
    solveLoop_noDiverge (LoopAt cfg rf s tout task)
      (fun p k p1 hI hp => hs p1 (hI.micros.trans (preStep_micro.1 p1 hp).1)) (fun p k hI => hI.limit hm) (fun p k p' hI hp => loopAt_next hI hp)
      (fun p k p1 p2 hI h1 h2 hq => by
      obtain ⟨-, h3, h4, -⟩ := loopAt_step hI h1 h2
      exact hr p2 h4 (by omega) hq) sf p 0 hI (by omega)
  rw [solve_eq]
  split
  · rename_i h0
    cases hf : firstCall cfg (begun s tout task) tout with
    | panic => simp [Out.bind]
    | diverge => exact absurd hf (firstCall_noDiverge _ _ _)
    | ret s1 r1 =>
      cases r1 with
      | error e => simp [Out.bind]
      | ok a => exact key _ (loopAt_first h0 hf)
  · rename_i h0
    have h0 : 0 < s.cnt.nst := by omega
    cases hl : laterCall cfg rf (perfReset (begun s tout task)) tout task with
    | panic => simp [Flow.andThen]
    | diverge =>
      exact absurd hl (laterCall_noDiverge (fun s1 hq h2 => hr2 s1 h0 hq (rCheck2_frame h2)) _ _)
    | ret s1 r1 => simp [Flow.andThen]
    | go s1 => exact key _ (loopAt_later h0 hl)

end

end Verif
