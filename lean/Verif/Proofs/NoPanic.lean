import Verif.Proofs.Attempts

/-! # `solve` does not panic (any scalar type) -/

set_option autoImplicit false
set_option linter.unusedSectionVars false
set_option linter.unusedSimpArgs false
set_option linter.unusedVariables false

namespace Verif

open Relation

universe u v

section
variable {ν : Type v} {n q : Nat} {K : Type u} [Scalar K]

/-! ## The performance monitor -/

/-- The monitor's reference values are not ahead of the counters. -/
structure PerfOk (s : State ν n q K) : Prop where
  nst : s.perf.nst0 ≤ s.cnt.nst
  nni : s.perf.nni0 = s.cnt.nni

theorem PerfOk.frame {s s' : State ν n q K} (hf : Frame s s') (h : PerfOk s) : PerfOk s' := by
  have h1 : s'.perf.nst0 = s.perf.nst0 := by have := congrArg Perf.nst0 hf.perf; exact this
  have h2 : s'.perf.nni0 = s.perf.nni0 := by have := congrArg Perf.nni0 hf.perf; exact this
  exact ⟨by rw [h1, hf.cnt]; exact h.nst, by rw [h2, hf.cnt]; exact h.nni⟩

theorem perfReset_ok (s : State ν n q K) : PerfOk (perfReset s) := ⟨le_refl _, rfl⟩

theorem perfCheck_some {s : State ν n q K} (h : PerfOk s) : ∃ s', perfCheck s = some s' := by
  unfold perfCheck
  rw [if_neg (by have := h.nst; have := h.nni; omega)]
  simp only
  rw [if_pos (by right; have := h.nni; omega)]
  exact ⟨_, rfl⟩

theorem firstCall_perf {cfg : Cfg ν n q K} {s s' : State ν n q K} {tout : K} {r : Except Err Unit}
    (h : firstCall cfg s tout = .ret s' r) : s'.perf = s.perf := by
  have h0 : (initialSetup cfg s).perf = s.perf := by unfold initialSetup; split <;> rfl
  have hr : ∀ s : State ν n q K, (rCheck1 cfg s).perf = s.perf := by
    intro s; unfold rCheck1 callRoot; simp only; split <;> rfl
  rcases firstCall_cases h with ⟨-, h, -⟩ | ⟨-, h, -⟩ | ⟨hh, -, -, -, ⟨-, h, -⟩ | ⟨s1, h1, h, -⟩⟩ <;> subst h
  · exact h0
  · exact h0
  · exact h0
  · have h2 : s1.perf = s.perf := by
      unfold firstStop at h1
      split at h1
      · split at h1
        · cases h1
        · cases h1; unfold clampToStop; split <;> exact h0
      · cases h1; exact h0
    unfold firstReady
    simp only
    split
    · exact (hr _).trans h2
    · exact h2

theorem PerfOk.step {cfg : Cfg ν n q K} {s s' : State ν n q K} {r : Except Err Unit} (hl : NlsLegal cfg)
    (hI : PerfOk s) (h : step cfg s = .ret s' r) : PerfOk s' := by
  obtain ⟨h1, h2, -⟩ := cntLe_step hl h
  exact ⟨by rw [h2]; exact hI.nst.trans h1.nst, by rw [h2, h1.nni]; exact hI.nni⟩

theorem PerfOk.micro {cfg : Cfg ν n q K} {s s' : State ν n q K} (hl : NlsLegal cfg) (hI : PerfOk s)
    (h : Micro cfg s s') : PerfOk s' := by
  cases h with
  | frame hf => exact hI.frame hf
  | perf => exact perfReset_ok s
  | clear => exact ⟨hI.nst, hI.nni⟩
  | clamp ts _ _ _ => unfold clampToStop; split <;> exact ⟨hI.nst, hI.nni⟩
  | ewt _ => exact ⟨hI.nst, hI.nni⟩
  | first _ _ h0 hf =>
    have h1 := firstCall_perf hf
    have h2 := (firstCall_same hf).cnt
    exact ⟨by rw [h1, h2]; exact hI.nst, by rw [h1, h2]; exact hI.nni⟩
  | firstStep _ h0 hf hfr hs => exact ((perfReset_ok _).frame hfr).step hl hs
  | step _ _ hs => exact hI.step hl hs

theorem PerfOk.fail {cfg : Cfg ν n q K} {s s' : State ν n q K} {e : Err} (hl : NlsLegal cfg) (hI : PerfOk s)
    (h : MicroFail cfg s e s') : PerfOk s' := by
  cases h with
  | firstStep _ _ h0 hf hfr hs => exact ((perfReset_ok _).frame hfr).step hl hs
  | step _ _ _ hs => exact hI.step hl hs

theorem Reach.perf {cfg : Cfg ν n q K} (hl : NlsLegal cfg) {s : State ν n q K} (h : Reach cfg s) : PerfOk s :=
  h.inv _ (fun _ _ _ _ => ⟨le_refl _, rfl⟩) (fun _ _ hI h => hI.micro hl h) (fun _ _ _ hI h => hI.fail hl h)

/-! ## Interpolation and root finding -/

theorem kordOf_lt {k : Nat} (h : k < mxordp1) : kordOf k < mxordp1 := by
  unfold kordOf; split
  · decide
  · exact h

theorem getSolution_noPanic {s : State ν n q K} (h : s.c.kused < mxordp1) (t : K) :
    getSolution s t ≠ .panic ∧ getSolution s t ≠ .diverge := by
  unfold getSolution
  split
  · simp
  · simp only [kordOf_lt h, if_true]; simp

theorem getSolution'_noPanic {s : State ν n q K} (h : s.c.kused < mxordp1) (t : K) : ∃ s', getSolution' s t = some s' := by
  unfold getSolution'
  have := getSolution_noPanic h t
  cases hg : getSolution s t with
  | ret s' r => exact ⟨_, rfl⟩
  | panic => exact absurd hg this.1
  | diverge => exact absurd hg this.2

theorem getSolution'_none {s : State ν n q K} {t : K} (h : getSolution' s t = none) : ¬ s.c.kused < mxordp1 := by
  intro hk
  obtain ⟨s', h'⟩ := getSolution'_noPanic hk t
  rw [h] at h'; cases h'

theorem foldl_inv {α : Type u} {m : Nat} (f : α → Fin m → α) (a : α) (P : α → Prop) (h0 : P a)
    (hs : ∀ a i, P a → P (f a i)) : P (Fin.foldl m f a) := by
  induction m with
  | zero => rw [Fin.foldl_zero]; exact h0
  | succ m ih =>
    rw [Fin.foldl_succ_last]
    exact hs _ _ (ih _ (fun a i h => hs _ _ h))

theorem scanSign_imax (cfg : Cfg ν n q K) (glo g : Vec q K) (a : Scan K) (i : Fin q) :
    (scanSign cfg glo g a i).imax < q ∨ scanSign cfg glo g a i = a := by
  unfold scanSign
  split
  · simp only
    split
    · exact Or.inl i.isLt
    · exact Or.inr rfl
  · exact Or.inr rfl

theorem scan1_imax (cfg : Cfg ν n q K) (act : Fin q → Bool) (glo ghi : Vec q K)
    (h : (scan1 cfg act glo ghi).sgnchg = true) : (scan1 cfg act glo ghi).imax < q := by
  revert h
  unfold scan1
  refine foldl_inv _ _ (fun a : Scan K => a.sgnchg = true → a.imax < q) (by simp) ?_
  intro a i ha
  split
  · split
    · split <;> exact ha
    · rcases scanSign_imax cfg glo ghi a i with h | h
      · exact fun _ => h
      · rw [h]; exact ha
  · exact ha

theorem scan2_imax (cfg : Cfg ν n q K) (act : Fin q → Bool) (glo ghi : Vec q K) (im : Nat) (h : im < q) :
    (scan2 cfg act glo ghi im).imax < q := by
  unfold scan2
  refine foldl_inv _ _ (fun a : Scan K => a.imax < q) h ?_
  intro a i ha
  split
  · split
    · exact ha
    · rcases scanSign_imax cfg glo ghi a i with h | h
      · exact h
      · rw [h]; exact ha
  · exact ha

theorem rCheck2_noPanic {cfg : Cfg ν n q K} {s : State ν n q K} (h : s.c.kused < mxordp1) :
    rCheck2 cfg s ≠ .panic ∧ rCheck2 cfg s ≠ .diverge := by
  unfold rCheck2 callRoot
  split
  · simp
  · obtain ⟨s1, h1⟩ := getSolution'_noPanic h s.r.tlo
    have hk : s1.c.kused < mxordp1 := by rw [(getSolution'_frame h1).1.c]; exact h
    rw [h1]
    simp only
    split
    · split
      · rename_i h2
        split at h2
        · cases h2
        · exact (getSolution'_none h2 hk).elim
      · split
        · simp
        · split <;> simp
    · simp

theorem rootNarrow_more {s s' : State ν n q K} {a : Scan K} {tmid alph : K} {sp : Int} {l : RfLoc K}
    (h : rootNarrow s a tmid alph sp = .more s' l) : l.imax = a.imax := by
  unfold rootNarrow at h
  simp only at h
  split at h
  · split at h <;> cases h
    rfl
  · split at h
    · cases h
    · split at h <;> cases h
      rfl

theorem rootNarrow_noPanic {s : State ν n q K} {a : Scan K} {tmid alph : K} {sp : Int} :
    rootNarrow s a tmid alph sp ≠ .panic := by
  unfold rootNarrow
  simp only
  split
  · split <;> simp
  · split
    · simp
    · split <;> simp

theorem rootPass_noPanic {cfg : Cfg ν n q K} {s : State ν n q K} {l : RfLoc K} (h : s.c.kused < mxordp1)
    (hi : l.imax < q) : rootPass cfg s l ≠ .panic ∧ ∀ s' l', rootPass cfg s l = .more s' l' → l'.imax < q := by
  unfold rootPass callRoot
  rw [dif_pos hi]
  simp only
  obtain ⟨s1, h1⟩ := getSolution'_noPanic h
    (trialPoint s.r.thi s.r.tlo s.r.ttol (s.r.ghi ⟨l.imax, hi⟩) (s.r.glo ⟨l.imax, hi⟩) (nextAlph l))
  rw [h1]
  refine ⟨rootNarrow_noPanic, ?_⟩
  intro s' l' h'
  rw [rootNarrow_more h']
  exact scan2_imax _ _ _ _ _ hi

theorem rootLoop_noPanic {cfg : Cfg ν n q K} (fuel : Nat) {s : State ν n q K} {l : RfLoc K}
    (h : s.c.kused < mxordp1) (hi : l.imax < q) : rootLoop cfg fuel s l ≠ .panic := by
  induction fuel generalizing s l with
  | zero => intro h; cases h
  | succ fuel ih =>
    unfold rootLoop
    split
    · simp
    · obtain ⟨hp, hl⟩ := rootPass_noPanic (cfg := cfg) h hi
      split
      · rename_i h1; exact absurd h1 hp
      · simp
      · rename_i s1 l1 h1
        exact ih (by rw [(rootPass_frame.2 _ h1).c]; exact h) (hl _ _ h1)

theorem rootFind_noPanic {cfg : Cfg ν n q K} {fuel : Nat} {s : State ν n q K} (h : s.c.kused < mxordp1) :
    rootFind cfg fuel s ≠ .panic := by
  unfold rootFind
  simp only
  split
  · split <;> simp
  · rename_i hs
    have := rootLoop_noPanic (cfg := cfg) fuel (s := s)
      (l := { alph := 1, side := 0, sideprev := -1, imax := (scan1 cfg s.r.gactive s.r.glo s.r.ghi).imax }) h
      (scan1_imax _ _ _ _ (by simpa using hs))
    unfold Out.bind
    split
    · simp
    · simp
    · rename_i h1; exact absurd h1 this
    · simp

theorem rCheck3_noPanic {cfg : Cfg ν n q K} {fuel : Nat} {s : State ν n q K} (h : s.c.kused < mxordp1) :
    rCheck3 cfg fuel s ≠ .panic := by
  unfold rCheck3 callRoot
  simp only
  obtain ⟨s1, h1⟩ := getSolution'_noPanic (s := ({ s with r.thi := searchEnd s } : State ν n q K)) h (searchEnd s)
  rw [h1]
  have hk : s1.c.kused < mxordp1 := by rw [(getSolution'_frame h1).1.c]; exact h
  simp only
  unfold Out.bind
  split
  · rename_i s2 st h2
    have hk2 : s2.c.kused < mxordp1 := by rw [(rootFind_frame h2).c]; exact hk
    simp only
    split
    · split
      · rename_i h3
        exact (getSolution'_none h3 hk2).elim
      · simp
    · simp
  · simp
  · rename_i h2
    exact absurd h2 (rootFind_noPanic hk)
  · simp

/-! ## The driver -/

theorem bind_noPanic {S : Type u} {α β : Type v} {o : Out S α} {f : S → α → Out S β} (h : o ≠ .panic)
    (hf : ∀ s a, o = .ret s (.ok a) → f s a ≠ .panic) : o.bind f ≠ .panic := by
  unfold Out.bind
  split
  · exact hf _ _ rfl
  · simp
  · exact absurd rfl h
  · simp

theorem stopTest1_noPanic {s : State ν n q K} (h : s.c.kused < mxordp1) (tout : K) (task : Task) :
    stopTest1 s tout task ≠ .panic ∧ stopTest1 s tout task ≠ .diverge := by
  unfold stopTest1
  split
  · simp
  · split
    · split
      · simp
      · split
        · have := getSolution_noPanic h tout
          unfold Out.bind
          cases hg : getSolution s tout with
          | ret s' r => cases r <;> simp
          | panic => exact absurd hg this.1
          | diverge => exact absurd hg this.2
        · split
          · rename_i ts hts
            split
            · have := getSolution_noPanic h ts
              cases hg : getSolution s ts with
              | ret s' r => cases r <;> simp
              | panic => exact absurd hg this.1
              | diverge => exact absurd hg this.2
            · simp
          · simp
    · split
      · obtain ⟨s1, h1⟩ := getSolution'_noPanic h s.e.tn
        rw [h1]; simp
      · split
        · rename_i ts hts
          split
          · have := getSolution_noPanic h ts
            unfold Out.bind
            cases hg : getSolution s ts with
            | ret s' r => cases r <;> simp
            | panic => exact absurd hg this.1
            | diverge => exact absurd hg this.2
          · simp
        · simp

theorem stopTest2_noPanic {s : State ν n q K} (h : s.c.kused < mxordp1) (tout : K) (task : Task) :
    stopTest2 s tout task ≠ .panic ∧ stopTest2 s tout task ≠ .diverge := by
  unfold stopTest2
  split
  · split
    · obtain ⟨s1, h1⟩ := getSolution'_noPanic (s := s.setTret tout) h tout
      rw [h1]; simp
    · split
      · rename_i ts hts
        split
        · obtain ⟨s1, h1⟩ := getSolution'_noPanic h ts
          rw [h1]; simp
        · simp
      · simp
  · split
    · rename_i ts hts
      split
      · obtain ⟨s1, h1⟩ := getSolution'_noPanic h ts
        rw [h1]; simp
      · simp
    · simp

theorem ofStop_noPanic {S : Type u} {o : Out S Status} (h : o ≠ .panic ∧ o ≠ .diverge) :
    Flow.ofStop o ≠ .panic ∧ Flow.ofStop o ≠ .diverge := by
  unfold Flow.ofStop
  split
  · simp
  · simp
  · exact absurd rfl h.1
  · exact absurd rfl h.2

theorem preStep_noPanic {cfg : Cfg ν n q K} {s : State ν n q K} (h : s.c.kused < mxordp1) (hp : PerfOk s)
    (nstloc : Nat) : preStep cfg s nstloc ≠ .panic ∧ preStep cfg s nstloc ≠ .diverge := by
  unfold preStep
  split
  · simp
  · obtain ⟨s1, h1⟩ := perfCheck_some hp
    rw [h1]
    have hk : s1.c.kused < mxordp1 := by rw [(perfCheck_frame h1).c]; exact h
    simp only
    by_cases hn : s1.cnt.nst > 0
    · simp only [if_pos hn]
      split
      · obtain ⟨s2, h2⟩ := getSolution'_noPanic (s := { s1 with e.ewt := cfg.ewtSet (s1.h.phi 0) s1.e.ewt }) hk s1.e.tn
        rw [h2]; simp
      · split
        · split
          · rename_i h2
            split at h2
            · exact (getSolution'_none h2 hk).elim
            · cases h2
          · simp
        · simp
    · simp only [if_neg hn, decide_eq_false hn, Bool.false_and, Bool.false_eq_true, if_false]
      split
      · split
        · rename_i h2
          split at h2
          · exact (getSolution'_none h2 hk).elim
          · cases h2
        · simp
      · simp

theorem stepFailed_noPanic {s : State ν n q K} {e : Err} (h : s.c.kused < mxordp1) :
    stepFailed s e ≠ .panic ∧ stepFailed s e ≠ .diverge := by
  unfold stepFailed
  have := getSolution_noPanic h s.e.tn
  cases hg : getSolution s s.e.tn with
  | ret s' r => cases r <;> simp
  | panic => exact absurd hg this.1
  | diverge => exact absurd hg this.2

theorem postStep_noPanic {cfg : Cfg ν n q K} {rf : Nat} {s : State ν n q K} {tout : K} {task : Task}
    (h : s.c.kused < mxordp1) : postStep cfg rf s tout task ≠ .panic := by
  unfold postStep
  split
  · have := rCheck3_noPanic (cfg := cfg) (fuel := rf) h
    split
    · rename_i h1; exact absurd h1 this
    · simp
    · simp
    · simp
    · rename_i s1 h1
      exact (ofStop_noPanic (stopTest2_noPanic (by rw [(rCheck3_frame h1).c]; exact h) tout task)).1
  · exact (ofStop_noPanic (stopTest2_noPanic h tout task)).1

theorem rootChecks_noPanic {cfg : Cfg ν n q K} {rf : Nat} {s : State ν n q K} {task : Task}
    (h : s.c.kused < mxordp1) : rootChecks cfg rf s task ≠ .panic := by
  unfold rootChecks
  simp only
  have h2 := rCheck2_noPanic (cfg := cfg) h
  split
  · rename_i h1; exact absurd h1 h2.1
  · simp
  · simp
  · simp
  · rename_i s1 h1
    have hk : s1.c.kused < mxordp1 := by rw [(rCheck2_frame h1).c]; exact h
    split
    · have h3 := rCheck3_noPanic (cfg := cfg) (fuel := rf) hk
      split
      · rename_i h4; exact absurd h4 h3
      · simp
      · simp
      · rename_i s2 h4
        have hk2 : s2.c.kused < mxordp1 := by rw [(rCheck3_frame h4).c]; exact hk
        split
        · split
          · rename_i h5
            exact (getSolution'_none h5 hk2).elim
          · simp
        · simp
      · simp
    · simp

theorem laterCall_noPanic {cfg : Cfg ν n q K} {rf : Nat} {s : State ν n q K} {tout : K} {task : Task}
    (h : s.c.kused < mxordp1) : laterCall cfg rf s tout task ≠ .panic := by
  unfold laterCall
  by_cases hq : q > 0
  · rw [if_pos hq]
    have h1 := rootChecks_noPanic (cfg := cfg) (rf := rf) (task := task) h
    cases hr : rootChecks cfg rf s task with
    | go s1 => exact (ofStop_noPanic (stopTest1_noPanic (by rw [(rootChecks_frame.1 _ hr).c]; exact h) tout task)).1
    | ret s1 r => simp
    | panic => exact absurd hr h1
    | diverge => simp
  · rw [if_neg hq]
    exact (ofStop_noPanic (stopTest1_noPanic h tout task)).1

/-- What is needed of the state at the top of the step loop. -/
structure Sane (cfg : Cfg ν n q K) (s : State ν n q K) : Prop where
  ord : OrdInv cfg s
  perf : PerfOk s

theorem Sane.micros {cfg : Cfg ν n q K} {s s' : State ν n q K} (hl : NlsLegal cfg) (hm : 1 ≤ cfg.maxord)
    (h : Micros cfg s s') (hs : Sane cfg s) : Sane cfg s' :=
  h.inv (P := Sane cfg) (fun _ _ h hm' => ⟨ordInv_micro hl hm h.ord hm', h.perf.micro hl hm'⟩) hs

theorem Sane.step {cfg : Cfg ν n q K} {s s' : State ν n q K} {r : Except Err Unit} (hl : NlsLegal cfg)
    (hm : 1 ≤ cfg.maxord) (hs : Sane cfg s) (h : Verif.step cfg s = .ret s' r) : Sane cfg s' :=
  ⟨ordInv_step hl hm hs.ord h, hs.perf.step hl h⟩

/-- The assumptions on configuration and nonlinear solver under which nothing panics. -/
structure NoPanicCfg (cfg : Cfg ν n q K) : Prop where
  legal : NlsLegal cfg
  total : NlsNoPanic cfg
  constraints : cfg.constraintsSet = false
  maxord1 : 1 ≤ cfg.maxord
  maxord5 : cfg.maxord ≤ 5

theorem Sane.kused5 {cfg : Cfg ν n q K} (hc : cfg.maxord ≤ 5) {s : State ν n q K} (h : Sane cfg s) :
    s.c.kused < mxordp1 := by
  have := h.ord.kusedm
  show _ < 6
  omega

theorem Sane.kused {cfg : Cfg ν n q K} (hc : NoPanicCfg cfg) {s : State ν n q K} (h : Sane cfg s) :
    s.c.kused < mxordp1 := h.kused5 hc.maxord5

/-- The step loop does not panic if no step in it does. -/
theorem solveLoop_noPanic {cfg : Cfg ν n q K} (hl : NlsLegal cfg) (hm1 : 1 ≤ cfg.maxord) (hm5 : cfg.maxord ≤ 5) {rf : Nat}
    {tout : K} {task : Task} (I : State ν n q K → Nat → Prop) (hI : ∀ p k, I p k → Sane cfg p)
    (hstep : ∀ p k p1, I p k → preStep cfg p k = .go p1 → step cfg p1 ≠ .panic)
    (hnext : ∀ p k p', I p k → solvePass cfg rf p tout task k = .go p' → I p' (k + 1)) (sf : Nat)
    {s : State ν n q K} {k : Nat} (hs : I s k) : solveLoop cfg rf tout task sf s k ≠ .panic := by
  induction sf generalizing s k with
  | zero => intro h; cases h
  | succ sf ih =>
    unfold solveLoop Flow.andThen
    have hsane := hI _ _ hs
    cases hpass : solvePass cfg rf s tout task k with
    | diverge => simp
    | ret s1 r1 => simp
    | go s1 => exact ih (hnext _ _ _ hs hpass)
    | panic =>
      exfalso
      unfold solvePass at hpass
      have hp := preStep_micro (cfg := cfg) (s := s) (nstloc := k)
      cases hpre : preStep cfg s k with
      | panic => exact absurd hpre (preStep_noPanic (hsane.kused5 hm5) hsane.perf k).1
      | diverge => rw [hpre] at hpass; cases hpass
      | ret s1 r1 => rw [hpre] at hpass; cases hpass
      | go s1 =>
        rw [hpre] at hpass
        simp only at hpass
        obtain ⟨hm, hc2, -, hf2⟩ := hp.1 s1 hpre
        have hs1 : Sane cfg s1 := hsane.micros hl hm1 hm
        cases hst : step cfg s1 with
        | panic => exact hstep _ _ _ hs hpre hst
        | diverge => rw [hst] at hpass; cases hpass
        | ret s2 r2 =>
          have hs2 := hs1.step hl hm1 hst
          rw [hst] at hpass
          cases r2 with
          | error e => exact (stepFailed_noPanic (hs2.kused5 hm5)).1 hpass
          | ok u => exact postStep_noPanic (hs2.kused5 hm5) hpass

/-- One pass of the step loop keeps the state sane. -/
theorem Sane.pass {cfg : Cfg ν n q K} (hl : NlsLegal cfg) (hm1 : 1 ≤ cfg.maxord) {rf : Nat} {tout : K} {task : Task}
    {s s' : State ν n q K} {k : Nat} (hs : Sane cfg s) (h : solvePass cfg rf s tout task k = .go s') : Sane cfg s' := by
  unfold solvePass at h
  have hp := preStep_micro (cfg := cfg) (s := s) (nstloc := k)
  cases hpre : preStep cfg s k with
  | panic => rw [hpre] at h; cases h
  | diverge => rw [hpre] at h; cases h
  | ret s1 r1 => rw [hpre] at h; cases h
  | go s1 =>
    rw [hpre] at h
    simp only at h
    obtain ⟨hm, hc2, -, hf2⟩ := hp.1 s1 hpre
    have hs1 : Sane cfg s1 := hs.micros hl hm1 hm
    cases hst : Verif.step cfg s1 with
    | panic => rw [hst] at h; cases h
    | diverge => rw [hst] at h; cases h
    | ret s2 r2 =>
      have hs2 := hs1.step hl hm1 hst
      rw [hst] at h
      cases r2 with
      | error e => exact absurd h stepFailed_go
      | ok u =>
        have hn2 := step_nst hst
        exact hs2.micros hl hm1 ((postStep_ok (cfg := cfg) (rf := rf) (tout := tout) (task := task) hn2).go _ h).1

theorem firstCall_noPanic {cfg : Cfg ν n q K} {s : State ν n q K} {tout : K} :
    firstCall cfg s tout ≠ .panic ∧ firstCall cfg s tout ≠ .diverge := by
  unfold firstCall
  simp only
  split
  · simp
  · split
    · simp
    · split <;> simp

theorem solve_noPanic {cfg : Cfg ν n q K} (hc : NoPanicCfg cfg) {rf sf : Nat} {s : State ν n q K} {tout : K}
    {task : Task} (hs : Sane cfg s) : solve cfg rf sf s tout task ≠ .panic := by
  unfold solve
  simp only
  obtain ⟨s0, hs0, hf0⟩ : ∃ s0 : State ν n q K,
      ({ (if task = .normal then { s with r.toutc := tout } else s) with
          r.taskc := task } : State ν n q K) = s0 ∧ Frame s s0 := by
    refine ⟨_, rfl, ?_⟩
    split <;> frame_rfl
  have hcnt : (if task = .normal then ({ s with r.toutc := tout } : State ν n q K) else s).cnt = s0.cnt := by
    rw [← hs0]
  rw [hs0, hcnt]
  have hs1 : Sane cfg s0 := hs.micros hc.legal hc.maxord1 (Micros.frame hf0)
  have key : ∀ {p : State ν n q K}, Sane cfg p → solveLoop cfg rf tout task sf p 0 ≠ .panic := fun hp =>
    solveLoop_noPanic hc.legal hc.maxord1 hc.maxord5 (fun p _ => Sane cfg p) (fun _ _ h => h)
      (fun p k p1 h h1 => step_noPanic hc.legal hc.total hc.constraints hc.maxord1
        (by have := hc.maxord5; show _ < 6; omega) (h.micros hc.legal hc.maxord1 ((preStep_micro (cfg := cfg)).1 p1 h1).1).ord)
      (fun p k p' h h1 => h.pass hc.legal hc.maxord1 h1) sf hp
  by_cases hn : s0.cnt.nst = 0
  · rw [if_pos hn]
    refine bind_noPanic firstCall_noPanic.1 ?_
    intro s1 _ h1
    have hc1 : ¬ (perfReset s1).cnt.nst > 0 := by
      show ¬ s1.cnt.nst > 0
      rw [firstCall_cnt h1]; omega
    rw [if_neg hc1]
    exact key ⟨ordInv_perf (ordInv_first hn h1 hs1.ord), perfReset_ok _⟩
  · rw [if_neg hn]
    have hp : 0 < s0.cnt.nst := Nat.pos_of_ne_zero hn
    simp only [Out.bind]
    have hc1 : (perfReset s0).cnt.nst > 0 := hp
    rw [if_pos hc1]
    have hs2 : Sane cfg (perfReset s0) := hs1.micros hc.legal hc.maxord1 (ReflTransGen.single (.perf s0))
    have hl := laterCall_ok (cfg := cfg) (rf := rf) (s := perfReset s0) (tout := tout) (task := task) hp
    unfold Flow.andThen
    split
    · rename_i s3 h3
      exact key (hs2.micros hc.legal hc.maxord1 (hl.go _ h3).1)
    · simp
    · rename_i h3
      exact absurd h3 (laterCall_noPanic (hs2.kused hc))
    · simp

theorem Reach.sane {cfg : Cfg ν n q K} (hl : NlsLegal cfg) (hm : 1 ≤ cfg.maxord) {s : State ν n q K}
    (h : Reach cfg s) : Sane cfg s := ⟨h.ord hl hm, h.perf hl⟩

end

end Verif
