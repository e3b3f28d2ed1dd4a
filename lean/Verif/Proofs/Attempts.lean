import Verif.Proofs.Order
import Mathlib.Data.List.Count

/-! # No panics, bounded attempts, counters (any scalar type) -/

set_option autoImplicit false
set_option linter.unusedSectionVars false
set_option linter.unusedSimpArgs false
set_option linter.unusedVariables false

namespace Verif

open Relation

universe u v

section
variable {ν : Type v} {n q : Nat} {K : Type u} [Scalar K]

/-! ## Panics and divergence come from the nonlinear solver only -/

theorem trial_panic {cfg : Cfg ν n q K} {s : State ν n q K} (hk : s.c.kk < mxordp1)
    (hc : cfg.constraintsSet = false) (h : trial cfg s = .panic) : nlsCall cfg s = .panic := by
  rw [trial_eq, if_pos hk] at h
  split at h
  · assumption
  · cases h
  · cases h
  · rw [hc] at h
    simp only [Bool.false_eq_true, if_false] at h
    split at h
    · rename_i N m ee _ _ ht
      obtain ⟨p, hp⟩ := testError_some (cfg := cfg) (s := solved (tried s) N m ee) (ck := errCoef s) hk
      rw [hp] at ht; cases ht
    · cases h

theorem trial_diverge {cfg : Cfg ν n q K} {s : State ν n q K} (h : trial cfg s = .diverge) :
    nlsCall cfg s = .diverge := by
  rw [trial_eq] at h
  split at h
  · split at h
    · cases h
    · assumption
    · cases h
    · split at h
      · cases h
      · split at h <;> cases h
  · cases h

theorem handleNFlag_some {cfg : Cfg ν n q K} {s : State ν n q K} {err : Err} {a b : K} {f : Fails}
    (h : err = .ida .testFail ∨ err.fromNls) : ∃ p, handleNFlag cfg s err a b f = some p := by
  unfold handleNFlag
  simp only
  rcases h with rfl | h
  · simp only
    split
    · exact ⟨_, rfl⟩
    · split
      · exact ⟨_, rfl⟩
      · split <;> exact ⟨_, rfl⟩
  · rcases fromNls_cases h with ⟨r, rfl, -⟩ | h'
    · simp only
      split <;> exact ⟨_, rfl⟩
    · cases err with
      | ida x => exact absurd rfl (h' x)
      | nl x => exact ⟨_, rfl⟩
      | other x => exact ⟨_, rfl⟩

theorem attemptFailed_panic {cfg : Cfg ν n q K} {t0 : K} {s : State ν n q K} {err : Err} {a b : K} {f : Fails}
    (hk : s.c.kk < mxordp1) (h : err = .ida .testFail ∨ err.fromNls) :
    attemptFailed cfg t0 s err a b f ≠ .panic ∧ attemptFailed cfg t0 s err a b f ≠ .diverge := by
  rw [attemptFailed_eq _ _ _ _ _ _ _ hk]
  obtain ⟨⟨s', f', r⟩, hp⟩ := handleNFlag_some (cfg := cfg) (s := restored s t0) (a := a) (b := b) (f := f) h
  rw [hp]
  cases r with
  | ok u => simp
  | error e => simp

theorem attempt_panic {cfg : Cfg ν n q K} {t0 : K} {s : State ν n q K} {f : Fails} (hl : NlsLegal cfg)
    (hk : s.c.kk < mxordp1) (hc : cfg.constraintsSet = false) (h : attempt cfg t0 s f = .panic) :
    nlsCall cfg s = .panic := by
  unfold attempt at h
  cases ht : trial cfg s with
  | panic => exact trial_panic hk hc ht
  | diverge => rw [ht] at h; cases h
  | nlsFail s3 ck e =>
    rw [ht] at h
    obtain ⟨h1, h2⟩ := trial_nlsFail ht
    obtain ⟨m, hm, -⟩ := h1.solve
    refine absurd h (attemptFailed_panic ?_ (Or.inr (hl _ _ _ _ _ _ _ _ _ _ _ _ hm))).1
    show s3.c.kk < _
    rw [h1.c]; exact hk
  | tested s3 ck t =>
    rw [ht] at h
    simp only at h
    obtain ⟨h1, h2⟩ := trial_tested ht
    split at h
    · cases h
    · refine absurd h (attemptFailed_panic ?_ (Or.inl rfl)).1
      show s3.c.kk < _
      rw [h1.c]; exact hk

theorem attempt_diverge {cfg : Cfg ν n q K} {t0 : K} {s : State ν n q K} {f : Fails} (hl : NlsLegal cfg)
    (h : attempt cfg t0 s f = .diverge) : nlsCall cfg s = .diverge := by
  unfold attempt at h
  cases ht : trial cfg s with
  | panic => rw [ht] at h; cases h
  | diverge => exact trial_diverge ht
  | nlsFail s3 ck e =>
    rw [ht] at h
    obtain ⟨h1, h2⟩ := trial_nlsFail ht
    obtain ⟨m, hm, -⟩ := h1.solve
    refine absurd h (attemptFailed_panic ?_ (Or.inr (hl _ _ _ _ _ _ _ _ _ _ _ _ hm))).2
    show s3.c.kk < _
    rw [h1.c]; exact h1.kk
  | tested s3 ck t =>
    rw [ht] at h
    simp only at h
    obtain ⟨h1, h2⟩ := trial_tested ht
    split at h
    · cases h
    · refine absurd h (attemptFailed_panic ?_ (Or.inl rfl)).2
      show s3.c.kk < _
      rw [h1.c]; exact h1.kk

/-- The nonlinear solver never panics. -/
def NlsNoPanic (cfg : Cfg ν n q K) : Prop :=
  ∀ N e m y0 y w tol call, cfg.nls.solve N e m y0 y w tol call ≠ .panic

/-- The nonlinear solver always comes back. -/
def NlsReturns (cfg : Cfg ν n q K) : Prop :=
  ∀ N e m y0 y w tol call, cfg.nls.solve N e m y0 y w tol call ≠ .diverge

/-- A step that panics does so in the nonlinear solver; `I` is any invariant of the attempts. -/
theorem stepLoop_panic {cfg : Cfg ν n q K} {t0 : K} (I : State ν n q K → Prop) (hl : NlsLegal cfg)
    (hI : ∀ s f s' f', I s → attempt cfg t0 s f = .again s' f' → I s')
    (hc : cfg.constraintsSet = false) (hm1 : 1 ≤ cfg.maxord) (hm : cfg.maxord < mxordp1) (fuel : Nat)
    {s : State ν n q K} {f : Fails} (ho : OrdLoop cfg s) (hs : I s) (h : stepLoop cfg t0 fuel s f = .panic) :
    ∃ s1, I s1 ∧ OrdLoop cfg s1 ∧ nlsCall cfg s1 = .panic := by
  induction fuel generalizing s f with
  | zero => cases h
  | succ fuel ih =>
    unfold stepLoop at h
    split at h
    · rename_i h1
      exact ⟨s, hs, ho, attempt_panic hl (lt_of_le_of_lt ho.kkm hm) hc h1⟩
    · cases h
    · cases h
    · rename_i h1
      exact ih (ordLoop_again hl hm1 ho h1) (hI _ _ _ _ hs h1) h
    · rename_i s1 ck a b h1
      obtain ⟨s3, h3, -, -, -, -, rfl⟩ := attempt_done h1
      have hkk : s3.c.kk = s.c.kk := by rw [h3.c]
      obtain ⟨s', hs'⟩ := completeStep_some (cfg := cfg) (s := (s3.note t0 (errCoef s) .accepted).noteAcc t0)
        (a := a) (b := b) (by show 1 ≤ s3.c.kk; rw [hkk]; exact ho.kk1)
        (by show s3.c.kk ≤ _; rw [hkk]; exact ho.kkm) hm
      rw [hs'] at h
      cases h

theorem step_panic {cfg : Cfg ν n q K} (I : State ν n q K → Prop) (hl : NlsLegal cfg)
    (hc : cfg.constraintsSet = false) (hm1 : 1 ≤ cfg.maxord) (hm : cfg.maxord < mxordp1) {s : State ν n q K}
    (hI : ∀ p f p' f', I p → attempt cfg s.e.tn p f = .again p' f' → I p') (ho : OrdInv cfg s) (hs : I (firstStepInit s)) (h : step cfg s = .panic) :
    ∃ s1, I s1 ∧ OrdLoop cfg s1 ∧ nlsCall cfg s1 = .panic :=
  stepLoop_panic I hl hI hc hm1 hm _ (ordLoop_init hm1 ho) hs h

theorem step_noPanic {cfg : Cfg ν n q K} (hl : NlsLegal cfg) (hp : NlsNoPanic cfg)
    (hc : cfg.constraintsSet = false) (hm1 : 1 ≤ cfg.maxord) (hm : cfg.maxord < mxordp1) {s : State ν n q K}
    (hI : OrdInv cfg s) : step cfg s ≠ .panic := by
  intro h
  obtain ⟨s1, -, -, h1⟩ := step_panic (fun _ => True) hl hc hm1 hm (fun _ _ _ _ _ _ => trivial) hI trivial h
  exact hp _ _ _ _ _ _ _ _ h1

/-! ## The number of attempts -/

/-- The failure counters stay below their limits while the loop runs. -/
structure FailsOk (cfg : Cfg ν n q K) (f : Fails) : Prop where
  nef : f.nef < max cfg.maxnef 3
  ncf : f.ncf < max cfg.maxncf 1

theorem handled_fails {cfg : Cfg ν n q K} {s s' : State ν n q K} {err : Err} {a b : K} {f f' : Fails}
    {r : Except Err Unit} (h : Handled cfg s a b f err s' f' r) : f'.nef + f'.ncf = f.nef + f.ncf + 1 ∧
      (r = .ok () → FailsOk cfg f → FailsOk cfg f') := by
  cases h with
  | test1 rr h1 h2 => exact ⟨by simp; omega, fun _ hf => ⟨by have := hf.nef; simp; omega, hf.ncf⟩⟩
  | test2 h1 => exact ⟨by simp; omega, fun _ hf => ⟨by have := hf.nef; simp; omega, hf.ncf⟩⟩
  | test3 h1 h2 => exact ⟨by simp; omega, fun _ hf => ⟨by have := hf.nef; simp; omega, hf.ncf⟩⟩
  | testGiveUp h1 h2 => exact ⟨by simp; omega, by simp⟩
  | conv rec h1 => exact ⟨by simp; omega, fun _ hf => ⟨hf.nef, by simp; omega⟩⟩
  | convGiveUp rec h1 => exact ⟨by simp; omega, by simp⟩
  | hard e h1 => exact ⟨by simp; omega, by simp⟩

theorem stepLoop_attempts {cfg : Cfg ν n q K} {t0 : K} (hl : NlsLegal cfg) (len0 fuel : Nat)
    {s : State ν n q K} {f : Fails} (hf : FailsOk cfg f) (hlen : s.g.atts.length = len0 + f.nef + f.ncf)
    (hfuel : max cfg.maxnef 3 + max cfg.maxncf 1 - 1 ≤ fuel + f.nef + f.ncf) :
    (stepLoop cfg t0 fuel s f = .diverge → ¬ NlsReturns cfg) ∧
    ∀ s' r, stepLoop cfg t0 fuel s f = .ret s' r →
      s'.g.atts.length ≤ len0 + (max cfg.maxnef 3 + max cfg.maxncf 1 - 1) := by
  induction fuel generalizing s f with
  | zero =>
    have := hf.nef
    have := hf.ncf
    omega
  | succ fuel ih =>
    unfold stepLoop
    have hb : f.nef + f.ncf + 1 ≤ max cfg.maxnef 3 + max cfg.maxncf 1 - 1 := by
      have := hf.nef
      have := hf.ncf
      omega
    split
    · exact ⟨(by intro h; cases h), by intro s' r h; cases h⟩
    · rename_i h1
      refine ⟨fun _ hr => hr _ _ _ _ _ _ _ _ (attempt_diverge hl h1), by intro s' r h; cases h⟩
    · rename_i s1 e h1
      refine ⟨(by intro h; cases h), ?_⟩
      intro s' r h
      cases h
      obtain ⟨err, a, b, f', s5, hR, hH⟩ := attempt_fail' hl h1
      obtain ⟨ee, hg⟩ := hR.ghost
      have : s1.g = s5.g := (handled_ctl hH).2.2.2.2.2.2.2.1
      rw [this, hg]
      simp only [List.length_cons]
      omega
    · rename_i s1 f1 h1
      obtain ⟨err, a, b, s5, s6, hR, hH, rfl⟩ := attempt_again' hl h1
      obtain ⟨ee, hg⟩ := hR.ghost
      have hg6 : s6.g = s5.g := (handled_ctl hH).2.2.2.2.2.2.2.1
      have hff := handled_fails hH
      refine ih (hff.2 rfl hf) ?_ (by omega)
      rw [(ite_reset_ctl s6 _).2.2.2.1, hg6, hg]
      simp only [List.length_cons]
      omega
    · rename_i s1 ck a b h1
      obtain ⟨s3, h3, -, -, -, -, rfl⟩ := attempt_done h1
      split
      · exact ⟨(by intro h; cases h), by intro s' r h; cases h⟩
      · rename_i s2 h2
        refine ⟨(by intro h; cases h), ?_⟩
        intro s' r h
        cases h
        show s2.g.atts.length ≤ _
        rw [(completeStep_eq h2).g]
        show (State.note s3 t0 (errCoef s) .accepted).g.atts.length ≤ _
        rw [h3.note_g]
        simp only [List.length_cons]
        omega

/-! ## Ghost records and counters -/

/-- The nonlinear solver failed in this attempt. -/
def Att.nlsFailed (x : Att n K) : Bool :=
  match x.out with
  | .nlsFail _ => true
  | _ => false

/-- The counters agree with the record of attempts, and accepted attempts passed the error test. -/
structure CountInv (cfg : Cfg ν n q K) (s : State ν n q K) : Prop where
  nst : s.cnt.nst = s.g.atts.countP (fun x => decide (x.out = .accepted))
  netf : s.cnt.netf = s.g.atts.countP (fun x => decide (x.out = .testFail))
  ncfn : s.cnt.ncfn = s.g.atts.countP Att.nlsFailed
  acc : s.g.acc.length = if s.cnt.nst = 0 then 0 else s.cnt.nst + 1
  passed : ∀ x ∈ s.g.atts, x.out = .accepted → Scalar.le (x.ck * wrmsNorm cfg.id x.ee x.ewt cfg.suppressalg) 1 = true

theorem CountInv.of_eq {cfg : Cfg ν n q K} {s s' : State ν n q K} (h : CountInv cfg s) (hc : s'.cnt = s.cnt)
    (hg : s'.g = s.g) : CountInv cfg s' := by
  refine ⟨?_, ?_, ?_, ?_, ?_⟩ <;> rw [hg] <;> try rw [hc]
  exacts [h.nst, h.netf, h.ncfn, h.acc, h.passed]

theorem countInv_handled {cfg : Cfg ν n q K} {t0 : K} {s s5 s6 : State ν n q K} {err : Err} {a b : K} {f f' : Fails}
    {r : Except Err Unit} (hI : CountInv cfg s) (hR : Restored cfg t0 s s5 err)
    (hH : Handled cfg s5 a b f err s6 f' r) : CountInv cfg s6 := by
  obtain ⟨ee, hg⟩ := hR.ghost
  have hg6 : s6.g = s5.g := (handled_ctl hH).2.2.2.2.2.2.2.1
  have hn6 : s6.cnt.nst = s.cnt.nst := by rw [(handled_ctl hH).2.2.1, hR.cnt]
  have hacc : s6.g.acc.length = if s6.cnt.nst = 0 then 0 else s6.cnt.nst + 1 := by
    rw [hn6, hg6, hg]; exact hI.acc
  have hnst : s6.cnt.nst = s6.g.atts.countP (fun x => decide (x.out = .accepted)) := by
    rw [hg6, hg, hn6, hI.nst, List.countP_cons]
    have : (attRec s t0 ee (if err = .ida .testFail then .testFail else .nlsFail err)).out ≠ .accepted := by
      unfold attRec; simp only; split <;> simp
    simp [this]
  have hpass : ∀ x ∈ s6.g.atts, x.out = .accepted →
      Scalar.le (x.ck * wrmsNorm cfg.id x.ee x.ewt cfg.suppressalg) 1 = true := by
    rw [hg6, hg]
    intro x hx ho
    rcases List.mem_cons.1 hx with rfl | hx
    · unfold attRec at ho; simp only at ho; split at ho <;> cases ho
    · exact hI.passed x hx ho
  have hcase : (err = .ida .testFail ∧ s6.cnt.netf = s5.cnt.netf + 1 ∧ s6.cnt.ncfn = s5.cnt.ncfn) ∨
      (err ≠ .ida .testFail ∧ s6.cnt.netf = s5.cnt.netf ∧ s6.cnt.ncfn = s5.cnt.ncfn + 1) := by
    cases hH with
    | test1 => left; simp
    | test2 => left; simp
    | test3 => left; simp
    | testGiveUp => left; simp
    | conv => right; simp
    | convGiveUp => right; simp
    | hard e h => right; exact ⟨h _, rfl, rfl⟩
  refine ⟨hnst, ?_, ?_, hacc, hpass⟩
  · rw [hg6, hg, List.countP_cons]
    rcases hcase with ⟨he, h1, h2⟩ | ⟨he, h1, h2⟩
    · rw [h1, hR.cnt, hI.netf]; simp [attRec, he]
    · rw [h1, hR.cnt, hI.netf]; simp [attRec, he]
  · rw [hg6, hg, List.countP_cons]
    rcases hcase with ⟨he, h1, h2⟩ | ⟨he, h1, h2⟩
    · rw [h2, hR.cnt, hI.ncfn]; simp [attRec, he, Att.nlsFailed]
    · rw [h2, hR.cnt, hI.ncfn]; simp [attRec, he, Att.nlsFailed]

/-- The ghost data after an accepted attempt. -/
theorem done_ghost {cfg : Cfg ν n q K} {t0 : K} {s s3 : State ν n q K} (h3 : AfterTrial cfg s s3 (.ok ())) :
    ((s3.note t0 (errCoef s) .accepted).noteAcc t0).g =
      { atts := attRec s t0 s3.ee .accepted :: s.g.atts
        acc := (newTime s, vadd (predY s) s3.ee) ::
          (if s.cnt.nst = 0 then [(t0, (coefHist s).phi 0)] else s.g.acc) } := by
  have h := h3.note_g t0 .accepted
  obtain ⟨m', -, hm2⟩ := h3.solve
  unfold State.noteAcc
  simp only [h]
  congr 1
  unfold State.note State.points
  simp only
  rw [h3.e, hm2, h3.cnt, h3.h, h3.g]
  rfl

theorem countInv_done {cfg : Cfg ν n q K} {t0 : K} {s s1 s' : State ν n q K} {f : Fails} {ck a b : K}
    (hI : CountInv cfg s) (h : attempt cfg t0 s f = .done s1 ck a b) (hc : completeStep cfg s1 a b = some s') :
    CountInv cfg s' := by
  obtain ⟨s3, h3, -, -, hp, -, rfl⟩ := attempt_done h
  have hC := completeStep_eq hc
  have hg : s'.g = _ := hC.g.trans (done_ghost h3)
  have hcnt : s'.cnt = { s.cnt with nst := s.cnt.nst + 1 } := by
    rw [hC.nst]; show Counters.mk _ _ _ _ = _; simp only [State.noteAcc, State.note]; rw [h3.cnt]
  refine ⟨?_, ?_, ?_, ?_, ?_⟩
  · rw [hg, hcnt, List.countP_cons]; simp [attRec, hI.nst]
  · rw [hg, hcnt, List.countP_cons]; simp [attRec, hI.netf]
  · rw [hg, hcnt, List.countP_cons]; simp [attRec, hI.ncfn, Att.nlsFailed]
  · rw [hg, hcnt]
    simp only [List.length_cons]
    have := hI.acc
    by_cases h0 : s.cnt.nst = 0
    · simp [h0]
    · simp [h0] at this ⊢; exact this
  · rw [hg]
    intro x hx ho
    rcases List.mem_cons.1 hx with rfl | hx
    · exact hp
    · exact hI.passed x hx ho

theorem firstStepInit_cnt (s : State ν n q K) : (firstStepInit s).cnt = s.cnt ∧ (firstStepInit s).g = s.g ∧
    (firstStepInit s).e.tn = s.e.tn ∧ (firstStepInit s).tstop = s.tstop ∧ (firstStepInit s).c.hh = s.c.hh ∧
    (firstStepInit s).h.phi = s.h.phi ∧ (firstStepInit s).perf = s.perf ∧ (firstStepInit s).r = s.r ∧
    (firstStepInit s).m = s.m := by
  unfold firstStepInit
  split <;> exact ⟨rfl, rfl, rfl, rfl, rfl, rfl, rfl, rfl, rfl⟩

theorem countInv_step {cfg : Cfg ν n q K} {s s' : State ν n q K} {r : Except Err Unit} (hl : NlsLegal cfg)
    (hI : CountInv cfg s) (h : step cfg s = .ret s' r) : CountInv cfg s' := by
  have hi := firstStepInit_cnt s
  have := step_rule (cfg := cfg) (fun s _ => CountInv cfg s) (CountInv cfg) (fun s _ => CountInv cfg s)
    (hI.of_eq hi.1 hi.2.1)
    (fun s1 f s' f' hI h => by
      obtain ⟨err, a, b, s5, s6, hR, hH, rfl⟩ := attempt_again' hl h
      have hx := ite_reset_ctl s6 (s6.cnt.nst = 0)
      exact (countInv_handled hI hR hH).of_eq hx.2.1 hx.2.2.2.1)
    (fun _ _ _ _ _ _ _ hI h hc => (countInv_done hI h hc).of_eq rfl rfl)
    (fun s1 f s' e hI h => by
      obtain ⟨err, a, b, f', s5, hR, hH⟩ := attempt_fail' hl h
      exact countInv_handled hI hR hH) h
  rcases this with ⟨-, h⟩ | ⟨e, -, h⟩ <;> exact h

theorem Reach.count {cfg : Cfg ν n q K} (hl : NlsLegal cfg) {s : State ν n q K} (h : Reach cfg s) : CountInv cfg s := by
  refine h.inv (CountInv cfg) ?_ ?_ ?_
  · intro a b c d
    exact ⟨rfl, rfl, rfl, rfl, by intro x hx; cases hx⟩
  · intro s s' hI hm
    cases hm with
    | frame hf => exact hI.of_eq hf.cnt hf.g
    | perf => exact hI.of_eq rfl rfl
    | clear => exact hI.of_eq rfl rfl
    | clamp ts _ _ _ => exact hI.of_eq (clampToStop_same s ts).cnt (clampToStop_same s ts).g
    | ewt _ => exact hI.of_eq rfl rfl
    | first _ _ h0 hf => exact hI.of_eq (firstCall_same hf).cnt (firstCall_same hf).g
    | firstStep _ h0 hf hfr hs =>
      refine countInv_step hl (hI.of_eq ?_ ?_) hs
      · rw [hfr.cnt]; exact (firstCall_same hf).cnt
      · rw [hfr.g]; exact (firstCall_same hf).g
    | step _ _ hs => exact countInv_step hl hI hs
  · intro s e s' hI hm
    cases hm with
    | firstStep _ _ h0 hf hfr hs =>
      refine countInv_step hl (hI.of_eq ?_ ?_) hs
      · rw [hfr.cnt]; exact (firstCall_same hf).cnt
      · rw [hfr.g]; exact (firstCall_same hf).g
    | step _ _ _ hs => exact countInv_step hl hI hs

/-! ## Counters never decrease -/

structure CntLe (s s' : State ν n q K) : Prop where
  nst : s.cnt.nst ≤ s'.cnt.nst
  netf : s.cnt.netf ≤ s'.cnt.netf
  ncfn : s.cnt.ncfn ≤ s'.cnt.ncfn
  nni : s'.cnt.nni = s.cnt.nni

theorem CntLe.of_eq {s s' : State ν n q K} (h : s'.cnt = s.cnt) : CntLe s s' := by
  constructor <;> rw [h]

theorem CntLe.trans {a b c : State ν n q K} (h : CntLe a b) (h' : CntLe b c) : CntLe a c :=
  ⟨h.1.trans h'.1, h.2.trans h'.2, h.3.trans h'.3, h'.4.trans h.4⟩

theorem handled_cntLe {cfg : Cfg ν n q K} {s s' : State ν n q K} {err : Err} {a b : K} {f f' : Fails}
    {r : Except Err Unit} (h : Handled cfg s a b f err s' f' r) : CntLe s s' := by
  cases h <;> exact ⟨by simp, by simp, by simp, rfl⟩

theorem cntLe_step {cfg : Cfg ν n q K} {s s' : State ν n q K} {r : Except Err Unit} (hl : NlsLegal cfg)
    (h : step cfg s = .ret s' r) : CntLe s s' ∧ s'.perf = s.perf ∧ s'.r = s.r := by
  have hi := firstStepInit_cnt s
  have := step_rule (cfg := cfg) (fun s1 _ => CntLe s s1 ∧ s1.perf = s.perf ∧ s1.r = s.r)
    (fun s1 => CntLe s s1 ∧ s1.perf = s.perf ∧ s1.r = s.r) (fun s1 _ => CntLe s s1 ∧ s1.perf = s.perf ∧ s1.r = s.r)
    ⟨.of_eq hi.1, hi.2.2.2.2.2.2.1, hi.2.2.2.2.2.2.2.1⟩
    (fun s1 f s' f' hI h => by
      obtain ⟨err, a, b, s5, s6, hR, hH, rfl⟩ := attempt_again' hl h
      obtain ⟨-, e2, -, -, -, -, -, e3, e4⟩ := ite_reset_ctl s6 (s6.cnt.nst = 0)
      have hx := handled_ctl hH
      refine ⟨(hI.1.trans (.of_eq hR.cnt)).trans ((handled_cntLe hH).trans (.of_eq e2)), ?_, ?_⟩
      · rw [e3, hx.2.2.2.2.2.2.2.2.2.2.2.2.1, hR.perf]; exact hI.2.1
      · rw [e4, hx.2.2.2.2.2.2.2.2.2.2.2.2.2.2.1, hR.r]; exact hI.2.2)
    (fun s1 f s2 ck a b s' hI h hc => by
      obtain ⟨s3, h3, -, -, -, -, rfl⟩ := attempt_done h
      have hC := completeStep_eq hc
      refine ⟨hI.1.trans ⟨?_, ?_, ?_, ?_⟩, ?_, ?_⟩
      · show _ ≤ s'.cnt.nst; rw [hC.nst]; show _ ≤ s3.cnt.nst + 1; rw [h3.cnt]; omega
      · show _ ≤ s'.cnt.netf; rw [hC.nst]; show _ ≤ s3.cnt.netf; rw [h3.cnt]
      · show _ ≤ s'.cnt.ncfn; rw [hC.nst]; show _ ≤ s3.cnt.ncfn; rw [h3.cnt]
      · show s'.cnt.nni = _; rw [hC.nst]; show s3.cnt.nni = _; rw [h3.cnt]
      · show s'.perf = _; rw [hC.perf]; show s3.perf = _; rw [h3.perf]; exact hI.2.1
      · show s'.r = _; rw [hC.r]; show s3.r = _; rw [h3.r]; exact hI.2.2)
    (fun s1 f s' e hI h => by
      obtain ⟨err, a, b, f', s5, hR, hH⟩ := attempt_fail' hl h
      have hx := handled_ctl hH
      refine ⟨(hI.1.trans (.of_eq hR.cnt)).trans (handled_cntLe hH), ?_, ?_⟩
      · rw [hx.2.2.2.2.2.2.2.2.2.2.2.2.1, hR.perf]; exact hI.2.1
      · rw [hx.2.2.2.2.2.2.2.2.2.2.2.2.2.2.1, hR.r]; exact hI.2.2) h
  rcases this with ⟨-, h⟩ | ⟨e, -, h⟩ <;> exact h

theorem cntLe_micro {cfg : Cfg ν n q K} {s s' : State ν n q K} (hl : NlsLegal cfg) (h : Micro cfg s s') : CntLe s s' := by
  cases h with
  | frame hf => exact .of_eq hf.cnt
  | perf => exact .of_eq rfl
  | clear => exact .of_eq rfl
  | clamp ts _ _ _ => exact .of_eq (clampToStop_same s ts).cnt
  | ewt _ => exact .of_eq rfl
  | first _ _ h0 hf => exact .of_eq (firstCall_same hf).cnt
  | firstStep _ h0 hf hfr hs =>
    exact (CntLe.of_eq (by rw [hfr.cnt]; exact (firstCall_same hf).cnt)).trans (cntLe_step hl hs).1
  | step _ _ hs => exact (cntLe_step hl hs).1

theorem cntLe_fail {cfg : Cfg ν n q K} {s s' : State ν n q K} {e : Err} (hl : NlsLegal cfg)
    (h : MicroFail cfg s e s') : CntLe s s' := by
  cases h with
  | firstStep _ _ h0 hf hfr hs =>
    exact (CntLe.of_eq (by rw [hfr.cnt]; exact (firstCall_same hf).cnt)).trans (cntLe_step hl hs).1
  | step _ _ _ hs => exact (cntLe_step hl hs).1

theorem exec_cntLe {cfg : Cfg ν n q K} (hl : NlsLegal cfg) {rf sf : Nat} {s s' : State ν n q K} {op : Op K} {r : Res n K}
    (h : exec cfg rf sf s op = some (s', r)) : CntLe s s' := by
  have hms : ∀ {a b : State ν n q K}, Micros cfg a b → CntLe a b := by
    intro a b hab
    exact hab.inv (P := fun x => CntLe a x) (fun _ _ h hm => h.trans (cntLe_micro hl hm)) (.of_eq rfl)
  rcases exec_ends h with ⟨r', -, hend⟩ | ⟨-, hm⟩
  · cases hend with
    | clean h1 _ => exact hms h1
    | failed s1 s2 e h1 h2 h3 _ => exact ((hms h1).trans (cntLe_fail hl h2)).trans (.of_eq h3.cnt)
  · exact hms hm

end

end Verif
