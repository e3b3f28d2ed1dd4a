import Verif.Proofs.RootInv

/-! # The value of the root function at the start of a search

Between calls, and at the top of the step loop, the stored value of the root function at the start of the next search was
computed with the current dense output (or the component vanished there). -/

set_option autoImplicit false
set_option linter.unusedSectionVars false
set_option linter.unusedSimpArgs false
set_option linter.unusedVariables false

namespace Verif

open Verif.Spec Verif.Props

universe u v

section
variable {ν : Type v} {n q : Nat} {K : Type u} [Field K] [LinearOrder K] [IsStrictOrderedRing K] [ExactParams K]
  [EpsLaws K]

/-- Changes that keep the dense output (and may shrink the next step size). -/
structure SolKeep (s s' : State ν n q K) : Prop where
  log : ∀ c, c ∈ s.m.log → c ∈ s'.m.log
  r : s'.r.tlo = s.r.tlo ∧ s'.r.glo = s.r.glo
  h : s'.h = s.h
  tn : s'.e.tn = s.e.tn
  used : s'.c.kused = s.c.kused ∧ s'.c.hused = s.c.hused
  hh : ∃ c, 0 < c ∧ c ≤ 1 ∧ s'.c.hh = c * s.c.hh
  nst : s'.cnt.nst = s.cnt.nst

theorem SolKeep.of_eq {s s' : State ν n q K} (hl : s'.m.log = s.m.log) (hr : s'.r.tlo = s.r.tlo ∧ s'.r.glo = s.r.glo)
    (hc : s'.c = s.c) (he : s'.e.tn = s.e.tn) (hn : s'.cnt.nst = s.cnt.nst) (hh : s'.h = s.h) : SolKeep s s' :=
  ⟨by rw [hl]; exact fun c h => h, hr, hh, he, by rw [hc]; exact ⟨rfl, rfl⟩, ⟨1, one_pos, le_refl _, by rw [hc, one_mul]⟩, hn⟩

theorem SolKeep.before {s s' : State ν n q K} (h : SolKeep s s') {t : K} (hb : BeforeLastStep s t) : BeforeLastStep s' t := by
  obtain ⟨c, c0, c1, hc⟩ := h.hh
  have he := (EpsLaws.eps_pos (K := K)).le
  have hle : 100 * ExactParams.eps * (|s.e.tn| + |s'.c.hh|) ≤ 100 * ExactParams.eps * (|s.e.tn| + |s.c.hh|) := by
    refine mul_le_mul_of_nonneg_left ?_ (mul_nonneg (by norm_num) he)
    rw [hc, abs_mul, abs_of_pos c0]
    have := mul_le_mul_of_nonneg_right c1 (abs_nonneg s.c.hh)
    linarith
  unfold BeforeLastStep at hb ⊢
  simp only [h.tn, h.used.2] at hb ⊢
  rcases hb with ⟨a, b⟩ | ⟨a, b⟩
  · exact Or.inl ⟨by rw [hc]; exact mul_pos c0 a, by linarith⟩
  · exact Or.inr ⟨by rw [hc]; exact mul_neg_of_pos_of_neg c0 a, by linarith⟩

theorem SolKeep.seenSol {cfg : Cfg ν n q K} {s s' : State ν n q K} (h : SolKeep s s') {t x : K} {i : Fin q}
    (hs : SeenSol cfg s t i x) : SeenSol cfg s' t i x := by
  obtain ⟨v, vp, buf, h1, h2, h3⟩ := hs
  refine ⟨v, vp, buf, h.log _ h1, h2, fun hb => ?_⟩
  have hb0 : ¬ BeforeLastStep s t := fun hx => hb (h.before hx)
  rw [← h3 hb0]
  have b1 : ¬ badTime s t = true := by rw [badTime_iff]; exact hb0
  have b2 : ¬ badTime s' t = true := by rw [badTime_iff]; exact hb
  unfold solutionAt
  rw [getSolution_eq, getSolution_eq, if_neg b1, if_neg b2, h.used.1]
  by_cases h4 : kordOf s.c.kused < mxordp1
  · simp only [h4, if_true, setSol, h.h, h.tn, h.used.1]
  · simp only [h4, if_false]

/-- The stored value at the start of the next search belongs to the current dense output, or the component vanishes. -/
def LoSol (cfg : Cfg ν n q K) (s : State ν n q K) : Prop :=
  ∀ i, SeenSol cfg s s.r.tlo i (s.r.glo i) ∨ SeenSol cfg s s.r.tlo i 0

theorem SolKeep.loSol {cfg : Cfg ν n q K} {s s' : State ν n q K} (h : SolKeep s s') (hs : LoSol cfg s) : LoSol cfg s' := by
  intro i
  rw [h.r.1, h.r.2]
  exact (hs i).imp h.seenSol h.seenSol

/-- The invariant: once a step has been taken, `LoSol`. -/
def LoAt (cfg : Cfg ν n q K) (s : State ν n q K) : Prop := 0 < s.cnt.nst → LoSol cfg s

theorem SolKeep.at {cfg : Cfg ν n q K} {s s' : State ν n q K} (h : SolKeep s s') (hs : LoAt cfg s) : LoAt cfg s' := by
  intro hn
  rw [h.nst] at hn
  exact h.loSol (hs hn)

theorem clampToStop_solKeep {cfg : Cfg ν n q K} {s : State ν n q K} {ts : K} (hC : CtlInv cfg s) (hn : 0 < s.cnt.nst)
    (h1 : s.tstop = some ts) (h2 : nearStop s ts = false) : SolKeep s (clampToStop s ts) := by
  have hsc := clamp_spec (clamp_near hC hn h1 h2)
  unfold clampToStop at hsc ⊢
  split
  · rename_i hcl
    rw [if_pos hcl] at hsc
    exact ⟨fun c h => h, ⟨rfl, rfl⟩, rfl, rfl, ⟨rfl, rfl⟩, hsc, rfl⟩
  · exact .of_eq rfl ⟨rfl, rfl⟩ rfl rfl rfl rfl

theorem stopTest1_solKeep {cfg : Cfg ν n q K} {s s' : State ν n q K} {tout : K} {task : Task} {r : Except Err Status}
    (hC : CtlInv cfg s) (hn : 0 < s.cnt.nst) (h : stopTest1 s tout task = .ret s' r) : SolKeep s s' := by
  cases stopTest1_cases h with
  | past _ _ => exact .of_eq rfl ⟨rfl, rfl⟩ rfl rfl rfl rfl
  | same _ => exact .of_eq rfl ⟨rfl, rfl⟩ rfl rfl rfl rfl
  | reached _ _ h5 => obtain ⟨-, yy, yp, rfl⟩ := getSolution_frame h5; exact .of_eq rfl ⟨rfl, rfl⟩ rfl rfl rfl rfl
  | refused _ _ _ => exact .of_eq rfl ⟨rfl, rfl⟩ rfl rfl rfl rfl
  | pending _ _ h5 => obtain ⟨-, yy, yp, rfl⟩ := getSolution'_frame h5; exact .of_eq rfl ⟨rfl, rfl⟩ rfl rfl rfl rfl
  | stopNormal _ _ _ _ _ h5 => obtain ⟨-, yy, yp, rfl⟩ := getSolution_frame h5; exact .of_eq rfl ⟨rfl, rfl⟩ rfl rfl rfl rfl
  | stopOne _ _ _ _ _ h5 => obtain ⟨-, yy, yp, rfl⟩ := getSolution_frame h5; exact .of_eq rfl ⟨rfl, rfl⟩ rfl rfl rfl rfl
  | stopBad _ _ _ _ _ _ _ _ => exact .of_eq rfl ⟨rfl, rfl⟩ rfl rfl rfl rfl
  | clamp _ _ h1 h2 _ _ => exact clampToStop_solKeep hC hn h1 h2
  | free _ _ _ _ => exact .of_eq rfl ⟨rfl, rfl⟩ rfl rfl rfl rfl

theorem stopTest2_solKeep {cfg : Cfg ν n q K} {s s' : State ν n q K} {tout : K} {task : Task} {r : Except Err Status}
    (hC : CtlInv cfg s) (hn : 0 < s.cnt.nst) (h : stopTest2 s tout task = .ret s' r) : SolKeep s s' := by
  cases stopTest2_cases h with
  | reached _ _ h5 => obtain ⟨-, yy, yp, rfl⟩ := getSolution'_frame h5; exact .of_eq rfl ⟨rfl, rfl⟩ rfl rfl rfl rfl
  | stopped _ _ _ _ _ _ h5 => obtain ⟨-, yy, yp, rfl⟩ := getSolution'_frame h5; exact .of_eq rfl ⟨rfl, rfl⟩ rfl rfl rfl rfl
  | clamp _ _ h1 h2 => exact clampToStop_solKeep hC hn h1 h2
  | free _ _ => exact .of_eq rfl ⟨rfl, rfl⟩ rfl rfl rfl rfl
  | oneClamp _ h1 h2 =>
    have := clampToStop_solKeep hC hn h1 h2
    exact ⟨this.log, this.r, this.h, this.tn, this.used, this.hh, this.nst⟩
  | oneFree _ => exact .of_eq rfl ⟨rfl, rfl⟩ rfl rfl rfl rfl

theorem PreSame.solKeep {s s' : State ν n q K} (h : PreSame s s') : SolKeep s s' :=
  .of_eq h.log (by rw [h.r]; exact ⟨rfl, rfl⟩) h.c h.tn (by rw [h.cnt]) h.h

theorem Searched.loSol {cfg : Cfg ν n q K} {s s' : State ν n q K} {r : RootStatus} (h : Searched cfg s s' r) : LoSol cfg s' :=
  fun i => Or.inl (h.seen i)

theorem rechecked_loSol {cfg : Cfg ν n q K} {s s' : State ν n q K} {r : Except Err RootStatus} (h : Rechecked cfg s s' r)
    (ht : s'.r.tlo = s.r.tlo) (hs : LoSol cfg s) : LoSol cfg s' := by
  cases h with
  | skip _ h1 _ => rw [h1]; exact hs
  | plain g0 _ h1 _ _ h2 _ =>
    intro i; rw [ht, h2]; exact Or.inl (h1 i)
  | again g0 g1 _ h1 _ _ h2 _ =>
    intro i
    rw [ht]
    rcases h2 i with h3 | ⟨-, h3, -⟩
    · rw [h3]; exact Or.inl (h1 i)
    · have := h1 i
      rw [h3] at this
      exact Or.inr this

theorem noRootBefore_loSol {cfg : Cfg ν n q K} {rf : Nat} {s s1 : State ν n q K} {task : Task}
    (hh : s.c.hh ≠ 0) (hI : LoSol cfg s) (h : NoRootBefore cfg rf s task s1) : LoSol cfg s1 := by
  rcases h with ⟨-, rfl⟩ | ⟨hq, h1, -⟩ | ⟨hq, a, b, h1, -, h2, -, rfl⟩
  · exact hI
  · exact rechecked_loSol (rCheck2_spec h1).1 (rCheck2_spec h1).2.1 hI
  · have hf := rCheck2_frame h1
    obtain ⟨st, e1, e2⟩ := (rCheck3_spec (by rw [hf.c]; exact hh) rf).1 _ _ h2
    refine SolKeep.loSol (s := b) ?_ e2.loSol
    exact .of_eq rfl ⟨rfl, rfl⟩ rfl rfl rfl rfl

theorem noRootAfter_loSol {cfg : Cfg ν n q K} {rf : Nat} {p p1 : State ν n q K} (hh : p.c.hh ≠ 0)
    (h : NoRootAfter cfg rf p p1) : LoSol cfg p1 := by
  rcases h with ⟨hq, rfl⟩ | ⟨hq, h⟩
  · subst hq
    exact fun i => i.elim0
  · obtain ⟨st, h1, h2⟩ := (rCheck3_spec hh rf).1 _ _ h
    exact h2.loSol

/-- Every call of `solve` without a failed step keeps the invariant. -/
theorem solve_loAt {cfg : Cfg ν n q K} (hl : NlsLegal cfg) (hm : 0 ≤ cfg.hmaxInv) (hk : NlsKeepsLog cfg) {rf sf : Nat}
    {s s' : State ν n q K} {tout : K} {task : Task} {r : Except Err Status} (hC : CtlInv cfg s) (hI : RootInv cfg s)
    (hA : LoAt cfg s) (h : solve cfg rf sf s tout task = .ret s' r) (hr : Benign r) : LoAt cfg s' := by
  have key : ∀ sf p, LoopAt cfg rf s tout task p 0 ∧ RootAt cfg s p ∧ LoAt cfg p →
      solveLoop cfg rf tout task sf p 0 = .ret s' r → Benign r → LoAt cfg s' := fun sf p hI h => by
    refine solveLoop_rule (fun p k => LoopAt cfg rf s tout task p k ∧ RootAt cfg s p ∧ LoAt cfg p)
      (fun s' r => Benign r → LoAt cfg s')
      (fun p k p' hI hp => ⟨loopAt_next hI.1 hp, rootAt_next hl hm hk hC hI.1 hI.2.1 hp, ?_⟩)
      (fun p k s' r hI hp hr => ?_) sf p 0 hI s' r h
    · obtain ⟨p1, p2, p3, h1, h2, h3, h4⟩ := solvePass_ends.1 p' hp
      obtain ⟨a1, a2⟩ := step_searchAt hl hm hk hC hI.1 h1 h2 hI.2.1
      have hf := (noRootAfter_frame h3).1
      have hn := a1.nst
      exact (stopTest2_solKeep (a2.of_frame hm hf) (by rw [hf.cnt]; omega) h4).at (fun _ => noRootAfter_loSol a1.hh h3)
    · obtain ⟨hL, hA, hS⟩ := hI
      cases solvePass_ends.2 s' r hp with
      | pre h1 =>
        have hc := preStep_cases cfg p k
        rw [h1] at hc
        cases hc with
        | limit _ _ => exact SolKeep.at (s := p) (.of_eq rfl ⟨rfl, rfl⟩ rfl rfl rfl rfl) hS
        | weights _ _ _ h2 _ _ _ _ _ => exact h2.solKeep.at hS
        | accuracy _ _ h2 _ _ _ _ _ => exact h2.solKeep.at hS
      | failed p1 p2 e h1 h2 h3 =>
        have := hr e (stepFailed_frame h3).2
        rw [step_error_isStepFailure h2] at this
        cases this
      | post p1 p2 h1 h2 h3 =>
        obtain ⟨a1, a2⟩ := step_searchAt hl hm hk hC hL h1 h2 hA
        cases h3 with
        | root s1 hq h4 h5 h6 =>
          obtain ⟨st, e1, e2⟩ := (rCheck3_spec a1.hh rf).1 _ _ h4
          subst h5
          exact SolKeep.at (s := s1) (.of_eq rfl ⟨rfl, rfl⟩ rfl rfl rfl rfl) (fun _ => e2.loSol)
        | stop s1 h4 h5 h6 =>
          have hf := (noRootAfter_frame h4).1
          have hn := a1.nst
          exact (stopTest2_solKeep (a2.of_frame hm hf) (by rw [hf.cnt]; omega) h5).at (fun _ => noRootAfter_loSol a1.hh h4)
  obtain ⟨f1, f2, f3, f4, f5, f6, f7, f8, f9⟩ := beginLater_same s tout task
  have hbk : SolKeep s (beginLater s tout task) :=
    ⟨f1.log, ⟨f1.r.1, f1.r.2.1⟩, f6, by rw [f4], by rw [f3]; exact ⟨rfl, rfl⟩, ⟨1, one_pos, le_refl _, by rw [f3, one_mul]⟩, by rw [f5]⟩
  cases solve_solveEnds h with
  | rejected e h0 h1 h2 =>
    have hb := (begun_same s tout task).2.2.2
    have hc : s'.cnt.nst = 0 := by rw [firstCall_cnt h1, hb.cnt]; exact h0
    intro hn
    omega
  | first s1 h0 h1 h2 =>
    refine key sf _ ⟨loopAt_first h0 h1, rootAt_first hm hC hI h0 h1, fun hn => ?_⟩ h2 hr
    have hb := (begun_same s tout task).2.2.2
    have hc : s1.cnt.nst = 0 := by rw [firstCall_cnt h1, hb.cnt]; exact h0
    have hn : 0 < s1.cnt.nst := hn
    omega
  | early h0 h1 =>
    have hC1 : CtlInv cfg (beginLater s tout task) := ctlInv_micros hl hm hC
      ((Micros.frame (begun_same s tout task).2.2.2).tail (.perf _))
    have hn1 : 0 < (beginLater s tout task).cnt.nst := by rw [f5]; exact h0
    have hA1 := hbk.at hA hn1
    have hh : (beginLater s tout task).c.hh ≠ 0 := left_ne_zero_of_mul (hC1.used hn1).ne'
    cases laterCall_ends.2 _ _ h1 with
    | close e hq h2 h3 => exact fun _ => rechecked_loSol (rCheck2_spec h2).1 (rCheck2_spec h2).2.1 hA1
    | root2 s1 hq h2 h3 h4 =>
      subst h3
      exact SolKeep.at (s := s1) (.of_eq rfl ⟨rfl, rfl⟩ rfl rfl rfl rfl)
        (fun _ => rechecked_loSol (rCheck2_spec h2).1 (rCheck2_spec h2).2.1 hA1)
    | root3 s1 s2 hq h2 h3 h4 h5 h6 =>
      have hf := rCheck2_frame h2
      obtain ⟨st, e1, e2⟩ := (rCheck3_spec (by rw [hf.c]; exact hh) rf).1 _ _ h4
      subst h5
      exact SolKeep.at (s := s2) (.of_eq rfl ⟨rfl, rfl⟩ rfl rfl rfl rfl) (fun _ => e2.loSol)
    | pending s1 s2 hq ht h2 h3 h4 h5 h6 =>
      have hf := rCheck2_frame h2
      obtain ⟨st, e1, e2⟩ := (rCheck3_spec (by rw [hf.c]; exact hh) rf).1 _ _ h4
      obtain ⟨-, yy, yp, rfl⟩ := getSolution'_frame h5
      exact SolKeep.at (s := s2) (.of_eq rfl ⟨rfl, rfl⟩ rfl rfl rfl rfl) (fun _ => e2.loSol)
    | stop s1 h2 h3 h4 =>
      have hf := (noRootBefore_frame h2).1
      exact (stopTest1_solKeep (hC1.of_frame hm hf) (by rw [hf.cnt]; exact hn1) h3).at
        (fun _ => noRootBefore_loSol hh hA1 h2)
  | later s1 h0 h1 h2 =>
    refine key sf _ ⟨loopAt_later h0 h1, rootAt_later hl hm hC hI h0 h1, ?_⟩ h2 hr
    have hC1 : CtlInv cfg (beginLater s tout task) := ctlInv_micros hl hm hC
      ((Micros.frame (begun_same s tout task).2.2.2).tail (.perf _))
    have hn1 : 0 < (beginLater s tout task).cnt.nst := by rw [f5]; exact h0
    have hh : (beginLater s tout task).c.hh ≠ 0 := left_ne_zero_of_mul (hC1.used hn1).ne'
    obtain ⟨s2, h3, h4⟩ := laterCall_ends.1 s1 h1
    have hf := (noRootBefore_frame h3).1
    exact (stopTest1_solKeep (hC1.of_frame hm hf) (by rw [hf.cnt]; exact hn1) h4).at
      (fun _ => noRootBefore_loSol hh (hbk.at hA hn1) h3)

/-- The invariant in every history without a failed step. -/
theorem ReachOk.loAt {cfg : Cfg ν n q K} (hl : NlsLegal cfg) (hm : 0 ≤ cfg.hmaxInv) (hk : NlsKeepsLog cfg)
    {s : State ν n q K} (h : ReachOk cfg s) : LoAt cfg s := by
  induction h with
  | new nls0 yy0 yp0 ts => exact fun hn => absurd hn (by show ¬ 0 < 0; omega)
  | call rf sf op r h1 h2 hr ih =>
    cases op with
    | solve tout tret task =>
      unfold exec at h2
      simp only at h2
      split at h2
      · rename_i h3
        cases h2
        refine solve_loAt hl hm hk ((h1.reach.ctl hl hm).of_frame hm (by frame_rfl))
          (RootKeep.inv ?_ (h1.reach.root hl hm hk)) (SolKeep.at ?_ ih) h3 (fun e he => hr e (by rw [he]))
        · exact .of_eq rfl rfl rfl rfl rfl
        · exact .of_eq rfl ⟨rfl, rfl⟩ rfl rfl rfl rfl
      · cases h2
    | getSolution t =>
      unfold exec at h2
      simp only at h2
      split at h2
      · rename_i h3
        cases h2
        obtain ⟨-, yy, yp, rfl⟩ := getSolution_frame h3
        refine SolKeep.at ?_ ih
        exact .of_eq rfl ⟨rfl, rfl⟩ rfl rfl rfl rfl
      · cases h2
    | getDky t k =>
      unfold exec at h2
      simp only at h2
      split at h2
      · rename_i h3
        cases h2
        unfold getDky at h3
        split at h3
        · cases h3; exact ih
        · split at h3
          · cases h3; exact ih
          · split at h3
            · cases h3; exact ih
            · cases h3
      · cases h2

end

end Verif
