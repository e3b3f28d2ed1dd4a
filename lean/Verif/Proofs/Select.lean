import Verif.Proofs.Estimate

/-! # The choice of order and step size (exact arithmetic) -/

set_option autoImplicit false
set_option linter.unusedSectionVars false
set_option linter.unusedSimpArgs false
set_option linter.unusedVariables false

namespace Verif

open Verif.Spec

universe u v

section
variable {ν : Type v} {n q : Nat} {K : Type u} [Field K] [LinearOrder K] [IsStrictOrderedRing K] [ExactParams K]
  [EpsLaws K]

/-! ## The error test -/

/-- The verdict of the error test in terms of the estimates. -/
structure Judged (cfg : Cfg ν n q K) (s s3 : State ν n q K) (a b : K) : Prop where
  spec : ∀ x : Att n K, Estimates cfg s x s3.ee → x.kk = s.c.kk →
    s3.c.knew = orderRetry cfg x ∧ a = estimate cfg x x.kk ∧ (1 < x.kk → b = estimate cfg x (x.kk - 1))

theorem testError_judged {cfg : Cfg ν n q K} {s s1 s3 : State ν n q K} {ck : K} {t : TestRes K}
    (h : testError cfg s1 ck = some (s3, t)) (hh : s1.h = coefHist s) (hk : s1.c.kk = s.c.kk) (he : s1.e.ewt = s.e.ewt) :
    Judged cfg s s3 t.errk t.errkm1 := by
  have hee : s3.ee = s1.ee := by rw [(testError_ok h).1]
  refine ⟨fun x hE hx => ?_⟩
  rw [hee] at hE
  unfold testError at h
  simp only at h
  split at h
  · rename_i hlt
    cases h
    simp only [hh, hk, he, ex_ofNat, ex_le, ex_max, ex_half]
    refine ⟨?_, by rw [hx]; exact hE.cur.symm, fun h1 => ?_⟩
    · unfold orderRetry lowers term
      rw [hx]
      have hc := hE.cur
      by_cases h1 : 1 < s.c.kk
      · have hl1 := hE.lower1 h1
        have c1 : ((s.c.kk - 1 : Nat) : K) + 1 = (s.c.kk : K) := by
          have : (s.c.kk - 1) + 1 = s.c.kk := by omega
          exact_mod_cast congrArg (Nat.cast (R := K)) this
        rw [if_pos (show s.c.kk > 1 from h1)]
        by_cases h2 : 2 < s.c.kk
        · have hl2 := hE.lower2 h2
          have c2 : ((s.c.kk - 2 : Nat) : K) + 1 = (s.c.kk : K) - 1 := by
            have : (s.c.kk - 2) + 2 = s.c.kk := by omega
            have h3 : ((s.c.kk - 2 : Nat) : K) + 2 = (s.c.kk : K) := by exact_mod_cast congrArg (Nat.cast (R := K)) this
            linear_combination h3
          rw [if_pos (show s.c.kk > 2 from h2), if_neg (show ¬ s.c.kk = 2 by omega), hc, hl1, hl2, c1, c2]
          have e : ∀ z : K, z * ((s.c.kk : K) + 1) = ((s.c.kk : K) + 1) * z := fun z => mul_comm _ _
          rw [e]
          simp only [decide_eq_true_eq, Bool.and_eq_true, show 2 ≤ s.c.kk by omega, true_and, decide_true]
        · have h3 : s.c.kk = 2 := by omega
          rw [if_neg (show ¬ s.c.kk > 2 from h2), if_pos h3]
          rw [h3] at hc hl1 ⊢
          have hl1' : estimate cfg x 1 = _ := hl1
          rw [hc, hl1']
          simp only [le_refl, decide_true, Bool.true_and, decide_eq_true_eq]
          have e : ∀ z w : K, ((((2 : Nat) : K)) * z ≤ w * (((2 : Nat) : K) + 1) * (1 / 2)) =
              ((((1 : Nat) : K) + 1) * z ≤ (((2 : Nat) : K) + 1) * w / 2) := by
            intro z w
            congr 1
            · norm_num
            · ring
          simp only [e]
      · rw [if_neg (show ¬ s.c.kk > 1 from h1)]
        simp [show ¬ 2 ≤ s.c.kk by omega]
    · rw [hx] at h1 ⊢
      rw [hE.lower1 h1, if_pos (show s.c.kk > 1 from h1)]
      split <;> rfl
  · cases h

/-- The attempts with the verdict of the error test. -/
theorem attempt_judged (cfg : Cfg ν n q K) (t0 : K) (s : State ν n q K) (f : Fails) :
    (∀ s1 ck a b, attempt cfg t0 s f = .done s1 ck a b →
      ∃ s3, AfterTrial cfg s s3 (.ok ()) ∧ Judged cfg s s3 a b ∧ s1 = (s3.note t0 (errCoef s) .accepted).noteAcc t0) ∧
    (∀ s' f', attempt cfg t0 s f = .again s' f' →
      ∃ s3 r out err a b s6, AfterTrial cfg s s3 r ∧ Verdict r err a b out ∧ (r = .ok () → Judged cfg s s3 a b) ∧
        PassFailed cfg t0 s (s3.note t0 (errCoef s) out) err a b ∧
        Handled cfg (restored (s3.note t0 (errCoef s) out) t0) a b f err s6 f' (.ok ()) ∧
        s' = if s6.cnt.nst = 0 then reset s6 else s6) := by
  unfold attempt
  cases ht : trial cfg s with
  | panic => exact ⟨(fun _ _ _ _ h => by cases h), fun _ _ h => by cases h⟩
  | diverge => exact ⟨(fun _ _ _ _ h => by cases h), fun _ _ h => by cases h⟩
  | nlsFail s3 ck e =>
    obtain ⟨h1, h2⟩ := trial_nlsFail ht
    subst h2
    have hkk : (s3.note t0 (errCoef s) (.nlsFail e)).c.kk < mxordp1 := by show s3.c.kk < _; rw [h1.c]; exact h1.kk
    refine ⟨fun s1 ck a b h => ?_, fun s' f' h => ?_⟩
    · simp only at h
      rw [attemptFailed_eq _ _ _ _ _ _ _ hkk] at h
      split at h <;> cases h
    · simp only at h
      rw [attemptFailed_eq _ _ _ _ _ _ _ hkk] at h
      split at h
      · cases h
      · rename_i s6 f6 h6
        cases h
        exact ⟨s3, .error e, .nlsFail e, e, 0, 0, s6, h1, Or.inl ⟨rfl, rfl, rfl, rfl⟩, (fun h => by cases h),
          ⟨s3, .error e, .nlsFail e, h1, Or.inl ⟨rfl, rfl, rfl, rfl⟩, by simp, rfl⟩, handleNFlag_handled h6, rfl⟩
      · cases h
  | tested s3 ck t =>
    obtain ⟨h1, h2, h3, h4, h5⟩ := trial_tested ht
    subst h2
    have hJ : Judged cfg s s3 t.errk t.errkm1 := by
      rw [trial_eq] at ht
      split at ht
      · split at ht
        · cases ht
        · cases ht
        · cases ht
        · split at ht
          · cases ht
          · split at ht
            · cases ht
            · rename_i hte
              cases ht
              exact testError_judged hte rfl rfl rfl
      · cases ht
    have hkk : ∀ out, (s3.note t0 (errCoef s) out).c.kk < mxordp1 := fun out => by
      show s3.c.kk < _; rw [h1.c]; exact h1.kk
    simp only
    split
    · refine ⟨fun s1 ck a b h => ?_, fun s' f' h => by cases h⟩
      cases h
      exact ⟨s3, h1, hJ, rfl⟩
    · rename_i hp
      refine ⟨fun s1 ck a b h => ?_, fun s' f' h => ?_⟩
      · rw [attemptFailed_eq _ _ _ _ _ _ _ (hkk _)] at h
        split at h <;> cases h
      · rw [attemptFailed_eq _ _ _ _ _ _ _ (hkk _)] at h
        split at h
        · cases h
        · rename_i s6 f6 h6
          cases h
          exact ⟨s3, .ok (), .testFail, .ida .testFail, t.errk, t.errkm1, s6, h1, Or.inr ⟨rfl, rfl, rfl⟩, fun _ => hJ,
            ⟨s3, .ok (), .testFail, h1, Or.inr ⟨rfl, rfl, rfl⟩, (fun _ => ⟨by rw [← h5]; simpa using hp, h4⟩), rfl⟩,
            handleNFlag_handled h6, rfl⟩
        · cases h

/-! ## The choice after an accepted step -/

theorem lowers_two {cfg : Cfg ν n q K} {x : Att n K} (h : lowers cfg x = true) : 2 ≤ x.kk := by
  unfold lowers at h
  simp only [Bool.and_eq_true, decide_eq_true_eq] at h
  exact h.1

theorem inStartUp_cons (cfg : Cfg ν n q K) (x : Att n K) (l : List (Att n K)) :
    inStartUp cfg (x :: l) = true ↔
      (isAccepted x = true ∧ lowers cfg x = false ∧ x.kk ≠ cfg.maxord) ∧ inStartUp cfg l = true := by
  unfold inStartUp
  rw [List.all_cons]
  simp only [Bool.and_eq_true, Bool.not_eq_true', decide_eq_true_eq]
  tauto

theorem doubled_eq (cfg : Cfg ν n q K) (h : K) : doubled cfg h = limited cfg (2 * h) := by
  unfold doubled limited
  simp only [ex_two, ex_abs, Scalar.gt, ex_lt, decide_eq_true_eq]

theorem selectStep_eq (cfg : Cfg ν n q K) (h : K) (k : Nat) (e : K) :
    (selectStep cfg h k e).2 = sizeAfter cfg h (ratio k e) := by
  unfold selectStep sizeAfter ratio
  simp only [ex_two, ex_pt0001, ex_powf, ex_recip, ex_ofNat, Scalar.ge, ex_le, decide_eq_true_eq, ex_max, ex_min, ex_half, ex_pt9]
  split
  · exact doubled_eq cfg h
  · split <;> rfl

/-- What is known when the choice is made after the accepted attempt `x`. -/
structure Known (cfg : Cfg ν n q K) (s : State ν n q K) (x : Att n K) (l : List (Att n K)) (a b : K) : Prop where
  kk : s.c.kk = x.kk
  hh : s.c.hh = x.hh
  kk1 : 1 ≤ x.kk
  kkm : x.kk ≤ cfg.maxord
  out : x.out = .accepted
  knew : s.c.knew = orderRetry cfg x
  errk : a = estimate cfg x x.kk
  errkm1 : 1 < x.kk → b = estimate cfg x (x.kk - 1)
  ns : x.kk + 2 ≤ s.c.ns ↔ x.kk + 2 ≤ streak (x :: l)
  diff : x.kk = s.c.kused + 1 → s.c.ns ≤ x.kk + 1
  up : x.kk + 2 ≤ s.c.ns → x.kk < cfg.maxord →
    estimate cfg x (x.kk + 1) = wrmsNorm cfg.id (vsub s.ee (s.h.phi (x.kk + 1))) s.e.ewt cfg.suppressalg / ((x.kk : K) + 2)
  phase : s.c.phase = 0 ↔ inStartUp cfg l = true
  first : s.c.phase = 0 → (s.cnt.nst = 0 ↔ l = [])

theorem Known.low {cfg : Cfg ν n q K} {s : State ν n q K} {x : Att n K} {l : List (Att n K)} {a b : K}
    (h : Known cfg s x l a b) : s.c.knew = s.c.kk - 1 ↔ lowers cfg x = true := by
  rw [h.knew, h.kk]
  unfold orderRetry
  have := h.kk1
  by_cases hl : lowers cfg x = true
  · rw [if_pos hl]; exact ⟨fun _ => hl, fun _ => rfl⟩
  · rw [if_neg hl]
    exact ⟨fun h => by omega, fun h => absurd h hl⟩

theorem orderAction_eq {cfg : Cfg ν n q K} {s s1 : State ν n q K} {x : Att n K} {l : List (Att n K)} {a b : K}
    (h : Known cfg s x l a b) (hc : s1.c.kk = s.c.kk ∧ s1.c.knew = s.c.knew ∧ s1.c.ns = s.c.ns ∧ s1.ee = s.ee ∧ s1.h = s.h ∧ s1.e = s.e)
    {act : Action} {e : K} : orderAction cfg s1 (decide (s.c.kk = s.c.kused + 1)) a b = some (act, e) →
    (match act with
      | .raise => (s1.c.kk + 1, e)
      | .lower => (s1.c.kk - 1, b)
      | .maintain => (s1.c.kk, a)) = (orderAfter cfg l x, estimate cfg x (orderAfter cfg l x)) := by
  intro ha
  obtain ⟨c1, c2, c3, c4, c5, c6⟩ := hc
  have hk1 := h.kk1
  unfold orderAction at ha
  simp only [c1, c2, c3, c4, c5, c6] at ha
  simp only [h.low] at ha
  have hlow1 : lowers cfg x = true → 1 < x.kk := fun hl => lowers_two hl
  unfold orderAfter
  simp only
  rw [c1]
  split at ha
  · rename_i hl
    cases ha
    rw [if_pos hl, h.kk, ← h.errkm1 (hlow1 hl)]
  · rename_i hl
    rw [if_neg hl]
    split at ha
    · rename_i hm
      rw [h.kk] at hm
      cases ha
      rw [if_pos (Or.inl hm), h.kk, ← h.errk]
    · rename_i hm
      rw [h.kk] at hm
      have hkm := h.kkm
      split at ha
      · rename_i hns
        rw [h.kk] at hns
        cases ha
        have : streak (x :: l) < x.kk + 2 := by
          by_contra hcon
          have h2 := h.ns.2 (by omega)
          simp only [Bool.or_eq_true, decide_eq_true_eq, ge_iff_le] at hns
          rcases hns with hns | hns
          · omega
          · have := h.diff hns; omega
        rw [if_pos (Or.inr this), h.kk, ← h.errk]
      · rename_i hns
        rw [h.kk] at hns
        simp only [Bool.or_eq_true, decide_eq_true_eq, ge_iff_le, not_or, Nat.not_le] at hns
        have hst : ¬ (x.kk = cfg.maxord ∨ streak (x :: l) < x.kk + 2) := by
          rintro (h1 | h1)
          · exact hm h1
          · have := h.ns.1 (by omega); omega
        rw [if_neg hst]
        have hup := h.up (by omega) (by omega)
        split at ha
        · rw [h.kk] at ha
          have e2 : (Scalar.ofNat (x.kk + 2) : K) = (x.kk : K) + 2 := by simp only [ex_ofNat]; push_cast; rfl
          rw [e2, ← hup] at ha
          have t1 : (Scalar.ofNat (x.kk + 1) : K) * a = term cfg x x.kk := by
            unfold term; rw [h.errk]; simp only [ex_ofNat]; push_cast; rfl
          have t2 : ((x.kk : K) + 2) * estimate cfg x (x.kk + 1) = term cfg x (x.kk + 1) := by
            unfold term; push_cast; ring
          rw [t1, t2] at ha
          simp only [Scalar.ge, ex_le, ex_half, ex_min, decide_eq_true_eq] at ha
          by_cases hk : x.kk = 1
          · rw [if_pos hk] at ha ⊢
            rw [hk] at ha
            have e3 : (1 / 2 : K) * term cfg x 1 = term cfg x 1 / 2 := by ring
            rw [e3] at ha
            split at ha
            · rename_i hle
              cases ha
              rw [if_neg (not_lt.2 hle), h.kk, hk, h.errk, hk]
            · rename_i hle
              cases ha
              rw [if_pos (not_le.1 hle), h.kk, hk]
          · rw [if_neg hk] at ha ⊢
            have t3 : (Scalar.ofNat x.kk : K) * b = term cfg x (x.kk - 1) := by
              unfold term; rw [h.errkm1 (by omega)]
              have : (x.kk - 1) + 1 = x.kk := by omega
              have h3 : ((x.kk - 1 : Nat) : K) + 1 = (x.kk : K) := by exact_mod_cast congrArg (Nat.cast (R := K)) this
              rw [h3]; rfl
            rw [t3] at ha
            split at ha
            · rename_i hle
              cases ha
              rw [if_pos hle, h.kk, h.errkm1 (by omega)]
            · rename_i hle
              rw [if_neg hle]
              split at ha
              · rename_i hle2
                cases ha
                rw [if_neg (not_lt.2 hle2), h.kk, ← h.errk]
              · rename_i hle2
                cases ha
                rw [if_pos (not_le.1 hle2), h.kk]
        · cases ha

theorem completeStep_choice {cfg : Cfg ν n q K} {s s' : State ν n q K} {x : Att n K} {l : List (Att n K)} {a b : K}
    (h : Known cfg s x l a b) (hc : completeStep cfg s a b = some s') :
    s'.c.kk = (choice cfg l x).1 ∧ s'.c.hh = (choice cfg l x).2 ∧ (s'.c.phase = 0 ↔ inStartUp cfg (x :: l) = true) := by
  obtain ⟨s1, hs1, hcc⟩ := completeStep_choose hc
  have hkk : (chosenFrom cfg s).c.kk = s.c.kk := by unfold chosenFrom; rw [markPhase_eq]
  have hhh : (chosenFrom cfg s).c.hh = s.c.hh := by unfold chosenFrom; rw [markPhase_eq]
  have hn : (chosenFrom cfg s).cnt.nst = s.cnt.nst + 1 := by unfold chosenFrom; rw [markPhase_cnt]
  have hph : (chosenFrom cfg s).c.phase = 0 ↔ inStartUp cfg (x :: l) = true := by
    rw [inStartUp_cons]
    unfold chosenFrom markPhase
    by_cases hcond : s.c.knew = s.c.kk - 1 ∨ s.c.kk = cfg.maxord
    · rw [if_pos hcond]
      constructor
      · intro h; cases h
      · rintro ⟨⟨-, h1, h2⟩, -⟩
        rcases hcond with h3 | h3
        · rw [h.low.1 h3] at h1; cases h1
        · rw [h.kk] at h3; exact absurd h3 h2
    · rw [if_neg hcond]
      rw [not_or] at hcond
      show s.c.phase = 0 ↔ _
      rw [h.phase]
      refine ⟨fun h1 => ⟨⟨(isAccepted_iff x).2 h.out, ?_, ?_⟩, h1⟩, fun h1 => h1.2⟩
      · by_contra hl
        exact hcond.1 (h.low.2 (by simpa using hl))
      · rw [← h.kk]; exact hcond.2
  have hp1 : s1.c.phase = (chosenFrom cfg s).c.phase := by rw [(chooseNext_eq hs1).1]
  rw [hcc, hp1]
  suffices hx : s1.c.kk = (choice cfg l x).1 ∧ s1.c.hh = (choice cfg l x).2 from ⟨hx.1, hx.2, hph⟩
  unfold chooseNext at hs1
  unfold choice
  simp only [h.out]
  by_cases h0 : (chosenFrom cfg s).c.phase = 0
  · rw [if_pos h0] at hs1
    have hst := hph.1 h0
    rw [if_pos hst]
    have hs0 : s.c.phase = 0 := h.phase.2 ((inStartUp_cons cfg x l).1 hst).2
    have hf := h.first hs0
    rw [hn] at hs1
    by_cases hl : l = []
    · rw [if_pos hl]
      rw [if_neg (by have := hf.2 hl; omega)] at hs1
      cases hs1
      exact ⟨by rw [hkk, h.kk], by rw [hhh, h.hh]⟩
    · rw [if_neg hl]
      have hne : s.cnt.nst ≠ 0 := fun h => hl (hf.1 h)
      rw [if_pos (by omega)] at hs1
      cases hs1
      exact ⟨by show (chosenFrom cfg s).c.kk + 1 = _; rw [hkk, h.kk],
        by show doubled cfg (chosenFrom cfg s).c.hh = _; rw [hhh, h.hh, doubled_eq]⟩
  · rw [if_neg h0] at hs1
    rw [if_neg (fun hst => h0 (hph.2 hst))]
    split at hs1
    · cases hs1
    · rename_i act e ha
      have hm := orderAction_eq (s1 := chosenFrom cfg s) h (by unfold chosenFrom; rw [markPhase_eq]; exact ⟨rfl, rfl, rfl, rfl, rfl, rfl⟩) ha
      cases hs1
      cases act <;>
      · simp only [Prod.mk.injEq] at hm ⊢
        rw [selectStep_eq, hhh, h.hh, hm.2, ← hm.1]
        exact ⟨rfl, rfl⟩

end

end Verif
