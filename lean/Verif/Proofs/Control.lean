import Verif.Proofs.AttOrd

/-! # Step sizes, direction and stop time (exact arithmetic) -/

set_option autoImplicit false
set_option linter.unusedSectionVars false
set_option linter.unusedSimpArgs false
set_option linter.unusedVariables false

namespace Verif

open Relation

universe u v

section
variable {ν : Type v} {n q : Nat} {K : Type u} [Field K] [LinearOrder K] [IsStrictOrderedRing K] [ExactParams K]
  [EpsLaws K]

theorem eps4 : (0 : K) < 1 - 4 * ExactParams.eps := by
  have h1 := EpsLaws.eps_pos (K := K)
  have h2 := EpsLaws.eps_small (K := K)
  linarith

theorem pos_left_of_mul_pos {a b : K} (h : 0 < a * b) (hb : 0 ≤ b) : 0 < a := by
  by_contra ha
  exact absurd h (not_lt.2 (mul_nonpos_of_nonpos_of_nonneg (not_lt.1 ha) hb))

/-- A step of size `hh` from `tn` does not pass the stop time. -/
def Within (tstop : Option K) (tn hh : K) : Prop := ∀ ts, tstop = some ts → (tn + hh - ts) * hh ≤ 0

theorem clamp_within (ts tn : K) : (tn + (ts - tn) * (1 - 4 * ExactParams.eps) - ts) *
    ((ts - tn) * (1 - 4 * ExactParams.eps)) ≤ 0 := by
  have h1 := EpsLaws.eps_pos (K := K)
  have h2 := eps4 (K := K)
  have : (tn + (ts - tn) * (1 - 4 * ExactParams.eps) - ts) * ((ts - tn) * (1 - 4 * ExactParams.eps)) =
      -(4 * ExactParams.eps * (1 - 4 * ExactParams.eps) * ((ts - tn) * (ts - tn))) := by ring
  rw [this, neg_nonpos]
  exact mul_nonneg (mul_nonneg (by linarith) h2.le) (mul_self_nonneg _)

theorem StopReady.within {s : State ν n q K} (h : StopReady s) : Within s.tstop s.e.tn s.c.hh := by
  intro ts hts
  rcases h ts hts with h | h
  · simpa using h
  · simp only [ex_four, ex_eps] at h
    rw [h]
    exact clamp_within ts s.e.tn

theorem Within.scale {tstop : Option K} {tn hh c : K} (h : Within tstop tn hh) (h0 : 0 ≤ c) (h1 : c ≤ 1) :
    Within tstop tn (c * hh) := by
  intro ts hts
  have h2 := h ts hts
  have e : (tn + c * hh - ts) * (c * hh) = c * ((tn + hh - ts) * hh) - c * (1 - c) * (hh * hh) := by ring
  rw [e]
  have h3 : c * ((tn + hh - ts) * hh) ≤ 0 := mul_nonpos_of_nonneg_of_nonpos h0 h2
  have h4 : 0 ≤ c * (1 - c) * (hh * hh) := mul_nonneg (mul_nonneg h0 (by linarith)) (mul_self_nonneg _)
  linarith

theorem newTime_within {s : State ν n q K} (h : Within s.tstop s.e.tn s.c.hh) : newTime s = s.e.tn + s.c.hh := by
  unfold newTime advanceTime
  simp only
  split
  · rename_i ts hts
    have := h ts hts
    rw [if_neg]
    simp only [ex_lt, decide_eq_true_eq, not_lt]
    linarith
  · rfl

/-! ## The step size after an accepted step -/

theorem doubled_spec {cfg : Cfg ν n q K} (hm : 0 ≤ cfg.hmaxInv) (hh : K) (h : |hh| * cfg.hmaxInv ≤ 1) :
    ∃ c, 1 ≤ c ∧ c ≤ 2 ∧ doubled cfg hh = c * hh ∧ |doubled cfg hh| * cfg.hmaxInv ≤ 1 := by
  have e : doubled cfg hh = if 1 < |2 * hh| * cfg.hmaxInv then 2 * hh / (|2 * hh| * cfg.hmaxInv) else 2 * hh := by
    unfold doubled; simp
  rw [e]
  by_cases ht : 1 < |2 * hh| * cfg.hmaxInv
  · rw [if_pos ht]
    have h0 : 0 < |2 * hh| * cfg.hmaxInv := by linarith
    have h2 : |2 * hh| * cfg.hmaxInv ≤ 2 := by
      rw [abs_mul, abs_two]; linarith
    refine ⟨2 / (|2 * hh| * cfg.hmaxInv), ?_, ?_, by ring, ?_⟩
    · rw [le_div_iff₀ h0]; linarith
    · rw [div_le_iff₀ h0]; linarith
    · rw [abs_div, abs_of_pos h0, div_mul_eq_mul_div, div_self h0.ne']
  · rw [if_neg ht]
    exact ⟨2, by norm_num, le_refl _, rfl, not_lt.1 ht⟩

theorem selectStep_spec {cfg : Cfg ν n q K} (hm : 0 ≤ cfg.hmaxInv) (hh : K) (h : |hh| * cfg.hmaxInv ≤ 1) (k : Nat)
    (e : K) : ∃ c, 1 / 2 ≤ c ∧ c ≤ 2 ∧ (selectStep cfg hh k e).2 = c * hh ∧
      |(selectStep cfg hh k e).2| * cfg.hmaxInv ≤ 1 := by
  unfold selectStep
  simp only
  split
  · obtain ⟨c, h1, h2, h3, h4⟩ := doubled_spec hm hh h
    exact ⟨c, by linarith, h2, h3, h4⟩
  · split
    · generalize Scalar.powf (_ : K) _ = p
      have hx : (1 / 2 : K) ≤ Scalar.max Scalar.half (Scalar.min p Scalar.pt9) := le_max_left _ _
      have hy : Scalar.max Scalar.half (Scalar.min p Scalar.pt9) ≤ (1 : K) := by
        simp only [ex_max, ex_half, ex_min, ex_pt9]
        exact max_le (by norm_num) (le_trans (min_le_right _ _) (by norm_num))
      generalize Scalar.max Scalar.half (Scalar.min p Scalar.pt9) = c at hx hy ⊢
      refine ⟨c, hx, by linarith, mul_comm _ _, ?_⟩
      show |hh * c| * cfg.hmaxInv ≤ 1
      rw [abs_mul, abs_of_nonneg (le_trans (by norm_num) hx)]
      have := mul_le_mul_of_nonneg_left hy (mul_nonneg (abs_nonneg hh) hm)
      calc |hh| * c * cfg.hmaxInv = |hh| * cfg.hmaxInv * c := by ring
        _ ≤ |hh| * cfg.hmaxInv * 1 := this
        _ ≤ 1 := by linarith
    · exact ⟨1, by norm_num, by norm_num, by simp, h⟩

theorem chooseNext_hh {cfg : Cfg ν n q K} {s s' : State ν n q K} {k : Bool} {a b : K} (hm : 0 ≤ cfg.hmaxInv)
    (hb : |s.c.hh| * cfg.hmaxInv ≤ 1) (h : chooseNext cfg s k a b = some s') :
    ∃ c, 1 / 2 ≤ c ∧ c ≤ 2 ∧ s'.c.hh = c * s.c.hh ∧ |s'.c.hh| * cfg.hmaxInv ≤ 1 := by
  unfold chooseNext at h
  split at h
  · split at h
    · cases h
      obtain ⟨c, h1, h2, h3, h4⟩ := doubled_spec hm s.c.hh hb
      exact ⟨c, by linarith, h2, h3, h4⟩
    · cases h
      exact ⟨1, by norm_num, by norm_num, by simp, hb⟩
  · split at h
    · cases h
    · cases h
      exact selectStep_spec hm _ hb _ _

theorem completeStep_hh {cfg : Cfg ν n q K} {s s' : State ν n q K} {a b : K} (hm : 0 ≤ cfg.hmaxInv)
    (hb : |s.c.hh| * cfg.hmaxInv ≤ 1) (h : completeStep cfg s a b = some s') :
    ∃ c, 1 / 2 ≤ c ∧ c ≤ 2 ∧ s'.c.hh = c * s.c.hh ∧ |s'.c.hh| * cfg.hmaxInv ≤ 1 := by
  obtain ⟨s1, hs1, hc⟩ := completeStep_choose h
  have hh : (chosenFrom cfg s).c.hh = s.c.hh := by unfold chosenFrom; rw [markPhase_eq]
  rw [hc, ← hh]
  exact chooseNext_hh hm (by rw [hh]; exact hb) hs1

/-! ## The step size after a failed attempt -/

/-- `handle_n_flag` scales the step size by a factor in `(0, 1]`; when the loop goes round again it is at most `9/10`. -/
theorem handled_hh {cfg : Cfg ν n q K} {s s' : State ν n q K} {err : Err} {a b : K} {f f' : Fails}
    {r : Except Err Unit} (hleg : err = .ida .testFail ∨ err.fromNls) (h : Handled cfg s a b f err s' f' r) :
    ∃ c, 1 / 4 ≤ c ∧ c ≤ 1 ∧ s'.c.hh = c * s.c.hh ∧ (r = .ok () → c ≤ 9 / 10) := by
  have hnc : ∀ rec, err = .ida (.recoverableFail rec) → rec ≠ .constraint := by
    intro rec he
    rcases hleg with h | h
    · rw [h] at he; cases he
    · rw [he] at h; exact h
  cases h with
  | test1 rr h1 h2 =>
    have h3 : 1 / 4 ≤ rr ∧ rr ≤ 9 / 10 := by
      rw [h2]
      simp only [ex_max, ex_quarter, ex_min, ex_pt9]
      exact ⟨le_max_left _ _, max_le (by norm_num) (min_le_left _ _)⟩
    exact ⟨rr, h3.1, by linarith, mul_comm _ _, fun _ => h3.2⟩
  | test2 h1 => exact ⟨1 / 4, le_refl _, by norm_num, mul_comm _ _, fun _ => by norm_num⟩
  | test3 h1 h2 => exact ⟨1 / 4, le_refl _, by norm_num, mul_comm _ _, fun _ => by norm_num⟩
  | testGiveUp h1 h2 => exact ⟨1, by norm_num, le_refl _, by simp, by simp⟩
  | conv rec h1 =>
    refine ⟨1 / 4, le_refl _, by norm_num, ?_, fun _ => by norm_num⟩
    simp only [if_neg (hnc rec rfl)]
    exact mul_comm _ _
  | convGiveUp rec h1 =>
    refine ⟨1 / 4, le_refl _, by norm_num, ?_, fun _ => by norm_num⟩
    simp only [if_neg (hnc rec rfl)]
    exact mul_comm _ _
  | hard e h1 => exact ⟨1, by norm_num, le_refl _, by simp, by simp⟩

/-! ## One step -/

/-- `x` is an attempt made by a step that starts in `s0`. -/
structure TryFrom (s0 : State ν n q K) (x : Att n K) : Prop where
  t0 : x.t0 = s0.e.tn
  tnew : x.tnew = x.t0 + x.hh
  stop : x.stop = s0.tstop
  hh : ∃ c, 0 < c ∧ c ≤ 1 ∧ x.hh = c * s0.c.hh

/-- Invariant of the attempt loop of a step that starts in `s0`. -/
structure CtlLoop (s0 s : State ν n q K) : Prop where
  tn : s.e.tn = s0.e.tn
  tstop : s.tstop = s0.tstop
  cnt : s.cnt.nst = s0.cnt.nst
  hused : s.c.hused = (firstStepInit s0).c.hused
  acc : s.g.acc = s0.g.acc
  hh : ∃ c, 0 < c ∧ c ≤ 1 ∧ s.c.hh = c * s0.c.hh
  atts : ∃ l, s.g.atts = l ++ s0.g.atts ∧ ∀ x ∈ l, TryFrom s0 x ∧ x.out ≠ .accepted

theorem CtlLoop.within {s0 s : State ν n q K} (h : CtlLoop s0 s) (hw : Within s0.tstop s0.e.tn s0.c.hh) :
    Within s.tstop s.e.tn s.c.hh := by
  obtain ⟨c, h1, h2, h3⟩ := h.hh
  rw [h.tstop, h.tn, h3]
  exact hw.scale h1.le h2

theorem ctlLoop_init (s0 : State ν n q K) : CtlLoop s0 (firstStepInit s0) := by
  have hi := firstStepInit_cnt s0
  exact ⟨hi.2.2.1, hi.2.2.2.1, by rw [hi.1], rfl, by rw [hi.2.1], ⟨1, one_pos, le_refl _, by rw [hi.2.2.2.2.1, one_mul]⟩,
    [], by rw [hi.2.1]; rfl, by simp⟩

theorem ctlLoop_handled {cfg : Cfg ν n q K} {s0 s s5 s6 : State ν n q K} {err : Err} {a b : K} {f f' : Fails}
    {r : Except Err Unit} (hw : Within s0.tstop s0.e.tn s0.c.hh) (hI : CtlLoop s0 s)
    (hR : Restored cfg s0.e.tn s s5 err) (hH : Handled cfg s5 a b f err s6 f' r) : CtlLoop s0 s6 := by
  obtain ⟨-, -, c3, c4, -, -, c7, c8, -, c10, -⟩ := handled_ctl hH
  obtain ⟨ee, hg⟩ := hR.ghost
  obtain ⟨d, hd1, hd2, hd3, -⟩ := handled_hh hR.legal hH
  obtain ⟨c, hc1, hc2, hc3⟩ := hI.hh
  obtain ⟨l, hl1, hl2⟩ := hI.atts
  have h5 : s5.c.hh = s.c.hh := by rw [hR.c]
  refine ⟨by rw [c7, hR.tn], by rw [c10, hR.tstop, hI.tstop], by rw [c3, hR.cnt, hI.cnt],
    by rw [c4, hR.c]; exact hI.hused, by rw [c8, hg]; exact hI.acc, ⟨d * c, mul_pos (by linarith) hc1, ?_, ?_⟩,
    _ :: l, by rw [c8, hg, hl1]; rfl, ?_⟩
  · calc d * c ≤ 1 * c := mul_le_mul_of_nonneg_right hd2 hc1.le
      _ ≤ 1 := by linarith
  · rw [hd3, h5, hc3]; ring
  · intro x hx
    rcases List.mem_cons.1 hx with rfl | hx
    · refine ⟨⟨rfl, ?_, hI.tstop, c, hc1, hc2, hc3⟩, ?_⟩
      · show newTime s = s0.e.tn + s.c.hh
        rw [newTime_within (hI.within hw), hI.tn]
      · show (if _ then AttOut.testFail else _) ≠ _
        split <;> simp
    · exact hl2 x hx

theorem CtlLoop.of_reset {s0 s : State ν n q K} (h : CtlLoop s0 s) (p : Prop) [Decidable p] :
    CtlLoop s0 (if p then reset s else s) := by
  obtain ⟨e1, e2, e3, e4, -, e6, -⟩ := ite_reset_ctl s p
  exact ⟨by rw [e3]; exact h.tn, by rw [e6]; exact h.tstop, by rw [e2]; exact h.cnt, by rw [e1]; exact h.hused,
    by rw [e4]; exact h.acc, by rw [e1]; exact h.hh, by rw [e4]; exact h.atts⟩

/-- The result of a successful step that starts in `s0`. -/
structure CtlDone (cfg : Cfg ν n q K) (s0 s' : State ν n q K) : Prop where
  tstop : s'.tstop = s0.tstop
  nst : s'.cnt.nst = s0.cnt.nst + 1
  last : ∃ x l, s'.g.atts = x :: (l ++ s0.g.atts) ∧ TryFrom s0 x ∧ x.out = .accepted ∧ s'.e.tn = x.tnew ∧
    s'.c.hused = x.hh ∧
    (∃ y0, s'.g.acc = (x.tnew, x.yy) :: (if s0.cnt.nst = 0 then [(s0.e.tn, y0)] else s0.g.acc)) ∧
    (∃ c, 1 / 2 ≤ c ∧ c ≤ 2 ∧ s'.c.hh = c * x.hh) ∧ |s'.c.hh| * cfg.hmaxInv ≤ 1 ∧
    ∀ x ∈ l, TryFrom s0 x ∧ x.out ≠ .accepted

theorem ctlLoop_done {cfg : Cfg ν n q K} {s0 s s1 s' : State ν n q K} {f : Fails} {ck a b : K}
    (hm : 0 ≤ cfg.hmaxInv) (hb : |s0.c.hh| * cfg.hmaxInv ≤ 1) (hw : Within s0.tstop s0.e.tn s0.c.hh)
    (hI : CtlLoop s0 s) (h : attempt cfg s0.e.tn s f = .done s1 ck a b) (hc : completeStep cfg s1 a b = some s') :
    CtlDone cfg s0 s' := by
  obtain ⟨s3, h3, -, -, -, -, rfl⟩ := attempt_done h
  have hC := completeStep_eq hc
  obtain ⟨c, hc1, hc2, hc3⟩ := hI.hh
  obtain ⟨l, hl1, hl2⟩ := hI.atts
  have h3hh : s3.c.hh = s.c.hh := by rw [h3.c]
  have hbs : |s.c.hh| * cfg.hmaxInv ≤ 1 := by
    rw [hc3, abs_mul, abs_of_pos hc1]
    calc c * |s0.c.hh| * cfg.hmaxInv = c * (|s0.c.hh| * cfg.hmaxInv) := by ring
      _ ≤ 1 * (|s0.c.hh| * cfg.hmaxInv) := mul_le_mul_of_nonneg_right hc2 (mul_nonneg (abs_nonneg _) hm)
      _ ≤ 1 := by linarith
  obtain ⟨d, hd1, hd2, hd3, hd4⟩ := completeStep_hh hm (s := (s3.note s0.e.tn (errCoef s) .accepted).noteAcc s0.e.tn)
    (by show |s3.c.hh| * _ ≤ 1; rw [h3hh]; exact hbs) hc
  have hd3' : s'.c.hh = d * s.c.hh := by rw [hd3]; show _ * s3.c.hh = _; rw [h3hh]
  have hg := hC.g.trans (done_ghost h3)
  refine ⟨by rw [hC.tstop]; show s3.tstop = _; rw [h3.tstop, hI.tstop], ?_,
    attRec s s0.e.tn s3.ee .accepted, l, by rw [hg, hl1], ⟨rfl, ?_, hI.tstop, c, hc1, hc2, hc3⟩, rfl, ?_, ?_, ?_,
    ⟨d, hd1, hd2, hd3'⟩, hd4, hl2⟩
  · rw [hC.nst]; show s3.cnt.nst + 1 = _; rw [h3.cnt, hI.cnt]
  · show newTime s = s0.e.tn + s.c.hh
    rw [newTime_within (hI.within hw), hI.tn]
  · rw [hC.e]; show s3.e.tn = _; rw [h3.e]; rfl
  · rw [hC.hused]; exact h3hh
  · refine ⟨(coefHist s).phi 0, ?_⟩
    rw [hg, hI.acc, hI.cnt]; rfl

theorem step_ctl {cfg : Cfg ν n q K} {s0 s' : State ν n q K} {r : Except Err Unit} (hl : NlsLegal cfg)
    (hm : 0 ≤ cfg.hmaxInv) (hb : |s0.c.hh| * cfg.hmaxInv ≤ 1) (hw : Within s0.tstop s0.e.tn s0.c.hh)
    (h : step cfg s0 = .ret s' r) : (r = .ok () ∧ CtlDone cfg s0 s') ∨ (∃ e, r = .error e ∧ CtlLoop s0 s') :=
  step_rule (cfg := cfg) (fun s _ => CtlLoop s0 s) (CtlDone cfg s0) (fun s _ => CtlLoop s0 s) (ctlLoop_init s0)
    (fun s1 f s' f' hI h => by
      obtain ⟨err, a, b, s5, s6, hR, hH, rfl⟩ := attempt_again' hl h
      exact (ctlLoop_handled hw hI hR hH).of_reset _)
    (fun s1 f s2 ck a b s' hI h hc => by
      have := ctlLoop_done hm hb hw hI h hc
      exact ⟨this.tstop, this.nst, this.last⟩)
    (fun s1 f s' e hI h => by
      obtain ⟨err, a, b, f', s5, hR, hH⟩ := attempt_fail' hl h
      exact ctlLoop_handled hw hI hR hH) h

/-! ## The first call -/

theorem firstStepSize_spec {cfg : Cfg ν n q K} {s : State ν n q K} {tout : K} (hm : 0 ≤ cfg.hmaxInv)
    (h1 : tooClose s tout = false) (h2 : wrongWay cfg s tout = false) {hh : K}
    (hh1 : hh = firstStepSize cfg s tout (Scalar.abs (tout - s.e.tn))) :
    0 < (tout - s.e.tn) * hh ∧ |hh| * cfg.hmaxInv ≤ 1 := by
  have hd : tout - s.e.tn ≠ 0 := by
    unfold tooClose at h1
    simp only [Bool.or_eq_false_iff] at h1
    have := h1.1
    simp only [ex_eqb, ex_abs, decide_eq_false_iff_not, abs_eq_zero] at this
    exact this
  have hd' : 0 < |tout - s.e.tn| := abs_pos.2 hd
  have key : ∀ x : K, 0 < (tout - s.e.tn) * x →
      0 < (tout - s.e.tn) * (if Scalar.gt (Scalar.abs x * cfg.hmaxInv) 1 then x / (Scalar.abs x * cfg.hmaxInv) else x) ∧
      |if Scalar.gt (Scalar.abs x * cfg.hmaxInv) 1 then x / (Scalar.abs x * cfg.hmaxInv) else x| * cfg.hmaxInv ≤ 1 := by
    intro x hx
    by_cases hr : Scalar.gt (Scalar.abs x * cfg.hmaxInv) 1 = true
    · rw [if_pos hr]
      simp only [ex_lt, ex_abs, decide_eq_true_eq] at hr ⊢
      have h0 : 0 < |x| * cfg.hmaxInv := lt_trans one_pos hr
      refine ⟨?_, ?_⟩
      · rw [← mul_div_assoc]; exact div_pos hx h0
      · rw [abs_div, abs_of_pos h0, div_mul_eq_mul_div, div_self h0.ne']
    · rw [if_neg hr]
      simp only [ex_lt, ex_abs, decide_eq_true_eq, not_lt] at hr
      exact ⟨hx, hr⟩
  rw [hh1]
  unfold firstStepSize
  simp only
  apply key
  split
  · unfold autoStep
    simp only
    have hpos : ∀ a b : K, 0 < a → 0 < (if Scalar.gt b (Scalar.two / a) then Scalar.half / b else a) := by
      intro a b ha
      by_cases hb : Scalar.gt b (Scalar.two / a) = true
      · rw [if_pos hb]
        simp only [ex_lt, ex_two, decide_eq_true_eq] at hb
        have : 0 < b := lt_trans (div_pos two_pos ha) hb
        simp only [ex_half]
        exact div_pos (by norm_num) this
      · rw [if_neg hb]; exact ha
    have hx := hpos (Scalar.pt001 * Scalar.abs (tout - s.e.tn)) (wrmsNorm cfg.id (s.h.phi 1) s.e.ewt cfg.suppressalg)
      (by simp only [ex_pt001, ex_abs]; exact mul_pos (by norm_num) hd')
    generalize (if Scalar.gt (wrmsNorm cfg.id (s.h.phi 1) s.e.ewt cfg.suppressalg)
      (Scalar.two / (Scalar.pt001 * Scalar.abs (tout - s.e.tn))) then
      Scalar.half / wrmsNorm cfg.id (s.h.phi 1) s.e.ewt cfg.suppressalg else
      Scalar.pt001 * Scalar.abs (tout - s.e.tn) : K) = x at hx
    by_cases hl : Scalar.lt tout s.e.tn = true
    · rw [if_pos hl]
      simp only [ex_lt, decide_eq_true_eq] at hl
      have : (tout - s.e.tn) * -x = (s.e.tn - tout) * x := by ring
      rw [this]
      exact mul_pos (by linarith) hx
    · rw [if_neg hl]
      simp only [ex_lt, decide_eq_true_eq, not_lt] at hl
      exact mul_pos (lt_of_le_of_ne (by linarith) (Ne.symm hd)) hx
  · rename_i hin
    simp only [ex_eqb, decide_eq_true_eq] at hin
    unfold wrongWay at h2
    simp only [ex_lt, Bool.and_eq_false_iff, decide_eq_false_iff_not, not_lt, Scalar.neb, ex_eqb] at h2
    rcases h2 with h2 | h2
    · simp [hin] at h2
    · exact lt_of_le_of_ne h2 (Ne.symm (mul_ne_zero hd hin))

/-- Limiting the step by a stop time that is strictly ahead. -/
theorem clamp_spec {s : State ν n q K} {ts : K} (h : 0 < (ts - s.e.tn) * s.c.hh) :
    ∃ c, 0 < c ∧ c ≤ 1 ∧ (clampToStop s ts).c.hh = c * s.c.hh := by
  unfold clampToStop
  split
  · rename_i hc
    simp only [ex_lt, decide_eq_true_eq] at hc
    have hne : s.c.hh ≠ 0 := fun h0 => by rw [h0, mul_zero] at h; exact lt_irrefl _ h
    have hsq : 0 < s.c.hh * s.c.hh := mul_self_pos.2 hne
    refine ⟨(ts - s.e.tn) * s.c.hh / (s.c.hh * s.c.hh) * (1 - 4 * ExactParams.eps), mul_pos (div_pos h hsq) eps4, ?_, ?_⟩
    · have h1 : (ts - s.e.tn) * s.c.hh / (s.c.hh * s.c.hh) ≤ 1 := by
        rw [div_le_one hsq]; nlinarith
      have h2 : (1 - 4 * ExactParams.eps : K) ≤ 1 := by
        have := EpsLaws.eps_pos (K := K); linarith
      calc _ ≤ 1 * (1 - 4 * ExactParams.eps : K) := mul_le_mul_of_nonneg_right h1 eps4.le
        _ ≤ 1 := by linarith
    · simp only [ex_four, ex_eps]
      field_simp
  · exact ⟨1, one_pos, le_refl _, by rw [one_mul]⟩

theorem abs_scale_le {c x m : K} (h0 : 0 < c) (h1 : c ≤ 1) (hm : 0 ≤ m) (h : |x| * m ≤ 1) : |c * x| * m ≤ 1 := by
  rw [abs_mul, abs_of_pos h0, mul_assoc]
  calc c * (|x| * m) ≤ 1 * (|x| * m) := mul_le_mul_of_nonneg_right h1 (mul_nonneg (abs_nonneg _) hm)
    _ ≤ 1 := by linarith

theorem firstReady_hh (cfg : Cfg ν n q K) (s : State ν n q K) : (firstReady cfg s).c.hh = s.c.hh := by
  unfold firstReady
  simp only
  split
  · show (rCheck1 cfg _).c.hh = _
    rw [(rCheck1_same cfg _).2.1]
  · rfl

theorem firstCall_spec {cfg : Cfg ν n q K} {s s' : State ν n q K} {tout : K} (hm : 0 ≤ cfg.hmaxInv)
    (h : firstCall cfg s tout = .ret s' (.ok ())) :
    0 < (tout - s.e.tn) * s'.c.hh ∧ |s'.c.hh| * cfg.hmaxInv ≤ 1 ∧ Within s'.tstop s'.e.tn s'.c.hh := by
  have hsame := firstCall_same h
  rcases firstCall_cases h with ⟨-, -, h⟩ | ⟨-, -, h⟩ | ⟨hh, hh1, h1, h2, ⟨-, -, h⟩ | ⟨s1, hs1, h, -⟩⟩
  · cases h
  · cases h
  · cases h
  have htn : (initialSetup cfg s).e.tn = s.e.tn := (initialSetup_same cfg s).tn
  obtain ⟨h3, h4⟩ := firstStepSize_spec hm h1 h2 hh1
  rw [htn] at h3
  have hhh : s'.c.hh = s1.c.hh := by rw [h]; exact firstReady_hh cfg s1
  have hts' : s'.tstop = s1.tstop := by rw [h]; exact (firstReady_same cfg s1).tstop
  have htn' : s'.e.tn = s1.e.tn := by rw [h]; exact (firstReady_same cfg s1).tn
  rw [hhh, hts', htn']
  unfold firstStop at hs1
  split at hs1
  · rename_i ts hts
    split at hs1
    · cases hs1
    · rename_i hneg
      simp only [ex_le, decide_eq_true_eq, not_le] at hneg
      cases hs1
      obtain ⟨c, hc1, hc2, hc3⟩ := clamp_spec (s := { initialSetup cfg s with c.hh := hh }) (ts := ts) hneg
      simp only at hc3
      refine ⟨?_, ?_, (clampToStop_ready _ ts hts).within⟩
      · rw [hc3]
        have : (tout - s.e.tn) * (c * hh) = c * ((tout - s.e.tn) * hh) := by ring
        rw [this]; exact mul_pos hc1 h3
      · rw [hc3]; exact abs_scale_le hc1 hc2 hm h4
  · rename_i hts
    cases hs1
    exact ⟨h3, h4, fun ts h => by rw [hts] at h; cases h⟩

/-! ## The invariant -/

/-- Control invariant of all histories. -/
structure CtlInv (cfg : Cfg ν n q K) (s : State ν n q K) : Prop where
  atts : ∀ x ∈ s.g.atts, x.hh ≠ 0 ∧ x.tnew = x.t0 + x.hh ∧ |x.hh| * cfg.hmaxInv ≤ 1 ∧
    ∀ ts, x.stop = some ts → (x.tnew - ts) * x.hh ≤ 0
  zero : s.cnt.nst = 0 → s.e.tn = 0 ∧ s.g.acc = []
  used : 0 < s.cnt.nst → 0 < s.c.hh * s.c.hused
  hmax : 0 < s.cnt.nst → |s.c.hh| * cfg.hmaxInv ≤ 1
  stop : 0 < s.cnt.nst → ∀ ts, s.tstop = some ts → (s.e.tn - ts) * s.c.hh ≤ 0
  last : 0 < s.cnt.nst → ∃ y rest, s.g.acc = (s.e.tn, y) :: rest
  start : 0 < s.cnt.nst → ∃ y0, s.g.acc.getLast? = some (0, y0)
  usedMax : 0 < s.cnt.nst → |s.c.hused| * cfg.hmaxInv ≤ 1
  len : 0 < s.cnt.nst → s.g.acc.length = s.cnt.nst + 1
  chain : s.g.acc.Pairwise fun a b => 0 < (a.1 - b.1) * s.c.hh

theorem CtlInv.of_scale {cfg : Cfg ν n q K} {s s' : State ν n q K} (hm : 0 ≤ cfg.hmaxInv) (h : CtlInv cfg s)
    (hg : s'.g = s.g) (hn : s'.cnt.nst = s.cnt.nst) (htn : s'.e.tn = s.e.tn) (hu : s'.c.hused = s.c.hused)
    (hts : s'.tstop = s.tstop ∨ s'.tstop = none) (hh : ∃ c, 0 < c ∧ c ≤ 1 ∧ s'.c.hh = c * s.c.hh) : CtlInv cfg s' := by
  obtain ⟨c, hc1, hc2, hc3⟩ := hh
  refine ⟨by rw [hg]; exact h.atts, by rw [hn, htn, hg]; exact h.zero, ?_, ?_, ?_, by rw [hn, hg, htn]; exact h.last,
    by rw [hn, hg]; exact h.start, by rw [hn, hu]; exact h.usedMax, by rw [hn, hg]; exact h.len, ?_⟩
  · intro h0
    rw [hu, hc3, mul_assoc]; exact mul_pos hc1 (h.used (by rw [← hn]; exact h0))
  · intro h0
    rw [hc3]; exact abs_scale_le hc1 hc2 hm (h.hmax (by rw [← hn]; exact h0))
  · intro h0 ts ht
    rcases hts with hts | hts
    · rw [htn, hc3]
      have := h.stop (by rw [← hn]; exact h0) ts (by rw [← hts]; exact ht)
      have e : (s.e.tn - ts) * (c * s.c.hh) = c * ((s.e.tn - ts) * s.c.hh) := by ring
      rw [e]; exact mul_nonpos_of_nonneg_of_nonpos hc1.le this
    · rw [hts] at ht; cases ht
  · rw [hg, hc3]
    exact h.chain.imp (fun {a b} hab => by
      have e : (a.1 - b.1) * (c * s.c.hh) = c * ((a.1 - b.1) * s.c.hh) := by ring
      rw [e]; exact mul_pos hc1 hab)

/-- Facts about a new attempt. -/
theorem TryFrom.facts {cfg : Cfg ν n q K} {s0 : State ν n q K} {x : Att n K} (hm : 0 ≤ cfg.hmaxInv)
    (h0 : s0.c.hh ≠ 0) (hb : |s0.c.hh| * cfg.hmaxInv ≤ 1) (hw : Within s0.tstop s0.e.tn s0.c.hh) (h : TryFrom s0 x) :
    x.hh ≠ 0 ∧ x.tnew = x.t0 + x.hh ∧ |x.hh| * cfg.hmaxInv ≤ 1 ∧ ∀ ts, x.stop = some ts → (x.tnew - ts) * x.hh ≤ 0 := by
  obtain ⟨c, hc1, hc2, hc3⟩ := h.hh
  refine ⟨by rw [hc3]; exact mul_ne_zero hc1.ne' h0, h.tnew, by rw [hc3]; exact abs_scale_le hc1 hc2 hm hb, ?_⟩
  intro ts hts
  rw [h.tnew, h.t0, hc3]
  exact hw.scale hc1.le hc2 ts (by rw [← h.stop]; exact hts)

/-- A failed step preserves the invariant. -/
theorem ctlInv_fail {cfg : Cfg ν n q K} {s0 s' : State ν n q K} (hm : 0 ≤ cfg.hmaxInv) (h : CtlInv cfg s0)
    (h0 : s0.c.hh ≠ 0) (hb : |s0.c.hh| * cfg.hmaxInv ≤ 1) (hw : Within s0.tstop s0.e.tn s0.c.hh)
    (hL : CtlLoop s0 s') : CtlInv cfg s' := by
  obtain ⟨l, hl1, hl2⟩ := hL.atts
  have hu : 0 < s0.cnt.nst → s'.c.hused = s0.c.hused := by
    intro hp
    rw [hL.hused]; unfold firstStepInit; rw [if_neg (by omega)]
  obtain ⟨c, hc1, hc2, hc3⟩ := hL.hh
  refine ⟨?_, by rw [hL.cnt, hL.tn, hL.acc]; exact h.zero, ?_, ?_, ?_, by rw [hL.cnt, hL.acc, hL.tn]; exact h.last,
    by rw [hL.cnt, hL.acc]; exact h.start, by rw [hL.cnt]; exact fun hp => by rw [hu hp]; exact h.usedMax hp, by rw [hL.cnt, hL.acc]; exact h.len, ?_⟩
  · intro x hx
    rw [hl1] at hx
    rcases List.mem_append.1 hx with hx | hx
    · exact (hl2 x hx).1.facts hm h0 hb hw
    · exact h.atts x hx
  · intro hp
    rw [hL.cnt] at hp
    rw [hu hp, hc3, mul_assoc]; exact mul_pos hc1 (h.used hp)
  · intro hp
    rw [hL.cnt] at hp
    rw [hc3]; exact abs_scale_le hc1 hc2 hm (h.hmax hp)
  · intro hp ts hts
    rw [hL.cnt] at hp
    rw [hL.tstop] at hts
    rw [hL.tn, hc3]
    have e : (s0.e.tn - ts) * (c * s0.c.hh) = c * ((s0.e.tn - ts) * s0.c.hh) := by ring
    rw [e]; exact mul_nonpos_of_nonneg_of_nonpos hc1.le (h.stop hp ts hts)
  · rw [hL.acc, hc3]
    exact h.chain.imp (fun {a b} hab => by
      have e : (a.1 - b.1) * (c * s0.c.hh) = c * ((a.1 - b.1) * s0.c.hh) := by ring
      rw [e]; exact mul_pos hc1 hab)

/-- An accepted step preserves the invariant. -/
theorem ctlInv_done {cfg : Cfg ν n q K} {s0 s' : State ν n q K} (hm : 0 ≤ cfg.hmaxInv) (h : CtlInv cfg s0)
    (h0 : s0.c.hh ≠ 0) (hb : |s0.c.hh| * cfg.hmaxInv ≤ 1) (hw : Within s0.tstop s0.e.tn s0.c.hh)
    (hD : CtlDone cfg s0 s') : CtlInv cfg s' := by
  obtain ⟨x, l, hx, hT, -, htn, hus, ⟨y0, hacc⟩, ⟨d, hd1, hd2, hd3⟩, hhm, hl⟩ := hD.last
  have hd0 : 0 < d := lt_of_lt_of_le (by norm_num) hd1
  obtain ⟨hx0, hx1, hx2, hx3⟩ := hT.facts hm h0 hb hw
  obtain ⟨c, hc1, hc2, hc3⟩ := hT.hh
  have hpos : 0 < s'.cnt.nst := by rw [hD.nst]; omega
  refine ⟨?_, fun hz => by omega, fun _ => ?_, fun _ => hhm, fun _ ts hts => ?_, fun _ => ⟨_, _, by rw [hacc, htn]⟩,
    fun _ => ?_, fun _ => by rw [hus]; exact hx2, fun _ => ?_, ?_⟩
  · intro z hz
    rw [hx] at hz
    rcases List.mem_cons.1 hz with rfl | hz
    · exact ⟨hx0, hx1, hx2, hx3⟩
    · rcases List.mem_append.1 hz with hz | hz
      · exact (hl z hz).1.facts hm h0 hb hw
      · exact h.atts z hz
  · rw [hd3, hus, mul_assoc]; exact mul_pos hd0 (mul_self_pos.2 hx0)
  · rw [htn, hd3]
    have e : (x.tnew - ts) * (d * x.hh) = d * ((x.tnew - ts) * x.hh) := by ring
    rw [e]
    exact mul_nonpos_of_nonneg_of_nonpos hd0.le (hx3 ts (by rw [hT.stop, ← hD.tstop]; exact hts))
  · rw [hacc]
    by_cases hz : s0.cnt.nst = 0
    · rw [if_pos hz]
      exact ⟨y0, by simp [(h.zero hz).1]⟩
    · rw [if_neg hz]
      obtain ⟨y1, hy1⟩ := h.start (by omega)
      refine ⟨y1, ?_⟩
      rw [List.getLast?_cons, hy1]; rfl
  · rw [hacc, hD.nst]
    by_cases hz : s0.cnt.nst = 0
    · rw [if_pos hz, hz]; rfl
    · rw [if_neg hz, List.length_cons, h.len (by omega)]
  · have hxx : 0 < x.hh * s'.c.hh := by
      rw [hd3]
      have e : x.hh * (d * x.hh) = d * (x.hh * x.hh) := by ring
      rw [e]; exact mul_pos hd0 (mul_self_pos.2 hx0)
    rw [hacc]
    by_cases hz : s0.cnt.nst = 0
    · rw [if_pos hz]
      refine List.Pairwise.cons ?_ (List.pairwise_singleton _ _)
      intro b hb'
      rw [List.mem_singleton.1 hb']
      show 0 < (x.tnew - s0.e.tn) * s'.c.hh
      rw [hT.tnew, hT.t0, add_sub_cancel_left]; exact hxx
    · rw [if_neg hz]
      have hchain : s0.g.acc.Pairwise fun a b => 0 < (a.1 - b.1) * s'.c.hh :=
        h.chain.imp (fun {a b} hab => by
          rw [hd3, hc3]
          have e : (a.1 - b.1) * (d * (c * s0.c.hh)) = d * c * ((a.1 - b.1) * s0.c.hh) := by ring
          rw [e]; exact mul_pos (mul_pos hd0 hc1) hab)
      refine List.Pairwise.cons ?_ hchain
      obtain ⟨y, rest, hrest⟩ := h.last (by omega)
      have hfirst : 0 < (x.tnew - s0.e.tn) * s'.c.hh := by
        rw [hT.tnew, hT.t0, add_sub_cancel_left]; exact hxx
      intro b hb'
      show 0 < (x.tnew - b.1) * s'.c.hh
      rw [hrest] at hb' hchain
      rcases List.mem_cons.1 hb' with rfl | hb'
      · exact hfirst
      · have := (List.pairwise_cons.1 hchain).1 b hb'
        have e : (x.tnew - b.1) * s'.c.hh = (x.tnew - s0.e.tn) * s'.c.hh + (s0.e.tn - b.1) * s'.c.hh := by ring
        rw [e]; exact add_pos hfirst this

theorem CtlInv.of_first {cfg : Cfg ν n q K} {s s' : State ν n q K} (h : CtlInv cfg s) (hz : s.cnt.nst = 0)
    (hs : FirstSame s s') : CtlInv cfg s' := by
  have hn : s'.cnt.nst = 0 := by rw [hs.cnt]; exact hz
  obtain ⟨h1, h2⟩ := h.zero hz
  refine ⟨by rw [hs.g]; exact h.atts, fun _ => ⟨by rw [hs.tn]; exact h1, by rw [hs.g]; exact h2⟩, fun h => by omega,
    fun h => by omega, fun h => by omega, fun h => by omega, fun h => by omega, fun h => by omega, fun h => by omega, ?_⟩
  rw [hs.g, h2]; exact List.Pairwise.nil

theorem Frame.first {s s' : State ν n q K} (h : Frame s s') : FirstSame s s' := by
  refine ⟨h.cnt, h.g, by rw [h.e], h.tstop, Or.inr (by rw [h.c]), ?_, by rw [h.c], by rw [h.c], by rw [h.c], by rw [h.c],
    by rw [h.c], by rw [h.h], fun j _ => by rw [h.h]⟩
  have := congrArg Mem.ncfl h.m
  exact this

theorem CtlInv.of_frame {cfg : Cfg ν n q K} {s s' : State ν n q K} (hm : 0 ≤ cfg.hmaxInv) (h : CtlInv cfg s)
    (hs : Frame s s') : CtlInv cfg s' :=
  h.of_scale hm hs.g (by rw [hs.cnt]) (by rw [hs.e]) (by rw [hs.c]) (Or.inl hs.tstop)
    ⟨1, one_pos, le_refl _, by rw [hs.c, one_mul]⟩

/-- The state at the beginning of the first step. -/
theorem firstStep_start {cfg : Cfg ν n q K} {s s1 s2 : State ν n q K} {tout : K} (hm : 0 ≤ cfg.hmaxInv)
    (h : CtlInv cfg s) (hz : s.cnt.nst = 0) (h1 : firstCall cfg s tout = .ret s1 (.ok ()))
    (h2 : Frame (perfReset s1) s2) : CtlInv cfg s2 ∧ 0 < (tout - s2.e.tn) * s2.c.hh ∧ |s2.c.hh| * cfg.hmaxInv ≤ 1 ∧
      Within s2.tstop s2.e.tn s2.c.hh ∧ s2.cnt.nst = 0 ∧ s2.e.tn = s.e.tn := by
  obtain ⟨h3, h4, h5⟩ := firstCall_spec hm h1
  have hs := firstCall_same h1
  have e1 : s2.e.tn = s.e.tn := by rw [h2.e]; exact hs.tn
  refine ⟨?_, by rw [e1, h2.c]; exact h3, by rw [h2.c]; exact h4, by rw [h2.tstop, h2.e, h2.c]; exact h5, ?_, e1⟩
  · refine (h.of_first hz hs).of_scale hm (by rw [h2.g]; rfl) (by rw [h2.cnt]; rfl) (by rw [h2.e]; rfl) (by rw [h2.c]; rfl)
      (Or.inl (by rw [h2.tstop]; rfl)) ⟨1, one_pos, le_refl _, by rw [h2.c, one_mul]; rfl⟩
  · rw [h2.cnt]; show s1.cnt.nst = 0; rw [hs.cnt]; exact hz

theorem clamp_near {cfg : Cfg ν n q K} {s : State ν n q K} (h : CtlInv cfg s) (hn : 0 < s.cnt.nst) {ts : K}
    (hts : s.tstop = some ts) (hns : nearStop s ts = false) : 0 < (ts - s.e.tn) * s.c.hh := by
  have h1 := h.stop hn ts hts
  have h2 : s.c.hh ≠ 0 := left_ne_zero_of_mul (h.used hn).ne'
  have h3 : s.e.tn - ts ≠ 0 := by
    intro h0
    unfold nearStop at hns
    simp only [ex_le, ex_abs, h0, abs_zero, decide_eq_false_iff_not, not_le] at hns
    unfold stopRoundoff at hns
    simp only [ex_hundred, ex_eps, ex_abs] at hns
    have h4 := EpsLaws.eps_pos (K := K)
    have : 0 ≤ 100 * ExactParams.eps * (|s.e.tn| + |s.c.hh|) :=
      mul_nonneg (by linarith) (add_nonneg (abs_nonneg _) (abs_nonneg _))
    exact absurd hns (not_lt.2 this)
  have h5 : (s.e.tn - ts) * s.c.hh < 0 := lt_of_le_of_ne h1 (mul_ne_zero h3 h2)
  have e : (ts - s.e.tn) * s.c.hh = -((s.e.tn - ts) * s.c.hh) := by ring
  rw [e]; linarith

theorem ctlInv_micro {cfg : Cfg ν n q K} (hl : NlsLegal cfg) (hm : 0 ≤ cfg.hmaxInv) {s s' : State ν n q K}
    (h : CtlInv cfg s) (hM : Micro cfg s s') : CtlInv cfg s' := by
  have one : ∃ c : K, 0 < c ∧ c ≤ 1 ∧ s.c.hh = c * s.c.hh := ⟨1, one_pos, le_refl _, by rw [one_mul]⟩
  cases hM with
  | frame hf => exact h.of_frame hm hf
  | perf => exact h.of_scale hm rfl rfl rfl rfl (Or.inl rfl) one
  | clear => exact h.of_scale hm rfl rfl rfl rfl (Or.inr rfl) one
  | clamp ts h1 h2 h3 =>
    have hs := clampToStop_same s ts
    exact h.of_scale hm hs.g (by rw [hs.cnt]) hs.tn hs.hused (Or.inl hs.tstop) (clamp_spec (clamp_near h h1 h2 h3))
  | ewt h1 => exact h.of_scale hm rfl rfl rfl rfl (Or.inl rfl) one
  | first tout r h1 h2 => exact h.of_first h1 (firstCall_same h2)
  | firstStep tout h1 h2 h3 h4 =>
    obtain ⟨g1, g2, g3, g4, -, -⟩ := firstStep_start hm h h1 h2 h3
    rcases step_ctl hl hm g3 g4 h4 with ⟨-, hD⟩ | ⟨e, he, -⟩
    · exact ctlInv_done hm g1 (right_ne_zero_of_mul g2.ne') g3 g4 hD
    · cases he
  | step h1 h2 h3 =>
    rcases step_ctl hl hm (h.hmax h1) h2.within h3 with ⟨-, hD⟩ | ⟨e, he, -⟩
    · exact ctlInv_done hm h (left_ne_zero_of_mul (h.used h1).ne') (h.hmax h1) h2.within hD
    · cases he

theorem ctlInv_microFail {cfg : Cfg ν n q K} (hl : NlsLegal cfg) (hm : 0 ≤ cfg.hmaxInv) {s s' : State ν n q K}
    {e : Err} (h : CtlInv cfg s) (hM : MicroFail cfg s e s') : CtlInv cfg s' := by
  cases hM with
  | firstStep tout e h1 h2 h3 h4 =>
    obtain ⟨g1, g2, g3, g4, -, -⟩ := firstStep_start hm h h1 h2 h3
    rcases step_ctl hl hm g3 g4 h4 with ⟨he, -⟩ | ⟨e, -, hL⟩
    · cases he
    · exact ctlInv_fail hm g1 (right_ne_zero_of_mul g2.ne') g3 g4 hL
  | step e h1 h2 h3 =>
    rcases step_ctl hl hm (h.hmax h1) h2.within h3 with ⟨he, -⟩ | ⟨e, -, hL⟩
    · cases he
    · exact ctlInv_fail hm h (left_ne_zero_of_mul (h.used h1).ne') (h.hmax h1) h2.within hL

theorem ctlInv_new (cfg : Cfg ν n q K) (nls0 : ν) (yy0 yp0 : Vec n K) (tstop : Option K) :
    CtlInv cfg { State.new nls0 yy0 yp0 with tstop := tstop } :=
  ⟨(fun x hx => by cases hx), (fun _ => ⟨rfl, rfl⟩), (fun h => by cases h), (fun h => by cases h), (fun h => by cases h),
    (fun h => by cases h), (fun h => by cases h), (fun h => by cases h), (fun h => by cases h), List.Pairwise.nil⟩

theorem Reach.ctl {cfg : Cfg ν n q K} (hl : NlsLegal cfg) (hm : 0 ≤ cfg.hmaxInv) {s : State ν n q K}
    (h : Reach cfg s) : CtlInv cfg s :=
  h.inv (CtlInv cfg) (ctlInv_new cfg) (fun _ _ h1 h2 => ctlInv_micro hl hm h1 h2)
    (fun _ _ _ h1 h2 => ctlInv_microFail hl hm h1 h2)

/-! ## Direction -/

/-- From `s` to `s'` the direction is kept, and the accepted points are extended. -/
structure Onward (s s' : State ν n q K) : Prop where
  nst : 0 < s'.cnt.nst
  dir : 0 < s.c.hh * s'.c.hh
  acc : ∃ l, s'.g.acc = l ++ s.g.acc

theorem Onward.trans {a b c : State ν n q K} (hb : b.c.hh ≠ 0) (h : Onward a b) (h' : Onward b c) : Onward a c := by
  obtain ⟨l, hl⟩ := h.acc
  obtain ⟨l', hl'⟩ := h'.acc
  refine ⟨h'.nst, ?_, l' ++ l, by rw [hl', hl, List.append_assoc]⟩
  have h1 := mul_pos h.dir h'.dir
  have e : a.c.hh * b.c.hh * (b.c.hh * c.c.hh) = a.c.hh * c.c.hh * (b.c.hh * b.c.hh) := by ring
  rw [e] at h1
  exact pos_left_of_mul_pos h1 (mul_self_nonneg _)

theorem onward_scale {s s' : State ν n q K} (h0 : s.c.hh ≠ 0) (hn : 0 < s.cnt.nst) (hg : s'.g = s.g)
    (hn' : s'.cnt.nst = s.cnt.nst) (hh : ∃ c, 0 < c ∧ c ≤ 1 ∧ s'.c.hh = c * s.c.hh) : Onward s s' := by
  obtain ⟨c, hc1, hc2, hc3⟩ := hh
  refine ⟨by rw [hn']; exact hn, ?_, [], by rw [hg]; rfl⟩
  rw [hc3]
  have e : s.c.hh * (c * s.c.hh) = c * (s.c.hh * s.c.hh) := by ring
  rw [e]; exact mul_pos hc1 (mul_self_pos.2 h0)

theorem onward_done {cfg : Cfg ν n q K} {s0 s' : State ν n q K} (h0 : s0.c.hh ≠ 0) (hD : CtlDone cfg s0 s') :
    0 < s'.cnt.nst ∧ 0 < s0.c.hh * s'.c.hh ∧ (0 < s0.cnt.nst → Onward s0 s') := by
  obtain ⟨x, l, hx, hT, -, htn, hus, ⟨y0, hacc⟩, ⟨d, hd1, hd2, hd3⟩, hhm, hl⟩ := hD.last
  obtain ⟨c, hc1, hc2, hc3⟩ := hT.hh
  have h1 : 0 < s'.cnt.nst := by rw [hD.nst]; omega
  have h2 : 0 < s0.c.hh * s'.c.hh := by
    rw [hd3, hc3]
    have e : s0.c.hh * (d * (c * s0.c.hh)) = d * c * (s0.c.hh * s0.c.hh) := by ring
    rw [e]; exact mul_pos (mul_pos (lt_of_lt_of_le (by norm_num) hd1) hc1) (mul_self_pos.2 h0)
  refine ⟨h1, h2, fun hp => ⟨h1, h2, [(x.tnew, x.yy)], ?_⟩⟩
  rw [hacc, if_neg (by omega)]; rfl

theorem onward_micro {cfg : Cfg ν n q K} (hl : NlsLegal cfg) (hm : 0 ≤ cfg.hmaxInv) {s s' : State ν n q K}
    (h : CtlInv cfg s) (hn : 0 < s.cnt.nst) (hM : Micro cfg s s') : Onward s s' := by
  have one : ∃ c : K, 0 < c ∧ c ≤ 1 ∧ s.c.hh = c * s.c.hh := ⟨1, one_pos, le_refl _, by rw [one_mul]⟩
  have h0 : s.c.hh ≠ 0 := left_ne_zero_of_mul (h.used hn).ne'
  cases hM with
  | frame hf => exact onward_scale h0 hn hf.g (by rw [hf.cnt]) (by rw [hf.c]; exact one)
  | perf => exact onward_scale h0 hn rfl rfl one
  | clear => exact onward_scale h0 hn rfl rfl one
  | clamp ts h1 h2 h3 =>
    have hs := clampToStop_same s ts
    exact onward_scale h0 hn hs.g (by rw [hs.cnt]) (clamp_spec (clamp_near h h1 h2 h3))
  | ewt h1 => exact onward_scale h0 hn rfl rfl one
  | first tout r h1 h2 => omega
  | firstStep tout h1 h2 h3 h4 => omega
  | step h1 h2 h3 =>
    rcases step_ctl hl hm (h.hmax h1) h2.within h3 with ⟨-, hD⟩ | ⟨e, he, -⟩
    · exact (onward_done h0 hD).2.2 hn
    · cases he

theorem onward_micros {cfg : Cfg ν n q K} (hl : NlsLegal cfg) (hm : 0 ≤ cfg.hmaxInv) {s s' : State ν n q K}
    (h : CtlInv cfg s) (hn : 0 < s.cnt.nst) (hM : Micros cfg s s') : CtlInv cfg s' ∧ Onward s s' := by
  have h0 : s.c.hh ≠ 0 := left_ne_zero_of_mul (h.used hn).ne'
  induction hM with
  | refl => exact ⟨h, onward_scale h0 hn rfl rfl ⟨1, one_pos, le_refl _, by rw [one_mul]⟩⟩
  | tail _ h2 ih =>
    obtain ⟨i1, i2⟩ := ih
    exact ⟨ctlInv_micro hl hm i1 h2,
      i2.trans (left_ne_zero_of_mul (i1.used i2.nst).ne') (onward_micro hl hm i1 i2.nst h2)⟩

theorem onward_microFail {cfg : Cfg ν n q K} (hl : NlsLegal cfg) (hm : 0 ≤ cfg.hmaxInv) {s s' : State ν n q K}
    {e : Err} (h : CtlInv cfg s) (hn : 0 < s.cnt.nst) (hM : MicroFail cfg s e s') : Onward s s' ∧ s'.e.tn = s.e.tn := by
  have h0 : s.c.hh ≠ 0 := left_ne_zero_of_mul (h.used hn).ne'
  cases hM with
  | firstStep tout e h1 h2 h3 h4 => omega
  | step e h1 h2 h3 =>
    rcases step_ctl hl hm (h.hmax h1) h2.within h3 with ⟨he, -⟩ | ⟨e, -, hL⟩
    · cases he
    · obtain ⟨c, hc1, hc2, hc3⟩ := hL.hh
      refine ⟨⟨by rw [hL.cnt]; exact hn, ?_, [], by rw [hL.acc]; rfl⟩, hL.tn⟩
      rw [hc3]
      have e : s.c.hh * (c * s.c.hh) = c * (s.c.hh * s.c.hh) := by ring
      rw [e]; exact mul_pos hc1 (mul_self_pos.2 h0)

theorem onward_ends {cfg : Cfg ν n q K} (hl : NlsLegal cfg) (hm : 0 ≤ cfg.hmaxInv) {s s' : State ν n q K}
    (h : CtlInv cfg s) (hn : 0 < s.cnt.nst) {α : Type} {r : Except Err α} (hE : Ends cfg s s' r) : Onward s s' := by
  cases hE with
  | clean h1 _ => exact (onward_micros hl hm h hn h1).2
  | failed s1 s2 e h1 h2 h3 _ =>
    obtain ⟨i1, i2⟩ := onward_micros hl hm h hn h1
    have h4 := (onward_microFail hl hm i1 i2.nst h2).1
    have i3 := ctlInv_microFail hl hm i1 h2
    have h5 := i2.trans (left_ne_zero_of_mul (i1.used i2.nst).ne') h4
    exact h5.trans (left_ne_zero_of_mul (i3.used h5.nst).ne') (onward_micro hl hm i3 h5.nst (.frame h3))

/-- A call made when at least one step has been accepted keeps the direction. -/
theorem exec_onward {cfg : Cfg ν n q K} (hl : NlsLegal cfg) (hm : 0 ≤ cfg.hmaxInv) {rf sf : Nat}
    {s s' : State ν n q K} {op : Op K} {r : Res n K} (hr : Reach cfg s) (hn : 0 < s.cnt.nst)
    (h : exec cfg rf sf s op = some (s', r)) : Onward s s' := by
  rcases exec_ends h with ⟨r', -, hend⟩ | ⟨-, hmic⟩
  · exact onward_ends hl hm (hr.ctl hl hm) hn hend
  · exact (onward_micros hl hm (hr.ctl hl hm) hn hmic).2

/-- The call that accepts the first step fixes the direction. -/
theorem solve_direction {cfg : Cfg ν n q K} (hl : NlsLegal cfg) (hm : 0 ≤ cfg.hmaxInv) {rf sf : Nat}
    {s s' : State ν n q K} {tout : K} {task : Task} {r : Except Err Status} (hC : CtlInv cfg s)
    (hn : s.cnt.nst = 0) (hn' : 0 < s'.cnt.nst) (h : solve cfg rf sf s tout task = .ret s' r) :
    0 < (tout - s.e.tn) * s'.c.hh := by
  obtain ⟨s0, hf, -, hfe⟩ := solve_first hn h
  have hC0 := hC.of_frame hm hf
  have hz : s0.cnt.nst = 0 := by rw [hf.cnt]; exact hn
  have htn : s0.e.tn = s.e.tn := by rw [hf.e]
  have hbad : ∀ s1 : State ν n q K, s1.cnt.nst = 0 → s'.cnt.nst = s1.cnt.nst → False := by
    intro s1 h1 h2; omega
  cases hfe with
  | rejected e h1 _ => exact (hbad s0 hz (by rw [firstCall_cnt h1])).elim
  | noStep s1 e h1 h2 _ _ _ => exact (hbad s0 hz (by rw [h2.cnt]; show s1.cnt.nst = _; rw [firstCall_cnt h1])).elim
  | failed s1 s2 s3 e h1 h2 h3 h4 _ =>
    obtain ⟨g1, g2, g3, g4, g5, g6⟩ := firstStep_start hm hC0 hz h1 h2
    rcases step_ctl hl hm g3 g4 h3 with ⟨he, -⟩ | ⟨e, -, hL⟩
    · cases he
    · exact (hbad s2 g5 (by rw [h4.cnt, hL.cnt])).elim
  | stepped s1 s2 s3 h1 h2 h3 h4 =>
    obtain ⟨g1, g2, g3, g4, g5, g6⟩ := firstStep_start hm hC0 hz h1 h2
    have hne := right_ne_zero_of_mul g2.ne'
    rcases step_ctl hl hm g3 g4 h3 with ⟨-, hD⟩ | ⟨e, he, -⟩
    · obtain ⟨d1, d2, -⟩ := onward_done hne hD
      have hC3 := ctlInv_done hm g1 hne g3 g4 hD
      have hon := onward_ends hl hm hC3 d1 h4
      have h5 := mul_pos (mul_pos g2 d2) hon.dir
      rw [g6, htn] at h5
      have e : (tout - s.e.tn) * s2.c.hh * (s2.c.hh * s3.c.hh) * (s3.c.hh * s'.c.hh) =
        (tout - s.e.tn) * s'.c.hh * ((s2.c.hh * s3.c.hh) * (s2.c.hh * s3.c.hh)) := by ring
      rw [e] at h5
      exact pos_left_of_mul_pos h5 (mul_self_nonneg _)
    · cases he

end

end Verif
