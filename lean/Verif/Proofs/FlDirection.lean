import Verif.Proofs.FlControl

/-! # The control invariant in floating-point arithmetic -/

set_option autoImplicit false
set_option linter.unusedSectionVars false
set_option linter.unusedSimpArgs false
set_option linter.unusedVariables false

namespace Verif.FlControl

open Verif Relation Verif.Spec

universe u v w

section
variable {ν : Type w} {n q : Nat} {F : Type u} {K : Type v} [Scalar F] [Field K] [LinearOrder K] [IsStrictOrderedRing K]
  [S : Correct F K]

local prefix:max "♯" => StdModel.val (F := F) (K := K)
local notation "μ" => (StdModel.u (F := F) (K := K))

/-! ## One step -/

/-- `x` is an attempt made by a step that starts in `s0`. -/
structure TryFrom (s0 : State ν n q F) (x : Att n F) : Prop where
  t0 : x.t0 = s0.e.tn
  tnew : x.tnew = x.t0 + x.hh
  stop : x.stop = s0.tstop
  hh : Shrunk ♯x.hh ♯s0.c.hh

/-- Invariant of the attempt loop of a step that starts in `s0`. -/
structure CtlLoop (s0 s : State ν n q F) : Prop where
  tn : s.e.tn = s0.e.tn
  tstop : s.tstop = s0.tstop
  cnt : s.cnt.nst = s0.cnt.nst
  hused : s.c.hused = (firstStepInit s0).c.hused
  acc : s.g.acc = s0.g.acc
  hh : Shrunk ♯s.c.hh ♯s0.c.hh
  atts : ∃ l, s.g.atts = l ++ s0.g.atts ∧ ∀ x ∈ l, TryFrom (K := K) s0 x ∧ x.out ≠ .accepted

theorem CtlLoop.within {s0 s : State ν n q F} (h : CtlLoop (K := K) s0 s) (hw : Within (K := K) s0.tstop s0.e.tn s0.c.hh) :
    Within (K := K) s.tstop s.e.tn s.c.hh := by
  rw [h.tstop, h.tn]
  exact hw.scale h.hh

theorem ctlLoop_init (s0 : State ν n q F) (h0 : ♯s0.c.hh ≠ 0) : CtlLoop (K := K) s0 (firstStepInit s0) := by
  have hi := firstStepInit_cnt s0
  exact ⟨hi.2.2.1, hi.2.2.2.1, by rw [hi.1], rfl, by rw [hi.2.1], by rw [hi.2.2.2.2.1]; exact .refl h0,
    [], by rw [hi.2.1]; rfl, by simp⟩

theorem ctlLoop_handled {cfg : Cfg ν n q F} {s0 s s5 s6 : State ν n q F} {err : Err} {a b : F} {f f' : Fails}
    {r : Except Err Unit} (hw : Within (K := K) s0.tstop s0.e.tn s0.c.hh) (hI : CtlLoop (K := K) s0 s)
    (hR : Restored cfg s0.e.tn s s5 err) (hH : Handled cfg s5 a b f err s6 f' r) : CtlLoop (K := K) s0 s6 := by
  obtain ⟨-, -, c3, c4, -, -, c7, c8, -, c10, -⟩ := handled_ctl hH
  obtain ⟨ee, hg⟩ := hR.ghost
  have h5 : s5.c.hh = s.c.hh := by rw [hR.c]
  have hd := handled_hh (K := K) hR.legal (by rw [h5]; exact hI.hh.ne) hH
  obtain ⟨l, hl1, hl2⟩ := hI.atts
  refine ⟨by rw [c7, hR.tn], by rw [c10, hR.tstop, hI.tstop], by rw [c3, hR.cnt, hI.cnt],
    by rw [c4, hR.c]; exact hI.hused, by rw [c8, hg]; exact hI.acc, ?_,
    _ :: l, by rw [c8, hg, hl1]; rfl, ?_⟩
  · rw [h5] at hd
    exact hd.trans hI.hh
  · intro x hx
    rcases List.mem_cons.1 hx with rfl | hx
    · refine ⟨⟨rfl, ?_, hI.tstop, hI.hh⟩, ?_⟩
      · show newTime s = s0.e.tn + s.c.hh
        rw [newTime_within (hI.within hw), hI.tn]
      · show (if _ then AttOut.testFail else _) ≠ _
        split <;> simp
    · exact hl2 x hx

theorem CtlLoop.of_reset {s0 s : State ν n q F} (h : CtlLoop (K := K) s0 s) (p : Prop) [Decidable p] :
    CtlLoop (K := K) s0 (if p then reset s else s) := by
  obtain ⟨e1, e2, e3, e4, -, e6, -⟩ := ite_reset_ctl s p
  exact ⟨by rw [e3]; exact h.tn, by rw [e6]; exact h.tstop, by rw [e2]; exact h.cnt, by rw [e1]; exact h.hused,
    by rw [e4]; exact h.acc, by rw [e1]; exact h.hh, by rw [e4]; exact h.atts⟩

/-- The result of a successful step that starts in `s0`. -/
structure CtlDone (cfg : Cfg ν n q F) (s0 s' : State ν n q F) : Prop where
  tstop : s'.tstop = s0.tstop
  nst : s'.cnt.nst = s0.cnt.nst + 1
  last : ∃ x l, s'.g.atts = x :: (l ++ s0.g.atts) ∧ TryFrom (K := K) s0 x ∧ x.out = .accepted ∧ s'.e.tn = x.tnew ∧
    s'.c.hused = x.hh ∧
    (∃ y0, s'.g.acc = (x.tnew, x.yy) :: (if s0.cnt.nst = 0 then [(s0.e.tn, y0)] else s0.g.acc)) ∧
    NextSize (K := K) cfg x.hh s'.c.hh ∧ ∀ x ∈ l, TryFrom (K := K) s0 x ∧ x.out ≠ .accepted

theorem shrunk_bound {x y m b : K} (h : Shrunk x y) (hm : 0 ≤ m) (hb : |y| * m ≤ b) : |x| * m ≤ b :=
  (mul_le_mul_of_nonneg_right h.le hm).trans hb

theorem ctlLoop_done {cfg : Cfg ν n q F} {s0 s s1 s' : State ν n q F} {f : Fails} {ck a b : F}
    (hm : 0 ≤ ♯cfg.hmaxInv) (hb : |♯s0.c.hh| * ♯cfg.hmaxInv ≤ hbound F) (hw : Within (K := K) s0.tstop s0.e.tn s0.c.hh)
    (hI : CtlLoop (K := K) s0 s) (h : attempt cfg s0.e.tn s f = .done s1 ck a b) (hc : completeStep cfg s1 a b = some s') :
    CtlDone (K := K) cfg s0 s' := by
  obtain ⟨s3, h3, -, -, -, -, rfl⟩ := attempt_done h
  have hC := completeStep_eq hc
  obtain ⟨l, hl1, hl2⟩ := hI.atts
  have h3hh : s3.c.hh = s.c.hh := by rw [h3.c]
  have hd := completeStep_hh (K := K) hm (s := (s3.note s0.e.tn (errCoef s) .accepted).noteAcc s0.e.tn)
    (by show ♯s3.c.hh ≠ 0; rw [h3hh]; exact hI.hh.ne)
    (by show |♯s3.c.hh| * _ ≤ _; rw [h3hh]; exact shrunk_bound hI.hh hm hb) hc
  have hd' : NextSize (K := K) cfg s.c.hh s'.c.hh := by rw [← h3hh]; exact hd
  have hg := hC.g.trans (done_ghost h3)
  refine ⟨by rw [hC.tstop]; show s3.tstop = _; rw [h3.tstop, hI.tstop], ?_,
    attRec s s0.e.tn s3.ee .accepted, l, by rw [hg, hl1], ⟨rfl, ?_, hI.tstop, hI.hh⟩, rfl, ?_, ?_, ?_, hd', hl2⟩
  · rw [hC.nst]; show s3.cnt.nst + 1 = _; rw [h3.cnt, hI.cnt]
  · show newTime s = s0.e.tn + s.c.hh
    rw [newTime_within (hI.within hw), hI.tn]
  · rw [hC.e]; show s3.e.tn = _; rw [h3.e]; rfl
  · rw [hC.hused]; exact h3hh
  · refine ⟨(coefHist s).phi 0, ?_⟩
    rw [hg, hI.acc, hI.cnt]; rfl

theorem step_ctl {cfg : Cfg ν n q F} {s0 s' : State ν n q F} {r : Except Err Unit} (hl : NlsLegal cfg)
    (hm : 0 ≤ ♯cfg.hmaxInv) (h0 : ♯s0.c.hh ≠ 0) (hb : |♯s0.c.hh| * ♯cfg.hmaxInv ≤ hbound F)
    (hw : Within (K := K) s0.tstop s0.e.tn s0.c.hh) (h : step cfg s0 = .ret s' r) :
    (r = .ok () ∧ CtlDone (K := K) cfg s0 s') ∨ (∃ e, r = .error e ∧ CtlLoop (K := K) s0 s') :=
  step_rule (cfg := cfg) (fun s _ => CtlLoop (K := K) s0 s) (CtlDone (K := K) cfg s0) (fun s _ => CtlLoop (K := K) s0 s)
    (ctlLoop_init s0 h0)
    (fun s1 f s' f' hI h => by
      obtain ⟨err, a, b, s5, s6, hR, hH, rfl⟩ := attempt_again' hl h
      exact (ctlLoop_handled hw hI hR hH).of_reset _)
    (fun s1 f s2 ck a b s' hI h hc => by
      have := ctlLoop_done hm hb hw hI h hc
      exact ⟨this.tstop, this.nst, this.last⟩)
    (fun s1 f s' e hI h => by
      obtain ⟨err, a, b, f', s5, hR, hH⟩ := attempt_fail' hl h
      exact ctlLoop_handled hw hI hR hH) h

/-! ## The first call -/

theorem lt_false {a b : F} : Scalar.lt a b = false ↔ ♯b ≤ ♯a := by
  rw [← not_lt, ← StdModel.lt_iff, Bool.not_eq_true]

theorem le_false {a b : F} : Scalar.le a b = false ↔ ♯b < ♯a := by
  rw [← not_le, ← StdModel.le_iff, Bool.not_eq_true]

theorem sub_mul_pos (a b h : F) : 0 < ♯((a - b) * h) ↔ 0 < (♯a - ♯b) * ♯h := by
  have := gt_sign (K := K) a b h
  rw [show Scalar.gt ((a - b) * h) 0 = Scalar.lt 0 ((a - b) * h) from rfl, StdModel.lt_iff (K := K), StdModel.val_zero] at this
  exact this

theorem sub_mul_nonneg (a b h : F) (hs : 0 ≤ ♯((a - b) * h)) : 0 ≤ (♯a - ♯b) * ♯h := by
  obtain ⟨c, hc, -, e1⟩ := sub_sign (K := K) a b
  obtain ⟨d, hd, -, -, e2⟩ := mul_sign (K := K) (a - b) h
  by_contra hn
  rw [e2, e1] at hs
  have : (♯a - ♯b) * c * ♯h * d = (♯a - ♯b) * ♯h * (c * d) := by ring
  rw [this] at hs
  have := mul_neg_of_neg_of_pos (not_le.1 hn) (mul_pos hc hd)
  linarith

theorem firstStepSize_spec {cfg : Cfg ν n q F} {s : State ν n q F} {tout : F} (hm : 0 ≤ ♯cfg.hmaxInv)
    (h1 : tooClose s tout = false) (h2 : wrongWay cfg s tout = false) {hh : F}
    (hh1 : hh = firstStepSize cfg s tout (Scalar.abs (tout - s.e.tn))) :
    0 < (♯tout - ♯s.e.tn) * ♯hh ∧ |♯hh| * ♯cfg.hmaxInv ≤ hbound F := by
  have hd0 : ♯(tout - s.e.tn) ≠ 0 := by
    unfold tooClose at h1
    simp only [Bool.or_eq_false_iff] at h1
    intro h0
    have : Scalar.eqb (Scalar.abs (tout - s.e.tn)) 0 = true := by
      rw [StdModel.eq_iff (K := K), StdModel.val_abs, StdModel.val_zero, h0, abs_zero]
    rw [this] at h1
    cases h1.1
  have hd : ♯tout - ♯s.e.tn ≠ 0 := by
    obtain ⟨c, hc, -, e1⟩ := sub_sign (K := K) tout s.e.tn
    intro h0
    rw [e1, h0, zero_mul] at hd0
    exact hd0 rfl
  have key : ∀ x : F, 0 < (♯tout - ♯s.e.tn) * ♯x →
      0 < (♯tout - ♯s.e.tn) * ♯(if Scalar.gt (Scalar.abs x * cfg.hmaxInv) 1 then x / (Scalar.abs x * cfg.hmaxInv) else x) ∧
      |♯(if Scalar.gt (Scalar.abs x * cfg.hmaxInv) 1 then x / (Scalar.abs x * cfg.hmaxInv) else x)| * ♯cfg.hmaxInv
        ≤ hbound F := by
    intro x hx
    obtain ⟨k1, k2, -, -⟩ := limited (K := K) hm (right_ne_zero_of_mul hx.ne')
      (y := if Scalar.gt (Scalar.abs x * cfg.hmaxInv) 1 then x / (Scalar.abs x * cfg.hmaxInv) else x) rfl
    exact ⟨pos_dir hx (by rw [mul_comm]; exact k1), k2⟩
  rw [hh1]
  unfold firstStepSize
  simp only
  apply key
  split
  · unfold autoStep
    simp only
    have hpos : ∀ a b : F, 0 < ♯a → 0 < ♯(if Scalar.gt b (Scalar.two / a) then Scalar.half / b else a) := by
      intro a b ha
      by_cases hb : Scalar.gt b (Scalar.two / a) = true
      · rw [if_pos hb]
        have hb' : Scalar.lt (Scalar.two / a) b = true := hb
        rw [StdModel.lt_iff (K := K)] at hb'
        obtain ⟨d, hd, e⟩ := StdModel.val_div (K := K) Scalar.two a ha.ne'
        have h2 : 0 < ♯(Scalar.two / a) := by
          rw [e, Correct.val_two]; exact mul_pos (div_pos two_pos ha) (fac hd).2.2
        have hb0 : 0 < ♯b := by linarith
        obtain ⟨d, hd, e⟩ := StdModel.val_div (K := K) Scalar.half b hb0.ne'
        rw [e, Correct.val_half]
        exact mul_pos (div_pos (by norm_num) hb0) (fac hd).2.2
      · rw [if_neg hb]; exact ha
    have hx := hpos (Scalar.pt001 * Scalar.abs (tout - s.e.tn)) (wrmsNorm cfg.id (s.h.phi 1) s.e.ewt cfg.suppressalg)
      (by
        obtain ⟨c, hc, -, -, e⟩ := mul_sign (K := K) (Scalar.pt001 : F) (Scalar.abs (tout - s.e.tn))
        rw [e, StdModel.val_abs]
        exact mul_pos (mul_pos Correct.pt001_pos (abs_pos.2 hd0)) hc)
    generalize (if Scalar.gt (wrmsNorm cfg.id (s.h.phi 1) s.e.ewt cfg.suppressalg)
      (Scalar.two / (Scalar.pt001 * Scalar.abs (tout - s.e.tn))) then
      Scalar.half / wrmsNorm cfg.id (s.h.phi 1) s.e.ewt cfg.suppressalg else
      Scalar.pt001 * Scalar.abs (tout - s.e.tn) : F) = x at hx
    by_cases hl : Scalar.lt tout s.e.tn = true
    · rw [if_pos hl]
      rw [StdModel.lt_iff (K := K)] at hl
      rw [StdModel.val_neg]
      exact mul_pos_of_neg_of_neg (by linarith) (by linarith)
    · rw [if_neg hl]
      rw [StdModel.lt_iff (K := K), not_lt] at hl
      exact mul_pos (lt_of_le_of_ne (by linarith) (Ne.symm hd)) hx
  · rename_i hin
    have hin' : ♯cfg.hin ≠ 0 := by
      intro h0
      exact hin (by rw [StdModel.eq_iff (K := K), h0, StdModel.val_zero])
    unfold wrongWay at h2
    rw [Bool.and_eq_false_iff] at h2
    rcases h2 with h2 | h2
    · have : Scalar.eqb cfg.hin 0 = true := by simpa [Scalar.neb] using h2
      exact absurd this hin
    · have h3 : ♯(0 : F) ≤ ♯((tout - s.e.tn) * cfg.hin) := lt_false.1 h2
      rw [StdModel.val_zero] at h3
      exact lt_of_le_of_ne (sub_mul_nonneg _ _ _ h3) (Ne.symm (mul_ne_zero hd hin'))

/-- Limiting the step by a stop time that is strictly ahead. -/
theorem clamp_spec {s : State ν n q F} {ts : F} (h : 0 < (♯ts - ♯s.e.tn) * ♯s.c.hh) :
    Shrunk ♯(clampToStop s ts).c.hh ♯s.c.hh := by
  unfold clampToStop
  split
  · rename_i hc
    have hc' := (gt_sign (K := K) _ _ _).1 hc
    have h0 : ♯s.c.hh ≠ 0 := right_ne_zero_of_mul h.ne'
    have hs := clamped (K := K) ts s.e.tn (left_ne_zero_of_mul h.ne')
    refine hs.trans ⟨h, ?_⟩
    rcases lt_or_gt_of_ne h0 with hn | hp
    · have h1 : ♯ts - ♯s.e.tn < 0 := by
        by_contra hx
        have := mul_nonpos_of_nonneg_of_nonpos (not_lt.1 hx) hn.le
        linarith
      rw [abs_of_neg h1, abs_of_neg hn]
      by_contra hx
      have h2 : ♯ts ≤ ♯(s.e.tn + s.c.hh) := by
        rw [Correct.add_rd]; exact le_rd (by linarith [not_le.1 hx])
      have := mul_nonpos_of_nonneg_of_nonpos (by linarith : 0 ≤ ♯(s.e.tn + s.c.hh) - ♯ts) hn.le
      linarith
    · have h1 : 0 < ♯ts - ♯s.e.tn := by
        by_contra hx
        have := mul_nonpos_of_nonpos_of_nonneg (not_lt.1 hx) hp.le
        linarith
      rw [abs_of_pos h1, abs_of_pos hp]
      by_contra hx
      have h2 : ♯(s.e.tn + s.c.hh) ≤ ♯ts := by
        rw [Correct.add_rd]; exact rd_le (by linarith [not_le.1 hx])
      have := mul_nonpos_of_nonpos_of_nonneg (by linarith : ♯(s.e.tn + s.c.hh) - ♯ts ≤ 0) hp.le
      linarith
  · exact .refl (right_ne_zero_of_mul h.ne')

theorem firstReady_hh (cfg : Cfg ν n q F) (s : State ν n q F) : (firstReady cfg s).c.hh = s.c.hh := by
  unfold firstReady
  simp only
  split
  · show (rCheck1 cfg _).c.hh = _
    rw [(rCheck1_same cfg _).2.1]
  · rfl

theorem firstCall_spec {cfg : Cfg ν n q F} {s s' : State ν n q F} {tout : F} (hm : 0 ≤ ♯cfg.hmaxInv)
    (h : firstCall cfg s tout = .ret s' (.ok ())) :
    0 < (♯tout - ♯s.e.tn) * ♯s'.c.hh ∧ |♯s'.c.hh| * ♯cfg.hmaxInv ≤ hbound F ∧
      Within (K := K) s'.tstop s'.e.tn s'.c.hh := by
  have hsame := firstCall_same h
  rcases firstCall_cases h with ⟨-, -, h⟩ | ⟨-, -, h⟩ | ⟨hh, hh1, h1, h2, ⟨-, -, h⟩ | ⟨s1, hs1, h, -⟩⟩
  · cases h
  · cases h
  · cases h
  have htn : (initialSetup cfg s).e.tn = s.e.tn := (initialSetup_same cfg s).tn
  obtain ⟨h3, h4⟩ := firstStepSize_spec (K := K) hm h1 h2 hh1
  rw [htn] at h3
  have hhh : s'.c.hh = s1.c.hh := by rw [h]; exact firstReady_hh cfg s1
  have hts' : s'.tstop = s1.tstop := by rw [h]; exact (firstReady_same cfg s1).tstop
  have htn' : s'.e.tn = s1.e.tn := by rw [h]; exact (firstReady_same cfg s1).tn
  rw [hhh, hts', htn']
  unfold firstStop at hs1
  split at hs1
  · rename_i ts hts
    split at hs1
    · cases hs1
    · rename_i hneg
      rw [Bool.not_eq_true, le_false (K := K), StdModel.val_zero] at hneg
      have hneg' := (sub_mul_pos (K := K) _ _ _).1 hneg
      cases hs1
      have hc := clamp_spec (K := K) (s := { initialSetup cfg s with c.hh := hh }) (ts := ts) hneg'
      refine ⟨?_, shrunk_bound hc hm h4, stopReady_within (clampToStop_ready _ ts hts)⟩
      exact pos_dir h3 (by rw [mul_comm]; exact hc.dir)
  · rename_i hts
    cases hs1
    exact ⟨h3, h4, fun ts h => by rw [hts] at h; cases h⟩

/-! ## The invariant -/

/-- Control invariant of all histories. -/
structure CtlInv (cfg : Cfg ν n q F) (s : State ν n q F) : Prop where
  atts : ∀ x ∈ s.g.atts, ♯x.hh ≠ 0 ∧ x.tnew = x.t0 + x.hh ∧ |♯x.hh| * ♯cfg.hmaxInv ≤ hbound F ∧
    ∀ ts, x.stop = some ts → (♯x.tnew - ♯ts) * ♯x.hh ≤ 0
  zero : s.cnt.nst = 0 → s.e.tn = 0 ∧ s.g.acc = []
  used : 0 < s.cnt.nst → 0 < ♯s.c.hh * ♯s.c.hused
  grow : 0 < s.cnt.nst → |♯s.c.hh| ≤ 2 * (1 + μ) ^ 2 * |♯s.c.hused|
  hmax : 0 < s.cnt.nst → |♯s.c.hh| * ♯cfg.hmaxInv ≤ hbound F
  stop : 0 < s.cnt.nst → ∀ ts, s.tstop = some ts → (♯s.e.tn - ♯ts) * ♯s.c.hh ≤ 0
  last : 0 < s.cnt.nst → ∃ y rest, s.g.acc = (s.e.tn, y) :: rest
  start : 0 < s.cnt.nst → ∃ y0, s.g.acc.getLast? = some (0, y0)
  len : 0 < s.cnt.nst → s.g.acc.length = s.cnt.nst + 1
  chain : s.g.acc.Pairwise fun a b => 0 ≤ (♯a.1 - ♯b.1) * ♯s.c.hh

theorem CtlInv.of_scale {cfg : Cfg ν n q F} {s s' : State ν n q F} (hm : 0 ≤ ♯cfg.hmaxInv) (h : CtlInv (K := K) cfg s)
    (hg : s'.g = s.g) (hn : s'.cnt.nst = s.cnt.nst) (htn : s'.e.tn = s.e.tn) (hu : s'.c.hused = s.c.hused)
    (hts : s'.tstop = s.tstop ∨ s'.tstop = none) (hh : 0 < s.cnt.nst → Shrunk ♯s'.c.hh ♯s.c.hh) :
    CtlInv (K := K) cfg s' := by
  refine ⟨by rw [hg]; exact h.atts, by rw [hn, htn, hg]; exact h.zero, ?_, ?_, ?_, ?_, by rw [hn, hg, htn]; exact h.last,
    by rw [hn, hg]; exact h.start, by rw [hn, hg]; exact h.len, ?_⟩
  · intro h0
    rw [hn] at h0
    rw [hu]; exact dir_trans (hh h0).dir (h.used h0)
  · intro h0
    rw [hn] at h0
    rw [hu]; exact (hh h0).le.trans (h.grow h0)
  · intro h0
    rw [hn] at h0
    exact shrunk_bound (hh h0) hm (h.hmax h0)
  · intro h0 ts ht
    rw [hn] at h0
    rcases hts with hts | hts
    · rw [htn]
      exact nonpos_dir (h.stop h0 ts (by rw [← hts]; exact ht)) (by rw [mul_comm]; exact (hh h0).dir)
    · rw [hts] at ht; cases ht
  · rw [hg]
    by_cases h0 : s.cnt.nst = 0
    · rw [(h.zero h0).2]; exact List.Pairwise.nil
    · exact h.chain.imp (fun {a b} hab => nonneg_dir hab (by rw [mul_comm]; exact (hh (by omega)).dir))

/-- Facts about a new attempt. -/
theorem TryFrom.facts {cfg : Cfg ν n q F} {s0 : State ν n q F} {x : Att n F} (hm : 0 ≤ ♯cfg.hmaxInv)
    (hb : |♯s0.c.hh| * ♯cfg.hmaxInv ≤ hbound F) (hw : Within (K := K) s0.tstop s0.e.tn s0.c.hh)
    (h : TryFrom (K := K) s0 x) : ♯x.hh ≠ 0 ∧ x.tnew = x.t0 + x.hh ∧ |♯x.hh| * ♯cfg.hmaxInv ≤ hbound F ∧
      ∀ ts, x.stop = some ts → (♯x.tnew - ♯ts) * ♯x.hh ≤ 0 := by
  refine ⟨h.hh.ne, h.tnew, shrunk_bound h.hh hm hb, ?_⟩
  intro ts hts
  rw [h.tnew, h.t0]
  exact hw.scale h.hh ts (by rw [← h.stop]; exact hts)

/-- A failed step preserves the invariant. -/
theorem ctlInv_fail {cfg : Cfg ν n q F} {s0 s' : State ν n q F} (hm : 0 ≤ ♯cfg.hmaxInv) (h : CtlInv (K := K) cfg s0)
    (hb : |♯s0.c.hh| * ♯cfg.hmaxInv ≤ hbound F) (hw : Within (K := K) s0.tstop s0.e.tn s0.c.hh)
    (hL : CtlLoop (K := K) s0 s') : CtlInv (K := K) cfg s' := by
  obtain ⟨l, hl1, hl2⟩ := hL.atts
  have hu : 0 < s0.cnt.nst → s'.c.hused = s0.c.hused := by
    intro hp
    rw [hL.hused]; unfold firstStepInit; rw [if_neg (by omega)]
  refine ⟨?_, by rw [hL.cnt, hL.tn, hL.acc]; exact h.zero, ?_, ?_, ?_, ?_, by rw [hL.cnt, hL.acc, hL.tn]; exact h.last,
    by rw [hL.cnt, hL.acc]; exact h.start, by rw [hL.cnt, hL.acc]; exact h.len, ?_⟩
  · intro x hx
    rw [hl1] at hx
    rcases List.mem_append.1 hx with hx | hx
    · exact (hl2 x hx).1.facts hm hb hw
    · exact h.atts x hx
  · intro hp
    rw [hL.cnt] at hp
    rw [hu hp]; exact dir_trans hL.hh.dir (h.used hp)
  · intro hp
    rw [hL.cnt] at hp
    rw [hu hp]; exact hL.hh.le.trans (h.grow hp)
  · intro hp
    rw [hL.cnt] at hp
    exact shrunk_bound hL.hh hm (h.hmax hp)
  · intro hp ts hts
    rw [hL.cnt] at hp
    rw [hL.tstop] at hts
    rw [hL.tn]
    exact nonpos_dir (h.stop hp ts hts) (by rw [mul_comm]; exact hL.hh.dir)
  · rw [hL.acc]
    exact h.chain.imp (fun {a b} hab => nonneg_dir hab (by rw [mul_comm]; exact hL.hh.dir))

/-- A step does not go back. -/
theorem tnew_ge {t h : F} : 0 ≤ (♯(t + h) - ♯t) * ♯h := by
  rw [Correct.add_rd]
  rcases le_total 0 (♯h) with hp | hn
  · exact mul_nonneg (by have := le_rd (F := F) (c := t) (x := ♯t + ♯h) (by linarith); linarith) hp
  · exact mul_nonneg_of_nonpos_of_nonpos (by have := rd_le (F := F) (c := t) (x := ♯t + ♯h) (by linarith); linarith) hn

/-- An accepted step preserves the invariant. -/
theorem ctlInv_done {cfg : Cfg ν n q F} {s0 s' : State ν n q F} (hm : 0 ≤ ♯cfg.hmaxInv) (h : CtlInv (K := K) cfg s0)
    (hb : |♯s0.c.hh| * ♯cfg.hmaxInv ≤ hbound F) (hw : Within (K := K) s0.tstop s0.e.tn s0.c.hh)
    (hD : CtlDone (K := K) cfg s0 s') : CtlInv (K := K) cfg s' := by
  obtain ⟨x, l, hx, hT, -, htn, hus, ⟨y0, hacc⟩, hN, hl⟩ := hD.last
  obtain ⟨hx0, hx1, hx2, hx3⟩ := hT.facts hm hb hw
  have hdir : 0 < ♯x.hh * ♯s'.c.hh := by rw [mul_comm]; exact hN.dir
  refine ⟨?_, fun hz => by rw [hD.nst] at hz; omega, fun _ => by rw [hus]; exact hN.dir, fun _ => by rw [hus]; exact hN.hi,
    fun _ => hN.hmax, fun _ ts hts => ?_, fun _ => ⟨_, _, by rw [hacc, htn]⟩, fun _ => ?_, fun _ => ?_, ?_⟩
  · intro z hz
    rw [hx] at hz
    rcases List.mem_cons.1 hz with rfl | hz
    · exact ⟨hx0, hx1, hx2, hx3⟩
    · rcases List.mem_append.1 hz with hz | hz
      · exact (hl z hz).1.facts hm hb hw
      · exact h.atts z hz
  · rw [htn]
    exact nonpos_dir (hx3 ts (by rw [hT.stop, ← hD.tstop]; exact hts)) hdir
  · rw [hacc]
    by_cases hz : s0.cnt.nst = 0
    · rw [if_pos hz]
      exact ⟨y0, by simp [(h.zero hz).1]⟩
    · rw [if_neg hz]
      obtain ⟨y1, hy1⟩ := h.start (by omega)
      refine ⟨y1, ?_⟩
      rw [List.getLast?_cons, hy1]; rfl
  · rw [hacc, hD.nst]
    by_cases hz : s0.cnt.nst = 0
    · rw [if_pos hz, hz]; rfl
    · rw [if_neg hz, List.length_cons, h.len (by omega)]
  · have hfirst : 0 ≤ (♯x.tnew - ♯s0.e.tn) * ♯s'.c.hh := by
      rw [hT.tnew, hT.t0]
      exact nonneg_dir tnew_ge hdir
    rw [hacc]
    by_cases hz : s0.cnt.nst = 0
    · rw [if_pos hz]
      refine List.Pairwise.cons ?_ (List.pairwise_singleton _ _)
      intro b hb'
      rw [List.mem_singleton.1 hb']
      exact hfirst
    · rw [if_neg hz]
      have hchain : s0.g.acc.Pairwise fun a b => 0 ≤ (♯a.1 - ♯b.1) * ♯s'.c.hh :=
        h.chain.imp (fun {a b} hab => nonneg_dir hab (dir_trans (by rw [mul_comm]; exact hT.hh.dir) hdir))
      refine List.Pairwise.cons ?_ hchain
      obtain ⟨y, rest, hrest⟩ := h.last (by omega)
      intro b hb'
      show 0 ≤ (♯x.tnew - ♯b.1) * ♯s'.c.hh
      rw [hrest] at hb' hchain
      rcases List.mem_cons.1 hb' with rfl | hb'
      · exact hfirst
      · have := (List.pairwise_cons.1 hchain).1 b hb'
        have e : (♯x.tnew - ♯b.1) * ♯s'.c.hh = (♯x.tnew - ♯s0.e.tn) * ♯s'.c.hh + (♯s0.e.tn - ♯b.1) * ♯s'.c.hh := by ring
        rw [e]; exact add_nonneg hfirst this

theorem CtlInv.of_first {cfg : Cfg ν n q F} {s s' : State ν n q F} (h : CtlInv (K := K) cfg s) (hz : s.cnt.nst = 0)
    (hs : FirstSame s s') : CtlInv (K := K) cfg s' := by
  have hn : s'.cnt.nst = 0 := by rw [hs.cnt]; exact hz
  obtain ⟨h1, h2⟩ := h.zero hz
  refine ⟨by rw [hs.g]; exact h.atts, fun _ => ⟨by rw [hs.tn]; exact h1, by rw [hs.g]; exact h2⟩, fun h => by omega,
    fun h => by omega, fun h => by omega, fun h => by omega, fun h => by omega, fun h => by omega, fun h => by omega, ?_⟩
  rw [hs.g, h2]; exact List.Pairwise.nil

theorem frame_first {s s' : State ν n q F} (h : Frame s s') : FirstSame s s' := by
  refine ⟨h.cnt, h.g, by rw [h.e], h.tstop, Or.inr (by rw [h.c]), ?_, by rw [h.c], by rw [h.c], by rw [h.c], by rw [h.c],
    by rw [h.c], by rw [h.h], fun j _ => by rw [h.h]⟩
  have := congrArg Mem.ncfl h.m
  exact this

theorem CtlInv.ne {cfg : Cfg ν n q F} {s : State ν n q F} (h : CtlInv (K := K) cfg s) (hn : 0 < s.cnt.nst) : ♯s.c.hh ≠ 0 :=
  left_ne_zero_of_mul (h.used hn).ne'

theorem CtlInv.of_frame {cfg : Cfg ν n q F} {s s' : State ν n q F} (hm : 0 ≤ ♯cfg.hmaxInv) (h : CtlInv (K := K) cfg s)
    (hs : Frame s s') : CtlInv (K := K) cfg s' :=
  h.of_scale hm hs.g (by rw [hs.cnt]) (by rw [hs.e]) (by rw [hs.c]) (Or.inl hs.tstop)
    fun h0 => by rw [hs.c]; exact .refl (h.ne h0)

/-- The state at the beginning of the first step. -/
theorem firstStep_start {cfg : Cfg ν n q F} {s s1 s2 : State ν n q F} {tout : F} (hm : 0 ≤ ♯cfg.hmaxInv)
    (h : CtlInv (K := K) cfg s) (hz : s.cnt.nst = 0) (h1 : firstCall cfg s tout = .ret s1 (.ok ()))
    (h2 : Frame (perfReset s1) s2) : CtlInv (K := K) cfg s2 ∧ 0 < (♯tout - ♯s2.e.tn) * ♯s2.c.hh ∧
      |♯s2.c.hh| * ♯cfg.hmaxInv ≤ hbound F ∧ Within (K := K) s2.tstop s2.e.tn s2.c.hh ∧ s2.cnt.nst = 0 ∧
      s2.e.tn = s.e.tn := by
  obtain ⟨h3, h4, h5⟩ := firstCall_spec (K := K) hm h1
  have hs := firstCall_same h1
  have e1 : s2.e.tn = s.e.tn := by rw [h2.e]; exact hs.tn
  have hz1 : s1.cnt.nst = 0 := by rw [hs.cnt]; exact hz
  refine ⟨?_, by rw [e1, h2.c]; exact h3, by rw [h2.c]; exact h4, by rw [h2.tstop, h2.e, h2.c]; exact h5, ?_, e1⟩
  · refine (h.of_first hz hs).of_scale hm (by rw [h2.g]; rfl) (by rw [h2.cnt]; rfl) (by rw [h2.e]; rfl) (by rw [h2.c]; rfl)
      (Or.inl (by rw [h2.tstop]; rfl)) fun h0 => by omega
  · rw [h2.cnt]; exact hz1

theorem clamp_near {cfg : Cfg ν n q F} {s : State ν n q F} (h : CtlInv (K := K) cfg s) (hn : 0 < s.cnt.nst) {ts : F}
    (hts : s.tstop = some ts) (hns : nearStop s ts = false) : 0 < (♯ts - ♯s.e.tn) * ♯s.c.hh := by
  have h1 := h.stop hn ts hts
  have h2 := h.ne hn
  have h3 : ♯s.e.tn - ♯ts ≠ 0 := by
    intro h0
    unfold nearStop at hns
    rw [le_false (K := K), StdModel.val_abs] at hns
    obtain ⟨c, hc, -, e1⟩ := sub_sign (K := K) s.e.tn ts
    rw [e1, h0, zero_mul, abs_zero] at hns
    unfold stopRoundoff at hns
    obtain ⟨c1, hc1, -, -, e2⟩ := mul_sign (K := K) (Scalar.hundred * Scalar.eps) (Scalar.abs s.e.tn + Scalar.abs s.c.hh)
    obtain ⟨c2, hc2, -, -, e3⟩ := mul_sign (K := K) (Scalar.hundred : F) Scalar.eps
    obtain ⟨d, hd, e4⟩ := StdModel.val_add (K := K) (Scalar.abs s.e.tn) (Scalar.abs s.c.hh)
    rw [e2, e3, e4, StdModel.val_abs, StdModel.val_abs] at hns
    have h4 := Correct.eps_ge (F := F) (K := K)
    have h5 := u0 (F := F) (K := K)
    have h6 := Correct.hundred_pos (F := F) (K := K)
    have h7 := (fac hd).2.2
    have : 0 ≤ ♯(Scalar.hundred : F) * ♯(Scalar.eps : F) * c2 * ((|♯s.e.tn| + |♯s.c.hh|) * (1 + d)) * c1 :=
      mul_nonneg (mul_nonneg (mul_nonneg (mul_nonneg h6.le (by linarith)) hc2.le)
        (mul_nonneg (add_nonneg (abs_nonneg _) (abs_nonneg _)) h7.le)) hc1.le
    linarith
  have h5 : (♯s.e.tn - ♯ts) * ♯s.c.hh < 0 := lt_of_le_of_ne h1 (mul_ne_zero h3 h2)
  have e : (♯ts - ♯s.e.tn) * ♯s.c.hh = -((♯s.e.tn - ♯ts) * ♯s.c.hh) := by ring
  rw [e]; linarith

theorem ctlInv_micro {cfg : Cfg ν n q F} (hl : NlsLegal cfg) (hm : 0 ≤ ♯cfg.hmaxInv) {s s' : State ν n q F}
    (h : CtlInv (K := K) cfg s) (hM : Micro cfg s s') : CtlInv (K := K) cfg s' := by
  have one : 0 < s.cnt.nst → Shrunk ♯s.c.hh ♯s.c.hh := fun h0 => .refl (h.ne h0)
  cases hM with
  | frame hf => exact h.of_frame hm hf
  | perf => exact h.of_scale hm rfl rfl rfl rfl (Or.inl rfl) one
  | clear => exact h.of_scale hm rfl rfl rfl rfl (Or.inr rfl) one
  | clamp ts h1 h2 h3 =>
    have hs := clampToStop_same s ts
    exact h.of_scale hm hs.g (by rw [hs.cnt]) hs.tn hs.hused (Or.inl hs.tstop) fun _ => clamp_spec (clamp_near h h1 h2 h3)
  | ewt h1 => exact h.of_scale hm rfl rfl rfl rfl (Or.inl rfl) one
  | first tout r h1 h2 => exact h.of_first h1 (firstCall_same h2)
  | firstStep tout h1 h2 h3 h4 =>
    obtain ⟨g1, g2, g3, g4, -, -⟩ := firstStep_start hm h h1 h2 h3
    rcases step_ctl hl hm (right_ne_zero_of_mul g2.ne') g3 g4 h4 with ⟨-, hD⟩ | ⟨e, he, -⟩
    · exact ctlInv_done hm g1 g3 g4 hD
    · cases he
  | step h1 h2 h3 =>
    rcases step_ctl hl hm (h.ne h1) (h.hmax h1) (stopReady_within h2) h3 with ⟨-, hD⟩ | ⟨e, he, -⟩
    · exact ctlInv_done hm h (h.hmax h1) (stopReady_within h2) hD
    · cases he

theorem ctlInv_microFail {cfg : Cfg ν n q F} (hl : NlsLegal cfg) (hm : 0 ≤ ♯cfg.hmaxInv) {s s' : State ν n q F}
    {e : Err} (h : CtlInv (K := K) cfg s) (hM : MicroFail cfg s e s') : CtlInv (K := K) cfg s' := by
  cases hM with
  | firstStep tout e h1 h2 h3 h4 =>
    obtain ⟨g1, g2, g3, g4, -, -⟩ := firstStep_start hm h h1 h2 h3
    rcases step_ctl hl hm (right_ne_zero_of_mul g2.ne') g3 g4 h4 with ⟨he, -⟩ | ⟨e, -, hL⟩
    · cases he
    · exact ctlInv_fail hm g1 g3 g4 hL
  | step e h1 h2 h3 =>
    rcases step_ctl hl hm (h.ne h1) (h.hmax h1) (stopReady_within h2) h3 with ⟨he, -⟩ | ⟨e, -, hL⟩
    · cases he
    · exact ctlInv_fail hm h (h.hmax h1) (stopReady_within h2) hL

theorem ctlInv_new (cfg : Cfg ν n q F) (nls0 : ν) (yy0 yp0 : Vec n F) (tstop : Option F) :
    CtlInv (K := K) cfg { State.new nls0 yy0 yp0 with tstop := tstop } :=
  ⟨(fun x hx => by cases hx), (fun _ => ⟨rfl, rfl⟩), (fun h => by cases h), (fun h => by cases h), (fun h => by cases h),
    (fun h => by cases h), (fun h => by cases h), (fun h => by cases h), (fun h => by cases h), List.Pairwise.nil⟩

theorem reach_ctl {cfg : Cfg ν n q F} (hl : NlsLegal cfg) (hm : 0 ≤ ♯cfg.hmaxInv) {s : State ν n q F}
    (h : Reach cfg s) : CtlInv (K := K) cfg s :=
  h.inv (CtlInv (K := K) cfg) (ctlInv_new cfg) (fun _ _ h1 h2 => ctlInv_micro hl hm h1 h2)
    (fun _ _ _ h1 h2 => ctlInv_microFail hl hm h1 h2)

/-! ## Direction -/

/-- From `s` to `s'` the direction is kept, and the accepted points are extended. -/
structure Onward (s s' : State ν n q F) : Prop where
  nst : 0 < s'.cnt.nst
  dir : 0 < ♯s.c.hh * ♯s'.c.hh
  acc : ∃ l, s'.g.acc = l ++ s.g.acc

theorem Onward.trans {a b c : State ν n q F} (h : Onward (K := K) a b) (h' : Onward (K := K) b c) : Onward (K := K) a c := by
  obtain ⟨l, hl⟩ := h.acc
  obtain ⟨l', hl'⟩ := h'.acc
  exact ⟨h'.nst, dir_trans h.dir h'.dir, l' ++ l, by rw [hl', hl, List.append_assoc]⟩

theorem onward_scale {s s' : State ν n q F} (hn : 0 < s.cnt.nst) (hg : s'.g = s.g)
    (hn' : s'.cnt.nst = s.cnt.nst) (hh : Shrunk ♯s'.c.hh ♯s.c.hh) : Onward (K := K) s s' :=
  ⟨by rw [hn']; exact hn, by rw [mul_comm]; exact hh.dir, [], by rw [hg]; rfl⟩

theorem onward_done {cfg : Cfg ν n q F} {s0 s' : State ν n q F} (hD : CtlDone (K := K) cfg s0 s') :
    0 < s'.cnt.nst ∧ 0 < ♯s0.c.hh * ♯s'.c.hh ∧ (0 < s0.cnt.nst → Onward (K := K) s0 s') := by
  obtain ⟨x, l, hx, hT, -, htn, hus, ⟨y0, hacc⟩, hN, hl⟩ := hD.last
  have h1 : 0 < s'.cnt.nst := by rw [hD.nst]; omega
  have h2 : 0 < ♯s0.c.hh * ♯s'.c.hh := dir_trans (by rw [mul_comm]; exact hT.hh.dir) (by rw [mul_comm]; exact hN.dir)
  refine ⟨h1, h2, fun hp => ⟨h1, h2, [(x.tnew, x.yy)], ?_⟩⟩
  rw [hacc, if_neg (by omega)]; rfl

theorem onward_micro {cfg : Cfg ν n q F} (hl : NlsLegal cfg) (hm : 0 ≤ ♯cfg.hmaxInv) {s s' : State ν n q F}
    (h : CtlInv (K := K) cfg s) (hn : 0 < s.cnt.nst) (hM : Micro cfg s s') : Onward (K := K) s s' := by
  have one : Shrunk ♯s.c.hh ♯s.c.hh := .refl (h.ne hn)
  cases hM with
  | frame hf => exact onward_scale hn hf.g (by rw [hf.cnt]) (by rw [hf.c]; exact one)
  | perf => exact onward_scale hn rfl rfl one
  | clear => exact onward_scale hn rfl rfl one
  | clamp ts h1 h2 h3 =>
    have hs := clampToStop_same s ts
    exact onward_scale hn hs.g (by rw [hs.cnt]) (clamp_spec (clamp_near h h1 h2 h3))
  | ewt h1 => exact onward_scale hn rfl rfl one
  | first tout r h1 h2 => omega
  | firstStep tout h1 h2 h3 h4 => omega
  | step h1 h2 h3 =>
    rcases step_ctl hl hm (h.ne h1) (h.hmax h1) (stopReady_within h2) h3 with ⟨-, hD⟩ | ⟨e, he, -⟩
    · exact (onward_done hD).2.2 hn
    · cases he

theorem onward_micros {cfg : Cfg ν n q F} (hl : NlsLegal cfg) (hm : 0 ≤ ♯cfg.hmaxInv) {s s' : State ν n q F}
    (h : CtlInv (K := K) cfg s) (hn : 0 < s.cnt.nst) (hM : Micros cfg s s') :
    CtlInv (K := K) cfg s' ∧ Onward (K := K) s s' := by
  induction hM with
  | refl => exact ⟨h, onward_scale hn rfl rfl (.refl (h.ne hn))⟩
  | tail _ h2 ih =>
    obtain ⟨i1, i2⟩ := ih
    exact ⟨ctlInv_micro hl hm i1 h2, i2.trans (onward_micro hl hm i1 i2.nst h2)⟩

theorem onward_microFail {cfg : Cfg ν n q F} (hl : NlsLegal cfg) (hm : 0 ≤ ♯cfg.hmaxInv) {s s' : State ν n q F}
    {e : Err} (h : CtlInv (K := K) cfg s) (hn : 0 < s.cnt.nst) (hM : MicroFail cfg s e s') : Onward (K := K) s s' := by
  cases hM with
  | firstStep tout e h1 h2 h3 h4 => omega
  | step e h1 h2 h3 =>
    rcases step_ctl hl hm (h.ne h1) (h.hmax h1) (stopReady_within h2) h3 with ⟨he, -⟩ | ⟨e, -, hL⟩
    · cases he
    · exact ⟨by rw [hL.cnt]; exact hn, by rw [mul_comm]; exact hL.hh.dir, [], by rw [hL.acc]; rfl⟩

theorem onward_ends {cfg : Cfg ν n q F} (hl : NlsLegal cfg) (hm : 0 ≤ ♯cfg.hmaxInv) {s s' : State ν n q F}
    (h : CtlInv (K := K) cfg s) (hn : 0 < s.cnt.nst) {α : Type} {r : Except Err α} (hE : Ends cfg s s' r) :
    Onward (K := K) s s' := by
  cases hE with
  | clean h1 _ => exact (onward_micros hl hm h hn h1).2
  | failed s1 s2 e h1 h2 h3 _ =>
    obtain ⟨i1, i2⟩ := onward_micros hl hm h hn h1
    have h4 := onward_microFail hl hm i1 i2.nst h2
    have i3 := ctlInv_microFail hl hm i1 h2
    have h5 := i2.trans h4
    exact h5.trans (onward_micro hl hm i3 h5.nst (.frame h3))

/-- A call made when at least one step has been accepted keeps the direction. -/
theorem exec_onward {cfg : Cfg ν n q F} (hl : NlsLegal cfg) (hm : 0 ≤ ♯cfg.hmaxInv) {rf sf : Nat}
    {s s' : State ν n q F} {op : Op F} {r : Res n F} (hr : Reach cfg s) (hn : 0 < s.cnt.nst)
    (h : exec cfg rf sf s op = some (s', r)) : Onward (K := K) s s' := by
  rcases exec_ends h with ⟨r', -, hend⟩ | ⟨-, hmic⟩
  · exact onward_ends hl hm (reach_ctl hl hm hr) hn hend
  · exact (onward_micros hl hm (reach_ctl hl hm hr) hn hmic).2

/-- The call that accepts the first step fixes the direction. -/
theorem solve_direction {cfg : Cfg ν n q F} (hl : NlsLegal cfg) (hm : 0 ≤ ♯cfg.hmaxInv) {rf sf : Nat}
    {s s' : State ν n q F} {tout : F} {task : Task} {r : Except Err Status} (hC : CtlInv (K := K) cfg s)
    (hn : s.cnt.nst = 0) (hn' : 0 < s'.cnt.nst) (h : solve cfg rf sf s tout task = .ret s' r) :
    0 < (♯tout - ♯s.e.tn) * ♯s'.c.hh := by
  obtain ⟨s0, hf, -, hfe⟩ := solve_first hn h
  have hC0 := hC.of_frame hm hf
  have hz : s0.cnt.nst = 0 := by rw [hf.cnt]; exact hn
  have htn : s0.e.tn = s.e.tn := by rw [hf.e]
  have hbad : ∀ s1 : State ν n q F, s1.cnt.nst = 0 → s'.cnt.nst = s1.cnt.nst → False := by
    intro s1 h1 h2; omega
  cases hfe with
  | rejected e h1 _ => exact (hbad s0 hz (by rw [firstCall_cnt h1])).elim
  | noStep s1 e h1 h2 _ _ _ => exact (hbad s0 hz (by rw [h2.cnt]; show s1.cnt.nst = _; rw [firstCall_cnt h1])).elim
  | failed s1 s2 s3 e h1 h2 h3 h4 _ =>
    obtain ⟨g1, g2, g3, g4, g5, g6⟩ := firstStep_start hm hC0 hz h1 h2
    rcases step_ctl hl hm (right_ne_zero_of_mul g2.ne') g3 g4 h3 with ⟨he, -⟩ | ⟨e, -, hL⟩
    · cases he
    · exact (hbad s2 g5 (by rw [h4.cnt, hL.cnt])).elim
  | stepped s1 s2 s3 h1 h2 h3 h4 =>
    obtain ⟨g1, g2, g3, g4, g5, g6⟩ := firstStep_start hm hC0 hz h1 h2
    rcases step_ctl hl hm (right_ne_zero_of_mul g2.ne') g3 g4 h3 with ⟨-, hD⟩ | ⟨e, he, -⟩
    · obtain ⟨d1, d2, -⟩ := onward_done hD
      have hC3 := ctlInv_done hm g1 g3 g4 hD
      have hon := onward_ends hl hm hC3 d1 h4
      rw [g6, htn] at g2
      exact pos_dir (pos_dir g2 d2) hon.dir
    · cases he

end

end Verif.FlControl
