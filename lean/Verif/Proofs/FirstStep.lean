import Verif.Proofs.InitRec
import Verif.Proofs.History

/-! # The attempts of the very first step (exact arithmetic) -/

set_option autoImplicit false
set_option linter.unusedSectionVars false
set_option linter.unusedSimpArgs false
set_option linter.unusedVariables false

namespace Verif

open Polynomial Finset Verif.Spec

universe u v

section
variable {ν : Type v} {n q : Nat} {K : Type u} [Field K] [LinearOrder K] [IsStrictOrderedRing K] [ExactParams K]
  [EpsLaws K]

/-- An attempt of a first step whose first attempt has size `h1` and whose initial values are `y0`, `yp0`. -/
structure FirstAtt (t0 h1 : K) (y0 yp0 : Vec n K) (x : Att n K) : Prop where
  start : x.t0 = t0
  kk : x.kk = 1
  hh : x.hh ≠ 0
  before : x.before = [(t0, fun i => x.hh / h1 * y0 i)]
  pred : x.pred = fun i => x.hh / h1 * y0 i + x.hh * yp0 i
  predp : x.predp = yp0

structure FirstLoop (h1 : K) (y0 yp0 : Vec n K) (s0 s : State ν n q K) : Prop where
  phi0 : s.h.phi 0 = fun i => s.c.hh / h1 * y0 i
  phi1 : s.h.phi 1 = fun i => s.c.hh * yp0 i
  atts : ∃ l, s.g.atts = l ++ s0.g.atts ∧ (∀ x ∈ l, FirstAtt s0.e.tn h1 y0 yp0 x) ∧
    ((l = [] ∧ s.c.hh = h1) ∨ ∃ p x, l = p ++ [x] ∧ x.hh = h1)

theorem handled_rr {cfg : Cfg ν n q K} {s s' : State ν n q K} {err : Err} {a b : K} {f f' : Fails}
    (h : Handled cfg s a b f err s' f' (.ok ())) : s'.c.hh = s.c.hh * s'.c.rr := by
  generalize hr : (Except.ok () : Except Err Unit) = r at h
  cases h <;> first | rfl | cases hr

theorem firstAtt_attRec {cfg : Cfg ν n q K} {s0 s : State ν n q K} {h1 : K} {y0 yp0 : Vec n K} (hI : HistInv cfg s0)
    (hz : s0.cnt.nst = 0) (hw : Within s0.tstop s0.e.tn s0.c.hh) (h0 : s0.c.hh ≠ 0)
    (hC : CtlLoop s0 s) (h : HistLoop s0 s) (hF : FirstLoop h1 y0 yp0 s0 s) (ee : Vec n K) (out : AttOut) :
    FirstAtt s0.e.tn h1 y0 yp0 (attRec s s0.e.tn ee out) := by
  obtain ⟨hne, hp, hN⟩ := h.pos hI hC h0
  obtain ⟨f1, -, -, f4⟩ := h.first hz
  have hs := coefHist_starred hne h.ready (fun i hi => left_ne_zero_of_mul (hp i hi).ne')
  have hb1 : betaP s.c.hh s.h.psi 1 = 1 := by
    simp [betaP, psiN, f4, hne]
  have hb0 : betaP s.c.hh s.h.psi 0 = 1 := by simp [betaP]
  have hphi0 : (coefHist s).phi 0 = s.h.phi 0 := by
    rw [hs.phi, if_pos (Nat.zero_le _), hb0, vscale_one]
  refine ⟨rfl, f1, hne, ?_, ?_, ?_⟩
  · show (if s.cnt.nst = 0 then _ else _) = _
    rw [if_pos (by rw [hC.cnt]; exact hz), hphi0, hF.phi0]; rfl
  · funext i
    show predY s i = _
    rw [predY_eq hs i, f1]
    unfold interpPoly
    rw [eval_finsetSum, sum_range_succ, sum_range_one]
    simp only [eval_mul, eval_C, nb_eval_new, hb0, hb1, mul_one]
    rw [hF.phi0, hF.phi1]; rfl
  · funext i
    show predYp s i = _
    rw [predYp_eq hs (fun i hi => left_ne_zero_of_mul (hN i (by omega)).ne') i, f1]
    unfold interpPoly
    rw [sum_range_succ, sum_range_one, hF.phi1]
    simp only [nb_zero, nb_succ, mul_one, one_mul, derivative_add, derivative_C, derivative_C_mul, node, zero_add]
    rw [f4]
    simp [hne]
    field_simp

theorem firstLoop_handled {cfg : Cfg ν n q K} {s0 s s5 s6 : State ν n q K} {err : Err} {a b : K} {f f' : Fails}
    {r : Except Err Unit} {h1 : K} {y0 yp0 : Vec n K} (hI : HistInv cfg s0)
    (hz : s0.cnt.nst = 0) (hw : Within s0.tstop s0.e.tn s0.c.hh) (h0 : s0.c.hh ≠ 0)
    (hC : CtlLoop s0 s) (h : HistLoop s0 s) (hF : FirstLoop h1 y0 yp0 s0 s)
    (hR : Restored cfg s0.e.tn s s5 err) (hH : Handled cfg s5 a b f err s6 f' r) :
    (r = .ok () → FirstLoop h1 y0 yp0 s0 (if s6.cnt.nst = 0 then reset s6 else s6)) ∧
    (∃ l, s6.g.atts = l ++ s0.g.atts ∧ (∀ x ∈ l, FirstAtt s0.e.tn h1 y0 yp0 x) ∧ ∃ p x, l = p ++ [x] ∧ x.hh = h1) := by
  obtain ⟨c1, c2, c3, c4, c5, c6, c7, c8, -, -, -, -, -⟩ := handled_ctl hH
  obtain ⟨ee, hg⟩ := hR.ghost
  obtain ⟨hne, hp, hN⟩ := h.pos hI hC h0
  obtain ⟨s3, g1, g2, g3, g4, g5⟩ := hR.h
  obtain ⟨r1, -, -, -⟩ := restored_hist (t0 := s0.e.tn) hne h.ready (fun i hi => left_ne_zero_of_mul (hp i hi).ne')
    (fun i hi => left_ne_zero_of_mul (hN i (by omega)).ne') g1 g2 g3 g4
  rw [← g5, ← c6] at r1
  have hn6 : s6.cnt.nst = 0 := by rw [c3, hR.cnt, hC.cnt]; exact hz
  obtain ⟨l, hl1, hl2, hl3⟩ := hF.atts
  have hatt : ∃ l, s6.g.atts = l ++ s0.g.atts ∧ (∀ x ∈ l, FirstAtt s0.e.tn h1 y0 yp0 x) ∧
      ∃ p x, l = p ++ [x] ∧ x.hh = h1 := by
    refine ⟨attRec s s0.e.tn ee (if err = .ida .testFail then .testFail else .nlsFail err) :: l, by rw [c8, hg, hl1]; rfl,
      fun x hx => ?_, ?_⟩
    · rcases List.mem_cons.1 hx with rfl | hx
      · exact firstAtt_attRec hI hz hw h0 hC h hF _ _
      · exact hl2 x hx
    · rcases hl3 with ⟨rfl, hh⟩ | ⟨p, x, rfl, hx⟩
      · exact ⟨[], attRec s s0.e.tn ee (if err = .ida .testFail then .testFail else .nlsFail err), rfl, hh⟩
      · exact ⟨_ :: p, x, rfl, hx⟩
  refine ⟨fun hr => ?_, hatt⟩
  subst hr
  have hrr := handled_rr hH
  have h5 : s5.c.hh = s.c.hh := by rw [hR.c]
  rw [h5] at hrr
  rw [if_pos hn6]
  obtain ⟨l, a1, a2, a3⟩ := hatt
  refine ⟨?_, ?_, l, a1, a2, Or.inr a3⟩
  · show (if 0 < mxordp1 then vscale s6.c.rr (s6.h.phi 0) else s6.h.phi 0) = fun i => s6.c.hh / h1 * y0 i
    rw [if_pos (by unfold mxordp1; omega), r1, hF.phi0, hrr]
    funext i; show (s.c.hh / h1 * y0 i) * s6.c.rr = _; ring
  · show (if 1 < mxordp1 then vscale s6.c.rr (s6.h.phi 1) else s6.h.phi 1) = fun i => s6.c.hh * yp0 i
    rw [if_pos (by unfold mxordp1; omega), r1, hF.phi1, hrr]
    funext i; show (s.c.hh * yp0 i) * s6.c.rr = _; ring

/-- The attempts of a first step. -/
theorem step_first {cfg : Cfg ν n q K} {s0 s' : State ν n q K} {r : Except Err Unit} {yp0 : Vec n K} (hl : NlsLegal cfg)
    (hmI : 0 ≤ cfg.hmaxInv) (hCtl : CtlInv cfg s0) (hO : OrdInv cfg s0) (hI : HistInv cfg s0)
    (hb : |s0.c.hh| * cfg.hmaxInv ≤ 1) (hw : Within s0.tstop s0.e.tn s0.c.hh) (h0 : s0.c.hh ≠ 0) (hz : s0.cnt.nst = 0)
    (h1 : s0.h.phi 1 = fun i => s0.c.hh * yp0 i) (h : step cfg s0 = .ret s' r) :
    ∃ l, s'.g.atts = l ++ s0.g.atts ∧ (∀ x ∈ l, FirstAtt s0.e.tn s0.c.hh (s0.h.phi 0) yp0 x) ∧
      ∃ p x, l = p ++ [x] ∧ x.hh = s0.c.hh := by
  have hm : 0 < s0.cnt.nst → s0.c.kk ≤ cfg.maxord := fun hp => (hO.kk hp).2
  let Good (s : State ν n q K) : Prop := ∃ l, s.g.atts = l ++ s0.g.atts ∧
    (∀ x ∈ l, FirstAtt s0.e.tn s0.c.hh (s0.h.phi 0) yp0 x) ∧ ∃ p x, l = p ++ [x] ∧ x.hh = s0.c.hh
  have key := step_rule (cfg := cfg)
    (fun s _ => CtlLoop s0 s ∧ HistLoop s0 s ∧ FirstLoop s0.c.hh (s0.h.phi 0) yp0 s0 s) Good (fun s _ => Good s)
    (r := r) (s := s0) (s' := s')
    ⟨ctlLoop_init s0, histLoop_init hI hO, by
      have hi := firstStepInit_cnt s0
      obtain ⟨e1, e2, e3, e4, e5, e6, -⟩ := hi
      refine ⟨?_, ?_, [], by rw [e2]; rfl, (fun x hx => by cases hx), Or.inl ⟨rfl, e5⟩⟩
      · rw [e6, e5, div_self h0]; funext i; rw [one_mul]
      · rw [e6, e5, h1]⟩
    (fun s1 f s' f' hL h => by
      obtain ⟨err, a, b, s5, s6, hR, hH, rfl⟩ := attempt_again' hl h
      exact ⟨(ctlLoop_handled hw hL.1 hR hH).of_reset _, (hist_handled hCtl hI hm hw h0 hL.1 hL.2.1 hR hH).1 rfl,
        (firstLoop_handled hI hz hw h0 hL.1 hL.2.1 hL.2.2 hR hH).1 rfl⟩)
    (fun s1 f s2 ck a b s' hL h hc => by
      obtain ⟨s3, h3, -, -, -, -, rfl⟩ := attempt_done h
      have hg := (completeStep_eq hc).g.trans (done_ghost h3)
      obtain ⟨l, hl1, hl2, hl3⟩ := hL.2.2.atts
      show Good _
      refine ⟨attRec s1 s0.e.tn s3.ee .accepted :: l, ?_, fun x hx => ?_, ?_⟩
      · show s'.g.atts = _
        rw [hg, hl1]; rfl
      · rcases List.mem_cons.1 hx with rfl | hx
        · exact firstAtt_attRec hI hz hw h0 hL.1 hL.2.1 hL.2.2 _ _
        · exact hl2 x hx
      · rcases hl3 with ⟨rfl, hh⟩ | ⟨p, x, rfl, hx⟩
        · exact ⟨[], _, rfl, hh⟩
        · exact ⟨_ :: p, x, rfl, hx⟩)
    (fun s1 f s' e hL h => by
      obtain ⟨err, a, b, f', s5, hR, hH⟩ := attempt_fail' hl h
      exact (firstLoop_handled hI hz hw h0 hL.1 hL.2.1 hL.2.2 hR hH).2) h
  rcases key with ⟨-, h⟩ | ⟨e, -, h⟩
  · exact h
  · exact h

theorem firstReady_phi1 (cfg : Cfg ν n q K) (s : State ν n q K) :
    (firstReady cfg s).h.phi 1 = fun i => s.c.hh * s.h.phi 1 i := by
  have h := rCheck1_same cfg { s with h0u := s.c.hh, c.kk := 0, c.kused := 0 }
  unfold firstReady
  simp only [upd_same]
  split
  · rw [h.1, h.2.1]; funext i; exact mul_comm _ _
  · funext i; exact mul_comm _ _

theorem firstCall_phi1 {cfg : Cfg ν n q K} {s s' : State ν n q K} {tout : K}
    (h : firstCall cfg s tout = .ret s' (.ok ())) : s'.h.phi 1 = fun i => s'.c.hh * s.h.phi 1 i := by
  rcases firstCall_cases h with ⟨-, -, h⟩ | ⟨-, -, h⟩ | ⟨hh, -, -, -, ⟨-, -, h⟩ | ⟨s1, h1, h, -⟩⟩
  · cases h
  · cases h
  · cases h
  · subst h
    have e1 : s1.h.phi = s.h.phi := by
      unfold firstStop at h1
      split at h1
      · split at h1
        · cases h1
        · cases h1
          unfold clampToStop
          split
          all_goals (show (initialSetup cfg s).h.phi = _; unfold initialSetup; split <;> rfl)
      · cases h1
        show (initialSetup cfg s).h.phi = _
        unfold initialSetup; split <;> rfl
    rw [firstReady_phi1, e1, firstReady_hh]


/-- The attempts of a later step start from the accepted points. -/
theorem step_before {cfg : Cfg ν n q K} {s0 s' : State ν n q K} {r : Except Err Unit} (hl : NlsLegal cfg)
    (hw : Within s0.tstop s0.e.tn s0.c.hh) (hp : 0 < s0.cnt.nst)
    (h : step cfg s0 = .ret s' r) : ∃ l, s'.g.atts = l ++ s0.g.atts ∧ ∀ x ∈ l, x.before = s0.g.acc := by
  let Good (s : State ν n q K) : Prop := ∃ l, s.g.atts = l ++ s0.g.atts ∧ ∀ x ∈ l, x.before = s0.g.acc
  have hrec : ∀ s ee out, CtlLoop s0 s → (attRec s s0.e.tn ee out).before = s0.g.acc := by
    intro s ee out hC
    show (if s.cnt.nst = 0 then _ else _) = _
    rw [if_neg (by have := hC.cnt; omega), hC.acc]
  have hh : ∀ s s5 s6 err a b f f' r, CtlLoop s0 s → Good s → Restored cfg s0.e.tn s s5 err →
      Handled cfg s5 a b f err s6 f' r → Good s6 := by
    intro s s5 s6 err a b f f' r hC hG hR hH
    obtain ⟨-, -, -, -, -, -, -, c8, -⟩ := handled_ctl hH
    obtain ⟨ee, hg⟩ := hR.ghost
    obtain ⟨l, hl1, hl2⟩ := hG
    refine ⟨attRec s s0.e.tn ee (if err = .ida .testFail then .testFail else .nlsFail err) :: l, by rw [c8, hg, hl1]; rfl,
      fun x hx => ?_⟩
    rcases List.mem_cons.1 hx with rfl | hx
    · exact hrec _ _ _ hC
    · exact hl2 x hx
  have key := step_rule (cfg := cfg) (fun s _ => CtlLoop s0 s ∧ Good s) Good (fun s _ => Good s)
    (r := r) (s := s0) (s' := s')
    ⟨ctlLoop_init s0, [], by rw [(firstStepInit_cnt s0).2.1]; rfl, (fun x hx => by cases hx)⟩
    (fun s1 f s' f' hL h => by
      obtain ⟨err, a, b, s5, s6, hR, hH, rfl⟩ := attempt_again' hl h
      refine ⟨(ctlLoop_handled hw hL.1 hR hH).of_reset _, ?_⟩
      have := hh _ _ _ _ _ _ _ _ _ hL.1 hL.2 hR hH
      obtain ⟨-, -, -, e4, -⟩ := ite_reset_ctl s6 (s6.cnt.nst = 0)
      show ∃ l, (if s6.cnt.nst = 0 then reset s6 else s6).g.atts = _ ∧ _
      rw [e4]; exact this)
    (fun s1 f s2 ck a b s' hL h hc => by
      obtain ⟨s3, h3, -, -, -, -, rfl⟩ := attempt_done h
      have hg := (completeStep_eq hc).g.trans (done_ghost h3)
      obtain ⟨l, hl1, hl2⟩ := hL.2
      show Good _
      refine ⟨attRec s1 s0.e.tn s3.ee .accepted :: l, ?_, fun x hx => ?_⟩
      · show s'.g.atts = _
        rw [hg, hl1]; rfl
      · rcases List.mem_cons.1 hx with rfl | hx
        · exact hrec _ _ _ hL.1
        · exact hl2 x hx)
    (fun s1 f s' e hL h => by
      obtain ⟨err, a, b, f', s5, hR, hH⟩ := attempt_fail' hl h
      exact hh _ _ _ _ _ _ _ _ _ hL.1 hL.2 hR hH) h
  rcases key with ⟨-, h⟩ | ⟨e, -, h⟩
  · exact h
  · exact h

/-- Further attempts, all of steps after the first. -/
def LaterExt (s s' : State ν n q K) : Prop :=
  0 < s.cnt.nst → 0 < s'.cnt.nst ∧ ∃ l, s'.g.atts = l ++ s.g.atts ∧ ∀ x ∈ l, 2 ≤ x.before.length

theorem LaterExt.of_eq {s s' : State ν n q K} (hg : s'.g = s.g) (hn : s'.cnt.nst = s.cnt.nst) : LaterExt s s' :=
  fun h => ⟨by rw [hn]; exact h, [], by rw [hg]; rfl, (fun x hx => by cases hx)⟩

theorem LaterExt.trans {a b c : State ν n q K} (h : LaterExt a b) (h' : LaterExt b c) : LaterExt a c := by
  intro ha
  obtain ⟨hb, l, h1, h2⟩ := h ha
  obtain ⟨hc, l', h3, h4⟩ := h' hb
  refine ⟨hc, l' ++ l, by rw [h3, h1, List.append_assoc], fun x hx => ?_⟩
  rcases List.mem_append.1 hx with hx | hx
  · exact h4 x hx
  · exact h2 x hx

theorem laterExt_step {cfg : Cfg ν n q K} (hl : NlsLegal cfg) {s s' : State ν n q K} {r : Except Err Unit}
    (hC : CtlInv cfg s) (h1 : 0 < s.cnt.nst) (hw : Within s.tstop s.e.tn s.c.hh) (h : step cfg s = .ret s' r)
    (hn : s.cnt.nst ≤ s'.cnt.nst) : LaterExt s s' := by
  obtain ⟨l, hl1, hl2⟩ := step_before hl hw h1 h
  refine fun _ => ⟨by omega, l, hl1, fun x hx => ?_⟩
  rw [hl2 x hx, hC.len h1]; omega

theorem laterExt_micro {cfg : Cfg ν n q K} (hl : NlsLegal cfg) (hm : 0 ≤ cfg.hmaxInv) {s s' : State ν n q K}
    (hC : CtlInv cfg s) (hM : Micro cfg s s') : LaterExt s s' := by
  cases hM with
  | frame hf => exact .of_eq hf.g (by rw [hf.cnt])
  | perf => exact .of_eq rfl rfl
  | clear => exact .of_eq rfl rfl
  | clamp ts h1 h2 h3 =>
    unfold clampToStop
    split
    · exact .of_eq rfl rfl
    · exact .of_eq rfl rfl
  | ewt h1 => exact .of_eq rfl rfl
  | first tout r h1 h2 => intro h; omega
  | firstStep tout h1 h2 h3 h4 => intro h; omega
  | step h1 h2 h3 =>
    refine laterExt_step hl hC h1 h2.within h3 ?_
    rcases step_ctl hl hm (hC.hmax h1) h2.within h3 with ⟨-, hD⟩ | ⟨e, he, -⟩
    · have := hD.nst; omega
    · cases he

theorem laterExt_ends {cfg : Cfg ν n q K} (hl : NlsLegal cfg) (hm : 0 ≤ cfg.hmaxInv) {s s' : State ν n q K}
    {α : Type} {r : Except Err α} (hC : CtlInv cfg s) (h0 : 0 < s.cnt.nst) (hE : Ends cfg s s' r) : LaterExt s s' := by
  have key : ∀ s1, Micros cfg s s1 → CtlInv cfg s1 ∧ LaterExt s s1 := by
    intro s1 hM
    induction hM with
    | refl => exact ⟨hC, .of_eq rfl rfl⟩
    | tail _ h ih => exact ⟨ctlInv_micro hl hm ih.1 h, ih.2.trans (laterExt_micro hl hm ih.1 h)⟩
  cases hE with
  | clean hM _ => exact (key _ hM).2
  | failed s1 s2 e hM hF hfr _ =>
    obtain ⟨hC1, hL⟩ := key _ hM
    refine (hL.trans ?_).trans (.of_eq hfr.g (by rw [hfr.cnt]))
    have hp1 := (hL h0).1
    cases hF with
    | firstStep tout e g1 g2 g3 g4 => omega
    | step e g1 g2 g3 =>
      refine laterExt_step hl hC1 g1 g2.within g3 ?_
      rcases step_ctl hl hm (hC1.hmax g1) g2.within g3 with ⟨he, -⟩ | ⟨e, he, hx⟩
      · cases he
      · rw [hx.cnt]

/-- The attempts recorded by a call made before the first step, if none has been recorded yet. -/
theorem first_call_atts_of {cfg : Cfg ν n q K} (hl : NlsLegal cfg) (hm1 : 1 ≤ cfg.maxord) (hm : 0 ≤ cfg.hmaxInv) {rf sf : Nat}
    {yy0 yp0 : Vec n K} {s s' : State ν n q K} {tout tret : K} {task : Task} {r : Res n K} (hI : FullInv cfg s)
    (hz0 : s.cnt.nst = 0) (hy : s.h.phi 0 = yy0) (hyp : s.h.phi 1 = yp0) (ht : s.e.tn = 0) (hat : s.g.atts = [])
    (h : exec cfg rf sf s (.solve tout tret task) = some (s', r)) :
    (∃ (s0 : State ν n q K) (e : Err), Frame s s0 ∧ firstCall cfg s0 tout = .ret s' (.error e)) ∨
    (∃ s0 s1 : State ν n q K, Frame s s0 ∧ firstCall cfg s0 tout = .ret s1 (.ok ()) ∧ Frame (perfReset s1) s' ∧
      Scalar.gt (Scalar.eps * wrmsNorm cfg.id (s1.h.phi 0) s1.e.ewt cfg.suppressalg) 1 = true) ∨
    ∃ later first l, s'.g.atts = later ++ (first ++ [l]) ∧
      (∀ x ∈ first ++ [l], FirstAtt 0 l.hh yy0 yp0 x) ∧ (∀ x ∈ later, 2 ≤ x.before.length) ∧
      ∃ s0 s1 : State ν n q K, Frame s s0 ∧
        firstCall cfg s0 tout = .ret s1 (.ok ()) ∧ l.hh = s1.c.hh ∧ s'.h0u = s1.h0u := by
  have hI : FullInv cfg ({ s with tret := tret } : State ν n q K) :=
    fullInv_micro hl hm1 hm hI (.frame (by frame_rfl))
  unfold exec at h
  simp only at h
  split at h
  · rename_i h1
    cases h
    obtain ⟨s0, hf, hm', hfe⟩ := solve_first (s := { s with tret := tret }) hz0 h1
    have hz : s0.cnt.nst = 0 := by rw [hf.cnt]; exact hz0
    have hfn : Frame s s0 := Frame.trans (by frame_rfl) hf
    have hI0 : FullInv cfg s0 := fullInv_micro hl hm1 hm hI (.frame hf)
    have hst : ∀ s1 s2 s3 : State ν n q K, ∀ r, firstCall cfg s0 tout = .ret s1 (.ok ()) → Frame (perfReset s1) s2 →
        step cfg s2 = .ret s3 r → ∃ first l, s3.g.atts = first ++ [l] ∧
          (∀ x ∈ first ++ [l], FirstAtt 0 l.hh yy0 yp0 x) ∧ l.hh = s1.c.hh ∧ s3.h0u = s1.h0u := by
      intro s1 s2 s3 r g1 g2 g3
      obtain ⟨k1, k2, k3, k4, k5, k6⟩ := firstStep_start hm hI0.ok.ctl hz g1 g2
      have hH : HistInv cfg s2 := ((hI0.hist.of_first hz (firstCall_same g1)).of_scale (s' := perfReset s1) rfl rfl rfl rfl rfl
        rfl rfl rfl ⟨1, one_pos, le_refl _, by rw [one_mul]; rfl⟩).of_frame g2
      have hO : OrdInv cfg s2 := by
        have h4 := ordInv_micro hl hm1 hI0.ok.ord (.first tout (.ok ()) hz g1)
        have h5 := ordInv_micro hl hm1 h4 (.perf _)
        exact ordInv_micro hl hm1 h5 (.frame g2)
      have hphi1 : s2.h.phi 1 = fun i => s2.c.hh * yp0 i := by
        rw [g2.h, g2.c]
        show s1.h.phi 1 = fun i => s1.c.hh * yp0 i
        rw [firstCall_phi1 g1, hfn.h, hyp]
      have hphi0 : s2.h.phi 0 = yy0 := by
        rw [g2.h]
        show s1.h.phi 0 = _
        rw [(firstCall_same g1).phi 0 (by omega), hfn.h, hy]
      obtain ⟨l, a1, a2, p, x, rfl, hx⟩ := step_first hl hm k1 hO hH k3 k4 (right_ne_zero_of_mul k2.ne') k5 hphi1 g3
      have e0 : s2.g.atts = [] := by
        rw [g2.g]; show s1.g.atts = []; rw [(firstCall_same g1).g, hfn.g, hat]
      have etn : s2.e.tn = 0 := by rw [k6, hfn.e, ht]
      rw [e0, List.append_nil] at a1
      rw [etn, hphi0, ← hx] at a2
      exact ⟨p, x, a1, a2, by rw [hx, g2.c]; rfl, by rw [step_h0u g3, g2.h0u]; rfl⟩
    cases hfe with
    | rejected e g1 _ => exact Or.inl ⟨s0, e, hfn, g1⟩
    | noStep s1 e g1 g2 _ _ g3 => exact Or.inr (Or.inl ⟨s0, s1, hfn, g1, g2, g3⟩)
    | failed s1 s2 s3 e g1 g2 g3 g4 _ =>
      obtain ⟨p, x, a1, a2, a3, a4⟩ := hst s1 s2 s3 _ g1 g2 g3
      exact Or.inr (Or.inr ⟨[], p, x, by rw [g4.g, a1]; rfl, a2, (fun x hx => by cases hx), s0, s1, hfn, g1, a3,
        by rw [g4.h0u, a4]⟩)
    | stepped s1 s2 s3 g1 g2 g3 g4 =>
      obtain ⟨p, x, a1, a2, a3, a4⟩ := hst s1 s2 s3 _ g1 g2 g3
      have hC3 : FullInv cfg s3 := fullInv_micro hl hm1 hm hI0 (.firstStep tout hz g1 g2 g3)
      have h30 : 0 < s3.cnt.nst := by
        by_contra hc
        have := (hC3.ok.trace.zero (by omega)).1
        rw [a1] at this; simp at this
      obtain ⟨-, l, b1, b2⟩ := laterExt_ends hl hm hC3.ok.ctl h30 g4 h30
      exact Or.inr (Or.inr ⟨l, p, x, by rw [b1, a1], a2, b2, s0, s1, hfn, g1, a3, by rw [ends_h0u h30 g4, a4]⟩)
  · cases h

/-- The attempts recorded by the first call on a new object. -/
theorem first_call_atts {cfg : Cfg ν n q K} (hl : NlsLegal cfg) (hm1 : 1 ≤ cfg.maxord) (hm : 0 ≤ cfg.hmaxInv) {rf sf : Nat}
    {nls0 : ν} {yy0 yp0 : Vec n K} {tstop : Option K} {s' : State ν n q K} {tout tret : K} {task : Task} {r : Res n K}
    (h : exec cfg rf sf { State.new nls0 yy0 yp0 with tstop := tstop } (.solve tout tret task) = some (s', r)) :
    s'.g.atts = [] ∨ ∃ later first l, s'.g.atts = later ++ (first ++ [l]) ∧
      (∀ x ∈ first ++ [l], FirstAtt 0 l.hh yy0 yp0 x) ∧ (∀ x ∈ later, 2 ≤ x.before.length) ∧
      ∃ s0 s1 : State ν n q K, Frame { State.new nls0 yy0 yp0 with tstop := tstop } s0 ∧
        firstCall cfg s0 tout = .ret s1 (.ok ()) ∧ l.hh = s1.c.hh ∧ s'.h0u = s1.h0u := by
  rcases first_call_atts_of hl hm1 hm ((ReachOk.new (cfg := cfg) nls0 yy0 yp0 tstop).full hl hm1 hm) rfl rfl rfl rfl rfl h with
    ⟨s0, e, hf, g1⟩ | ⟨s0, s1, hf, g1, g2, -⟩ | h
  · left; rw [(firstCall_same g1).g, hf.g]; rfl
  · left; rw [g2.g]; show s1.g.atts = []; rw [(firstCall_same g1).g, hf.g]; rfl
  · exact Or.inr h

end

end Verif
