import Verif.Proofs.Outcome
import Verif.Proofs.Control

/-! # The passes of the step loop of `solve` in exact arithmetic -/

set_option autoImplicit false
set_option linter.unusedSectionVars false
set_option linter.unusedSimpArgs false
set_option linter.unusedVariables false

namespace Verif

open Verif.Spec

universe u v

section
variable {ν : Type v} {n q : Nat} {K : Type u} [Field K] [LinearOrder K] [IsStrictOrderedRing K] [ExactParams K]
  [EpsLaws K]

theorem ctlInv_micros {cfg : Cfg ν n q K} (hl : NlsLegal cfg) (hm : 0 ≤ cfg.hmaxInv) {s s' : State ν n q K}
    (h : CtlInv cfg s) (hM : Micros cfg s s') : CtlInv cfg s' := by
  induction hM with
  | refl => exact h
  | tail _ h2 ih => exact ctlInv_micro hl hm ih h2

/-- The state in which a step of the call starts. -/
structure PassStart (cfg : Cfg ν n q K) (tout : K) (task : Task) (p : State ν n q K) : Prop where
  ctl : CtlInv cfg p
  hh : p.c.hh ≠ 0
  max : |p.c.hh| * cfg.hmaxInv ≤ 1
  within : Within p.tstop p.e.tn p.c.hh
  ahead : task = .normal ∨ p.cnt.nst = 0 → 0 < (tout - p.e.tn) * p.c.hh

theorem pass_start {cfg : Cfg ν n q K} (hl : NlsLegal cfg) (hm : 0 ≤ cfg.hmaxInv) {rf : Nat} {s p p1 : State ν n q K}
    {tout : K} {task : Task} {k : Nat} (hC : CtlInv cfg s) (h : LoopAt cfg rf s tout task p k)
    (hp : preStep cfg p k = .go p1) : PassStart cfg tout task p1 := by
  obtain ⟨m1, m2, m3, m4, -⟩ := preStep_micro.1 p1 hp
  by_cases hn : p.cnt.nst = 0
  · have hk : k = 0 := by have := h.nst; omega
    have hs0 : s.cnt.nst = 0 := by have := h.nst; omega
    obtain ⟨s1, hf, rfl⟩ := h.first hs0 hk
    have hb := (begun_same s tout task).2.2.2
    obtain ⟨a1, a2, a3, a4, -⟩ := firstStep_start hm (hC.of_frame hm hb) (by rw [hb.cnt]; exact hs0) hf (m4 hn)
    exact ⟨a1, right_ne_zero_of_mul a2.ne', a3, a4, fun _ => a2⟩
  · have hn : 0 < p.cnt.nst := by omega
    obtain ⟨r1, r2⟩ := h.ready hn
    have hC1 := ctlInv_micros hl hm hC (r1.trans m1)
    have hn1 : 0 < p1.cnt.nst := by rw [m2]; exact hn
    refine ⟨hC1, left_ne_zero_of_mul (hC1.used hn1).ne', hC1.hmax hn1, (m3 r2).within, fun ht => ?_⟩
    have ht : task = .normal := ht.resolve_right (by omega)
    obtain ⟨p0, g1, g2, g3, g4⟩ := h.tested hn
    have hC0 := ctlInv_micros hl hm hC g1
    have g3 := g3 ht
    simp only [ex_le, decide_eq_false_iff_not, not_le] at g3
    have hsame : PreSame p p1 := by
      have := preStep_cases cfg p k
      rw [hp] at this
      cases this with
      | go _ _ hs _ _ _ _ _ _ _ _ => exact hs
    rw [hsame.tn, hsame.c]
    have h0 : 0 < (tout - p0.e.tn) * p0.c.hh := by
      have : (tout - p0.e.tn) * p0.c.hh = -((p0.e.tn - tout) * p0.c.hh) := by ring
      rw [this]; linarith
    rcases g4 with ⟨-, rfl⟩ | ⟨ts, g5, g6, rfl⟩
    · exact h0
    · obtain ⟨c, c1, c2, c3⟩ := clamp_spec (clamp_near hC0 g2 g5 g6)
      rw [clampToStop_tn, c3, mul_left_comm]
      exact mul_pos c1 h0

/-- After an accepted step `tout` is not before the start of the last step. -/
theorem pass_reached {cfg : Cfg ν n q K} (hl : NlsLegal cfg) (hm : 0 ≤ cfg.hmaxInv) {p1 p2 : State ν n q K} {tout : K}
    {task : Task} (h : PassStart cfg tout task p1) (hs : step cfg p1 = .ret p2 (.ok ())) :
    CtlInv cfg p2 ∧ 0 < p2.cnt.nst ∧ p2.e.tn - p2.c.hused = p1.e.tn ∧
    (task = .normal ∨ p1.cnt.nst = 0 → 0 < (tout - (p2.e.tn - p2.c.hused)) * p2.c.hh) := by
  rcases step_ctl hl hm h.max h.within hs with ⟨-, hD⟩ | ⟨e, he, -⟩
  · have hC2 := ctlInv_done hm h.ctl h.hh h.max h.within hD
    obtain ⟨x, l, hx, hT, -, htn, hus, -, ⟨d, hd1, hd2, hd3⟩, -, -⟩ := hD.last
    obtain ⟨c, hc1, hc2, hc3⟩ := hT.hh
    have e1 : p2.e.tn - p2.c.hused = p1.e.tn := by rw [htn, hus, hT.tnew, hT.t0]; ring
    refine ⟨hC2, by rw [hD.nst]; omega, e1, fun ht => ?_⟩
    rw [e1, hd3, hc3]
    have e2 : (tout - p1.e.tn) * (d * (c * p1.c.hh)) = d * c * ((tout - p1.e.tn) * p1.c.hh) := by ring
    rw [e2]
    exact mul_pos (mul_pos (lt_of_lt_of_le (by norm_num) hd1) hc1) (h.ahead ht)
  · cases he

end

section
variable {ν : Type v} {n q : Nat} {K : Type u} [Scalar K]

/-- The errors of a failed step. -/
theorem step_failure_kind {cfg : Cfg ν n q K} (hl : NlsLegal cfg) {s s' : State ν n q K} {e : Err}
    (h : step cfg s = .ret s' (.error e)) : e.isStepFailure = true := by
  have := step_rule (cfg := cfg) (fun _ _ => True) (fun _ => True) (fun _ e => e.isStepFailure = true) trivial
    (fun s1 f s' f' hI h => trivial) (fun s1 f s2 ck a b s' hI h hc => trivial)
    (fun s1 f s' e hI h => by
      obtain ⟨err, a, b, f', s5, hR, hH⟩ := attempt_fail' hl h
      cases hH with
      | testGiveUp _ _ => rfl
      | convGiveUp rec _ => cases rec <;> rfl
      | hard e h1 =>
        cases e with
        | ida x => exact absurd rfl (h1 x)
        | nl _ => rfl
        | other _ => rfl) h
  rcases this with ⟨h, -⟩ | ⟨e', he, h⟩
  · cases h
  · cases he; exact h

/-- The integration state is unchanged. -/
structure Idle (s s' : State ν n q K) : Prop where
  cnt : s'.cnt = s.cnt
  e : s'.e = s.e
  c : s'.c = s.c
  g : s'.g = s.g
  h : s'.h = s.h

theorem Idle.trans {a b c : State ν n q K} (h : Idle a b) (h' : Idle b c) : Idle a c :=
  ⟨h'.1.trans h.1, h'.2.trans h.2, h'.3.trans h.3, h'.4.trans h.4, h'.5.trans h.5⟩

theorem Frame.idle {s s' : State ν n q K} (h : Frame s s') : Idle s s' := ⟨h.cnt, h.e, h.c, h.g, h.h⟩

theorem begun_idle (s : State ν n q K) (tout : K) (task : Task) : Idle s (perfReset (begun s tout task)) :=
  (begun_same s tout task).2.2.2.idle.trans ⟨rfl, rfl, rfl, rfl, rfl⟩

theorem noRootBefore_idle {cfg : Cfg ν n q K} {rf : Nat} {s s1 : State ν n q K} {tout : K} {task : Task}
    (h : NoRootBefore cfg rf (perfReset (begun s tout task)) task s1) : Idle s s1 :=
  (begun_idle s tout task).trans (noRootBefore_frame h).1.idle

/-- A later call that returns before its step loop leaves the integration state alone. -/
theorem laterEnds_idle {cfg : Cfg ν n q K} {rf : Nat} {s s' : State ν n q K} {tout : K} {task : Task}
    {r : Except Err Status} (h : LaterEnds cfg rf (perfReset (begun s tout task)) tout task s' r) : Idle s s' := by
  refine (begun_idle s tout task).trans ?_
  cases h with
  | close _ _ h2 _ => exact (rCheck2_frame h2).idle
  | root2 _ _ h2 h3 _ => subst h3; exact (rCheck2_frame h2).idle.trans ⟨rfl, rfl, rfl, rfl, rfl⟩
  | root3 _ _ _ h2 _ h3 h4 _ =>
    subst h4; exact ((rCheck2_frame h2).idle.trans (rCheck3_frame h3).idle).trans ⟨rfl, rfl, rfl, rfl, rfl⟩
  | pending _ _ _ _ h2 _ h3 h4 _ =>
    obtain ⟨hf, yy, yp, rfl⟩ := getSolution'_frame h4
    exact ((rCheck2_frame h2).idle.trans (rCheck3_frame h3).idle).trans ⟨rfl, rfl, rfl, rfl, rfl⟩
  | stop s1 h2 h3 h4 =>
    refine (noRootBefore_frame h2).1.idle.trans ?_
    cases stopTest1_cases h3 with
    | past _ _ => exact ⟨rfl, rfl, rfl, rfl, rfl⟩
    | same _ => exact ⟨rfl, rfl, rfl, rfl, rfl⟩
    | reached _ _ h5 => obtain ⟨-, yy, yp, rfl⟩ := getSolution_frame h5; exact ⟨rfl, rfl, rfl, rfl, rfl⟩
    | refused _ _ _ => exact ⟨rfl, rfl, rfl, rfl, rfl⟩
    | pending _ _ h5 => obtain ⟨-, yy, yp, rfl⟩ := getSolution'_frame h5; exact ⟨rfl, rfl, rfl, rfl, rfl⟩
    | stopNormal _ _ _ _ _ h5 => obtain ⟨-, yy, yp, rfl⟩ := getSolution_frame h5; exact ⟨rfl, rfl, rfl, rfl, rfl⟩
    | stopOne _ _ _ _ _ h5 => obtain ⟨-, yy, yp, rfl⟩ := getSolution_frame h5; exact ⟨rfl, rfl, rfl, rfl, rfl⟩
    | stopBad _ _ _ _ _ _ _ _ => exact ⟨rfl, rfl, rfl, rfl, rfl⟩
    | clamp _ _ _ _ _ _ => exact absurd rfl h4
    | free _ _ _ _ => exact absurd rfl h4

/-- After an accepted step the solution vectors are those of the accepted point. -/
theorem step_accepted {cfg : Cfg ν n q K} {s s' : State ν n q K} (h : step cfg s = .ret s' (.ok ())) :
    ∃ x l r, s'.g.atts = x :: l ∧ x.out = .accepted ∧ x.yy = s'.m.yy ∧ x.yp = s'.m.yp ∧ x.tnew = s'.e.tn ∧
      s'.g.acc = (s'.e.tn, s'.m.yy) :: r := by
  have := step_rule (cfg := cfg) (fun _ _ => True)
    (fun s' => ∃ x l r, s'.g.atts = x :: l ∧ x.out = .accepted ∧ x.yy = s'.m.yy ∧ x.yp = s'.m.yp ∧ x.tnew = s'.e.tn ∧
      s'.g.acc = (s'.e.tn, s'.m.yy) :: r) (fun _ _ => True) trivial
    (fun s1 f s' f' hI h => trivial)
    (fun s1 f s2 ck a b s' hI h hc => by
      obtain ⟨s3, h3, -, -, -, -, rfl⟩ := attempt_done h
      have hC := completeStep_eq hc
      refine ⟨_, _, (s3.note s.e.tn (errCoef s1) .accepted).points s.e.tn, by show s'.g.atts = _; rw [hC.g]; rfl, rfl, by show _ = s'.m.yy; rw [hC.m]; rfl,
        by show _ = s'.m.yp; rw [hC.m]; rfl, by show _ = s'.e.tn; rw [hC.e]; rfl, ?_⟩
      show s'.g.acc = (s'.e.tn, s'.m.yy) :: _
      rw [hC.g, hC.e, hC.m]; rfl)
    (fun s1 f s' e hI h => trivial) h
  rcases this with ⟨-, h⟩ | ⟨e', he, -⟩
  · exact h
  · cases he

end

end Verif
