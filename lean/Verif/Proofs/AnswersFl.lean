import Verif.Proofs.AnswersStop
import Verif.Proofs.FlDirection

/-!
# With a stop time the residual is only evaluated between the initial time and the stop time (floating-point arithmetic)
-/

set_option autoImplicit false
set_option linter.unusedSectionVars false
set_option linter.unusedSimpArgs false
set_option linter.unusedVariables false

namespace Verif.FlControl

open Verif Relation Verif.Spec

universe u v w

section
variable {ν : Type w} {n q : Nat} {F : Type u} {K : Type v} [Scalar F] [Field K] [LinearOrder K] [IsStrictOrderedRing K]
  [S : Correct F K]

local prefix:max "♯" => StdModel.val (F := F) (K := K)

/-- All attempts lead away from the initial time, and were made under the stop time that is in force. -/
def StopInv (K : Type v) [Field K] [LinearOrder K] [IsStrictOrderedRing K] [Correct F K] (s : State ν n q F) : Prop :=
  ∀ x ∈ s.g.atts, 0 ≤ StdModel.val (K := K) x.t0 * StdModel.val (K := K) x.hh ∧ ∀ T, s.tstop = some T → x.stop = some T

theorem StopInv.of_eq {s s' : State ν n q F} (h : StopInv K s) (hg : s'.g = s.g) (ht : s'.tstop = s.tstop) :
    StopInv K s' := by
  unfold StopInv at *
  rw [hg, ht]; exact h

/-- The internal time is not behind the initial time. -/
theorem CtlInv.away {cfg : Cfg ν n q F} {s : State ν n q F} (h : CtlInv (K := K) cfg s) : 0 ≤ ♯s.e.tn * ♯s.c.hh := by
  by_cases hz : s.cnt.nst = 0
  · rw [(h.zero hz).1, StdModel.val_zero, zero_mul]
  · obtain ⟨y, rest, hl⟩ := h.last (by omega)
    obtain ⟨y0, h0⟩ := h.start (by omega)
    have hc := h.chain
    rw [hl] at h0 hc
    cases rest with
    | nil =>
      have : (s.e.tn, y) = ((0 : F), y0) := Option.some.inj h0
      rw [(Prod.mk.inj this).1, StdModel.val_zero, zero_mul]
    | cons a l =>
      have hm : ((0 : F), y0) ∈ a :: l := by
        rw [List.getLast?_cons_cons] at h0
        exact List.mem_of_getLast? h0
      have := (List.pairwise_cons.1 hc).1 _ hm
      simpa only [StdModel.val_zero, sub_zero] using this

theorem TryFrom.away {cfg : Cfg ν n q F} {s0 : State ν n q F} {x : Att n F} (h : CtlInv (K := K) cfg s0)
    (hT : TryFrom (K := K) s0 x) : 0 ≤ ♯x.t0 * ♯x.hh ∧ ∀ T, s0.tstop = some T → x.stop = some T := by
  refine ⟨?_, fun T ht => by rw [hT.stop, ht]⟩
  rw [hT.t0]
  exact nonneg_dir h.away (by rw [mul_comm]; exact hT.hh.dir)

theorem stopInv_done {cfg : Cfg ν n q F} {s0 s' : State ν n q F} (h : CtlInv (K := K) cfg s0) (hI : StopInv K s0)
    (hD : CtlDone (K := K) cfg s0 s') : StopInv K s' := by
  obtain ⟨x, l, hx, hT, -, -, -, -, -, hl⟩ := hD.last
  intro z hz
  rw [hD.tstop]
  rw [hx] at hz
  rcases List.mem_cons.1 hz with rfl | hz
  · exact hT.away h
  · rcases List.mem_append.1 hz with hz | hz
    · exact (hl z hz).1.away h
    · exact hI z hz

theorem stopInv_fail {cfg : Cfg ν n q F} {s0 s' : State ν n q F} (h : CtlInv (K := K) cfg s0) (hI : StopInv K s0)
    (hL : CtlLoop (K := K) s0 s') : StopInv K s' := by
  obtain ⟨l, hx, hl⟩ := hL.atts
  intro z hz
  rw [hL.tstop]
  rw [hx] at hz
  rcases List.mem_append.1 hz with hz | hz
  · exact (hl z hz).1.away h
  · exact hI z hz

theorem stopInv_micro {cfg : Cfg ν n q F} (hl : NlsLegal cfg) (hm : 0 ≤ ♯cfg.hmaxInv) {s s' : State ν n q F}
    (h : CtlInv (K := K) cfg s) (hI : StopInv K s) (hM : Micro cfg s s') : StopInv K s' := by
  cases hM with
  | frame hf => exact hI.of_eq hf.g hf.tstop
  | perf => exact hI.of_eq rfl rfl
  | clear => exact fun x hx => ⟨(hI x hx).1, fun T hT => by cases hT⟩
  | clamp ts h1 h2 h3 =>
    have hs := clampToStop_same s ts
    exact hI.of_eq hs.g hs.tstop
  | ewt h1 => exact hI.of_eq rfl rfl
  | first tout r h1 h2 => exact hI.of_eq (firstCall_same h2).g (firstCall_same h2).tstop
  | firstStep tout h1 h2 h3 h4 =>
    obtain ⟨g1, g2, g3, g4, -, -⟩ := firstStep_start hm h h1 h2 h3
    have hs := firstCall_same h2
    rcases step_ctl hl hm (right_ne_zero_of_mul g2.ne') g3 g4 h4 with ⟨-, hD⟩ | ⟨e, he, -⟩
    · exact stopInv_done g1 (hI.of_eq (by rw [h3.g]; exact hs.g) (by rw [h3.tstop]; exact hs.tstop)) hD
    · cases he
  | step h1 h2 h3 =>
    rcases step_ctl hl hm (h.ne h1) (h.hmax h1) (stopReady_within h2) h3 with ⟨-, hD⟩ | ⟨e, he, -⟩
    · exact stopInv_done h hI hD
    · cases he

theorem stopInv_micros {cfg : Cfg ν n q F} (hl : NlsLegal cfg) (hm : 0 ≤ ♯cfg.hmaxInv) {s s' : State ν n q F}
    (h : CtlInv (K := K) cfg s) (hI : StopInv K s) (hM : Micros cfg s s') : CtlInv (K := K) cfg s' ∧ StopInv K s' := by
  induction hM with
  | refl => exact ⟨h, hI⟩
  | tail _ h2 ih => exact ⟨ctlInv_micro hl hm ih.1 h2, stopInv_micro hl hm ih.1 ih.2 h2⟩

theorem stopInv_microFail {cfg : Cfg ν n q F} (hl : NlsLegal cfg) (hm : 0 ≤ ♯cfg.hmaxInv) {s s' : State ν n q F}
    {e : Err} (h : CtlInv (K := K) cfg s) (hI : StopInv K s) (hM : MicroFail cfg s e s') : StopInv K s' := by
  cases hM with
  | firstStep tout e h1 h2 h3 h4 =>
    obtain ⟨g1, g2, g3, g4, -, -⟩ := firstStep_start hm h h1 h2 h3
    have hs := firstCall_same h2
    rcases step_ctl hl hm (right_ne_zero_of_mul g2.ne') g3 g4 h4 with ⟨he, -⟩ | ⟨e, -, hL⟩
    · cases he
    · exact stopInv_fail g1 (hI.of_eq (by rw [h3.g]; exact hs.g) (by rw [h3.tstop]; exact hs.tstop)) hL
  | step e h1 h2 h3 =>
    rcases step_ctl hl hm (h.ne h1) (h.hmax h1) (stopReady_within h2) h3 with ⟨he, -⟩ | ⟨e, -, hL⟩
    · cases he
    · exact stopInv_fail h hI hL

theorem reach_stopInv {cfg : Cfg ν n q F} (hl : NlsLegal cfg) (hm : 0 ≤ ♯cfg.hmaxInv) {s : State ν n q F}
    (h : Reach cfg s) : StopInv K s :=
  (h.inv (fun s => CtlInv (K := K) cfg s ∧ StopInv K s)
    (fun a b c d => ⟨ctlInv_new cfg a b c d, fun x hx => by cases hx⟩)
    (fun _ _ h1 h2 => ⟨ctlInv_micro hl hm h1.1 h2, stopInv_micro hl hm h1.1 h1.2 h2⟩)
    (fun _ _ _ h1 h2 => ⟨ctlInv_microFail hl hm h1.1 h2, stopInv_microFail hl hm h1.1 h1.2 h2⟩)).2

/-- The state at the beginning of a step. -/
theorem step_start {cfg : Cfg ν n q F} (hl : NlsLegal cfg) (hm : 0 ≤ ♯cfg.hmaxInv) {rf : Nat} {s p p1 : State ν n q F}
    {tout : F} {task : Task} {k : Nat} (hC : CtlInv (K := K) cfg s) (hI : StopInv K s) (h : LoopAt cfg rf s tout task p k)
    (hp : preStep cfg p k = .go p1) : CtlInv (K := K) cfg p1 ∧ StopInv K p1 ∧ ♯p1.c.hh ≠ 0 ∧
      |♯p1.c.hh| * ♯cfg.hmaxInv ≤ hbound F ∧ Within (K := K) p1.tstop p1.e.tn p1.c.hh ∧ p1.tstop = p.tstop := by
  obtain ⟨m1, m2, m3, m4, -⟩ := preStep_micro.1 p1 hp
  have hsame : PreSame p p1 := by
    have := preStep_cases cfg p k
    rw [hp] at this
    cases this with
    | go _ _ hs _ _ _ _ _ _ _ _ => exact hs
  by_cases hn : p.cnt.nst = 0
  · have hk : k = 0 := by have := h.nst; omega
    have hs0 : s.cnt.nst = 0 := by have := h.nst; omega
    obtain ⟨s1, hf, rfl⟩ := h.first hs0 hk
    have hb := (begun_same s tout task).2.2.2
    have hs := firstCall_same hf
    obtain ⟨a1, a2, a3, a4, -⟩ := firstStep_start hm (hC.of_frame hm hb) (by rw [hb.cnt]; exact hs0) hf (m4 hn)
    exact ⟨a1, hI.of_eq (hsame.g.trans (hs.g.trans hb.g)) (hsame.tstop.trans (hs.tstop.trans hb.tstop)),
      right_ne_zero_of_mul a2.ne', a3, a4, hsame.tstop⟩
  · have hn : 0 < p.cnt.nst := by omega
    obtain ⟨r1, r2⟩ := h.ready hn
    obtain ⟨hC1, hI1⟩ := stopInv_micros hl hm hC hI (r1.trans m1)
    have hn1 : 0 < p1.cnt.nst := by rw [m2]; exact hn
    exact ⟨hC1, hI1, hC1.ne hn1, hC1.hmax hn1, stopReady_within (m3 r2), hsame.tstop⟩

/-- The attempts of a call, including those before it, were made under the stop time that was in force when it began. -/
theorem solve_stops {cfg : Cfg ν n q F} (hl : NlsLegal cfg) (hm : 0 ≤ ♯cfg.hmaxInv) {s s' : State ν n q F} {rf sf : Nat}
    {tout T : F} {task : Task} {r : Except Err Status} (hC : CtlInv (K := K) cfg s) (hI : StopInv K s)
    (ht : s.tstop = some T) (h : solve cfg rf sf s tout task = .ret s' r) : ∀ x ∈ s'.g.atts, x.stop = some T := by
  have hold : ∀ x ∈ s.g.atts, x.stop = some T := fun x hx => (hI x hx).2 T ht
  cases solve_outcome h with
  | rejected e h0 h1 h2 =>
    rw [(firstCall_same h1).g, (begun_same s tout task).2.2.2.g]
    exact hold
  | early h0 h1 =>
    rw [(laterEnds_idle h1).g]
    exact hold
  | loop p k hL hE =>
    have hp : p.tstop = some T := hL.pending.tstop.trans ht
    have hIp : StopInv K p := by
      by_cases hn : p.cnt.nst = 0
      · have hk : k = 0 := by have := hL.nst; omega
        have hs0 : s.cnt.nst = 0 := by have := hL.nst; omega
        obtain ⟨s1, hf, rfl⟩ := hL.first hs0 hk
        have hb := (begun_same s tout task).2.2.2
        have hs := firstCall_same hf
        exact hI.of_eq (hs.g.trans hb.g) (hs.tstop.trans hb.tstop)
      · exact (stopInv_micros hl hm hC hI (hL.ready (by omega)).1).2
    cases hE with
    | pre h1 =>
      have := preStep_cases cfg p k
      rw [h1] at this
      cases this with
      | limit _ _ => exact fun x hx => (hIp x hx).2 T hp
      | weights _ _ _ hs _ _ _ _ _ => rw [hs.g]; exact fun x hx => (hIp x hx).2 T hp
      | accuracy _ _ hs _ _ _ _ _ => rw [hs.g]; exact fun x hx => (hIp x hx).2 T hp
    | failed p1 p2 e h1 h2 h3 =>
      obtain ⟨a1, a2, a3, a4, a5, a6⟩ := step_start hl hm hC hI hL h1
      rcases step_ctl hl hm a3 a4 a5 h2 with ⟨he, -⟩ | ⟨e, -, hF⟩
      · cases he
      · rw [stepFailed_g h3]
        exact fun x hx => (stopInv_fail a1 a2 hF x hx).2 T (by rw [hF.tstop, a6]; exact hp)
    | post p1 p2 h1 h2 h3 =>
      obtain ⟨a1, a2, a3, a4, a5, a6⟩ := step_start hl hm hC hI hL h1
      rcases step_ctl hl hm a3 a4 a5 h2 with ⟨-, hD⟩ | ⟨e, he, -⟩
      · rw [postEnds_g h3]
        exact fun x hx => (stopInv_done a1 a2 hD x hx).2 T (by rw [hD.tstop, a6]; exact hp)
      · cases he

theorem att_between {x : Att n F} {T : F} (h0 : ♯x.hh ≠ 0) (h1 : x.tnew = x.t0 + x.hh)
    (h2 : (♯x.tnew - ♯T) * ♯x.hh ≤ 0) (h3 : 0 ≤ ♯x.t0 * ♯x.hh) : Between 0 ♯x.tnew ♯T := by
  have hp : 0 ≤ ♯x.tnew * ♯x.hh := by
    have := tnew_ge (K := K) (t := x.t0) (h := x.hh)
    rw [← h1] at this
    linarith
  rcases lt_or_gt_of_ne h0 with hn | hn
  · right
    constructor
    · by_contra hc
      exact absurd h2 (not_le.2 (mul_pos_of_neg_of_neg (sub_neg.2 (not_le.1 hc)) hn))
    · by_contra hc
      exact absurd hp (not_le.2 (mul_neg_of_pos_of_neg (not_le.1 hc) hn))
  · left
    constructor
    · by_contra hc
      exact absurd hp (not_le.2 (mul_neg_of_neg_of_pos (not_le.1 hc) hn))
    · by_contra hc
      exact absurd h2 (not_le.2 (mul_pos (sub_pos.2 (not_le.1 hc)) hn))

/-- With the stop time `T` in force at the beginning of the call, the residual has only been evaluated from 0 to `T`. -/
theorem calls_between {cfg : Cfg ν n q F} (hl : NlsLegal cfg) (hu : NlsUses cfg) (hm : 0 ≤ ♯cfg.hmaxInv)
    {s s' : State ν n q F} {rf sf : Nat} {op : Op F} {r : Res n F} {T : F} (hr : Reach cfg s) (ht : s.tstop = some T)
    (h : exec cfg rf sf s op = some (s', r)) : ∀ t y yp, UCall.res t y yp ∈ s'.m.log → Between 0 ♯t ♯T := by
  have hr' : Reach cfg s' := .call rf sf op r hr h
  have hI : StopInv K s := reach_stopInv hl hm hr
  have hst : ∀ x ∈ s'.g.atts, x.stop = some T := by
    unfold exec at h
    split at h
    · rename_i tout tret task
      split at h
      · rename_i h1
        cases h
        have hC := reach_ctl (K := K) hl hm hr
        exact solve_stops (K := K) (s := { s with tret := tret }) hl hm
          (hC.of_scale hm rfl rfl rfl rfl (Or.inl rfl) fun hn => .refl (hC.ne hn))
          (hI.of_eq rfl rfl) ht h1
      · cases h
    · split at h
      · rename_i h1
        cases h
        rw [getSolution_g h1]
        exact fun x hx => (hI x hx).2 T ht
      · cases h
    · split at h
      · rename_i h1
        cases h
        rw [getDky_state h1]
        exact fun x hx => (hI x hx).2 T ht
      · cases h
  intro t y yp hc
  obtain ⟨x, hx, rfl, -⟩ := (Props.callsOk_reach hu hr').res t y yp hc
  obtain ⟨a1, a2, -, a3⟩ := (reach_ctl (K := K) hl hm hr').atts x hx
  exact att_between a1 a2 (a3 T (hst x hx)) (reach_stopInv hl hm hr' x hx).1

end

end Verif.FlControl
