import Verif.Proofs.Answers
import Verif.Proofs.SolveExact
import Verif.Props.Nls

/-!
# With a stop time the residual is only evaluated between the initial time and the stop time (exact arithmetic)
-/

set_option autoImplicit false
set_option linter.unusedSectionVars false
set_option linter.unusedSimpArgs false
set_option linter.unusedVariables false

namespace Verif

open Verif.Spec

universe u v

section
variable {ν : Type v} {n q : Nat} {K : Type u} [Scalar K]

theorem clampToStop_g (s : State ν n q K) (ts : K) : (clampToStop s ts).g = s.g := by
  unfold clampToStop; split <;> rfl

theorem getSolution'_g {s s' : State ν n q K} {t : K} (h : getSolution' s t = some s') : s'.g = s.g := by
  obtain ⟨hf, yy, yp, e⟩ := getSolution'_frame h
  rw [e]

theorem getSolution_g {s s' : State ν n q K} {t : K} {r : Except Err Unit} (h : getSolution s t = .ret s' r) :
    s'.g = s.g := by
  obtain ⟨hf, yy, yp, e⟩ := getSolution_frame h
  rw [e]

theorem stopTest2_g {s s' : State ν n q K} {tout : K} {task : Task} {r : Except Err Status}
    (h : stopTest2 s tout task = .ret s' r) : s'.g = s.g := by
  unfold stopTest2 at h
  split at h
  · split at h
    · split at h
      · cases h
      · rename_i h1; cases h; exact (getSolution'_g h1 :)
    · split at h
      · split at h
        · split at h
          · cases h
          · rename_i h1; cases h; exact (getSolution'_g h1 :)
        · cases h; exact clampToStop_g _ _
      · cases h; rfl
  · split at h
    · split at h
      · split at h
        · cases h
        · rename_i h1; cases h; exact (getSolution'_g h1 :)
      · cases h; exact clampToStop_g _ _
    · cases h; rfl

theorem clampToStop_tstop (s : State ν n q K) (ts : K) : (clampToStop s ts).tstop = s.tstop := by
  unfold clampToStop; split <;> rfl

theorem getSolution'_tstop {s s' : State ν n q K} {t : K} (h : getSolution' s t = some s') : s'.tstop = s.tstop := by
  obtain ⟨hf, yy, yp, e⟩ := getSolution'_frame h
  rw [e]

theorem getSolution_tstop {s s' : State ν n q K} {t : K} {r : Except Err Unit} (h : getSolution s t = .ret s' r) :
    s'.tstop = s.tstop := by
  obtain ⟨hf, yy, yp, e⟩ := getSolution_frame h
  rw [e]

theorem stopTest1_tstop {s s' : State ν n q K} {tout : K} {task : Task} {r : Except Err Status}
    (h : stopTest1 s tout task = .ret s' r) (hr : r ≠ .ok .tstop) : s'.tstop = s.tstop := by
  unfold stopTest1 at h
  split at h
  · cases h; rfl
  · split at h
    · split at h
      · cases h; rfl
      · split at h
        · rcases Out.bind_eq_ret h with ⟨s1, a, h1, h2⟩ | ⟨e, h1, h2⟩
          · cases h2; exact (getSolution_tstop h1 :)
          · exact (getSolution_tstop h1 :)
        · split at h
          · split at h
            · split at h
              · cases h; exact absurd rfl hr
              · rename_i h1; cases h; exact (getSolution_tstop h1 :)
              · cases h
              · cases h
            · cases h; exact clampToStop_tstop _ _
          · cases h; rfl
    · split at h
      · split at h
        · cases h
        · rename_i h1; cases h; exact (getSolution'_tstop h1 :)
      · split at h
        · split at h
          · rcases Out.bind_eq_ret h with ⟨s1, a, h1, h2⟩ | ⟨e, h1, h2⟩
            · cases h2; exact (getSolution_tstop h1 :)
            · exact (getSolution_tstop h1 :)
          · cases h; exact clampToStop_tstop _ _
        · cases h; rfl

theorem stopTest2_tstop {s s' : State ν n q K} {tout : K} {task : Task} {r : Except Err Status}
    (h : stopTest2 s tout task = .ret s' r) (hr : r ≠ .ok .tstop) : s'.tstop = s.tstop := by
  unfold stopTest2 at h
  split at h
  · split at h
    · split at h
      · cases h
      · rename_i h1; cases h; exact (getSolution'_tstop h1 :)
    · split at h
      · split at h
        · split at h
          · cases h
          · cases h; exact absurd rfl hr
        · cases h; exact clampToStop_tstop _ _
      · cases h; rfl
  · split at h
    · split at h
      · split at h
        · cases h
        · cases h; exact absurd rfl hr
      · cases h; exact clampToStop_tstop _ _
    · cases h; rfl

theorem stepFailed_tstop {s s' : State ν n q K} {e : Err} {r : Except Err Status} (h : stepFailed s e = .ret s' r) :
    s'.tstop = s.tstop := by
  unfold stepFailed at h
  split at h
  · rename_i h1; cases h; exact (getSolution_tstop h1 :)
  · rename_i h1; cases h; exact (getSolution_tstop h1 :)
  · cases h
  · cases h

/-- A call keeps the stop time unless it reports that it has been reached. -/
theorem solve_tstop {cfg : Cfg ν n q K} {rf sf : Nat} {s s' : State ν n q K} {tout : K} {task : Task} {r : Except Err Status}
    (h : solve cfg rf sf s tout task = .ret s' r) (hr : r ≠ .ok .tstop) : s'.tstop = s.tstop := by
  have hb := (begun_same s tout task).2.2.2.tstop
  cases solve_outcome h with
  | rejected e h0 h1 h2 => exact (firstCall_quiet h1).tstop.trans hb
  | early h0 h1 =>
    have hb' : (perfReset (begun s tout task)).tstop = s.tstop := hb
    rw [← hb']
    cases h1 with
    | close _ _ h2 _ => exact (rCheck2_frame h2).tstop
    | root2 _ _ h2 h3 _ => subst h3; exact (rCheck2_frame h2).tstop
    | root3 _ _ _ h2 _ h3 h4 _ => subst h4; exact (rCheck3_frame h3).tstop.trans (rCheck2_frame h2).tstop
    | pending _ _ _ _ h2 _ h3 h4 _ =>
      exact (getSolution'_tstop h4).trans ((rCheck3_frame h3).tstop.trans (rCheck2_frame h2).tstop)
    | stop s1 h2 h3 h4 => exact (stopTest1_tstop h3 hr).trans (noRootBefore_frame h2).1.tstop
  | loop p k hL hE =>
    rw [← hL.pending.tstop]
    have pre : ∀ p1, preStep cfg p k = .go p1 → p1.tstop = p.tstop := by
      intro p1 hp1
      have := preStep_cases cfg p k
      rw [hp1] at this
      cases this with
      | go _ _ hs _ _ _ _ _ _ _ _ => exact hs.tstop
    cases hE with
    | pre h1 =>
      have := preStep_cases cfg p k
      rw [h1] at this
      cases this with
      | limit _ _ => rfl
      | weights _ _ _ hs _ _ _ _ _ => exact hs.tstop
      | accuracy _ _ hs _ _ _ _ _ => exact hs.tstop
    | failed p1 p2 e h1 h2 h3 => exact (stepFailed_tstop h3).trans ((step_quiet h2).1.tstop.trans (pre p1 h1))
    | post p1 p2 h1 h2 h3 =>
      rw [← pre p1 h1, ← (step_quiet h2).1.tstop]
      cases h3 with
      | root s1 _ h1 h2 _ => subst h2; exact (rCheck3_frame h1).tstop
      | stop s1 h1 h2 _ => exact (stopTest2_tstop h2 hr).trans (noRootAfter_frame h1).1.tstop

theorem exec_tstop {cfg : Cfg ν n q K} {rf sf : Nat} {s s' : State ν n q K} {op : Op K} {r : Res n K}
    (h : exec cfg rf sf s op = some (s', r)) (hr : r ≠ .solved (.ok .tstop)) : s'.tstop = s.tstop := by
  unfold exec at h
  split at h
  · split at h
    · rename_i h1
      cases h
      exact (solve_tstop h1 (fun e => hr (by rw [e])) :)
    · cases h
  · split at h
    · rename_i h1
      cases h
      exact getSolution_tstop h1
    · cases h
  · split at h
    · rename_i h1
      cases h
      rw [getDky_state h1]
    · cases h

/-- While no call reports the stop time as reached, it stays in force. -/
theorem Spec.Session.tstop {cfg : Cfg ν n q K} {s0 s : State ν n q K} {l : List (Nat × Nat × Op K × Res n K)}
    (h : Session cfg s0 l s) (hl : ∀ c ∈ l, c.2.2.2 ≠ .solved (.ok .tstop)) : s.tstop = s0.tstop := by
  induction h with
  | nil => rfl
  | call rf sf op r h1 h2 ih =>
    rw [exec_tstop h2 (hl _ List.mem_cons_self)]
    exact ih fun c hc => hl c (List.mem_cons_of_mem _ hc)

theorem Spec.Session.reach {cfg : Cfg ν n q K} {s0 s : State ν n q K} {l : List (Nat × Nat × Op K × Res n K)}
    (h0 : Reach cfg s0) (h : Session cfg s0 l s) : Reach cfg s := by
  induction h with
  | nil => exact h0
  | call rf sf op r h1 h2 ih => exact .call rf sf op r ih h2

theorem postEnds_g {cfg : Cfg ν n q K} {rf : Nat} {s s' : State ν n q K} {tout : K} {task : Task} {r : Except Err Status}
    (h : PostEnds cfg rf s tout task s' r) : s'.g = s.g := by
  cases h with
  | root s1 _ h1 h2 _ => subst h2; exact (rCheck3_frame h1).g
  | stop s1 h1 h2 _ => exact (stopTest2_g h2).trans (noRootAfter_frame h1).1.g

theorem stepFailed_g {s s' : State ν n q K} {e : Err} {r : Except Err Status} (h : stepFailed s e = .ret s' r) :
    s'.g = s.g := by
  unfold stepFailed at h
  split at h
  · rename_i h1; cases h; exact (getSolution_g h1 :)
  · rename_i h1; cases h; exact (getSolution_g h1 :)
  · cases h
  · cases h

end

section
variable {ν : Type v} {n q : Nat} {K : Type u} [Field K] [LinearOrder K] [ExactParams K] [IsStrictOrderedRing K] [EpsLaws K]

/-- All attempts lead away from the initial time, and were made under the stop time that is in force. -/
def StopInv (s : State ν n q K) : Prop :=
  ∀ x ∈ s.g.atts, 0 ≤ x.t0 * x.hh ∧ ∀ T, s.tstop = some T → x.stop = some T

theorem StopInv.of_eq {s s' : State ν n q K} (h : StopInv s) (hg : s'.g = s.g) (ht : s'.tstop = s.tstop) : StopInv s' := by
  unfold StopInv at *
  rw [hg, ht]; exact h

/-- The internal time is not behind the initial time. -/
theorem CtlInv.away {cfg : Cfg ν n q K} {s : State ν n q K} (h : CtlInv cfg s) : 0 ≤ s.e.tn * s.c.hh := by
  by_cases hz : s.cnt.nst = 0
  · rw [(h.zero hz).1, zero_mul]
  · obtain ⟨y, rest, hl⟩ := h.last (by omega)
    obtain ⟨y0, h0⟩ := h.start (by omega)
    have hc := h.chain
    rw [hl] at h0 hc
    cases rest with
    | nil =>
      have : (s.e.tn, y) = ((0 : K), y0) := Option.some.inj h0
      rw [(Prod.mk.inj this).1, zero_mul]
    | cons a l =>
      have hm : ((0 : K), y0) ∈ a :: l := by
        rw [List.getLast?_cons_cons] at h0
        exact List.mem_of_getLast? h0
      have := (List.pairwise_cons.1 hc).1 _ hm
      simp only [sub_zero] at this
      exact this.le

theorem TryFrom.away {cfg : Cfg ν n q K} {s0 : State ν n q K} {x : Att n K} (h : CtlInv cfg s0) (hT : TryFrom s0 x) :
    0 ≤ x.t0 * x.hh ∧ ∀ T, s0.tstop = some T → x.stop = some T := by
  obtain ⟨c, hc1, hc2, hc3⟩ := hT.hh
  refine ⟨?_, fun T ht => by rw [hT.stop, ht]⟩
  rw [hT.t0, hc3, mul_left_comm]
  exact mul_nonneg hc1.le h.away

theorem stopInv_done {cfg : Cfg ν n q K} {s0 s' : State ν n q K} (h : CtlInv cfg s0) (hI : StopInv s0)
    (hD : CtlDone cfg s0 s') : StopInv s' := by
  obtain ⟨x, l, hx, hT, -, -, -, -, -, -, hl⟩ := hD.last
  intro z hz
  rw [hD.tstop]
  rw [hx] at hz
  rcases List.mem_cons.1 hz with rfl | hz
  · exact hT.away h
  · rcases List.mem_append.1 hz with hz | hz
    · exact (hl z hz).1.away h
    · exact hI z hz

theorem stopInv_fail {cfg : Cfg ν n q K} {s0 s' : State ν n q K} (h : CtlInv cfg s0) (hI : StopInv s0)
    (hL : CtlLoop s0 s') : StopInv s' := by
  obtain ⟨l, hx, hl⟩ := hL.atts
  intro z hz
  rw [hL.tstop]
  rw [hx] at hz
  rcases List.mem_append.1 hz with hz | hz
  · exact (hl z hz).1.away h
  · exact hI z hz

theorem stopInv_micro {cfg : Cfg ν n q K} (hl : NlsLegal cfg) (hm : 0 ≤ cfg.hmaxInv) {s s' : State ν n q K}
    (h : CtlInv cfg s) (hI : StopInv s) (hM : Micro cfg s s') : StopInv s' := by
  cases hM with
  | frame hf => exact hI.of_eq hf.g hf.tstop
  | perf => exact hI.of_eq rfl rfl
  | clear => exact fun x hx => ⟨(hI x hx).1, fun T hT => by cases hT⟩
  | clamp ts h1 h2 h3 =>
    have hs := clampToStop_same s ts
    exact hI.of_eq hs.g hs.tstop
  | ewt h1 => exact hI.of_eq rfl rfl
  | first tout r h1 h2 => exact hI.of_eq (firstCall_same h2).g (firstCall_same h2).tstop
  | firstStep tout h1 h2 h3 h4 =>
    obtain ⟨g1, g2, g3, g4, -, -⟩ := firstStep_start hm h h1 h2 h3
    have hs := firstCall_same h2
    rcases step_ctl hl hm g3 g4 h4 with ⟨-, hD⟩ | ⟨e, he, -⟩
    · exact stopInv_done g1 (hI.of_eq (by rw [h3.g]; exact hs.g) (by rw [h3.tstop]; exact hs.tstop)) hD
    · cases he
  | step h1 h2 h3 =>
    rcases step_ctl hl hm (h.hmax h1) h2.within h3 with ⟨-, hD⟩ | ⟨e, he, -⟩
    · exact stopInv_done h hI hD
    · cases he

theorem stopInv_micros {cfg : Cfg ν n q K} (hl : NlsLegal cfg) (hm : 0 ≤ cfg.hmaxInv) {s s' : State ν n q K}
    (h : CtlInv cfg s) (hI : StopInv s) (hM : Micros cfg s s') : StopInv s' := by
  have : CtlInv cfg s' ∧ StopInv s' := by
    induction hM with
    | refl => exact ⟨h, hI⟩
    | tail _ h2 ih => exact ⟨ctlInv_micro hl hm ih.1 h2, stopInv_micro hl hm ih.1 ih.2 h2⟩
  exact this.2

theorem stopInv_microFail {cfg : Cfg ν n q K} (hl : NlsLegal cfg) (hm : 0 ≤ cfg.hmaxInv) {s s' : State ν n q K}
    {e : Err} (h : CtlInv cfg s) (hI : StopInv s) (hM : MicroFail cfg s e s') : StopInv s' := by
  cases hM with
  | firstStep tout e h1 h2 h3 h4 =>
    obtain ⟨g1, g2, g3, g4, -, -⟩ := firstStep_start hm h h1 h2 h3
    have hs := firstCall_same h2
    rcases step_ctl hl hm g3 g4 h4 with ⟨he, -⟩ | ⟨e, -, hL⟩
    · cases he
    · exact stopInv_fail g1 (hI.of_eq (by rw [h3.g]; exact hs.g) (by rw [h3.tstop]; exact hs.tstop)) hL
  | step e h1 h2 h3 =>
    rcases step_ctl hl hm (h.hmax h1) h2.within h3 with ⟨he, -⟩ | ⟨e, -, hL⟩
    · cases he
    · exact stopInv_fail h hI hL

theorem Reach.stopInv {cfg : Cfg ν n q K} (hl : NlsLegal cfg) (hm : 0 ≤ cfg.hmaxInv) {s : State ν n q K}
    (h : Reach cfg s) : StopInv s :=
  (h.inv (fun s => CtlInv cfg s ∧ StopInv s)
    (fun a b c d => ⟨ctlInv_new cfg a b c d, fun x hx => by cases hx⟩)
    (fun _ _ h1 h2 => ⟨ctlInv_micro hl hm h1.1 h2, stopInv_micro hl hm h1.1 h1.2 h2⟩)
    (fun _ _ _ h1 h2 => ⟨ctlInv_microFail hl hm h1.1 h2, stopInv_microFail hl hm h1.1 h1.2 h2⟩)).2

/-- The attempts of a call, including those before it, were made under the stop time that was in force when it began. -/
theorem solve_stops {cfg : Cfg ν n q K} (hl : NlsLegal cfg) (hm : 0 ≤ cfg.hmaxInv) {s s' : State ν n q K} {rf sf : Nat}
    {tout T : K} {task : Task} {r : Except Err Status} (hC : CtlInv cfg s) (hI : StopInv s) (ht : s.tstop = some T)
    (h : solve cfg rf sf s tout task = .ret s' r) : ∀ x ∈ s'.g.atts, x.stop = some T := by
  have hold : ∀ x ∈ s.g.atts, x.stop = some T := fun x hx => (hI x hx).2 T ht
  cases solve_outcome h with
  | rejected e h0 h1 h2 =>
    rw [(firstCall_same h1).g, (begun_same s tout task).2.2.2.g]
    exact hold
  | early h0 h1 =>
    rw [(laterEnds_idle h1).g]
    exact hold
  | loop p k hL hE =>
    have hp : p.tstop = some T := hL.pending.tstop.trans ht
    have hIp : StopInv p := by
      by_cases hn : p.cnt.nst = 0
      · have hk : k = 0 := by have := hL.nst; omega
        have hs0 : s.cnt.nst = 0 := by have := hL.nst; omega
        obtain ⟨s1, hf, rfl⟩ := hL.first hs0 hk
        have hb := (begun_same s tout task).2.2.2
        have hs := firstCall_same hf
        exact hI.of_eq (hs.g.trans hb.g) (hs.tstop.trans hb.tstop)
      · exact stopInv_micros hl hm hC hI (hL.ready (by omega)).1
    have pre : ∀ p1, preStep cfg p k = .go p1 → StopInv p1 ∧ p1.tstop = some T := by
      intro p1 hp1
      have := preStep_cases cfg p k
      rw [hp1] at this
      cases this with
      | go _ _ hs _ _ _ _ _ _ _ _ => exact ⟨hIp.of_eq hs.g hs.tstop, hs.tstop.trans hp⟩
    cases hE with
    | pre h1 =>
      have := preStep_cases cfg p k
      rw [h1] at this
      cases this with
      | limit _ _ => exact fun x hx => (hIp x hx).2 T hp
      | weights _ _ _ hs _ _ _ _ _ => rw [hs.g]; exact fun x hx => (hIp x hx).2 T hp
      | accuracy _ _ hs _ _ _ _ _ => rw [hs.g]; exact fun x hx => (hIp x hx).2 T hp
    | failed p1 p2 e h1 h2 h3 =>
      obtain ⟨i1, i2⟩ := pre p1 h1
      have hS := pass_start hl hm hC hL h1
      rcases step_ctl hl hm hS.max hS.within h2 with ⟨he, -⟩ | ⟨e, -, hF⟩
      · cases he
      · rw [stepFailed_g h3]
        exact fun x hx => (stopInv_fail hS.ctl i1 hF x hx).2 T (by rw [hF.tstop]; exact i2)
    | post p1 p2 h1 h2 h3 =>
      obtain ⟨i1, i2⟩ := pre p1 h1
      have hS := pass_start hl hm hC hL h1
      rcases step_ctl hl hm hS.max hS.within h2 with ⟨-, hD⟩ | ⟨e, he, -⟩
      · rw [postEnds_g h3]
        exact fun x hx => (stopInv_done hS.ctl i1 hD x hx).2 T (by rw [hD.tstop]; exact i2)
      · cases he

theorem att_between {x : Att n K} {T : K} (h0 : x.hh ≠ 0) (h1 : x.tnew = x.t0 + x.hh) (h2 : (x.tnew - T) * x.hh ≤ 0)
    (h3 : 0 ≤ x.t0 * x.hh) : Between 0 x.tnew T := by
  have hp : 0 < x.tnew * x.hh := by
    rw [h1, add_mul]
    exact add_pos_of_nonneg_of_pos h3 (mul_self_pos.2 h0)
  rcases lt_or_gt_of_ne h0 with hn | hn
  · right
    constructor
    · by_contra hc
      exact absurd h2 (not_le.2 (mul_pos_of_neg_of_neg (sub_neg.2 (not_le.1 hc)) hn))
    · exact (neg_of_mul_pos_left hp hn.le).le
  · left
    constructor
    · exact (pos_of_mul_pos_left hp hn.le).le
    · by_contra hc
      exact absurd h2 (not_le.2 (mul_pos (sub_pos.2 (not_le.1 hc)) hn))

/-- With the stop time `T` in force at the beginning of the call, the residual has only been evaluated from 0 to `T`. -/
theorem calls_between {cfg : Cfg ν n q K} (hl : NlsLegal cfg) (hu : NlsUses cfg) (hm : 0 ≤ cfg.hmaxInv)
    {s s' : State ν n q K} {rf sf : Nat} {op : Op K} {r : Res n K} {T : K} (hr : Reach cfg s) (ht : s.tstop = some T)
    (h : exec cfg rf sf s op = some (s', r)) : ∀ t y yp, UCall.res t y yp ∈ s'.m.log → Between 0 t T := by
  have hr' : Reach cfg s' := .call rf sf op r hr h
  have hst : ∀ x ∈ s'.g.atts, x.stop = some T := by
    unfold exec at h
    split at h
    · rename_i tout tret task
      split at h
      · rename_i h1
        cases h
        exact solve_stops (s := { s with tret := tret }) hl hm
          ((hr.ctl hl hm).of_scale hm rfl rfl rfl rfl (Or.inl rfl) ⟨1, one_pos, le_refl _, by rw [one_mul]⟩)
          ((hr.stopInv hl hm).of_eq rfl rfl) ht h1
      · cases h
    · split at h
      · rename_i h1
        cases h
        rw [getSolution_g h1]
        exact fun x hx => (hr.stopInv hl hm x hx).2 T ht
      · cases h
    · split at h
      · rename_i h1
        cases h
        rw [getDky_state h1]
        exact fun x hx => (hr.stopInv hl hm x hx).2 T ht
      · cases h
  intro t y yp hc
  obtain ⟨x, hx, rfl, -⟩ := (Props.callsOk_reach hu hr').res t y yp hc
  obtain ⟨a1, a2, -, a3⟩ := (hr'.ctl hl hm).atts x hx
  exact att_between a1 a2 (a3 T (hst x hx)) (hr'.stopInv hl hm x hx).1

end

end Verif
