import Verif.Proofs.FirstStep

/-! # The current solution, retried attempts, and the BDF formula -/

set_option autoImplicit false
set_option linter.unusedSectionVars false
set_option linter.unusedSimpArgs false
set_option linter.unusedVariables false

namespace Verif

open Polynomial Finset Verif.Spec

universe u v

section
variable {ν : Type v} {n q : Nat} {K : Type u} [Field K] [LinearOrder K] [IsStrictOrderedRing K] [ExactParams K]
  [EpsLaws K]

/-! ## The leading history vector is the last accepted solution, in every history -/

theorem nextNs_pos (c : Ctl K) : 1 ≤ nextNs c := by unfold nextNs; simp only; omega

theorem coefRaw_phi (s : State ν n q K) : (coefRaw s).phi = s.h.phi := by
  unfold coefRaw; split <;> rfl

theorem coefHist_phi0 (s : State ν n q K) : (coefHist s).phi 0 = s.h.phi 0 := by
  have h := nextNs_pos s.c
  unfold coefHist
  simp only
  split
  · unfold scalePhi; rw [if_neg (by omega), coefRaw_phi]
  · rw [coefRaw_phi]

theorem restored_phi0 (s : State ν n q K) (t0 : K) (h : 1 ≤ s.c.ns) : (restored s t0).h.phi 0 = s.h.phi 0 := by
  unfold restored
  simp only
  split
  · unfold scalePhi; rw [if_neg (by omega)]
  · rfl

/-- The most recent accepted point is the current time and the leading history vector. -/
def HeadInv (s : State ν n q K) : Prop := 0 < s.cnt.nst → ∃ r, s.g.acc = (s.e.tn, s.h.phi 0) :: r

structure HeadLoop (s0 s : State ν n q K) : Prop where
  cnt : s.cnt.nst = s0.cnt.nst
  acc : s.g.acc = s0.g.acc
  tn : s.e.tn = s0.e.tn
  phi : 0 < s0.cnt.nst → s.h.phi 0 = s0.h.phi 0

theorem head_handled {cfg : Cfg ν n q K} {s0 s s5 s6 : State ν n q K} {err : Err} {a b : K} {f f' : Fails}
    {r : Except Err Unit} (h : HeadLoop s0 s) (hR : Restored cfg s0.e.tn s s5 err) (hH : Handled cfg s5 a b f err s6 f' r) :
    HeadLoop s0 s6 := by
  obtain ⟨c1, c2, c3, c4, c5, c6, c7, c8, -, -, -, -, -⟩ := handled_ctl hH
  obtain ⟨ee, hg⟩ := hR.ghost
  obtain ⟨s3, g1, g2, g3, g4, g5⟩ := hR.h
  refine ⟨by rw [c3, hR.cnt]; exact h.cnt, by rw [c8, hg]; exact h.acc, by rw [c7]; exact hR.tn, fun hp => ?_⟩
  rw [c6, g5, restored_phi0 _ _ (by rw [g3]; exact nextNs_pos _), g1, coefHist_phi0]
  exact h.phi hp

theorem head_step {cfg : Cfg ν n q K} {s0 s' : State ν n q K} {r : Except Err Unit} (hl : NlsLegal cfg)
    (hI : HeadInv s0) (h : step cfg s0 = .ret s' r) : HeadInv s' := by
  have key := step_rule (cfg := cfg) (fun s _ => HeadLoop s0 s) HeadInv (fun s _ => HeadInv s)
    (r := r) (s := s0) (s' := s')
    (by
      obtain ⟨e1, e2, e3, e4, e5, e6, -⟩ := firstStepInit_cnt s0
      exact ⟨by rw [e1], by rw [e2], e3, fun _ => by rw [e6]⟩)
    (fun s1 f s' f' hL h => by
      obtain ⟨err, a, b, s5, s6, hR, hH, rfl⟩ := attempt_again' hl h
      have := head_handled hL hR hH
      by_cases hz : s6.cnt.nst = 0
      · rw [if_pos hz]
        have h0 := this.cnt
        exact ⟨this.cnt, this.acc, this.tn, fun hp => by omega⟩
      · rw [if_neg hz]; exact this)
    (fun s1 f s2 ck a b s' hL h hc => by
      obtain ⟨s3, h3, -, -, -, -, rfl⟩ := attempt_done h
      have hCo := completeStep_eq hc
      have hg := hCo.g.trans (done_ghost h3)
      intro _
      refine ⟨(if s1.cnt.nst = 0 then [(s0.e.tn, (coefHist s1).phi 0)] else s1.g.acc), ?_⟩
      show s'.g.acc = (s'.e.tn, s'.h.phi 0) :: _
      have e1 : s'.e.tn = newTime s1 := by rw [hCo.e]; show s3.e.tn = _; rw [h3.e]; rfl
      have h3k : s3.c.kk = s1.c.kk := by rw [h3.c]
      have e2 : s'.h.phi 0 = vadd (predY s1) s3.ee := by
        rw [hCo.phi]
        show updatePhi cfg.maxord s3.c.kk s3.ee s3.h.phi 0 = _
        obtain ⟨u1, -, -⟩ := updatePhi_eq cfg.maxord s3.c.kk s3.ee s3.h.phi
        funext i
        rw [u1 0 (Nat.zero_le _), h3.h, h3k]
        show _ = predY s1 i + s3.ee i
        unfold predY
        rw [forUp_vadd]
        simp only [vzero, zero_add]
        rw [add_comm, range_eq_Ico]
      rw [hg, e1, e2])
    (fun s1 f s' e hL h => by
      obtain ⟨err, a, b, f', s5, hR, hH⟩ := attempt_fail' hl h
      have := head_handled hL hR hH
      intro hp
      rw [this.acc, this.tn, this.phi (by have := this.cnt; omega)]
      exact hI (by have := this.cnt; omega)) h
  rcases key with ⟨-, h⟩ | ⟨e, -, h⟩
  · exact h
  · exact h

theorem HeadInv.of_eq {s s' : State ν n q K} (h : HeadInv s) (hg : s'.g = s.g) (hn : s'.cnt = s.cnt)
    (htn : s'.e.tn = s.e.tn) (hh : s'.h = s.h) : HeadInv s' := by
  intro hp
  rw [hg, htn, hh]
  exact h (by rw [← hn]; exact hp)

theorem headInv_first {cfg : Cfg ν n q K} {s s1 s2 : State ν n q K} {tout : K} (hz : s.cnt.nst = 0)
    (g2 : firstCall cfg s tout = .ret s1 (.ok ())) (g3 : Frame (perfReset s1) s2) : HeadInv s2 := by
  intro hp
  exfalso
  rw [g3.cnt] at hp
  have : s1.cnt.nst = 0 := by rw [(firstCall_same g2).cnt]; exact hz
  have e : (perfReset s1).cnt.nst = s1.cnt.nst := rfl
  omega

theorem Reach.head {cfg : Cfg ν n q K} (hl : NlsLegal cfg) {s : State ν n q K} (h : Reach cfg s) : HeadInv s :=
  h.inv HeadInv (fun _ _ _ _ h => by cases h)
    (fun s s' hI hM => by
      cases hM with
      | frame hf => exact hI.of_eq hf.g hf.cnt (by rw [hf.e]) hf.h
      | perf => exact hI.of_eq rfl rfl rfl rfl
      | clear => exact hI.of_eq rfl rfl rfl rfl
      | clamp ts h1 h2 h3 =>
        unfold clampToStop
        split
        · exact hI.of_eq rfl rfl rfl rfl
        · exact hI
      | ewt h1 => exact hI.of_eq rfl rfl rfl rfl
      | first tout r h1 h2 => intro hp; rw [(firstCall_same h2).cnt] at hp; omega
      | firstStep tout h1 h2 h3 h4 => exact head_step hl (headInv_first h1 h2 h3) h4
      | step h1 h2 h3 => exact head_step hl hI h3)
    (fun s e s' hI hF => by
      cases hF with
      | firstStep tout e h1 h2 h3 h4 => exact head_step hl (headInv_first h1 h2 h3) h4
      | step e h1 h2 h3 => exact head_step hl hI h3)

/-! ## Retried attempts start from the same points -/

/-- In the list of attempts, an attempt that follows a failed one starts from the same accepted points (all steps but
the first). -/
def SameStart : List (Att n K) → Prop
  | x :: y :: r => (y.out ≠ .accepted → 2 ≤ x.before.length → x.before = y.before) ∧ SameStart (y :: r)
  | _ => True

theorem SameStart.append {A : List (K × Vec n K)} {l r : List (Att n K)} (hl : ∀ x ∈ l, x.before = A) (hr : SameStart r)
    (hA : ∀ y r', r = y :: r' → y.out = .accepted) : SameStart (l ++ r) := by
  induction l with
  | nil => exact hr
  | cons x l ih =>
    have ih := ih (fun z hz => hl z (List.mem_cons_of_mem _ hz))
    cases l with
    | nil =>
      cases r with
      | nil => trivial
      | cons y r' => exact ⟨fun hy => absurd (hA y r' rfl) hy, hr⟩
    | cons y l' =>
      refine ⟨fun _ _ => ?_, ih⟩
      rw [hl x (List.mem_cons_self ..), hl y (List.mem_cons_of_mem _ (List.mem_cons_self ..))]

theorem SameStart.short {l : List (Att n K)} (h : ∀ x ∈ l, x.before.length < 2) : SameStart l := by
  induction l with
  | nil => trivial
  | cons x l ih =>
    cases l with
    | nil => trivial
    | cons y l' =>
      refine ⟨fun _ h2 => ?_, ih fun z hz => h z (List.mem_cons_of_mem _ hz)⟩
      have := h x (List.mem_cons_self ..)
      omega

theorem SameStart.split {p r : List (Att n K)} {x y : Att n K} (h : SameStart (p ++ x :: y :: r))
    (hy : y.out ≠ .accepted) (h2 : 2 ≤ x.before.length) : x.before = y.before := by
  induction p with
  | nil => exact h.1 hy h2
  | cons z p ih =>
    refine ih ?_
    cases p with
    | nil => exact h.2
    | cons w p' => exact h.2

/-- The attempts of a first step start from one point. -/
theorem step_before_first {cfg : Cfg ν n q K} {s0 s' : State ν n q K} {r : Except Err Unit} (hl : NlsLegal cfg)
    (hw : Within s0.tstop s0.e.tn s0.c.hh) (hp : s0.cnt.nst = 0)
    (h : step cfg s0 = .ret s' r) : ∃ l, s'.g.atts = l ++ s0.g.atts ∧ ∀ x ∈ l, x.before.length < 2 := by
  let Good (s : State ν n q K) : Prop := ∃ l, s.g.atts = l ++ s0.g.atts ∧ ∀ x ∈ l, x.before.length < 2
  have hrec : ∀ s ee out, CtlLoop s0 s → (attRec s s0.e.tn ee out).before.length < 2 := by
    intro s ee out hC
    show (if s.cnt.nst = 0 then _ else _ : List (K × Vec n K)).length < 2
    rw [if_pos (by rw [hC.cnt]; exact hp)]; simp
  have hh : ∀ s s5 s6 err a b f f' r, CtlLoop s0 s → Good s → Restored cfg s0.e.tn s s5 err →
      Handled cfg s5 a b f err s6 f' r → Good s6 := by
    intro s s5 s6 err a b f f' r hC hG hR hH
    obtain ⟨-, -, -, -, -, -, -, c8, -⟩ := handled_ctl hH
    obtain ⟨ee, hg⟩ := hR.ghost
    obtain ⟨l, hl1, hl2⟩ := hG
    refine ⟨attRec s s0.e.tn ee (if err = .ida .testFail then .testFail else .nlsFail err) :: l, by rw [c8, hg, hl1]; rfl,
      fun x hx => ?_⟩
    rcases List.mem_cons.1 hx with rfl | hx
    · exact hrec _ _ _ hC
    · exact hl2 x hx
  have key := step_rule (cfg := cfg) (fun s _ => CtlLoop s0 s ∧ Good s) Good (fun s _ => Good s)
    (r := r) (s := s0) (s' := s')
    ⟨ctlLoop_init s0, [], by rw [(firstStepInit_cnt s0).2.1]; rfl, (fun x hx => by cases hx)⟩
    (fun s1 f s' f' hL h => by
      obtain ⟨err, a, b, s5, s6, hR, hH, rfl⟩ := attempt_again' hl h
      refine ⟨(ctlLoop_handled hw hL.1 hR hH).of_reset _, ?_⟩
      have := hh _ _ _ _ _ _ _ _ _ hL.1 hL.2 hR hH
      obtain ⟨-, -, -, e4, -⟩ := ite_reset_ctl s6 (s6.cnt.nst = 0)
      show ∃ l, (if s6.cnt.nst = 0 then reset s6 else s6).g.atts = _ ∧ _
      rw [e4]; exact this)
    (fun s1 f s2 ck a b s' hL h hc => by
      obtain ⟨s3, h3, -, -, -, -, rfl⟩ := attempt_done h
      have hg := (completeStep_eq hc).g.trans (done_ghost h3)
      obtain ⟨l, hl1, hl2⟩ := hL.2
      show Good _
      refine ⟨attRec s1 s0.e.tn s3.ee .accepted :: l, ?_, fun x hx => ?_⟩
      · show s'.g.atts = _
        rw [hg, hl1]; rfl
      · rcases List.mem_cons.1 hx with rfl | hx
        · exact hrec _ _ _ hL.1
        · exact hl2 x hx)
    (fun s1 f s' e hL h => by
      obtain ⟨err, a, b, f', s5, hR, hH⟩ := attempt_fail' hl h
      exact hh _ _ _ _ _ _ _ _ _ hL.1 hL.2 hR hH) h
  rcases key with ⟨-, h⟩ | ⟨e, -, h⟩
  · exact h
  · exact h

/-- Invariants with the retry rule. -/
structure RetryInv (cfg : Cfg ν n q K) (s : State ν n q K) : Prop where
  full : FullInv cfg s
  same : SameStart s.g.atts

theorem sameStart_step {cfg : Cfg ν n q K} (hl : NlsLegal cfg) {s s' : State ν n q K} {r : Except Err Unit}
    (h : RetryInv cfg s) (h1 : 0 < s.cnt.nst) (hw : Within s.tstop s.e.tn s.c.hh) (hs : step cfg s = .ret s' r) :
    SameStart s'.g.atts := by
  obtain ⟨l, hl1, hl2⟩ := step_before hl hw h1 hs
  rw [hl1]
  refine SameStart.append hl2 h.same fun y r' hy => ?_
  obtain ⟨x, t, e1, e2, -⟩ := h.full.ok.trace.last h1
  rw [e1] at hy; cases hy; exact e2

theorem sameStart_firstStep {cfg : Cfg ν n q K} (hl : NlsLegal cfg) (hm : 0 ≤ cfg.hmaxInv)
    {s s1 s2 s' : State ν n q K} {tout : K} {r : Except Err Unit} (h : RetryInv cfg s) (hz : s.cnt.nst = 0)
    (h1 : firstCall cfg s tout = .ret s1 (.ok ())) (h2 : Frame (perfReset s1) s2) (h3 : step cfg s2 = .ret s' r) :
    SameStart s'.g.atts := by
  obtain ⟨g1, g2, g3, g4, g5, -⟩ := firstStep_start hm h.full.ok.ctl hz h1 h2
  obtain ⟨l, a1, a2⟩ := step_before_first hl g4 g5 h3
  have e0 : s2.g.atts = [] := by
    rw [h2.g]; show s1.g.atts = []; rw [(firstCall_same h1).g]; exact (h.full.ok.trace.zero hz).1
  rw [a1, e0, List.append_nil]
  exact SameStart.short a2

theorem retryInv_micro {cfg : Cfg ν n q K} (hl : NlsLegal cfg) (hm1 : 1 ≤ cfg.maxord) (hm : 0 ≤ cfg.hmaxInv)
    {s s' : State ν n q K} (h : RetryInv cfg s) (hM : Micro cfg s s') : RetryInv cfg s' := by
  refine ⟨fullInv_micro hl hm1 hm h.full hM, ?_⟩
  cases hM with
  | frame hf => rw [hf.g]; exact h.same
  | perf => exact h.same
  | clear => exact h.same
  | clamp ts h1 h2 h3 =>
    unfold clampToStop
    split
    · exact h.same
    · exact h.same
  | ewt h1 => exact h.same
  | first tout r h1 h2 => rw [(firstCall_same h2).g]; exact h.same
  | firstStep tout h1 h2 h3 h4 => exact sameStart_firstStep hl hm h h1 h2 h3 h4
  | step h1 h2 h3 => exact sameStart_step hl h h1 h2.within h3

/-- One more call after a history without step failure. -/
theorem exec_sameStart {cfg : Cfg ν n q K} (hl : NlsLegal cfg) (hm1 : 1 ≤ cfg.maxord) (hm : 0 ≤ cfg.hmaxInv) {rf sf : Nat}
    {s s' : State ν n q K} {op : Op K} {r : Res n K} (hs : ReachOk cfg s) (h : exec cfg rf sf s op = some (s', r)) :
    SameStart s'.g.atts := by
  have hI : RetryInv cfg s := hs.inv (RetryInv cfg)
    (fun a b c d => ⟨(ReachOk.new (cfg := cfg) a b c d).full hl hm1 hm, trivial⟩) (fun _ _ => retryInv_micro hl hm1 hm)
  rcases exec_ends h with ⟨r', hr', hend⟩ | ⟨hno, hmic⟩
  · cases hend with
    | clean h1 hb => exact (h1.inv (fun _ _ => retryInv_micro hl hm1 hm) hI).same
    | failed s1 s2 e h1 h2 h3 h4 =>
      have hI1 := h1.inv (fun _ _ => retryInv_micro hl hm1 hm) hI
      rw [h3.g]
      cases h2 with
      | firstStep tout e g1 g2 g3 g4 => exact sameStart_firstStep hl hm hI1 g1 g2 g3 g4
      | step e g1 g2 g3 => exact sameStart_step hl hI1 g1 g2.within g3
  · exact (hmic.inv (fun _ _ => retryInv_micro hl hm1 hm) hI).same

/-! ## Calls that accept no step -/

/-- Either a step was accepted, or the history is as it was. -/
def Keeps (s s' : State ν n q K) : Prop :=
  0 < s.cnt.nst → s.cnt.nst < s'.cnt.nst ∨ (s'.cnt.nst = s.cnt.nst ∧ s'.h = s.h ∧ s'.c.kused = s.c.kused ∧
    s'.c.hused = s.c.hused ∧ s'.e.tn = s.e.tn ∧ s'.g = s.g ∧ ∃ c, 0 < c ∧ c ≤ 1 ∧ s'.c.hh = c * s.c.hh)

theorem Keeps.trans {a b c : State ν n q K} (h : Keeps a b) (h' : Keeps b c) : Keeps a c := by
  intro h0
  rcases h h0 with h1 | ⟨h1, h2, h3, h4, h5, h6, d, d1, d2, d3⟩
  · rcases h' (by omega) with k1 | ⟨k1, -⟩
    · exact Or.inl (by omega)
    · exact Or.inl (by omega)
  · rcases h' (by omega) with k1 | ⟨k1, k2, k3, k4, k5, k6, e, e1, e2, e3⟩
    · exact Or.inl (by omega)
    · exact Or.inr ⟨by omega, by rw [k2, h2], by rw [k3, h3], by rw [k4, h4], by rw [k5, h5], by rw [k6, h6], e * d,
        mul_pos e1 d1, mul_le_one₀ e2 d1.le d2, by rw [e3, d3, mul_assoc]⟩

theorem Keeps.of_eq {s s' : State ν n q K} (hn : s'.cnt.nst = s.cnt.nst) (hh : s'.h = s.h) (hc : s'.c = s.c)
    (htn : s'.e.tn = s.e.tn) (hg : s'.g = s.g) : Keeps s s' :=
  fun _ => Or.inr ⟨hn, hh, by rw [hc], by rw [hc], htn, hg, 1, one_pos, le_refl _, by rw [hc, one_mul]⟩

theorem keeps_micro {cfg : Cfg ν n q K} (hl : NlsLegal cfg) (hm : 0 ≤ cfg.hmaxInv) {s s' : State ν n q K}
    (hC : CtlInv cfg s) (hM : Micro cfg s s') : Keeps s s' := by
  cases hM with
  | frame hf => exact .of_eq (by rw [hf.cnt]) hf.h hf.c (by rw [hf.e]) hf.g
  | perf => exact .of_eq rfl rfl rfl rfl rfl
  | clear => exact .of_eq rfl rfl rfl rfl rfl
  | clamp ts h1 h2 h3 =>
    intro h0
    right
    obtain ⟨c, c1, c2, c3⟩ := clamp_spec (clamp_near hC h1 h2 h3)
    refine ⟨?_, ?_, ?_, ?_, ?_, ?_, c, c1, c2, c3⟩ <;> (unfold clampToStop; split <;> rfl)
  | ewt h1 => exact .of_eq rfl rfl rfl rfl rfl
  | first tout r h1 h2 => intro h0; omega
  | firstStep tout h1 h2 h3 h4 => intro h0; omega
  | step h1 h2 h3 =>
    intro h0
    left
    rcases step_ctl hl hm (hC.hmax h1) h2.within h3 with ⟨-, hD⟩ | ⟨e, he, -⟩
    · have := hD.nst; omega
    · cases he

theorem keeps_micros {cfg : Cfg ν n q K} (hl : NlsLegal cfg) (hm : 0 ≤ cfg.hmaxInv) {s s' : State ν n q K}
    (hC : CtlInv cfg s) (hM : Micros cfg s s') : CtlInv cfg s' ∧ Keeps s s' := by
  induction hM with
  | refl => exact ⟨hC, .of_eq rfl rfl rfl rfl rfl⟩
  | tail _ h ih => exact ⟨ctlInv_micro hl hm ih.1 h, ih.2.trans (keeps_micro hl hm ih.1 h)⟩

/-! ## The BDF formula -/

/-- `∏_{i=1..k} (X - (t - i h)) / (i h)` -/
noncomputable def bdfPoly (k : Nat) (t h : K) : K[X] :=
  ∏ i ∈ range k, (X - C (t - ((i : K) + 1) * h)) * C (((i : K) + 1) * h)⁻¹

theorem bdfPoly_succ (k : Nat) (t h : K) :
    bdfPoly (k + 1) t h = bdfPoly k t h * ((X - C (t - ((k : K) + 1) * h)) * C (((k : K) + 1) * h)⁻¹) := by
  unfold bdfPoly; rw [prod_range_succ]

theorem bdfPoly_natDegree (k : Nat) (t h : K) : (bdfPoly k t h).natDegree ≤ k := by
  induction k with
  | zero => simp [bdfPoly]
  | succ k ih =>
    rw [bdfPoly_succ]
    refine natDegree_mul_le.trans (Nat.add_le_add ih ?_)
    refine natDegree_mul_le.trans ?_
    rw [natDegree_C, natDegree_X_sub_C]

theorem bdfPoly_eval {k : Nat} {t h : K} (h0 : h ≠ 0) : (bdfPoly k t h).eval t = 1 := by
  unfold bdfPoly
  rw [eval_prod]
  refine prod_eq_one fun i _ => ?_
  have : ((i : K) + 1) * h ≠ 0 := mul_ne_zero (Nat.cast_add_one_ne_zero i) h0
  simp only [eval_mul, eval_sub, eval_X, eval_C]
  rw [sub_sub_cancel, mul_inv_cancel₀ this]

theorem bdfPoly_deriv {k : Nat} {t h : K} (h0 : h ≠ 0) :
    (derivative (bdfPoly k t h)).eval t = harmonicSum K k / h := by
  induction k with
  | zero => simp [bdfPoly, harmonicSum]
  | succ k ih =>
    have : ((k : K) + 1) * h ≠ 0 := mul_ne_zero (Nat.cast_add_one_ne_zero k) h0
    have hk : ((k : K) + 1) ≠ 0 := Nat.cast_add_one_ne_zero k
    rw [bdfPoly_succ, derivative_mul, eval_add, eval_mul, eval_mul (p := bdfPoly k t h), ih, bdfPoly_eval h0]
    have e : harmonicSum K (k + 1) = harmonicSum K k + ((k : K) + 1)⁻¹ := by
      unfold harmonicSum; rw [sum_range_succ]
    rw [e]
    simp only [eval_mul, eval_sub, eval_X, eval_C, derivative_mul, derivative_sub, derivative_X, derivative_C, eval_add,
      eval_one, eval_zero, sub_sub_cancel, sub_zero, one_mul, mul_zero, add_zero]
    field_simp

theorem bdfPoly_node {k j : Nat} (t h : K) (h1 : 1 ≤ j) (h2 : j ≤ k) : (bdfPoly k t h).eval (t - j * h) = 0 := by
  unfold bdfPoly
  rw [eval_prod]
  refine prod_eq_zero (i := j - 1) (mem_range.2 (by omega)) ?_
  have : ((j - 1 : Nat) : K) + 1 = j := by
    rw [Nat.cast_sub h1]; simp
  simp only [eval_mul, eval_sub, eval_X, eval_C, this, sub_self, zero_mul]

/-- The pair of an attempt satisfies the fixed-leading-coefficient formula for its predictor polynomial. -/
theorem bdf_form {x : Att n K} (hh : x.hh ≠ 0) (hcj : x.cj = harmonicSum K x.kk / x.hh) (hyy : x.yy = vadd x.pred x.ee)
    (hyp : x.yp = scaledAdd x.predp x.cj x.ee) {Q : Fin n → K[X]} (hd : ∀ i, (Q i).natDegree ≤ x.kk)
    (hQ : ∀ i, x.pred i = (Q i).eval x.tnew ∧ x.predp i = (derivative (Q i)).eval x.tnew) :
    FixedLeadingBdf x.kk x.tnew x.hh Q x.yy x.yp := by
  intro i
  refine ⟨Q i + C (x.ee i) * bdfPoly x.kk x.tnew x.hh, ?_, ?_, ?_, fun j h1 h2 => ?_⟩
  · refine (natDegree_add_le _ _).trans (max_le (hd i) ?_)
    exact (natDegree_C_mul_le _ _).trans (bdfPoly_natDegree _ _ _)
  · rw [eval_add, eval_mul, eval_C, bdfPoly_eval hh, hyy]
    show _ = x.pred i + x.ee i
    rw [(hQ i).1]; ring
  · rw [derivative_add, derivative_C_mul, eval_add, eval_mul, eval_C, bdfPoly_deriv hh, hyp]
    show _ = x.predp i + x.cj * x.ee i
    rw [(hQ i).2, hcj]; ring
  · rw [eval_add, eval_mul, bdfPoly_node _ _ h1 h2, mul_zero, add_zero]

theorem AttHist.bdf {x : Att n K} (h : AttHist x) {Q : Fin n → K[X]} (hd : ∀ i, (Q i).natDegree ≤ x.kk)
    (hQ : ∀ i, x.pred i = (Q i).eval x.tnew ∧ x.predp i = (derivative (Q i)).eval x.tnew) :
    FixedLeadingBdf x.kk x.tnew x.hh Q x.yy x.yp := bdf_form h.hh h.cj h.yy h.yp hd hQ

end

end Verif
