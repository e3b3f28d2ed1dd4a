import Verif.Proofs.Select

/-! # The choice of order and step size: invariant of the histories without step failure (exact arithmetic) -/

set_option autoImplicit false
set_option linter.unusedSectionVars false
set_option linter.unusedSimpArgs false
set_option linter.unusedVariables false

namespace Verif

open Verif.Spec

universe u v

section
variable {ν : Type v} {n q : Nat} {K : Type u} [Field K] [LinearOrder K] [IsStrictOrderedRing K] [ExactParams K]
  [EpsLaws K]

/-- Invariant of the histories without step failure. -/
structure SelInv (cfg : Cfg ν n q K) (s : State ν n q K) : Prop where
  law : AllChosen cfg s.g.atts
  next : 0 < s.cnt.nst → Chosen cfg s.g.atts (nextPlan s s.e.tn)
  ns : 0 < s.cnt.nst → s.c.ns = min (streak s.g.atts) (s.c.kused + 2)
  nsn : 0 < s.cnt.nst → s.c.ns ≤ s.cnt.nst
  phase : 0 < s.cnt.nst → (s.c.phase = 0 ↔ inStartUp cfg s.g.atts = true)

/-- Invariant of the attempt loop. -/
structure SelLoop (cfg : Cfg ν n q K) (s0 s : State ν n q K) : Prop where
  law : AllChosen cfg s.g.atts
  next : Chosen cfg s.g.atts (nextPlan s s0.e.tn)
  ns : s.c.ns = min (streak s.g.atts) (s.c.kused + 2)
  nsn : s.c.hh = s.c.hused → s.c.kk = s.c.kused → s.c.ns ≤ s0.cnt.nst
  phase : s.c.phase = 0 ↔ inStartUp cfg s.g.atts = true
  more : s.c.hh = s.c.hused → s.c.kk = s.c.kused → s.c.kk < s.c.ns → s.c.kk < cfg.maxord → 0 < s0.cnt.nst →
    Data s.e.tn s.h s.g.acc (s.c.kk + 1)

theorem nextNs_eq (c : Ctl K) :
    nextNs c = min ((if c.hh = c.hused ∧ c.kk = c.kused then c.ns else 0) + 1) (c.kused + 2) := by
  unfold nextNs
  simp only [Scalar.neb, ex_eqb]
  by_cases h1 : c.hh = c.hused <;> by_cases h2 : c.kk = c.kused <;> simp [h1, h2]

theorem find_append {l : List (Att n K)} (hl : ∀ z ∈ l, z.out ≠ .accepted) (r : List (Att n K)) :
    (l ++ r).find? isAccepted = r.find? isAccepted := by
  induction l with
  | nil => rfl
  | cons x l ih =>
    have : isAccepted x = false := by
      rw [← Bool.not_eq_true, isAccepted_iff]; exact hl x (by simp)
    rw [List.cons_append, List.find?_cons, this]
    exact ih fun z hz => hl z (by simp [hz])

/-- The counter of equal steps. -/
theorem SelLoop.streak {cfg : Cfg ν n q K} {s0 s : State ν n q K} {f : Fails} (hC : CtlLoop s0 s) (hT0 : TraceInv cfg s0)
    (hT : TraceLoop cfg s0 s f) (h : SelLoop cfg s0 s) {x : Att n K} (hh : x.hh = s.c.hh) (hk : x.kk = s.c.kk) :
    nextNs s.c = min (streak (x :: s.g.atts)) (s.c.kused + 2) ∧
    ((s.c.hh = s.c.hused ∧ s.c.kk = s.c.kused) ∨ (Spec.streak (x :: s.g.atts) = 1 ∧ nextNs s.c = 1)) := by
  rw [nextNs_eq]
  by_cases hz : s0.cnt.nst = 0
  · have hku := hT.start hz
    have hkk := hT.kk1
    have hne : ¬ (s.c.hh = s.c.hused ∧ s.c.kk = s.c.kused) := fun h => by omega
    rw [if_neg hne]
    have hf : s.g.atts.find? isAccepted = none := by
      obtain ⟨l, h1, h2⟩ := hC.atts
      rw [h1, find_append (fun z hz => (h2 z hz).2), (hT0.zero hz).1]; rfl
    have hs : Spec.streak (x :: s.g.atts) = 1 := by unfold Spec.streak; rw [hf]
    rw [hs]
    exact ⟨rfl, Or.inr ⟨rfl, by omega⟩⟩
  · obtain ⟨l, y, r, h1, h2, h3, h4, h5, -⟩ := hT.last (by omega)
    have hf : s.g.atts.find? isAccepted = some y := by
      rw [h1, find_append h2, List.find?_cons, (isAccepted_iff y).2 h3]
    have hs : Spec.streak (x :: s.g.atts) = if x.hh = y.hh ∧ x.kk = y.kk then Spec.streak s.g.atts + 1 else 1 := by
      conv_lhs => unfold Spec.streak
      rw [hf]
    rw [hs, h4, h5, hh, hk]
    by_cases he : s.c.hh = s.c.hused ∧ s.c.kk = s.c.kused
    · rw [if_pos he, if_pos he, h.ns]
      exact ⟨by omega, Or.inl he⟩
    · rw [if_neg he, if_neg he]
      exact ⟨rfl, Or.inr ⟨rfl, by omega⟩⟩

theorem selLoop_init {cfg : Cfg ν n q K} {s : State ν n q K} (hT : TraceInv cfg s) (hH : HistInv cfg s) (h : SelInv cfg s) :
    SelLoop cfg s (firstStepInit s) := by
  have hi := firstStepInit_cnt s
  by_cases hz : s.cnt.nst = 0
  · have e : firstStepInit s = { s with c.kk := 1, c.kused := 0, c.hused := 0, h.psi := upd s.h.psi 0 s.c.hh, e.cj := Scalar.recip s.c.hh
                                        c.phase := 0, c.ns := 0 } := by
      unfold firstStepInit; rw [if_pos hz]
    obtain ⟨ha, -⟩ := hT.zero hz
    rw [e]
    have h10 : (1 : Nat) = 0 → False := by omega
    refine ⟨h.law, ?_, ?_, (fun _ h => (h10 h).elim), ?_, (fun _ h => (h10 h).elim)⟩
    · show Chosen cfg s.g.atts _; rw [ha]; rfl
    · show 0 = min (Spec.streak s.g.atts) _; rw [ha]; rfl
    · show 0 = 0 ↔ inStartUp cfg s.g.atts = true; rw [ha]; simp [inStartUp]
  · have e : firstStepInit s = s := by unfold firstStepInit; rw [if_neg hz]
    have hp : 0 < s.cnt.nst := by omega
    rw [e]
    refine ⟨h.law, h.next hp, h.ns hp, fun _ _ => h.nsn hp, h.phase hp, fun _ h2 h3 h4 _ => ?_⟩
    have := hH.data hp
    rwa [← h2, Nat.min_eq_left (by omega)] at this

theorem startUp_fail {cfg : Cfg ν n q K} {x : Att n K} {l : List (Att n K)} (h : x.out ≠ .accepted) :
    ¬ inStartUp cfg (x :: l) = true := by
  rw [inStartUp_cons, isAccepted_iff]
  rintro ⟨⟨h1, -⟩, -⟩
  exact h h1

/-- A failed attempt. -/
theorem sel_again {cfg : Cfg ν n q K} {s0 s s' : State ν n q K} {f f' : Fails} (hl : NlsLegal cfg) (hCtl : CtlInv cfg s0)
    (hI : HistInv cfg s0) (hT0 : TraceInv cfg s0) (hm : 0 < s0.cnt.nst → s0.c.kk ≤ cfg.maxord)
    (hw : Within s0.tstop s0.e.tn s0.c.hh) (h0 : s0.c.hh ≠ 0) (hC : CtlLoop s0 s) (hT : TraceLoop cfg s0 s f)
    (hH : HistLoop s0 s) (h : SelLoop cfg s0 s) (ha : attempt cfg s0.e.tn s f = .again s' f') : SelLoop cfg s0 s' := by
  obtain ⟨s3, r, out, err, a, b, s6, h1, hV, hJ, hP, hHd, rfl⟩ := (attempt_judged cfg s0.e.tn s f).2 s' f' ha
  have hR := hP.restored hl
  have hg : (restored (s3.note s0.e.tn (errCoef s) out) s0.e.tn).g =
      { s.g with atts := attRec s s0.e.tn s3.ee out :: s.g.atts } := h1.note_g s0.e.tn out
  have hE := hH.estimates hCtl hI hm hw hC h0 s3.ee out
  have hkn3 : (restored (s3.note s0.e.tn (errCoef s) out) s0.e.tn).c.knew = s3.c.knew := rfl
  generalize hs5 : restored (s3.note s0.e.tn (errCoef s) out) s0.e.tn = s5 at *
  generalize hx : attRec s s0.e.tn s3.ee out = x at *
  have hxk : x.kk = s.c.kk := by rw [← hx]; rfl
  have hxh : x.hh = s.c.hh := by rw [← hx]; rfl
  have hxo : x.out = out := by rw [← hx]; rfl
  have hxp : planOf x = nextPlan s s0.e.tn := by rw [← hx]; rfl
  obtain ⟨c1, c2, c3, c4, c5, c6, c7, c8, -, -, -, c12, -⟩ := handled_ctl hHd
  obtain ⟨d, hd1, hd2, hd3, hd4⟩ := handled_hh hR.legal hHd
  have hxa : x.out ≠ .accepted := by
    rw [hxo]
    rcases hV with ⟨-, -, -, ho⟩ | ⟨-, -, ho⟩ <;> rw [ho] <;> simp
  have h5h : s5.c.hh = s.c.hh := by rw [hR.c]
  have h5k : s5.c.kk = s.c.kk := by rw [hR.c]
  have hat : s6.g.atts = x :: s.g.atts := by rw [c8, hg]
  have hns6 : s6.c.ns = nextNs s.c := by rw [c5, hR.c]
  have hus : s6.c.hused = s.c.hused := by rw [c4, hR.c]
  have huk : s6.c.kused = s.c.kused := by rw [c2, hR.c]
  obtain ⟨st1, st2⟩ := h.streak hC hT0 hT hxh hxk
  have hns1 : s6.c.hh = s6.c.hused → s6.c.ns ≤ 1 := by
    intro hh
    rw [hns6]
    rcases st2 with he | ⟨-, he⟩
    · exfalso
      have h6 : s6.c.hh = d * s.c.hh := by rw [hd3, h5h]
      rw [hh, hus, ← he.1] at h6
      have h7 : (1 - d) * s.c.hh = 0 := by linear_combination h6
      rcases mul_eq_zero.1 h7 with h8 | h8
      · have := hd4 rfl
        have h9 : d = 1 := by linear_combination -h8
        rw [h9] at this; norm_num at this
      · exact hT.hh0 h8
    · omega
  have hk1 : 1 ≤ s6.c.kk := by
    have := hT.kk1
    rcases c1 with c1 | ⟨c1 | c1, c1', -⟩
    · omega
    · rcases hR.knew c1' with h | ⟨h, h'⟩ <;> omega
    · omega
  -- the choice
  have hch : s6.c.kk = (choice cfg s.g.atts x).1 ∧ s6.c.hh = (choice cfg s.g.atts x).2 := by
    have hjt : err = .ida .testFail → x.out = .testFail ∧ s5.c.knew = orderRetry cfg x ∧ a = estimate cfg x x.kk ∧
        (1 < x.kk → b = estimate cfg x (x.kk - 1)) := by
      intro he
      rcases hV with ⟨hr, -, -, ho⟩ | ⟨hr, -, ho⟩
      · exfalso
        subst hr
        obtain ⟨m', hm', -⟩ := h1.solve
        have := hl _ _ _ _ _ _ _ _ _ _ _ _ hm'
        rw [he] at this; exact this
      · refine ⟨by rw [hxo, ho], ?_⟩
        rw [hkn3]
        exact (hJ hr).spec x hE hxk
    have hjn : ∀ e, err = .ida (.recoverableFail e) → x.out = .nlsFail err ∧ e ≠ .constraint := by
      intro e he
      rcases hV with ⟨hr, -, -, ho⟩ | ⟨hr, h2, ho⟩
      · subst hr
        obtain ⟨m', hm', -⟩ := h1.solve
        have := hl _ _ _ _ _ _ _ _ _ _ _ _ hm'
        rw [he] at this
        exact ⟨by rw [hxo, ho], this⟩
      · rw [h2] at he; cases he
    unfold choice
    cases hHd with
    | test1 rr g1 g2 =>
      obtain ⟨j1, j2, j3, j4⟩ := hjt rfl
      simp only [j1]
      rw [(testFails_test (l := s.g.atts) j1).1, ← hT.nef, g1]
      simp only [zero_add, if_true]
      refine ⟨j2, ?_⟩
      show s5.c.hh * rr = _
      rw [h5h, hxh, g2, j2, h5k, ← hxk]
      have hen : (if x.kk = orderRetry cfg x then a else b) = estimate cfg x (orderRetry cfg x) := by
        unfold orderRetry
        by_cases hlow : lowers cfg x = true
        · rw [if_pos hlow]
          have h2 := lowers_two hlow
          rw [if_neg (by omega), j4 (by omega)]
        · rw [if_neg hlow, if_pos rfl, j3]
      rw [hen]
      simp only [ratio, ex_max, ex_min, ex_quarter, ex_pt9, ex_powf, ex_two, ex_pt0001, ex_recip, ex_ofNat]
    | test2 g1 =>
      obtain ⟨j1, j2, j3, j4⟩ := hjt rfl
      simp only [j1]
      rw [(testFails_test (l := s.g.atts) j1).1, ← hT.nef, g1]
      simp only [Nat.reduceAdd, if_true]
      refine ⟨j2, ?_⟩
      show s5.c.hh * (1 / 4) = _
      rw [h5h, hxh]; rfl
    | test3 g1 g2 =>
      obtain ⟨j1, j2, j3, j4⟩ := hjt rfl
      simp only [j1]
      rw [(testFails_test (l := s.g.atts) j1).1, ← hT.nef, if_neg (by omega), if_neg (by omega)]
      refine ⟨rfl, ?_⟩
      show s5.c.hh * (1 / 4) = _
      rw [h5h, hxh]
    | conv rec g1 =>
      obtain ⟨j1, j2⟩ := hjn rec rfl
      simp only [j1]
      refine ⟨by show s5.c.kk = _; rw [h5k, hxk], ?_⟩
      show s5.c.hh * (if rec = Rec.constraint then _ else _) = _
      rw [if_neg j2, h5h, hxh, ex_quarter]
  obtain ⟨e1, e2, e3, e4, -⟩ := ite_reset_ctl s6 (s6.cnt.nst = 0)
  refine ⟨?_, ?_, ?_, ?_, ?_, ?_⟩
  · rw [e4, hat]; exact ⟨by rw [hxp]; exact h.next, h.law⟩
  · unfold nextPlan
    rw [e4, e1, hat]
    exact ⟨hch.1, Or.inl hch.2⟩
  · rw [e1, e4, hat, hns6, huk]; exact st1
  · rw [e1]
    intro g1 g2
    have := hns1 g1
    have hp : 0 < s0.cnt.nst := by
      by_contra hz
      have := hT.start (by omega)
      rw [huk] at g2
      omega
    omega
  · rw [e1, e4, hat, c12]
    exact ⟨(fun h => by cases h), fun h => absurd h (startUp_fail hxa)⟩
  · rw [e1]
    intro g1 g2 g3
    have := hns1 g1
    omega

/-- An accepted attempt. -/
theorem sel_done {cfg : Cfg ν n q K} {s0 s s1 s' : State ν n q K} {f : Fails} {ck a b : K} (hCtl : CtlInv cfg s0)
    (hI : HistInv cfg s0) (hT0 : TraceInv cfg s0) (hm : 0 < s0.cnt.nst → s0.c.kk ≤ cfg.maxord)
    (hw : Within s0.tstop s0.e.tn s0.c.hh) (h0 : s0.c.hh ≠ 0) (hC : CtlLoop s0 s) (hT : TraceLoop cfg s0 s f)
    (hH : HistLoop s0 s) (h : SelLoop cfg s0 s) (ha : attempt cfg s0.e.tn s f = .done s1 ck a b)
    (hc : completeStep cfg s1 a b = some s') : SelInv cfg s' := by
  obtain ⟨s3, h3, hJ, rfl⟩ := (attempt_judged cfg s0.e.tn s f).1 s1 ck a b ha
  have hCo := completeStep_eq hc
  have hg := hCo.g.trans (done_ghost h3)
  have hE := hH.estimates hCtl hI hm hw hC h0 s3.ee .accepted
  have hup := hH.estimate_up hCtl hI hm hw hC h0 s3.ee .accepted
  generalize hx : attRec s s0.e.tn s3.ee .accepted = x at *
  have hxk : x.kk = s.c.kk := by rw [← hx]; rfl
  have hxh : x.hh = s.c.hh := by rw [← hx]; rfl
  have hxo : x.out = .accepted := by rw [← hx]; rfl
  have hxp : planOf x = nextPlan s s0.e.tn := by rw [← hx]; rfl
  have hat : s'.g.atts = x :: s.g.atts := by rw [hg]
  have h3k : s3.c.kk = s.c.kk := by rw [h3.c]
  have h3h : s3.c.hh = s.c.hh := by rw [h3.c]
  have h3n : s3.c.ns = nextNs s.c := by rw [h3.c]
  have h3p : s3.c.phase = s.c.phase := by rw [h3.c]
  have h3u : s3.c.kused = s.c.kused := by rw [h3.c]
  obtain ⟨st1, st2⟩ := h.streak hC hT0 hT hxh hxk
  have hsame : s.c.hh = s.c.hused ∧ s.c.kk = s.c.kused → 0 < s0.cnt.nst := by
    intro he
    by_contra hz
    have := hT.start (by omega)
    have := hT.kk1
    omega
  obtain ⟨j1, j2, j3⟩ := hJ.spec x hE hxk
  have hK : Known cfg ((s3.note s0.e.tn (errCoef s) .accepted).noteAcc s0.e.tn) x s.g.atts a b := by
    refine ⟨by show s3.c.kk = _; rw [h3k, hxk], by show s3.c.hh = _; rw [h3h, hxh], by rw [hxk]; exact hT.kk1,
      by rw [hxk]; exact hT.kkm, hxo, j1, j2, j3, ?_, ?_, ?_, ?_, ?_⟩
    · show x.kk + 2 ≤ s3.c.ns ↔ _
      rw [h3n, hxk]
      rcases st2 with he | ⟨he1, he2⟩
      · rw [st1, ← he.2]; omega
      · rw [he1, he2]
    · intro hk
      have hk' : s.c.kk = s.c.kused + 1 := by rw [← hxk, ← h3u]; exact hk
      show s3.c.ns ≤ _
      rw [h3n]
      rcases st2 with he | ⟨he1, he2⟩ <;> omega
    · intro g1 g2
      have g1' : x.kk + 2 ≤ nextNs s.c := by rw [← h3n]; exact g1
      have hle := nextNs_le s.c
      rcases st2 with he | ⟨he1, he2⟩
      · rw [if_pos he] at hle
        have hn := hsame he
        have hns := h.nsn he.1 he.2
        have hd := h.more he.1 he.2 (by omega) (by omega) hn
        rw [hxk]
        show _ = wrmsNorm cfg.id (vsub s3.ee (s3.h.phi _)) s3.e.ewt cfg.suppressalg / _
        rw [h3.h, h3.e]
        exact hup hn he (by omega) hd (by rw [hC.acc, hCtl.len hn]; omega)
      · omega
    · show s3.c.phase = 0 ↔ _
      rw [h3p]; exact h.phase
    · intro hp
      have hp' : s.c.phase = 0 := by rw [← h3p]; exact hp
      obtain ⟨-, -, p3⟩ := hT.phase hp'
      show s3.cnt.nst = 0 ↔ _
      rw [h3.cnt, ← p3, List.length_eq_zero_iff]
  obtain ⟨k1, k2, k3⟩ := completeStep_choice hK hc
  have hnst : s'.cnt.nst = s.cnt.nst + 1 := by rw [hCo.nst]; show s3.cnt.nst + 1 = _; rw [h3.cnt]
  have hns' : s'.c.ns = nextNs s.c := by rw [hCo.ns]; exact h3n
  refine ⟨?_, fun _ => ?_, fun _ => ?_, fun _ => ?_, fun _ => ?_⟩
  · rw [hat]; exact ⟨by rw [hxp]; exact h.next, h.law⟩
  · rw [hat]; exact ⟨k1, Or.inl k2⟩
  · rw [hns', hat, hCo.kused]
    show _ = min _ (s3.c.kk + 2)
    rw [h3k]
    rcases st2 with he | ⟨he1, he2⟩
    · rw [st1, ← he.2]
    · rw [he1, he2]; omega
  · rw [hns', hnst, hC.cnt]
    have hle := nextNs_le s.c
    rcases st2 with he | ⟨he1, he2⟩
    · rw [if_pos he] at hle
      have := h.nsn he.1 he.2
      omega
    · omega
  · rw [hat]; exact k3

theorem step_sel {cfg : Cfg ν n q K} {s0 s' : State ν n q K} {r : Except Err Unit} (hl : NlsLegal cfg)
    (hm1 : 1 ≤ cfg.maxord) (hmI : 0 ≤ cfg.hmaxInv) (hCtl : CtlInv cfg s0) (hO : OrdInv cfg s0) (hT : TraceInv cfg s0)
    (hI : HistInv cfg s0) (hS : SelInv cfg s0)
    (hb : |s0.c.hh| * cfg.hmaxInv ≤ 1) (hw : Within s0.tstop s0.e.tn s0.c.hh) (h0 : s0.c.hh ≠ 0)
    (h : step cfg s0 = .ret s' r) :
    (r = .ok () ∧ SelInv cfg s') ∨ (∃ e, r = .error e ∧ AllChosen cfg s'.g.atts) :=
  have hm : 0 < s0.cnt.nst → s0.c.kk ≤ cfg.maxord := fun hp => (hO.kk hp).2
  step_rule (cfg := cfg) (fun s f => CtlLoop s0 s ∧ TraceLoop cfg s0 s f ∧ HistLoop s0 s ∧ SelLoop cfg s0 s) (SelInv cfg)
    (fun s _ => AllChosen cfg s.g.atts)
    ⟨ctlLoop_init s0, traceLoop_init hm1 hT h0 hO.kk, histLoop_init hI hO, selLoop_init hT hI hS⟩
    (fun s1 f s' f' hL h => by
      have hS' := sel_again hl hCtl hI hT hm hw h0 hL.1 hL.2.1 hL.2.2.1 hL.2.2.2 h
      obtain ⟨err, a, b, s5, s6, hR, hH, rfl⟩ := attempt_again' hl h
      exact ⟨(ctlLoop_handled hw hL.1 hR hH).of_reset _, ((trace_handled hm1 hL.2.1 hR hH).1 rfl).of_reset _,
        (hist_handled hCtl hI hm hw h0 hL.1 hL.2.2.1 hR hH).1 rfl, hS'⟩)
    (fun s1 f s2 ck a b s' hL h hc => by
      have := sel_done hCtl hI hT hm hw h0 hL.1 hL.2.1 hL.2.2.1 hL.2.2.2 h hc
      exact ⟨this.law, this.next, this.ns, this.nsn, this.phase⟩)
    (fun s1 f s' e hL h => by
      obtain ⟨err, a, b, f', s5, hR, hH⟩ := attempt_fail' hl h
      obtain ⟨-, -, -, -, -, -, -, c8, -⟩ := handled_ctl hH
      obtain ⟨ee, hg⟩ := hR.ghost
      rw [c8, hg]
      exact ⟨hL.2.2.2.next, hL.2.2.2.law⟩) h

theorem SelInv.of_first {cfg : Cfg ν n q K} {s s' : State ν n q K} (h : SelInv cfg s) (hz : s.cnt.nst = 0)
    (hs : FirstSame s s') : SelInv cfg s' := by
  have hn : s'.cnt.nst = 0 := by rw [hs.cnt]; exact hz
  exact ⟨by rw [hs.g]; exact h.law, fun h => by omega, fun h => by omega, fun h => by omega, fun h => by omega⟩

theorem SelInv.of_same {cfg : Cfg ν n q K} {s s' : State ν n q K} (h : SelInv cfg s) (hc : s'.c = s.c)
    (hg : s'.g = s.g) (hn : s'.cnt.nst = s.cnt.nst) (htn : s'.e.tn = s.e.tn) : SelInv cfg s' := by
  refine ⟨by rw [hg]; exact h.law, ?_, by rw [hn, hc, hg]; exact h.ns, by rw [hn, hc]; exact h.nsn,
    by rw [hn, hc, hg]; exact h.phase⟩
  unfold nextPlan; rw [hn, hg, htn, hc]; exact h.next

theorem SelInv.of_clamp {cfg : Cfg ν n q K} {s : State ν n q K} (h : SelInv cfg s) (hT : TraceInv cfg s) {ts : K}
    (hts : s.tstop = some ts) : SelInv cfg (clampToStop s ts) := by
  unfold clampToStop
  split
  · refine ⟨h.law, fun hp => ?_, h.ns, h.nsn, h.phase⟩
    obtain ⟨x, l, h1, h2, -, -, -, h6⟩ := hT.last hp
    have hF := h.next hp
    show Chosen cfg s.g.atts _
    rw [h1] at hF ⊢
    exact ⟨hF.1, Or.inr ⟨h2, ts, h6 ts hts, by simp [nextPlan]⟩⟩
  · exact h

/-- All invariants so far. -/
structure SelFull (cfg : Cfg ν n q K) (s : State ν n q K) : Prop where
  full : FullInv cfg s
  sel : SelInv cfg s

theorem selInv_micro {cfg : Cfg ν n q K} (hl : NlsLegal cfg) (hm1 : 1 ≤ cfg.maxord) (hm : 0 ≤ cfg.hmaxInv)
    {s s' : State ν n q K} (hF : SelFull cfg s) (hM : Micro cfg s s') : SelInv cfg s' := by
  have h := hF.sel
  have hC := hF.full.ok.ctl
  have hT := hF.full.ok.trace
  cases hM with
  | frame hf => exact h.of_same hf.c hf.g (by rw [hf.cnt]) (by rw [hf.e])
  | perf => exact h.of_same rfl rfl rfl rfl
  | clear => exact h.of_same rfl rfl rfl rfl
  | clamp ts h1 h2 h3 => exact h.of_clamp hT h2
  | ewt h1 => exact h.of_same rfl rfl rfl rfl
  | first tout r h1 h2 => exact h.of_first h1 (firstCall_same h2)
  | firstStep tout h1 h2 h3 h4 =>
    rename_i sa sb
    obtain ⟨g1, g2, g3, g4, g5, -⟩ := firstStep_start hm hC h1 h2 h3
    have hT2 := ((hT.of_first h1 (firstCall_same h2)).of_same (s' := perfReset _) rfl rfl rfl rfl (Or.inl rfl)).of_frame h3
    have hS2 := ((h.of_first h1 (firstCall_same h2)).of_same (s' := perfReset _) rfl rfl rfl rfl).of_same h3.c h3.g
      (by rw [h3.cnt]) (by rw [h3.e])
    have hH : HistInv cfg sb := ((hF.full.hist.of_first h1 (firstCall_same h2)).of_scale (s' := perfReset sa) rfl rfl rfl rfl rfl rfl
      rfl rfl ⟨1, one_pos, le_refl _, by rw [one_mul]; rfl⟩).of_frame h3
    have hO : OrdInv cfg sb :=
      ordInv_micro hl hm1 (ordInv_micro hl hm1 (ordInv_micro hl hm1 hF.full.ok.ord (.first tout (.ok ()) h1 h2)) (.perf _)) (.frame h3)
    rcases step_sel hl hm1 hm g1 hO hT2 hH hS2 g3 g4 (right_ne_zero_of_mul g2.ne') h4 with ⟨-, h⟩ | ⟨e, he, -⟩
    · exact h
    · cases he
  | step h1 h2 h3 =>
    rcases step_sel hl hm1 hm hC hF.full.ok.ord hT hF.full.hist h (hC.hmax h1) h2.within
      (left_ne_zero_of_mul (hC.used h1).ne') h3 with ⟨-, h⟩ | ⟨e, he, -⟩
    · exact h
    · cases he

theorem selInv_new (cfg : Cfg ν n q K) (nls0 : ν) (yy0 yp0 : Vec n K) (tstop : Option K) :
    SelInv cfg { State.new nls0 yy0 yp0 with tstop := tstop } :=
  ⟨trivial, (fun h => by cases h), (fun h => by cases h), (fun h => by cases h), (fun h => by cases h)⟩

theorem selFull_micro {cfg : Cfg ν n q K} (hl : NlsLegal cfg) (hm1 : 1 ≤ cfg.maxord) (hm : 0 ≤ cfg.hmaxInv)
    {s s' : State ν n q K} (hF : SelFull cfg s) (hM : Micro cfg s s') : SelFull cfg s' :=
  ⟨fullInv_micro hl hm1 hm hF.full hM, selInv_micro hl hm1 hm hF hM⟩

theorem ReachOk.selFull {cfg : Cfg ν n q K} (hl : NlsLegal cfg) (hm1 : 1 ≤ cfg.maxord) (hm : 0 ≤ cfg.hmaxInv)
    {s : State ν n q K} (h : ReachOk cfg s) : SelFull cfg s :=
  h.inv (SelFull cfg) (fun a b c d => ⟨⟨⟨ctlInv_new cfg a b c d, ordInv_new cfg a b c d, traceInv_new cfg a b c d⟩,
    histInv_new cfg a b c d⟩, selInv_new cfg a b c d⟩) (fun _ _ => selFull_micro hl hm1 hm)

/-- The call in which a step fails. -/
theorem sel_fail {cfg : Cfg ν n q K} (hl : NlsLegal cfg) (hm1 : 1 ≤ cfg.maxord) (hm : 0 ≤ cfg.hmaxInv)
    {s s' : State ν n q K} {e : Err} (hF : SelFull cfg s) (hM : MicroFail cfg s e s') : AllChosen cfg s'.g.atts := by
  have h := hF.sel
  have hC := hF.full.ok.ctl
  have hT := hF.full.ok.trace
  cases hM with
  | firstStep tout e h1 h2 h3 h4 =>
    rename_i sa sb
    obtain ⟨g1, g2, g3, g4, g5, -⟩ := firstStep_start hm hC h1 h2 h3
    have hT2 := ((hT.of_first h1 (firstCall_same h2)).of_same (s' := perfReset _) rfl rfl rfl rfl (Or.inl rfl)).of_frame h3
    have hS2 := ((h.of_first h1 (firstCall_same h2)).of_same (s' := perfReset _) rfl rfl rfl rfl).of_same h3.c h3.g
      (by rw [h3.cnt]) (by rw [h3.e])
    have hH : HistInv cfg sb := ((hF.full.hist.of_first h1 (firstCall_same h2)).of_scale (s' := perfReset sa) rfl rfl rfl rfl rfl rfl
      rfl rfl ⟨1, one_pos, le_refl _, by rw [one_mul]; rfl⟩).of_frame h3
    have hO : OrdInv cfg sb :=
      ordInv_micro hl hm1 (ordInv_micro hl hm1 (ordInv_micro hl hm1 hF.full.ok.ord (.first tout (.ok ()) h1 h2)) (.perf _)) (.frame h3)
    rcases step_sel hl hm1 hm g1 hO hT2 hH hS2 g3 g4 (right_ne_zero_of_mul g2.ne') h4 with ⟨he, -⟩ | ⟨e, he, hx⟩
    · cases he
    · exact hx
  | step e h1 h2 h3 =>
    rcases step_sel hl hm1 hm hC hF.full.ok.ord hT hF.full.hist h (hC.hmax h1) h2.within
      (left_ne_zero_of_mul (hC.used h1).ne') h3 with ⟨he, -⟩ | ⟨e, he, hx⟩
    · cases he
    · exact hx

/-- One more call after a history without step failure. -/
theorem exec_sel {cfg : Cfg ν n q K} (hl : NlsLegal cfg) (hm1 : 1 ≤ cfg.maxord) (hm : 0 ≤ cfg.hmaxInv) {rf sf : Nat}
    {s s' : State ν n q K} {op : Op K} {r : Res n K} (hs : ReachOk cfg s) (h : exec cfg rf sf s op = some (s', r)) :
    AllChosen cfg s'.g.atts := by
  have hI := hs.selFull hl hm1 hm
  rcases exec_ends h with ⟨r', hr', hend⟩ | ⟨hno, hmic⟩
  · cases hend with
    | clean h1 hb => exact (h1.inv (fun _ _ => selFull_micro hl hm1 hm) hI).sel.law
    | failed s1 s2 e h1 h2 h3 h4 =>
      have := sel_fail hl hm1 hm (h1.inv (fun _ _ => selFull_micro hl hm1 hm) hI) h2
      rw [← h3.g] at this
      exact this
  · exact (hmic.inv (fun _ _ => selFull_micro hl hm1 hm) hI).sel.law

end

end Verif
