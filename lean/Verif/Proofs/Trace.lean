import Verif.Proofs.Control
import Verif.Spec.Trace
import Mathlib.Tactic.LinearCombination

/-! # The law of the step sequence (exact arithmetic) -/

set_option autoImplicit false
set_option linter.unusedSectionVars false
set_option linter.unusedSimpArgs false
set_option linter.unusedVariables false

namespace Verif

open Relation Verif.Spec

universe u v

section
variable {ν : Type v} {n q : Nat} {K : Type u} [Field K] [LinearOrder K] [IsStrictOrderedRing K] [ExactParams K]
  [EpsLaws K]

theorem isAccepted_iff (x : Att n K) : isAccepted x = true ↔ x.out = .accepted := by
  unfold isAccepted; cases x.out <;> simp

theorem sinceAccepted_acc {x : Att n K} {l : List (Att n K)} (h : x.out = .accepted) : sinceAccepted (x :: l) = [] := by
  unfold sinceAccepted
  rw [List.takeWhile_cons, (isAccepted_iff x).2 h]; rfl

theorem sinceAccepted_fail {x : Att n K} {l : List (Att n K)} (h : x.out ≠ .accepted) :
    sinceAccepted (x :: l) = x :: sinceAccepted l := by
  unfold sinceAccepted
  have : isAccepted x = false := by
    rw [← Bool.not_eq_true, isAccepted_iff]; exact h
  rw [List.takeWhile_cons, this]; rfl

theorem testFails_test {x : Att n K} {l : List (Att n K)} (h : x.out = .testFail) :
    testFails (x :: l) = testFails l + 1 ∧ convFails (x :: l) = convFails l := by
  unfold testFails convFails
  rw [sinceAccepted_fail (by rw [h]; simp), List.countP_cons, List.countP_cons]
  simp [isTestFail, isNlsFail, h]

theorem convFails_nls {x : Att n K} {l : List (Att n K)} {e : Err} (h : x.out = .nlsFail e) :
    convFails (x :: l) = convFails l + 1 ∧ testFails (x :: l) = testFails l := by
  unfold testFails convFails
  rw [sinceAccepted_fail (by rw [h]; simp), List.countP_cons, List.countP_cons]
  simp [isTestFail, isNlsFail, h]

theorem runLength_fail {x : Att n K} {l : List (Att n K)} (h : x.out ≠ .accepted) :
    runLength (x :: l) = runLength l := by
  have : isAccepted x = false := by
    rw [← Bool.not_eq_true, isAccepted_iff]; exact h
  unfold runLength
  rw [List.filter_cons, this]; rfl

theorem runLength_pos {x : Att n K} {l : List (Att n K)} (h : x.out = .accepted) : 1 ≤ runLength (x :: l) := by
  unfold runLength
  rw [List.filter_cons, (isAccepted_iff x).2 h]
  simp only [if_true]; omega

theorem runLength_append {l : List (Att n K)} (hl : ∀ x ∈ l, x.out ≠ .accepted) (r : List (Att n K)) :
    runLength (l ++ r) = runLength r := by
  induction l with
  | nil => rfl
  | cons x l ih =>
    rw [List.cons_append, runLength_fail (hl x (by simp))]
    exact ih fun y hy => hl y (by simp [hy])

/-- One more equal step. -/
theorem runLength_same {x y : Att n K} {l r : List (Att n K)} (hx : x.out = .accepted) (hy : y.out = .accepted)
    (hl : ∀ z ∈ l, z.out ≠ .accepted) (hh : x.hh = y.hh) (hk : x.kk = y.kk) :
    runLength (x :: (l ++ (y :: r))) = runLength (y :: r) + 1 := by
  have h1 : l.filter isAccepted = [] := by
    rw [List.filter_eq_nil_iff]
    intro z hz h; exact hl z hz ((isAccepted_iff z).1 h)
  unfold runLength
  rw [List.filter_cons, (isAccepted_iff x).2 hx, List.filter_append, h1, List.nil_append, List.filter_cons,
    (isAccepted_iff y).2 hy]
  simp only [if_true]
  rw [List.takeWhile_cons]
  simp only [hh, hk, decide_true, Bool.and_self, if_true, List.length_cons]
  omega

/-- The plan for the next attempt in the state `s`, if the step starts at `t0`. -/
def nextPlan (s : State ν n q K) (t0 : K) : Plan K := { t0 := t0, hh := s.c.hh, kk := s.c.kk }

theorem planOf_attRec (s : State ν n q K) (t0 : K) (ee : Vec n K) (out : AttOut) :
    planOf (attRec s t0 ee out) = nextPlan s t0 := rfl

/-- While the start-up phase lasts. -/
def PhaseInv (s : State ν n q K) : Prop :=
  s.c.phase = 0 → (∀ x ∈ s.g.atts, x.out = .accepted ∧ x.kk ≤ s.c.kk) ∧ s.g.atts.Pairwise (fun a b => b.kk ≤ a.kk) ∧
    s.g.atts.length = s.cnt.nst

/-- Invariant of the histories without step failure. -/
structure TraceInv (cfg : Cfg ν n q K) (s : State ν n q K) : Prop where
  zero : s.cnt.nst = 0 → s.g.atts = [] ∧ s.e.tn = 0
  lawful : Lawful cfg s.g.atts
  next : 0 < s.cnt.nst → Follows cfg s.g.atts (nextPlan s s.e.tn)
  last : 0 < s.cnt.nst → ∃ x l, s.g.atts = x :: l ∧ x.out = .accepted ∧ x.hh = s.c.hused ∧ x.kk = s.c.kused ∧
    s.c.ns ≤ runLength (x :: l) ∧ ∀ ts, s.tstop = some ts → x.stop = some ts
  phase : 0 < s.cnt.nst → PhaseInv s

/-- Invariant of the attempt loop. -/
structure TraceLoop (cfg : Cfg ν n q K) (s0 s : State ν n q K) (f : Fails) : Prop where
  hh0 : s.c.hh ≠ 0
  kk1 : 1 ≤ s.c.kk
  kkm : s.c.kk ≤ cfg.maxord
  tn : s.e.tn = s0.e.tn
  nst : s.cnt.nst = s0.cnt.nst
  tstop : s.tstop = s0.tstop
  lawful : Lawful cfg s.g.atts
  next : Follows cfg s.g.atts (nextPlan s s0.e.tn)
  nef : f.nef = testFails s.g.atts
  ncf : f.ncf = convFails s.g.atts
  start : s0.cnt.nst = 0 → s.c.kused = 0
  last : 0 < s0.cnt.nst → ∃ l x r, s.g.atts = l ++ x :: r ∧ (∀ z ∈ l, z.out ≠ .accepted) ∧ x.out = .accepted ∧
    x.hh = s.c.hused ∧ x.kk = s.c.kused ∧ (s.c.hh = s.c.hused → s.c.kk = s.c.kused → s.c.ns ≤ runLength (x :: r))
  phase : PhaseInv s

/-- `ns` after the coefficients have been set. -/
theorem nextNs_le (c : Ctl K) : nextNs c ≤ if c.hh = c.hused ∧ c.kk = c.kused then c.ns + 1 else 1 := by
  unfold nextNs
  simp only [Scalar.neb, ex_eqb]
  by_cases h1 : c.hh = c.hused <;> by_cases h2 : c.kk = c.kused <;> simp [h1, h2]

theorem traceLoop_init {cfg : Cfg ν n q K} {s : State ν n q K} (hm1 : 1 ≤ cfg.maxord) (h : TraceInv cfg s)
    (hh : s.c.hh ≠ 0) (hk : 0 < s.cnt.nst → 1 ≤ s.c.kk ∧ s.c.kk ≤ cfg.maxord) :
    TraceLoop cfg s (firstStepInit s) { ncf := 0, nef := 0 } := by
  have hi := firstStepInit_cnt s
  by_cases hz : s.cnt.nst = 0
  · have e : (firstStepInit s).c.kk = 1 ∧ (firstStepInit s).c.kused = 0 := by
      unfold firstStepInit; rw [if_pos hz]; exact ⟨rfl, rfl⟩
    obtain ⟨ha, htn⟩ := h.zero hz
    have hat : (firstStepInit s).g.atts = [] := by rw [hi.2.1, ha]
    refine ⟨by rw [hi.2.2.2.2.1]; exact hh, by omega, by omega, hi.2.2.1, by rw [hi.1], hi.2.2.2.1, ?_, ?_, ?_, ?_,
      fun _ => e.2, fun hp => by omega, ?_⟩
    · rw [hat]; trivial
    · rw [hat]; exact ⟨htn, e.1⟩
    · rw [hat]; rfl
    · rw [hat]; rfl
    · intro _
      rw [hat, hi.1, hz]
      exact ⟨by simp, List.Pairwise.nil, rfl⟩
  · have e : firstStepInit s = s := by unfold firstStepInit; rw [if_neg hz]
    have hp : 0 < s.cnt.nst := by omega
    rw [e]
    obtain ⟨x, l, h1, h2, h3, h4, h5, h6⟩ := h.last hp
    refine ⟨hh, (hk hp).1, (hk hp).2, rfl, rfl, rfl, h.lawful, h.next hp, ?_, ?_, fun h => by omega, fun _ => ?_, h.phase hp⟩
    · unfold testFails; rw [h1, sinceAccepted_acc h2]; rfl
    · unfold convFails; rw [h1, sinceAccepted_acc h2]; rfl
    · exact ⟨[], x, l, h1, by simp, h2, h3, h4, fun _ _ => h5⟩

/-- The failed attempts, whether or not another one follows. -/
theorem trace_handled {cfg : Cfg ν n q K} {s0 s s5 s6 : State ν n q K} {err : Err} {a b : K} {f f' : Fails}
    {r : Except Err Unit} (hm1 : 1 ≤ cfg.maxord) (hI : TraceLoop cfg s0 s f)
    (hR : Restored cfg s0.e.tn s s5 err) (hH : Handled cfg s5 a b f err s6 f' r) :
    (r = .ok () → TraceLoop cfg s0 s6 f') ∧
      (∀ e, r = .error e → Lawful cfg s6.g.atts ∧ GivesUp cfg e s6.g.atts) := by
  obtain ⟨c1, c2, c3, c4, c5, -, c7, c8, -, c10, -, c12, -⟩ := handled_ctl hH
  obtain ⟨ee, hg⟩ := hR.ghost
  obtain ⟨d, hd1, hd2, hd3, hd4⟩ := handled_hh hR.legal hH
  have h5 : s5.c.hh = s.c.hh := by rw [hR.c]
  have h5k : s5.c.kk = s.c.kk := by rw [hR.c]
  have hnc : ∀ rec, err = .ida (.recoverableFail rec) → rec ≠ .constraint := by
    intro rec he
    rcases hR.legal with h | h
    · rw [h] at he; cases he
    · rw [he] at h; exact h
  generalize hx : attRec s s0.e.tn ee (if err = .ida .testFail then .testFail else .nlsFail err) = x at hg
  have hxo : x.out = if err = .ida .testFail then .testFail else .nlsFail err := by rw [← hx]; rfl
  have hxp : planOf x = nextPlan s s0.e.tn := by rw [← hx]; rfl
  have hxt : x.t0 = s0.e.tn := by rw [← hx]; rfl
  have hxh : x.hh = s.c.hh := by rw [← hx]; rfl
  have hxk : x.kk = s.c.kk := by rw [← hx]; rfl
  have hxa : x.out ≠ .accepted := by rw [hxo]; split <;> simp
  have hat : s6.g.atts = x :: s.g.atts := by rw [c8, hg]
  have hlaw : Lawful cfg s6.g.atts := by rw [hat]; exact ⟨by rw [hxp]; exact hI.next, hI.lawful⟩
  have hd0 : d ≠ 0 := fun h0 => by rw [h0] at hd1; norm_num at hd1
  have mk : r = .ok () → Follows cfg s6.g.atts (nextPlan s6 s0.e.tn) → f'.nef = testFails s6.g.atts →
      f'.ncf = convFails s6.g.atts → 1 ≤ s6.c.kk → s6.c.kk ≤ cfg.maxord → TraceLoop cfg s0 s6 f' := by
    intro hr h1 h2 h3 h4 h5'
    refine ⟨by rw [hd3, h5]; exact mul_ne_zero hd0 hI.hh0, h4, h5', by rw [c7, hR.tn], by rw [c3, hR.cnt, hI.nst],
      by rw [c10, hR.tstop, hI.tstop], hlaw, h1, h2, h3, fun h0 => by rw [c2, hR.c]; exact hI.start h0, ?_, ?_⟩
    · intro hp
      obtain ⟨l, y, t, g1, g2, g3, g4, g5, g6⟩ := hI.last hp
      refine ⟨x :: l, y, t, by rw [hat, g1]; rfl, ?_, g3, by rw [c4, hR.c]; exact g4, by rw [c2, hR.c]; exact g5, ?_⟩
      · intro z hz
        rcases List.mem_cons.1 hz with rfl | hz
        · exact hxa
        · exact g2 z hz
      · intro hh hk
        have hne : nextNs s.c ≤ if s.c.hh = s.c.hused ∧ s.c.kk = s.c.kused then s.c.ns + 1 else 1 := nextNs_le s.c
        have hns : s6.c.ns = nextNs s.c := by rw [c5, hR.c]
        have hus : s6.c.hused = s.c.hused := by rw [c4, hR.c]
        rw [hns]
        by_cases hs : s.c.hh = s.c.hused ∧ s.c.kk = s.c.kused
        · -- the step size has been reduced, so it differs from the one last used
          exfalso
          have h6 : s6.c.hh = d * s.c.hh := by rw [hd3, h5]
          rw [hh, hus, ← hs.1] at h6
          have h7 : (1 - d) * s.c.hh = 0 := by linear_combination h6
          rcases mul_eq_zero.1 h7 with h8 | h8
          · have := hd4 hr
            have h9 : d = 1 := by linear_combination -h8
            rw [h9] at this; norm_num at this
          · exact hI.hh0 h8
        · rw [if_neg hs] at hne
          exact le_trans hne (runLength_pos g3)
    · intro h0; rw [c12] at h0; cases h0
  have hkn : err = .ida .testFail → 1 ≤ s5.c.knew ∧ s5.c.knew ≤ cfg.maxord ∧ (s5.c.knew = s.c.kk ∨ s5.c.knew + 1 = s.c.kk) := by
    intro he
    have := hI.kk1
    have := hI.kkm
    rcases hR.knew he with h | ⟨h, h'⟩ <;> omega
  cases hH with
  | test1 rr h1 h2 =>
    simp only [if_true] at hxo
    have hk := hkn rfl
    obtain ⟨t1, t2⟩ := testFails_test (l := s.g.atts) hxo
    have hq : testFails (x :: s.g.atts) = 1 := by rw [t1, ← hI.nef, h1]
    refine ⟨fun hr => mk hr ?_ ?_ ?_ hk.1 hk.2.1, fun e he => by cases he⟩
    · rw [hat]; unfold Follows; simp only [hxo]
      rw [hq]
      refine ⟨Or.inl (by omega), hxt.symm, fun _ => ⟨d, hd1, hd4 rfl, ?_⟩, fun h => absurd rfl h, fun _ => ?_, fun h => by omega⟩
      · show s5.c.hh * rr = _; rw [hxh, ← h5]; exact hd3
      · show s5.c.knew = _ ∨ _; rw [hxk]; exact hk.2.2
    · rw [hat, t1, ← hI.nef]
    · rw [hat, t2, ← hI.ncf]
  | test2 h1 =>
    simp only [if_true] at hxo
    have hk := hkn rfl
    obtain ⟨t1, t2⟩ := testFails_test (l := s.g.atts) hxo
    have hq : testFails (x :: s.g.atts) = 2 := by rw [t1, ← hI.nef, h1]
    refine ⟨fun hr => mk hr ?_ ?_ ?_ hk.1 hk.2.1, fun e he => by cases he⟩
    · rw [hat]; unfold Follows; simp only [hxo]
      rw [hq]
      refine ⟨Or.inl (by omega), hxt.symm, fun h => absurd h (by omega), fun _ => ?_, fun _ => ?_, fun h => by omega⟩
      · show s5.c.hh * (1 / 4) = _; rw [hxh, h5]; ring
      · show s5.c.knew = _ ∨ _; rw [hxk]; exact hk.2.2
    · rw [hat, t1, ← hI.nef]
    · rw [hat, t2, ← hI.ncf]
  | test3 h1 h2 =>
    simp only [if_true] at hxo
    have hk := hkn rfl
    obtain ⟨t1, t2⟩ := testFails_test (l := s.g.atts) hxo
    have hq : testFails (x :: s.g.atts) = f.nef + 1 := by rw [t1, ← hI.nef]
    refine ⟨fun hr => mk hr ?_ ?_ ?_ (le_refl 1) hm1, fun e he => by cases he⟩
    · rw [hat]; unfold Follows; simp only [hxo]
      rw [hq]
      refine ⟨Or.inr h2, hxt.symm, fun h => by omega, fun _ => ?_, fun h => by omega, fun h => rfl⟩
      show s5.c.hh * (1 / 4) = _; rw [hxh, h5]; ring
    · rw [hat, t1, ← hI.nef]
    · rw [hat, t2, ← hI.ncf]
  | testGiveUp h1 h2 =>
    simp only [if_true] at hxo
    obtain ⟨t1, t2⟩ := testFails_test (l := s.g.atts) hxo
    refine ⟨(fun hr => by cases hr), fun e he => ⟨hlaw, ?_⟩⟩
    cases he
    rw [hat]; unfold GivesUp; simp only [hxo]
    rw [t1, ← hI.nef]
    exact ⟨by omega, h2, trivial⟩
  | conv rec h1 =>
    have hxo' : x.out = .nlsFail (.ida (.recoverableFail rec)) := by rw [hxo]; simp
    obtain ⟨t1, t2⟩ := convFails_nls (l := s.g.atts) hxo'
    refine ⟨fun hr => mk hr ?_ ?_ ?_ (by show 1 ≤ s5.c.kk; rw [h5k]; exact hI.kk1)
      (by show s5.c.kk ≤ _; rw [h5k]; exact hI.kkm), fun e he => by cases he⟩
    · rw [hat]; unfold Follows; simp only [hxo']
      rw [t1, ← hI.ncf]
      refine ⟨⟨rec, rfl⟩, h1, hxt.symm, ?_, ?_⟩
      · show s5.c.hh * (if rec = Rec.constraint then _ else _) = _
        rw [if_neg (hnc rec rfl), hxh, h5]
        simp only [ex_quarter]; ring
      · show s5.c.kk = _; rw [h5k, hxk]
    · rw [hat, t2, ← hI.nef]
    · rw [hat, t1, ← hI.ncf]
  | convGiveUp rec h1 =>
    have hxo' : x.out = .nlsFail (.ida (.recoverableFail rec)) := by rw [hxo]; simp
    obtain ⟨t1, t2⟩ := convFails_nls (l := s.g.atts) hxo'
    refine ⟨(fun hr => by cases hr), fun e he => ⟨hlaw, ?_⟩⟩
    injection he with he
    rw [hat]; unfold GivesUp; simp only [hxo']
    right
    rw [t1, ← hI.ncf]
    refine ⟨h1, rec, rfl, ?_⟩
    rw [← he]
    have := hnc rec rfl
    cases rec <;> simp at this ⊢
  | hard e h1 =>
    have hxo' : x.out = .nlsFail err := by rw [hxo, if_neg (h1 _)]
    refine ⟨(fun hr => by cases hr), fun e he => ⟨hlaw, ?_⟩⟩
    injection he with he
    rw [hat]; unfold GivesUp; simp only [hxo']
    exact Or.inl ⟨h1, he.symm⟩

theorem TraceLoop.of_reset {cfg : Cfg ν n q K} {s0 s : State ν n q K} {f : Fails} (h : TraceLoop cfg s0 s f) (p : Prop)
    [Decidable p] : TraceLoop cfg s0 (if p then reset s else s) f := by
  obtain ⟨e1, e2, e3, e4, -, e6, -⟩ := ite_reset_ctl s p
  refine ⟨by rw [e1]; exact h.hh0, by rw [e1]; exact h.kk1, by rw [e1]; exact h.kkm, by rw [e3]; exact h.tn,
    by rw [e2]; exact h.nst, by rw [e6]; exact h.tstop, by rw [e4]; exact h.lawful, ?_, by rw [e4]; exact h.nef,
    by rw [e4]; exact h.ncf, by rw [e1]; exact h.start, by rw [e4, e1]; exact h.last, ?_⟩
  · unfold nextPlan; rw [e4, e1]; exact h.next
  · unfold PhaseInv; rw [e1, e4, e2]; exact h.phase

/-- The phase and order after an accepted step. -/
theorem completeStep_phase {cfg : Cfg ν n q K} {s s' : State ν n q K} {a b : K}
    (h : completeStep cfg s a b = some s') (h0 : s'.c.phase = 0) : s.c.phase = 0 ∧ s.c.kk ≤ s'.c.kk := by
  obtain ⟨s1, hs1, hc⟩ := completeStep_choose h
  have hph : s1.c.phase = (chosenFrom cfg s).c.phase := by rw [(chooseNext_eq hs1).1]
  rw [hc, hph] at h0
  have hkk : (chosenFrom cfg s).c.kk = s.c.kk := by unfold chosenFrom; rw [markPhase_eq]
  have h1 : s.c.phase = 0 := by
    unfold chosenFrom markPhase at h0
    split at h0
    · cases h0
    · exact h0
  refine ⟨h1, ?_⟩
  rw [hc, ← hkk]
  unfold chooseNext at hs1
  rw [if_pos h0] at hs1
  split at hs1 <;> cases hs1
  · exact Nat.le_succ _
  · exact le_refl _

theorem trace_done {cfg : Cfg ν n q K} {s0 s s1 s' : State ν n q K} {f : Fails} {ck a b : K} (hm : 0 ≤ cfg.hmaxInv)
    (hb : |s0.c.hh| * cfg.hmaxInv ≤ 1) (hw : Within s0.tstop s0.e.tn s0.c.hh) (hC0 : CtlLoop s0 s)
    (hI : TraceLoop cfg s0 s f) (h : attempt cfg s0.e.tn s f = .done s1 ck a b)
    (hc : completeStep cfg s1 a b = some s') : TraceInv cfg s' := by
  have hD := ctlLoop_done hm hb hw hC0 h hc
  obtain ⟨s3, h3, -, -, -, -, rfl⟩ := attempt_done h
  have hC := completeStep_eq hc
  have hg := hC.g.trans (done_ghost h3)
  generalize hx : attRec s s0.e.tn s3.ee .accepted = x at hg
  have hxo : x.out = .accepted := by rw [← hx]; rfl
  have hxh : x.hh = s.c.hh := by rw [← hx]; rfl
  have hxk : x.kk = s.c.kk := by rw [← hx]; rfl
  have hxt : x.tnew = newTime s := by rw [← hx]; rfl
  have hxs : x.stop = s0.tstop := by rw [← hx]; exact hI.tstop
  have hat : s'.g.atts = x :: s.g.atts := by rw [hg]
  have h3k : s3.c.kk = s.c.kk := by rw [h3.c]
  have h3h : s3.c.hh = s.c.hh := by rw [h3.c]
  have h3n : s3.c.ns = nextNs s.c := by rw [h3.c]
  have h3p : s3.c.phase = s.c.phase := by rw [h3.c]
  have hnst : s'.cnt.nst = s.cnt.nst + 1 := by rw [hC.nst]; show s3.cnt.nst + 1 = _; rw [h3.cnt]
  have hlaw : Lawful cfg s'.g.atts := by
    rw [hat]; exact ⟨by rw [← hx]; exact hI.next, hI.lawful⟩
  have hord := completeStep_order hc (by show 1 ≤ s3.c.kk; rw [h3k]; exact hI.kk1)
    (by show s3.c.kk ≤ _; rw [h3k]; exact hI.kkm)
    (by show s3.c.knew = s3.c.kk ∨ s3.c.knew = s3.c.kk - 1 ∧ 1 < s3.c.kk; rw [h3k]; exact h3.knew () rfl)
  have hns : s'.c.ns ≤ runLength (x :: s.g.atts) := by
    rw [hC.ns]; show s3.c.ns ≤ _; rw [h3n]
    refine le_trans (nextNs_le s.c) ?_
    by_cases hs : s.c.hh = s.c.hused ∧ s.c.kk = s.c.kused
    · rw [if_pos hs]
      have hp : 0 < s0.cnt.nst := by
        by_contra h0
        have := hI.start (by omega)
        have := hI.kk1
        omega
      obtain ⟨l, y, t, g1, g2, g3, g4, g5, g6⟩ := hI.last hp
      rw [g1, runLength_same hxo g3 g2 (by rw [hxh, g4]; exact hs.1) (by rw [hxk, g5]; exact hs.2)]
      exact Nat.add_le_add_right (g6 hs.1 hs.2) 1
    · rw [if_neg hs]; exact runLength_pos hxo
  have hphase : s'.c.phase = 0 → s.c.phase = 0 ∧ s.c.kk ≤ s'.c.kk := by
    intro h0
    obtain ⟨p1, p2⟩ := completeStep_phase hc h0
    exact ⟨h3p ▸ p1, h3k ▸ p2⟩
  have hPI : PhaseInv s' := by
    intro h0
    obtain ⟨p1, p2⟩ := hphase h0
    obtain ⟨q1, q2, q3⟩ := hI.phase p1
    rw [hat]
    refine ⟨?_, ?_, by rw [List.length_cons, q3, hnst]⟩
    · intro z hz
      rcases List.mem_cons.1 hz with rfl | hz
      · exact ⟨hxo, by rw [hxk]; exact p2⟩
      · exact ⟨(q1 z hz).1, le_trans (q1 z hz).2 p2⟩
    · exact List.Pairwise.cons (fun z hz => by rw [hxk]; exact (q1 z hz).2) q2
  obtain ⟨x', l', hat', hT, -, htn', hus', -, ⟨c, hc1, hc2, hc3⟩, -, -⟩ := hD.last
  have hxx : x' = x := by
    rw [hat] at hat'; exact (List.cons.inj hat').1.symm
  subst hxx
  refine ⟨fun h0 => by omega, hlaw, fun _ => ?_, fun _ => ⟨x', s.g.atts, hat, hxo, hus'.symm, ?_, hns, ?_⟩, fun _ => hPI⟩
  · rw [hat]; unfold Follows; simp only [hxo]
    have hup := hC.up
    have hdn := hC.down
    refine ⟨htn', ?_, ?_, ?_, c, lt_of_lt_of_le (by norm_num) hc1, hc2, hc3, Or.inl hc1⟩
    · show s'.c.kk ≤ _; rw [hxk, ← h3k]; exact hup
    · show _ ≤ s'.c.kk + 1; rw [hxk, ← h3k]; exact hdn
    · intro hk
      have hk' : s'.c.kk = s3.c.kk + 1 := by rw [h3k, ← hxk]; exact hk
      rcases hord.2.2 hk' with ⟨p1, p2, p3⟩ | p1
      · left
        obtain ⟨q1, q2, q3⟩ := hPI p1
        rw [hat] at q1 q2 q3
        refine ⟨fun z hz => (q1 z hz).1, q2, ?_⟩
        have p3' : 1 ≤ s3.cnt.nst := p3
        rw [h3.cnt] at p3'
        rw [q3, hnst]; omega
      · right
        have p1' : s3.c.kk + 2 ≤ s3.c.ns := p1
        have : s'.c.ns = s3.c.ns := hC.ns
        rw [hxk, ← h3k]
        omega
  · rw [hC.kused]; show _ = s3.c.kk; rw [h3k, hxk]
  · intro ts hts
    rw [hxs, ← hD.tstop]; exact hts

/-- A step of a history without step failure. -/
theorem step_trace {cfg : Cfg ν n q K} {s0 s' : State ν n q K} {r : Except Err Unit} (hl : NlsLegal cfg)
    (hm1 : 1 ≤ cfg.maxord) (hm : 0 ≤ cfg.hmaxInv) (hb : |s0.c.hh| * cfg.hmaxInv ≤ 1)
    (hw : Within s0.tstop s0.e.tn s0.c.hh) (h0 : s0.c.hh ≠ 0)
    (hk : 0 < s0.cnt.nst → 1 ≤ s0.c.kk ∧ s0.c.kk ≤ cfg.maxord) (hT : TraceInv cfg s0)
    (h : step cfg s0 = .ret s' r) :
    (r = .ok () ∧ TraceInv cfg s') ∨ (∃ e, r = .error e ∧ Lawful cfg s'.g.atts ∧ GivesUp cfg e s'.g.atts) :=
  step_rule (cfg := cfg) (fun s f => CtlLoop s0 s ∧ TraceLoop cfg s0 s f) (TraceInv cfg)
    (fun s e => Lawful cfg s.g.atts ∧ GivesUp cfg e s.g.atts) ⟨ctlLoop_init s0, traceLoop_init hm1 hT h0 hk⟩
    (fun s1 f s' f' hI h => by
      obtain ⟨err, a, b, s5, s6, hR, hH, rfl⟩ := attempt_again' hl h
      exact ⟨(ctlLoop_handled hw hI.1 hR hH).of_reset _, ((trace_handled hm1 hI.2 hR hH).1 rfl).of_reset _⟩)
    (fun s1 f s2 ck a b s' hI h hc => by
      have := trace_done hm hb hw hI.1 hI.2 h hc
      exact ⟨this.zero, this.lawful, this.next, this.last, this.phase⟩)
    (fun s1 f s' e hI h => by
      obtain ⟨err, a, b, f', s5, hR, hH⟩ := attempt_fail' hl h
      exact (trace_handled hm1 hI.2 hR hH).2 e rfl) h

theorem TraceInv.of_first {cfg : Cfg ν n q K} {s s' : State ν n q K} (h : TraceInv cfg s) (hz : s.cnt.nst = 0)
    (hs : FirstSame s s') : TraceInv cfg s' := by
  have hn : s'.cnt.nst = 0 := by rw [hs.cnt]; exact hz
  obtain ⟨h1, h2⟩ := h.zero hz
  exact ⟨fun _ => ⟨by rw [hs.g]; exact h1, by rw [hs.tn]; exact h2⟩, by rw [hs.g]; exact h.lawful, fun h => by omega,
    fun h => by omega, fun h => by omega⟩

theorem TraceInv.of_same {cfg : Cfg ν n q K} {s s' : State ν n q K} (h : TraceInv cfg s) (hc : s'.c = s.c)
    (hg : s'.g = s.g) (hn : s'.cnt.nst = s.cnt.nst) (htn : s'.e.tn = s.e.tn)
    (hts : s'.tstop = s.tstop ∨ s'.tstop = none) : TraceInv cfg s' := by
  refine ⟨by rw [hn, hg, htn]; exact h.zero, by rw [hg]; exact h.lawful, ?_, ?_, ?_⟩
  · unfold nextPlan; rw [hn, hg, htn, hc]; exact h.next
  · rw [hn]
    intro hp
    obtain ⟨x, l, h1, h2, h3, h4, h5, h6⟩ := h.last hp
    refine ⟨x, l, by rw [hg]; exact h1, h2, by rw [hc]; exact h3, by rw [hc]; exact h4, by rw [hc]; exact h5, ?_⟩
    intro ts ht
    rcases hts with hts | hts
    · exact h6 ts (by rw [← hts]; exact ht)
    · rw [hts] at ht; cases ht
  · unfold PhaseInv; rw [hn, hc, hg]; exact h.phase

theorem TraceInv.of_frame {cfg : Cfg ν n q K} {s s' : State ν n q K} (h : TraceInv cfg s)
    (hs : Frame s s') : TraceInv cfg s' := h.of_same hs.c hs.g (by rw [hs.cnt]) (by rw [hs.e]) (Or.inl hs.tstop)

theorem TraceInv.of_clamp {cfg : Cfg ν n q K} {s : State ν n q K} (h : TraceInv cfg s) (hC : CtlInv cfg s) {ts : K}
    (hn : 0 < s.cnt.nst) (hts : s.tstop = some ts) (hns : nearStop s ts = false) :
    TraceInv cfg (clampToStop s ts) := by
  obtain ⟨c, hc1, hc2, hc3⟩ := clamp_spec (clamp_near hC hn hts hns)
  unfold clampToStop at hc3 ⊢
  split
  · rename_i hcl
    rw [if_pos hcl] at hc3
    refine ⟨h.zero, h.lawful, fun hp => ?_, h.last, h.phase⟩
    obtain ⟨x, l, h1, h2, h3, h4, h5, h6⟩ := h.last hp
    have hF := h.next hp
    show Follows cfg s.g.atts _
    rw [h1] at hF ⊢
    unfold Follows at hF ⊢
    simp only [h2] at hF ⊢
    obtain ⟨d, hd1, hd2, hd3, -⟩ := hF.size
    refine ⟨hF.t0, hF.up, hF.down, hF.raise, c * d, mul_pos hc1 hd1, ?_, ?_, Or.inr ⟨ts, h6 ts hts, ?_⟩⟩
    · calc c * d ≤ 1 * d := mul_le_mul_of_nonneg_right hc2 hd1.le
        _ ≤ 2 := by linarith
    · show _ = c * d * x.hh
      rw [mul_assoc, ← hd3]; exact hc3
    · simp [nextPlan]
  · exact h

theorem traceInv_micro {cfg : Cfg ν n q K} (hl : NlsLegal cfg) (hm1 : 1 ≤ cfg.maxord) (hm : 0 ≤ cfg.hmaxInv)
    {s s' : State ν n q K} (hC : CtlInv cfg s) (hO : OrdInv cfg s) (h : TraceInv cfg s) (hM : Micro cfg s s') :
    TraceInv cfg s' := by
  cases hM with
  | frame hf => exact h.of_frame hf
  | perf => exact h.of_same rfl rfl rfl rfl (Or.inl rfl)
  | clear => exact h.of_same rfl rfl rfl rfl (Or.inr rfl)
  | clamp ts h1 h2 h3 => exact h.of_clamp hC h1 h2 h3
  | ewt h1 => exact h.of_same rfl rfl rfl rfl (Or.inl rfl)
  | first tout r h1 h2 => exact h.of_first h1 (firstCall_same h2)
  | firstStep tout h1 h2 h3 h4 =>
    obtain ⟨g1, g2, g3, g4, g5, -⟩ := firstStep_start hm hC h1 h2 h3
    have hT := ((h.of_first h1 (firstCall_same h2)).of_same (s' := perfReset _) rfl rfl rfl rfl (Or.inl rfl)).of_frame h3
    rcases step_trace hl hm1 hm g3 g4 (right_ne_zero_of_mul g2.ne') (fun h => by omega) hT h4 with ⟨-, h⟩ | ⟨e, he, -⟩
    · exact h
    · cases he
  | step h1 h2 h3 =>
    rcases step_trace hl hm1 hm (hC.hmax h1) h2.within (left_ne_zero_of_mul (hC.used h1).ne') hO.kk h h3 with
      ⟨-, h⟩ | ⟨e, he, -⟩
    · exact h
    · cases he

theorem traceInv_new (cfg : Cfg ν n q K) (nls0 : ν) (yy0 yp0 : Vec n K) (tstop : Option K) :
    TraceInv cfg { State.new nls0 yy0 yp0 with tstop := tstop } :=
  ⟨(fun _ => ⟨rfl, rfl⟩), trivial, (fun h => by cases h), (fun h => by cases h), (fun h => by cases h)⟩

/-- All invariants of the histories without step failure used so far. -/
structure OkInv (cfg : Cfg ν n q K) (s : State ν n q K) : Prop where
  ctl : CtlInv cfg s
  ord : OrdInv cfg s
  trace : TraceInv cfg s

theorem okInv_micro {cfg : Cfg ν n q K} (hl : NlsLegal cfg) (hm1 : 1 ≤ cfg.maxord) (hm : 0 ≤ cfg.hmaxInv)
    {s s' : State ν n q K} (h : OkInv cfg s) (hM : Micro cfg s s') : OkInv cfg s' :=
  ⟨ctlInv_micro hl hm h.ctl hM, ordInv_micro hl hm1 h.ord hM, traceInv_micro hl hm1 hm h.ctl h.ord h.trace hM⟩

theorem ReachOk.okInv {cfg : Cfg ν n q K} (hl : NlsLegal cfg) (hm1 : 1 ≤ cfg.maxord) (hm : 0 ≤ cfg.hmaxInv)
    {s : State ν n q K} (h : ReachOk cfg s) : OkInv cfg s :=
  h.inv (OkInv cfg) (fun a b c d => ⟨ctlInv_new cfg a b c d, ordInv_new cfg a b c d, traceInv_new cfg a b c d⟩)
    (fun _ _ => okInv_micro hl hm1 hm)

/-- The step that fails in a history without earlier step failures. -/
theorem trace_fail {cfg : Cfg ν n q K} (hl : NlsLegal cfg) (hm1 : 1 ≤ cfg.maxord) (hm : 0 ≤ cfg.hmaxInv)
    {s s' : State ν n q K} {e : Err} (h : OkInv cfg s) (hM : MicroFail cfg s e s') :
    Lawful cfg s'.g.atts ∧ GivesUp cfg e s'.g.atts := by
  cases hM with
  | firstStep tout e h1 h2 h3 h4 =>
    obtain ⟨g1, g2, g3, g4, g5, -⟩ := firstStep_start hm h.ctl h1 h2 h3
    have hT := ((h.trace.of_first h1 (firstCall_same h2)).of_same (s' := perfReset _) rfl rfl rfl rfl
      (Or.inl rfl)).of_frame h3
    rcases step_trace hl hm1 hm g3 g4 (right_ne_zero_of_mul g2.ne') (fun h => by omega) hT h4 with ⟨he, -⟩ | ⟨e, he, hx⟩
    · cases he
    · cases he; exact hx
  | step e h1 h2 h3 =>
    rcases step_trace hl hm1 hm (h.ctl.hmax h1) h2.within (left_ne_zero_of_mul (h.ctl.used h1).ne') h.ord.kk h.trace h3
      with ⟨he, -⟩ | ⟨e, he, hx⟩
    · cases he
    · cases he; exact hx

/-- One more call after a history without step failure. -/
theorem exec_trace {cfg : Cfg ν n q K} (hl : NlsLegal cfg) (hm1 : 1 ≤ cfg.maxord) (hm : 0 ≤ cfg.hmaxInv) {rf sf : Nat}
    {s s' : State ν n q K} {op : Op K} {r : Res n K} (hs : ReachOk cfg s) (h : exec cfg rf sf s op = some (s', r)) :
    Lawful cfg s'.g.atts ∧ ∀ e, r = .solved (.error e) → e.isStepFailure = true → GivesUp cfg e s'.g.atts := by
  have hI := hs.okInv hl hm1 hm
  rcases exec_ends h with ⟨r', hr', hend⟩ | ⟨hno, hmic⟩
  · cases hend with
    | clean h1 hb =>
      refine ⟨(h1.inv (fun _ _ => okInv_micro hl hm1 hm) hI).trace.lawful, fun e he hf => ?_⟩
      rw [hr'] at he; cases he
      rw [hb e rfl] at hf; cases hf
    | failed s1 s2 e h1 h2 h3 h4 =>
      have hI1 := h1.inv (fun _ _ => okInv_micro hl hm1 hm) hI
      have := trace_fail hl hm1 hm hI1 h2
      rw [← h3.g] at this
      refine ⟨this.1, fun e' he hf => ?_⟩
      rw [hr', h4] at he; cases he
      exact this.2
  · refine ⟨(hmic.inv (fun _ _ => okInv_micro hl hm1 hm) hI).trace.lawful, fun e he hf => ?_⟩
    exact (hno _ he).elim

/-- If the last attempt made so far was not accepted, the call has reported a failed step. -/
theorem exec_last_failed {cfg : Cfg ν n q K} (hl : NlsLegal cfg) (hm1 : 1 ≤ cfg.maxord) (hm : 0 ≤ cfg.hmaxInv)
    {rf sf : Nat} {s s' : State ν n q K} {op : Op K} {r : Res n K} (hs : ReachOk cfg s)
    (h : exec cfg rf sf s op = some (s', r)) {y : Att n K} {t : List (Att n K)} (hat : s'.g.atts = y :: t)
    (hy : y.out ≠ .accepted) : ∃ e, r = .solved (.error e) ∧ e.isStepFailure = true := by
  by_contra hno
  have hok : ReachOk cfg s' := .call rf sf op r hs h (fun e he => by
    by_contra hf
    exact hno ⟨e, he, by simpa using hf⟩)
  have hT := (hok.okInv hl hm1 hm).trace
  by_cases hz : s'.cnt.nst = 0
  · rw [(hT.zero hz).1] at hat; cases hat
  · obtain ⟨x, l, h1, h2, -⟩ := hT.last (by omega)
    rw [h1] at hat
    cases hat
    exact hy h2

/-! ## The sizes of the attempts of one step, from any state -/

structure SizeLoop (s0 s : State ν n q K) (f : Fails) (l : List (Att n K)) : Prop where
  atts : s.g.atts = l ++ s0.g.atts
  sizes : RetrySizes l s.c.hh
  nef : f.nef = l.countP isTestFail
  ncf : f.ncf = l.countP isNlsFail

theorem size_handled {cfg : Cfg ν n q K} {s0 s s5 s6 : State ν n q K} {err : Err} {a b : K} {f f' : Fails} {t0 : K}
    {r : Except Err Unit} {l : List (Att n K)} (hI : SizeLoop s0 s f l) (hR : Restored cfg t0 s s5 err)
    (hH : Handled cfg s5 a b f err s6 f' r) :
    ∃ y, s6.g.atts = y :: l ++ s0.g.atts ∧ y.hh = s.c.hh ∧ (r = .ok () → SizeLoop s0 s6 f' (y :: l)) := by
  obtain ⟨-, -, -, -, -, -, -, c8, -⟩ := handled_ctl hH
  obtain ⟨ee, hg⟩ := hR.ghost
  obtain ⟨d, hd1, hd2, hd3, hd4⟩ := handled_hh hR.legal hH
  have h5 : s5.c.hh = s.c.hh := by rw [hR.c]
  have hnc : ∀ rec, err = .ida (.recoverableFail rec) → rec ≠ .constraint := by
    intro rec he
    rcases hR.legal with h | h
    · rw [h] at he; cases he
    · rw [he] at h; exact h
  generalize hx : attRec s t0 ee (if err = .ida .testFail then .testFail else .nlsFail err) = x at hg
  have hxo : x.out = if err = .ida .testFail then .testFail else .nlsFail err := by rw [← hx]; rfl
  have hxh : x.hh = s.c.hh := by rw [← hx]; rfl
  have hat : s6.g.atts = x :: l ++ s0.g.atts := by rw [c8, hg]; simp [hI.atts]
  have hsz : RetrySizes l x.hh := by rw [hxh]; exact hI.sizes
  refine ⟨x, hat, hxh, fun hr => ?_⟩
  cases hH with
  | test1 rr h1 h2 =>
    simp only [if_true] at hxo
    refine ⟨hat, ⟨?_, hsz⟩, ?_, ?_⟩
    · simp only [hxo]
      rw [if_pos (by rw [← hI.nef, h1])]
      exact ⟨d, hd1, hd4 rfl, by rw [hxh, ← h5]; exact hd3⟩
    · simp [isTestFail, hxo, hI.nef]
    · simp [isNlsFail, hxo, hI.ncf]
  | test2 h1 =>
    simp only [if_true] at hxo
    refine ⟨hat, ⟨?_, hsz⟩, ?_, ?_⟩
    · simp only [hxo]
      rw [if_neg (by rw [← hI.nef, h1]; omega)]
      show s5.c.hh * (1 / 4) = _; rw [hxh, h5]; ring
    · simp [isTestFail, hxo, hI.nef]
    · simp [isNlsFail, hxo, hI.ncf]
  | test3 h1 h2 =>
    simp only [if_true] at hxo
    refine ⟨hat, ⟨?_, hsz⟩, ?_, ?_⟩
    · simp only [hxo]
      rw [if_neg (by rw [← hI.nef]; omega)]
      show s5.c.hh * (1 / 4) = _; rw [hxh, h5]; ring
    · simp [isTestFail, hxo, hI.nef]
    · simp [isNlsFail, hxo, hI.ncf]
  | testGiveUp h1 h2 => cases hr
  | conv rec h1 =>
    have hxo' : x.out = .nlsFail (.ida (.recoverableFail rec)) := by rw [hxo]; simp
    refine ⟨hat, ⟨?_, hsz⟩, ?_, ?_⟩
    · simp only [hxo']
      show s5.c.hh * (if rec = Rec.constraint then _ else _) = _
      rw [if_neg (hnc rec rfl), hxh, h5]
      simp only [ex_quarter]; ring
    · simp [isTestFail, hxo', hI.nef]
    · simp [isNlsFail, hxo', hI.ncf]
  | convGiveUp rec h1 => cases hr
  | hard e h1 => cases hr

/-- The attempts of one step and the step size for the next one, from any state at all. -/
theorem step_sizes {cfg : Cfg ν n q K} {s0 s' : State ν n q K} {r : Except Err Unit} (hl : NlsLegal cfg)
    (hm : 0 ≤ cfg.hmaxInv) (hb : |s0.c.hh| * cfg.hmaxInv ≤ 1) (hw : Within s0.tstop s0.e.tn s0.c.hh)
    (h : step cfg s0 = .ret s' r) :
    ∃ x l, s'.g.atts = x :: l ++ s0.g.atts ∧ RetrySizes l x.hh ∧
      (r = .ok () → x.out = .accepted ∧ ∃ c, 1 / 2 ≤ c ∧ c ≤ 2 ∧ s'.c.hh = c * x.hh) := by
  have key := step_rule (cfg := cfg) (fun s f => CtlLoop s0 s ∧ ∃ l, SizeLoop s0 s f l)
    (fun s' => ∃ x l, s'.g.atts = x :: l ++ s0.g.atts ∧ RetrySizes l x.hh ∧
      x.out = .accepted ∧ ∃ c, 1 / 2 ≤ c ∧ c ≤ 2 ∧ s'.c.hh = c * x.hh)
    (fun s' _ => ∃ x l, s'.g.atts = x :: l ++ s0.g.atts ∧ RetrySizes l x.hh)
    ⟨ctlLoop_init s0, [], ⟨by rw [(firstStepInit_cnt s0).2.1]; rfl, trivial, rfl, rfl⟩⟩
    (fun s1 f s' f' hI h => by
      obtain ⟨hC, l, hS⟩ := hI
      obtain ⟨err, a, b, s5, s6, hR, hH, rfl⟩ := attempt_again' hl h
      refine ⟨(ctlLoop_handled hw hC hR hH).of_reset _, ?_⟩
      obtain ⟨y, h1, h2, h3⟩ := size_handled hS hR hH
      obtain ⟨e1, -, -, e4, -⟩ := ite_reset_ctl s6 (s6.cnt.nst = 0)
      obtain ⟨g1, g2, g3, g4⟩ := h3 rfl
      exact ⟨y :: l, by rw [e4]; exact g1, by rw [e1]; exact g2, g3, g4⟩)
    (fun s1 f s2 ck a b s' hI h hc => by
      obtain ⟨hC, l, hS⟩ := hI
      have hD := ctlLoop_done hm hb hw hC h hc
      obtain ⟨s3, h3, -, -, -, -, rfl⟩ := attempt_done h
      have hg := (completeStep_eq hc).g.trans (done_ghost h3)
      obtain ⟨x, l', hx, hx1, hx2, -, hx4, -, hx5, -⟩ := hD.last
      have hat : s'.g.atts = attRec s1 s0.e.tn s3.ee .accepted :: (l ++ s0.g.atts) := by rw [hg, hS.atts]
      have hxe : x = attRec s1 s0.e.tn s3.ee .accepted := by rw [hat] at hx; injection hx with h _; exact h.symm
      subst hxe
      exact ⟨_, l, hat, hS.sizes, rfl, hx5⟩)
    (fun s1 f s' e hI h => by
      obtain ⟨hC, l, hS⟩ := hI
      obtain ⟨err, a, b, f', s5, hR, hH⟩ := attempt_fail' hl h
      obtain ⟨y, h1, h2, h3⟩ := size_handled hS hR hH
      exact ⟨y, l, h1, by rw [h2]; exact hS.sizes⟩) h
  rcases key with ⟨h1, x, l, h2, h3, h4, h5⟩ | ⟨e, h1, x, l, h2, h3⟩
  · exact ⟨x, l, h2, h3, fun _ => ⟨h4, h5⟩⟩
  · exact ⟨x, l, h2, h3, fun hr => by rw [hr] at h1; cases h1⟩

end

end Verif
