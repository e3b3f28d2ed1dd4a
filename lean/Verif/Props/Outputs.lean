import Verif.Proofs.Outputs
import Verif.Props.Stop
import Verif.Props.History
import Verif.Witness
import Verif.Model.Io

/-!
# The integration does not depend on the outputs requested (C66)

`s` is any state in which at least one step has been taken and there is no stop time.  `Later cfg s s1` and
`Later cfg s s2` (`LaterOk`: without reported step failure) are two arbitrary continuations by public calls: other output
times, other modes, other calls of `get_solution` and `get_dky` in between.

The first three theorems hold for any scalar type, in particular for floating-point numbers: bit for bit.
-/

set_option autoImplicit false
set_option linter.unusedSectionVars false

namespace Verif.Props

open Verif Verif.Spec

universe u v

/-- Nothing the user can ask about the integration distinguishes the two states: all statistics, the dense output and the
derivatives of the interpolant at every time, the points accepted and the attempts made. -/
structure SamePoint {ν : Type v} {n q : Nat} {K : Type u} [Scalar K] (cfg : Cfg ν n q K) (s1 s2 : State ν n q K) : Prop where
  time : getCurrentTime s2 = getCurrentTime s1
  lastStep : getLastStep s2 = getLastStep s1
  currentStep : getCurrentStep s2 = getCurrentStep s1
  initStep : getActualInitStep s2 = getActualInitStep s1
  lastOrder : getLastOrder s2 = getLastOrder s1
  currentOrder : getCurrentOrder s2 = getCurrentOrder s1
  steps : getNumSteps s2 = getNumSteps s1
  resEvals : getNumResEvals s2 = getNumResEvals s1
  setups : getNumLinSolvSetups s2 = getNumLinSolvSetups s1
  jacEvals : getNumJacEvals s2 = getNumJacEvals s1
  errTestFails : getNumErrTestFails s2 = getNumErrTestFails s1
  nonlinIters : getNumNonlinSolvIters cfg s2 = getNumNonlinSolvIters cfg s1
  convFails : getNumNonlinSolvConvFails s2 = getNumNonlinSolvConvFails s1
  solution : ∀ t, solutionAt s2 t = solutionAt s1 t
  dky : ∀ t k, dkyAt s2 t k = dkyAt s1 t k
  points : s2.g.acc = s1.g.acc
  attempts : s2.g.atts = s1.g.atts

section
variable {ν : Type v} {n q : Nat} {K : Type u} [Scalar K]

theorem samePoint_of_simW {cfg : Cfg ν n q K} {s1 s2 : State ν n q K} (h : SimW s1 s2) : SamePoint cfg s1 s2 := by
  obtain ⟨w, k, rfl⟩ := h
  refine ⟨rfl, rfl, rfl, rfl, rfl, rfl, rfl, rfl, rfl, rfl, rfl, rfl, rfl, fun t => ?_, fun t k => ?_, rfl, rfl⟩
  · unfold solutionAt
    rw [getSolution_eq, getSolution_eq]
    by_cases h1 : badTime s1 t = true
    · rw [if_pos h1, if_pos (show badTime ((s1.reweigh w).wear k) t = true from h1)]
    · rw [if_neg h1, if_neg (show ¬ badTime ((s1.reweigh w).wear k) t = true from h1)]
      by_cases h2 : kordOf s1.c.kused < mxordp1
      · rw [if_pos h2, if_pos (show kordOf ((s1.reweigh w).wear k).c.kused < mxordp1 from h2)]; rfl
      · rw [if_neg h2, if_neg (show ¬ kordOf ((s1.reweigh w).wear k).c.kused < mxordp1 from h2)]
  · unfold dkyAt getDky
    by_cases h0 : s1.c.kused < k
    · rw [if_pos h0, if_pos (show ((s1.reweigh w).wear _).c.kused < k from h0)]
    · rw [if_neg h0, if_neg (show ¬ ((s1.reweigh w).wear _).c.kused < k from h0)]
      by_cases h1 : badTime s1 t = true
      · rw [if_pos h1, if_pos (show badTime ((s1.reweigh w).wear _) t = true from h1)]
      · rw [if_neg h1, if_neg (show ¬ badTime ((s1.reweigh w).wear _) t = true from h1)]
        by_cases h2 : s1.c.kused - k + 1 < mxordp1 ∧ s1.c.kused < mxordp1
        · rw [if_pos h2, if_pos (show ((s1.reweigh w).wear _).c.kused - k + 1 < mxordp1 ∧
            ((s1.reweigh w).wear _).c.kused < mxordp1 from h2)]
          rfl
        · rw [if_neg h2, if_neg (show ¬ (((s1.reweigh w).wear _).c.kused - k + 1 < mxordp1 ∧
            ((s1.reweigh w).wear _).c.kused < mxordp1) from h2)]

/-- **C66.** There is one integration, of which two continuations show longer or shorter parts: the attempts made (with all
their data: times, sizes, orders, coefficients, predictions, weights, corrections, computed values, outcomes) and the
accepted points of one continuation are the most recent ones of the other left out. -/
theorem c66_one_integration (cfg : Cfg ν n q K) (hb : NlsBlind cfg) (hw : FreshWeights cfg) (s s1 s2 : State ν n q K)
    (hn : 0 < getNumSteps s) (hs : s.tstop = none) (h1 : Later cfg s s1) (h2 : Later cfg s s2) :
    (s1.g.atts <:+ s2.g.atts ∧ s1.g.acc <:+ s2.g.acc) ∨ (s2.g.atts <:+ s1.g.atts ∧ s2.g.acc <:+ s1.g.acc) := by
  rcases later_total hb hw hn hs h1 h2 with h | ⟨l, -, h, h'⟩ | ⟨l, -, h, h'⟩
  · left; rw [h.g]; exact ⟨List.suffix_refl _, List.suffix_refl _⟩
  · exact Or.inl ⟨⟨l, h.symm⟩, h'⟩
  · exact Or.inr ⟨⟨l, h.symm⟩, h'⟩

/-- **C66, same number of attempts.** Two continuations that have made the same number of attempts are at the same point
of the integration. -/
theorem c66_same_attempts (cfg : Cfg ν n q K) (hb : NlsBlind cfg) (hw : FreshWeights cfg) (s s1 s2 : State ν n q K)
    (hn : 0 < getNumSteps s) (hs : s.tstop = none) (h1 : Later cfg s s1) (h2 : Later cfg s s2)
    (he : s1.g.atts.length = s2.g.atts.length) : SamePoint cfg s1 s2 := by
  rcases later_total hb hw hn hs h1 h2 with h | ⟨l, hl, h, h'⟩ | ⟨l, hl, h, h'⟩
  · exact samePoint_of_simW h
  · rw [h, List.length_append] at he
    exact absurd (List.length_eq_zero_iff.1 (by omega)) hl
  · rw [h, List.length_append] at he
    exact absurd (List.length_eq_zero_iff.1 (by omega)) hl

/-- **C66, same number of steps.** Without reported step failures, two continuations with the same `get_num_steps` are at
the same point of the integration. -/
theorem c66_same_steps (cfg : Cfg ν n q K) (hb : NlsBlind cfg) (hw : FreshWeights cfg) (s s1 s2 : State ν n q K)
    (hn : 0 < getNumSteps s) (hs : s.tstop = none) (h1 : LaterOk cfg s s1) (h2 : LaterOk cfg s s2)
    (he : getNumSteps s1 = getNumSteps s2) : SamePoint cfg s1 s2 :=
  samePoint_of_simW (laterOk_same hb hw hn hs h1 h2 he)

/-- **C66 for the crate's solver.** With `Newton` and the crate's tolerance controls, the two hypotheses hold. -/
theorem c66_newton (P : Problem n q K) (tol : TolControl n K) (fuel : Nat) :
    NlsBlind (Cfg.newton P tol fuel) ∧ FreshWeights (Cfg.newton P tol fuel) :=
  ⟨newton_nlsBlind P tol fuel, fun _ _ _ => rfl⟩

end

section
variable {ν : Type v} {n q : Nat} {K : Type u} [Field K] [LinearOrder K] [IsStrictOrderedRing K] [ExactParams K]
  [EpsLaws K]

/-- The time lies in the last step: after its start, and not after its end, in the direction of integration. -/
def InLastStep (s : State ν n q K) (t : K) : Prop :=
  0 < (t - (getCurrentTime s - getLastStep s)) * getLastStep s ∧ 0 ≤ (getCurrentTime s - t) * getLastStep s

theorem ahead_not {q' : Nat} {cfg : Cfg ν n q K} (hl : NlsLegal cfg) (hm1 : 1 ≤ cfg.maxord) (hm : 0 ≤ cfg.hmaxInv)
    {cfg' : Cfg ν n q' K} (hl' : NlsLegal cfg') (hm1' : 1 ≤ cfg'.maxord) (hm' : 0 ≤ cfg'.hmaxInv)
    {s1 : State ν n q K} {s2 : State ν n q' K} (h1 : ReachOk cfg s1) (h2 : ReachOk cfg' s2) (n1 : 0 < s1.cnt.nst) (n2 : 0 < s2.cnt.nst)
    (hacc : s1.g.acc <:+ s2.g.acc) (hlt : s1.cnt.nst < s2.cnt.nst) {t : K} (t1 : InLastStep s1 t) (t2 : InLastStep s2 t) :
    False := by
  have F1 := h1.full hl hm1 hm
  have F2 := h2.full hl' hm1' hm'
  obtain ⟨y1, p1, r1, e1, e1'⟩ := acc_two F1 n1
  obtain ⟨y2, p2, r2, e2, e2'⟩ := acc_two F2 n2
  have l1 := F1.ok.ctl.len n1
  have l2 := F2.ok.ctl.len n2
  have u1 := F1.ok.ctl.used n1
  have u2 := F2.ok.ctl.used n2
  have hc := F2.ok.ctl.chain
  have c1 := F1.ok.ctl.chain
  -- the current point of `s1` is one of the older points of `s2`
  have hsuf : s1.g.acc <:+ p2 :: r2 := by
    rw [e2] at hacc
    rcases List.suffix_cons_iff.1 hacc with h | h
    · have := congrArg List.length h
      rw [← e2, l1, l2] at this; omega
    · exact h
  have hsub : (s1.e.tn, y1) ∈ p2 :: r2 := hsuf.subset (by rw [e1]; simp)
  have hsub2 : p1 ∈ p2 :: r2 := hsuf.subset (by rw [e1]; simp)
  rw [e2] at hc
  rw [e1] at c1
  have hle : 0 ≤ (p2.1 - s1.e.tn) * s2.c.hh := by
    rcases List.mem_cons.1 hsub with h | h
    · rw [← h]; simp
    · exact ((List.pairwise_cons.1 (List.pairwise_cons.1 hc).2).1 _ h).le
  -- both integrations go in the same direction
  have hdir : 0 < (s1.e.tn - p1.1) * s2.c.hh := by
    have := F2.ok.ctl.chain.sublist hacc.sublist
    rw [e1] at this
    exact (List.pairwise_cons.1 this).1 p1 (by simp)
  have hd1 : 0 < s1.c.hused * s2.c.hh := by
    have : s1.e.tn - p1.1 = s1.c.hused := by rw [e1']; ring
    rw [this] at hdir; exact hdir
  obtain ⟨a1, a2⟩ := t1
  obtain ⟨b1, b2⟩ := t2
  have a2 : 0 ≤ (s1.e.tn - t) * s1.c.hused := a2
  have b1 : 0 < (t - (s2.e.tn - s2.c.hused)) * s2.c.hused := b1
  rw [← e2'] at b1
  rcases lt_or_gt_of_ne (right_ne_zero_of_mul hd1.ne') with hneg | hpos
  · have x1 : s1.c.hused < 0 := by by_contra h; push Not at h; nlinarith
    have x2 : s2.c.hused < 0 := by by_contra h; push Not at h; nlinarith
    have y1 : s1.e.tn - t ≤ 0 := by by_contra h; push Not at h; nlinarith
    have y2 : t - p2.1 < 0 := by by_contra h; push Not at h; nlinarith
    have y3 : p2.1 - s1.e.tn ≤ 0 := by by_contra h; push Not at h; nlinarith
    linarith
  · have x1 : 0 < s1.c.hused := by by_contra h; push Not at h; nlinarith
    have x2 : 0 < s2.c.hused := by by_contra h; push Not at h; nlinarith
    have y1 : 0 ≤ s1.e.tn - t := by by_contra h; push Not at h; nlinarith
    have y2 : 0 < t - p2.1 := by by_contra h; push Not at h; nlinarith
    have y3 : 0 ≤ p2.1 - s1.e.tn := by by_contra h; push Not at h; nlinarith
    linarith

/-- **C66, same last step** (exact arithmetic).  If a time lies in the last step of both continuations, they are at the
same point of the integration; in particular the solution at that time is the same. -/
theorem c66_same_last_step (cfg : Cfg ν n q K) (hb : NlsBlind cfg) (hw : FreshWeights cfg) (hl : NlsLegal cfg)
    (hm1 : 1 ≤ cfg.maxord) (hm : 0 ≤ cfg.hmaxInv) (s s1 s2 : State ν n q K) (hr : ReachOk cfg s)
    (hn : 0 < getNumSteps s) (hs : s.tstop = none) (h1 : LaterOk cfg s s1) (h2 : LaterOk cfg s s2) (t : K)
    (t1 : InLastStep s1 t) (t2 : InLastStep s2 t) : SamePoint cfg s1 s2 := by
  obtain ⟨-, n1, -⟩ := laterOk_nth hb hw hn hs h1
  obtain ⟨-, n2, -⟩ := laterOk_nth hb hw hn hs h2
  have r1 := h1.reachOk hr
  have r2 := h2.reachOk hr
  have l1 := (r1.full hl hm1 hm).ok.ctl.len n1
  have l2 := (r2.full hl hm1 hm).ok.ctl.len n2
  refine c66_same_steps cfg hb hw s s1 s2 hn hs h1 h2 ?_
  by_contra hne
  rcases later_total hb hw hn hs h1.later h2.later with h | ⟨l, -, -, h⟩ | ⟨l, -, -, h⟩
  · exact hne h.nst.symm
  · have := h.length_le
    exact ahead_not hl hm1 hm hl hm1 hm r1 r2 n1 n2 h (by have : s1.cnt.nst ≠ s2.cnt.nst := hne; omega) t1 t2
  · have := h.length_le
    exact ahead_not hl hm1 hm hl hm1 hm r2 r1 n2 n1 h (by have : s1.cnt.nst ≠ s2.cnt.nst := hne; omega) t2 t1

/-- A call of `solve(tout, Normal)` that takes steps and returns `Success` ends with `tout` in the last step. -/
theorem normal_in_last_step {cfg : Cfg ν n q K} (hl : NlsLegal cfg) (hm : 0 ≤ cfg.hmaxInv) {rf sf : Nat}
    {s s' : State ν n q K} (hs : Reach cfg s) {tout tret : K}
    (h : exec cfg rf sf s (.solve tout tret .normal) = some (s', .solved (.ok .success)))
    (hst : getNumSteps s < getNumSteps s') :
    InLastStep s' tout ∧ solutionAt s' tout = some (s'.m.yy, s'.m.yp) := by
  have hC := setTret_reach_ctl hl hm hs tret
  have hC' : CtlInv cfg s' := (Reach.call rf sf _ _ hs h).ctl hl hm
  cases solve_outcome (exec_solve h) with
  | rejected e h0 h1 h2 => cases h2
  | early h0 h1 =>
    exfalso
    have hc : (perfReset (begun { s with tret := tret } tout .normal)).cnt = s.cnt :=
      (begun_same { s with tret := tret } tout .normal).2.2.2.cnt
    cases h1 with
    | close _ _ _ h2 => cases h2
    | root2 _ _ _ _ h2 => cases h2
    | root3 _ _ _ _ _ _ _ h2 => cases h2
    | pending _ _ _ ht _ _ _ _ _ => cases ht
    | stop s1 h2 h3 _ =>
      have hn : s1.cnt = s.cnt := by rw [(noRootBefore_frame h2).1.cnt, hc]
      cases stopTest1_cases h3 with
      | same he => exact absurd hst (by show ¬ s.cnt.nst < s1.cnt.nst; rw [hn]; omega)
      | reached s2 hg hs2 =>
        obtain ⟨-, yy, yp, rfl⟩ := getSolution_frame hs2
        exact absurd hst (by show ¬ s.cnt.nst < s1.cnt.nst; rw [hn]; omega)
  | loop p k hI h1 =>
    cases h1 with
    | pre h2 => obtain ⟨h3 | h3, -⟩ := preStep_ret h2 <;> cases h3
    | failed s1 s2 e h2 h3 h4 => obtain ⟨h5, -⟩ := stepFailed_spec h4; cases h5
    | post s1 s2 h2 h3 h4 =>
      obtain ⟨-, -, -, hr⟩ := pass_reached hl hm (pass_start hl hm hC hI h2) h3
      have hr := hr (Or.inl rfl)
      cases h4 with
      | root _ _ _ _ h5 => cases h5
      | stop s3 h5 h6 h7 =>
        have hf := (noRootAfter_frame h5).1
        cases stopTest2_cases h6 with
        | reached _ h8 h9 =>
          have hb : badTime (s3.setTret tout) tout = false := by
            rw [← Bool.not_eq_true, badTime_iff]
            apply not_before_of
            show 0 ≤ (tout - (s3.e.tn - s3.c.hused)) * s3.c.hh
            rw [hf.e, hf.c]; exact hr.le
          have h10 := getSolution_of' h9 hb
          obtain ⟨-, yy, yp, rfl⟩ := getSolution_frame h10
          refine ⟨?_, solutionAt_of h10 rfl rfl rfl rfl⟩
          have hu : 0 < s3.c.hh * s3.c.hused := hC'.used (Nat.lt_of_le_of_lt (Nat.zero_le _) hst)
          rw [← hf.e, ← hf.c] at hr
          simp only [ex_le, decide_eq_true_eq] at h8
          have h8 : 0 ≤ (s3.e.tn - tout) * s3.c.hh := h8
          show 0 < (tout - (s3.e.tn - s3.c.hused)) * s3.c.hused ∧ 0 ≤ (s3.e.tn - tout) * s3.c.hused
          have hne : 0 < s3.c.hh * s3.c.hh := mul_self_pos.2 (left_ne_zero_of_mul hu.ne')
          have e1 : (tout - (s3.e.tn - s3.c.hused)) * s3.c.hused * (s3.c.hh * s3.c.hh) =
            (tout - (s3.e.tn - s3.c.hused)) * s3.c.hh * (s3.c.hh * s3.c.hused) := by ring
          have e2 : (s3.e.tn - tout) * s3.c.hused * (s3.c.hh * s3.c.hh) =
            (s3.e.tn - tout) * s3.c.hh * (s3.c.hh * s3.c.hused) := by ring
          exact ⟨pos_of_mul_pos_left (e1 ▸ mul_pos hr hu) hne.le, nonneg_of_mul_nonneg_left (e2 ▸ mul_nonneg h8 hu.le) hne⟩

/-- **C66, same answer** (exact arithmetic).  Two users continue from the same state with different calls; then both call
`solve(t, Normal)`, which takes at least one step and returns `Success`.  Both get the same solution vectors, and both
integrations are at the same point. -/
theorem c66_same_answer (cfg : Cfg ν n q K) (hb : NlsBlind cfg) (hw : FreshWeights cfg) (hl : NlsLegal cfg)
    (hm1 : 1 ≤ cfg.maxord) (hm : 0 ≤ cfg.hmaxInv) (s a a' b b' : State ν n q K) (hr : ReachOk cfg s)
    (hn : 0 < getNumSteps s) (hs : s.tstop = none) (ha : LaterOk cfg s a) (hb' : LaterOk cfg s b)
    (rf sf rf' sf' : Nat) (t tr tr' : K)
    (h1 : exec cfg rf sf a (.solve t tr .normal) = some (a', .solved (.ok .success)))
    (h2 : exec cfg rf' sf' b (.solve t tr' .normal) = some (b', .solved (.ok .success)))
    (n1 : getNumSteps a < getNumSteps a') (n2 : getNumSteps b < getNumSteps b') :
    getYy b' = getYy a' ∧ getYp b' = getYp a' ∧ SamePoint cfg a' b' := by
  obtain ⟨i1, e1⟩ := normal_in_last_step hl hm (ha.reachOk hr).reach h1 n1
  obtain ⟨i2, e2⟩ := normal_in_last_step hl hm (hb'.reachOk hr).reach h2 n2
  have hA : LaterOk cfg s a' := .call rf sf _ _ ha h1 (by intro e he; cases he)
  have hB : LaterOk cfg s b' := .call rf' sf' _ _ hb' h2 (by intro e he; cases he)
  have hS := c66_same_last_step cfg hb hw hl hm1 hm s a' b' hr hn hs hA hB t i1 i2
  have := hS.solution t
  rw [e1, e2] at this
  have := Prod.mk.inj (Option.some.inj this)
  exact ⟨this.1, this.2, hS⟩

end

/-! ## A concrete case

`y' = -y` with the crate's Newton solver.  After one step, one user calls `solve(1/200, Normal)` at once; the other one
takes a single step first and asks for `get_solution` and `get_dky` at some times.  All hypotheses of `c66_same_answer`
hold. -/

section
open Witness

theorem run_laterOk {ν : Type v} {n q : Nat} {K : Type u} [Scalar K] {cfg : Cfg ν n q K} {rf sf : Nat} (ops : List (Op K))
    {s0 s s' : State ν n q K} {l : List (Res n K)} (hs : LaterOk cfg s0 s) (h : run cfg rf sf ops s = some (s', l))
    (hl : l.any Res.stepFailed = false) : LaterOk cfg s0 s' := by
  induction ops generalizing s l with
  | nil => cases h; exact hs
  | cons op ops ih =>
    unfold run at h
    split at h
    · cases h
    · rename_i s1 r h1
      cases h2 : run cfg rf sf ops s1 with
      | none => rw [h2] at h; cases h
      | some p =>
        rw [h2] at h
        simp only [Option.map_some, Option.some.injEq, Prod.mk.injEq] at h
        obtain ⟨rfl, rfl⟩ := h
        simp only [List.any_cons, Bool.or_eq_false_iff] at hl
        refine ih (.call rf sf op r hs h1 ?_) h2 hl.2
        rintro e rfl
        exact hl.1

/-- The calls of the second user before the common last call. -/
def detour : List (Op ℚ) := [.solve 1 0 .oneStep, .getSolution (3 / 2000), .getDky (1 / 1000) 1, .getSolution 0]

/-- The common last call. -/
def lastCall : Op ℚ := .solve (1 / 200) 0 .normal

def endsAtFour (s : State (Newton (Vec 1 ℚ)) 1 0 ℚ) (r : Res 1 ℚ) : Bool := Res.isStatus .success r && decide (getNumSteps s = 4)

def tookDetour (s : State (Newton (Vec 1 ℚ)) 1 0 ℚ) (l : List (Res 1 ℚ)) : Bool :=
  !l.any Res.stepFailed && decide (getNumSteps s = 2) &&
    ((exec decayCfg 10 10 s lastCall).map fun x => endsAtFour x.1 x.2) == some true

def bothWays (s : State (Newton (Vec 1 ℚ)) 1 0 ℚ) (l : List (Res 1 ℚ)) : Bool :=
  !l.any Res.stepFailed && decide (getNumSteps s = 1) && s.tstop.isNone &&
    ((run decayCfg 10 10 detour s).map fun x => tookDetour x.1 x.2) == some true &&
    ((exec decayCfg 10 10 s lastCall).map fun x => endsAtFour x.1 x.2) == some true

example : ∃ s a a' b' : State (Newton (Vec 1 ℚ)) 1 0 ℚ, ReachOk decayCfg s ∧ getNumSteps s = 1 ∧ s.tstop = none ∧
    LaterOk decayCfg s a ∧ getNumSteps a = 2 ∧
    exec decayCfg 10 10 a lastCall = some (a', .solved (.ok .success)) ∧ getNumSteps a' = 4 ∧
    exec decayCfg 10 10 s lastCall = some (b', .solved (.ok .success)) ∧ getNumSteps b' = 4 ∧
    getYy b' = getYy a' ∧ getYp b' = getYp a' := by
  have hd : ((run decayCfg 10 10 [.solve 1 0 .oneStep] decay0).map fun p => bothWays p.1 p.2) = some true := by
    decide +kernel
  obtain ⟨s, l, hr, hp⟩ := run_witness (P := bothWays) hd
  simp only [bothWays, Bool.and_eq_true, Bool.not_eq_true', decide_eq_true_eq, beq_iff_eq, Option.isNone_iff_eq_none] at hp
  obtain ⟨⟨⟨⟨p1, p2⟩, p3⟩, p4⟩, p5⟩ := hp
  obtain ⟨a, la, hra, hpa⟩ := run_witness (P := tookDetour) p4
  simp only [tookDetour, Bool.and_eq_true, Bool.not_eq_true', decide_eq_true_eq, beq_iff_eq] at hpa
  obtain ⟨⟨q1, q2⟩, q3⟩ := hpa
  obtain ⟨a', ra, hea, hra'⟩ := exec_one (P := endsAtFour) q3
  obtain ⟨b', rb, heb, hrb⟩ := exec_one (P := endsAtFour) p5
  simp only [endsAtFour, Bool.and_eq_true, decide_eq_true_eq, Res.isStatus_iff] at hra' hrb
  obtain ⟨rfl, na⟩ := hra'
  obtain ⟨rfl, nb⟩ := hrb
  have hs : ReachOk decayCfg s := run_reachOk _ (.new newton0 (fun _ => 1) (fun _ => -1) none) hr p1
  have ha : LaterOk decayCfg s a := run_laterOk _ .refl hra q1
  obtain ⟨hb, hw⟩ := c66_newton decay (.ss (1 / 100) (1 / 100)) 3
  obtain ⟨e1, e2, -⟩ := c66_same_answer decayCfg hb hw (newton_legal _ _ _) (by decide) (by decide +kernel) s a a' s b' hs
    (by omega) p3 ha .refl 10 10 10 10 (1 / 200) 0 0 hea heb (by omega) (by omega)
  exact ⟨s, a, a', b', hs, p2, p3, ha, q2, hea, na, heb, nb, e1, e2⟩

end

end Verif.Props
