import Verif.Proofs.LocalErr
import Verif.Props.Accepted

/-!
# C74 and C75: the local error test bounds the local error and the interpolation error

`s.g.atts` is the list of step attempts, `s.g.acc` the list of accepted points, both most recent first.  Vocabulary:
`Spec/LocalErr.lean`.
-/

set_option autoImplicit false
set_option linter.unusedSectionVars false
set_option linter.unusedVariables false

namespace Verif.Props

open Verif Verif.Spec Verif.Witness Polynomial Finset

universe u v

section
variable {ν : Type v} {n q : Nat} {K : Type u} [Field K] [LinearOrder K] [IsStrictOrderedRing K] [ExactParams K]
  [EpsLaws K]

/-! ## C74 -/

/-- **C74, the constant of the test.** In every history without step failure, and in one more call, the error test of
every attempt uses the constant of the method: the coefficient that multiplies the norm of the correction (`ck` in
`c32_test_decides`) is a function of order, step size and the accepted times only. -/
theorem c74_constant (cfg : Cfg ν n q K) (hl : NlsLegal cfg) (hm1 : 1 ≤ cfg.maxord) (hm : 0 ≤ cfg.hmaxInv)
    (rf sf : Nat) (s s' : State ν n q K) (op : Op K) (r : Res n K) (hs : ReachOk cfg s)
    (h : exec cfg rf sf s op = some (s', r)) (x : Att n K) (hx : x ∈ s'.g.atts) : x.ck = testFactor x :=
  ((exec_attHist hl hm1 hm hs h).1 x hx).ck

/-- With equal steps the constant is `1 / (k + 1)`. -/
theorem c74_constant_steps (cfg : Cfg ν n q K) (hl : NlsLegal cfg) (hm1 : 1 ≤ cfg.maxord) (hm : 0 ≤ cfg.hmaxInv)
    (rf sf : Nat) (s s' : State ν n q K) (op : Op K) (r : Res n K) (hs : ReachOk cfg s)
    (h : exec cfg rf sf s op = some (s', r)) (x : Att n K) (hx : x ∈ s'.g.atts)
    (he : ∀ m, m ≤ x.kk → ∀ p, x.before[m]? = some p → p.1 = x.t0 - m * x.hh) : x.ck = 1 / ((x.kk : K) + 1) := by
  have hH := (exec_attHist hl hm1 hm hs h).1 x hx
  have hr : ∀ m, m ≤ x.kk → stepRatio x m = ((m : K) + 1)⁻¹ := by
    intro m hm'
    have hp : (point x m).1 = x.t0 - m * x.hh := by
      unfold point
      rw [List.getD_eq_getElem?_getD]
      cases ho : x.before[m]? with
      | none => rfl
      | some p => exact he m hm' p ho
    unfold stepRatio
    rw [hp, hH.tnew, show x.t0 + x.hh - (x.t0 - m * x.hh) = ((m : K) + 1) * x.hh by ring]
    have := hH.hh
    have : (m : K) + 1 ≠ 0 := by positivity
    field_simp
  rw [hH.ck]
  unfold testFactor
  rw [hr _ (le_refl _), sum_congr rfl fun m hm' => hr m (by rw [mem_range] at hm'; omega), add_sub_cancel_right,
    abs_of_pos (by positivity), max_self, one_div]

/-- **C74.** In the same setting, every attempt of every step but the first: there is exactly one result `P` of the
method of the next higher order with the same derivative, and in every component the computed solution differs from it
by at most the constant of the test times the correction. -/
theorem c74_next_order (cfg : Cfg ν n q K) (hl : NlsLegal cfg) (hm1 : 1 ≤ cfg.maxord) (hm : 0 ≤ cfg.hmaxInv)
    (rf sf : Nat) (s s' : State ν n q K) (op : Op K) (r : Res n K) (hs : ReachOk cfg s)
    (h : exec cfg rf sf s op = some (s', r)) (x : Att n K) (hx : x ∈ s'.g.atts) (h2 : 2 ≤ x.before.length) :
    ∃ P, NextOrder x P ∧ (∀ P', NextOrder x P' → P' = P) ∧ ∀ i, |x.yy i - (P i).eval x.tnew| ≤ x.ck * |x.ee i| := by
  have hH := (exec_attHist hl hm1 hm hs h).1 x hx
  obtain ⟨P, hP⟩ := hH.nextOrder_exists h2
  refine ⟨P, hP, fun P' hP' => hH.nextOrder_unique h2 hP' hP, fun i => ?_⟩
  rw [hH.nextOrder h2 hP i, abs_mul]
  exact mul_le_mul_of_nonneg_right (hH.factor h2) (abs_nonneg _)

/-- **C74, polynomial solutions.** If the true solution `Y` of the problem has degree at most order + 1, the accepted
points used by the attempt are exact and the computed derivative is that of `Y` (for example, the problem is `y' = g(t)`),
then in every component the error of the attempt is at most the constant of the test times the correction. -/
theorem c74_true_solution (cfg : Cfg ν n q K) (hl : NlsLegal cfg) (hm1 : 1 ≤ cfg.maxord) (hm : 0 ≤ cfg.hmaxInv)
    (rf sf : Nat) (s s' : State ν n q K) (op : Op K) (r : Res n K) (hs : ReachOk cfg s)
    (h : exec cfg rf sf s op = some (s', r)) (x : Att n K) (hx : x ∈ s'.g.atts) (h2 : 2 ≤ x.before.length)
    (Y : Fin n → K[X]) (hd : ∀ i, (Y i).natDegree ≤ x.kk + 1) (hY : ∀ p ∈ x.before.take (x.kk + 1), ∀ i, p.2 i = (Y i).eval p.1)
    (hyp : ∀ i, x.yp i = (derivative (Y i)).eval x.tnew) (i : Fin n) :
    |x.yy i - (Y i).eval x.tnew| ≤ x.ck * |x.ee i| := by
  obtain ⟨P, hP, hu, hb⟩ := c74_next_order cfg hl hm1 hm rf sf s s' op r hs h x hx h2
  have : Y = P := hu Y ⟨hd, fun m hm p hp i => (hY p (by
    refine List.mem_of_getElem? (i := m) ?_
    rw [List.getElem?_take, if_pos (by omega)]; exact hp) i).symm, fun i => (hyp i).symm⟩
  subst this
  exact hb i

/-- **C74, the first attempt** (one point, order one): compared with the quadratic polynomial that has the initial value,
the initial derivative and the computed derivative, the error is exactly half the correction, and one half is the
constant of the test. -/
theorem c74_first_attempt (cfg : Cfg ν n q K) (hl : NlsLegal cfg) (hm1 : 1 ≤ cfg.maxord) (hm : 0 ≤ cfg.hmaxInv)
    (rf sf : Nat) (nls0 : ν) (y0 yp0 : Vec n K) (tstop : Option K) (s' : State ν n q K) (tout tret : K) (task : Task)
    (r : Res n K) (h : exec cfg rf sf { State.new nls0 y0 yp0 with tstop := tstop } (.solve tout tret task) = some (s', r))
    (x : Att n K) (hx : s'.g.atts.getLast? = some x) :
    x.ck = 1 / 2 ∧ ∀ (i : Fin n) (a b c : K), a = y0 i → b = yp0 i → b + 2 * c * x.tnew = x.yp i →
      x.yy i - (a + b * x.tnew + c * x.tnew ^ 2) = x.ck * x.ee i := by
  have hxm : x ∈ s'.g.atts := List.mem_of_getLast? hx
  have hH := (exec_attHist hl hm1 hm (.new nls0 y0 yp0 tstop) h).1 x hxm
  obtain ⟨h1, h2, h3, h4, h5⟩ := c21_first_attempt cfg hl hm1 hm rf sf nls0 y0 yp0 tstop s' tout tret task r h x hx
  have hck : x.ck = 1 / 2 := by
    have := c74_constant_steps cfg hl hm1 hm rf sf _ s' _ r (.new nls0 y0 yp0 tstop) h x hxm (by
      intro m hm p hp
      rw [h3] at hp
      cases m with
      | zero => simp at hp; rw [← hp, h1]; simp
      | succ m => simp at hp)
    rw [this, h2]; norm_num
  refine ⟨hck, fun i a b c ha hb hc => ?_⟩
  have hyy : x.yy i = x.pred i + x.ee i := by rw [hH.yy]; rfl
  have hyp : x.yp i = x.predp i + x.cj * x.ee i := by rw [hH.yp]; rfl
  have hcj : x.cj = 1 / x.hh := by rw [hH.cj, h2]; simp [harmonicSum]
  have ht : x.tnew = x.hh := by rw [hH.tnew, h1, zero_add]
  rw [h5, hcj] at hyp
  rw [ht] at hc
  have hh := hH.hh
  have e : x.ee i = 2 * c * x.hh ^ 2 := by
    rw [hyp, hb] at hc
    field_simp at hc
    linarith
  rw [hyy, h4, hck, ht, ha, hb, e]
  ring

/-! ## C75 -/

/-- The newest attempt, if accepted, produced the newest point. -/
theorem newest_accepted {cfg : Cfg ν n q K} {s : State ν n q K} (h : Reach cfg s) :
    ∀ x l, s.g.atts = x :: l → x.out = .accepted → s.g.acc = (x.tnew, x.yy) :: x.before := by
  refine (h.ghost (cfg := cfg) (fun g => ∀ x l, g.atts = x :: l → x.out = .accepted → g.acc = (x.tnew, x.yy) :: x.before)
    ?_ ?_ ?_).1
  · intro x l h; cases h
  · intro s t0 ee r out _ _ ho x l h1 h2
    simp only [List.cons.injEq] at h1
    obtain ⟨rfl, -⟩ := h1
    rcases ho with ⟨e, -, rfl⟩ | ⟨-, rfl, -⟩ <;> cases h2
  · intro s t0 ee _ _ _ _ x l h1 h2
    simp only [List.cons.injEq] at h1
    obtain ⟨rfl, -⟩ := h1
    rfl

/-- **C75.** In every history without step failure, after at least two steps: the newest attempt `x` is the last step
(accepted); for every time `t` in it, `get_solution` returns a value that differs from the polynomial `U` of degree
order + 1 through all the points the step was based on, and its result, by at most the constant of the error test times
the correction, in every component. -/
theorem c75_interpolation (cfg : Cfg ν n q K) (hl : NlsLegal cfg) (hm1 : 1 ≤ cfg.maxord) (hm5 : cfg.maxord ≤ 5)
    (hm : 0 ≤ cfg.hmaxInv) (s : State ν n q K) (hs : ReachOk cfg s) (hn : 2 ≤ getNumSteps s) :
    ∃ x rest, s.g.atts = x :: rest ∧ x.out = .accepted ∧ x.tnew = getCurrentTime s ∧ x.hh = getLastStep s ∧
      x.kk = getLastOrder s ∧ s.g.acc = (x.tnew, x.yy) :: x.before ∧ x.kk + 2 ≤ s.g.acc.length ∧
      ∀ U, Through (x.kk + 1) s.g.acc U → ∀ t, 0 ≤ (t - (getCurrentTime s - getLastStep s)) * getLastStep s →
        0 ≤ (getCurrentTime s - t) * getLastStep s →
        ∃ y yp, solutionAt s t = some (y, yp) ∧ ∀ i, |y i - (U i).eval t| ≤ x.ck * |x.ee i| := by
  have hF := hs.full hl hm1 hm
  have hn0 : 0 < s.cnt.nst := by have : 2 ≤ s.cnt.nst := hn; omega
  obtain ⟨x, l, e1, e2, e3, e4, -, -⟩ := hF.ok.trace.last hn0
  have hacc := newest_accepted hs.reach x l e1 e2
  have hlen := hF.ok.ctl.len hn0
  have hb2 : 2 ≤ x.before.length := by
    have : 2 ≤ s.cnt.nst := hn
    rw [hacc, List.length_cons] at hlen; omega
  have hH := hF.hist.atts x (by rw [e1]; exact List.mem_cons_self ..)
  obtain ⟨y0, r, hr⟩ := hF.ok.ctl.last hn0
  have htn : x.tnew = s.e.tn := by rw [hacc] at hr; simp only [List.cons.injEq, Prod.mk.injEq] at hr; exact hr.1.1
  have hL := hH.ladder hb2
  refine ⟨x, l, e1, e2, htn, e3, e4, hacc, by rw [hacc, List.length_cons]; have := hL.len; omega, ?_⟩
  intro U hU t h1 h2
  have h1' : 0 ≤ (t - (s.e.tn - s.c.hused)) * s.c.hused := h1
  have h2' : 0 ≤ (s.e.tn - t) * s.c.hused := h2
  obtain ⟨-, V, hV, hev⟩ := dense_of_full hm5 hF hn0
  have hu := hF.ok.ctl.used hn0
  have hsq : 0 < s.c.hused * s.c.hused := mul_self_pos.2 (by intro h0; rw [h0] at hu; simp at hu)
  have h1s : 0 ≤ (t - (s.e.tn - s.c.hused)) * s.c.hh := by
    by_contra hneg
    push Not at hneg
    have a1 : (t - (s.e.tn - s.c.hused)) * s.c.hh * (s.c.hused * s.c.hused) < 0 := mul_neg_of_neg_of_pos hneg hsq
    have a2 : 0 ≤ ((t - (s.e.tn - s.c.hused)) * s.c.hused) * (s.c.hh * s.c.hused) := mul_nonneg h1' hu.le
    linarith
  refine ⟨_, _, hev t (not_before_of h1s), fun i => ?_⟩
  have hV' : Through x.kk ((x.tnew, x.yy) :: x.before) V := by rw [← hacc, e4]; exact hV
  rw [hacc] at hU
  have ht0 : x.t0 = s.e.tn - s.c.hused := by rw [← htn, hH.tnew, e3]; ring
  have := hH.interp hb2 hV' hU (t := t) (by rw [ht0, e3]; exact h1') (by rw [htn, e3]; exact h2') i
  rw [abs_sub_comm]
  refine this.trans (mul_le_mul_of_nonneg_right ?_ (abs_nonneg _))
  rw [hH.ck]
  exact le_max_right _ _

end

section
variable {ν : Type v} {n q : Nat} {K : Type u} [Field K] [LinearOrder K] [IsStrictOrderedRing K] [ExactParams K]
  [ExactLaws K]

/-- **C74, accepted attempts**: the weighted norm of the difference to the method of the next higher order is at most
one. -/
theorem c74_accepted (cfg : Cfg ν n q K) (hl : NlsLegal cfg) (hm1 : 1 ≤ cfg.maxord) (hm : 0 ≤ cfg.hmaxInv)
    (rf sf : Nat) (s s' : State ν n q K) (op : Op K) (r : Res n K) (hs : ReachOk cfg s)
    (h : exec cfg rf sf s op = some (s', r)) (x : Att n K) (hx : x ∈ s'.g.atts) (h2 : 2 ≤ x.before.length)
    (ho : x.out = .accepted) (P : Fin n → K[X]) (hP : NextOrder x P) :
    wrmsNorm cfg.id (fun i => x.yy i - (P i).eval x.tnew) x.ewt cfg.suppressalg ≤ 1 := by
  have hH := (exec_attHist hl hm1 hm hs h).1 x hx
  have hp := (Reach.call rf sf op r hs.reach h).linked.passed x hx ho
  rw [ex_le, decide_eq_true_eq] at hp
  refine le_trans (wrmsNorm_le ((abs_nonneg _).trans (hH.factor h2)) fun i => ?_) hp
  rw [hH.nextOrder h2 hP i, abs_mul]
  exact mul_le_mul_of_nonneg_right (hH.factor h2) (abs_nonneg _)

/-- **C74, polynomial solutions, accepted attempts**: the weighted norm of the error of the step is at most one. -/
theorem c74_true_solution_accepted (cfg : Cfg ν n q K) (hl : NlsLegal cfg) (hm1 : 1 ≤ cfg.maxord) (hm : 0 ≤ cfg.hmaxInv)
    (rf sf : Nat) (s s' : State ν n q K) (op : Op K) (r : Res n K) (hs : ReachOk cfg s)
    (h : exec cfg rf sf s op = some (s', r)) (x : Att n K) (hx : x ∈ s'.g.atts) (h2 : 2 ≤ x.before.length)
    (ho : x.out = .accepted) (Y : Fin n → K[X]) (hd : ∀ i, (Y i).natDegree ≤ x.kk + 1)
    (hY : ∀ p ∈ x.before.take (x.kk + 1), ∀ i, p.2 i = (Y i).eval p.1)
    (hyp : ∀ i, x.yp i = (derivative (Y i)).eval x.tnew) :
    wrmsNorm cfg.id (fun i => x.yy i - (Y i).eval x.tnew) x.ewt cfg.suppressalg ≤ 1 :=
  c74_accepted cfg hl hm1 hm rf sf s s' op r hs h x hx h2 ho Y ⟨hd, fun m hm p hp i => (hY p (by
    refine List.mem_of_getElem? (i := m) ?_
    rw [List.getElem?_take, if_pos (by omega)]; exact hp) i).symm, fun i => (hyp i).symm⟩

/-- **C75, weighted norm**: every value `get_solution` returns inside the last step is within one, in the weighted norm
of the step, of the polynomial of the next higher degree. -/
theorem c75_norm (cfg : Cfg ν n q K) (hl : NlsLegal cfg) (hm1 : 1 ≤ cfg.maxord) (hm5 : cfg.maxord ≤ 5)
    (hm : 0 ≤ cfg.hmaxInv) (s : State ν n q K) (hs : ReachOk cfg s) (hn : 2 ≤ getNumSteps s) :
    ∃ x rest, s.g.atts = x :: rest ∧ x.out = .accepted ∧ x.kk = getLastOrder s ∧ x.kk + 2 ≤ s.g.acc.length ∧
      ∀ U, Through (x.kk + 1) s.g.acc U → ∀ t, 0 ≤ (t - (getCurrentTime s - getLastStep s)) * getLastStep s →
        0 ≤ (getCurrentTime s - t) * getLastStep s →
        ∃ y yp, solutionAt s t = some (y, yp) ∧ wrmsNorm cfg.id (fun i => y i - (U i).eval t) x.ewt cfg.suppressalg ≤ 1 := by
  obtain ⟨x, l, e1, e2, -, -, e4, e5, e6, h⟩ := c75_interpolation cfg hl hm1 hm5 hm s hs hn
  refine ⟨x, l, e1, e2, e4, e6, fun U hU t h1 h2 => ?_⟩
  obtain ⟨y, yp, h3, h4⟩ := h U hU t h1 h2
  refine ⟨y, yp, h3, ?_⟩
  have hxm : x ∈ s.g.atts := by rw [e1]; exact List.mem_cons_self ..
  have hp := hs.reach.linked.passed x hxm e2
  rw [ex_le, decide_eq_true_eq] at hp
  have hF := hs.full hl hm1 hm
  have hH := hF.hist.atts x hxm
  have hb2 : 2 ≤ x.before.length := by
    have h1 := hF.ok.ctl.len (by have : 2 ≤ s.cnt.nst := hn; omega)
    rw [e5, List.length_cons] at h1
    have : 2 ≤ s.cnt.nst := hn
    omega
  exact le_trans (wrmsNorm_le ((abs_nonneg _).trans (hH.factor hb2)) h4) hp

end

/-! ## A non-trivial case

Five steps with changing step sizes and a failed attempt: the constants are those of unequal steps, the corrections are
not zero. -/

section
attribute [local instance] ratParams

theorem local_error_nontrivial : ∃ (l : List (ℚ × Except Err Unit)) (s s' : State Nat 1 0 ℚ) (r : Res 1 ℚ) (x : Att 1 ℚ),
    ReachOk (scriptCfg l) s ∧ 2 ≤ getNumSteps s ∧ exec (scriptCfg l) 10 10 s (.solve 1000 0 .oneStep) = some (s', r) ∧
    x ∈ s'.g.atts ∧ 3 ≤ x.before.length ∧ x.kk = 2 ∧ x.out = .accepted ∧ x.ck = 17 / 30 ∧ x.ee 0 = 1 / 100 := by
  have hd : ((run (scriptCfg [okSmall, okSmall, okBig, okSmall, recov, okKeep, okSmall]) 10 10 (steps 4) script0).map
      fun p => !p.2.any Res.stepFailed && decide (2 ≤ getNumSteps p.1) &&
        match exec (scriptCfg [okSmall, okSmall, okBig, okSmall, recov, okKeep, okSmall]) 10 10 p.1 (.solve 1000 0 .oneStep) with
        | some (s', _) => s'.g.atts.any fun x => decide (3 ≤ x.before.length) && decide (x.kk = 2) &&
            decide (x.out = .accepted) && decide (x.ck = 17 / 30) && decide (x.ee 0 = 1 / 100)
        | none => false) = some true := by decide +kernel
  obtain ⟨s, l, hr, hp⟩ := run_witness (P := fun (s : State Nat 1 0 ℚ) l =>
    !l.any Res.stepFailed && decide (2 ≤ getNumSteps s) &&
        match exec (scriptCfg [okSmall, okSmall, okBig, okSmall, recov, okKeep, okSmall]) 10 10 s (.solve 1000 0 .oneStep) with
        | some (s', _) => s'.g.atts.any fun x => decide (3 ≤ x.before.length) && decide (x.kk = 2) &&
            decide (x.out = .accepted) && decide (x.ck = 17 / 30) && decide (x.ee 0 = 1 / 100)
        | none => false) hd
  simp only [Bool.and_eq_true, Bool.not_eq_true', decide_eq_true_eq] at hp
  obtain ⟨⟨h1, h2⟩, h3⟩ := hp
  cases he : exec (scriptCfg [okSmall, okSmall, okBig, okSmall, recov, okKeep, okSmall]) 10 10 s (.solve 1000 0 .oneStep) with
  | none => rw [he] at h3; cases h3
  | some p =>
    obtain ⟨s', r⟩ := p
    rw [he] at h3
    simp only [List.any_eq_true, Bool.and_eq_true, decide_eq_true_eq] at h3
    obtain ⟨x, hx, ⟨⟨⟨g1, g2⟩, g3⟩, g4⟩, g5⟩ := h3
    exact ⟨_, s, s', r, x, run_reachOk _ (script_new _) hr h1, h2, he, hx, g1, g2, g3, g4, g5⟩

end

end Verif.Props
