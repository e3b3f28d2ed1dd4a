import Verif.Proofs.Retry
import Verif.Props.Interp
import Verif.Props.Control

/-!
# The history of accepted points: dense output, predictor, corrector formula, rollback (C15, C19 - C24, C34)

`s.g.acc` is the list of accepted points (time, solution), most recent first, the starting point included;
`s.g.atts` the list of step attempts.  Both are recordings the model makes; the solver never reads them.

Most statements are about one more call after a history in which no call reported a failed internal step (`ReachOk`);
the call itself may report one.  Continuing after such a failure breaks the solver's history (`brokenHistory` below).
-/

set_option autoImplicit false
set_option linter.unusedSectionVars false
set_option linter.unusedVariables false

namespace Verif.Props

open Verif Verif.Spec Polynomial

universe u v

section
variable {ν : Type v} {n q : Nat} {K : Type u} [Field K] [LinearOrder K] [IsStrictOrderedRing K] [ExactParams K]
  [EpsLaws K]

theorem outOrder_eq {s : State ν n q K} (h : 1 ≤ s.c.kused) : outOrder s = s.c.kused := by
  unfold outOrder; rw [if_neg (by omega)]

/-- `get_solution` evaluates the interpolating polynomial of the history array. -/
theorem solutionAt_eq {s : State ν n q K} (hk : s.c.kused ≤ 5) (h1 : 1 ≤ s.c.kused) {t : K} (ht : ¬ BeforeLastStep s t) :
    solutionAt s t = some (fun i => (interpPoly s.e.tn s.h s.c.kused i).eval t,
      fun i => (derivative (interpPoly s.e.tn s.h s.c.kused i)).eval t) := by
  unfold solutionAt getSolution
  have hb : badTime s t = false := by rw [← Bool.not_eq_true, badTime_iff]; exact ht
  have hko : kordOf s.c.kused = s.c.kused := by unfold kordOf; rw [if_neg (by omega)]
  have ho : kordOf s.c.kused < mxordp1 := by rw [hko]; unfold mxordp1; omega
  simp only [hb, Bool.false_eq_true, if_false, if_pos ho]
  rw [hko]
  congr 1
  refine Prod.ext ?_ ?_
  · funext i; exact solEval_fst _ _ _ _ _
  · funext i; exact solEval_snd _ _ _ _ _

/-- A time not before the start of the last step is accepted. -/
theorem not_before_of {s : State ν n q K} {t : K} (h : 0 ≤ (t - (s.e.tn - s.c.hused)) * s.c.hh) : ¬ BeforeLastStep s t := by
  unfold BeforeLastStep
  have he : 0 ≤ 100 * ExactParams.eps * (|s.e.tn| + |s.c.hh|) :=
    mul_nonneg (mul_nonneg (by norm_num) (EpsLaws.eps_pos (K := K)).le) (by positivity)
  rintro (⟨h1, h2⟩ | ⟨h1, h2⟩)
  · have := nonneg_of_mul_nonneg_left h h1
    linarith
  · have : t - (s.e.tn - s.c.hused) ≤ 0 := by
      by_contra hc
      exact absurd h (not_le.2 (mul_neg_of_pos_of_neg (not_le.1 hc) h1))
    linarith

/-! ## C15 -/

/-- `get_solution` at the current time yields the solution accepted last. -/
def CurrentSolution (s : State ν n q K) : Prop :=
  ∃ y yp rest, s.g.acc = (getCurrentTime s, y) :: rest ∧ solutionAt s (getCurrentTime s) = some (y, yp)

theorem current_of_psi {cfg : Cfg ν n q K} (hl : NlsLegal cfg) (hm1 : 1 ≤ cfg.maxord) (hm5 : cfg.maxord ≤ 5)
    (hm : 0 ≤ cfg.hmaxInv) {s : State ν n q K} (hs : Reach cfg s) (hn : 0 < getNumSteps s)
    (hpsi : ∀ i, i < getLastOrder s → s.h.psi i ≠ 0) : CurrentSolution s := by
  have hO := hs.ord hl hm1
  have hC := hs.ctl hl hm
  have hk : 1 ≤ s.c.kused := by
    by_contra h
    have h1 := hO.kused0.1 (by omega)
    have h2 : 0 < s.cnt.nst := hn
    omega
  obtain ⟨r, hr⟩ := hs.head hl hn
  obtain ⟨yp, hy⟩ := c15_at_current_time s (le_trans hO.kusedm hm5) (by rw [mul_comm]; exact (hC.used hn).le)
    (by rw [outOrder_eq hk]; exact hpsi)
  exact ⟨_, yp, r, hr, hy⟩

/-- The step sums the interpolation formulas divide by are not zero after one more call in a history without step
failure. -/
theorem step_sums_nonzero (cfg : Cfg ν n q K) (hl : NlsLegal cfg) (hm1 : 1 ≤ cfg.maxord)
    (hm : 0 ≤ cfg.hmaxInv) (rf sf : Nat) (s s' : State ν n q K) (op : Op K) (r : Res n K)
    (hs : ReachOk cfg s) (h : exec cfg rf sf s op = some (s', r)) (hn : 0 < getNumSteps s') :
    ∀ i, i < getLastOrder s' → s'.h.psi i ≠ 0 := by
  intro i hi hz
  rcases exec_hist hl hm1 hm hs h with ⟨hF, -⟩ | ⟨s1, s2, e, hF, -, hH, h1, hn2, -, -, -⟩
  · have := hF.hist.psi hn i (le_of_lt hi)
    rw [hz, zero_mul] at this
    exact lt_irrefl _ this
  · have hn1 : 0 < s1.cnt.nst := by rw [← hn2, ← hH.nst]; exact hn
    have e1 := h1 hn1
    subst e1
    obtain ⟨g1, g2, g3, -⟩ := hH.same hn1
    have hi' : i ≤ s2.c.kused := by rw [← g3]; exact le_of_lt hi
    have := g1 i hi'
    rw [hz, zero_mul] at this
    exact lt_irrefl _ this

/-- **C15 (partial).** After one more call in a history without step failure (the call itself may report one), if at
least one step has been accepted: `get_solution(get_current_time())` succeeds and yields the solution accepted at the
last step, whatever the order.  Before the first step the formula divides 0 by 0.

Missing: histories that continue after a failed step; there the claim needs nonzero step sums
(`c15_any_history_partial`), which can fail (`c15_zero_step_sum`). -/
theorem c15_current_solution_partial (cfg : Cfg ν n q K) (hl : NlsLegal cfg) (hm1 : 1 ≤ cfg.maxord)
    (hm5 : cfg.maxord ≤ 5) (hm : 0 ≤ cfg.hmaxInv) (rf sf : Nat) (s s' : State ν n q K) (op : Op K) (r : Res n K)
    (hs : ReachOk cfg s) (h : exec cfg rf sf s op = some (s', r)) (hn : 0 < getNumSteps s') : CurrentSolution s' := by
  exact current_of_psi hl hm1 hm5 hm (.call rf sf op r hs.reach h) hn (step_sums_nonzero cfg hl hm1 hm rf sf s s' op r hs h hn)

/-- **C15 (partial), every history**, provided the step sums the interpolation formula divides by are not zero. -/
theorem c15_any_history_partial (cfg : Cfg ν n q K) (hl : NlsLegal cfg) (hm1 : 1 ≤ cfg.maxord) (hm5 : cfg.maxord ≤ 5)
    (hm : 0 ≤ cfg.hmaxInv) (s : State ν n q K) (hs : Reach cfg s) (hn : 0 < getNumSteps s)
    (hpsi : ∀ i, i < getLastOrder s → s.h.psi i ≠ 0) : CurrentSolution s :=
  current_of_psi hl hm1 hm5 hm hs hn hpsi

/-- **C16, reachable states**: the hypotheses of `c16_yp_is_derivative` hold after one more call in a history without
step failure, once a step has been accepted. -/
theorem c16_after_call (cfg : Cfg ν n q K) (hl : NlsLegal cfg) (hm1 : 1 ≤ cfg.maxord)
    (hm5 : cfg.maxord ≤ 5) (hm : 0 ≤ cfg.hmaxInv) (rf sf : Nat) (s s' : State ν n q K) (op : Op K) (r : Res n K)
    (hs : ReachOk cfg s) (h : exec cfg rf sf s op = some (s', r)) (hn : 0 < getNumSteps s') :
    ∃ P : Fin n → K[X], (∀ i, (P i).natDegree ≤ getLastOrder s') ∧ ∀ t, ¬ BeforeLastStep s' t →
      solutionAt s' t = some (fun i => (P i).eval t, fun i => (derivative (P i)).eval t) := by
  have hR : Reach cfg s' := .call rf sf op r hs.reach h
  have hO := hR.ord hl hm1
  have hk : 1 ≤ s'.c.kused := by
    by_contra hc
    have h1 := hO.kused0.1 (by omega)
    have h2 : 0 < s'.cnt.nst := hn
    omega
  have := c16_yp_is_derivative s' (le_trans hO.kusedm hm5)
    (by rw [outOrder_eq hk]; exact step_sums_nonzero cfg hl hm1 hm rf sf s s' op r hs h hn)
  rw [outOrder_eq hk] at this
  exact this

/-! ## C19 -/

/-- The dense output of `s`: there is one polynomial per component, of degree at most the order of the last step, that
passes through the last order + 1 accepted points; for every time `get_solution` accepts, it returns the value of this
polynomial and of its derivative. -/
def DenseInterpolates (s : State ν n q K) : Prop :=
  getLastOrder s + 1 ≤ s.g.acc.length ∧
  ∃ P : Fin n → K[X], Through (getLastOrder s) s.g.acc P ∧ ∀ t, ¬ BeforeLastStep s t →
    solutionAt s t = some (fun i => (P i).eval t, fun i => (derivative (P i)).eval t)

theorem dense_of_data {s : State ν n q K} (hk : s.c.kused ≤ 5) (h1 : 1 ≤ s.c.kused)
    (hlen : s.c.kused + 1 ≤ s.g.acc.length) (hd : Data s.e.tn s.h s.g.acc s.c.kused) : DenseInterpolates s :=
  ⟨hlen, _, hd.through (le_refl _), fun t ht => solutionAt_eq hk h1 ht⟩

theorem dense_of_full {cfg : Cfg ν n q K} (hm5 : cfg.maxord ≤ 5) {s : State ν n q K} (hF : FullInv cfg s)
    (hn : 0 < getNumSteps s) : DenseInterpolates s := by
  have hk := hF.hist.kused hn
  have hkm := hF.ok.ord.kusedm
  refine dense_of_data (le_trans hkm hm5) hk.1 ?_ ((hF.hist.data hn).congr (by omega) (fun _ _ => rfl) (fun _ _ => rfl))
  rw [hF.ok.ctl.len hn]; omega

/-- **C19 (partial).** In every history without step failure, once a step has been accepted, dense output interpolates
the last order + 1 accepted points.  (`get_solution` only accepts times from the start of the last step on, see
`c19_values` and `c19_older_times`; the older points are interpolated by the same polynomial.)  Missing: histories that
continue after a failed step, where the claim is false (`c19_refuted`). -/
theorem c19_dense_output_partial (cfg : Cfg ν n q K) (hl : NlsLegal cfg) (hm1 : 1 ≤ cfg.maxord) (hm5 : cfg.maxord ≤ 5)
    (hm : 0 ≤ cfg.hmaxInv) (s : State ν n q K) (hs : ReachOk cfg s) (hn : 0 < getNumSteps s) : DenseInterpolates s :=
  dense_of_full hm5 (hs.full hl hm1 hm) hn

/-- The polynomial is unique. -/
theorem c19_unique (cfg : Cfg ν n q K) (hl : NlsLegal cfg) (hm : 0 ≤ cfg.hmaxInv) (s : State ν n q K) (hs : Reach cfg s)
    (k : Nat) (hk : k + 1 ≤ s.g.acc.length) (P P' : Fin n → K[X]) (hP : Through k s.g.acc P) (hP' : Through k s.g.acc P') :
    P = P' :=
  through_unique hk (hs.ctl hl hm).chain hP hP'

theorem acc_two {cfg : Cfg ν n q K} {s : State ν n q K} (hF : FullInv cfg s) (hn : 0 < s.cnt.nst) :
    ∃ y0 p rest, s.g.acc = (s.e.tn, y0) :: p :: rest ∧ p.1 = s.e.tn - s.c.hused := by
  obtain ⟨y0, rest, hr⟩ := hF.ok.ctl.last hn
  have hlen := hF.ok.ctl.len hn
  rw [hr] at hlen
  cases rest with
  | nil => simp at hlen; omega
  | cons p rest =>
    refine ⟨y0, p, rest, hr, ?_⟩
    have hD := hF.hist.data hn
    have hk := hF.hist.kused hn
    have h0 : 1 ≤ cfg.maxord := le_trans hk.1 hF.ok.ord.kusedm
    have := (hD 1 (by omega) p (by rw [hr]; rfl)).1
    rw [this]
    show s.e.tn - s.h.psi 0 = _
    rw [hF.hist.psi0 hn]

/-- **C19, the two accepted times `get_solution` accepts**: at the end and at the start of the last step it returns
exactly the accepted values. -/
theorem c19_values_partial (cfg : Cfg ν n q K) (hl : NlsLegal cfg) (hm1 : 1 ≤ cfg.maxord) (hm5 : cfg.maxord ≤ 5)
    (hm : 0 ≤ cfg.hmaxInv) (s : State ν n q K) (hs : ReachOk cfg s) (hn : 0 < getNumSteps s) :
    ∃ p0 p1 rest, s.g.acc = p0 :: p1 :: rest ∧ p0.1 = getCurrentTime s ∧ p1.1 = getCurrentTime s - getLastStep s ∧
      (solutionAt s p0.1).map Prod.fst = some p0.2 ∧ (solutionAt s p1.1).map Prod.fst = some p1.2 := by
  have hF := hs.full hl hm1 hm
  obtain ⟨y0, p, rest, hr, hp⟩ := acc_two hF hn
  obtain ⟨hlen, P, hP, hev⟩ := dense_of_full hm5 hF hn
  have hk := (hF.hist.kused hn).1
  have hu := hF.ok.ctl.used hn
  refine ⟨_, p, rest, hr, rfl, hp, ?_, ?_⟩
  · rw [hev _ (not_before_of (by show 0 ≤ (s.e.tn - _) * _; rw [sub_sub_cancel, mul_comm]; exact hu.le))]
    refine congrArg some (funext fun i => ?_)
    exact hP.2 0 (Nat.zero_le _) _ (by rw [hr]; rfl) i
  · rw [hev _ (not_before_of (by rw [hp, sub_self, zero_mul]))]
    refine congrArg some (funext fun i => ?_)
    exact hP.2 1 hk _ (by rw [hr]; rfl) i

/-- **C19, older accepted times** (before the start of the last step by more than the roundoff allowance) are rejected
with `BadTimeValue`: this is the documented domain of `get_solution` (C17). -/
theorem c19_older_times (cfg : Cfg ν n q K) (hl : NlsLegal cfg) (hm1 : 1 ≤ cfg.maxord) (hm5 : cfg.maxord ≤ 5)
    (s : State ν n q K) (hs : Reach cfg s) (p : K × Vec n K) (hp : p ∈ s.g.acc) (hb : BeforeLastStep s p.1) :
    getSolution s p.1 = .ret s (.error (.ida .badTimeValue)) :=
  (c17_rejects_before_last_step s (le_trans (hs.ord hl hm1).kusedm hm5) p.1).1 hb

/-! ## C20 -/

/-- **C20 (partial).** A call after a history without step failure that accepts exactly one step: the old and the new
dense output agree at the common mesh point.  Missing: histories that continue after a failed step (`c20_refuted`). -/
theorem c20_continuous_partial (cfg : Cfg ν n q K) (hl : NlsLegal cfg) (hm1 : 1 ≤ cfg.maxord) (hm5 : cfg.maxord ≤ 5)
    (hm : 0 ≤ cfg.hmaxInv) (rf sf : Nat) (s s' : State ν n q K) (op : Op K) (r : Res n K) (hs : ReachOk cfg s)
    (h : exec cfg rf sf s op = some (s', r)) (hr : ∀ e, r = .solved (.error e) → e.isStepFailure = false)
    (hn : 0 < getNumSteps s) (h1 : getNumSteps s' = getNumSteps s + 1) :
    getCurrentTime s' - getLastStep s' = getCurrentTime s ∧
    ∃ y, (solutionAt s (getCurrentTime s)).map Prod.fst = some y ∧
      (solutionAt s' (getCurrentTime s)).map Prod.fst = some y := by
  have hs' : ReachOk cfg s' := .call rf sf op r hs h hr
  have hn' : 0 < getNumSteps s' := by omega
  obtain ⟨p0, p1, t, a1, a2, a3, a4, a5⟩ := c19_values_partial cfg hl hm1 hm5 hm s hs hn
  obtain ⟨q0, q1, t', b1, b2, b3, b4, b5⟩ := c19_values_partial cfg hl hm1 hm5 hm s' hs' hn'
  obtain ⟨l, c1, c2⟩ := exec_accExt hl hm1 hm hs h hn
  have hlen : l.length = 1 := by
    have e1 : s'.cnt.nst = s.cnt.nst + 1 := h1
    omega
  match l, hlen with
  | [x], _ =>
    rw [b1, a1] at c1
    simp only [List.cons_append, List.nil_append, List.cons.injEq] at c1
    obtain ⟨-, rfl, rfl⟩ := c1
    refine ⟨by rw [← b3, a2], q1.2, ?_, ?_⟩
    · rw [← a2]; exact a4
    · rw [← a2]; exact b5

/-- **C20, all steps at once**: the accepted points are never changed, only added to; together with
`c19_dense_output_partial` (each interpolant passes through both ends of its step) this gives continuity for calls that
take several steps. -/
theorem c20_points_kept (cfg : Cfg ν n q K) (hl : NlsLegal cfg) (hm1 : 1 ≤ cfg.maxord) (hm : 0 ≤ cfg.hmaxInv)
    (rf sf : Nat) (s s' : State ν n q K) (op : Op K) (r : Res n K) (hs : ReachOk cfg s)
    (h : exec cfg rf sf s op = some (s', r)) (hn : 0 < getNumSteps s) :
    ∃ l, s'.g.acc = l ++ s.g.acc ∧ getNumSteps s' = getNumSteps s + l.length :=
  exec_accExt hl hm1 hm hs h hn

/-! ## C21 -/

/-- **C21 (partial).** Every attempt of every step, up to one more call after a history without step failure, except the
attempts of the very first step (which has only one point): the predicted `y` and `y'` are value and derivative, at the
new time, of the unique polynomial of degree at most the order through the last order + 1 accepted points.  `x.before`
is a tail of the list of accepted points beginning at the start of the attempt.  Missing: histories that continue after
a failed step (`c21_refuted`). -/
theorem c21_predictor_partial (cfg : Cfg ν n q K) (hl : NlsLegal cfg) (hm1 : 1 ≤ cfg.maxord) (hm : 0 ≤ cfg.hmaxInv)
    (rf sf : Nat) (s s' : State ν n q K) (op : Op K) (r : Res n K) (hs : ReachOk cfg s)
    (h : exec cfg rf sf s op = some (s', r)) (x : Att n K) (hx : x ∈ s'.g.atts) (h2 : 2 ≤ x.before.length) :
    x.before <:+ s'.g.acc ∧ (∃ y rest, x.before = (x.t0, y) :: rest) ∧ x.kk + 1 ≤ x.before.length ∧
    x.tnew = x.t0 + x.hh ∧
    ∃ Q : Fin n → K[X], Through x.kk x.before Q ∧ (∀ Q', Through x.kk x.before Q' → Q' = Q) ∧
      (∀ i, x.pred i = (Q i).eval x.tnew) ∧ ∀ i, x.predp i = (derivative (Q i)).eval x.tnew := by
  obtain ⟨hA, hS, -⟩ := exec_attHist hl hm1 hm hs h
  have hH := hA x hx
  have hk : x.kk + 1 ≤ x.before.length := by
    rcases hH.enough with h | ⟨h, -⟩ <;> omega
  obtain ⟨Q, hQ, hp⟩ := hH.extra
  exact ⟨hS x hx h2, hH.start, hk, hH.tnew, Q, hQ, fun Q' hQ' => through_unique hk hH.apart hQ' hQ, fun i => (hp i).1,
    fun i => (hp i).2⟩

/-- **C21, exactness**: if the accepted points lie on a polynomial of degree at most the order, the prediction is
exact. -/
theorem c21_exact_partial (cfg : Cfg ν n q K) (hl : NlsLegal cfg) (hm1 : 1 ≤ cfg.maxord) (hm : 0 ≤ cfg.hmaxInv)
    (rf sf : Nat) (s s' : State ν n q K) (op : Op K) (r : Res n K) (hs : ReachOk cfg s)
    (h : exec cfg rf sf s op = some (s', r)) (x : Att n K) (hx : x ∈ s'.g.atts) (h2 : 2 ≤ x.before.length)
    (Y : Fin n → K[X]) (hd : ∀ i, (Y i).natDegree ≤ x.kk) (hY : ∀ p ∈ x.before, ∀ i, p.2 i = (Y i).eval p.1) :
    (∀ i, x.pred i = (Y i).eval x.tnew) ∧ ∀ i, x.predp i = (derivative (Y i)).eval x.tnew := by
  obtain ⟨-, -, hk, -, Q, hQ, hu, h3, h4⟩ := c21_predictor_partial cfg hl hm1 hm rf sf s s' op r hs h x hx h2
  have : Y = Q := hu Y ⟨hd, fun m _ p hp i => (hY p (List.mem_of_getElem? hp) i).symm⟩
  subst this
  exact ⟨h3, h4⟩

/-- **C21, the first step** (one point, order one): in a first call on a new object the prediction of the first attempt
is the linear extrapolation of the initial values. -/
theorem c21_first_attempt (cfg : Cfg ν n q K) (hl : NlsLegal cfg) (hm1 : 1 ≤ cfg.maxord) (hm : 0 ≤ cfg.hmaxInv)
    (rf sf : Nat) (nls0 : ν) (y0 yp0 : Vec n K) (tstop : Option K) (s' : State ν n q K) (tout tret : K) (task : Task)
    (r : Res n K) (h : exec cfg rf sf { State.new nls0 y0 yp0 with tstop := tstop } (.solve tout tret task) = some (s', r))
    (x : Att n K) (hx : s'.g.atts.getLast? = some x) :
    x.t0 = 0 ∧ x.kk = 1 ∧ x.before = [(0, y0)] ∧ (∀ i, x.pred i = y0 i + x.tnew * yp0 i) ∧ x.predp = yp0 := by
  have hA := (exec_attHist hl hm1 hm (.new nls0 y0 yp0 tstop) h).1
  rcases first_call_atts hl hm1 hm h with h0 | ⟨later, first, l, h1, h2, -⟩
  · rw [h0] at hx; cases hx
  · rw [h1, ← List.append_assoc, List.getLast?_append] at hx
    simp only [List.getLast?_singleton, Option.some_or, Option.some.injEq] at hx
    subst hx
    have hF := h2 l (by simp)
    have hH := hA l (by rw [h1]; simp)
    have e1 : l.hh / l.hh = 1 := div_self hF.hh
    have ht : l.tnew = l.hh := by rw [hH.tnew, hF.start, zero_add]
    refine ⟨hF.start, hF.kk, ?_, fun i => ?_, hF.predp⟩
    · rw [hF.before]; simp only [e1, one_mul]
    · rw [hF.pred, ht]; simp only [e1, one_mul]

/-! ## C22 -/

/-- **C22 (partial).** Every attempt, in the same setting: the pair `(y, y')` the corrector produces satisfies the
fixed-leading-coefficient BDF formula of the attempt's order, with the predictor polynomial of `c21_predictor_partial`
(`Extrapolates`); this holds for every correction vector, and is the formula with leading coefficient
`(1 + 1/2 + ... + 1/k) / h`.  Missing: histories that continue after a failed step. -/
theorem c22_bdf_partial (cfg : Cfg ν n q K) (hl : NlsLegal cfg) (hm1 : 1 ≤ cfg.maxord) (hm : 0 ≤ cfg.hmaxInv)
    (rf sf : Nat) (s s' : State ν n q K) (op : Op K) (r : Res n K) (hs : ReachOk cfg s)
    (h : exec cfg rf sf s op = some (s', r)) (x : Att n K) (hx : x ∈ s'.g.atts) :
    x.cj = (∑ i ∈ Finset.range x.kk, ((i : K) + 1)⁻¹) / x.hh ∧
    ∃ Q : Fin n → K[X], Through x.kk x.before Q ∧
      (∀ i, x.pred i = (Q i).eval x.tnew ∧ x.predp i = (derivative (Q i)).eval x.tnew) ∧
      FixedLeadingBdf x.kk x.tnew x.hh Q x.yy x.yp := by
  have hH := (exec_attHist hl hm1 hm hs h).1 x hx
  obtain ⟨Q, hQ, hp⟩ := hH.extra
  exact ⟨hH.cj, Q, hQ, hp, hH.bdf hQ.1 hp⟩

/-! ## C23 -/

/-- **C23 (partial).** In the same setting, an attempt `x` that directly follows a failed attempt `y` starts from the
same time, and its prediction is the extrapolation of the same accepted points.  Excluded: the first step (C24), and
retries by a further call after a failed one (`c23_refuted`). -/
theorem c23_rollback_partial (cfg : Cfg ν n q K) (hl : NlsLegal cfg) (hm1 : 1 ≤ cfg.maxord) (hm : 0 ≤ cfg.hmaxInv)
    (rf sf : Nat) (s s' : State ν n q K) (op : Op K) (r : Res n K) (hs : ReachOk cfg s)
    (h : exec cfg rf sf s op = some (s', r)) (p t : List (Att n K)) (x y : Att n K) (hat : s'.g.atts = p ++ x :: y :: t)
    (hy : y.out ≠ .accepted) (h2 : 2 ≤ x.before.length) :
    x.t0 = y.t0 ∧ x.before = y.before ∧
    (∃ Q : Fin n → K[X], Through x.kk y.before Q ∧ ∀ i, x.pred i = (Q i).eval x.tnew ∧
      x.predp i = (derivative (Q i)).eval x.tnew) ∧
    (x.kk = y.kk → ∃ Q : Fin n → K[X],
      (∀ i, x.pred i = (Q i).eval x.tnew ∧ x.predp i = (derivative (Q i)).eval x.tnew) ∧
      (∀ i, y.pred i = (Q i).eval y.tnew ∧ y.predp i = (derivative (Q i)).eval y.tnew)) := by
  have hS := exec_sameStart hl hm1 hm hs h
  rw [hat] at hS
  have hb := hS.split hy h2
  have hxm : x ∈ s'.g.atts := by rw [hat]; simp
  have hym : y ∈ s'.g.atts := by rw [hat]; simp
  obtain ⟨-, ⟨y1, r1, hx1⟩, -, -, Q, hQ, hu, h3, h4⟩ := c21_predictor_partial cfg hl hm1 hm rf sf s s' op r hs h x hxm h2
  obtain ⟨-, ⟨y2, r2, hy1⟩, -, -, Q', hQ', hu', h3', h4'⟩ :=
    c21_predictor_partial cfg hl hm1 hm rf sf s s' op r hs h y hym (by rw [← hb]; exact h2)
  refine ⟨?_, hb, ⟨Q, by rw [← hb]; exact hQ, fun i => ⟨h3 i, h4 i⟩⟩, fun hk => ⟨Q, fun i => ⟨h3 i, h4 i⟩, ?_⟩⟩
  · rw [hx1, hy1] at hb
    simp only [List.cons.injEq, Prod.mk.injEq] at hb
    exact hb.1.1
  · have : Q = Q' := hu' Q (by rw [← hb, ← hk]; exact hQ)
    subst this
    exact fun i => ⟨h3' i, h4' i⟩

/-- **C23, the state after the failure of a step**: a call that accepts no step and reports a failed one leaves the time,
the accepted points, the history vectors and the last step size and order as they were. -/
theorem c23_failed_call (cfg : Cfg ν n q K) (hl : NlsLegal cfg) (hm1 : 1 ≤ cfg.maxord) (hm : 0 ≤ cfg.hmaxInv)
    (rf sf : Nat) (s s' : State ν n q K) (op : Op K) (e : Err) (hs : ReachOk cfg s)
    (h : exec cfg rf sf s op = some (s', .solved (.error e))) (he : e.isStepFailure = true) (hn : 0 < getNumSteps s)
    (h0 : getNumSteps s' = getNumSteps s) :
    getCurrentTime s' = getCurrentTime s ∧ s'.g.acc = s.g.acc ∧ s'.h.phi = s.h.phi ∧ getLastStep s' = getLastStep s ∧
      getLastOrder s' = getLastOrder s ∧ ∃ c, 0 < c ∧ c ≤ 1 ∧ getCurrentStep s' = c * getCurrentStep s := by
  rcases exec_hist hl hm1 hm hs h with ⟨hF, -, hno⟩ | ⟨s1, s2, e', hF, hM, hH, h1, hn2, -, -, -⟩
  · have := hno e rfl; rw [he] at this; cases this
  · have hn0 : 0 < s.cnt.nst := hn
    have h0' : s'.cnt.nst = s.cnt.nst := h0
    have hn1 : 0 < s1.cnt.nst := by rw [← hn2, ← hH.nst]; omega
    have e1 := h1 hn1
    subst e1
    obtain ⟨g1, g2, g3, g4, -⟩ := hH.same hn1
    have hnn := hH.nst
    rcases (keeps_micros hl hm (hs.full hl hm1 hm).ok.ctl hM).2 hn0 with k | ⟨k1, k2, k3, k4, k5, k6, c, c1, c2, c3⟩
    · omega
    · obtain ⟨d, d1, d2, d3⟩ := hH.hh
      refine ⟨hH.tn.trans k5, by rw [hH.acc, k6], by rw [g2, k2], g4.trans k4, g3.trans k3, d * c, mul_pos d1 c1,
        mul_le_one₀ d2 c1.le c2, ?_⟩
      show s'.c.hh = d * c * s.c.hh
      rw [d3, c3, mul_assoc]

/-! ## C24 -/

/-- The claim of C24 for the attempts of a first call with initial values `y0`, `yp0` at time 0: each attempt of the first
step starts from `y0`. -/
def StartsFrom (y0 : Vec n K) (l : List (Att n K)) : Prop := ∀ x ∈ l, x.t0 = 0 → x.before = [(0, y0)]

/-- **C24 (partial): what really happens.** In a first call on a new object every attempt of the first step starts at time
0 with order one and the initial derivative `yp0`, but with the initial value multiplied by the ratio of its step size to
the first step size tried. So the initial value is kept exactly by the first attempt, and the claim holds if that attempt
is accepted (`c24_kept_partial`). -/
theorem c24_first_step_partial (cfg : Cfg ν n q K) (hl : NlsLegal cfg) (hm1 : 1 ≤ cfg.maxord) (hm : 0 ≤ cfg.hmaxInv)
    (rf sf : Nat) (nls0 : ν) (y0 yp0 : Vec n K) (tstop : Option K) (s' : State ν n q K) (tout tret : K) (task : Task)
    (r : Res n K) (h : exec cfg rf sf { State.new nls0 y0 yp0 with tstop := tstop } (.solve tout tret task) = some (s', r))
    (l : Att n K) (hl' : s'.g.atts.getLast? = some l) (x : Att n K) (hx : x ∈ s'.g.atts) (h1 : x.before.length < 2) :
    x.t0 = 0 ∧ x.kk = 1 ∧ x.before = [(0, fun i => x.hh / l.hh * y0 i)] ∧
    (∀ i, x.pred i = x.hh / l.hh * y0 i + x.hh * yp0 i) ∧ x.predp = yp0 := by
  rcases first_call_atts hl hm1 hm h with h0 | ⟨later, first, l', h2, h3, h4, -⟩
  · rw [h0] at hx; cases hx
  · rw [h2, ← List.append_assoc, List.getLast?_append] at hl'
    simp only [List.getLast?_singleton, Option.some_or, Option.some.injEq] at hl'
    subst hl'
    rw [h2] at hx
    rcases List.mem_append.1 hx with hx | hx
    · have := h4 x hx; omega
    · have hF := h3 x hx
      exact ⟨hF.start, hF.kk, hF.before, fun i => by rw [hF.pred], hF.predp⟩

/-- **C24 (partial)**: the initial value is kept if all attempts of the first step have the same step size (in particular
if there is only one). -/
theorem c24_kept_partial (cfg : Cfg ν n q K) (hl : NlsLegal cfg) (hm1 : 1 ≤ cfg.maxord) (hm : 0 ≤ cfg.hmaxInv)
    (rf sf : Nat) (nls0 : ν) (y0 yp0 : Vec n K) (tstop : Option K) (s' : State ν n q K) (tout tret : K) (task : Task)
    (r : Res n K) (h : exec cfg rf sf { State.new nls0 y0 yp0 with tstop := tstop } (.solve tout tret task) = some (s', r))
    (l : Att n K) (hl' : s'.g.atts.getLast? = some l) (x : Att n K) (hx : x ∈ s'.g.atts) (h1 : x.before.length < 2)
    (hh : x.hh = l.hh) : x.before = [(0, y0)] := by
  have hA := (exec_attHist hl hm1 hm (.new nls0 y0 yp0 tstop) h).1 l (List.mem_of_getLast? hl')
  obtain ⟨-, -, h2, -⟩ := c24_first_step_partial cfg hl hm1 hm rf sf nls0 y0 yp0 tstop s' tout tret task r h l hl' x hx h1
  rw [h2, hh, div_self hA.hh]
  simp only [one_mul]

/-! ## C34 -/

/-- **C34 (partial).** A call reports a failed step after a history without step failure. If every attempt of the failing
step had at least the order of the last accepted step, dense output still interpolates the accepted points (which the
failure leaves as they were), so it returns the same values.  Missing: failing steps that lowered the order, where the
claim is false (`c34_refuted`). -/
theorem c34_dense_output_partial (cfg : Cfg ν n q K) (hl : NlsLegal cfg) (hm1 : 1 ≤ cfg.maxord) (hm5 : cfg.maxord ≤ 5)
    (hm : 0 ≤ cfg.hmaxInv) (rf sf : Nat) (s s' : State ν n q K) (op : Op K) (e : Err) (hs : ReachOk cfg s)
    (h : exec cfg rf sf s op = some (s', .solved (.error e))) (he : e.isStepFailure = true) (hn : 0 < getNumSteps s')
    (hord : ∀ x ∈ sinceAccepted s'.g.atts, getLastOrder s' ≤ x.kk) : DenseInterpolates s' := by
  rcases exec_hist hl hm1 hm hs h with ⟨hF, -, hno⟩ | ⟨s1, s2, e', hF, hM, hH, h1, hn2, -, -, -⟩
  · have := hno e rfl; rw [he] at this; cases this
  · have hn1 : 0 < s1.cnt.nst := by rw [← hn2, ← hH.nst]; exact hn
    have e1 := h1 hn1
    subst e1
    obtain ⟨g1, g2, g3, g4, l, g5, g6, g7⟩ := hH.same hn1
    have hk := hF.hist.kused hn1
    have hkm := hF.ok.ord.kusedm
    obtain ⟨x0, t0, hx0, hacc, -⟩ := hF.ok.trace.last hn1
    have hsince : sinceAccepted s'.g.atts = l := by
      have hna : ∀ x : Att n K, x.out ≠ .accepted → isAccepted x = false := by
        intro x hx; rw [← Bool.not_eq_true, isAccepted_iff]; exact hx
      unfold sinceAccepted
      rw [g5, hx0, List.takeWhile_append_of_pos (by intro x hx; simp [hna x (g6 x hx)])]
      rw [List.takeWhile_cons_of_neg (by simp [(isAccepted_iff x0).2 hacc]), List.append_nil]
    rw [hsince] at hord
    have hpsi := g7 (fun x hx => by
      have e := hord x hx
      have e' : getLastOrder s' = s2.c.kused := g3
      omega)
    refine dense_of_data (by rw [g3]; omega) (by rw [g3]; exact hk.1) ?_ ?_
    · rw [hH.acc, hF.ok.ctl.len hn1, g3]; omega
    · rw [hH.acc, hH.tn, g3]
      exact (hF.hist.data hn1).congr (by omega) hpsi (fun j _ => by rw [g2])

/-- **C34 (partial), the values**: if the failing call accepted no step before failing, `get_solution(t)` returns the
same values as before for every `t` from the start of the last accepted step on. -/
theorem c34_same_values_partial (cfg : Cfg ν n q K) (hl : NlsLegal cfg) (hm1 : 1 ≤ cfg.maxord) (hm5 : cfg.maxord ≤ 5)
    (hm : 0 ≤ cfg.hmaxInv) (rf sf : Nat) (s s' : State ν n q K) (op : Op K) (e : Err) (hs : ReachOk cfg s)
    (h : exec cfg rf sf s op = some (s', .solved (.error e))) (he : e.isStepFailure = true) (hn : 0 < getNumSteps s)
    (h0 : getNumSteps s' = getNumSteps s) (hord : ∀ x ∈ sinceAccepted s'.g.atts, getLastOrder s' ≤ x.kk) (t : K)
    (ht : 0 ≤ (t - (getCurrentTime s - getLastStep s)) * getCurrentStep s) : solutionAt s' t = solutionAt s t := by
  obtain ⟨hlen, P, hP, hev⟩ := c19_dense_output_partial cfg hl hm1 hm5 hm s hs hn
  obtain ⟨hlen', P', hP', hev'⟩ := c34_dense_output_partial cfg hl hm1 hm5 hm rf sf s s' op e hs h he (by omega) hord
  obtain ⟨h1, h2, -, h4, h5, c, hc1, -, h6⟩ := c23_failed_call cfg hl hm1 hm rf sf s s' op e hs h he hn h0
  rw [h5, h2] at hP'
  have := c19_unique cfg hl hm s hs.reach _ hlen P' P hP' hP
  have ht' : ¬ BeforeLastStep s' t := by
    refine not_before_of ?_
    show 0 ≤ (t - (getCurrentTime s' - getLastStep s')) * getCurrentStep s'
    rw [h1, h4, h6, show ∀ a b d : K, a * (b * d) = b * (a * d) by intros; ring]
    exact mul_nonneg hc1.le ht
  rw [hev t (not_before_of ht), hev' t ht', this]

/-! ## Witness runs and refutations -/

section
open Witness

/-- Small correction: the step is accepted and the next one may grow. -/
def okSmall : ℚ × Except Err Unit := (1 / 100, .ok ())
/-- Correction for which the step is accepted and the step size stays the same. -/
def okKeep : ℚ × Except Err Unit := (1 / 2, .ok ())
/-- Correction that fails the error test. -/
def okBig : ℚ × Except Err Unit := (100000, .ok ())
/-- Recoverable failure. -/
def recov : ℚ × Except Err Unit := (0, .error (.ida (.recoverableFail .lSolve)))
/-- Unrecoverable failure. -/
def unrec : ℚ × Except Err Unit := (0, .error (.other "sys"))

/-- Three accepted steps (1, 1, 1/2, the last one of order 2), then unrecoverable failures, then success again. -/
def brokenHistory : List (ℚ × Except Err Unit) :=
  [okSmall, okSmall, recov, okKeep, unrec, unrec, unrec, unrec, okSmall, okSmall]

theorem script_new (l : List (ℚ × Except Err Unit)) : ReachOk (scriptCfg l) script0 :=
  .new 0 (fun _ => 1) (fun _ => -1) none

/-- A history without step failure with five accepted steps of orders up to 3 and two kinds of retries: the hypotheses of
the theorems above are met, with non-trivial points. -/
example : ((run (scriptCfg [okSmall, okSmall, okBig, okSmall, recov, okKeep, okSmall]) 10 10 (steps 5) script0).map fun p =>
    (p.2.any Res.stepFailed, getNumSteps p.1, p.1.g.atts.map fun x => (x.kk, x.before.length))) =
      some (false, 5, [(2, 5), (2, 4), (2, 4), (2, 3), (2, 3), (1, 2), (1, 1)]) := by decide +kernel

/-- The same, as an existence statement. -/
theorem history_nontrivial : ∃ (l : List (ℚ × Except Err Unit)) (s : State Nat 1 0 ℚ), ReachOk (scriptCfg l) s ∧ 5 ≤ getNumSteps s ∧
    2 ≤ getLastOrder s ∧ ∃ x ∈ s.g.atts, x.out ≠ .accepted ∧ 2 ≤ x.before.length := by
  have hd : ((run (scriptCfg [okSmall, okSmall, okBig, okSmall, recov, okKeep, okSmall]) 10 10 (steps 5) script0).map
      fun p => !p.2.any Res.stepFailed && decide (5 ≤ getNumSteps p.1) && decide (2 ≤ getLastOrder p.1) &&
        p.1.g.atts.any fun x => decide (x.out ≠ .accepted) && decide (2 ≤ x.before.length)) = some true := by
    decide +kernel
  obtain ⟨s, l, hr, hp⟩ := run_witness (P := fun (s : State Nat 1 0 ℚ) l =>
    !l.any Res.stepFailed && decide (5 ≤ getNumSteps s) && decide (2 ≤ getLastOrder s) &&
        s.g.atts.any fun x => decide (x.out ≠ .accepted) && decide (2 ≤ x.before.length)) hd
  simp only [Bool.and_eq_true, Bool.not_eq_true', decide_eq_true_eq, List.any_eq_true] at hp
  obtain ⟨⟨⟨h1, h2⟩, h3⟩, x, hx, h4⟩ := hp
  exact ⟨_, s, run_reachOk _ (script_new _) hr h1, h2, h3, x, hx, h4⟩

/-- **C15: why it is partial.** After a run of failed calls the step sum by which the interpolation formula divides can
become zero: steps 1, 1, 2 with order 3, then calls that fail. `get_solution(get_current_time())` then computes `0 / 0`. -/
theorem c15_zero_step_sum : ∃ (l : List (ℚ × Except Err Unit)) (s : State Nat 1 0 ℚ), Reach (scriptCfg l) s ∧
    0 < getNumSteps s ∧ 0 < getLastOrder s ∧ s.h.psi 0 = 0 := by
  have hd : ((run (scriptCfg [okSmall, okSmall, okSmall, recov, okKeep, okSmall, okKeep, unrec, unrec, unrec, unrec, unrec,
      unrec]) 10 10 (steps 11) script0).map fun p => decide (0 < getNumSteps p.1) && decide (0 < getLastOrder p.1) &&
        decide (p.1.h.psi 0 = 0)) = some true := by decide +kernel
  obtain ⟨s, l, hr, hp⟩ := run_witness (P := fun (s : State Nat 1 0 ℚ) _ =>
    decide (0 < getNumSteps s) && decide (0 < getLastOrder s) && decide (s.h.psi 0 = 0)) hd
  simp only [Bool.and_eq_true, decide_eq_true_eq] at hp
  exact ⟨_, s, run_reach _ (script_new _).reach hr, hp.1.1, hp.1.2, hp.2⟩

/-- **C19: refutation across failed calls.** After three failed calls `get_solution` at the start of the last accepted step
no longer returns the value accepted there. -/
theorem c19_refuted : ∃ s : State Nat 1 0 ℚ, Reach (scriptCfg brokenHistory) s ∧ 0 < getNumSteps s ∧
    ¬ DenseInterpolates s := by
  have hd : ((run (scriptCfg brokenHistory) 10 10 (steps 6) script0).map fun p =>
      decide (0 < getNumSteps p.1) && decide (getLastOrder p.1 = 2) && match p.1.g.acc with
      | _ :: a :: _ => !badTime p.1 a.1 && !decide ((solutionAt p.1 a.1).map (fun y => y.1 0) = some (a.2 0))
      | _ => false) = some true := by decide +kernel
  obtain ⟨s, l, hr, hp⟩ := run_witness (P := fun (s : State Nat 1 0 ℚ) _ =>
    decide (0 < getNumSteps s) && decide (getLastOrder s = 2) && match s.g.acc with
      | _ :: a :: _ => !badTime s a.1 && !decide ((solutionAt s a.1).map (fun y => y.1 0) = some (a.2 0))
      | _ => false) hd
  simp only [Bool.and_eq_true, decide_eq_true_eq] at hp
  obtain ⟨⟨h1, h2⟩, h3⟩ := hp
  refine ⟨s, run_reach _ (script_new _).reach hr, h1, ?_⟩
  rintro ⟨-, P, hP, hev⟩
  split at h3
  · rename_i b a t hac
    simp only [Bool.and_eq_true, Bool.not_eq_true', decide_eq_false_iff_not] at h3
    refine h3.2 ?_
    rw [hev a.1 (by rw [← badTime_iff, h3.1]; simp)]
    have := hP.2 1 (by omega) a (by rw [hac]; rfl) 0
    simp only [Option.map_some, this]
  · cases h3

/-- **C20: refutation across failed calls.** The step accepted after four failed calls makes dense output jump at the
time reached before. -/
theorem c20_refuted : ∃ (s s' : State Nat 1 0 ℚ) (r : Res 1 ℚ), Reach (scriptCfg brokenHistory) s ∧
    exec (scriptCfg brokenHistory) 10 10 s (.solve 1000 0 .oneStep) = some (s', r) ∧ 0 < getNumSteps s ∧
    getNumSteps s' = getNumSteps s + 1 ∧ getCurrentTime s' - getLastStep s' = getCurrentTime s ∧
    (solutionAt s (getCurrentTime s)).map Prod.fst ≠ none ∧ (solutionAt s' (getCurrentTime s)).map Prod.fst ≠ none ∧
    (solutionAt s (getCurrentTime s)).map Prod.fst ≠ (solutionAt s' (getCurrentTime s)).map Prod.fst := by
  have hd : ((run (scriptCfg brokenHistory) 10 10 (steps 7) script0).map fun p =>
      match exec (scriptCfg brokenHistory) 10 10 p.1 (.solve 1000 0 .oneStep) with
      | some (s', _) => decide (0 < getNumSteps p.1) && decide (getNumSteps s' = getNumSteps p.1 + 1) &&
        decide (getCurrentTime s' - getLastStep s' = getCurrentTime p.1) &&
        (match solutionAt p.1 (getCurrentTime p.1), solutionAt s' (getCurrentTime p.1) with
         | some a, some b => !decide (a.1 0 = b.1 0)
         | _, _ => false)
      | none => false) = some true := by decide +kernel
  obtain ⟨s, l, hr, hp⟩ := run_witness (P := fun (s : State Nat 1 0 ℚ) _ =>
      match exec (scriptCfg brokenHistory) 10 10 s (.solve 1000 0 .oneStep) with
      | some (s', _) => decide (0 < getNumSteps s) && decide (getNumSteps s' = getNumSteps s + 1) &&
        decide (getCurrentTime s' - getLastStep s' = getCurrentTime s) &&
        (match solutionAt s (getCurrentTime s), solutionAt s' (getCurrentTime s) with
         | some a, some b => !decide (a.1 0 = b.1 0)
         | _, _ => false)
      | none => false) hd
  split at hp
  · rename_i s' r he
    simp only [Bool.and_eq_true, decide_eq_true_eq] at hp
    obtain ⟨⟨⟨h1, h2⟩, h3⟩, h4⟩ := hp
    refine ⟨s, s', r, run_reach _ (script_new _).reach hr, he, h1, h2, h3, ?_⟩
    split at h4
    · rename_i a b ha hb
      simp only [Bool.not_eq_true', decide_eq_false_iff_not] at h4
      rw [ha, hb]
      refine ⟨by simp, by simp, fun hh => h4 ?_⟩
      simp only [Option.map_some, Option.some.injEq] at hh
      rw [hh]
    · cases h4
  · cases hp

/-- Two attempts with the same start, points, order and size but different predictions, `y` failed. -/
def twoTries (x y : Att 1 ℚ) : Bool :=
  decide (y.out ≠ .accepted) && decide (x.t0 = y.t0) &&
    decide (x.before.map (fun z => (z.1, z.2 0)) = y.before.map (fun z => (z.1, z.2 0))) &&
    decide (x.kk = y.kk) && decide (x.hh = y.hh) && decide (x.pred 0 ≠ y.pred 0) && decide (x.tnew = y.tnew) &&
    decide (2 ≤ x.before.length)

/-- **C21 and C23: refutation across failed calls.** `y` is the last attempt of a call that reports a failed step, `x` the
attempt made by the next call. Both start from the same points with the same size and order, but their predictions differ:
`x` does not extrapolate the accepted points. -/
theorem c21_c23_refuted : ∃ (s s' : State Nat 1 0 ℚ) (r : Res 1 ℚ) (x y : Att 1 ℚ) (t t' : List (Att 1 ℚ)),
    Reach (scriptCfg brokenHistory) s ∧
    exec (scriptCfg brokenHistory) 10 10 s (.solve 1000 0 .oneStep) = some (s', r) ∧ s.g.atts = y :: t ∧ s'.g.atts = x :: t' ∧
    y.out ≠ .accepted ∧ x.t0 = y.t0 ∧ x.before = y.before ∧ x.kk = y.kk ∧ x.hh = y.hh ∧ 2 ≤ x.before.length ∧
    x.pred ≠ y.pred ∧ Extrapolates y ∧ ¬ Extrapolates x := by
  have hd : ((run (scriptCfg brokenHistory) 10 10 (steps 3) script0).map fun p => !p.2.any Res.stepFailed &&
      match exec (scriptCfg brokenHistory) 10 10 p.1 (.solve 1000 0 .oneStep) with
      | some (s4, _) => (match exec (scriptCfg brokenHistory) 10 10 s4 (.solve 1000 0 .oneStep) with
        | some (s5, _) => (match s5.g.atts, s4.g.atts with
          | x :: _, y :: _ => twoTries x y
          | _, _ => false)
        | none => false)
      | none => false) = some true := by decide +kernel
  obtain ⟨s3, l, hr, hp⟩ := run_witness (P := fun (s : State Nat 1 0 ℚ) l => !l.any Res.stepFailed &&
      match exec (scriptCfg brokenHistory) 10 10 s (.solve 1000 0 .oneStep) with
      | some (s4, _) => (match exec (scriptCfg brokenHistory) 10 10 s4 (.solve 1000 0 .oneStep) with
        | some (s5, _) => (match s5.g.atts, s4.g.atts with
          | x :: _, y :: _ => twoTries x y
          | _, _ => false)
        | none => false)
      | none => false) hd
  simp only [Bool.and_eq_true, Bool.not_eq_true'] at hp
  obtain ⟨h0, hp⟩ := hp
  have hs3 : ReachOk (scriptCfg brokenHistory) s3 := run_reachOk _ (script_new _) hr h0
  have hl : NlsLegal (scriptCfg brokenHistory) := by
    refine scriptCfg_legal _ fun p hp e he => ?_
    simp only [brokenHistory, List.mem_cons, List.not_mem_nil, or_false] at hp
    rcases hp with rfl | rfl | rfl | rfl | rfl | rfl | rfl | rfl | rfl | rfl <;> cases he
    · intro h; cases h
    all_goals trivial
  split at hp
  · rename_i s4 r4 he4
    have hA := (exec_attHist hl (by decide) (le_refl _) hs3 he4).1
    have hs4 : Reach (scriptCfg brokenHistory) s4 := .call 10 10 _ r4 hs3.reach he4
    split at hp
    · rename_i s5 r5 he5
      split at hp
      · rename_i x t' y t hx hy
        have hH := hA y (by rw [hy]; exact List.mem_cons_self ..)
        unfold twoTries at hp
        simp only [Bool.and_eq_true, decide_eq_true_eq] at hp
        obtain ⟨⟨⟨⟨⟨⟨⟨c1, c2⟩, c3⟩, c4⟩, c5⟩, c6⟩, c7⟩, c8⟩ := hp
        have hinj : Function.Injective fun z : ℚ × Vec 1 ℚ => (z.1, z.2 0) := by
          intro a b hab
          simp only [Prod.mk.injEq] at hab
          refine Prod.ext hab.1 (funext fun i => ?_)
          rw [Subsingleton.elim i 0]; exact hab.2
        have hb : x.before = y.before := List.map_injective_iff.2 hinj c3
        refine ⟨s4, s5, r5, x, y, t, t', hs4, he5, hy, hx, c1, c2, hb, c4, c5, c8, fun h => c6 (by rw [h]), hH.extra, ?_⟩
        rintro ⟨Q, hQ, hp⟩
        obtain ⟨Q', hQ', hp'⟩ := hH.extra
        have hk : y.kk + 1 ≤ y.before.length := by
          rcases hH.enough with h | ⟨h, -⟩
          · exact h
          · rw [hb] at c8; omega
        have : Q = Q' := through_unique hk hH.apart (by rw [← hb, ← c4]; exact hQ) hQ'
        subst this
        exact c6 (by rw [(hp 0).1, (hp' 0).1, c7])
      · cases hp
    · cases hp
  · cases hp

/-- **C24: refutation.** The first attempt of the first step fails the error test; the retry starts from a scaled-down
initial value. -/
theorem c24_refuted : ∃ (s : State Nat 1 0 ℚ) (r : Res 1 ℚ),
    exec (scriptCfg [okBig, okSmall]) 10 10 (State.new 0 (fun _ => 1) (fun _ => -1)) (.solve 1000 0 .oneStep) = some (s, r) ∧
    getNumSteps s = 1 ∧ ¬ StartsFrom (fun _ => 1) s.g.atts := by
  have hd : ((run (scriptCfg [okBig, okSmall]) 10 10 (steps 1) script0).map fun p => decide (getNumSteps p.1 = 1) &&
      match p.1.g.atts with
      | x :: _ => decide (x.t0 = 0) && decide (x.before.map (fun z => z.2 0) = [1 / 4])
      | [] => false) = some true := by decide +kernel
  obtain ⟨s, l, hr, hp⟩ := run_witness (P := fun (s : State Nat 1 0 ℚ) _ => decide (getNumSteps s = 1) &&
      match s.g.atts with
      | x :: _ => decide (x.t0 = 0) && decide (x.before.map (fun z => z.2 0) = [1 / 4])
      | [] => false) hd
  simp only [Bool.and_eq_true, decide_eq_true_eq] at hp
  obtain ⟨r, hex⟩ := run_one hr
  refine ⟨s, r, hex, hp.1, fun hS => ?_⟩
  have hp2 := hp.2
  split at hp2
  · rename_i x t hx
    simp only [Bool.and_eq_true, decide_eq_true_eq] at hp2
    have := hS x (by rw [hx]; exact List.mem_cons_self ..) hp2.1
    rw [this] at hp2
    norm_num at hp2
  · cases hp2

/-- **C34: refutation.** Steps 1, 1, 2, the last one of order 2; the fourth call fails the error test three times, which
lowers the order to one, and then fails unrecoverably. `get_solution` in the middle of the last accepted step returns
another value than before that call. -/
theorem c34_refuted : ∃ (s s' : State Nat 1 0 ℚ) (e : Err) (t : ℚ),
    ReachOk (scriptCfg [okSmall, okSmall, okSmall, okBig, okBig, okBig, unrec]) s ∧
    exec (scriptCfg [okSmall, okSmall, okSmall, okBig, okBig, okBig, unrec]) 10 10 s (.solve 1000 0 .oneStep) =
      some (s', .solved (.error e)) ∧ e.isStepFailure = true ∧ getNumSteps s' = getNumSteps s ∧
    getCurrentTime s - getLastStep s ≤ t ∧ t ≤ getCurrentTime s ∧ solutionAt s t ≠ none ∧ solutionAt s' t ≠ none ∧
    solutionAt s' t ≠ solutionAt s t := by
  have hd : ((run (scriptCfg [okSmall, okSmall, okSmall, okBig, okBig, okBig, unrec]) 10 10 (steps 3) script0).map fun p =>
      !p.2.any Res.stepFailed && match exec (scriptCfg [okSmall, okSmall, okSmall, okBig, okBig, okBig, unrec]) 10 10 p.1
        (.solve 1000 0 .oneStep) with
      | some (s', .solved (.error e)) => e.isStepFailure && decide (getNumSteps s' = getNumSteps p.1) &&
        decide (getCurrentTime p.1 - getLastStep p.1 ≤ (3 : ℚ)) && decide ((3 : ℚ) ≤ getCurrentTime p.1) &&
        (match solutionAt p.1 (3 : ℚ), solutionAt s' (3 : ℚ) with
         | some a, some b => !decide (a.1 0 = b.1 0)
         | _, _ => false)
      | _ => false) = some true := by decide +kernel
  obtain ⟨s, l, hr, hp⟩ := run_witness (P := fun (s : State Nat 1 0 ℚ) l =>
      !l.any Res.stepFailed && match exec (scriptCfg [okSmall, okSmall, okSmall, okBig, okBig, okBig, unrec]) 10 10 s
        (.solve 1000 0 .oneStep) with
      | some (s', .solved (.error e)) => e.isStepFailure && decide (getNumSteps s' = getNumSteps s) &&
        decide (getCurrentTime s - getLastStep s ≤ (3 : ℚ)) && decide ((3 : ℚ) ≤ getCurrentTime s) &&
        (match solutionAt s (3 : ℚ), solutionAt s' (3 : ℚ) with
         | some a, some b => !decide (a.1 0 = b.1 0)
         | _, _ => false)
      | _ => false) hd
  simp only [Bool.and_eq_true, Bool.not_eq_true'] at hp
  obtain ⟨h0, hp⟩ := hp
  split at hp
  · rename_i s' e he
    simp only [Bool.and_eq_true, decide_eq_true_eq] at hp
    obtain ⟨⟨⟨⟨h1, h2⟩, h3⟩, h4⟩, h5⟩ := hp
    refine ⟨s, s', e, 3, run_reachOk _ (script_new _) hr h0, he, h1, h2, h3, h4, ?_⟩
    split at h5
    · rename_i a b ha hb
      simp only [Bool.not_eq_true', decide_eq_false_iff_not] at h5
      rw [ha, hb]
      refine ⟨by simp, by simp, fun hh => h5 ?_⟩
      simp only [Option.some.injEq] at hh
      rw [hh]
    · cases h5
  · cases hp

end

end

end Verif.Props
