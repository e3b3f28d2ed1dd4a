import Verif.Props.Affine
import Verif.Props.Step

/-! # C94: a step of order `k` is exact for polynomial solutions of degree `k` (exact scalars) -/

set_option autoImplicit false
set_option linter.unusedSectionVars false
set_option linter.unusedSimpArgs false
set_option linter.unusedVariables false

namespace Verif

open Verif.Spec Polynomial

universe u

section
variable {n q : Nat} {K : Type u} [Field K] [LinearOrder K] [IsStrictOrderedRing K] [ExactParams K] [EpsLaws K]

/-- The Newton stack: an attempt whose prediction satisfies the equations is accepted with correction zero. -/
theorem att_solved {P : Problem n q K} {tol : TolControl n K} {fuel : Nat} {s : State (Newton (Vec n K)) n q K}
    (hsq : ExactParams.sqrt (0 : K) = 0) (h : Reach (Cfg.newton P tol fuel) s) {x : Att n K} (hx : x ∈ s.g.atts)
    (h0 : ∀ buf, P.res x.tnew x.pred x.predp buf = fun _ => 0) : x.ee = (fun _ => 0) ∧ x.out = .accepted := by
  obtain ⟨l0, calls, hc, -⟩ := Story.newton h.story.story x hx
  have he : x.ee = fun _ => 0 := newton_zero hc (by rintro F ⟨buf, rfl⟩; exact h0 buf)
  refine ⟨he, ((Props.c32_test_decides _ s h).1 x hx ?_).2 ?_⟩
  · intro e ho
    have : ∀ x ∈ s.g.atts, ∀ e, x.out ≠ .nlsFail e := by
      refine (h.ghost (fun g => ∀ x ∈ g.atts, ∀ e, x.out ≠ .nlsFail e) (fun x hx => by cases hx) ?_ ?_).1
      · intro s t0 ee r out hI hr hf x hx e
        rcases List.mem_cons.1 hx with rfl | hx
        · obtain ⟨N, m, hn⟩ := hr
          rcases hf with ⟨e', rfl, -⟩ | ⟨-, rfl, -⟩
          · exact absurd hn (newton_no_error P fuel)
          · intro hh; cases hh
        · exact hI x hx e
      · intro s t0 ee hI _ _ _ x hx e
        rcases List.mem_cons.1 hx with rfl | hx
        · intro hh; cases hh
        · exact hI x hx e
    exact this x hx e ho
  · rw [he, wrmsNorm_zero hsq, mul_zero, ex_le]
    exact decide_eq_true zero_le_one

end

end Verif

namespace Verif.Props

open Verif Verif.Spec Verif.Witness Polynomial

universe u

section
variable {K : Type u} [Field K] [LinearOrder K] [IsStrictOrderedRing K] [ExactParams K] [EpsLaws K]
variable {n q : Nat}

/-- The polynomials `Y` satisfy `F(t, Y(t), Y'(t)) = 0` at all times. -/
def PolySolution (P : Problem n q K) (Y : Fin n → K[X]) : Prop :=
  ∀ t buf i, P.res t (fun i => (Y i).eval t) (fun i => (derivative (Y i)).eval t) buf i = 0

/-- The first `m` points of the list lie on `Y`. -/
def PointsOn (Y : Fin n → K[X]) (m : Nat) (pts : List (K × Vec n K)) : Prop :=
  ∀ p ∈ pts.take m, ∀ i, p.2 i = (Y i).eval p.1

/-- The attempt is predicted on `Y`, its correction is zero, it is accepted, and its values are those of `Y`, `Y'`. -/
structure ExactOn (Y : Fin n → K[X]) (x : Att n K) : Prop where
  accepted : x.out = .accepted
  correction : ∀ i, x.ee i = 0
  value : ∀ i, x.yy i = (Y i).eval x.tnew
  derivative : ∀ i, x.yp i = (derivative (Y i)).eval x.tnew

theorem through_of_points {Y : Fin n → K[X]} {k : Nat} {A : List (K × Vec n K)} (hd : ∀ i, (Y i).natDegree ≤ k)
    (h : PointsOn Y (k + 1) A) : Through k A Y := by
  refine ⟨hd, fun m hm p hp i => (h p ?_ i).symm⟩
  exact List.mem_of_getElem? (i := m) (by rw [List.getElem?_take_of_lt (by omega)]; exact hp)

variable (P : Problem n q K) (tol : TolControl n K) (fuel : Nat)

/-- **C94, one step.** Newton stack, a problem with polynomial solution `Y`, a history without a failed call before `s`.
Every attempt, of order `k` at least the degree of `Y`, of a step other than the first, whose last `k + 1` accepted points
lie on `Y` is accepted with correction zero, and its value and derivative are those of `Y`. -/
theorem c94_step_exact (h0 : ExactParams.sqrt (0 : K) = 0) (Y : Fin n → K[X]) (hP : PolySolution P Y) (rf sf : Nat)
    (s s' : State (Newton (Vec n K)) n q K) (op : Op K) (r : Res n K) (hs : ReachOk (Cfg.newton P tol fuel) s)
    (h : exec (Cfg.newton P tol fuel) rf sf s op = some (s', r)) (x : Att n K) (hx : x ∈ s'.g.atts)
    (h2 : 2 ≤ x.before.length) (hd : ∀ i, (Y i).natDegree ≤ x.kk) (hY : PointsOn Y (x.kk + 1) x.before) : ExactOn Y x := by
  obtain ⟨-, -, hk, -, Q, hQ, hu, h3, h4⟩ := c21_predictor_partial _ (newton_legal P tol fuel) newton_m1 newton_hm rf sf s s'
    op r hs h x hx h2
  have e : Y = Q := hu Y (through_of_points hd hY)
  rw [← e] at h3 h4
  have hR : Reach (Cfg.newton P tol fuel) s' := .call rf sf op r hs.reach h
  have h3' : x.pred = fun i => (Y i).eval x.tnew := funext h3
  have h4' : x.predp = fun i => (derivative (Y i)).eval x.tnew := funext h4
  obtain ⟨he, ho⟩ := att_solved h0 hR hx fun buf => by
    rw [h3', h4']
    exact funext fun i => hP _ buf i
  have hyy := hR.linked.yy x hx
  refine ⟨ho, fun i => by rw [he], fun i => ?_, fun i => ?_⟩
  · rw [hyy.1, he, h3']; exact add_zero _
  · rw [hyy.2, he, h4']
    show _ + x.cj * 0 = _
    rw [mul_zero, add_zero]

/-- **C94, from then on.** If the last six accepted points (of a list `B` of accepted points, in a history without a
failed call) lie on `Y`, and all later attempts are of order at least the degree of `Y`, then all later attempts are exact,
and so are all later accepted points. -/
theorem c94_stays_exact (h0 : ExactParams.sqrt (0 : K) = 0) (Y : Fin n → K[X]) (hP : PolySolution P Y) (rf sf : Nat)
    (s s' : State (Newton (Vec n K)) n q K) (op : Op K) (r : Res n K) (hs : ReachOk (Cfg.newton P tol fuel) s)
    (h : exec (Cfg.newton P tol fuel) rf sf s op = some (s', r)) (B later : List (K × Vec n K)) (hB : s'.g.acc = later ++ B)
    (h6 : 6 ≤ B.length) (hY : PointsOn Y 6 B)
    (hd : ∀ x ∈ s'.g.atts, B <:+ x.before → ∀ i, (Y i).natDegree ≤ x.kk) :
    (∀ x ∈ s'.g.atts, B <:+ x.before → ExactOn Y x) ∧ ∀ p ∈ later, ∀ i, p.2 i = (Y i).eval p.1 := by
  have hR : Reach (Cfg.newton P tol fuel) s' := .call rf sf op r hs.reach h
  have hH := exec_attHist (newton_legal P tol fuel) newton_m1 newton_hm hs h
  have h5 : ∀ x ∈ s'.g.atts, x.kk ≤ 5 := fun x hx => ((c25_order_in_range _ (newton_legal P tol fuel) newton_m1 s' hR).2 x hx).2
  -- points of a later list, once the later attempts from shorter lists are known to be exact
  have step : ∀ m, (∀ x ∈ s'.g.atts, B <:+ x.before → x.before.length ≤ m → ExactOn Y x) → ∀ D, D ++ B <:+ s'.g.acc →
      (D ++ B).length ≤ m + 1 → ∀ p ∈ D, ∀ i, p.2 i = (Y i).eval p.1 := by
    intro m ih D hD hm p hp i
    obtain ⟨pre, rest, rfl⟩ := List.append_of_mem hp
    obtain ⟨pre0, hpre⟩ := hD
    obtain ⟨x, hx, -, hb, rfl⟩ := hR.linked.link (pre0 ++ pre) p (rest ++ B) (by rw [← hpre]; simp)
      (by intro hn; rw [(List.append_eq_nil_iff.1 hn).2, List.length_nil] at h6; omega)
    refine (ih x hx (by rw [hb]; exact List.suffix_append ..) ?_).value i
    rw [hb]; simp at hm ⊢; omega
  have key : ∀ m, ∀ x ∈ s'.g.atts, B <:+ x.before → x.before.length ≤ m → ExactOn Y x := by
    intro m
    induction m with
    | zero => intro x hx hb hl; have := hb.length_le; omega
    | succ m ih =>
      intro x hx hb hl
      have h2 : 2 ≤ x.before.length := by have := hb.length_le; omega
      obtain ⟨D, hD⟩ := hb
      have hp := step m ih D (by rw [hD]; exact hH.2.1 x hx h2) (by rw [hD]; exact hl)
      refine c94_step_exact P tol fuel h0 Y hP rf sf s s' op r hs h x hx h2 (hd x hx ⟨D, hD⟩) ?_
      intro p hpm i
      rw [← hD, List.take_append, List.mem_append] at hpm
      rcases hpm with hpm | hpm
      · exact hp p (List.mem_of_mem_take hpm) i
      · refine hY p ?_ i
        have := h5 x hx
        exact (List.take_subset_take_left _ (by omega)) hpm
  exact ⟨fun x hx hb => key _ x hx hb (le_refl _), fun p hp => step s'.g.acc.length (fun x hx hb _ => key _ x hx hb (le_refl _))
    later (by rw [hB]) (by rw [hB]; omega) p hp⟩

/-- **C94, dense output.** In a history without a failed call: if the order `k` of the last step is at least the degree
of `Y`, and the last `k + 1` accepted points lie on `Y`, then `get_solution(t)` yields `Y(t)` and `Y'(t)` for every time it
accepts. -/
theorem c94_dense_exact (Y : Fin n → K[X]) (s : State (Newton (Vec n K)) n q K) (hs : ReachOk (Cfg.newton P tol fuel) s)
    (hn : 0 < getNumSteps s) (hd : ∀ i, (Y i).natDegree ≤ getLastOrder s) (hY : PointsOn Y (getLastOrder s + 1) s.g.acc) (t : K)
    (ht : ¬ BeforeLastStep s t) :
    solutionAt s t = some (fun i => (Y i).eval t, fun i => (derivative (Y i)).eval t) := by
  have hF := hs.full (newton_legal P tol fuel) newton_m1 newton_hm
  obtain ⟨hk, Q, hQ, hsol⟩ := dense_of_full newton_m5 hF hn
  have e : Q = Y := through_unique hk hF.ok.ctl.chain hQ (through_of_points hd hY)
  rw [hsol t ht, e]

end

/-! ## Witness -/

/-- `y1 = t²`, `y2' = 1`. -/
def parabola : Problem 2 0 ℚ where
  res t y yp _ := fun i => if i = 0 then y 0 - t * t else yp 1 - 1
  jac _ cj _ _ _ m := upd2 (upd2 (upd2 (upd2 m 0 0 1) 0 1 0) 1 0 0) 1 1 cj
  root _ _ _ b := b

def parabolaCfg : Cfg (Newton (Vec 2 ℚ)) 2 0 ℚ := Cfg.newton parabola (.ss (1 / 10) (1 / 10)) 3

noncomputable def parabolaSol : Fin 2 → ℚ[X] := fun i => if i = 0 then X ^ 2 else X

theorem parabola_sol : PolySolution parabola parabolaSol := by
  intro t buf i
  fin_cases i <;> simp [parabola, parabolaSol] <;> ring

def parabolaNew : State (Newton (Vec 2 ℚ)) 2 0 ℚ := State.new newton0 (fun _ => 0) (fun i => if i = 0 then 0 else 1)

def onParabola (p : ℚ × Vec 2 ℚ) : Bool := decide (p.2 0 = p.1 * p.1) && decide (p.2 1 = p.1)

theorem onParabola_iff {p : ℚ × Vec 2 ℚ} (h : onParabola p = true) : ∀ i, p.2 i = (parabolaSol i).eval p.1 := by
  simp only [onParabola, Bool.and_eq_true, decide_eq_true_eq] at h
  intro i
  fin_cases i
  · simp only [Fin.zero_eta, h.1]; simp [parabolaSol]; ring
  · simp only [Fin.mk_one, h.2]; simp [parabolaSol]

theorem parabola_degree {k : Nat} (h : 2 ≤ k) (i : Fin 2) : (parabolaSol i).natDegree ≤ k := by
  fin_cases i <;> simp [parabolaSol] <;> omega

/-- The hypotheses of `c94_stays_exact` (hence those of `c94_step_exact` for the later attempts) and of `c94_dense_exact`
hold after nine steps, the last four of which start from six or more points on the parabola; the first two steps are of
order one and have a correction that is not zero. -/
example : ExactParams.sqrt (0 : ℚ) = 0 ∧ ∃ (s s' : State (Newton (Vec 2 ℚ)) 2 0 ℚ) (r : Res 2 ℚ) (later B : List (ℚ × Vec 2 ℚ)),
    ReachOk parabolaCfg s ∧ exec parabolaCfg 10 100 s (.solve 1000 0 .oneStep) = some (s', r) ∧ s'.g.acc = later ++ B ∧
    B.length = 6 ∧ later.length = 4 ∧ PointsOn parabolaSol 6 B ∧
    (∀ x ∈ s'.g.atts, B <:+ x.before → ∀ i, (parabolaSol i).natDegree ≤ x.kk) ∧
    (∃ x ∈ s'.g.atts, x.kk = 1 ∧ x.ee 0 ≠ 0) ∧ (∃ x ∈ s'.g.atts, B <:+ x.before) ∧
    ReachOk parabolaCfg s' ∧ 0 < getNumSteps s' ∧ (∀ i, (parabolaSol i).natDegree ≤ getLastOrder s') ∧
    PointsOn parabolaSol (getLastOrder s' + 1) s'.g.acc := by
  refine ⟨by decide +kernel, ?_⟩
  have hd : ((run parabolaCfg 10 100 (List.replicate 8 (.solve 1000 0 .oneStep)) parabolaNew).map fun p =>
      !p.2.any Res.stepFailed && match exec parabolaCfg 10 100 p.1 (.solve 1000 0 .oneStep) with
        | none => false
        | some (s', r) => !Res.stepFailed r && s'.g.acc.all onParabola && decide (s'.g.acc.length = 10) &&
          s'.g.atts.all (fun x => decide (2 ≤ x.kk) || decide (x.before.length ≤ 5)) &&
          s'.g.atts.any (fun x => decide (x.kk = 1) && !decide (x.ee 0 = 0)) && decide (0 < getNumSteps s') &&
          decide (2 ≤ getLastOrder s')) = some true := by
    decide +kernel
  obtain ⟨s, l, hr, hp⟩ := run_witness (P := fun (s : State (Newton (Vec 2 ℚ)) 2 0 ℚ) l =>
    !l.any Res.stepFailed && match exec parabolaCfg 10 100 s (.solve 1000 0 .oneStep) with
        | none => false
        | some (s', r) => !Res.stepFailed r && s'.g.acc.all onParabola && decide (s'.g.acc.length = 10) &&
          s'.g.atts.all (fun x => decide (2 ≤ x.kk) || decide (x.before.length ≤ 5)) &&
          s'.g.atts.any (fun x => decide (x.kk = 1) && !decide (x.ee 0 = 0)) && decide (0 < getNumSteps s') &&
          decide (2 ≤ getLastOrder s')) hd
  simp only [Bool.and_eq_true, Bool.not_eq_true'] at hp
  obtain ⟨h1, hp⟩ := hp
  have hs : ReachOk parabolaCfg s := run_reachOk _ (.new newton0 (fun _ => 0) (fun i => if i = 0 then 0 else 1) none) hr h1
  cases he : exec parabolaCfg 10 100 s (.solve 1000 0 .oneStep) with
  | none => rw [he] at hp; cases hp
  | some v =>
    obtain ⟨s', r⟩ := v
    rw [he] at hp
    simp only [Bool.and_eq_true, Bool.not_eq_true', decide_eq_true_eq, List.all_eq_true, List.any_eq_true, Bool.or_eq_true,
      decide_eq_false_iff_not] at hp
    obtain ⟨⟨⟨⟨⟨⟨g1, g2⟩, g3⟩, g4⟩, x, hx, g5, g6⟩, g7⟩, g8⟩ := hp
    have hs' : ReachOk parabolaCfg s' := .call 10 100 _ r hs he (by rintro e rfl; exact g1)
    have hB : (s'.g.acc.drop 4).length = 6 := by rw [List.length_drop, g3]
    have hon : ∀ m A, (∀ p ∈ A, p ∈ s'.g.acc) → PointsOn parabolaSol m A := fun m A hA p hp =>
      onParabola_iff (g2 p (hA p (List.mem_of_mem_take hp)))
    obtain ⟨y, hy, -, hyb, -⟩ := hs'.reach.linked.link (s'.g.acc.take 3) (s'.g.acc[3]'(by omega)) (s'.g.acc.drop 4)
      (by rw [List.getElem_cons_drop, List.take_append_drop]) (by intro hn; rw [hn] at hB; cases hB)
    refine ⟨s, s', r, s'.g.acc.take 4, s'.g.acc.drop 4, hs, he, (List.take_append_drop ..).symm, hB,
      by rw [List.length_take, g3]; rfl, hon _ _ fun p => List.mem_of_mem_drop, fun x hx hb => ?_, ⟨x, hx, g5, g6⟩,
      ⟨y, hy, by rw [hyb]⟩, hs', g7, parabola_degree g8, hon _ _ fun p hp => hp⟩
    rcases g4 x hx with h | h
    · exact parabola_degree h
    · have := hb.length_le; omega

end Verif.Props
