import Verif.Proofs.Affine
import Verif.Props.Stop
import Verif.Props.History
import Verif.Witness

/-! # C62: affine solutions are integrated exactly (exact scalars) -/

set_option autoImplicit false
set_option linter.unusedSectionVars false
set_option linter.unusedSimpArgs false
set_option linter.unusedVariables false

namespace Verif.Props

open Verif Verif.Spec Verif.Witness Polynomial

universe u

section
variable {K : Type u} [Field K] [LinearOrder K] [IsStrictOrderedRing K] [ExactParams K] [EpsLaws K]
variable {n q : Nat}

/-- `y(t) = y0 + t y0'` satisfies `F(t, y(t), y'(t)) = 0` at all times. -/
def AffineSolution (P : Problem n q K) (y0 yp0 : Vec n K) : Prop :=
  ∀ t buf i, P.res t (fun i => y0 i + t * yp0 i) yp0 buf i = 0

/-- The tolerances do not ask for more accuracy at `y0` than the machine precision allows. -/
def EnoughAccuracy (tol : TolControl n K) (y0 : Vec n K) : Prop :=
  ExactParams.eps * normWrms y0 (tol.ewtSet y0) ≤ 1

variable (P : Problem n q K) (tol : TolControl n K) (fuel : Nat) (y0 yp0 : Vec n K)

theorem straight_of {P : Problem n q K} {tol : TolControl n K} {fuel : Nat} {y0 yp0 : Vec n K}
    (h0 : ExactParams.sqrt (0 : K) = 0) (hP : AffineSolution P y0 yp0)
    (ha : EnoughAccuracy tol y0) {s : State (Newton (Vec n K)) n q K} (h : ReachFrom (Cfg.newton P tol fuel) y0 yp0 s) :
    Straight (Cfg.newton P tol fuel) y0 yp0 s := by
  refine straight h0 (fun t buf => funext fun i => hP t buf i) ?_ h
  intro hc
  rw [Scalar.gt, ex_lt, decide_eq_true_eq] at hc
  exact absurd hc (not_lt.2 ha)

theorem newton_m1 {P : Problem n q K} {tol : TolControl n K} {fuel : Nat} : 1 ≤ (Cfg.newton P tol fuel).maxord :=
  show 1 ≤ 5 by decide

theorem newton_m5 {P : Problem n q K} {tol : TolControl n K} {fuel : Nat} : (Cfg.newton P tol fuel).maxord ≤ 5 :=
  show 5 ≤ 5 by decide

theorem newton_hm {P : Problem n q K} {tol : TolControl n K} {fuel : Nat} : 0 ≤ (Cfg.newton P tol fuel).hmaxInv :=
  show (0 : K) ≤ 0 from le_refl _

/-- **C62, the integration.** Newton stack, any problem that has the solution `y(t) = y0 + t y0'`, started with `y0`,
`y0'`.  In every history every attempt is predicted exactly, its correction is zero and it is accepted; no attempt fails;
every accepted point lies on the line. -/
theorem c62_affine_exact (h0 : ExactParams.sqrt (0 : K) = 0) (hP : AffineSolution P y0 yp0) (ha : EnoughAccuracy tol y0)
    (s : State (Newton (Vec n K)) n q K) (h : ReachFrom (Cfg.newton P tol fuel) y0 yp0 s) :
    (∀ x ∈ s.g.atts, x.out = .accepted ∧ (∀ i, x.ee i = 0) ∧ (∀ i, x.yy i = y0 i + x.tnew * yp0 i) ∧ x.yp = yp0) ∧
    (∀ p ∈ s.g.acc, ∀ i, p.2 i = y0 i + p.1 * yp0 i) ∧
    getNumErrTestFails s = 0 ∧ getNumNonlinSolvConvFails s = 0 := by
  have hS := straight_of h0 hP ha h
  have hc := h.reach.count (newton_legal P tol fuel)
  have hL := h.reach.linked
  refine ⟨fun x hx => ⟨(hS.atts x hx).out, fun i => by rw [(hS.atts x hx).ee],
    fun i => by rw [onLine_yy (hS.atts x hx) (hL.yy x hx).1]; rfl, ?_⟩, fun p hp i => by rw [hS.acc p hp]; rfl, ?_, ?_⟩
  · rw [(hL.yy x hx).2, (hS.atts x hx).ee, (hS.atts x hx).predp]
    funext i
    show yp0 i + x.cj * 0 = _
    rw [mul_zero, add_zero]
  · show s.cnt.netf = 0
    rw [hc.netf, List.countP_eq_zero]
    intro x hx
    rw [(hS.atts x hx).out]
    simp
  · show s.cnt.ncfn = 0
    rw [hc.ncfn, List.countP_eq_zero]
    intro x hx
    unfold Att.nlsFailed
    rw [(hS.atts x hx).out]
    simp

/-- **C62, no failure.** No call of such a history reports a failed step. -/
theorem c62_affine_no_failure (h0 : ExactParams.sqrt (0 : K) = 0) (hP : AffineSolution P y0 yp0) (ha : EnoughAccuracy tol y0)
    (rf sf : Nat) (s s' : State (Newton (Vec n K)) n q K) (op : Op K) (r : Res n K)
    (h : ReachFrom (Cfg.newton P tol fuel) y0 yp0 s) (hx : exec (Cfg.newton P tol fuel) rf sf s op = some (s', r)) :
    ∀ e, r = .solved (.error e) → e.isStepFailure = false := by
  have hS := straight_of h0 hP ha h
  have hS' := straight_of h0 hP ha (.call rf sf op r h hx)
  intro e he
  by_contra hf
  have := (exec_trace (newton_legal P tol fuel) newton_m1 newton_hm hS.ok hx).2 e he (by simpa using hf)
  cases hat : s'.g.atts with
  | nil => rw [hat] at this; exact this
  | cons y l =>
    rw [hat] at this
    unfold GivesUp at this
    simp only [(hS'.atts y (by rw [hat]; exact List.mem_cons_self ..)).out] at this

/-- **C62, dense output.** Once a step has been taken, `get_solution(t)` yields `y0 + t y0'` and `y0'` for every time it
accepts. -/
theorem c62_affine_dense (h0 : ExactParams.sqrt (0 : K) = 0) (hP : AffineSolution P y0 yp0) (ha : EnoughAccuracy tol y0)
    (s : State (Newton (Vec n K)) n q K) (h : ReachFrom (Cfg.newton P tol fuel) y0 yp0 s) (hn : 0 < getNumSteps s) (t : K)
    (ht : ¬ BeforeLastStep s t) : solutionAt s t = some (fun i => y0 i + t * yp0 i, yp0) := by
  have hS := straight_of h0 hP ha h
  have hF := hS.ok.full (newton_legal P tol fuel) newton_m1 newton_hm
  obtain ⟨hk, Q, hQ, hs⟩ := dense_of_full newton_m5 hF hn
  have h1 := (hF.hist.kused hn).1
  have e := through_line hk h1 hF.ok.ctl.chain hQ hS.acc
  rw [hs t ht]
  congr 1
  refine Prod.ext (funext fun i => (e i t).1) (funext fun i => (e i t).2)

/-- A call of `solve` that does not return an error leaves at least one step taken. -/
theorem solved_steps {ν : Type*} {cfg : Cfg ν n q K} {rf sf : Nat} {s s' : State ν n q K} {tout tret : K} {task : Task}
    {st : Status} (h : exec cfg rf sf s (.solve tout tret task) = some (s', .solved (.ok st))) : 0 < getNumSteps s' := by
  have hE := exec_solve h
  by_cases hn : 0 < s.cnt.nst
  · rcases exec_ends h with ⟨r', hr, hend⟩ | ⟨hno, -⟩
    · cases hend with
      | clean hm _ => exact micros_nst_pos hm hn
      | failed s1 s2 e _ _ _ he => rw [he] at hr; cases hr
    · exact absurd rfl (hno _)
  · obtain ⟨s0, hf, -, hfe⟩ := solve_first (s := { s with tret := tret }) (show s.cnt.nst = 0 by omega) hE
    cases hfe with
    | rejected e _ hr => cases hr
    | noStep s1 e _ _ hr _ _ => cases hr
    | failed s1 s2 s3 e _ _ _ _ hr => cases hr
    | stepped s1 s2 s3 _ _ h3 h4 =>
      cases h4 with
      | clean hm _ => exact micros_nst_pos hm (step_nst h3)
      | failed s1 s2 e _ _ _ he => cases he

/-- **C62, the returned values.** If `solve` returns `Success` in normal mode (for a `tout` other than the time returned
last) or `TStop`, the vectors are the exact solution at the time returned. -/
theorem c62_affine_returned (h0 : ExactParams.sqrt (0 : K) = 0) (hP : AffineSolution P y0 yp0) (ha : EnoughAccuracy tol y0)
    (rf sf : Nat) (s s' : State (Newton (Vec n K)) n q K) (tout tret : K)
    (h : ReachFrom (Cfg.newton P tol fuel) y0 yp0 s) :
    (exec (Cfg.newton P tol fuel) rf sf s (.solve tout tret .normal) = some (s', .solved (.ok .success)) →
      tout ≠ s.tretlast → (∀ i, getYy s' i = y0 i + tout * yp0 i) ∧ getYp s' = yp0) ∧
    (∀ task, exec (Cfg.newton P tol fuel) rf sf s (.solve tout tret task) = some (s', .solved (.ok .tstop)) →
      (∀ i, getYy s' i = y0 i + s'.tret * yp0 i) ∧ getYp s' = yp0) := by
  have key : ∀ t, ReachFrom (Cfg.newton P tol fuel) y0 yp0 s' → 0 < getNumSteps s' →
      solutionAt s' t = some (s'.m.yy, s'.m.yp) → (∀ i, getYy s' i = y0 i + t * yp0 i) ∧ getYp s' = yp0 := by
    intro t hr hn hsol
    have ht : ¬ BeforeLastStep s' t := by
      intro hb
      have : badTime s' t = true := (badTime_iff s' t).2 hb
      unfold solutionAt getSolution at hsol
      rw [if_pos this] at hsol
      cases hsol
    have := c62_affine_dense P tol fuel y0 yp0 h0 hP ha s' hr hn t ht
    rw [hsol] at this
    have := Option.some.inj this
    exact ⟨fun i => congrFun (congrArg Prod.fst this) i, congrArg Prod.snd this⟩
  refine ⟨fun hx ht => ?_, fun task hx => ?_⟩
  · exact key tout (.call _ _ _ _ h hx) (solved_steps hx)
      (c42_normal_partial _ (newton_legal P tol fuel) newton_hm rf sf s s' h.reach tout tret hx ht)
  · exact key _ (.call _ _ _ _ h hx) (solved_steps hx)
      (c42_tstop _ (newton_legal P tol fuel) newton_hm rf sf s s' h.reach tout tret task hx)

end

/-! ## Witness -/

/-- `y1' = y2`, `y2' (1 + y1) = 0`: with `y2(0) = 3` the solution is `y1 = 2 + 3 t`, `y2 = 3`. -/
def drift : Problem 2 0 ℚ where
  res _ y yp _ := fun i => if i = 0 then yp 0 - y 1 else yp 1 * (1 + y 0)
  jac _ cj y yp _ m := upd2 (upd2 (upd2 (upd2 m 0 0 cj) 0 1 (-1)) 1 0 (yp 1)) 1 1 (cj * (1 + y 0))
  root _ _ _ b := b

def drift0 : Vec 2 ℚ := fun i => if i = 0 then 2 else 3

def driftp : Vec 2 ℚ := fun i => if i = 0 then 3 else 0

theorem drift_affine : AffineSolution drift drift0 driftp := by
  intro t buf i
  fin_cases i <;> simp [drift, drift0, driftp]

/-- The hypotheses of the `c62` theorems hold in a history of two calls with several steps. -/
example : ExactParams.sqrt (0 : ℚ) = 0 ∧ EnoughAccuracy (.ss (1 / 100) (1 / 100)) drift0 ∧
    ∃ s, ReachFrom (Cfg.newton drift (.ss (1 / 100) (1 / 100)) 3) drift0 driftp s ∧ 3 ≤ getNumSteps s ∧
      getYy s 0 = 11 / 2 ∧ getYy s 1 = 3 := by
  refine ⟨by decide +kernel, ?_, ?_⟩
  · unfold EnoughAccuracy; decide +kernel
  have hd : ((run (Cfg.newton drift (.ss (1 / 100) (1 / 100)) 3) 10 100 [.solve (1 / 2) 0 .normal, .solve (7 / 6) 0 .normal]
      (State.new newton0 drift0 driftp)).map fun p =>
      decide (3 ≤ getNumSteps p.1) && decide (getYy p.1 0 = 11 / 2) && decide (getYy p.1 1 = 3)) = some true := by
    decide +kernel
  obtain ⟨s, l, hr, hp⟩ := run_witness (P := fun (s : State (Newton (Vec 2 ℚ)) 2 0 ℚ) _ =>
    decide (3 ≤ getNumSteps s) && decide (getYy s 0 = 11 / 2) && decide (getYy s 1 = 3)) hd
  simp only [Bool.and_eq_true, decide_eq_true_eq] at hp
  exact ⟨s, run_reachFrom _ (.new newton0 none) hr, hp.1.1, hp.1.2, hp.2⟩

end Verif.Props
