import Verif.Proofs.Nan
import Verif.Props.Stop
import Verif.Props.Returns
import Verif.NanInst

/-!
# C86: NaN does not get into a step

`NanLaws` is the part of IEEE 754 about NaN, so the theorems hold for binary64.  `s.g.atts` is the list of step attempts.
-/

set_option autoImplicit false
set_option linter.unusedSectionVars false
set_option linter.unusedSimpArgs false
set_option linter.unusedVariables false

namespace Verif.Props

open Verif Verif.Spec Verif.Witness NanLaws

universe u v

section
variable {n q : Nat} {K : Type u} [Scalar K] [NanLaws K]

/-- **C86, accepted steps.** Any nonlinear solver: an accepted step has a correction, error weights and an error constant
without NaN. -/
theorem c86_nan_accepted {ν : Type v} (cfg : Cfg ν n q K) (s : State ν n q K) (h : Reach cfg s) (x : Att n K)
    (hx : x ∈ s.g.atts) (ha : x.out = .accepted) : Clean x.ee ∧ Clean x.ewt ∧ ¬ nan x.ck := by
  have h1 := (le_clean (h.linked.passed x hx ha)).1
  obtain ⟨h2, h3⟩ := wrmsNorm_clean (fun hn => h1 (mul_right _ _ hn))
  exact ⟨h2, h3, fun hn => h1 (mul_left _ _ hn)⟩

/-- **C86, the nonlinear iteration.** With Newton's method and the dense solver, in every attempted step (accepted or not)
whose iteration ends: the residual at the predicted values has no NaN; the correction is the sum of a correction `c` and an
update `d` without NaN, and the residual at the iterate `c` has no NaN; the error weights have no NaN. -/
theorem c86_nan_iteration (P : Problem n q K) (tol : TolControl n K) (fuel : Nat) (s : State (Newton (Vec n K)) n q K)
    (h : Reach (Cfg.newton P tol fuel) s) (x : Att n K) (hx : x ∈ s.g.atts) :
    (∃ buf, Clean (P.res x.tnew (vadd x.pred vzero) (scaledAdd x.predp x.cj vzero) buf)) ∧
    (∃ c d buf, x.ee = vadd c d ∧ Clean d ∧ Clean (P.res x.tnew (vadd x.pred c) (scaledAdd x.predp x.cj c) buf)) ∧
    Clean x.ewt := by
  obtain ⟨h1, h2, h3⟩ := h.cleanAtt x hx
  exact ⟨h1, h2, h3⟩

/-- The residual function hands on NaN: if its result has no NaN, then neither has any of its arguments. -/
def HandsOnNan (P : Problem n q K) : Prop :=
  ∀ t y yp buf, Clean (P.res t y yp buf) → ¬ nan t ∧ Clean y ∧ Clean yp

/-- **C86, the iterates.** If moreover the residual function hands on NaN, then the time and the predicted values of every
attempted step have no NaN, nor have the last iterates at which the residual was evaluated. -/
theorem c86_nan_iterates (hn : 0 < n) (P : Problem n q K) (hP : HandsOnNan P) (tol : TolControl n K) (fuel : Nat)
    (s : State (Newton (Vec n K)) n q K) (h : Reach (Cfg.newton P tol fuel) s) (x : Att n K) (hx : x ∈ s.g.atts) :
    ¬ nan x.tnew ∧ Clean x.pred ∧ Clean x.predp ∧ ¬ nan x.cj ∧
    ∃ c d, x.ee = vadd c d ∧ Clean d ∧ Clean (vadd x.pred c) ∧ Clean (scaledAdd x.predp x.cj c) := by
  obtain ⟨⟨b1, h1⟩, ⟨c, d, b2, h2, h3, h4⟩, -⟩ := c86_nan_iteration P tol fuel s h x hx
  obtain ⟨i1, i2, i3⟩ := hP _ _ _ _ h1
  obtain ⟨-, j2, j3⟩ := hP _ _ _ _ h4
  exact ⟨i1, fun i hi => i2 i (add_left _ _ hi), fun i hi => i3 i (add_left _ _ hi),
    fun hc => i3 ⟨0, hn⟩ (add_right _ _ (mul_left _ _ hc)), c, d, h2, h3, j2, j3⟩

/-- A call of `solve` that does not return an error leaves at least one step taken. -/
theorem solved_steps_any {ν : Type v} {K : Type u} [Scalar K] {cfg : Cfg ν n q K} {rf sf : Nat} {s s' : State ν n q K} {tout tret : K} {task : Task}
    {st : Status} (h : exec cfg rf sf s (.solve tout tret task) = some (s', .solved (.ok st))) : 0 < getNumSteps s' := by
  have hE := exec_solve h
  by_cases hn : 0 < s.cnt.nst
  · rcases exec_ends h with ⟨r', hr, hend⟩ | ⟨hno, -⟩
    · cases hend with
      | clean hm _ => exact micros_nst_pos hm hn
      | failed s1 s2 e _ _ _ he => rw [he] at hr; cases hr
    · exact absurd rfl (hno _)
  · obtain ⟨s0, hf, -, hfe⟩ := solve_first (s := { s with tret := tret }) (show s.cnt.nst = 0 by omega) hE
    cases hfe with
    | rejected e _ hr => cases hr
    | noStep s1 e _ _ hr _ _ => cases hr
    | failed s1 s2 s3 e _ _ _ _ hr => cases hr
    | stepped s1 s2 s3 _ _ h3 h4 =>
      cases h4 with
      | clean hm _ => exact micros_nst_pos hm (step_nst h3)
      | failed s1 s2 e _ _ _ he => cases he

/-- **C86, a residual that is never without NaN.** No step is ever taken, and no call of `solve` returns `Ok`. -/
theorem c86_nan_problem (P : Problem n q K) (hP : ∀ t y yp buf, ¬ Clean (P.res t y yp buf)) (tol : TolControl n K)
    (fuel : Nat) (s : State (Newton (Vec n K)) n q K) (h : Reach (Cfg.newton P tol fuel) s) :
    getNumSteps s = 0 ∧ ∀ rf sf tout tret task s' st,
      exec (Cfg.newton P tol fuel) rf sf s (.solve tout tret task) ≠ some (s', .solved (.ok st)) := by
  have key : ∀ s, Reach (Cfg.newton P tol fuel) s → getNumSteps s = 0 := by
    intro s h
    by_contra hn
    have hg := (h.ghost (fun _ => True) trivial (fun _ _ _ _ _ _ _ _ => trivial) (fun _ _ _ _ _ _ _ => trivial)).2 hn
    obtain ⟨p, hp⟩ : ∃ p, s.g.acc.getLast? = some p := ⟨_, List.getLast?_eq_getLast_of_ne_nil hg⟩
    obtain ⟨x, hx, -⟩ := h.linked.first p hp
    obtain ⟨⟨b, hb⟩, -⟩ := c86_nan_iteration P tol fuel s h x hx
    exact hP _ _ _ _ hb
  refine ⟨key s h, fun rf sf tout tret task s' st he => ?_⟩
  have h1 := solved_steps_any he
  rw [key s' (.call rf sf _ _ h he)] at h1
  exact lt_irrefl _ h1

/-- **C86, times.** Any nonlinear solver: if `solve` returns `Success` in normal mode or `TStop`, then the time returned is
not NaN, and neither is `tout` (normal mode) or the stop time. -/
theorem c86_nan_times {ν : Type v} (cfg : Cfg ν n q K) (rf sf : Nat) (s s' : State ν n q K) (tout tret : K) :
    (exec cfg rf sf s (.solve tout tret .normal) = some (s', .solved (.ok .success)) → ¬ nan tout ∧ s'.tret = tout) ∧
    (∀ task, exec cfg rf sf s (.solve tout tret task) = some (s', .solved (.ok .tstop)) →
      ∃ ts, s.tstop = some ts ∧ ¬ nan ts ∧ s'.tret = ts) := by
  constructor
  · intro h
    obtain ⟨h1, -, h2⟩ := c35_normal_success cfg rf sf _ s' tout (exec_solve h)
    refine ⟨fun hn => ?_, h1⟩
    rcases h2 with h2 | ⟨-, h2, -⟩
    · exact (le_clean h2).2 (mul_left _ _ (sub_right _ _ hn))
    · rw [NanLaws.eqb _ _ (Or.inl hn)] at h2; cases h2
  · intro task h
    obtain ⟨ts, h1, h2, -, h3, -⟩ := c40_tstop_result cfg rf sf _ s' tout task (exec_solve h)
    exact ⟨ts, h1, fun hn => (le_clean h3).1 (NanLaws.abs _ (sub_right _ _ hn)), h2⟩

end

section

/-- `y' = 1` until `t = 2`, then NaN. -/
def cliff : Problem 1 0 NQ where
  res t y yp _ := fun i => if Scalar.lt (NQ.of 2) t then ⟨none⟩ else (yp i - NQ.of 1) + NQ.of 0 * (y i + t)
  jac _ cj _ _ _ _ := fun _ _ => cj
  root _ _ _ buf := buf

theorem cliff_handsOn : HandsOnNan cliff := by
  intro t y yp buf h
  have h0 := h 0
  simp only [cliff] at h0
  split at h0
  · exact absurd rfl h0
  · refine ⟨fun hn => h0 ?_, fun i hn => h0 ?_, fun i hn => h0 ?_⟩
    · exact add_right _ _ (mul_right _ _ (add_right _ _ hn))
    · rw [Subsingleton.elim i 0] at hn
      exact add_right _ _ (mul_right _ _ (add_left _ _ hn))
    · rw [Subsingleton.elim i 0] at hn
      exact add_left _ _ (sub_left _ _ hn)

def cliffCfg : Cfg (Newton (Vec 1 NQ)) 1 0 NQ := Cfg.newton cliff (.ss (NQ.of (1 / 100)) (NQ.of (1 / 100))) 3

def cliff0 : State (Newton (Vec 1 NQ)) 1 0 NQ := State.new newton0 (fun _ => NQ.of 0) (fun _ => NQ.of 1)

/-- `cliff` can be integrated before `t = 2`: the hypotheses of `c86_nan_accepted`, `c86_nan_iterates` and `c86_nan_times`
hold. -/
example : ∃ s s' x, Reach cliffCfg s ∧ exec cliffCfg 10 1 s (.solve (NQ.of (1 / 500)) (NQ.of 0) .normal) = some (s', .solved (.ok .success)) ∧
    x ∈ s.g.atts ∧ x.out = .accepted ∧ x.tnew = NQ.of (3 / 1000) := by
  have hd : ((run cliffCfg 10 1 [.solve (NQ.of (3 / 2)) (NQ.of 0) .oneStep, .solve (NQ.of (3 / 2)) (NQ.of 0) .oneStep] cliff0).map fun p =>
      (p.1.g.atts.any fun x => decide (x.out = .accepted) && decide (x.tnew = NQ.of (3 / 1000))) &&
      ((exec cliffCfg 10 1 p.1 (.solve (NQ.of (1 / 500)) (NQ.of 0) .normal)).map fun p => Witness.Res.isStatus .success p.2) == some true) =
      some true := by decide +kernel
  obtain ⟨s, l, hr, hp⟩ := run_witness (P := fun (s : State (Newton (Vec 1 NQ)) 1 0 NQ) _ =>
    (s.g.atts.any fun x => decide (x.out = .accepted) && decide (x.tnew = NQ.of (3 / 1000))) &&
      ((exec cliffCfg 10 1 s (.solve (NQ.of (1 / 500)) (NQ.of 0) .normal)).map fun p => Witness.Res.isStatus .success p.2) == some true) hd
  simp only [Bool.and_eq_true, decide_eq_true_eq, List.any_eq_true, beq_iff_eq] at hp
  obtain ⟨⟨x, hx, h1, h2⟩, h3⟩ := hp
  cases he : exec cliffCfg 10 1 s (.solve (NQ.of (1 / 500)) (NQ.of 0) .normal) with
  | none => rw [he] at h3; cases h3
  | some p =>
    rw [he] at h3
    simp only [Option.map_some, Option.some.injEq, Witness.Res.isStatus_iff] at h3
    obtain ⟨s', r⟩ := p
    simp only at h3
    subst h3
    exact ⟨s, s', x, run_reach _ (.new newton0 _ _ none) hr, he, hx, h1, h2⟩

/-- At the cliff no attempt of a step past `t = 2` ever ends. -/
theorem c86_cliff (fuel : Nat) (s : State (Newton (Vec 1 NQ)) 1 0 NQ)
    (h : Reach (Cfg.newton cliff (.ss (NQ.of (1 / 100)) (NQ.of (1 / 100))) fuel) s) (x : Att 1 NQ) (hx : x ∈ s.g.atts) :
    Scalar.lt (NQ.of 2) x.tnew = false := by
  obtain ⟨⟨b, hb⟩, -⟩ := c86_nan_iteration _ _ _ s h x hx
  by_contra hc
  rw [Bool.not_eq_false] at hc
  have := hb 0
  simp only [cliff, hc, if_true] at this
  exact this rfl

/-- `c86_nan_problem` has an instance. -/
example : ∀ (t : NQ) (y yp buf : Vec 1 NQ), 
    ¬ Clean (({ cliff with res := fun _ _ _ _ _ => ⟨none⟩ } : Problem 1 0 NQ).res t y yp buf) :=
  fun _ _ _ _ h => h 0 rfl

end

end Verif.Props
