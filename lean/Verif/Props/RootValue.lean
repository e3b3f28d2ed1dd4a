import Verif.Props.Root

/-!
# C76: what `get_yy` and `get_yp` hold after `Root`
-/

set_option autoImplicit false
set_option linter.unusedSectionVars false
set_option linter.unusedSimpArgs false
set_option linter.unusedVariables false

namespace Verif.Props

open Verif Verif.Spec

universe u v

section
variable {ν : Type v} {n q : Nat} {K : Type u} [Field K] [LinearOrder K] [IsStrictOrderedRing K] [ExactParams K]
  [EpsLaws K]

/-- **C76 (partial).** If `solve` returns `Root` at another time than the one its search starts from, and
`get_solution(tret)` does not fail, then `get_yy` and `get_yp` already are the values `get_solution(tret)` yields.

Missing: a root found right after the last one; then `tret` is where the search starts, and the vectors belong to a later
time (`c76_root_value_refuted`). -/
theorem c76_root_value_partial (cfg : Cfg ν n q K) (hl : NlsLegal cfg) (hm : 0 ≤ cfg.hmaxInv) (hk : NlsKeepsLog cfg)
    (rf sf : Nat) (s s' : State ν n q K) (h : Reach cfg s) (tout tret : K) (task : Task)
    (hs : exec cfg rf sf s (.solve tout tret task) = some (s', .solved (.ok .root)))
    (hnew : s'.tret ≠ s.r.tlo) (hin : ¬ BeforeLastStep s' s'.tret) :
    solutionAt s' s'.tret = some (s'.m.yy, s'.m.yp) := by
  obtain ⟨-, hO⟩ := exec_root hl hm hk h hs
  have key : ∀ p s1 : State ν n q K, Searched cfg p s1 .rootFound →
      s' = State.setTret { s1 with r.irfnd := true } s1.r.tlo → solutionAt s' s'.tret = some (s'.m.yy, s'.m.yp) := by
    rintro p s1 hS rfl
    obtain ⟨-, -, -, -, -, -, -, -, hv⟩ := hS.root rfl
    have hv := hv hin
    have e := solutionAt_congr (s := s1) (s' := State.setTret { s1 with r.irfnd := true } s1.r.tlo) rfl rfl rfl s1.r.tlo
    exact e.trans hv
  cases hO with
  | close e _ _ _ h5 => cases h5
  | recheck s1 hq hn h3 hf h4 h5 h6 =>
    subst h5
    exact absurd h4 hnew
  | rest s1 s2 hq hn1 h3 hf hqt h4 h5 h6 h7 h8 h9 h10 h11 => exact key _ _ h9 h10
  | stepped p s1 hq hA hS h4 h5 => exact key _ _ hS h4
  | none h1 _ => exact absurd rfl h1

end

/-! ## Concrete runs -/

section
attribute [local instance] ratParams ratEps

/-- `c76_root_value_partial` applies to the second call of `ramp_run`: the root is at 3/2, the solution there is `-1/2`. -/
example : ∃ s s' : State Nat 1 1 ℚ, Reach (timedCfg (ramp (3 / 2)) []) s ∧
    exec (timedCfg (ramp (3 / 2)) []) 100 10 s (.solve 1000 0 .oneStep) = some (s', .solved (.ok .root)) ∧
    s'.tret ≠ s.r.tlo ∧ ¬ BeforeLastStep s' s'.tret ∧ s'.tret = 3 / 2 ∧ s'.m.yy 0 = -1 / 2 := by
  obtain ⟨s1, r1, s2, r2, h1, h2, hP⟩ := exec_two (cfg := timedCfg (ramp (3 / 2)) []) (rf := 100) (sf := 10) (s := timed0)
    (a := .solve 1000 0 .oneStep) (b := .solve 1000 0 .oneStep)
    (P := fun p r p' r' => Witness.Res.isStatus .root r' && !badTime p' p'.tret &&
      decide (p'.tret ≠ p.r.tlo ∧ p'.tret = (3 / 2 : ℚ) ∧ p'.m.yy 0 = (-1 / 2 : ℚ))) (by decide +kernel)
  simp only [Bool.and_eq_true, decide_eq_true_eq, Witness.Res.isStatus_iff, Bool.not_eq_true'] at hP
  obtain ⟨⟨rfl, hb⟩, h3, h4, h5⟩ := hP
  exact ⟨s1, s2, .call _ _ _ _ (.new _ _ _ none) h1, h2, h3, by rw [← badTime_iff, hb]; simp, h4, h5⟩

/-- Two root functions of the time: `t - 3/2`, and one that is zero between 3/2 and 2 only. -/
def twin : Problem 1 2 ℚ where
  res _ y yp _ := fun i => yp i + y i
  jac _ cj _ _ _ _ := fun _ _ => cj + 1
  root t _ _ _ := fun i => if i = 0 then t - 3 / 2 else if 3 / 2 < t ∧ t < 2 then 0 else -1

def twinCfg : Cfg Nat 1 2 ℚ := Cfg.std twin (fun _ _ _ => 1) (Witness.script (Witness.table []))

def twin0 : State Nat 1 2 ℚ := State.new 0 (fun _ => 1) (fun _ => -1)

/-- **C76: refutation.** A root is reported at 3/2, and the next call reports another one right after it, again with
`tret = 3/2`; the solution is `1 - t`, and `get_yy` is its value at a later time. -/
theorem c76_root_value_refuted : ∃ s s' : State Nat 1 2 ℚ, Reach twinCfg s ∧
    exec twinCfg 100 10 s (.solve 1000 0 .oneStep) = some (s', .solved (.ok .root)) ∧ s'.tret = 3 / 2 ∧
    (solutionAt s' (3 / 2)).map (fun p => p.1 0) = some (-1 / 2) ∧ s'.m.yy 0 < -1 / 2 := by
  obtain ⟨s1, r1, s2, r2, s3, r3, h1, h2, h3, hP⟩ := Witness.exec_three (cfg := twinCfg) (rf := 100) (sf := 10) (s := twin0)
    (a := .solve 1000 0 .oneStep) (b := .solve 1000 0 .oneStep) (c := .solve 1000 0 .oneStep)
    (P := fun p r p' r' p'' r'' => Witness.Res.isStatus .root r'' &&
      decide (p''.tret = (3 / 2 : ℚ) ∧ (solutionAt p'' (3 / 2)).map (fun p => p.1 0) = some (-1 / 2 : ℚ) ∧
        p''.m.yy 0 < (-1 / 2 : ℚ))) (by decide +kernel)
  simp only [Bool.and_eq_true, decide_eq_true_eq, Witness.Res.isStatus_iff] at hP
  obtain ⟨rfl, h4, h5, h6⟩ := hP
  exact ⟨s2, s3, .call _ _ _ _ (.call _ _ _ _ (.new _ _ _ none) h1) h2, h3, h4, h5, h6⟩

end
end Verif.Props
