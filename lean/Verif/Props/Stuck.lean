import Verif.Props.Stop

/-!
# Steps at a stop time that is not cleared (C40)

A caller that advances in one-step mode until the time is past some output time never gets there, once a one-step call
has reported `TStop` without clearing the stop time: every further one-step call is answered in the same way and leaves
the solver as it is.  This holds for any scalar type, hence for floating-point numbers, too.
-/

set_option autoImplicit false
set_option linter.unusedSectionVars false
set_option linter.unusedSimpArgs false
set_option linter.unusedVariables false

namespace Verif.Props

open Verif Verif.Spec

universe u v

section
variable {ν : Type v} {n : Nat} {K : Type u} [Scalar K]

/-- **C40, the stop time that is not cleared.** No root functions, any state, any scalar type: if a one-step call
returned `TStop` and the stop time is still set, then every further one-step call, whatever its arguments, returns `TStop`
and changes nothing at all. -/
theorem c40_one_step_stuck (cfg : Cfg ν n 0 K) (rf sf : Nat) (s s1 : State ν n 0 K) (tout tret : K)
    (h : exec cfg rf sf s (.solve tout tret .oneStep) = some (s1, .solved (.ok .tstop))) (hs : s1.tstop ≠ none)
    (rf' sf' : Nat) (tout' tret' : K) :
    exec cfg rf' sf' s1 (.solve tout' tret' .oneStep) = some (s1, .solved (.ok .tstop)) := by
  have h := exec_solve h
  cases solve_outcome h with
  | rejected e h0 h1 h2 => cases h2
  | early h0 h1 =>
    cases h1 with
    | close _ _ _ h2 => cases h2
    | root2 _ _ _ _ h2 => cases h2
    | root3 _ _ _ _ _ _ _ h2 => cases h2
    | pending _ _ _ ht _ _ _ _ h2 => cases h2
    | stop p h2 h3 _ =>
      rcases h2 with ⟨-, rfl⟩ | ⟨h2, -⟩ | ⟨h2, -⟩
      · have hp : pastStop (perfReset (begun { s with tret := tret } tout .oneStep)) = false := by
          by_contra hc
          rw [Bool.not_eq_false] at hc
          unfold stopTest1 at h3
          rw [if_pos hc] at h3
          cases h3
        cases stopTest1_cases h3 with
        | stopOne s2 ts hg hts hns hsol =>
          rw [getSolution_eq] at hsol
          split at hsol
          · cases hsol
          rename_i hb
          split at hsol
          swap
          · cases hsol
          rename_i hk
          cases hsol
          have hts' : s.tstop = some ts := hts
          have hp' : Scalar.gt ((s.e.tn - ts) * s.c.hh) 0 = false := by
            have hq := hp
            unfold pastStop at hq
            rw [hts] at hq
            exact hq
          have h0n : s.cnt.nst ≠ 0 := Nat.pos_iff_ne_zero.1 h0
          -- the state of the second call when it comes to the stopping test
          have e1 : perfReset (begun { (setSol (perfReset (begun { s with tret := tret } tout .oneStep)) ts).setTret ts with
              tret := tret' } tout' .oneStep)
              = { (setSol (perfReset (begun { s with tret := tret } tout .oneStep)) ts).setTret ts with tret := tret' } := rfl
          generalize hz : (setSol (perfReset (begun { s with tret := tret } tout .oneStep)) ts).setTret ts = z at e1 ⊢
          have z1 : z.cnt.nst ≠ 0 := by rw [← hz]; exact h0n
          have z2 : z.tstop = some ts := by rw [← hz]; exact hts'
          have z3 : Scalar.gt ((z.e.tn - ts) * z.c.hh) 0 = false := by rw [← hz]; exact hp'
          have z4 : z.tretlast = ts := by rw [← hz]; rfl
          have z5 : nearStop z ts = true := by rw [← hz]; exact hns
          have z6 : ¬ badTime z ts = true := by rw [← hz]; exact hb
          have z7 : kordOf z.c.kused < mxordp1 := by rw [← hz]; exact hk
          have z8 : (setSol { z with tret := tret' } ts).setTret ts = z := by rw [← hz]; rfl
          have w1 : ({ z with tret := tret' } : State ν n 0 K).cnt.nst ≠ 0 := z1
          have w2 : ({ z with tret := tret' } : State ν n 0 K).tstop = some ts := z2
          have w3 : Scalar.gt ((({ z with tret := tret' } : State ν n 0 K).e.tn - ts)
            * ({ z with tret := tret' } : State ν n 0 K).c.hh) 0 = false := z3
          have w4 : ({ z with tret := tret' } : State ν n 0 K).tretlast = ts := z4
          have w5 : nearStop { z with tret := tret' } ts = true := z5
          have w6 : ¬ badTime { z with tret := tret' } ts = true := z6
          have w7 : kordOf ({ z with tret := tret' } : State ν n 0 K).c.kused < mxordp1 := z7
          unfold exec
          simp only
          generalize ({ z with tret := tret' } : State ν n 0 K) = w at e1 z8 w1 w2 w3 w4 w5 w6 w7 ⊢
          have hst : stopTest1 w tout' .oneStep = .ret z (.ok .tstop) := by
            have hsol : getSolution w ts = .ret (setSol w ts) (.ok ()) := by
              rw [getSolution_eq, if_neg w6, if_pos w7]
            have hpz : pastStop w = false := by
              unfold pastStop
              rw [w2]
              exact w3
            unfold nearStop at w5
            unfold stopTest1
            rw [hpz, w4, w3, w2]
            simp only [Bool.false_eq_true, if_false]
            rw [if_pos w5, hsol]
            exact congrArg (fun x => Out.ret x (Except.ok Status.tstop)) z8
          have hso : solve cfg rf' sf' w tout' .oneStep = .ret z (.ok .tstop) := by
            rw [solve_eq, if_neg w1, e1]
            unfold laterCall
            rw [if_neg (by simp)]
            simp only [hst]
            rfl
          rw [hso]
      · cases h2
      · cases h2
  | loop p k hI h1 =>
    exfalso
    cases h1 with
    | pre h2 => obtain ⟨h3 | h3, -⟩ := preStep_ret h2 <;> cases h3
    | failed s1 s2 e h2 h3 h4 => obtain ⟨h5, -⟩ := stepFailed_spec h4; cases h5
    | post s1 s2 h2 h3 h4 =>
      cases h4 with
      | root _ _ _ _ h5 => cases h5
      | stop s3 h5 h6 h7 =>
        cases stopTest2_cases h6 with
        | stopped _ s4 ts h8 h9 h10 h11 => exact hs rfl

end

/-- `c40_one_step_stuck` applies after the calls of `c40_refuted`: the session never gets past the time 1. -/
theorem c40_stuck_example : ∃ s : State Nat 1 0 ℚ, Reach smooth s ∧ s.tstop = some 1 ∧ getCurrentTime s = 1 ∧
    ∀ rf sf tout tret, exec smooth rf sf s (.solve tout tret .oneStep) = some (s, .solved (.ok .tstop)) := by
  obtain ⟨s1, s2, s3, h1, -, -, h2, h3, h4, -⟩ := c40_refuted
  exact ⟨s2, .call _ _ _ _ (.call _ _ _ _ (smooth_new _) h1) h2, h3, h4,
    fun rf sf tout tret => c40_one_step_stuck smooth 10 10 s1 s2 2 0 h2 (by rw [h3]; simp) rf sf tout tret⟩

end Verif.Props
