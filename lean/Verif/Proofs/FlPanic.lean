import Verif.Proofs.PanicAny
import Verif.Proofs.ClockStop
import Verif.Proofs.FlCoef

/-! # Where a call can panic with the standard solver stack: the direction, in correctly rounded arithmetic -/

set_option autoImplicit false
set_option linter.unusedSectionVars false
set_option linter.unusedVariables false

namespace Verif.FlControl

open Verif Verif.Spec Verif.Proofs Verif.PanicAny Finset

universe u v w

section
variable {n q : Nat} {F : Type u} {K : Type v} [Scalar F] [Field K] [LinearOrder K] [IsStrictOrderedRing K]
  [S : Correct F K]

local prefix:max "♯" => StdModel.val (F := F) (K := K)
local notation "μ" => (StdModel.u (F := F) (K := K))

/-- The direction of a call. -/
def headed {ν : Type w} (s : State ν n q F) (tout : F) : K := if s.cnt.nst = 0 then ♯tout - ♯s.e.tn else ♯s.c.hh

theorem newton_solve_fails {P : Problem n q F} {tol : TolControl n F} {fuel : Nat} (hn : 0 < n) {rf sf : Nat}
    {s : State (Newton (Vec n F)) n q F} {tout : F} {task : Task} (hC : CtlInv (K := K) (Cfg.newton P tol fuel) s)
    (hS : Sane (Cfg.newton P tol fuel) s) (hL : LogInv PivInv s)
    (h : solve (Cfg.newton P tol fuel) rf sf s tout task = .panic) :
    ∃ (k : Nat) (hh cj : F), 1 ≤ k ∧ k ≤ 5 ∧ 0 < headed (K := K) s tout * ♯hh ∧ FailsAt P cj ∧
      ∃ c : K, Fac μ (k + 3) c ∧ ♯cj = (∑ i ∈ range k, ((i : K) + 1)⁻¹) / ♯hh * c := by
  have hl := newton_legal P tol fuel
  have hm : (0 : K) ≤ ♯(Cfg.newton P tol fuel).hmaxInv := by
    show (0 : K) ≤ ♯(0 : F)
    rw [S.val_zero]
  have hb := (begun_same s tout task).2.2.2
  have hC1 := hC.of_frame hm hb
  obtain ⟨p, k, p1, ⟨hI, hd⟩, hat, hpre, hL1, hS1, hst⟩ := solve_any hn (I := fun p _ =>
      PassReady (K := K) (Cfg.newton P tol fuel) p ∧ 0 < headed (K := K) s tout * ♯p.c.hh)
    (fun s1 h0 h1 => by
      obtain ⟨g1, g2, g3, g4, -, g6⟩ := firstStep_start hm hC1 (by rw [hb.cnt]; exact h0) h1 (.refl _)
      refine ⟨⟨g1, right_ne_zero_of_mul g2.ne', g3, g4⟩, ?_⟩
      unfold headed
      rw [if_pos h0]
      rw [g6, hb.e] at g2
      exact g2)
    (fun s1 h0 h1 => by
      have h0' : 0 < (begun s tout task).cnt.nst := by rw [hb.cnt]; exact h0
      obtain ⟨h2, h3⟩ := (laterCall_ok (s := perfReset (begun s tout task)) h0').go _ h1
      have hC2 := ctlInv_micro hl hm hC1 (.perf (begun s tout task))
      have hr := ready_micros hl hm hC2 h0' h2 h3
      refine ⟨hr, ?_⟩
      have ho := (onward_micros hl hm hC2 h0' h2).2.dir
      unfold headed
      rw [if_neg (by omega)]
      have e : (perfReset (begun s tout task)).c.hh = s.c.hh := by
        show (begun s tout task).c.hh = _
        rw [hb.c]
      rw [e] at ho
      exact ho)
    (fun p k p' hI hat hp => by
      unfold solvePass at hp
      cases hpre : preStep (Cfg.newton P tol fuel) p k with
      | panic => rw [hpre] at hp; cases hp
      | diverge => rw [hpre] at hp; cases hp
      | ret s1 r1 => rw [hpre] at hp; cases hp
      | go s1 =>
        rw [hpre] at hp
        dsimp only at hp
        have h1 := ready_pre hm hI.1 hpre
        have e1 : s1.c.hh = p.c.hh := by
          have hc := preStep_cases (Cfg.newton P tol fuel) p k
          rw [hpre] at hc
          cases hc with
          | go _ _ h2 => rw [h2.c]
        cases hstep : step (Cfg.newton P tol fuel) s1 with
        | panic => rw [hstep] at hp; cases hp
        | diverge => rw [hstep] at hp; cases hp
        | ret s2 r2 =>
          rw [hstep] at hp
          cases r2 with
          | error e => exact absurd hp stepFailed_go
          | ok u =>
            dsimp only at hp
            rcases step_ctl hl hm h1.ne h1.max h1.within hstep with ⟨-, hD⟩ | ⟨e, he, -⟩
            · obtain ⟨h2, h3⟩ := (postStep_ok (step_nst hstep)).go _ hp
              have hC2 := ctlInv_done hm h1.inv h1.max h1.within hD
              refine ⟨ready_micros hl hm hC2 (step_nst hstep) h2 h3, ?_⟩
              have o1 := (onward_done hD).2.1
              rw [e1] at o1
              exact dir_trans (dir_trans hI.2 o1) (onward_micros hl hm hC2 (step_nst hstep) h2).2.dir
            · cases he)
    hS hL h
  have h1 := ready_pre hm hI hpre
  have e1 : p1.c.hh = p.c.hh := by
    have hc := preStep_cases (Cfg.newton P tol fuel) p k
    rw [hpre] at hc
    cases hc with
    | go _ _ h2 => rw [h2.c]
  obtain ⟨s1, c1, k1, k5, hf⟩ := step_any hn (CtlLoop (K := K) p1) (ctlLoop_init p1 h1.ne)
    (fun a f b f' ha hA => by
      obtain ⟨err, x, y, s5, s6, hR, hH, rfl⟩ := attempt_again' hl hA
      exact (ctlLoop_handled h1.within ha hR hH).of_reset _) hL1 hS1 hst
  refine ⟨s1.c.kk, s1.c.hh, leadCoef s1, k1, k5, ?_, hf, ?_⟩
  · rw [← e1] at hd
    refine dir_trans hd ?_
    rw [mul_comm]
    exact c1.hh.dir
  · exact FlCoef.lead_fac _ _ k1 _ c1.hh.ne

end
end Verif.FlControl
