import Verif.Proofs.SelectInv
import Verif.Witness
import Verif.Model.Io

/-!
# The choice of order and step size (C65)

`K` is any ordered field whose unit roundoff parameter is positive and below 1/1000 (`EpsLaws`): arithmetic is exact,
square root and power are arbitrary functions.  The rule itself is in `Spec/Select.lean`; it refers to nothing but the
recorded attempts: sizes, orders, weights, computed points and the points accepted before.

`ReachOk` are the histories in which no call reported a failed internal step; "one more call" then also covers the call
that reports such a failure.
-/

set_option autoImplicit false
set_option linter.unusedSectionVars false

namespace Verif.Props

open Verif Verif.Spec

universe u v

section
variable {ν : Type v} {n q : Nat} {K : Type u} [Field K] [LinearOrder K] [IsStrictOrderedRing K] [ExactParams K]
  [EpsLaws K]

theorem allChosen_split {cfg : Cfg ν n q K} {p r : List (Att n K)} {x : Att n K} (h : AllChosen cfg (p ++ x :: r)) :
    Chosen cfg r (planOf x) := by
  induction p with
  | nil => exact h.1
  | cons y p ih => exact ih h.2

/-- **C65.** One more call after a history without step failure: every attempt has the order and the step size
that the rule determines from the attempts before it; only a size chosen after an accepted step may be shortened to end
at the stop time. -/
theorem c65_attempts_chosen (cfg : Cfg ν n q K) (hl : NlsLegal cfg) (hm1 : 1 ≤ cfg.maxord) (hm : 0 ≤ cfg.hmaxInv)
    (rf sf : Nat) (s s' : State ν n q K) (op : Op K) (r : Res n K) (hs : ReachOk cfg s)
    (h : exec cfg rf sf s op = some (s', r)) (p l : List (Att n K)) (x y : Att n K) (hat : s'.g.atts = p ++ x :: y :: l) :
    x.kk = (choice cfg l y).1 ∧
    (x.hh = (choice cfg l y).2 ∨
      (y.out = .accepted ∧ ∃ ts, y.stop = some ts ∧ x.hh = (ts - x.t0) * (1 - 4 * ExactParams.eps))) := by
  have := exec_sel hl hm1 hm hs h
  rw [hat] at this
  exact allChosen_split this

/-- **C65, the first attempt** has order one. -/
theorem c65_first_attempt (cfg : Cfg ν n q K) (hl : NlsLegal cfg) (hm1 : 1 ≤ cfg.maxord) (hm : 0 ≤ cfg.hmaxInv)
    (rf sf : Nat) (s s' : State ν n q K) (op : Op K) (r : Res n K) (hs : ReachOk cfg s)
    (h : exec cfg rf sf s op = some (s', r)) (p : List (Att n K)) (x : Att n K) (hat : s'.g.atts = p ++ [x]) :
    x.kk = 1 := by
  have := exec_sel hl hm1 hm hs h
  rw [hat] at this
  exact allChosen_split this

/-- **C65, what the integrator announces.** After at least one step, `get_current_order` and `get_current_step`
are the order and size that the rule determines from the attempts made. -/
theorem c65_announced (cfg : Cfg ν n q K) (hl : NlsLegal cfg) (hm1 : 1 ≤ cfg.maxord) (hm : 0 ≤ cfg.hmaxInv)
    (s : State ν n q K) (hs : ReachOk cfg s) (hn : 0 < getNumSteps s) :
    ∃ y l, s.g.atts = y :: l ∧ y.out = .accepted ∧ getCurrentOrder s = (choice cfg l y).1 ∧
      (getCurrentStep s = (choice cfg l y).2 ∨
        ∃ ts, y.stop = some ts ∧ getCurrentStep s = (ts - getCurrentTime s) * (1 - 4 * ExactParams.eps)) := by
  have hF := hs.selFull hl hm1 hm
  obtain ⟨y, l, h1, h2, -⟩ := hF.full.ok.trace.last hn
  have := hF.sel.next hn
  rw [h1] at this
  refine ⟨y, l, h1, h2, this.1, ?_⟩
  rcases this.2 with h | ⟨-, h⟩
  · exact Or.inl h
  · exact Or.inr h

end

/-! ## A concrete history

Start-up phase (order up to 3), order lowered to 2, four steps of the same size, order raised to 3, a failed error test. -/

section
open Witness

/-- The corrections returned by the nonlinear solver. -/
def selectTab : List (ℚ × Except Err Unit) :=
  [(2, .ok ()), (1 / 100, .ok ()), (1 / 100, .ok ())] ++ List.replicate 7 (1 / 2, .ok ()) ++ [(5, .ok ())]

/-- Order, size and outcome of the attempts (most recent first), and the choices the rule makes after all but the last. -/
def selectRows (cfg : Cfg Nat 1 0 ℚ) : List (Att 1 ℚ) → List (Nat × ℚ × Bool × Option (Nat × ℚ))
  | [] => []
  | [x] => [(x.kk, x.hh, isAccepted x, none)]
  | x :: y :: l => (x.kk, x.hh, isAccepted x, some (choice cfg l y)) :: selectRows cfg (y :: l)

/-- The expected rows. -/
def selectExpected : List (Nat × ℚ × Bool × Option (Nat × ℚ)) :=
  [(3, 6921 / 1250, true, some (3, 6921 / 1250)), (3, 8, false, some (3, 8)), (3, 8, true, some (3, 8)),
    (3, 8, true, some (3, 8)), (2, 4, true, some (2, 4)), (2, 4, true, some (2, 4)), (2, 4, true, some (2, 4)),
    (2, 4, true, some (2, 4)), (3, 4, true, some (3, 4)), (2, 2, true, some (2, 2)), (1, 1, true, some (1, 1)),
    (1, 1, true, none)]

example : ∃ s, ReachOk (scriptCfg selectTab) s ∧ getNumSteps s = 11 ∧
    selectRows (scriptCfg selectTab) s.g.atts = selectExpected := by
  have hd : ((run (scriptCfg selectTab) 10 10 (steps 11) script0).map fun p =>
      !p.2.any Res.stepFailed && decide (getNumSteps p.1 = 11) &&
        decide (selectRows (scriptCfg selectTab) p.1.g.atts = selectExpected)) = some true := by decide +kernel
  obtain ⟨s, l, hr, hp⟩ := run_witness (P := fun (s : State Nat 1 0 ℚ) l => !l.any Res.stepFailed &&
    decide (getNumSteps s = 11) && decide (selectRows (scriptCfg selectTab) s.g.atts = selectExpected)) hd
  simp only [Bool.and_eq_true, Bool.not_eq_true', decide_eq_true_eq] at hp
  exact ⟨s, run_reachOk _ (.new 0 (fun _ => 1) (fun _ => -1) none) hr hp.1.1, hp.1.2, hp.2⟩

end

end Verif.Props
