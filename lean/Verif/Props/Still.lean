import Verif.Proofs.Still
import Verif.Props.AnswersFl

/-!
# C108: an equilibrium is kept exactly, whatever the rounding

`F` is any correctly rounded floating-point arithmetic (`Spec/Correct.lean`) and `♯a` is the number `a` represents.
-/

set_option autoImplicit false
set_option linter.unusedSectionVars false
set_option linter.unusedSimpArgs false
set_option linter.unusedVariables false

namespace Verif.Props

open Verif Verif.Spec Verif.Witness Verif.Equil

universe u v

section
variable {n q : Nat} {F : Type u} {K : Type v} [Scalar F] [Field K] [LinearOrder K] [IsStrictOrderedRing K] [S : Correct F K]

local prefix:max "♯" => StdModel.val (F := F) (K := K)

variable {P : Problem n q F} {tol : TolControl n F} {fuel : Nat} {y0 yp0 : Vec n F}

/-- **C108, the integration.** Newton stack, any system whose computed residual is zero at `y0` with derivatives zero,
started there.  In every sequence of calls every attempt is accepted with a correction of exactly zero, its solution has
exactly the values of `y0` and its derivatives are exactly zero; so have all accepted points; no error test fails and no
nonlinear solve fails. -/
theorem c108_attempts (hn : 0 < n) (hP : AtRest (K := K) P y0) (hp : ∀ i, ♯(yp0 i) = 0)
    (s : State (Newton (Vec n F)) n q F) (h : ReachFrom (Cfg.newton P tol fuel) y0 yp0 s) :
    (∀ x ∈ s.g.atts, x.out = .accepted ∧ (∀ i, ♯(x.ee i) = 0) ∧ (∀ i, ♯(x.yy i) = ♯(y0 i)) ∧ ∀ i, ♯(x.yp i) = 0) ∧
    (∀ p ∈ s.g.acc, ∀ i, ♯(p.2 i) = ♯(y0 i)) ∧
    getNumErrTestFails s = 0 ∧ getNumNonlinSolvConvFails s = 0 := by
  have hS := reach_still hP hn hp h
  have hc := h.reach.count (newton_legal P tol fuel)
  refine ⟨fun x hx => ⟨(hS.atts x hx).out, (hS.atts x hx).ee, (hS.atts x hx).yy, (hS.atts x hx).yp⟩, hS.acc, ?_, ?_⟩
  · show s.cnt.netf = 0
    rw [hc.netf, List.countP_eq_zero]
    intro x hx
    rw [(hS.atts x hx).out]
    simp
  · show s.cnt.ncfn = 0
    rw [hc.ncfn, List.countP_eq_zero]
    intro x hx
    unfold Att.nlsFailed
    rw [(hS.atts x hx).out]
    simp

/-- **C108, what the user reads.** After every sequence of calls (steps, interpolation, rootfinding), `get_yy` has exactly
the values of `y0` and `get_yp` is exactly zero. -/
theorem c108_output (hn : 0 < n) (hP : AtRest (K := K) P y0) (hp : ∀ i, ♯(yp0 i) = 0)
    (s : State (Newton (Vec n F)) n q F) (h : ReachFrom (Cfg.newton P tol fuel) y0 yp0 s) :
    (∀ i, ♯(getYy s i) = ♯(y0 i)) ∧ ∀ i, ♯(getYp s i) = 0 :=
  ⟨(reach_still hP hn hp h).yy, (reach_still hP hn hp h).yp⟩

/-- **C108, derivatives.** Every successful `get_dky(t, k)` returns exactly the values of `y0` for `k = 0`, and exactly zero
for `k ≥ 1`. -/
theorem c108_dky (hn : 0 < n) (hP : AtRest (K := K) P y0) (hp : ∀ i, ♯(yp0 i) = 0) (rf sf : Nat)
    (s s' : State (Newton (Vec n F)) n q F) (h : ReachFrom (Cfg.newton P tol fuel) y0 yp0 s) (t : F) (k : Nat) (d : Vec n F)
    (hx : exec (Cfg.newton P tol fuel) rf sf s (.getDky t k) = some (s', .dky (.ok d))) :
    ∀ i, ♯(d i) = if k = 0 then ♯(y0 i) else 0 := by
  have hS := reach_still hP hn hp h
  unfold exec at hx
  simp only at hx
  split at hx
  · rename_i s1 r h1
    cases hx
    have := hS.flat.dky h1
    intro i
    split
    · rename_i hk
      rw [if_pos hk] at this
      exact this i
    · rename_i hk
      rw [if_neg hk] at this
      exact this i
  · cases hx

/-- **C108, no failure.** No call reports a failed step. -/
theorem c108_no_failure (hn : 0 < n) (hP : AtRest (K := K) P y0) (hp : ∀ i, ♯(yp0 i) = 0) (rf sf : Nat)
    (s s' : State (Newton (Vec n F)) n q F) (op : Op F) (r : Res n F) (h : ReachFrom (Cfg.newton P tol fuel) y0 yp0 s)
    (hx : exec (Cfg.newton P tol fuel) rf sf s op = some (s', r)) :
    ∀ e, r = .solved (.error e) → e.isStepFailure = false := by
  have hS := reach_still hP hn hp h
  intro e he
  rcases exec_ends hx with ⟨r', hr, hend⟩ | ⟨hno, -⟩
  · rw [he] at hr
    cases hr
    cases hend with
    | clean hm hb => exact hb e rfl
    | failed s1 s2 e' hm hf _ _ => exact (still_no_fail hP hn (hm.inv (fun _ _ => still_micro hP hn) hS) hf).elim
  · exact absurd he (hno _)

end

/-! ## Concrete cases -/

/-- The capacity 1/10, rounded to 53 bits. -/
def tenth : Bin 52 := Bin.of (1 / 10)

/-- The logistic equation `y' = y (1/10 - y)`, computed with 53 bits. -/
def logistic : Problem 1 0 (Bin 52) where
  res _ y yp _ := fun i => yp i - y i * (tenth - y i)
  jac _ cj y _ _ _ := fun _ _ => cj - (tenth - (y 0 + y 0))
  root _ _ _ b := b

def logisticCfg : Cfg (Newton (Vec 1 (Bin 52))) 1 0 (Bin 52) := Cfg.newton logistic (.ss (Bin.of (1 / 1000)) (Bin.of (1 / 1000))) 3

theorem logistic_rest : AtRest (K := ℚ) logistic (fun _ => tenth) := by
  intro t y yp buf hy hyp i
  have h1 : StdModel.val (F := Bin 52) (K := ℚ) (tenth - y i) = 0 := by
    rw [Correct.sub_rd, hy i, sub_self]
    exact rd_zero
  show StdModel.val (F := Bin 52) (K := ℚ) (yp i - y i * (tenth - y i)) = 0
  rw [sub_null (null_mul h1)]
  exact hyp i

/-- The capacity is not the number 1/10, and it is kept to the last bit: two internal steps, then one call over many. -/
example : tenth.v ≠ 1 / 10 ∧ ∃ s : State (Newton (Vec 1 (Bin 52))) 1 0 (Bin 52),
    ReachFrom logisticCfg (fun _ => tenth) (fun _ => 0) s ∧ 3 ≤ getNumSteps s ∧ (getYy s 0).v = tenth.v ∧
    (getYp s 0).v = 0 ∧ getNumErrTestFails s = 0 := by
  refine ⟨by decide +kernel, ?_⟩
  obtain ⟨s1, r1, s2, r2, s3, r3, e1, e2, e3, h⟩ := exec_three (cfg := logisticCfg) (rf := 10) (sf := 20)
    (s := State.new newton0 (fun _ => tenth) (fun _ => 0)) (a := .solve (Bin.of 1) 0 .oneStep)
    (b := .solve (Bin.of 1) 0 .oneStep) (c := .solve (Bin.of (1 / 100)) 0 .normal)
    (P := fun _ _ _ _ s3 _ => decide (3 ≤ getNumSteps s3)) (by decide +kernel)
  have h0 : ReachFrom logisticCfg (fun _ => tenth) (fun _ => 0) (State.new newton0 (fun _ => tenth) (fun _ => 0)) := .new _ none
  have hR : ReachFrom logisticCfg (fun _ => tenth) (fun _ => 0) s3 :=
    .call 10 20 _ _ (.call 10 20 _ _ (.call 10 20 _ _ h0 e1) e2) e3
  have hz : ∀ i : Fin 1, StdModel.val (F := Bin 52) (K := ℚ) ((fun _ => 0 : Vec 1 (Bin 52)) i) = 0 := fun i => StdModel.val_zero
  have o := c108_output (K := ℚ) (by decide) logistic_rest hz s3 hR
  exact ⟨s3, hR, by simpa using h, o.1 0, o.2 0, (c108_attempts (K := ℚ) (by decide) logistic_rest hz s3 hR).2.2.1⟩

end Verif.Props
