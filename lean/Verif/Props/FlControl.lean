import Verif.Proofs.FlDirection
import Verif.BinInst
import Verif.Witness
import Verif.Model.Io
import Verif.Props.Step

/-!
# Step control in floating-point arithmetic (C83, C84)

`F` is any correctly rounded floating-point arithmetic (`Spec/Correct.lean`), `♯a` is the number `a` represents and `μ` the unit
roundoff.  The arithmetic, square roots and powers of the step control are all those of `F`.
-/

set_option autoImplicit false
set_option linter.unusedSectionVars false

namespace Verif.Props

open Verif Verif.Spec

universe u v w

section
variable {ν : Type w} {n q : Nat} {F : Type u} {K : Type v} [Scalar F] [Field K] [LinearOrder K] [IsStrictOrderedRing K]
  [S : Correct F K]

local prefix:max "♯" => StdModel.val (F := F) (K := K)
local notation "μ" => (StdModel.u (F := F) (K := K))

/-! ## C83 -/

/-- **C83, accepted times.** In every history (failed steps included) the accepted times, most recent first, do not turn
back with respect to the direction of the current step; the most recent one is the current internal time, the last one the
starting time 0, and there is one more than accepted steps. -/
theorem c83_times_monotone (cfg : Cfg ν n q F) (hl : NlsLegal cfg) (hm : 0 ≤ ♯cfg.hmaxInv) (s : State ν n q F)
    (hs : Reach cfg s) (hn : 0 < getNumSteps s) :
    (s.g.acc.Pairwise fun a b => 0 ≤ (♯a.1 - ♯b.1) * ♯(getCurrentStep s)) ∧
    (∃ y rest, s.g.acc = (getCurrentTime s, y) :: rest) ∧ (∃ y0, s.g.acc.getLast? = some (0, y0)) ∧
    s.g.acc.length = getNumSteps s + 1 :=
  have h := FlControl.reach_ctl (K := K) hl hm hs
  ⟨h.chain, h.last hn, h.start hn, h.len hn⟩

/-- **C83, attempts.** In every history: every attempted step has a size different from zero and at most the configured
maximum up to two roundings; it ends at its start plus its size; it does not pass the stop time in force. -/
theorem c83_attempts (cfg : Cfg ν n q F) (hl : NlsLegal cfg) (hm : 0 ≤ ♯cfg.hmaxInv) (s : State ν n q F)
    (hs : Reach cfg s) (x : Att n F) (hx : x ∈ s.g.atts) :
    ♯x.hh ≠ 0 ∧ |♯x.hh| * ♯cfg.hmaxInv ≤ (1 + μ) / (1 - μ) ∧ x.tnew = x.t0 + x.hh ∧
      ∀ ts, x.stop = some ts → (♯x.tnew - ♯ts) * ♯x.hh ≤ 0 := by
  obtain ⟨h1, h2, h3, h4⟩ := (FlControl.reach_ctl (K := K) hl hm hs).atts x hx
  exact ⟨h1, h3, h2, h4⟩

/-- **C83, the next step.** In every history: the step planned next has the direction of the last one, at most twice its size
up to two roundings, at most the configured maximum up to two roundings, and the internal time has not passed the stop
time. -/
theorem c83_next_step (cfg : Cfg ν n q F) (hl : NlsLegal cfg) (hm : 0 ≤ ♯cfg.hmaxInv) (s : State ν n q F)
    (hs : Reach cfg s) (hn : 0 < getNumSteps s) :
    0 < ♯(getCurrentStep s) * ♯(getLastStep s) ∧
    |♯(getCurrentStep s)| ≤ 2 * (1 + μ) ^ 2 * |♯(getLastStep s)| ∧
    |♯(getCurrentStep s)| * ♯cfg.hmaxInv ≤ (1 + μ) / (1 - μ) ∧
    ∀ ts, s.tstop = some ts → (♯(getCurrentTime s) - ♯ts) * ♯(getCurrentStep s) ≤ 0 :=
  have h := FlControl.reach_ctl (K := K) hl hm hs
  ⟨h.used hn, h.grow hn, h.hmax hn, h.stop hn⟩

/-- **C83, later calls.** No public call changes the direction of integration, and accepted points are only added. -/
theorem c83_direction_kept (cfg : Cfg ν n q F) (hl : NlsLegal cfg) (hm : 0 ≤ ♯cfg.hmaxInv) (rf sf : Nat)
    (s s' : State ν n q F) (op : Op F) (r : Res n F) (hs : Reach cfg s) (hn : 0 < getNumSteps s)
    (h : exec cfg rf sf s op = some (s', r)) :
    0 < ♯(getCurrentStep s) * ♯(getCurrentStep s') ∧ ∃ l, s'.g.acc = l ++ s.g.acc :=
  ⟨(FlControl.exec_onward hl hm hs hn h).dir, (FlControl.exec_onward (K := K) hl hm hs hn h).acc⟩

/-- **C83, the first step.** The call in which the first step is accepted steps in the direction of its `tout`. -/
theorem c83_first_direction (cfg : Cfg ν n q F) (hl : NlsLegal cfg) (hm : 0 ≤ ♯cfg.hmaxInv) (rf sf : Nat)
    (s s' : State ν n q F) (tout tret : F) (task : Task) (r : Res n F) (hs : Reach cfg s) (hn : getNumSteps s = 0)
    (hn' : 0 < getNumSteps s') (h : exec cfg rf sf s (.solve tout tret task) = some (s', r)) :
    0 < ♯tout * ♯(getCurrentStep s') := by
  unfold exec at h
  simp only at h
  split at h
  · rename_i s1 r1 h1
    cases h
    have hC := FlControl.reach_ctl (K := K) hl hm hs
    have hC' : FlControl.CtlInv (K := K) cfg { s with tret := tret } :=
      hC.of_scale hm rfl rfl rfl rfl (Or.inl rfl) fun h0 => .refl (hC.ne h0)
    have := FlControl.solve_direction (K := K) hl hm hC' hn hn' h1
    have h0 : s.e.tn = 0 := (hC.zero hn).1
    rw [show ({ s with tret := tret } : State ν n q F).e.tn = s.e.tn from rfl, h0, StdModel.val_zero, sub_zero] at this
    exact this
  · cases h

/-! ## C84 -/

/-- **C84 (partial).** An attempted step whose size is not below the roundoff of its starting time moves the time in its own
direction.  Missing: steps below the roundoff, which need not move it (`c84_refuted`). -/
theorem c84_steps_advance_partial (cfg : Cfg ν n q F) (hl : NlsLegal cfg) (hm : 0 ≤ ♯cfg.hmaxInv) (s : State ν n q F)
    (hs : Reach cfg s) (x : Att n F) (hx : x ∈ s.g.atts) (hbig : μ * |♯x.t0| < (1 - μ) * |♯x.hh|) :
    0 < (♯x.tnew - ♯x.t0) * ♯x.hh := by
  obtain ⟨h1, h2, -, -⟩ := (FlControl.reach_ctl (K := K) hl hm hs).atts x hx
  obtain ⟨d, hd, e⟩ := StdModel.val_add (K := K) x.t0 x.hh
  rw [h2, e]
  have hu := StdModel.u_nonneg (F := F) (K := K)
  have hdd : |d * (♯x.t0 + ♯x.hh)| ≤ μ * (|♯x.t0| + |♯x.hh|) := by
    rw [abs_mul]; exact mul_le_mul hd (abs_add_le _ _) (abs_nonneg _) hu
  have hlt : |d * (♯x.t0 + ♯x.hh)| < |♯x.hh| := by linarith
  obtain ⟨b1, b2⟩ := abs_lt.1 hlt
  have e2 : (♯x.t0 + ♯x.hh) * (1 + d) - ♯x.t0 = ♯x.hh + d * (♯x.t0 + ♯x.hh) := by ring
  rw [e2]
  rcases lt_or_gt_of_ne h1 with hn | hp
  · rw [abs_of_neg hn] at b1 b2
    exact mul_pos_of_neg_of_neg (by linarith) hn
  · rw [abs_of_pos hp] at b1 b2
    exact mul_pos (by linarith) hp

end

/-! ## Witnesses -/

section witness

instance : Fact (4 ≤ 52) := ⟨by norm_num⟩
instance : Fact (4 ≤ 21) := ⟨by norm_num⟩

/-- The scalar problem `y' + y = 0` in binary floating point. -/
def decayBin (p : ℕ) : Problem 1 0 (Bin p) where
  res _ y yp _ := fun i => yp i + y i
  jac _ cj _ _ _ _ := fun _ _ => cj + 1
  root _ _ _ b := b

/-- A nonlinear solver that succeeds, or fails recoverably, as the table says. -/
def okBin (p : ℕ) (l : List Bool) : NlSolver Nat 1 (Bin p) where
  solve N _ m _ _ _ _ _ := .ret (N + 1) m (fun _ => 0)
    (if (l[N]?).getD true then .ok () else .error (.ida (.recoverableFail .lSolve)))
  numIters N := N

def okBinCfg (p : ℕ) (l : List Bool) : Cfg Nat 1 0 (Bin p) := Cfg.std (decayBin p) (fun _ _ _ => 1) (okBin p l)

def okBin0 (p : ℕ) : State Nat 1 0 (Bin p) := State.new 0 (fun _ => 1) (fun _ => -1)

theorem okBin_legal (p : ℕ) (l : List Bool) : NlsLegal (okBinCfg p l) := by
  intro N e m y0 y w tol call N' m' ee err h
  simp only [okBinCfg, Cfg.std, okBin] at h
  injection h with _ _ _ h
  split at h
  · cases h
  · cases h; simp [Err.fromNls]

/-- 22 bits, maximum step size `1 / rd(1/3)`, stop time 10: the theorems apply to this run.  Because of rounding the steps
of size 3 are larger than the maximum (`3 * rd(1/3) = 1 + 2^-23`); the step ending at the stop time is followed by others, since
the stop time is then forgotten. -/
def limitCfg : Cfg Nat 1 0 (Bin 21) := { okBinCfg 21 [] with hmaxInv := Bin.of (1 / 3) }

theorem limit_run : ((Witness.run limitCfg 10 10 (List.replicate 7 (.solve (Bin.of 1000) 0 .oneStep))
    { okBin0 21 with tstop := some (Bin.of 10) }).map fun p => p.1.g.atts.map fun x =>
      (x.t0.v, x.hh.v, x.tnew.v, x.hh.v * limitCfg.hmaxInv.v, x.stop.isSome)) =
    some [(13, 3, 16, 8388609 / 8388608, false), (10, 3, 13, 8388609 / 8388608, false), (7, 3, 10, 8388609 / 8388608, true),
      (4, 3, 7, 8388609 / 8388608, true), (2, 2, 4, 2796203 / 4194304, true), (1, 1, 2, 2796203 / 8388608, true), (0, 1, 1, 2796203 / 8388608, true)] := by
  decide +kernel

example : ∃ s, Reach limitCfg s ∧ 0 < getNumSteps s ∧ s.g.acc.length = 6 ∧
    (s.g.acc.Pairwise fun a b => 0 ≤ (a.1.v - b.1.v) * (getCurrentStep s).v) ∧
    |(getCurrentStep s).v| * limitCfg.hmaxInv.v ≤ (1 + (1 / 2) ^ 21) / (1 - (1 / 2) ^ 21) := by
  have hd : ((Witness.run limitCfg 10 10 (List.replicate 5 (.solve (Bin.of 1000) 0 .oneStep))
    { okBin0 21 with tstop := some (Bin.of 10) }).map fun p => decide (getNumSteps p.1 = 5)) = some true := by decide +kernel
  obtain ⟨s, l, hr, hp⟩ := Witness.run_witness (P := fun (s : State Nat 1 0 (Bin 21)) _ => decide (getNumSteps s = 5)) hd
  have hR : Reach limitCfg s := Witness.run_reach _ (.new 0 _ _ (some (Bin.of 10))) hr
  have h5 : getNumSteps s = 5 := of_decide_eq_true hp
  have hl : NlsLegal limitCfg := okBin_legal 21 []
  have hm : (0 : ℚ) ≤ limitCfg.hmaxInv.v := (Bin.of_pos (by norm_num)).le
  obtain ⟨h1, -, -, h4⟩ := c83_times_monotone (K := ℚ) limitCfg hl hm s hR (by omega)
  exact ⟨s, hR, by omega, by omega, h1, (c83_next_step (K := ℚ) limitCfg hl hm s hR (by omega)).2.2.1⟩

/-- A step that moves nothing: the solver fails nine times in a step, three times over, and twice in the next step. -/
def stuckScript : List Bool :=
  let nine := List.replicate 9 false
  [true, true] ++ nine ++ [true] ++ nine ++ [true] ++ nine ++ [true, false, false, true]

theorem stuck_run : ((Witness.run (okBinCfg 52 stuckScript) 10 10 (List.replicate 6 (.solve (Bin.of 1000) 0 .oneStep))
    (okBin0 52)).map fun p => p.2.all (Witness.Res.isStatus .success) && match p.1.g.atts with
      | x :: _ => decide (x.out = .accepted) && decide (x.tnew.v = x.t0.v) && decide (x.hh.v ≠ 0)
      | _ => false) = some true := by decide +kernel

/-- **C84: refutation.** With the precision of binary64 there is a history, all of whose calls return successfully, in which
the last accepted step has left the time where it was. -/
theorem c84_refuted : ∃ s : State Nat 1 0 (Bin 52), Reach (okBinCfg 52 stuckScript) s ∧
    ∃ x ∈ s.g.atts, x.out = .accepted ∧ x.hh.v ≠ 0 ∧ x.tnew.v = x.t0.v := by
  obtain ⟨s, l, hr, hp⟩ := Witness.run_witness (P := fun (s : State Nat 1 0 (Bin 52)) l =>
    l.all (Witness.Res.isStatus .success) && match s.g.atts with
      | x :: _ => decide (x.out = .accepted) && decide (x.tnew.v = x.t0.v) && decide (x.hh.v ≠ 0)
      | _ => false) stuck_run
  refine ⟨s, Witness.run_reach _ (.new 0 _ _ none) hr, ?_⟩
  rw [Bool.and_eq_true] at hp
  obtain ⟨-, hp⟩ := hp
  split at hp
  · rename_i x t hat
    simp only [Bool.and_eq_true, decide_eq_true_eq] at hp
    exact ⟨x, by rw [hat]; simp, hp.1.1, hp.2, hp.1.2⟩
  · cases hp

end witness

end Verif.Props
