import Verif.Props.Stop
import Verif.Props.FlControl

/-!
# Asking again for the time just reached (C109)

A caller that repeats `solve(tout, Normal)` after it has returned `Success` gets the same answer at no cost: no step is
taken, none of the user's functions is called, and the values of `get_yy`, `get_yp` and all other getters stay as they are.
Of the state only `perf` changes, the counter values `solve` notes at its beginning for its performance warnings (no
getter reads them).  The statement is about solvers without root functions: with root functions the second call looks for roots
again and may return `Root` (C77).
-/

set_option autoImplicit false
set_option linter.unusedSectionVars false
set_option linter.unusedSimpArgs false
set_option linter.unusedVariables false

namespace Verif.Props

open Verif Verif.Spec Verif.Witness

universe u v w

section
variable {ν : Type v} {n : Nat} {K : Type u} [Scalar K]

/-- What a successful call in normal mode leaves behind. -/
theorem success_leaves {q : Nat} {cfg : Cfg ν n q K} {rf sf : Nat} {s s1 : State ν n q K} {tout : K}
    (h : solve cfg rf sf s tout .normal = .ret s1 (.ok .success)) :
    s1.tretlast = tout ∧ s1.tret = tout ∧ s1.r.toutc = tout ∧ s1.r.taskc = .normal := by
  cases solve_outcome h with
  | rejected e h0 h1 h2 => cases h2
  | early h0 h1 =>
    have hb : Pending s tout .normal (perfReset (begun s tout .normal)) :=
      (begun_pending s tout .normal).quiet (by quiet_rfl)
    cases h1 with
    | close _ _ _ h2 => cases h2
    | root2 _ _ _ _ h2 => cases h2
    | root3 _ _ _ _ _ _ _ h2 => cases h2
    | pending _ _ _ ht _ _ _ _ h2 => cases ht
    | stop p h2 h3 _ =>
      have hp := hb.quiet (noRootBefore_frame h2).2
      cases stopTest1_cases h3 with
      | same he => exact ⟨rfl, rfl, hp.toutc rfl, hp.taskc⟩
      | reached s2 hg hsol =>
        have hq := hp.quiet (getSolution_quiet hsol)
        exact ⟨rfl, rfl, hq.toutc rfl, hq.taskc⟩
  | loop p k hI h1 =>
    cases h1 with
    | pre h2 => obtain ⟨h3 | h3, -⟩ := preStep_ret h2 <;> cases h3
    | failed s1 s2 e h2 h3 h4 => obtain ⟨h5, -⟩ := stepFailed_spec h4; cases h5
    | post s1 s2 h2 h3 h4 =>
      obtain ⟨hp, -⟩ := loopAt_step hI h2 h3
      cases h4 with
      | root _ _ _ _ h5 => cases h5
      | stop s3 h5 h6 h7 =>
        have hp3 := hp.quiet (noRootAfter_frame h5).2
        cases stopTest2_cases h6 with
        | reached s4 hg hsol =>
          obtain ⟨-, yy, yp, rfl⟩ := getSolution'_frame hsol
          exact ⟨rfl, rfl, hp3.toutc rfl, hp3.taskc⟩

theorem again_core {cfg : Cfg ν n 0 K} {rf sf : Nat} {s s1 : State ν n 0 K} {tout tret : K}
    (h : exec cfg rf sf s (.solve tout tret .normal) = some (s1, .solved (.ok .success)))
    (ht : Scalar.eqb tout tout = true) (hp : pastStop s1 = false) (rf' sf' : Nat) (tret' : K) :
    exec cfg rf' sf' s1 (.solve tout tret' .normal) = some (perfReset s1, .solved (.ok .success)) := by
  have h := exec_solve h
  obtain ⟨a1, a2, a3, a4⟩ := success_leaves h
  obtain ⟨-, hn, -⟩ := c35_normal_success cfg rf sf _ s1 tout h
  have hn : s1.cnt.nst ≠ 0 := Nat.pos_iff_ne_zero.1 hn
  have hb : perfReset (begun { s1 with tret := tret' } tout .normal) = { perfReset s1 with tret := tret' } := by
    have hr : s1.r = { s1.r with toutc := tout, taskc := .normal } := by
      rw [← a3, ← a4]
    show ({ perfReset s1 with tret := tret', r := { s1.r with toutc := tout, taskc := .normal } } : State ν n 0 K) = _
    rw [← hr]
    rfl
  have hst : stopTest1 (perfReset (begun { s1 with tret := tret' } tout .normal)) tout .normal
      = .ret (perfReset s1) (.ok .success) := by
    rw [hb]
    unfold stopTest1
    rw [show pastStop { perfReset s1 with tret := tret' } = false from hp]
    simp only [Bool.false_eq_true, if_false]
    rw [show ({ perfReset s1 with tret := tret' } : State ν n 0 K).tretlast = tout from a1, if_pos ht]
    have hz : s1 = s1.setTret tout := by
      unfold State.setTret
      rw [← a1]
      cases s1
      simp only at a1 a2
      rw [a1, a2]
    exact congrArg (fun z => Out.ret (perfReset z) (Except.ok Status.success)) hz.symm
  have hso : solve cfg rf' sf' { s1 with tret := tret' } tout .normal = .ret (perfReset s1) (.ok .success) := by
    rw [solve_eq, if_neg hn]
    unfold laterCall
    rw [if_neg (by simp)]
    simp only [hst]
    rfl
  unfold exec
  simp only [hso]

/-- **C109, any arithmetic.** No root functions, no stop time, `tout` equal to itself (not NaN): if `solve(tout, Normal)` has
returned `Success`, the same call again returns `Success` and changes nothing. -/
theorem c109_again (cfg : Cfg ν n 0 K) (rf sf : Nat) (s s1 : State ν n 0 K) (tout tret : K)
    (h : exec cfg rf sf s (.solve tout tret .normal) = some (s1, .solved (.ok .success)))
    (ht : Scalar.eqb tout tout = true) (hs : s1.tstop = none) (rf' sf' : Nat) (tret' : K) :
    ∃ p, exec cfg rf' sf' s1 (.solve tout tret' .normal) = some ({ s1 with perf := p }, .solved (.ok .success)) ∧
      s1.tret = tout :=
  ⟨_, again_core h ht (by unfold pastStop; rw [hs]) rf' sf' tret', (success_leaves (exec_solve h)).2.1⟩

end

section
variable {ν : Type v} {n : Nat} {K : Type u} [Field K] [LinearOrder K] [IsStrictOrderedRing K] [ExactParams K]
  [EpsLaws K]

/-- **C109, exact arithmetic.** No root functions, with or without stop time, any history. -/
theorem c109_again_exact (cfg : Cfg ν n 0 K) (hl : NlsLegal cfg) (hm : 0 ≤ cfg.hmaxInv) (rf sf : Nat)
    (s s1 : State ν n 0 K) (hs : Reach cfg s) (tout tret : K)
    (h : exec cfg rf sf s (.solve tout tret .normal) = some (s1, .solved (.ok .success))) (rf' sf' : Nat) (tret' : K) :
    ∃ p, exec cfg rf' sf' s1 (.solve tout tret' .normal) = some ({ s1 with perf := p }, .solved (.ok .success)) ∧
      s1.tret = tout := by
  obtain ⟨-, hn, -⟩ := c35_normal_success cfg rf sf _ s1 tout (exec_solve h)
  have hp := (c40_never_past cfg hl hm s1 (.call rf sf _ _ hs h)).2 hn
  refine ⟨_, again_core h (by simp) ?_ rf' sf' tret', (success_leaves (exec_solve h)).2.1⟩
  unfold pastStop
  split
  · rename_i ts hts
    have := hp ts hts
    simp only [ex_lt, decide_eq_false_iff_not, not_lt]
    exact this
  · rfl

end

section
variable {ν : Type w} {n : Nat} {F : Type u} {K : Type v} [Scalar F] [Field K] [LinearOrder K] [IsStrictOrderedRing K]
  [S : Correct F K]

/-- **C109, floating-point arithmetic** (correctly rounded).  No root functions, with or without stop time, any history. -/
theorem c109_again_float (cfg : Cfg ν n 0 F) (hl : NlsLegal cfg) (hm : 0 ≤ StdModel.val (K := K) cfg.hmaxInv)
    (rf sf : Nat) (s s1 : State ν n 0 F) (hs : Reach cfg s) (tout tret : F)
    (h : exec cfg rf sf s (.solve tout tret .normal) = some (s1, .solved (.ok .success))) (rf' sf' : Nat) (tret' : F) :
    ∃ p, exec cfg rf' sf' s1 (.solve tout tret' .normal) = some ({ s1 with perf := p }, .solved (.ok .success)) ∧
      s1.tret = tout := by
  obtain ⟨-, hn, -⟩ := c35_normal_success cfg rf sf _ s1 tout (exec_solve h)
  have hp := (c83_next_step (K := K) cfg hl hm s1 (.call rf sf _ _ hs h) hn).2.2.2
  refine ⟨_, again_core h ((StdModel.eq_iff (K := K) _ _).2 rfl) ?_ rf' sf' tret', (success_leaves (exec_solve h)).2.1⟩
  unfold pastStop
  split
  · rename_i ts hts
    have h1 := hp ts hts
    rw [← Bool.not_eq_true]
    intro h2
    have h2 : Scalar.lt 0 ((s1.e.tn - ts) * s1.c.hh) = true := h2
    rw [StdModel.lt_iff (K := K), StdModel.val_zero] at h2
    obtain ⟨c, hc, -, e1⟩ := FlControl.sub_sign (K := K) s1.e.tn ts
    obtain ⟨d, hd, -, -, e2⟩ := FlControl.mul_sign (K := K) (s1.e.tn - ts) s1.c.hh
    rw [e2, e1] at h2
    have h3 : (StdModel.val (K := K) s1.e.tn - StdModel.val (K := K) ts) * StdModel.val (K := K) s1.c.hh ≤ 0 := h1
    have h4 : (StdModel.val (K := K) s1.e.tn - StdModel.val (K := K) ts) * c * StdModel.val (K := K) s1.c.hh * d
        = (StdModel.val (K := K) s1.e.tn - StdModel.val (K := K) ts) * StdModel.val (K := K) s1.c.hh * (c * d) := by ring
    rw [h4] at h2
    exact absurd h2 (not_lt.2 (mul_nonpos_of_nonpos_of_nonneg h3 (mul_pos hc hd).le))
  · rfl

end

/-! ## Witnesses -/

/-- `limitCfg` with initial step size 1. -/
def unitCfg : Cfg Nat 1 0 (Bin 21) := { limitCfg with hin := Bin.of 1 }

/-- 22 bits, stop time 10: `solve(5, Normal)` returns `Success` after four steps; the second call takes none and leaves
`get_yy` as it is. -/
example : ∃ s1 s2, exec unitCfg 10 10 { okBin0 21 with tstop := some (Bin.of 10) } (.solve (Bin.of 5) 0 .normal)
      = some (s1, .solved (.ok .success)) ∧ s1.tstop.isSome = true ∧ getNumSteps s1 = 4 ∧ (getCurrentTime s1).v = 7 ∧
    exec unitCfg 3 0 s1 (.solve (Bin.of 5) 0 .normal) = some (s2, .solved (.ok .success)) ∧
    getNumSteps s2 = 4 ∧ s2.m.yy = s1.m.yy ∧ s2.m.log = s1.m.log := by
  obtain ⟨s1, r1, h1, h4⟩ := exec_one (cfg := unitCfg) (rf := 10) (sf := 10) (a := .solve (Bin.of 5) 0 .normal)
    (s := { okBin0 21 with tstop := some (Bin.of 10) })
    (P := fun s1 r1 => Res.isStatus .success r1 &&
      decide (s1.tstop.isSome = true ∧ getNumSteps s1 = 4 ∧ (getCurrentTime s1).v = 7))
    (by decide +kernel)
  simp only [Bool.and_eq_true, decide_eq_true_eq, Res.isStatus_iff] at h4
  obtain ⟨rfl, g1, g2, g3⟩ := h4
  have hm : (0 : ℚ) ≤ unitCfg.hmaxInv.v := (Bin.of_pos (by norm_num)).le
  obtain ⟨p, hp, -⟩ := c109_again_float (K := ℚ) unitCfg (okBin_legal 21 []) hm 10 10 _ s1
    (.new 0 _ _ (some (Bin.of 10))) _ _ h1 3 0 0
  exact ⟨s1, _, h1, g1, g2, g3, hp, g2, rfl, rfl⟩

end Verif.Props
